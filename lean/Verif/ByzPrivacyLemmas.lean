import Verif.ByzPrivacy
import Verif.PrivacyShift
import Verif.PrivacyRtLemmas

/-!
# Lemmas for `Props/ByzPrivacy.lean`

Two executions with the same messages, in which the results differ by `h`.
-/

open Polynomial

namespace Verif

open CodeField (ofU32)

section
variable {O : Type}

/-- The states of two tasks which do the same, with results which differ by `h`. -/
def LocRel (h : O → O) (t t' : TState O) : Prop := t'.erase = t.erase ∧ ∀ o, t = .done o → t' = .done (h o)

theorem LocRel.cases {h : O → O} {t t' : TState O} (r : LocRel h t t') :
    (t = .idle ∧ t' = .idle) ∨ (∃ l, t = .sending l ∧ t' = .sending l) ∨ (∃ g, t = .gather g ∧ t' = .gather g) ∨
      (∃ l, t = .reply l ∧ t' = .reply l) ∨ (t = .wait ∧ t' = .wait) ∨ (∃ o, t = .done o ∧ t' = .done (h o)) ∨ (t = .fail ∧ t' = .fail) := by
  obtain ⟨e, d⟩ := r
  cases t <;> cases t' <;> simp_all [TState.erase]

theorem LocRel.refl {h : O → O} {t : TState O} (ht : ∀ o, t ≠ .done o) : LocRel h t t := ⟨rfl, fun o e => absurd e (ht o)⟩

theorem LocRel.done {h : O → O} (o : O) : LocRel h (.done o) (.done (h o)) := ⟨rfl, fun o' e => by cases e; rfl⟩

/-- Two states with the same messages. -/
structure SysRel (h : Nat → Nat → O → O) (s s' : Sys O) : Prop where
  loc : ∀ p j, LocRel (h p j) (s.loc p j) (s'.loc p j)
  chan : s'.chan = s.chan
  inbox : s'.inbox = s.inbox
  sent : s'.sent = s.sent
  got : s'.got = s.got

theorem SysRel.start (h : Nat → Nat → O → O) : SysRel h Sys.start Sys.start :=
  ⟨fun _ _ => LocRel.refl (by intro o; simp [Sys.start]), rfl, rfl, rfl, rfl⟩

theorem SysRel.erase {h : Nat → Nat → O → O} {s s' : Sys O} (r : SysRel h s s') : s'.erase = s.erase := by
  unfold Sys.erase
  rw [r.chan, r.inbox, r.sent, r.got]
  congr 1
  funext p j
  exact (r.loc p j).1

theorem SysRel.env {h : Nat → Nat → O → O} {s s' : Sys O} (r : SysRel h s s') (p j : Nat) : s'.env p j = (s.env p j).map (h p j) := by
  unfold Sys.env
  rcases (r.loc p j).cases with ⟨a, b⟩ | ⟨_, a, b⟩ | ⟨_, a, b⟩ | ⟨_, a, b⟩ | ⟨a, b⟩ | ⟨_, a, b⟩ | ⟨a, b⟩ <;> rw [a, b] <;> rfl

theorem SysRel.setLoc {h : Nat → Nat → O → O} {s s' : Sys O} (r : SysRel h s s') {p j : Nat} {t t' : TState O} (ht : LocRel (h p j) t t')
    (a b : Nat) : LocRel (h a b) (setLoc s.loc p j t a b) (setLoc s'.loc p j t' a b) := by
  unfold Verif.setLoc
  split_ifs with hab
  · obtain ⟨rfl, rfl⟩ := hab
    exact ht
  · exact r.loc a b

theorem LocRel.orFail {h : O → O} {α : Type} {a : Option α} {k k' : α → TState O} (hk : ∀ x, LocRel h (k x) (k' x)) :
    LocRel h (orFail a k) (orFail a k') := by
  cases a with
  | none => exact LocRel.refl (by intro o; simp [Verif.orFail])
  | some x => exact hk x

theorem LocRel.orFail_done {h : O → O} (a : Option O) : LocRel h (Verif.orFail a .done) (Verif.orFail (a.map h) .done) := by
  cases a with
  | none => exact LocRel.refl (by intro o; simp [Verif.orFail])
  | some x => exact LocRel.done x

/-- Two instances of a protocol which send the same at party `p`, with results which differ by `h`. -/
structure ProtoRel (h : O → O) (p : Nat) (P P' : Proto O) (env env' : Env O) : Prop where
  leader : P'.leader = P.leader
  sends : P'.sends p env' = P.sends p env
  answer : ∀ ms, P.leader = some p → P'.answer env' ms = P.answer env ms
  finish : ∀ ms, P'.finish p env' ms = (P.finish p env ms).map h

/-- Two results of a step. -/
def OptRel (h : Nat → Nat → O → O) : Option (Sys O) → Option (Sys O) → Prop
  | none, none => True
  | some s, some s' => SysRel h s s'
  | _, _ => False

/-- A leader answers only where it gathers. -/
def LeadOk (jobs : List (Job O)) (s : Sys O) : Prop :=
  ∀ p j job, jobs[j]? = some job → (∃ g, s.loc p j = .gather g) → job.proto.gathers p = true

theorem actStep_rel {n : Nat} {h : Nat → Nat → O → O} {s s' : Sys O} (r : SysRel h s s') (p j : Nat) (job job' : Job O) (hid : job'.id = job.id)
    (hdeps : job'.deps = job.deps) (hg : (∃ g, s.loc p j = .gather g) → job.proto.gathers p = true)
    (hp : job.ready (s.env p) = true →
      ProtoRel (h p j) p job.proto job'.proto ((s.env p).only job.deps) ((s'.env p).only job.deps)) :
    OptRel h (s.actStep n p j job) (s'.actStep n p j job') := by
  have hready : job'.ready (s'.env p) = job.ready (s.env p) := by
    unfold Job.ready
    rw [hdeps]
    congr 1
    funext d
    rw [r.env]
    simp
  unfold Sys.actStep
  rw [hready]
  by_cases hr : job.ready (s.env p) = true
  swap
  · rw [if_neg hr, if_neg hr]
    trivial
  rw [if_pos hr, if_pos hr]
  have P := hp hr
  rw [hdeps]
  -- the steps
  have hsend : ∀ (dest : Recipient) (data : List Nat) (t : TState O), LocRel (h p j) t t →
      OptRel h (if dest.known n then
        some { s with
          loc := setLoc s.loc p j t
          chan := fun a b => if a = p ∧ dest.includes b then s.chan a b ++ [⟨j, ⟨job.id, p, data⟩⟩] else s.chan a b
          sent := fun i a b => if i = j ∧ a = p ∧ dest.includes b then s.sent i a b ++ [data] else s.sent i a b }
      else none) (if dest.known n then
        some { s' with
          loc := setLoc s'.loc p j t
          chan := fun a b => if a = p ∧ dest.includes b then s'.chan a b ++ [⟨j, ⟨job'.id, p, data⟩⟩] else s'.chan a b
          sent := fun i a b => if i = j ∧ a = p ∧ dest.includes b then s'.sent i a b ++ [data] else s'.sent i a b }
      else none) := by
    intro dest data t ht
    by_cases hk : dest.known n = true
    · rw [if_pos hk, if_pos hk]
      exact ⟨r.setLoc ht, by simp only [r.chan, hid], r.inbox, by simp only [r.sent], r.got⟩
    · rw [if_neg hk, if_neg hk]
      trivial
  have htau : ∀ t t' : TState O, LocRel (h p j) t t' →
      OptRel h (some { s with loc := setLoc s.loc p j t }) (some { s' with loc := setLoc s'.loc p j t' }) :=
    fun t t' ht => ⟨r.setLoc ht, r.chan, r.inbox, r.sent, r.got⟩
  have hrecv : ∀ k k' : RMsg → TState O, (∀ m, LocRel (h p j) (k m) (k' m)) →
      OptRel h (match takeFirst job.id (s.inbox p) with
        | none => none
        | some (m, rest) => some { s with
            loc := setLoc s.loc p j (k m.msg)
            inbox := Function.update s.inbox p rest
            got := Function.update s.got p (s.got p ++ [(j, m)]) })
        (match takeFirst job'.id (s'.inbox p) with
        | none => none
        | some (m, rest) => some { s' with
            loc := setLoc s'.loc p j (k' m.msg)
            inbox := Function.update s'.inbox p rest
            got := Function.update s'.got p (s'.got p ++ [(j, m)]) }) := by
    intro k k' hk
    rw [hid, r.inbox]
    cases takeFirst job.id (s.inbox p) with
    | none => trivial
    | some m => exact ⟨r.setLoc (hk _), r.chan, rfl, r.sent, by simp only [r.got]⟩
  have hgath : job'.proto.gathers p = job.proto.gathers p := by
    unfold Proto.gathers
    rw [P.leader]
  rcases (r.loc p j).cases with ⟨a, b⟩ | ⟨l, a, b⟩ | ⟨g, a, b⟩ | ⟨l, a, b⟩ | ⟨a, b⟩ | ⟨o, a, b⟩ | ⟨a, b⟩ <;> rw [a, b]
  · simp only [Proto.act]
    rw [P.sends]
    exact htau _ _ (LocRel.orFail fun x => LocRel.refl (by intro o; simp))
  · cases l with
    | nil =>
      simp only [Proto.act]
      rw [hgath]
      refine htau _ _ (LocRel.refl ?_)
      intro o
      split_ifs <;> simp
    | cons x rest =>
      simp only [Proto.act]
      exact hsend _ _ _ (LocRel.refl (by intro o; simp))
  · simp only [Proto.act]
    by_cases hn : g.counter = n
    · rw [if_pos hn, if_pos hn, P.leader]
      cases hL : job.proto.leader with
      | none =>
        simp only
        rw [P.finish]
        exact htau _ _ (LocRel.orFail_done _)
      | some L =>
        have : L = p := by
          have := hg ⟨g, a⟩
          unfold Proto.gathers at this
          rw [hL] at this
          simp only [decide_eq_true_eq] at this
          exact this.symm
        subst this
        simp only
        rw [P.answer _ hL]
        exact htau _ _ (LocRel.orFail fun x => LocRel.refl (by intro o; simp))
    · rw [if_neg hn, if_neg hn]
      exact hrecv (fun m => orFail (g.step m) fun g => .gather g) (fun m => orFail (g.step m) fun g => .gather g)
        fun m => LocRel.orFail fun x => LocRel.refl (by intro o; simp)
  · cases l with
    | nil =>
      simp only [Proto.act]
      exact htau _ _ (LocRel.refl (by intro o; simp))
    | cons x rest =>
      simp only [Proto.act]
      exact hsend _ _ _ (LocRel.refl (by intro o; simp))
  · simp only [Proto.act]
    refine hrecv (fun m => orFail (job.proto.finish p ((s.env p).only job.deps) [m.data]) fun o => .done o)
      (fun m => orFail (job'.proto.finish p ((s'.env p).only job.deps) [m.data]) fun o => .done o) fun m => ?_
    simp only [P.finish]
    exact LocRel.orFail_done _
  · simp only [Proto.act]
    trivial
  · simp only [Proto.act]
    trivial

theorem byzStep_rel {n : Nat} {jobs jobs' : List (Job O)} {Cs : Finset Nat} {h : Nat → Nat → O → O} {s s' : Sys O} (r : SysRel h s s')
    (hlen : jobs'.length = jobs.length)
    (hsame : ∀ (j : Nat) (job job' : Job O), jobs[j]? = some job → jobs'[j]? = some job' → job'.id = job.id ∧ job'.deps = job.deps)
    (hlead : LeadOk jobs s)
    (hp : ∀ (p j : Nat) (job job' : Job O), p < n → p ∉ Cs → jobs[j]? = some job → jobs'[j]? = some job' → job.ready (s.env p) = true →
      ProtoRel (h p j) p job.proto job'.proto ((s.env p).only job.deps) ((s'.env p).only job.deps))
    (e : ByzStep) : OptRel h (s.byzStep n jobs Cs e) (s'.byzStep n jobs' Cs e) := by
  cases e with
  | sys e =>
    cases e with
    | act p j =>
      simp only [Sys.byzStep]
      by_cases hC : p ∈ Cs
      · rw [if_pos hC, if_pos hC]
        trivial
      rw [if_neg hC, if_neg hC]
      simp only [Sys.step]
      by_cases hn : p < n
      swap
      · rw [if_neg hn, if_neg hn]
        trivial
      rw [if_pos hn, if_pos hn]
      cases hj : jobs[j]? with
      | none =>
        have : jobs'[j]? = none := by
          rw [List.getElem?_eq_none_iff] at hj ⊢
          omega
        rw [this]
        trivial
      | some job =>
        obtain ⟨job', hj'⟩ : ∃ job', jobs'[j]? = some job' := by
          have := (List.getElem?_eq_some_iff.1 hj).1
          exact ⟨_, List.getElem?_eq_getElem (by omega)⟩
        rw [hj']
        obtain ⟨h1, h2⟩ := hsame j job job' hj hj'
        exact actStep_rel r p j job job' h1 h2 (hlead p j job hj) (hp p j job job' hn hC hj hj')
    | deliver p q =>
      simp only [Sys.byzStep, Sys.step]
      by_cases hn : p < n ∧ q < n
      swap
      · rw [if_neg hn, if_neg hn]
        trivial
      rw [if_pos hn, if_pos hn, r.chan]
      cases s.chan p q with
      | nil => trivial
      | cons m rest => exact ⟨r.loc, by simp only [r.chan], by simp only [r.inbox], r.sent, r.got⟩
  | inject p q id data =>
    simp only [Sys.byzStep]
    by_cases hc : p ∈ Cs ∧ p < n ∧ q < n
    · rw [if_pos hc, if_pos hc]
      exact ⟨r.loc, by simp only [r.chan, hlen], r.inbox, r.sent, r.got⟩
    · rw [if_neg hc, if_neg hc]
      trivial

/-- What a step does to the tasks. -/
theorem byzStep_loc {n : Nat} {jobs : List (Job O)} {Cs : Finset Nat} {s t : Sys O} {e : ByzStep} (he : s.byzStep n jobs Cs e = some t) (p j : Nat) :
    t.loc p j = s.loc p j ∨ ∃ job next, jobs[j]? = some job ∧ p ∉ Cs ∧ p < n ∧ t.loc p j = next ∧
      ((∃ d m, job.proto.act n p ((s.env p).only job.deps) (s.loc p j) = .send d m next) ∨
        (∃ k m, job.proto.act n p ((s.env p).only job.deps) (s.loc p j) = .recv k ∧ next = k m) ∨
        job.proto.act n p ((s.env p).only job.deps) (s.loc p j) = .tau next) := by
  cases e with
  | sys e =>
    cases e with
    | act a b =>
      simp only [Sys.byzStep] at he
      by_cases hC : a ∈ Cs
      · rw [if_pos hC] at he
        cases he
      rw [if_neg hC] at he
      simp only [Sys.step] at he
      by_cases hn : a < n
      swap
      · rw [if_neg hn] at he
        cases he
      rw [if_pos hn] at he
      cases hj : jobs[b]? with
      | none =>
        rw [hj] at he
        cases he
      | some job =>
        rw [hj] at he
        simp only at he
        unfold Sys.actStep at he
        by_cases hr : job.ready (s.env a) = true
        swap
        · rw [if_neg hr] at he
          cases he
        rw [if_pos hr] at he
        by_cases hab : p = a ∧ j = b
        swap
        · left
          cases hact : job.proto.act n a ((s.env a).only job.deps) (s.loc a b) with
          | send d m next =>
            rw [hact] at he
            simp only at he
            by_cases hk : d.known n = true
            · rw [if_pos hk] at he
              cases he
              simp only [setLoc, if_neg hab]
            · rw [if_neg hk] at he
              cases he
          | recv k =>
            rw [hact] at he
            simp only at he
            cases ht : takeFirst job.id (s.inbox a) with
            | none =>
              rw [ht] at he
              cases he
            | some m =>
              rw [ht] at he
              cases he
              simp only [setLoc, if_neg hab]
          | tau next =>
            rw [hact] at he
            cases he
            simp only [setLoc, if_neg hab]
          | stop =>
            rw [hact] at he
            cases he
        · obtain ⟨rfl, rfl⟩ := hab
          right
          refine ⟨job, _, hj, hC, hn, rfl, ?_⟩
          cases hact : job.proto.act n p ((s.env p).only job.deps) (s.loc p j) with
          | send d m next =>
            rw [hact] at he
            simp only at he
            by_cases hk : d.known n = true
            · rw [if_pos hk] at he
              cases he
              left
              exact ⟨d, m, by simp [setLoc]⟩
            · rw [if_neg hk] at he
              cases he
          | recv k =>
            rw [hact] at he
            simp only at he
            cases ht : takeFirst job.id (s.inbox p) with
            | none =>
              rw [ht] at he
              cases he
            | some m =>
              rw [ht] at he
              cases he
              right; left
              exact ⟨k, m.1.msg, rfl, by simp [setLoc]⟩
          | tau next =>
            rw [hact] at he
            cases he
            right; right
            simp [setLoc]
          | stop =>
            rw [hact] at he
            cases he
    | deliver a b =>
      left
      simp only [Sys.byzStep, Sys.step] at he
      by_cases hn : a < n ∧ b < n
      swap
      · rw [if_neg hn] at he
        cases he
      rw [if_pos hn] at he
      cases hc : s.chan a b with
      | nil =>
        rw [hc] at he
        cases he
      | cons m rest =>
        rw [hc] at he
        cases he
        rfl
  | inject a b id data =>
    left
    simp only [Sys.byzStep] at he
    by_cases hc : a ∈ Cs ∧ a < n ∧ b < n
    · rw [if_pos hc] at he
      cases he
      rfl
    · rw [if_neg hc] at he
      cases he

/-- A task which has ended keeps its result. -/
theorem byzStep_done {n : Nat} {jobs : List (Job O)} {Cs : Finset Nat} {s t : Sys O} {e : ByzStep} (he : s.byzStep n jobs Cs e = some t) {p j : Nat}
    {o : O} (ho : s.loc p j = .done o) : t.loc p j = .done o := by
  rcases byzStep_loc he p j with h | ⟨job, next, _, _, _, _, h⟩
  · rw [h, ho]
  · rw [ho] at h
    simp only [Proto.act] at h
    rcases h with ⟨_, _, h⟩ | ⟨_, _, h, _⟩ | h <;> cases h

theorem orFail_gather {α : Type} {a : Option α} {k : α → TState O} {g : Gather} (h : orFail a k = .gather g) : ∃ x, k x = .gather g := by
  cases a with
  | none => cases h
  | some x => exact ⟨x, h⟩

theorem orFail_done {α : Type} {a : Option α} {k : α → TState O} {o : O} (h : orFail a k = .done o) : ∃ x, k x = .done o := by
  cases a with
  | none => cases h
  | some x => exact ⟨x, h⟩

theorem byzStep_lead {n : Nat} {jobs : List (Job O)} {Cs : Finset Nat} {s t : Sys O} {e : ByzStep} (he : s.byzStep n jobs Cs e = some t)
    (h : LeadOk jobs s) : LeadOk jobs t := by
  intro p j job hj ⟨g, hg⟩
  rcases byzStep_loc he p j with h' | ⟨job', next, hj', _, _, hn, h'⟩
  · exact h p j job hj ⟨g, h' ▸ hg⟩
  · rw [hj] at hj'
    cases hj'
    rw [hg] at hn
    subst hn
    cases hl : s.loc p j with
    | idle =>
      rw [hl] at h'
      simp only [Proto.act] at h'
      rcases h' with ⟨_, _, h'⟩ | ⟨_, _, h', _⟩ | h'
      · cases h'
      · cases h'
      · obtain ⟨x, hx⟩ := orFail_gather (Act.tau.inj h')
        cases hx
    | sending l =>
      rw [hl] at h'
      cases l with
      | nil =>
        simp only [Proto.act] at h'
        by_cases hgp : job.proto.gathers p = true
        · exact hgp
        · rw [if_neg hgp] at h'
          rcases h' with ⟨_, _, h'⟩ | ⟨_, _, h', _⟩ | h' <;> cases h'
      | cons x rest =>
        simp only [Proto.act] at h'
        rcases h' with ⟨_, _, h'⟩ | ⟨_, _, h', _⟩ | h' <;> cases h'
    | gather g' => exact h p j job hj ⟨g', hl⟩
    | reply l =>
      rw [hl] at h'
      cases l with
      | nil =>
        simp only [Proto.act] at h'
        rcases h' with ⟨_, _, h'⟩ | ⟨_, _, h', _⟩ | h' <;> cases h'
      | cons x rest =>
        simp only [Proto.act] at h'
        rcases h' with ⟨_, _, h'⟩ | ⟨_, _, h', _⟩ | h' <;> cases h'
    | wait =>
      rw [hl] at h'
      simp only [Proto.act] at h'
      rcases h' with ⟨_, _, h'⟩ | ⟨k, m, h', hk⟩ | h'
      · cases h'
      · cases h'
        obtain ⟨x, hx⟩ := orFail_gather hk.symm
        cases hx
      · cases h'
    | done o =>
      rw [hl] at h'
      simp only [Proto.act] at h'
      rcases h' with ⟨_, _, h'⟩ | ⟨_, _, h', _⟩ | h' <;> cases h'
    | fail =>
      rw [hl] at h'
      simp only [Proto.act] at h'
      rcases h' with ⟨_, _, h'⟩ | ⟨_, _, h', _⟩ | h' <;> cases h'

variable (n : Nat) (jobs : List (Job O)) (Cs : Finset Nat) (strat : List (Sys Unit) → ByzStep)

theorem play_lead (N : Nat) : LeadOk jobs (Sys.play n jobs Cs strat N).2 := by
  induction N with
  | zero =>
    intro p j job _ ⟨g, hg⟩
    cases hg
  | succ N ih =>
    simp only [Sys.play]
    generalize Sys.play n jobs Cs strat N = r at ih ⊢
    cases he : r.2.byzStep n jobs Cs (strat (r.1 ++ [r.2.erase])) with
    | none => exact ih
    | some t => exact byzStep_lead he ih

theorem play_done {N : Nat} {p j : Nat} {o : O} (h : (Sys.play n jobs Cs strat N).2.loc p j = .done o) {M : Nat} (hM : N ≤ M) :
    (Sys.play n jobs Cs strat M).2.loc p j = .done o := by
  induction M, hM using Nat.le_induction with
  | base => exact h
  | succ M _ ih =>
    simp only [Sys.play]
    generalize Sys.play n jobs Cs strat M = r at ih ⊢
    cases he : r.2.byzStep n jobs Cs (strat (r.1 ++ [r.2.erase])) with
    | none => exact ih
    | some t => exact byzStep_done he ih

open Classical in
/-- The results which the parties get at any time. -/
noncomputable def finalEnv (p j : Nat) : Option O :=
  if h : ∃ o N, (Sys.play n jobs Cs strat N).2.loc p j = .done o then some h.choose else none

theorem finalEnv_eq (p j : Nat) (o : O) :
    finalEnv n jobs Cs strat p j = some o ↔ ∃ N, (Sys.play n jobs Cs strat N).2.loc p j = .done o := by
  unfold finalEnv
  constructor
  · intro h
    split_ifs at h with hx
    cases h
    exact hx.choose_spec
  · rintro ⟨N, hN⟩
    have hx : ∃ o N, (Sys.play n jobs Cs strat N).2.loc p j = .done o := ⟨o, N, hN⟩
    rw [dif_pos hx]
    obtain ⟨M, hM⟩ := hx.choose_spec
    have h1 := play_done n jobs Cs strat hM (Nat.le_max_left M N)
    have h2 := play_done n jobs Cs strat hN (Nat.le_max_right M N)
    rw [h1] at h2
    exact congrArg some (TState.done.inj h2)

theorem finalEnv_env {N p j : Nat} {o : O} (h : (Sys.play n jobs Cs strat N).2.env p j = some o) : finalEnv n jobs Cs strat p j = some o := by
  rw [finalEnv_eq]
  refine ⟨N, ?_⟩
  unfold Sys.env at h
  cases hl : (Sys.play n jobs Cs strat N).2.loc p j <;> rw [hl] at h <;> cases h
  rfl

/-- A job which is ready sees the final results. -/
theorem finalEnv_only {N p : Nat} {job : Job O} (h : job.ready ((Sys.play n jobs Cs strat N).2.env p) = true) :
    ((Sys.play n jobs Cs strat N).2.env p).only job.deps = Env.only (finalEnv n jobs Cs strat p) job.deps := by
  funext d
  unfold Env.only
  by_cases hd : d ∈ job.deps
  · rw [if_pos hd, if_pos hd]
    have := List.all_eq_true.1 h d hd
    obtain ⟨o, ho⟩ := Option.isSome_iff_exists.1 this
    rw [ho, finalEnv_env n jobs Cs strat ho]
  · rw [if_neg hd, if_neg hd]

end

variable {F : Type} [CodeField F] [DecidableEq F]

/-- Which changes of the coins of run `k` make up for different inputs `x` and `x'`, if the results with `x` are `E`: the differences of the inputs of
run `k`. -/
noncomputable def rdDiff (ctx : Ctx F) (Cs : Finset Nat) (deps : Nat → List Nat) (num : Nat → Nat) (x x' : Nat → Nat → Env (List F) → List F)
    (E : Nat → Env (List F)) (k : Nat) : Nat → Nat → F := fun j p =>
  if p ∈ Cs then 0 else (x k p ((E p).only (deps k))).getD j 0 -
    (x' k p (fun m => if _ : m < k then if m ∈ deps k then (E p m).map fun o => vsub o ((List.range (num m)).map fun i =>
      (rdShift ctx Cs (rdDiff ctx Cs deps num x x' E m i)).eval (ofU32 p)) else none else none)).getD j 0
termination_by k

/-- The change of the results of run `m` at party `p`. -/
noncomputable def rdMove (ctx : Ctx F) (Cs : Finset Nat) (num : Nat → Nat) (d : Nat → Nat → Nat → F) (p m : Nat) (o : List F) : List F :=
  vsub o ((List.range (num m)).map fun i => (rdShift ctx Cs (d m i)).eval (ofU32 p))

/-- The differences fit to the inputs. -/
def DiffEq (ctx : Ctx F) (Cs : Finset Nat) (deps : Nat → List Nat) (num : Nat → Nat) (x x' : Nat → Nat → Env (List F) → List F)
    (E : Nat → Env (List F)) (d : Nat → Nat → Nat → F) (k : Nat) : Prop :=
  ∀ j p, d k j p = if p ∈ Cs then 0 else (x k p ((E p).only (deps k))).getD j 0 -
    (x' k p (Env.only (fun m => (E p m).map (rdMove ctx Cs num d p m)) (deps k))).getD j 0

theorem rdDiff_eq (ctx : Ctx F) (Cs : Finset Nat) (deps : Nat → List Nat) (num : Nat → Nat) (x x' : Nat → Nat → Env (List F) → List F)
    (E : Nat → Env (List F)) (k : Nat) (hk : ∀ m ∈ deps k, m < k) :
    DiffEq ctx Cs deps num x x' E (rdDiff ctx Cs deps num x x' E) k := by
  intro j p
  rw [rdDiff]
  congr 4
  funext m
  unfold Env.only rdMove
  by_cases hm : m ∈ deps k
  · rw [dif_pos (hk m hm), if_pos hm]
  · rw [if_neg hm]
    split_ifs <;> rfl

/-- There is only one solution. -/
theorem DiffEq.unique {ctx : Ctx F} {Cs : Finset Nat} {deps : Nat → List Nat} {num : Nat → Nat} {x x' : Nat → Nat → Env (List F) → List F}
    {E : Nat → Env (List F)} {K : Nat} (hk : ∀ k < K, ∀ m ∈ deps k, m < k) {d d' : Nat → Nat → Nat → F}
    (h : ∀ k < K, DiffEq ctx Cs deps num x x' E d k) (h' : ∀ k < K, DiffEq ctx Cs deps num x x' E d' k) : ∀ k < K, d k = d' k := by
  intro k
  induction k using Nat.strong_induction_on with
  | _ k ih =>
    intro hK
    funext j p
    have he : Env.only (fun m => (E p m).map (rdMove ctx Cs num d p m)) (deps k)
        = Env.only (fun m => (E p m).map (rdMove ctx Cs num d' p m)) (deps k) := by
      funext m
      unfold Env.only
      by_cases hm : m ∈ deps k
      · have := hk k hK m hm
        rw [if_pos hm, if_pos hm]
        have he : rdMove ctx Cs num d p m = rdMove ctx Cs num d' p m := by
          funext o
          unfold rdMove
          rw [ih m this (by omega)]
        simp only [he]
      · rw [if_neg hm, if_neg hm]
    rw [h k hK j p, h' k hK j p, he]

omit [DecidableEq F] in
theorem rdMove_neg (ctx : Ctx F) (Cs : Finset Nat) (num : Nat → Nat) (d : Nat → Nat → Nat → F) (p m : Nat) (o : List F) (ho : o.length = num m) :
    rdMove ctx Cs num (fun k j p => -d k j p) p m (rdMove ctx Cs num d p m o) = o := by
  unfold rdMove vsub
  apply List.ext_getElem
  · simp [ho]
  · intro i h1 h2
    simp [rdShift_neg]

/-- The differences in the other direction. -/
theorem DiffEq.neg {ctx : Ctx F} {Cs : Finset Nat} {deps : Nat → List Nat} {num : Nat → Nat} {x x' : Nat → Nat → Env (List F) → List F}
    {E : Nat → Env (List F)} {d : Nat → Nat → Nat → F} {k : Nat} (hE : ∀ p m o, E p m = some o → o.length = num m)
    (h : DiffEq ctx Cs deps num x x' E d k) :
    DiffEq ctx Cs deps num x' x (fun p m => (E p m).map (rdMove ctx Cs num d p m)) (fun k j p => -d k j p) k := by
  intro j p
  have hback : (fun m => ((E p m).map (rdMove ctx Cs num d p m)).map (rdMove ctx Cs num (fun k j p => -d k j p) p m)) = E p := by
    funext m
    cases hm : E p m with
    | none => rfl
    | some o => simp only [Option.map_some, rdMove_neg ctx Cs num d p m o (hE p m o hm)]
  simp only [hback]
  rw [h j p]
  split_ifs
  · simp
  · rw [neg_sub]

/-! ## The bijection -/

/-- The number of values of run `k`. -/
def rdNum (rs : List (RdJob F)) (k : Nat) : Nat := ((rs[k]?).map RdJob.num).getD 0

/-- The runs on which run `k` depends. -/
def rdDeps (rs : List (RdJob F)) (k : Nat) : List Nat := ((rs[k]?).map RdJob.deps).getD []

omit [CodeField F] [DecidableEq F] in
theorem rdNum_get (rs : List (RdJob F)) (k : Fin rs.length) : rdNum rs k = (rs.get k).num := by
  unfold rdNum
  simp

omit [CodeField F] [DecidableEq F] in
theorem rdDeps_get (rs : List (RdJob F)) (k : Fin rs.length) : rdDeps rs k = (rs.get k).deps := by
  unfold rdDeps
  simp

section
variable {ctx : Ctx F} (h : ctx.Good) {Cs : Finset Nat} (hC : Coalition ctx Cs) {rs : List (RdJob F)}

include h hC in
theorem rdShift_degree (d : Nat → F) : (rdShift ctx Cs d).degree < (ctx.t + ctx.l : Nat) := packC_degree h hC _

/-- Changing the coins. -/
noncomputable def moveCoins (d : Nat → Nat → Nat → F) (ω : RdCoins ctx rs) : RdCoins ctx rs := fun k =>
  (ω k).shift (fun i => rdShift ctx Cs (d k i)) (fun i => rdShiftZ ctx Cs (d k i)) (fun _ _ => rdShift_degree h hC _) fun _ _ => rdShiftZ_zero h hC _

theorem moveCoins_g (d : Nat → Nat → Nat → F) (ω : RdCoins ctx rs) (k : Fin rs.length) {m : Nat} (hm : m < (rs.get k).num) :
    (moveCoins h hC d ω k).g m = (ω k).g m + rdShift ctx Cs (d k m) := Coins.shift_g _ _ _ _ _ hm

theorem moveCoins_z (d : Nat → Nat → Nat → F) (ω : RdCoins ctx rs) (k : Fin rs.length) {m : Nat} (hm : m < (rs.get k).num) :
    (moveCoins h hC d ω k).z m = (ω k).z m + rdShiftZ ctx Cs (d k m) := Coins.shift_z _ _ _ _ _ hm

/-- The parties of `Cs` do not notice. -/
theorem moveCoins_known (d : Nat → Nat → Nat → F) (hd : ∀ k j, ∀ p ∈ Cs, d k j p = 0) (ω : RdCoins ctx rs) :
    (moveCoins h hC d ω).known Cs = ω.known Cs := by
  have hfit := h.fit
  funext k p
  unfold RdCoins.known
  by_cases hp : p ∈ Cs
  · rw [if_pos hp, if_pos hp]
    have h1 : ∀ i, ∀ q ∈ Cs, (rdShift ctx Cs (d k i)).eval (ofU32 q) = 0 := fun i q hq => packC_share h hC _ hq
    have := Coins.shift_agree (ω k) (fun i => rdShift ctx Cs (d k i)) (fun i => rdShiftZ ctx Cs (d k i)) (fun _ _ => rdShift_degree h hC _)
      (fun _ _ => rdShiftZ_zero h hC _) Cs (fun i _ q hq => h1 i q hq) (fun i _ q hq => by
        simp only [rdShiftZ, eval_sub]
        rw [h1 i q hq, sharePoly_eval (by omega) _ (hC.parties q hq), hd k i q hq, sub_zero]) p hp
    exact Prod.ext this.1 this.2
  · rw [if_neg hp, if_neg hp]

theorem moveCoins_neg (d d' : Nat → Nat → Nat → F) (ω : RdCoins ctx rs) (hd : ∀ k < rs.length, d' k = fun j p => -d k j p) :
    moveCoins h hC d' (moveCoins h hC d ω) = ω := by
  funext k
  apply Coins.ext'
  · intro m hm
    rw [moveCoins_g h hC d' _ k hm, moveCoins_g h hC d _ k hm, hd k k.2, rdShift_neg, add_neg_cancel_right]
  · intro m hm
    rw [moveCoins_z h hC d' _ k hm, moveCoins_z h hC d _ k hm, hd k k.2, rdShiftZ_neg, add_neg_cancel_right]

variable (c : Codec F)

omit [DecidableEq F] in
theorem Coins.randoms_length {nr nz : Nat} (ω : Coins ctx nr nz) (p : Nat) : (ω.randoms p).length = nr := by simp [Coins.randoms]

omit [DecidableEq F] in
theorem Coins.zeros_length {nr nz : Nat} (ω : Coins ctx nr nz) (p : Nat) : (ω.zeros p).length = nz := by simp [Coins.zeros]

omit [DecidableEq F] in
theorem held_length {off : Fin rs.length → Nat → List F × List F} (hoff : OffSizes rs off) (ω : RdCoins ctx rs) (k : Fin rs.length) (p : Nat) :
    (ω.held off k p).1.length = (rs.get k).num ∧ (ω.held off k p).2.length = (rs.get k).num := by
  unfold RdCoins.held vadd
  simp only [List.length_zipWith, Coins.randoms_length, Coins.zeros_length]
  rw [(hoff k p).1, (hoff k p).2]
  simp

/-- One run at a party which follows the protocol, with inputs and coins which differ. -/
theorem rd_rel {x x' : Nat → Nat → Env (List F) → List F} (hx : RdSizes rs x) (hx' : RdSizes rs x') {off : Fin rs.length → Nat → List F × List F}
    (hoff : OffSizes rs off) (ω : RdCoins ctx rs) (d : Nat → Nat → Nat → F)
    (k : Fin rs.length) {p : Nat} (hp : p < ctx.n) (env env' : Env (List F))
    (hd : ∀ j, d k j p = (x k p env).getD j 0 - (x' k p env').getD j 0) (id id' : ProtocolID) (deps deps' : List Nat) :
    ProtoRel (rdMove ctx Cs (rdNum rs) d p k) p
      (Job.mk id deps (rdProto c ctx (rs.get k).leader (rs.get k).tapes
        (fun p env => some (x k p env, ω.held off k p)) fun o => o)).proto
      (Job.mk id' deps' (rdProto c ctx (rs.get k).leader (rs.get k).tapes
        (fun p env => some (x' k p env, (moveCoins h hC d ω).held off k p)) fun o => o)).proto env env' := by
  have hfit := h.fit
  have l1 := hx k p env
  have l2 := hx' k p env'
  obtain ⟨g1, g2⟩ := held_length hoff ω k p
  obtain ⟨g1', g2'⟩ := held_length hoff (moveCoins h hC d ω) k p
  have hr : ∀ i (hi : i < (rs.get k).num), ((moveCoins h hC d ω).held off k p).1[i]'(by rw [g1']; exact hi)
      = (ω.held off k p).1[i]'(by rw [g1]; exact hi) + (rdShift ctx Cs (d k i)).eval (ofU32 p) := by
    intro i hi
    simp only [RdCoins.held, vadd, List.getElem_zipWith, Coins.randoms_eq, List.getElem_map, List.getElem_range]
    rw [moveCoins_g h hC d _ k hi, eval_add]
    ring
  have hz : ∀ i (hi : i < (rs.get k).num), ((moveCoins h hC d ω).held off k p).2[i]'(by rw [g2']; exact hi)
      = (ω.held off k p).2[i]'(by rw [g2]; exact hi) + (rdShiftZ ctx Cs (d k i)).eval (ofU32 p) := by
    intro i hi
    simp only [RdCoins.held, vadd, List.getElem_zipWith, Coins.zeros_eq, List.getElem_map, List.getElem_range]
    rw [moveCoins_z h hC d _ k hi, eval_add]
    ring
  refine ⟨rfl, ?_, ?_, ?_⟩
  · simp only [rdProto, Option.bind_some]
    have : rdSend (x' k p env') ((moveCoins h hC d ω).held off k p).1 ((moveCoins h hC d ω).held off k p).2
        = rdSend (x k p env) (ω.held off k p).1 (ω.held off k p).2 := by
      unfold rdSend
      rw [if_pos ⟨by rw [l2, g1'], by rw [l2, g2']⟩,
        if_pos ⟨by rw [l1, g1], by rw [l1, g2]⟩]
      congr 1
      unfold vadd
      apply List.ext_getElem
      · simp [l1, l2, g1, g2, g1', g2']
      · intro i h1 h2
        have hi : i < (rs.get k).num := by
          simp only [List.length_zipWith, l1] at h2
          omega
        simp only [List.getElem_zipWith]
        rw [hr i hi, hz i hi]
        have hdi := hd i
        rw [List.getD_eq_getElem _ _ (by rw [l1]; exact hi), List.getD_eq_getElem _ _ (by rw [l2]; exact hi)] at hdi
        have hs : (rdShift ctx Cs (d k i)).eval (ofU32 p) + (rdShiftZ ctx Cs (d k i)).eval (ofU32 p) = d k i p := by
          unfold rdShiftZ
          rw [eval_sub, sharePoly_eval (by omega) _ hp]
          ring
        have : (x k p env)[i]'(by rw [l1]; exact hi) = (x' k p env')[i]'(by rw [l2]; exact hi) + d k i p := by
          rw [hdi]
          ring
        rw [this, ← hs]
        ring
    rw [this]
  · intro ms _
    simp only [rdProto, Option.bind_some]
    rw [hx k, hx' k]
  · intro ms
    simp only [rdProto, Option.bind_some]
    cases ms.head? with
    | none => rfl
    | some m =>
      simp only [Option.bind_some]
      cases c.dec m with
      | none => rfl
      | some v =>
        simp only [Option.bind_some, Option.map_id']
        unfold rdFinish
        rw [g1, g1']
        by_cases hv : v.length = (rs.get k).num
        · rw [if_pos hv, if_pos hv]
          simp only [Option.map_some]
          congr 1
          unfold rdMove vsub
          apply List.ext_getElem
          · simp only [List.length_zipWith, List.length_map, List.length_range, g1, g1', rdNum_get]
            omega
          · intro i h1 h2
            have hi : i < (rs.get k).num := by
              simp only [List.length_zipWith, hv] at h1
              omega
            simp only [List.getElem_zipWith, List.getElem_map, List.getElem_range]
            rw [hr i hi]
            ring
        · rw [if_neg hv, if_neg hv]
          rfl

variable (strat : List (Sys Unit) → ByzStep)

omit hC in
theorem rdJobs_get (x : Nat → Nat → Env (List F) → List F) (held : Fin rs.length → Nat → List F × List F) {j : Nat} {job : Job (List F)}
    (hj : (rdJobs c ctx rs x held)[j]? = some job) : ∃ k : Fin rs.length, j = k ∧
      job = ⟨(rs.get k).id, (rs.get k).deps, rdProto c ctx (rs.get k).leader (rs.get k).tapes
        (fun p env => some (x k p env, held k p)) fun o => o⟩ := by
  obtain ⟨hl, he⟩ := List.getElem?_eq_some_iff.1 hj
  unfold rdJobs at hl he
  rw [List.length_ofFn] at hl
  rw [List.getElem_ofFn] at he
  exact ⟨⟨j, hl⟩, rfl, he.symm⟩

/-- The results have the right lengths. -/
theorem play_len (x : Nat → Nat → Env (List F) → List F) {off : Fin rs.length → Nat → List F × List F} (hoff : OffSizes rs off)
    (ω : RdCoins ctx rs) (N : Nat) : ∀ p j o,
    (Sys.play ctx.n (rdJobs c ctx rs x (ω.held off)) Cs strat N).2.loc p j = .done o → o.length = rdNum rs j := by
  induction N with
  | zero =>
    intro p j o ho
    cases ho
  | succ N ih =>
    simp only [Sys.play]
    generalize Sys.play ctx.n (rdJobs c ctx rs x (ω.held off)) Cs strat N = r at ih ⊢
    cases he : r.2.byzStep ctx.n (rdJobs c ctx rs x (ω.held off)) Cs (strat (r.1 ++ [r.2.erase])) with
    | none => exact ih
    | some t =>
      intro p j o ho
      simp only [Option.getD_some] at ho
      rcases byzStep_loc he p j with h' | ⟨job, next, hj, _, _, hn, h'⟩
      · exact ih p j o (h' ▸ ho)
      · rw [ho] at hn
        subst hn
        obtain ⟨k, rfl, rfl⟩ := rdJobs_get c x _ hj
        have hfin : ∀ (env : Env (List F)) (ms : List (List Nat)) (o : List F), (rdProto c ctx (rs.get k).leader (rs.get k).tapes
            (fun p env => some (x k p env, ω.held off k p)) fun o => o).finish p env ms = some o → o.length = rdNum rs k := by
          intro env ms o hf
          simp only [rdProto, Option.bind_some, Option.map_id'] at hf
          obtain ⟨m, _, hf⟩ := Option.bind_eq_some_iff.1 hf
          obtain ⟨v, _, hf⟩ := Option.bind_eq_some_iff.1 hf
          unfold rdFinish at hf
          split_ifs at hf with hl
          cases hf
          unfold vsub
          rw [List.length_zipWith, hl, (held_length hoff ω k p).1, rdNum_get]
          simp
        have hof : ∀ (a : Option (List F)), orFail a TState.done = .done o → a = some o := by
          intro a ha
          cases a with
          | none => cases ha
          | some y => exact congrArg some (TState.done.inj ha)
        cases hl : r.2.loc p k with
        | idle =>
          rw [hl] at h'
          simp only [Proto.act] at h'
          rcases h' with ⟨_, _, h'⟩ | ⟨_, _, h', _⟩ | h'
          · cases h'
          · cases h'
          · have h' := Act.tau.inj h'
            revert h'
            generalize (rdProto c ctx (rs.get k).leader (rs.get k).tapes
              (fun p env => some (x k p env, ω.held off k p)) fun o => o).sends p _ = a
            intro h'
            cases a <;> cases h'
        | sending l =>
          rw [hl] at h'
          cases l with
          | nil =>
            simp only [Proto.act] at h'
            rcases h' with ⟨_, _, h'⟩ | ⟨_, _, h', _⟩ | h'
            · cases h'
            · cases h'
            · have h' := Act.tau.inj h'
              split_ifs at h'
          | cons y rest =>
            simp only [Proto.act] at h'
            rcases h' with ⟨_, _, h'⟩ | ⟨_, _, h', _⟩ | h' <;> cases h'
        | gather g =>
          rw [hl] at h'
          simp only [Proto.act] at h'
          by_cases hg : g.counter = ctx.n
          · rw [if_pos hg] at h'
            simp only [rdProto] at h'
            rcases h' with ⟨_, _, h'⟩ | ⟨_, _, h', _⟩ | h'
            · cases h'
            · cases h'
            · have h' := Act.tau.inj h'
              revert h'
              generalize Option.bind _ _ = a
              intro h'
              cases a <;> cases h'
          · rw [if_neg hg] at h'
            rcases h' with ⟨_, _, h'⟩ | ⟨kk, m, h', hk⟩ | h'
            · cases h'
            · cases h'
              obtain ⟨y, hy⟩ := orFail_done hk.symm
              cases hy
            · cases h'
        | reply l =>
          rw [hl] at h'
          cases l with
          | nil =>
            simp only [Proto.act] at h'
            rcases h' with ⟨_, _, h'⟩ | ⟨_, _, h', _⟩ | h' <;> cases h'
          | cons y rest =>
            simp only [Proto.act] at h'
            rcases h' with ⟨_, _, h'⟩ | ⟨_, _, h', _⟩ | h' <;> cases h'
        | wait =>
          rw [hl] at h'
          simp only [Proto.act] at h'
          rcases h' with ⟨_, _, h'⟩ | ⟨kk, m, h', hk⟩ | h'
          · cases h'
          · cases h'
            exact hfin _ _ _ (hof _ hk.symm)
          · cases h'
        | done o' =>
          rw [hl] at h'
          simp only [Proto.act] at h'
          rcases h' with ⟨_, _, h'⟩ | ⟨_, _, h', _⟩ | h' <;> cases h'
        | fail =>
          rw [hl] at h'
          simp only [Proto.act] at h'
          rcases h' with ⟨_, _, h'⟩ | ⟨_, _, h', _⟩ | h' <;> cases h'

/-- The executions with `x` and with `x'`. -/
theorem play_rel {x x' : Nat → Nat → Env (List F) → List F} (hx : RdSizes rs x) (hx' : RdSizes rs x') {off : Fin rs.length → Nat → List F × List F}
    (hoff : OffSizes rs off) (ω : RdCoins ctx rs) (d : Nat → Nat → Nat → F)
    (hd : ∀ k < rs.length, DiffEq ctx Cs (rdDeps rs) (rdNum rs) x x' (finalEnv ctx.n (rdJobs c ctx rs x (ω.held off)) Cs strat) d k) (N : Nat) :
    (Sys.play ctx.n (rdJobs c ctx rs x' ((moveCoins h hC d ω).held off)) Cs strat N).1 = (Sys.play ctx.n (rdJobs c ctx rs x (ω.held off)) Cs strat N).1 ∧
      SysRel (rdMove ctx Cs (rdNum rs) d) (Sys.play ctx.n (rdJobs c ctx rs x (ω.held off)) Cs strat N).2
        (Sys.play ctx.n (rdJobs c ctx rs x' ((moveCoins h hC d ω).held off)) Cs strat N).2 := by
  induction N with
  | zero => exact ⟨rfl, SysRel.start _⟩
  | succ N ih =>
    obtain ⟨ih1, ih2⟩ := ih
    have hstep := byzStep_rel (n := ctx.n) (jobs := rdJobs c ctx rs x (ω.held off)) (jobs' := rdJobs c ctx rs x' ((moveCoins h hC d ω).held off)) (Cs := Cs) ih2
      (by simp [rdJobs])
      (by
        intro j job job' hj hj'
        obtain ⟨k, hk, rfl⟩ := rdJobs_get c x _ hj
        obtain ⟨k', hk', rfl⟩ := rdJobs_get c x' _ hj'
        have : k' = k := Fin.ext (by omega)
        subst this
        exact ⟨rfl, rfl⟩)
      (play_lead ctx.n _ Cs strat N)
      (by
        intro p j job job' hp hpC hj hj' hready
        have hfin := finalEnv_only ctx.n (rdJobs c ctx rs x (ω.held off)) Cs strat hready
        obtain ⟨k, hk, rfl⟩ := rdJobs_get c x _ hj
        obtain ⟨k', hk', rfl⟩ := rdJobs_get c x' _ hj'
        have : k' = k := Fin.ext (by omega)
        subst this
        subst hk
        refine rd_rel h hC c hx hx' hoff ω d k' hp _ _ (fun j => ?_) _ _ _ _
        have := hd k' k'.2 j p
        rw [if_neg hpC] at this
        rw [this, hfin, rdDeps_get]
        congr 3
        funext m
        have hfm := congrFun hfin m
        unfold Env.only at hfm ⊢
        by_cases hm : m ∈ (rs.get k').deps
        · rw [if_pos hm] at hfm ⊢
          rw [if_pos hm] at hfm ⊢
          rw [ih2.env, hfm]
        · rw [if_neg hm, if_neg hm])
      (strat ((Sys.play ctx.n (rdJobs c ctx rs x (ω.held off)) Cs strat N).1 ++ [(Sys.play ctx.n (rdJobs c ctx rs x (ω.held off)) Cs strat N).2.erase]))
    simp only [Sys.play]
    rw [ih1, ih2.erase]
    refine ⟨rfl, ?_⟩
    revert hstep
    generalize Sys.byzStep _ _ _ _ _ = a
    generalize Sys.byzStep _ _ _ _ _ = b
    intro hstep
    cases a <;> cases b
    · exact ih2
    · exact hstep.elim
    · exact hstep.elim
    · exact hstep

/-- The results of the other execution. -/
theorem finalEnv_rel {x x' : Nat → Nat → Env (List F) → List F} (hx : RdSizes rs x) (hx' : RdSizes rs x') {off : Fin rs.length → Nat → List F × List F}
    (hoff : OffSizes rs off) (ω : RdCoins ctx rs) (d : Nat → Nat → Nat → F)
    (hd : ∀ k < rs.length, DiffEq ctx Cs (rdDeps rs) (rdNum rs) x x' (finalEnv ctx.n (rdJobs c ctx rs x (ω.held off)) Cs strat) d k) :
    finalEnv ctx.n (rdJobs c ctx rs x' ((moveCoins h hC d ω).held off)) Cs strat
      = fun p m => (finalEnv ctx.n (rdJobs c ctx rs x (ω.held off)) Cs strat p m).map (rdMove ctx Cs (rdNum rs) d p m) := by
  funext p m
  have hrel := fun N => (play_rel h hC c strat hx hx' hoff ω d hd N).2
  cases hf : finalEnv ctx.n (rdJobs c ctx rs x (ω.held off)) Cs strat p m with
  | some o =>
    obtain ⟨N, hN⟩ := (finalEnv_eq _ _ _ _ _ _ _).1 hf
    exact (finalEnv_eq _ _ _ _ _ _ _).2 ⟨N, ((hrel N).loc p m).2 o hN⟩
  | none =>
    cases hf' : finalEnv ctx.n (rdJobs c ctx rs x' ((moveCoins h hC d ω).held off)) Cs strat p m with
    | none => rfl
    | some o' =>
      obtain ⟨N, hN⟩ := (finalEnv_eq _ _ _ _ _ _ _).1 hf'
      rcases ((hrel N).loc p m).cases with ⟨a, b⟩ | ⟨_, a, b⟩ | ⟨_, a, b⟩ | ⟨_, a, b⟩ | ⟨a, b⟩ | ⟨o, a, b⟩ | ⟨a, b⟩
      all_goals first
        | (rw [b] at hN; cases hN; done)
        | (have := (finalEnv_eq ctx.n (rdJobs c ctx rs x (ω.held off)) Cs strat p m o).2 ⟨N, a⟩
           rw [hf] at this
           cases this)

/-- The change of the coins for the execution with the coins `ω`. -/
noncomputable def absorb (off : (Fin rs.length → Nat → List F × List F) → Fin rs.length → Nat → List F × List F)
    (σ : (Fin rs.length → Nat → List F × List F) → List (Sys Unit) → ByzStep)
    (x x' : Nat → Nat → Env (List F) → List F) (ω : RdCoins ctx rs) : RdCoins ctx rs :=
  moveCoins h hC (rdDiff ctx Cs (rdDeps rs) (rdNum rs) x x' (finalEnv ctx.n (rdJobs c ctx rs x (ω.held (off (ω.known Cs)))) Cs (σ (ω.known Cs)))) ω

theorem rdDiff_quiet (ctx : Ctx F) (Cs : Finset Nat) (deps : Nat → List Nat) (num : Nat → Nat) (x x' : Nat → Nat → Env (List F) → List F)
    (E : Nat → Env (List F)) (k j p : Nat) (hp : p ∈ Cs) : rdDiff ctx Cs deps num x x' E k j p = 0 := by
  rw [rdDiff, if_pos hp]

omit [CodeField F] [DecidableEq F] in
theorem RdOrder.deps (ho : RdOrder rs) : ∀ k < rs.length, ∀ m ∈ rdDeps rs k, m < k := by
  intro k hk m hm
  have := rdDeps_get rs ⟨k, hk⟩
  rw [show ((⟨k, hk⟩ : Fin rs.length) : Nat) = k from rfl] at this
  rw [this] at hm
  exact ho ⟨k, hk⟩ m hm

theorem absorb_known (off : (Fin rs.length → Nat → List F × List F) → Fin rs.length → Nat → List F × List F)
    (σ : (Fin rs.length → Nat → List F × List F) → List (Sys Unit) → ByzStep)
    (x x' : Nat → Nat → Env (List F) → List F) (ω : RdCoins ctx rs) : (absorb h hC c off σ x x' ω).known Cs = ω.known Cs :=
  moveCoins_known h hC _ (fun k j p hp => rdDiff_quiet ctx Cs _ _ x x' _ k j p hp) ω

theorem absorb_left (ho : RdOrder rs) {off : (Fin rs.length → Nat → List F × List F) → Fin rs.length → Nat → List F × List F}
    (hoff : ∀ m, OffSizes rs (off m)) (σ : (Fin rs.length → Nat → List F × List F) → List (Sys Unit) → ByzStep)
    {x x' : Nat → Nat → Env (List F) → List F} (hx : RdSizes rs x) (hx' : RdSizes rs x') (ω : RdCoins ctx rs) :
    absorb h hC c off σ x' x (absorb h hC c off σ x x' ω) = ω := by
  have hkn := absorb_known h hC c off σ x x' ω
  have hd : ∀ k < rs.length, DiffEq ctx Cs (rdDeps rs) (rdNum rs) x x' (finalEnv ctx.n (rdJobs c ctx rs x (ω.held (off (ω.known Cs)))) Cs (σ (ω.known Cs)))
      (rdDiff ctx Cs (rdDeps rs) (rdNum rs) x x' (finalEnv ctx.n (rdJobs c ctx rs x (ω.held (off (ω.known Cs)))) Cs (σ (ω.known Cs)))) k :=
    fun k hk => rdDiff_eq ctx Cs _ _ x x' _ k (ho.deps k hk)
  have hfin := finalEnv_rel h hC c (σ (ω.known Cs)) hx hx' (hoff _) ω _ hd
  have hd' : ∀ k < rs.length, DiffEq ctx Cs (rdDeps rs) (rdNum rs) x' x
      (finalEnv ctx.n (rdJobs c ctx rs x' ((absorb h hC c off σ x x' ω).held (off (ω.known Cs)))) Cs (σ (ω.known Cs)))
      (rdDiff ctx Cs (rdDeps rs) (rdNum rs) x' x (finalEnv ctx.n (rdJobs c ctx rs x' ((absorb h hC c off σ x x' ω).held (off (ω.known Cs)))) Cs (σ (ω.known Cs)))) k :=
    fun k hk => rdDiff_eq ctx Cs _ _ x' x _ k (ho.deps k hk)
  conv_lhs => unfold absorb
  rw [show absorb h hC c off σ x x' ω = moveCoins h hC (rdDiff ctx Cs (rdDeps rs) (rdNum rs) x x'
    (finalEnv ctx.n (rdJobs c ctx rs x (ω.held (off (ω.known Cs)))) Cs (σ (ω.known Cs)))) ω from rfl] at *
  rw [hkn]
  refine moveCoins_neg h hC _ _ ω ?_
  refine DiffEq.unique ho.deps hd' ?_
  intro k hk
  rw [hfin]
  refine DiffEq.neg (fun p m o ho => ?_) (hd k hk)
  obtain ⟨N, hN⟩ := (finalEnv_eq _ _ _ _ _ _ _).1 ho
  exact play_len c (σ (ω.known Cs)) x (hoff _) ω N p m o hN

end

end Verif
