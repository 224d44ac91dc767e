import Verif.AsyncByz
import Verif.AsyncLemmas

/-! # Lemmas about parties which send whatever they like -/

namespace Verif

variable {O : Type}

/-- The data of the messages with ID `id` from `p`. -/
def fromId (id : ProtocolID) (p : Nat) (l : List TMsg) : List (List Nat) :=
  (l.filter fun m => m.msg.protoId = id ∧ m.msg.sender = p).map (·.msg.data)

theorem fromId_append (id : ProtocolID) (p : Nat) (a b : List TMsg) : fromId id p (a ++ b) = fromId id p a ++ fromId id p b := by
  unfold fromId
  rw [List.filter_append, List.map_append]

theorem fromId_nil {id : ProtocolID} {p : Nat} {l : List TMsg} (h : ∀ m ∈ l, m.msg.protoId = id → m.msg.sender ≠ p) : fromId id p l = [] := by
  unfold fromId
  rw [List.map_eq_nil_iff, List.filter_eq_nil_iff]
  intro m hm hc
  have := of_decide_eq_true hc
  exact h m hm this.1 this.2

/-- The messages under way between parties which follow the protocols. -/
structure Sys.ByzBase (n : Nat) (jobs : List (Job O)) (Cs : Finset Nat) (s : Sys O) : Prop where
  chan : ∀ a b, ∀ m ∈ s.chan a b, m.msg.sender = a ∧ a < n
  inbox : ∀ q, ∀ m ∈ s.inbox q, m.msg.sender < n
  got : ∀ q, ∀ y ∈ s.got q, y.2.msg.sender < n ∧ ∃ job, jobs[y.1]? = some job ∧ job.id = y.2.msg.protoId
  cons : ∀ (j : Nat) (job : Job O), jobs[j]? = some job → ∀ p, p ∉ Cs → ∀ q,
    s.sent j p q = fromId job.id p ((s.got q).map (·.2)) ++ fromId job.id p (s.inbox q) ++ fromId job.id p (s.chan p q)

/-- Different jobs have different IDs. -/
def DistinctIds (jobs : List (Job O)) : Prop := ∀ (i j : Nat) (a b : Job O), jobs[i]? = some a → jobs[j]? = some b → a.id = b.id → i = j

variable {n : Nat} {jobs : List (Job O)} {Cs : Finset Nat}

theorem Sys.byzBase_start : (Sys.start : Sys O).ByzBase n jobs Cs :=
  ⟨by simp [Sys.start], by simp [Sys.start], by simp [Sys.start], by simp [Sys.start, fromId]⟩

theorem Sys.byzBase_step {s s' : Sys O} (hids : DistinctIds jobs) (hb : s.ByzBase n jobs Cs) {e : ByzStep}
    (h : s.byzStep n jobs Cs e = some s') : s'.ByzBase n jobs Cs := by
  cases e with
  | inject p q id data =>
    unfold Sys.byzStep at h
    simp only at h
    split at h
    swap
    · cases h
    rename_i hp
    rw [Option.some.injEq] at h
    subst h
    refine ⟨?_, hb.inbox, hb.got, ?_⟩
    · intro a b m hm
      simp only [] at hm
      split at hm
      · rename_i hc
        rcases List.mem_append.1 hm with hm | hm
        · exact hb.chan a b m hm
        · rw [List.mem_singleton] at hm
          subst hm
          exact ⟨hc.1.symm, by rw [hc.1]; exact hp.2.1⟩
      · exact hb.chan a b m hm
    · intro j job hj a ha b
      simp only []
      rw [if_neg (fun hc => ha (by rw [hc.1]; exact hp.1))]
      exact hb.cons j job hj a ha b
  | sys e =>
    cases e with
    | act p j =>
      unfold Sys.byzStep at h
      simp only at h
      split at h
      · cases h
      rename_i hpC
      simp only [Sys.step] at h
      split at h
      swap
      · cases h
      rename_i hp
      split at h
      · cases h
      rename_i job hjob
      unfold Sys.actStep at h
      split at h
      swap
      · cases h
      split at h
      · rename_i dest data next hact
        split at h
        swap
        · cases h
        rw [Option.some.injEq] at h
        subst h
        refine ⟨?_, hb.inbox, hb.got, ?_⟩
        · intro a b m hm
          simp only [] at hm
          split at hm
          · rename_i hc
            rcases List.mem_append.1 hm with hm | hm
            · exact hb.chan a b m hm
            · rw [List.mem_singleton] at hm
              subst hm
              exact ⟨hc.1.symm, by rw [hc.1]; exact hp⟩
          · exact hb.chan a b m hm
        · intro i jobi hi a ha b
          simp only []
          by_cases hab : a = p ∧ dest.includes b = true
          · rw [if_pos hab, fromId_append, ← List.append_assoc, ← hb.cons i jobi hi a ha b]
            by_cases hij : i = j
            · subst hij
              rw [hjob, Option.some.injEq] at hi
              rw [if_pos ⟨rfl, hab⟩, ← hi]
              congr 1
              simp [fromId, hab.1]
            · rw [if_neg (fun h => hij h.1), fromId_nil (l := [_]), List.append_nil]
              intro m hm h1
              rw [List.mem_singleton] at hm
              subst hm
              exact absurd (hids _ _ _ _ hjob hi h1).symm hij
          · rw [if_neg hab, if_neg (fun h => hab h.2)]
            exact hb.cons i jobi hi a ha b
      · rename_i next hact
        split at h
        · cases h
        rename_i m rest htake
        rw [Option.some.injEq] at h
        subst h
        obtain ⟨a, b, e1, e2, e3, e4⟩ := takeFirst_some htake
        have hmem : m ∈ s.inbox p := by rw [e1]; simp
        refine ⟨hb.chan, ?_, ?_, ?_⟩
        · intro q y hy
          by_cases hq : q = p
          · subst hq
            simp only [Function.update_self] at hy
            refine hb.inbox q y ?_
            rw [e1]
            rw [e2] at hy
            rcases List.mem_append.1 hy with hy | hy
            · simp [hy]
            · simp [hy]
          · simp only [Function.update_of_ne hq] at hy
            exact hb.inbox q y hy
        · intro q y hy
          by_cases hq : q = p
          · subst hq
            simp only [Function.update_self] at hy
            rcases List.mem_append.1 hy with hy | hy
            · exact hb.got q y hy
            · rw [List.mem_singleton] at hy
              subst hy
              exact ⟨hb.inbox q m hmem, job, hjob, e3.symm⟩
          · simp only [Function.update_of_ne hq] at hy
            exact hb.got q y hy
        · intro i jobi hi r hr q
          simp only []
          by_cases hq : q = p
          · subst hq
            rw [Function.update_self, Function.update_self, hb.cons i jobi hi r hr q, e1, e2]
            rw [List.map_append, fromId_append, fromId_append, fromId_append]
            have : fromId jobi.id r (m :: b) = fromId jobi.id r [m] ++ fromId jobi.id r b := fromId_append jobi.id r [m] b
            rw [this]
            simp only [List.map_cons, List.map_nil]
            by_cases hm : m.msg.protoId = jobi.id
            · have ha : fromId jobi.id r a = [] := by
                apply fromId_nil
                intro y hy h1 _
                exact e4 y hy (by rw [h1, ← hm, e3])
              rw [ha]
              simp
            · have : fromId jobi.id r [m] = [] := by
                apply fromId_nil
                intro y hy h1 _
                rw [List.mem_singleton] at hy
                subst hy
                exact hm h1
              rw [this]
              simp
          · rw [Function.update_of_ne hq, Function.update_of_ne hq]
            exact hb.cons i jobi hi r hr q
      · rw [Option.some.injEq] at h
        subst h
        exact ⟨hb.chan, hb.inbox, hb.got, hb.cons⟩
      · cases h
    | deliver p q =>
      unfold Sys.byzStep at h
      simp only [Sys.step] at h
      split at h
      swap
      · cases h
      split at h
      · cases h
      rename_i m rest hch
      rw [Option.some.injEq] at h
      subst h
      have hm := hb.chan p q m (by rw [hch]; simp)
      refine ⟨?_, ?_, hb.got, ?_⟩
      · intro a b y hy
        simp only [] at hy
        split at hy
        · rename_i hab
          rw [hab.1]
          exact hb.chan p q y (by rw [hch]; simp [hy])
        · exact hb.chan a b y hy
      · intro b y hy
        by_cases hbq : b = q
        · subst hbq
          simp only [Function.update_self] at hy
          rcases List.mem_append.1 hy with hy | hy
          · exact hb.inbox b y hy
          · rw [List.mem_singleton] at hy
            subst hy
            rw [hm.1]
            exact hm.2
        · simp only [Function.update_of_ne hbq] at hy
          exact hb.inbox b y hy
      · intro i job hi a ha b
        simp only []
        rw [hb.cons i job hi a ha b]
        by_cases hbq : b = q
        · subst hbq
          rw [Function.update_self, fromId_append]
          by_cases hap : a = p
          · subst hap
            rw [if_pos ⟨rfl, rfl⟩, hch]
            have : fromId job.id a (m :: rest) = fromId job.id a [m] ++ fromId job.id a rest := fromId_append job.id a [m] rest
            rw [this]
            simp
          · rw [if_neg (fun h => hap h.1)]
            have : fromId job.id a [m] = [] := by
              apply fromId_nil
              intro y hy _ h2
              rw [List.mem_singleton] at hy
              subst hy
              exact hap (h2.symm.trans hm.1)
            rw [this]
            simp
        · rw [Function.update_of_ne hbq, if_neg (fun h => hbq h.2)]

/-! ### What the parties know of each other -/

/-- Party `p` has started the job, and its first messages are `l`. -/
def Sys.Spoke (s : Sys O) (job : Job O) (p : Nat) (l : List (Recipient × List Nat)) : Prop :=
  job.ready (s.env p) = true ∧ job.proto.sends p ((s.env p).only job.deps) = some l

/-- The messages `vals`, one from each party, contain what the parties which follow the protocols have sent to `q`. -/
def Sys.Heard (s : Sys O) (n : Nat) (Cs : Finset Nat) (job : Job O) (q : Nat) (vals : List (List Nat)) : Prop :=
  vals.length = n ∧ ∀ p, p < n → p ∉ Cs → ∃ l d, s.Spoke job p l ∧ (addressedTo q l)[0]? = some d ∧ vals[p]? = some d

/-- The leader has answered with `rs`, and `pre` has been sent. -/
def Sys.Answered (s : Sys O) (n : Nat) (Cs : Finset Nat) (j : Nat) (job : Job O) (p : Nat) (pre rest : List (Recipient × List Nat)) : Prop :=
  ∃ l vals rs, s.Spoke job p l ∧ s.Heard n Cs job p vals ∧ job.proto.answer ((s.env p).only job.deps) vals = some rs ∧
    rs.zipIdx.map (fun r => (Recipient.one r.2, r.1)) = pre ++ rest ∧ ∀ q, s.sent j p q = addressedTo q l ++ addressedTo q pre

/-- Party `p` has sent its first messages only. -/
def Sys.SaidAll (s : Sys O) (j : Nat) (job : Job O) (p : Nat) : Prop := ∃ l, s.Spoke job p l ∧ ∀ q, s.sent j p q = addressedTo q l

/-- After the first messages, with a leader. -/
def Sys.Later (s : Sys O) (n : Nat) (Cs : Finset Nat) (j : Nat) (job : Job O) (p : Nat) : Prop :=
  job.proto.leader ≠ none ∧ (job.proto.leader ≠ some p → s.SaidAll j job p) ∧
    (job.proto.leader = some p → ∃ pre, s.Answered n Cs j job p pre [])

/-- What is sent to `q` starts with what the job says. -/
def Sys.SaidSome (s : Sys O) (j : Nat) (job : Job O) (p : Nat) : Prop :=
  (∀ q, s.sent j p q = []) ∨ ∃ l, s.Spoke job p l ∧ ∀ q, s.sent j p q <+: addressedTo q l ∨ job.proto.leader = some p

/-- The state of job `j` of a party which follows the protocols. -/
def Sys.ByzLoc (s : Sys O) (n : Nat) (Cs : Finset Nat) (j : Nat) (job : Job O) (p : Nat) : TState O → Prop
  | .idle => (∀ q, s.sent j p q = []) ∧ s.gotBy j p = []
  | .sending rest => (∃ l, s.Spoke job p l ∧ ∀ q, s.sent j p q ++ addressedTo q rest = addressedTo q l) ∧ s.gotBy j p = []
  | .gather g => job.proto.gathers p = true ∧ s.SaidAll j job p ∧ g.Inv n (s.gotBy j p)
  | .reply rest => job.proto.leader = some p ∧ ∃ pre, s.Answered n Cs j job p pre rest
  | .wait => s.Later n Cs j job p
  | .done o => (job.proto.leader = none → s.SaidAll j job p ∧ ∃ vals, s.Heard n Cs job p vals ∧
      job.proto.finish p ((s.env p).only job.deps) vals = some o) ∧ (job.proto.leader ≠ none → s.Later n Cs j job p)
  | .fail => s.SaidSome j job p

/-- The invariant. -/
structure Sys.ByzInv (n : Nat) (jobs : List (Job O)) (Cs : Finset Nat) (s : Sys O) : Prop where
  base : s.ByzBase n jobs Cs
  loc : ∀ (j : Nat) (job : Job O), jobs[j]? = some job → ∀ p, p < n → p ∉ Cs → s.ByzLoc n Cs j job p (s.loc p j)

theorem Sys.byzInv_start : (Sys.start : Sys O).ByzInv n jobs Cs :=
  ⟨Sys.byzBase_start, fun j job _ p _ _ => ⟨fun q => rfl, rfl⟩⟩

/-- Results are not changed any more. -/
def Sys.EnvLe (s s' : Sys O) : Prop := ∀ p d o, s.env p d = some o → s'.env p d = some o

theorem only_eq {s s' : Sys O} (h : s.EnvLe s') {job : Job O} {p : Nat} (hr : job.ready (s.env p) = true) :
    (s'.env p).only job.deps = (s.env p).only job.deps := by
  funext d
  unfold Env.only
  by_cases hd : d ∈ job.deps
  · rw [if_pos hd, if_pos hd]
    have := List.all_eq_true.1 hr d hd
    obtain ⟨o, ho⟩ := Option.isSome_iff_exists.1 this
    rw [ho, h p d o ho]
  · rw [if_neg hd, if_neg hd]

theorem ready_mono {s s' : Sys O} (h : s.EnvLe s') {job : Job O} {p : Nat} (hr : job.ready (s.env p) = true) :
    job.ready (s'.env p) = true := by
  refine List.all_eq_true.2 fun d hd => ?_
  obtain ⟨o, ho⟩ := Option.isSome_iff_exists.1 (List.all_eq_true.1 hr d hd)
  rw [h p d o ho]
  rfl

theorem Sys.Spoke.mono {s s' : Sys O} (h : s.EnvLe s') {job : Job O} {p : Nat} {l : List (Recipient × List Nat)} (hs : s.Spoke job p l) :
    s'.Spoke job p l := ⟨ready_mono h hs.1, by rw [only_eq h hs.1]; exact hs.2⟩

theorem Sys.Heard.mono {s s' : Sys O} (h : s.EnvLe s') {job : Job O} {q : Nat} {vals : List (List Nat)} (hh : s.Heard n Cs job q vals) :
    s'.Heard n Cs job q vals :=
  ⟨hh.1, fun p hp hC => let ⟨l, d, h1, h2⟩ := hh.2 p hp hC; ⟨l, d, h1.mono h, h2⟩⟩

theorem Sys.Answered.mono {s s' : Sys O} (h : s.EnvLe s') {j : Nat} {job : Job O} {p : Nat} (hsent : s'.sent j p = s.sent j p)
    {pre rest : List (Recipient × List Nat)} (ha : s.Answered n Cs j job p pre rest) : s'.Answered n Cs j job p pre rest := by
  obtain ⟨l, vals, rs, h1, h2, h3, h4, h5⟩ := ha
  exact ⟨l, vals, rs, h1.mono h, h2.mono h, by rw [only_eq h h1.1]; exact h3, h4, by rw [hsent]; exact h5⟩

theorem Sys.SaidAll.mono {s s' : Sys O} (h : s.EnvLe s') {j : Nat} {job : Job O} {p : Nat} (hsent : s'.sent j p = s.sent j p)
    (ha : s.SaidAll j job p) : s'.SaidAll j job p := by
  obtain ⟨l, h1, h2⟩ := ha
  exact ⟨l, h1.mono h, by rw [hsent]; exact h2⟩

theorem Sys.Later.mono {s s' : Sys O} (h : s.EnvLe s') {j : Nat} {job : Job O} {p : Nat} (hsent : s'.sent j p = s.sent j p)
    (ha : s.Later n Cs j job p) : s'.Later n Cs j job p :=
  ⟨ha.1, fun h0 => (ha.2.1 h0).mono h hsent, fun h0 => let ⟨pre, h1⟩ := ha.2.2 h0; ⟨pre, h1.mono h hsent⟩⟩

theorem Sys.ByzLoc.mono {s s' : Sys O} (h : s.EnvLe s') {j : Nat} {job : Job O} {p : Nat} (hsent : s'.sent j p = s.sent j p)
    (hgot : s'.gotBy j p = s.gotBy j p) {t : TState O} (ht : s.ByzLoc n Cs j job p t) : s'.ByzLoc n Cs j job p t := by
  cases t with
  | idle => exact ⟨by rw [hsent]; exact ht.1, by rw [hgot]; exact ht.2⟩
  | sending rest =>
    obtain ⟨⟨l, h1, h2⟩, h3⟩ := ht
    exact ⟨⟨l, h1.mono h, by rw [hsent]; exact h2⟩, by rw [hgot]; exact h3⟩
  | gather g => exact ⟨ht.1, ht.2.1.mono h hsent, by rw [hgot]; exact ht.2.2⟩
  | reply rest =>
    obtain ⟨h1, pre, h2⟩ := ht
    exact ⟨h1, pre, h2.mono h hsent⟩
  | wait => exact Sys.Later.mono h hsent ht
  | done o =>
    refine ⟨fun h0 => ?_, fun h0 => (ht.2 h0).mono h hsent⟩
    obtain ⟨h1, vals, h2, h3⟩ := ht.1 h0
    obtain ⟨l, h4, h5⟩ := h1
    exact ⟨Sys.SaidAll.mono h hsent ⟨l, h4, h5⟩, vals, h2.mono h, by rw [only_eq h h4.1]; exact h3⟩
  | fail =>
    rcases ht with h1 | ⟨l, h1, h2⟩
    · exact Or.inl (by rw [hsent]; exact h1)
    · exact Or.inr ⟨l, h1.mono h, by rw [hsent]; exact h2⟩

/-- In every state, what has been sent starts with what the job says. -/
theorem Sys.ByzLoc.said {s : Sys O} {j : Nat} {job : Job O} {p : Nat} {t : TState O} (ht : s.ByzLoc n Cs j job p t) : s.SaidSome j job p := by
  have hall : s.SaidAll j job p → s.SaidSome j job p := fun ⟨l, h1, h2⟩ => Or.inr ⟨l, h1, fun q => Or.inl (by rw [h2 q])⟩
  have hans : ∀ pre rest, job.proto.leader = some p → s.Answered n Cs j job p pre rest → s.SaidSome j job p := fun pre rest hL ⟨l, _, _, h1, _⟩ =>
    Or.inr ⟨l, h1, fun q => Or.inr hL⟩
  have hlater : s.Later n Cs j job p → s.SaidSome j job p := fun h => by
    by_cases hL : job.proto.leader = some p
    · obtain ⟨pre, h1⟩ := h.2.2 hL
      exact hans pre [] hL h1
    · exact hall (h.2.1 hL)
  cases t with
  | idle => exact Or.inl ht.1
  | sending rest =>
    obtain ⟨⟨l, h1, h2⟩, _⟩ := ht
    exact Or.inr ⟨l, h1, fun q => Or.inl ⟨_, h2 q⟩⟩
  | gather g => exact hall ht.2.1
  | reply rest =>
    obtain ⟨h1, pre, h2⟩ := ht
    exact hans pre rest h1 h2
  | wait => exact hlater ht
  | done o =>
    by_cases hL : job.proto.leader = none
    · exact hall (ht.1 hL).1
    · exact hlater (ht.2 hL)
  | fail => exact ht

theorem fromId_gotBy {s : Sys O} (hids : DistinctIds jobs) (hb : s.ByzBase n jobs Cs) {j : Nat} {job : Job O} (hj : jobs[j]? = some job)
    (p q : Nat) : fromId job.id p ((s.got q).map (·.2)) = dataFrom p (s.gotBy j q) := by
  unfold fromId dataFrom Sys.gotBy
  rw [List.filter_map, List.filter_map, List.map_map, List.map_map, List.filter_filter]
  have : List.filter ((fun m : TMsg => decide (m.msg.protoId = job.id ∧ m.msg.sender = p)) ∘ fun x : Nat × TMsg => x.2) (s.got q)
      = List.filter (fun a : Nat × TMsg => ((fun m : RMsg => decide (m.sender = p)) ∘ fun x : Nat × TMsg => x.2.msg) a && decide (a.1 = j))
        (s.got q) := by
    apply List.filter_congr
    intro y hy
    obtain ⟨_, jb, h1, h2⟩ := hb.got q y hy
    simp only [Function.comp, ← Bool.decide_and, decide_eq_decide]
    constructor
    · rintro ⟨h3, h4⟩
      exact ⟨h4, hids _ _ _ _ h1 hj (h2.trans h3)⟩
    · rintro ⟨h3, h4⟩
      rw [h4, hj, Option.some.injEq] at h1
      exact ⟨by rw [← h2, h1], h3⟩
  rw [this]
  rfl

/-- When `message_from_each_party` is finished. -/
theorem Sys.ByzInv.heard {s : Sys O} (hids : DistinctIds jobs) (h : s.ByzInv n jobs Cs) {j : Nat} {job : Job O} (hj : jobs[j]? = some job)
    {q : Nat} (hq : q < n) (hC : q ∉ Cs) {g : Gather} (hs : s.loc q j = .gather g) (hc : g.counter = n) : s.Heard n Cs job q g.mssgs := by
  have hl := h.loc j job hj q hq hC
  rw [hs] at hl
  obtain ⟨hg, hsaid, hinv⟩ := hl
  refine ⟨hinv.lenM, fun p hp hpC => ?_⟩
  have hhas := (Gather.count_eq hinv).1 hc p hp
  obtain ⟨d, hd⟩ := firstOf_some hhas
  have h1 : (s.sent j p q)[0]? = some d := by
    rw [h.base.cons j job hj p hpC q, fromId_gotBy hids h.base hj, List.append_assoc]
    rw [firstOf_dataFrom, List.head?_eq_getElem?] at hd
    rw [List.getElem?_append_left (by rcases List.getElem?_eq_some_iff.1 hd with ⟨h0, _⟩; exact h0)]
    exact hd
  have hval : g.mssgs[p]? = some d := by rw [hinv.vals p hp hhas, hd]
  by_cases hpq : p = q
  · subst hpq
    obtain ⟨l, h2, h3⟩ := hsaid
    exact ⟨l, d, h2, by rw [← h3]; exact h1, hval⟩
  · rcases (h.loc j job hj p hp hpC).said with h2 | ⟨l, h2, h3⟩
    · rw [h2 q] at h1
      cases h1
    · refine ⟨l, d, h2, ?_, hval⟩
      rcases h3 q with h4 | h4
      · obtain ⟨tl, htl⟩ := h4
        rw [← htl, List.getElem?_append_left (by rcases List.getElem?_eq_some_iff.1 h1 with ⟨h0, _⟩; exact h0)]
        exact h1
      · unfold Proto.gathers at hg
        rw [h4] at hg
        exact absurd (by simpa using hg : q = p).symm hpq

/-- The state of the job which has taken a step. -/
structure Sys.Moved (s s' : Sys O) (p j : Nat) (t : TState O) : Prop where
  loc : s'.loc = setLoc s.loc p j t
  sent : ∀ i a b, ¬ (i = j ∧ a = p) → s'.sent i a b = s.sent i a b
  got : ∀ i a, ¬ (i = j ∧ a = p) → s'.gotBy i a = s.gotBy i a

theorem Sys.Moved.envLe {s s' : Sys O} {p j : Nat} {t : TState O} (h : s.Moved s' p j t) (hnd : ∀ o, s.loc p j ≠ .done o) : s.EnvLe s' := by
  intro a d o ho
  unfold Sys.env at ho ⊢
  rw [h.loc]
  unfold setLoc
  by_cases hc : a = p ∧ d = j
  · exfalso
    rw [hc.1, hc.2] at ho
    split at ho
    · rename_i o' h'
      exact hnd o' h'
    · cases ho
  · rw [if_neg hc]
    exact ho

theorem Sys.Moved.inv {s s' : Sys O} {p j : Nat} {t : TState O} {job : Job O} (hm : s.Moved s' p j t) (hj : jobs[j]? = some job)
    (hnd : ∀ o, s.loc p j ≠ .done o) (h : s.ByzInv n jobs Cs) (hb : s'.ByzBase n jobs Cs) (ht : s'.ByzLoc n Cs j job p t) :
    s'.ByzInv n jobs Cs := by
  refine ⟨hb, fun i jobi hi a ha hC => ?_⟩
  rw [hm.loc]
  unfold setLoc
  by_cases hc : a = p ∧ i = j
  · rw [if_pos hc, hc.1, hc.2]
    rw [hc.2, hj, Option.some.injEq] at hi
    rw [← hi]
    exact ht
  · rw [if_neg hc]
    have hc' : ¬ (i = j ∧ a = p) := fun h => hc ⟨h.2, h.1⟩
    exact (h.loc i jobi hi a ha hC).mono (hm.envLe hnd) (funext fun b => hm.sent i a b hc') (hm.got i a hc')

theorem addressedTo_cons (q : Nat) (x : Recipient × List Nat) (rest : List (Recipient × List Nat)) :
    addressedTo q (x :: rest) = (if x.1.includes q = true then [x.2] else []) ++ addressedTo q rest := by
  have : addressedTo q (x :: rest) = addressedTo q [x] ++ addressedTo q rest := addressedTo_append q [x] rest
  rw [this]
  congr 1
  unfold addressedTo
  by_cases h : x.1.includes q = true
  · simp [h]
  · simp [h]

theorem Sys.ByzInv.act {s s' : Sys O} (hids : DistinctIds jobs) (h : s.ByzInv n jobs Cs) {p j : Nat} (hp : p < n) (hC : p ∉ Cs) {job : Job O}
    (hj : jobs[j]? = some job) (hb : s'.ByzBase n jobs Cs) (hs : s.actStep n p j job = some s') : s'.ByzInv n jobs Cs := by
  have hl := h.loc j job hj p hp hC
  unfold Sys.actStep at hs
  split at hs
  swap
  · cases hs
  rename_i hready
  have hnd : ∀ o, s.loc p j ≠ .done o := by
    intro o ho
    rw [ho] at hs
    simp [Proto.act] at hs
  cases hloc : s.loc p j with
  | done o => exact absurd hloc (hnd o)
  | fail =>
    rw [hloc] at hs
    simp [Proto.act] at hs
  | idle =>
    rw [hloc] at hs hl
    simp only [Proto.act, Option.some.injEq] at hs
    have hm : s.Moved s' p j (orFail (job.proto.sends p ((s.env p).only job.deps)) fun l => .sending l) := by
      subst hs
      exact ⟨rfl, fun _ _ _ _ => rfl, fun _ _ _ => rfl⟩
    refine hm.inv hj hnd h hb ?_
    have hsent : s'.sent j p = s.sent j p := by subst hs; rfl
    have hgot : s'.gotBy j p = s.gotBy j p := by subst hs; rfl
    cases hse : job.proto.sends p ((s.env p).only job.deps) with
    | none => exact Or.inl (by rw [hsent]; exact hl.1)
    | some l =>
      refine ⟨⟨l, Sys.Spoke.mono (hm.envLe hnd) ⟨hready, hse⟩, fun q => ?_⟩, by rw [hgot]; exact hl.2⟩
      rw [hsent, hl.1 q]
      rfl
  | sending rest =>
    rw [hloc] at hs hl
    obtain ⟨⟨l, h1, h2⟩, h3⟩ := hl
    cases rest with
    | nil =>
      simp only [Proto.act, Option.some.injEq] at hs
      have hm : s.Moved s' p j (if job.proto.gathers p then .gather (Gather.init n) else .wait) := by
        subst hs
        exact ⟨rfl, fun _ _ _ _ => rfl, fun _ _ _ => rfl⟩
      refine hm.inv hj hnd h hb ?_
      have hsent : s'.sent j p = s.sent j p := by subst hs; rfl
      have hgot : s'.gotBy j p = s.gotBy j p := by subst hs; rfl
      have hall : s'.SaidAll j job p := ⟨l, h1.mono (hm.envLe hnd), fun q => by
        rw [hsent, ← h2 q]
        simp [addressedTo]⟩
      by_cases hg : job.proto.gathers p = true
      · rw [if_pos hg]
        refine ⟨hg, hall, ?_⟩
        rw [hgot, h3]
        exact Gather.inv_init n
      · rw [if_neg hg]
        unfold Proto.gathers at hg
        cases hL : job.proto.leader with
        | none =>
          rw [hL] at hg
          simp at hg
        | some L =>
          rw [hL] at hg
          refine ⟨by rw [hL]; simp, fun _ => hall, fun h0 => ?_⟩
          rw [hL, Option.some.injEq] at h0
          subst h0
          simp at hg
    | cons x rest =>
      simp only [Proto.act] at hs
      split at hs
      swap
      · cases hs
      rw [Option.some.injEq] at hs
      have hm : s.Moved s' p j (.sending rest) := by
        subst hs
        refine ⟨rfl, fun i a b hc => ?_, fun _ _ _ => rfl⟩
        simp only []
        rw [if_neg (fun h => hc ⟨h.1, h.2.1⟩)]
      refine hm.inv hj hnd h hb ?_
      refine ⟨⟨l, h1.mono (hm.envLe hnd), fun q => ?_⟩, by subst hs; exact h3⟩
      rw [← h2 q, addressedTo_cons, ← List.append_assoc]
      congr 1
      subst hs
      simp only [true_and]
      by_cases hq : x.1.includes q = true
      · rw [if_pos hq, if_pos hq]
      · rw [if_neg hq, if_neg hq, List.append_nil]
  | gather g =>
    rw [hloc] at hs
    rw [hloc] at hl
    obtain ⟨h1, h2, h3⟩ := hl
    by_cases hc : g.counter = n
    · have hheard := h.heard hids hj hp hC hloc hc
      cases hL : job.proto.leader with
      | none =>
        simp only [Proto.act, if_pos hc, hL, Option.some.injEq] at hs
        have hm : s.Moved s' p j (orFail (job.proto.finish p ((s.env p).only job.deps) g.mssgs) fun o => .done o) := by
          subst hs
          exact ⟨rfl, fun _ _ _ _ => rfl, fun _ _ _ => rfl⟩
        refine hm.inv hj hnd h hb ?_
        have hall := h2.mono (hm.envLe hnd) (by subst hs; rfl)
        cases hf : job.proto.finish p ((s.env p).only job.deps) g.mssgs with
        | none =>
          obtain ⟨l, h4, h5⟩ := hall
          exact Or.inr ⟨l, h4, fun q => Or.inl (by rw [h5 q])⟩
        | some o =>
          refine ⟨fun _ => ⟨hall, g.mssgs, hheard.mono (hm.envLe hnd), ?_⟩, fun h0 => absurd hL h0⟩
          rw [only_eq (hm.envLe hnd) hready]
          exact hf
      | some L =>
        have hLp : L = p := by
          unfold Proto.gathers at h1
          rw [hL] at h1
          exact (by simpa using h1 : p = L).symm
        subst hLp
        simp only [Proto.act, if_pos hc, hL, Option.some.injEq] at hs
        have hm : s.Moved s' L j (orFail (job.proto.answer ((s.env L).only job.deps) g.mssgs) fun rs =>
            .reply (rs.zipIdx.map fun r => (.one r.2, r.1))) := by
          subst hs
          exact ⟨rfl, fun _ _ _ _ => rfl, fun _ _ _ => rfl⟩
        refine hm.inv hj hnd h hb ?_
        obtain ⟨l, h4, h5⟩ := h2.mono (hm.envLe hnd) (by subst hs; rfl)
        cases hf : job.proto.answer ((s.env L).only job.deps) g.mssgs with
        | none => exact Or.inr ⟨l, h4, fun q => Or.inl (by rw [h5 q])⟩
        | some rs =>
          refine ⟨hL, [], l, g.mssgs, rs, h4, hheard.mono (hm.envLe hnd), ?_, rfl, fun q => ?_⟩
          · rw [only_eq (hm.envLe hnd) hready]
            exact hf
          · rw [h5 q]
            simp [addressedTo]
    · simp only [Proto.act, if_neg hc] at hs
      split at hs
      · cases hs
      rename_i m rest htake
      rw [Option.some.injEq] at hs
      have hm : s.Moved s' p j (orFail (g.step m.msg) fun g => .gather g) := by
        subst hs
        refine ⟨rfl, fun _ _ _ _ => rfl, fun i a hc => ?_⟩
        unfold Sys.gotBy
        simp only []
        by_cases ha : a = p
        · subst ha
          have hij : ¬ j = i := fun h => hc ⟨h.symm, rfl⟩
          rw [Function.update_self, List.filter_append]
          simp [hij]
        · rw [Function.update_of_ne ha]
      refine hm.inv hj hnd h hb ?_
      have hall := h2.mono (hm.envLe hnd) (by subst hs; rfl)
      cases hf : g.step m.msg with
      | none =>
        obtain ⟨l, h4, h5⟩ := hall
        exact Or.inr ⟨l, h4, fun q => Or.inl (by rw [h5 q])⟩
      | some g' =>
        refine ⟨h1, hall, ?_⟩
        have hgot : s'.gotBy j p = s.gotBy j p ++ [m.msg] := by
          subst hs
          unfold Sys.gotBy
          simp
        rw [hgot]
        obtain ⟨a, b, e1, e2, e3, e4⟩ := takeFirst_some htake
        have hsm : m.msg.sender < n := h.base.inbox p m (by rw [e1]; simp)
        obtain ⟨g'', h6, h7⟩ := Gather.inv_step h3 m.msg hsm
        rw [hf, Option.some.injEq] at h6
        rw [h6]
        exact h7
  | reply rest =>
    rw [hloc] at hs hl
    obtain ⟨h1, pre, h2⟩ := hl
    cases rest with
    | nil =>
      simp only [Proto.act, Option.some.injEq] at hs
      have hm : s.Moved s' p j .wait := by
        subst hs
        exact ⟨rfl, fun _ _ _ _ => rfl, fun _ _ _ => rfl⟩
      refine hm.inv hj hnd h hb ?_
      exact ⟨by rw [h1]; simp, fun h0 => absurd h1 h0, fun _ => ⟨pre, h2.mono (hm.envLe hnd) (by subst hs; rfl)⟩⟩
    | cons x rest =>
      simp only [Proto.act] at hs
      split at hs
      swap
      · cases hs
      rw [Option.some.injEq] at hs
      have hm : s.Moved s' p j (.reply rest) := by
        subst hs
        refine ⟨rfl, fun i a b hc => ?_, fun _ _ _ => rfl⟩
        simp only []
        rw [if_neg (fun h => hc ⟨h.1, h.2.1⟩)]
      refine hm.inv hj hnd h hb ?_
      obtain ⟨l, vals, rs, h3, h4, h5, h6, h7⟩ := h2
      refine ⟨h1, pre ++ [x], l, vals, rs, h3.mono (hm.envLe hnd), h4.mono (hm.envLe hnd), ?_, ?_, fun q => ?_⟩
      · rw [only_eq (hm.envLe hnd) hready]
        exact h5
      · rw [h6]
        simp
      · rw [addressedTo_append, ← List.append_assoc, ← h7 q, addressedTo_cons]
        subst hs
        simp only [true_and]
        by_cases hq : x.1.includes q = true
        · rw [if_pos hq, if_pos hq]
          simp [addressedTo]
        · rw [if_neg hq, if_neg hq]
          simp [addressedTo]
  | wait =>
    rw [hloc] at hs hl
    simp only [Proto.act] at hs
    split at hs
    · cases hs
    rename_i m rest htake
    rw [Option.some.injEq] at hs
    have hm : s.Moved s' p j (orFail (job.proto.finish p ((s.env p).only job.deps) [m.msg.data]) fun o => .done o) := by
      subst hs
      refine ⟨rfl, fun _ _ _ _ => rfl, fun i a hc => ?_⟩
      unfold Sys.gotBy
      simp only []
      by_cases ha : a = p
      · subst ha
        have hij : ¬ j = i := fun h => hc ⟨h.symm, rfl⟩
        rw [Function.update_self, List.filter_append]
        simp [hij]
      · rw [Function.update_of_ne ha]
    refine hm.inv hj hnd h hb ?_
    have hlater : s'.Later n Cs j job p := Sys.Later.mono (hm.envLe hnd) (by subst hs; rfl) hl
    cases hf : job.proto.finish p ((s.env p).only job.deps) [m.msg.data] with
    | none => exact (show s'.ByzLoc n Cs j job p .wait from hlater).said
    | some o => exact ⟨fun h0 => absurd h0 hlater.1, fun _ => hlater⟩

theorem Sys.ByzInv.step {s s' : Sys O} (hids : DistinctIds jobs) (h : s.ByzInv n jobs Cs) {e : ByzStep} (hs : s.byzStep n jobs Cs e = some s') :
    s'.ByzInv n jobs Cs := by
  have hb := Sys.byzBase_step hids h.base hs
  have hsame : s'.loc = s.loc → s'.sent = s.sent → s'.got = s.got → s'.ByzInv n jobs Cs := by
    intro h1 h2 h3
    refine ⟨hb, fun j job hj p hp hC => ?_⟩
    rw [h1]
    refine (h.loc j job hj p hp hC).mono (fun a d o ho => ?_) (by rw [h2]) (by unfold Sys.gotBy; rw [h3])
    unfold Sys.env at ho ⊢
    rw [h1]
    exact ho
  cases e with
  | inject p q id data =>
    unfold Sys.byzStep at hs
    simp only at hs
    split at hs
    · rw [Option.some.injEq] at hs
      subst hs
      exact hsame rfl rfl rfl
    · cases hs
  | sys e =>
    cases e with
    | deliver p q =>
      unfold Sys.byzStep at hs
      simp only [Sys.step] at hs
      split at hs
      · split at hs
        · cases hs
        · rw [Option.some.injEq] at hs
          subst hs
          exact hsame rfl rfl rfl
      · cases hs
    | act p j =>
      unfold Sys.byzStep at hs
      simp only at hs
      split at hs
      · cases hs
      rename_i hpC
      simp only [Sys.step] at hs
      split at hs
      swap
      · cases hs
      rename_i hp
      split at hs
      · cases hs
      rename_i job hjob
      exact h.act hids hp hpC hjob hb hs

theorem Sys.ByzInv.run {s s' : Sys O} (hids : DistinctIds jobs) (h : s.ByzInv n jobs Cs) {es : List ByzStep}
    (hs : s.byzRun n jobs Cs es = some s') : s'.ByzInv n jobs Cs := by
  induction es generalizing s with
  | nil =>
    rw [Sys.byzRun, Option.some.injEq] at hs
    rw [← hs]
    exact h
  | cons e es ih =>
    rw [Sys.byzRun, Option.bind_eq_some_iff] at hs
    obtain ⟨s1, h1, h2⟩ := hs
    exact ih (h.step hids h1) h2

end Verif
