import Verif.AsyncFault
import Verif.AsyncExitLemmas

/-!
# Lemmas on failures
-/

namespace Verif

variable {O : Type} {n : Nat} {jobs : List (Job O)}

/-- The state without failures: messages which are lost are still under way, and tasks which have ended are only slow. -/
structure Slow (x : FailSys O) (s : Sys O) : Prop where
  loc : s.loc = x.sys.loc
  inbox : s.inbox = x.sys.inbox
  chan : ∀ p q, ∃ l, s.chan p q = x.sys.chan p q ++ l ∧ (x.broken p q = false → l = [])

theorem Slow.env {x : FailSys O} {s : Sys O} (h : Slow x s) (p : Nat) : s.env p = x.sys.env p := by
  unfold Sys.env
  rw [h.loc]

theorem Slow.step_act {x x' : FailSys O} {s : Sys O} (h : Slow x s) {p j : Nat} (hs : x.step n jobs (.sys (.act p j)) = some x') :
    ∃ s', s.step n jobs (.act p j) = some s' ∧ Slow x' s' := by
  unfold FailSys.step at hs
  simp only [] at hs
  split at hs
  · cases hs
  · obtain ⟨t, ht, rfl⟩ := Option.map_eq_some_iff.1 hs
    unfold Sys.step at ht ⊢
    simp only [] at ht ⊢
    split at ht
    · next hp =>
      rw [if_pos hp]
      split at ht
      · cases ht
      · next job hj =>
        unfold Sys.actStep at ht ⊢
        rw [h.env p, h.loc, h.inbox]
        split at ht
        · next hr =>
          simp only [hr, if_true]
          split at ht
          · next dest data next hact =>
            split at ht
            · next hk =>
              rw [if_pos hk]
              cases ht
              refine ⟨_, rfl, rfl, rfl, fun a b => ?_⟩
              obtain ⟨l, h1, h2⟩ := h.chan a b
              unfold FailSys.lose
              simp only []
              by_cases hb : x.broken a b = true
              · simp only [hb, if_true]
                by_cases hc : a = p ∧ dest.includes b = true
                · rw [if_pos hc, h1]
                  exact ⟨l ++ [⟨j, ⟨job.id, p, data⟩⟩], by simp, fun hf => by simp at hf⟩
                · rw [if_neg hc, h1]
                  exact ⟨l, rfl, fun hf => by simp at hf⟩
              · have hb' : x.broken a b = false := by simpa using hb
                simp only [hb', Bool.false_eq_true, if_false]
                rw [h2 hb', List.append_nil] at h1
                rw [h1]
                refine ⟨[], ?_, fun _ => rfl⟩
                rw [List.append_nil]
            · cases ht
          · next next hact =>
            split at ht
            · cases ht
            · next m rest hm =>
              cases ht
              refine ⟨_, rfl, rfl, rfl, fun a b => ?_⟩
              obtain ⟨l, h1, h2⟩ := h.chan a b
              unfold FailSys.lose
              simp only [ite_self]
              exact ⟨l, h1, h2⟩
          · next next hact =>
            cases ht
            refine ⟨_, rfl, rfl, rfl, fun a b => ?_⟩
            obtain ⟨l, h1, h2⟩ := h.chan a b
            unfold FailSys.lose
            simp only [ite_self]
            exact ⟨l, h1, h2⟩
          · cases ht
        · cases ht
    · cases ht

theorem Slow.step_deliver {x x' : FailSys O} {s : Sys O} (h : Slow x s) {p q : Nat} (hs : x.step n jobs (.sys (.deliver p q)) = some x') :
    ∃ s', s.step n jobs (.deliver p q) = some s' ∧ Slow x' s' := by
  unfold FailSys.step at hs
  simp only [] at hs
  obtain ⟨t, ht, rfl⟩ := Option.map_eq_some_iff.1 hs
  unfold Sys.step at ht ⊢
  simp only [] at ht ⊢
  split at ht
  · next hp =>
    rw [if_pos hp]
    obtain ⟨l, h1, h2⟩ := h.chan p q
    split at ht
    · cases ht
    · next m rest hm =>
      cases ht
      rw [hm] at h1
      rw [h1]
      refine ⟨_, rfl, h.loc, ?_, fun a b => ?_⟩
      · simp only [h.inbox]
      · simp only []
        by_cases hc : a = p ∧ b = q
        · rw [if_pos hc, if_pos hc]
          obtain ⟨rfl, rfl⟩ := hc
          exact ⟨l, rfl, h2⟩
        · rw [if_neg hc, if_neg hc]
          exact h.chan a b
  · cases ht

/-- Every execution with failures is, for the parties, an execution without failures in which some tasks and messages are slow. -/
theorem slow_run {x x' : FailSys O} {es : List FailStep} (h : x.run n jobs es = some x') {es0 : List SysStep} {s : Sys O}
    (h0 : Sys.start.run n jobs es0 = some s) (hs : Slow x s) :
    ∃ es1 s', Sys.start.run n jobs es1 = some s' ∧ Slow x' s' ∧ es1.length = es0.length + progress es := by
  induction es generalizing x es0 s with
  | nil =>
    cases h
    exact ⟨es0, s, h0, hs, rfl⟩
  | cons e es ih =>
    unfold FailSys.run at h
    obtain ⟨x1, h1, h2⟩ := Option.bind_eq_some_iff.1 h
    match e with
    | .sys (.act p j) =>
      obtain ⟨s1, i1, i2⟩ := hs.step_act h1
      obtain ⟨es1, s', j1, j2, j3⟩ := ih h2 (Sys.run_snoc h0 i1) i2
      refine ⟨es1, s', j1, j2, ?_⟩
      rw [j3]
      simp [progress]
      omega
    | .sys (.deliver p q) =>
      obtain ⟨s1, i1, i2⟩ := hs.step_deliver h1
      obtain ⟨es1, s', j1, j2, j3⟩ := ih h2 (Sys.run_snoc h0 i1) i2
      refine ⟨es1, s', j1, j2, ?_⟩
      rw [j3]
      simp [progress]
      omega
    | .kill p j =>
      cases h1
      obtain ⟨es1, s', j1, j2, j3⟩ := ih h2 h0 ⟨hs.loc, hs.inbox, hs.chan⟩
      exact ⟨es1, s', j1, j2, by rw [j3]; simp [progress]⟩
    | .cut p q keep =>
      cases h1
      obtain ⟨es1, s', j1, j2, j3⟩ := ih h2 h0 (by
        refine ⟨hs.loc, hs.inbox, fun a b => ?_⟩
        obtain ⟨l, i1, i2⟩ := hs.chan a b
        simp only []
        by_cases hc : a = p ∧ b = q
        · rw [if_pos hc, if_pos hc]
          exact ⟨(x.sys.chan a b).drop keep ++ l, by rw [← List.append_assoc, List.take_append_drop, i1], fun hf => by simp at hf⟩
        · rw [if_neg hc, if_neg hc]
          exact ⟨l, i1, i2⟩)
      exact ⟨es1, s', j1, j2, by rw [j3]; simp [progress]⟩

theorem slow_start : Slow (FailSys.start : FailSys O) Sys.start := ⟨rfl, rfl, fun _ _ => ⟨[], rfl, fun _ => rfl⟩⟩

/-! ## Nobody finishes a job without the others -/

variable {x : Expected O} {s : Sys O}

/-- A job is finished only when all parties have started it. -/
theorem Sys.Inv.all_started (h : s.Inv n jobs x) (hplan : Plan n jobs x) {j : Nat} {job : Job O} (hj : jobs[j]? = some job) {p : Nat} (hp : p < n)
    (hs : s.Finished p j) {q : Nat} (hq : q < n) : s.Started q j := by
  cases hlead : job.proto.leader with
  | none => exact h.barrier hj hlead hp hs hq
  | some L =>
    have hL := hplan.leader j job hj L hlead
    obtain ⟨o, ho⟩ := hs
    have hl := h.loc j job hj p hp
    rw [ho] at hl
    have h1 := hl.2.2.2 L hL
    have h2 := h.got_prefix j L p
    rw [h1] at h2
    have hfull : (x.full j job L p).length = (x.first j job L p).length + 1 := by
      unfold Expected.full
      rw [if_pos hlead]
      simp
    have h3 := h2.length_le
    have hg : job.proto.gathers L = true := by
      unfold Proto.gathers
      rw [hlead]
      simp
    have key : x.first j job q L <+: dataFrom q (s.gotBy j L) → s.Started q j := by
      intro h4
      refine sent_started h hj hq hL fun h0 => ?_
      have h5 := h4.trans (h.got_prefix j q L)
      rw [h0, List.prefix_nil] at h5
      unfold Expected.first at h5
      rw [if_pos hg] at h5
      simp at h5
    have hLL := h.loc j job hj L hL
    cases ht : s.loc L j with
    | idle =>
      rw [ht] at hLL
      rw [hLL.1 p hp] at h3
      rw [hfull] at h3
      simp at h3
    | sending rest =>
      rw [ht] at hLL
      obtain ⟨_, ⟨pre, i1, i2⟩, _⟩ := hLL
      have i3 := hplan.addressed j job hj L hL p hp
      have i4 : (addressedTo p pre).length ≤ (x.first j job L p).length := by
        unfold Expected.first
        rw [← i3, i1, List.filter_append, List.map_append]
        unfold addressedTo
        simp
      rw [i2 p hp] at h3
      omega
    | gather g =>
      rw [ht] at hLL
      rw [hLL.2.2.1 p hp] at h3
      omega
    | reply rest =>
      rw [ht] at hLL
      exact key (by rw [hLL.2.2.2 q hq])
    | wait =>
      rw [ht] at hLL
      exact key (by rw [hLL.2.2.2 q hq])
    | done o =>
      rw [ht] at hLL
      exact key (by rw [hLL.2.2.2 q hq]; exact List.prefix_append _ _)
    | fail =>
      rw [ht] at hLL
      exact hLL.elim

/-- A task which has ended stays in its state. -/
theorem FailSys.dead_step {y y' : FailSys O} {e : FailStep} (h : y.step n jobs e = some y') {p j : Nat} (hd : y.dead p j = true) :
    y'.dead p j = true ∧ y'.sys.loc p j = y.sys.loc p j := by
  match e with
  | .sys (.act a b) =>
    unfold FailSys.step at h
    simp only [] at h
    split at h
    · cases h
    · next hab =>
      obtain ⟨t, ht, rfl⟩ := Option.map_eq_some_iff.1 h
      refine ⟨hd, ?_⟩
      have hne : ¬ (p = a ∧ j = b) := by
        rintro ⟨rfl, rfl⟩
        exact hab hd
      have hset : ∀ t, setLoc y.sys.loc a b t p j = y.sys.loc p j := fun t => by
        unfold setLoc
        rw [if_neg hne]
      unfold FailSys.lose
      unfold Sys.step at ht
      simp only [] at ht ⊢
      split at ht
      · split at ht
        · cases ht
        · unfold Sys.actStep at ht
          split at ht
          · split at ht
            · split at ht
              · cases ht
                simp only [hset]
              · cases ht
            · split at ht
              · cases ht
              · cases ht
                simp only [hset]
            · cases ht
              simp only [hset]
            · cases ht
          · cases ht
      · cases ht
  | .sys (.deliver a b) =>
    unfold FailSys.step at h
    simp only [] at h
    obtain ⟨t, ht, rfl⟩ := Option.map_eq_some_iff.1 h
    refine ⟨hd, ?_⟩
    unfold Sys.step at ht
    simp only [] at ht
    split at ht
    · split at ht
      · cases ht
      · cases ht
        rfl
    · cases ht
  | .kill a b =>
    cases h
    refine ⟨?_, rfl⟩
    simp only []
    split
    · rfl
    · exact hd
  | .cut a b k =>
    cases h
    exact ⟨hd, rfl⟩

theorem FailSys.dead_run {y y' : FailSys O} {es : List FailStep} (h : y.run n jobs es = some y') {p j : Nat} (hd : y.dead p j = true) :
    y'.dead p j = true ∧ y'.sys.loc p j = y.sys.loc p j := by
  induction es generalizing y with
  | nil =>
    cases h
    exact ⟨hd, rfl⟩
  | cons e es ih =>
    unfold FailSys.run at h
    obtain ⟨y1, h1, h2⟩ := Option.bind_eq_some_iff.1 h
    obtain ⟨i1, i2⟩ := FailSys.dead_step h1 hd
    obtain ⟨k1, k2⟩ := ih h2 i1
    exact ⟨k1, k2.trans i2⟩

theorem FailSys.run_append (y : FailSys O) (a b : List FailStep) : y.run n jobs (a ++ b) = (y.run n jobs a).bind fun y => y.run n jobs b := by
  induction a generalizing y with
  | nil => rfl
  | cons e a ih =>
    simp only [List.cons_append, FailSys.run]
    cases y.step n jobs e with
    | none => rfl
    | some y' => exact ih y'

theorem run_crash (y : FailSys O) (p k : Nat) :
    ∃ y', y.run n jobs (crashAtStart p k) = some y' ∧ y'.sys = y.sys ∧ y'.broken = y.broken ∧ ∀ j < k, y'.dead p j = true := by
  induction k with
  | zero => exact ⟨y, rfl, rfl, rfl, fun j hj => absurd hj (by omega)⟩
  | succ k ih =>
    obtain ⟨y1, h1, h2, h3, h4⟩ := ih
    unfold crashAtStart at h1 ⊢
    rw [List.range_succ, List.map_append, FailSys.run_append, h1]
    refine ⟨_, rfl, h2, h3, fun j hj => ?_⟩
    simp only []
    split
    · rfl
    · next hne =>
      have hjk : j ≠ k := fun h => hne (by simp [h])
      exact h4 j (by omega)

/-! ## Over the TCP network -/

theorem FailNet.run_append (y : FailNet O) (a b : List NetFail) : y.run n jobs (a ++ b) = (y.run n jobs a).bind fun y => y.run n jobs b := by
  induction a generalizing y with
  | nil => rfl
  | cons e a ih =>
    simp only [List.cons_append, FailNet.run]
    cases y.step n jobs e with
    | none => rfl
    | some y' => exact ih y'

/-- The steps without the failures. -/
def netSteps : List NetFail → List FStep
  | [] => []
  | .step e :: es => e :: netSteps es
  | .fail _ :: es => netSteps es

/-- An execution with failures is an execution without failures in which some steps are not taken. -/
theorem FailNet.run_full {y y' : FailNet O} {es : List NetFail} (h : y.run n jobs es = some y') :
    y.full.run n jobs (netSteps es) = some y'.full := by
  induction es generalizing y with
  | nil =>
    cases h
    rfl
  | cons e es ih =>
    obtain ⟨y1, h1, h2⟩ := Option.bind_eq_some_iff.1 h
    match e with
    | .fail lost =>
      cases h1
      have := ih h2
      exact this
    | .step e =>
      change (if y.ended e = true then none else (y.full.step n jobs e).map fun f => { y with full := f }) = some y1 at h1
      split at h1
      · cases h1
      · obtain ⟨f, hf, rfl⟩ := Option.map_eq_some_iff.1 h1
        show (y.full.step n jobs e).bind _ = _
        rw [hf, Option.bind_some]
        exact ih h2

/-- What has ended does not come back. -/
theorem FailNet.ended_run {y y' : FailNet O} {es : List NetFail} (h : y.run n jobs es = some y') {e : FStep} (he : y.ended e = true) :
    y'.ended e = true ∧ NetFail.step e ∉ es := by
  induction es generalizing y with
  | nil =>
    cases h
    exact ⟨he, by simp⟩
  | cons e1 es ih =>
    obtain ⟨y1, h1, h2⟩ := Option.bind_eq_some_iff.1 h
    match e1 with
    | .fail lost =>
      cases h1
      obtain ⟨i1, i2⟩ := ih h2 (by simp [he])
      exact ⟨i1, by simp [i2]⟩
    | .step e1 =>
      change (if y.ended e1 = true then none else (y.full.step n jobs e1).map fun f => { y with full := f }) = some y1 at h1
      split at h1
      · cases h1
      · next hne =>
        obtain ⟨f, hf, rfl⟩ := Option.map_eq_some_iff.1 h1
        obtain ⟨i1, i2⟩ := ih h2 he
        refine ⟨i1, ?_⟩
        rw [List.mem_cons, not_or]
        refine ⟨fun h => ?_, i2⟩
        cases h
        exact hne he

/-- A job which takes no steps stays where it is. -/
theorem FailNet.loc_run {y y' : FailNet O} {es : List NetFail} (h : y.run n jobs es = some y') {p j : Nat} (h1 : y.ended (.act p j) = true)
    (h2 : y.ended (.resume p j) = true) : y'.full.loc p j = y.full.loc p j := by
  induction es generalizing y with
  | nil =>
    cases h
    rfl
  | cons e es ih =>
    obtain ⟨y1, i1, i2⟩ := Option.bind_eq_some_iff.1 h
    match e with
    | .fail lost =>
      cases i1
      have := ih i2 (by simp [h1]) (by simp [h2])
      exact this
    | .step e =>
      change (if y.ended e = true then none else (y.full.step n jobs e).map fun f => { y with full := f }) = some y1 at i1
      split at i1
      · cases i1
      · next hne =>
        obtain ⟨f, hf, rfl⟩ := Option.map_eq_some_iff.1 i1
        refine (ih i2 h1 h2).trans ?_
        show f.loc p j = y.full.loc p j
        have hset : ∀ a b t, ¬ (p = a ∧ j = b) → setLoc y.full.loc a b t p j = y.full.loc p j := fun a b t hab => by
          unfold setLoc
          rw [if_neg hab]
        have keep : (∀ a b t, e = .act a b ∨ e = .resume a b → setLoc y.full.loc a b t p j = y.full.loc p j) := by
          intro a b t hab
          refine hset a b t fun h => hne ?_
          obtain ⟨rfl, rfl⟩ := h
          rcases hab with rfl | rfl
          · exact h1
          · exact h2
        cases e with
        | act a b =>
          unfold Full.step at hf
          simp only [] at hf
          split at hf
          · split at hf
            · cases hf
            · unfold Full.actStep at hf
              split at hf
              · split at hf
                · cases hf
                  exact keep a b _ (Or.inl rfl)
                · cases hf
                  rfl
                · cases hf
                  exact keep a b _ (Or.inl rfl)
                · cases hf
              · cases hf
          · cases hf
        | resume a b =>
          unfold Full.step at hf
          simp only [] at hf
          split at hf
          · split at hf
            · unfold Full.resumeStep at hf
              split at hf
              · cases hf
              · split at hf
                · cases hf
                  exact keep a b _ (Or.inr rfl)
                · cases hf
            · cases hf
          · cases hf
        | route a =>
          unfold Full.step Full.routeStep at hf
          simp only [] at hf
          split at hf
          · split at hf
            · cases hf
            · split at hf
              · cases hf
                rfl
              · cases hf
          · cases hf
        | take a b =>
          unfold Full.step at hf
          simp only [] at hf
          split at hf
          · split at hf
            · cases hf
            · obtain ⟨_, _, rfl⟩ := Option.map_eq_some_iff.1 hf
              rfl
          · cases hf
        | push a b k =>
          unfold Full.step at hf
          simp only [] at hf
          split at hf
          · cases hf
            rfl
          · cases hf
        | pull a b k =>
          unfold Full.step at hf
          simp only [] at hf
          split at hf
          · cases hf
            rfl
          · cases hf
        | parse a b =>
          unfold Full.step at hf
          simp only [] at hf
          split at hf
          · split at hf
            · cases hf
              rfl
            · cases hf
          · cases hf
        | arrive a =>
          unfold Full.step at hf
          simp only [] at hf
          split at hf
          · split at hf
            · cases hf
            · obtain ⟨_, _, hf⟩ := Option.bind_eq_some_iff.1 hf
              obtain ⟨_, _, rfl⟩ := Option.map_eq_some_iff.1 hf
              rfl
          · cases hf
        | request a =>
          unfold Full.step at hf
          simp only [] at hf
          split at hf
          · split at hf
            · cases hf
            · obtain ⟨_, _, rfl⟩ := Option.map_eq_some_iff.1 hf
              rfl
          · cases hf

theorem recvFrame_suffix {bytes rest : List Nat} {m : NetMsg} (h : recvFrame bytes = .message m rest) : rest <:+ bytes := by
  unfold recvFrame at h
  split at h
  · cases h
  · simp only [] at h
    split at h
    · cases h
    · split at h
      · cases h
      · split at h
        · cases h
        · split at h
          · cases h
          · split at h
            · cases h
              exact (List.drop_suffix _ _).trans (List.drop_suffix _ _)
            · cases h

/-- Without `pull p q`, the bytes which have arrived become fewer. -/
theorem Full.inBuf_step {f g : Full O} {e : FStep} (hf : f.step n jobs e = some g) {p q : Nat} (he : ∀ k, e ≠ .pull p q k) :
    g.inBuf p q <:+ f.inBuf p q := by
  cases e with
  | act a b =>
    unfold Full.step at hf
    simp only [] at hf
    split at hf
    · split at hf
      · cases hf
      · unfold Full.actStep at hf
        split at hf
        · split at hf <;> cases hf <;> exact List.suffix_rfl
        · cases hf
    · cases hf
  | resume a b =>
    unfold Full.step at hf
    simp only [] at hf
    split at hf
    · split at hf
      · unfold Full.resumeStep at hf
        split at hf
        · cases hf
        · split at hf <;> cases hf <;> exact List.suffix_rfl
      · cases hf
    · cases hf
  | route a =>
    unfold Full.step Full.routeStep at hf
    simp only [] at hf
    split at hf
    · split at hf
      · cases hf
      · split at hf <;> cases hf <;> exact List.suffix_rfl
    · cases hf
  | take a b =>
    unfold Full.step at hf
    simp only [] at hf
    split at hf
    · split at hf
      · cases hf
      · obtain ⟨_, _, rfl⟩ := Option.map_eq_some_iff.1 hf
        exact List.suffix_rfl
    · cases hf
  | push a b k =>
    unfold Full.step at hf
    simp only [] at hf
    split at hf <;> cases hf
    exact List.suffix_rfl
  | pull a b k =>
    unfold Full.step at hf
    simp only [] at hf
    split at hf
    · cases hf
      show upd2 f.inBuf a b _ p q <:+ _
      unfold upd2
      rw [if_neg]
      rintro ⟨rfl, rfl⟩
      exact he k rfl
    · cases hf
  | parse a b =>
    unfold Full.step at hf
    simp only [] at hf
    split at hf
    · split at hf
      · next hm =>
        cases hf
        show upd2 f.inBuf a b _ p q <:+ _
        unfold upd2
        split
        · next hab =>
          obtain ⟨rfl, rfl⟩ := hab
          exact recvFrame_suffix hm
        · exact List.suffix_rfl
      · cases hf
    · cases hf
  | arrive a =>
    unfold Full.step at hf
    simp only [] at hf
    split at hf
    · split at hf
      · cases hf
      · obtain ⟨_, _, hf⟩ := Option.bind_eq_some_iff.1 hf
        obtain ⟨_, _, rfl⟩ := Option.map_eq_some_iff.1 hf
        exact List.suffix_rfl
    · cases hf
  | request a =>
    unfold Full.step at hf
    simp only [] at hf
    split at hf
    · split at hf
      · cases hf
      · obtain ⟨_, _, rfl⟩ := Option.map_eq_some_iff.1 hf
        exact List.suffix_rfl
    · cases hf

theorem FailNet.inBuf_run {y y' : FailNet O} {es : List NetFail} (h : y.run n jobs es = some y') {p q : Nat} (he : ∀ k, y.ended (.pull p q k) = true) :
    y'.full.inBuf p q <:+ y.full.inBuf p q := by
  induction es generalizing y with
  | nil =>
    cases h
    exact List.suffix_rfl
  | cons e es ih =>
    obtain ⟨y1, h1, h2⟩ := Option.bind_eq_some_iff.1 h
    match e with
    | .fail lost =>
      cases h1
      have := ih h2 fun k => by simp [he k]
      exact this
    | .step e =>
      change (if y.ended e = true then none else (y.full.step n jobs e).map fun f => { y with full := f }) = some y1 at h1
      split at h1
      · cases h1
      · next hne =>
        obtain ⟨f, hf, rfl⟩ := Option.map_eq_some_iff.1 h1
        refine (ih h2 he).trans (Full.inBuf_step hf fun k hk => hne ?_)
        rw [hk]
        exact he k

end Verif
