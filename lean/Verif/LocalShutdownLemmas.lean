import Verif.LocalShutdown
import Verif.ShutdownLemmas

/-! # Lemmas about the end of the local network's tasks -/

namespace Verif

/-- The messages in the routing task's queue which go from `p` to `q`. -/
def between (p q : Nat) (l : List (Nat × SMsg)) : List NetMsg := (l.filter fun x => x.1 = p ∧ x.2.dest.includes q).map fun x => ⟨x.2.protoId, x.2.data⟩

theorem between_append (p q : Nat) (a b : List (Nat × SMsg)) : between p q (a ++ b) = between p q a ++ between p q b := by simp [between]
theorem between_cons (p q : Nat) (x : Nat × SMsg) (l : List (Nat × SMsg)) :
    between p q (x :: l) = (if x.1 = p ∧ x.2.dest.includes q then [⟨x.2.protoId, x.2.data⟩] else []) ++ between p q l := by
  unfold between
  rw [List.filter_cons]
  by_cases h : x.1 = p ∧ x.2.dest.includes q = true
  · simp [h]
  · simp [h]

/-- What is always true of the tasks. -/
structure LocalInv (n : Nat) (s : LocalDown) : Prop where
  fw : ∀ p < n, s.forward p = .running ∨ (s.forward p = .ended ∧ s.held p = false ∧ s.netInp p = []) ∨ (s.forward p = .panicked ∧ s.central = .panicked)
  ce : s.central = .running ∨ (s.central = .ended ∧ s.queue = [] ∧ ∀ p < n, s.forward p = .ended) ∨ s.central = .panicked
  rr : ∀ p < n, s.recvRouter p = .loop ∨ ((s.recvRouter p = .cleanup ∨ s.recvRouter p = .ended) ∧ s.held p = false ∧ s.netOut p = [] ∧
    s.partyOut p = [] ∧ s.central ≠ .running)
  rt : ∀ p < n, (s.router p).Tidy
  flow : s.central ≠ .panicked → ∀ p < n, ∀ q < n, s.sent p q = fromParty p (s.arrived q) ++ fromParty p (s.partyOut q)
    ++ between p q s.queue ++ forParty q (s.netInp p)

theorem localInv_start (n : Nat) : LocalInv n LocalDown.start := by
  constructor <;> simp [LocalDown.start, Router.Tidy, Router.init, fromParty, forParty, between]

theorem localInv_clean {n : Nat} {s : LocalDown} (h : LocalInv n s) {p : Nat} (hp : p < n) (hc : s.recvRouter p = .cleanup) :
    s.cleanStep n p = some { s with recvRouter := Function.update s.recvRouter p .ended } := by
  unfold LocalDown.cleanStep
  rw [if_pos ⟨hp, hc⟩]
  rcases h.rr p hp with r | ⟨-, r2, r3, -⟩
  · rw [hc] at r; cases r
  · by_cases hpool : ∀ id, (s.router p).mssgPool id = none
    · rw [if_pos hpool]
    · rw [if_neg hpool]
      simp only [r3, r2, Bool.false_eq_true, if_false]

theorem localInv_route {n : Nat} {s s' : LocalDown} (h : LocalInv n s) (e : s.routeStep n = some s') :
    LocalInv n s' := by
  unfold LocalDown.routeStep at e
  by_cases c : s.central = .running
  swap
  · rw [if_neg c] at e; cases e
  rw [if_pos c] at e
  have hl : ∀ q < n, s.recvRouter q = .loop := fun q hq => by
    rcases h.rr q hq with r | ⟨-, -, -, -, r⟩
    · exact r
    · exact absurd c r
  have hf : ∀ p < n, s.forward p = .running ∨ (s.forward p = .ended ∧ s.held p = false ∧ s.netInp p = []) := fun p hp => by
    rcases h.fw p hp with r | r | ⟨-, r⟩
    · exact .inl r
    · exact .inr r
    · rw [c] at r; cases r
  cases hq : s.queue with
  | nil =>
    rw [hq] at e
    simp only at e
    split_ifs at e with c2
    cases e
    refine ⟨fun p hp => ?_, .inr (.inl ⟨rfl, rfl, fun p hp => ?_⟩), fun p hp => .inl (hl p hp), h.rt,
      fun _ => by rw [← hq]; exact h.flow (by rw [c]; simp)⟩
    · rcases hf p hp with r | r
      · exact .inl r
      · exact .inr (.inl r)
    · rcases hf p hp with r | r
      · exact absurd r (c2 p hp)
      · exact r.1
  | cons x rest =>
    obtain ⟨a, m⟩ := x
    rw [hq] at e
    simp only at e
    by_cases c2 : m.dest.known n = true ∧ ∀ q < n, m.dest.includes q → (s.recvRouter q).alive = true
    · rw [if_pos c2] at e
      cases e
      refine ⟨h.fw, .inl c, fun p hp => .inl (hl p hp), h.rt, ?_⟩
      intro hc p hp q hq'
      have hfl := h.flow hc p hp q hq'
      rw [hq, between_cons] at hfl
      by_cases hi : m.dest.includes q = true
      · by_cases hap : a = p
        · simp [hq', hi, hap, fromParty_append, fromParty_one, hfl]
        · simp [hq', hi, hap, fromParty_append, fromParty_one, hfl]
      · simp [hi, hfl]
    · rw [if_neg c2] at e
      cases e
      refine ⟨fun p hp => ?_, .inr (.inr rfl), fun p hp => .inl (hl p hp), h.rt, fun hc => absurd rfl hc⟩
      rcases hf p hp with r | r
      · exact .inl r
      · exact .inr (.inl r)

theorem localInv_pass {n : Nat} {s s' : LocalDown} (h : LocalInv n s) {p : Nat} (e : s.passStep n p = some s') : LocalInv n s' := by
  unfold LocalDown.passStep at e
  by_cases c : p < n ∧ s.forward p = .running
  swap
  · rw [if_neg c] at e; cases e
  rw [if_pos c] at e
  obtain ⟨c1, c2⟩ := c
  have hce : s.central = .running ∨ s.central = .panicked := by
    rcases h.ce with r | ⟨-, -, r⟩ | r
    · exact .inl r
    · rw [r p c1] at c2; cases c2
    · exact .inr r
  cases hq : s.netInp p with
  | nil =>
    rw [hq] at e
    simp only at e
    split_ifs at e with c3
    cases e
    refine ⟨fun a ha => ?_, ?_, h.rr, h.rt, h.flow⟩
    · simp only [Function.update_apply]
      split_ifs with hap
      · subst hap; exact .inr (.inl ⟨rfl, by simpa using c3, hq⟩)
      · exact h.fw a ha
    · rcases hce with r | r
      · exact .inl r
      · exact .inr (.inr r)
  | cons m rest =>
    rw [hq] at e
    simp only at e
    split_ifs at e with c3
    · cases e
      refine ⟨fun a ha => ?_, .inl c3, h.rr, h.rt, ?_⟩
      · rcases h.fw a ha with r | ⟨r1, r2, r3⟩ | r
        · exact .inl r
        · refine .inr (.inl ⟨r1, r2, ?_⟩)
          simp only [Function.update_apply]
          rw [if_neg]
          · exact r3
          · rintro rfl; rw [c2] at r1; cases r1
        · exact .inr (.inr r)
      · intro hc a ha b hb
        have hfl := h.flow hc a ha b hb
        simp only [Function.update_apply, between_append, between_cons]
        by_cases hap : a = p
        · subst hap
          rw [hq, forParty_cons] at hfl
          simp [hfl, between]
        · have : ¬ p = a := fun h => hap h.symm
          simp [hfl, hap, this, between]
    · cases e
      refine ⟨fun a ha => ?_, ?_, h.rr, h.rt, h.flow⟩
      · simp only [Function.update_apply]
        split_ifs with hap
        · refine .inr (.inr ⟨rfl, ?_⟩)
          rcases hce with r | r
          · exact absurd r c3
          · exact r
        · exact h.fw a ha
      · rcases hce with r | r
        · exact .inl r
        · exact .inr (.inr r)

theorem localInv_step {n : Nat} {s s' : LocalDown} (h : LocalInv n s) {e : LocalStep} (he : s.step n e = some s') : LocalInv n s' := by
  cases e with
  | pass p => exact localInv_pass h he
  | route => exact localInv_route h he
  | send p m =>
    simp only [LocalDown.step, LocalDown.sendStep] at he
    split_ifs at he with c
    obtain ⟨c1, c2, c3⟩ := c
    cases he
    refine ⟨fun a ha => ?_, h.ce, h.rr, h.rt, ?_⟩
    · rcases h.fw a ha with r | ⟨r1, r2, r3⟩ | r
      · exact .inl r
      · refine .inr (.inl ⟨r1, r2, ?_⟩)
        simp only [Function.update_apply]
        rw [if_neg]
        · exact r3
        · rintro rfl; rw [c3] at r1; cases r1
      · exact .inr (.inr r)
    · intro hc a ha b hb
      have hfl := h.flow hc a ha b hb
      simp only [Function.update_apply]
      by_cases hap : a = p
      · subst hap
        rw [if_pos rfl, forParty_append, forParty_cons]
        by_cases hi : m.dest.includes b = true
        · simp [hi, hfl, forParty]
        · simp [hi, hfl, forParty]
      · simp [hap, hfl]
  | request p id k =>
    simp only [LocalDown.step] at he
    split_ifs at he with c
    cases he
    refine ⟨h.fw, h.ce, ?_, h.rt, h.flow⟩
    intro a ha
    rcases h.rr a ha with r | ⟨r1, r2, r3, r4⟩
    · exact .inl r
    · refine .inr ⟨r1, r2, ?_, r4⟩
      simp only [Function.update_apply]
      rw [if_neg]
      · exact r3
      · rintro rfl; rw [r2] at c; simp at c
  | drop p =>
    simp only [LocalDown.step] at he
    split_ifs at he with c
    cases he
    refine ⟨?_, h.ce, ?_, h.rt, h.flow⟩
    · intro a ha
      rcases h.fw a ha with r | ⟨r1, r2, r3⟩ | r
      · exact .inl r
      · refine .inr (.inl ⟨r1, ?_, r3⟩)
        simp only [Function.update_apply]
        split_ifs
        · rfl
        · exact r2
      · exact .inr (.inr r)
    · intro a ha
      rcases h.rr a ha with r | ⟨r1, r2, r3, r4⟩
      · exact .inl r
      · refine .inr ⟨r1, ?_, r3, r4⟩
        simp only [Function.update_apply]
        split_ifs
        · rfl
        · exact r2
  | arrive p =>
    simp only [LocalDown.step] at he
    by_cases c : p < n ∧ s.recvRouter p = .loop
    swap
    · rw [if_neg c] at he; cases he
    rw [if_pos c] at he
    obtain ⟨c1, c2⟩ := c
    cases hq : s.partyOut p with
    | nil => rw [hq] at he; cases he
    | cons m rest =>
      obtain ⟨r, hr, ht⟩ := Router.tidy_arrive (h.rt p c1) m
      rw [hq] at he
      simp only [hr] at he
      cases he
      refine ⟨h.fw, h.ce, ?_, ?_, ?_⟩
      · intro a ha
        rcases h.rr a ha with x | ⟨r1, r2, r3, r4, r5⟩
        · exact .inl x
        · refine .inr ⟨r1, r2, r3, ?_, r5⟩
          simp only [Function.update_apply]
          rw [if_neg]
          · exact r4
          · rintro rfl; rw [c2] at r1; rcases r1 with r1 | r1 <;> cases r1
      · intro a ha
        simp only [Function.update_apply]
        split_ifs
        · exact ht
        · exact h.rt a ha
      · intro hc a ha b hb
        have hf := h.flow hc a ha b hb
        simp only [Function.update_apply]
        by_cases hbp : b = p
        · subst hbp
          rw [hq, ← List.singleton_append, fromParty_append] at hf
          simp [hf, fromParty_append]
        · simp [hf, hbp]
  | answer p =>
    simp only [LocalDown.step] at he
    by_cases c : p < n ∧ s.recvRouter p = .loop
    swap
    · rw [if_neg c] at he; cases he
    rw [if_pos c] at he
    obtain ⟨c1, c2⟩ := c
    cases hq : s.netOut p with
    | nil => rw [hq] at he; cases he
    | cons x rest =>
      obtain ⟨id, k⟩ := x
      obtain ⟨r, hr, ht⟩ := Router.tidy_request (h.rt p c1) id k
      rw [hq] at he
      simp only [hr] at he
      cases he
      refine ⟨h.fw, h.ce, ?_, ?_, h.flow⟩
      · intro a ha
        rcases h.rr a ha with x | ⟨r1, r2, r3, r4⟩
        · exact .inl x
        · refine .inr ⟨r1, r2, ?_, r4⟩
          simp only [Function.update_apply]
          rw [if_neg]
          · exact r3
          · rintro rfl; rw [c2] at r1; rcases r1 with r1 | r1 <;> cases r1
      · intro a ha
        simp only [Function.update_apply]
        split_ifs
        · exact ht
        · exact h.rt a ha
  | leave p =>
    simp only [LocalDown.step] at he
    split_ifs at he with c
    obtain ⟨c1, c2, c3, c4, c5, c6⟩ := c
    cases he
    refine ⟨h.fw, h.ce, ?_, h.rt, h.flow⟩
    intro a ha
    simp only [Function.update_apply]
    split_ifs with hap
    · subst hap
      exact .inr ⟨.inl rfl, c6, c5, c3, c4⟩
    · exact h.rr a ha
  | clean p =>
    simp only [LocalDown.step] at he
    by_cases hc : p < n ∧ s.recvRouter p = .cleanup
    · rw [localInv_clean h hc.1 hc.2] at he
      cases he
      refine ⟨h.fw, h.ce, ?_, h.rt, h.flow⟩
      intro a ha
      simp only [Function.update_apply]
      split_ifs with hap
      · subst hap
        rcases h.rr a ha with r | ⟨-, r⟩
        · rw [hc.2] at r; cases r
        · exact .inr ⟨.inr rfl, r⟩
      · exact h.rr a ha
    · unfold LocalDown.cleanStep at he
      rw [if_neg hc] at he
      cases he

theorem localInv_run {n : Nat} {s s' : LocalDown} (h : LocalInv n s) {es : List LocalStep} (he : s.run n es = some s') : LocalInv n s' := by
  induction es generalizing s with
  | nil => cases he; exact h
  | cons e es ih =>
    rw [LocalDown.run, Option.bind_eq_some_iff] at he
    obtain ⟨t, h1, h2⟩ := he
    exact ih (localInv_step h h1) h2

/-! ### Messages to parties which do not exist -/

/-- A message to a party which does not exist is on its way. -/
def LocalDown.Bad (n : Nat) (s : LocalDown) : Prop :=
  s.central = .panicked ∨ (∃ x ∈ s.queue, x.2.dest.known n = false) ∨ ∃ p < n, ∃ m ∈ s.netInp p, m.dest.known n = false

theorem bad_step {n : Nat} {s s' : LocalDown} (hv : LocalInv n s) {e : LocalStep} (he : s.step n e = some s') :
    s'.Bad n ↔ s.Bad n ∨ ∃ p m, e = .send p m ∧ m.dest.known n = false := by
  cases e with
  | send p m =>
    simp only [LocalDown.step, LocalDown.sendStep] at he
    split_ifs at he with c
    cases he
    simp only [LocalDown.Bad, LocalStep.send.injEq]
    constructor
    · rintro (r | r | ⟨a, ha, x, hx, hk⟩)
      · exact .inl (.inl r)
      · exact .inl (.inr (.inl r))
      · simp only [Function.update_apply] at hx
        split_ifs at hx with hap
        · subst hap
          rcases List.mem_append.1 hx with hx | hx
          · exact .inl (.inr (.inr ⟨a, ha, x, hx, hk⟩))
          · simp only [List.mem_singleton] at hx; subst hx; exact .inr ⟨a, x, ⟨rfl, rfl⟩, hk⟩
        · exact .inl (.inr (.inr ⟨a, ha, x, hx, hk⟩))
    · rintro ((r | r | ⟨a, ha, x, hx, hk⟩) | ⟨a, x, ⟨rfl, rfl⟩, hk⟩)
      · exact .inl r
      · exact .inr (.inl r)
      · refine .inr (.inr ⟨a, ha, x, ?_, hk⟩)
        simp only [Function.update_apply]
        split_ifs with hap
        · subst hap; exact List.mem_append_left _ hx
        · exact hx
      · exact .inr (.inr ⟨p, c.1, m, by simp, hk⟩)
  | pass p =>
    simp only [reduceCtorEq, false_and, exists_false, or_false]
    simp only [LocalDown.step, LocalDown.passStep] at he
    by_cases c : p < n ∧ s.forward p = .running
    swap
    · rw [if_neg c] at he; cases he
    rw [if_pos c] at he
    cases hq : s.netInp p with
    | nil =>
      rw [hq] at he
      simp only at he
      split_ifs at he
      cases he
      rfl
    | cons m rest =>
      rw [hq] at he
      simp only at he
      split_ifs at he with c3
      · cases he
        simp only [LocalDown.Bad]
        constructor
        · rintro (r | ⟨x, hx, hk⟩ | ⟨a, ha, x, hx, hk⟩)
          · exact .inl r
          · rcases List.mem_append.1 hx with hx | hx
            · exact .inr (.inl ⟨x, hx, hk⟩)
            · simp only [List.mem_singleton] at hx; subst hx; exact .inr (.inr ⟨p, c.1, m, by rw [hq]; simp, hk⟩)
          · simp only [Function.update_apply] at hx
            split_ifs at hx with hap
            · subst hap; exact .inr (.inr ⟨a, ha, x, by rw [hq]; exact List.mem_cons_of_mem _ hx, hk⟩)
            · exact .inr (.inr ⟨a, ha, x, hx, hk⟩)
        · rintro (r | ⟨x, hx, hk⟩ | ⟨a, ha, x, hx, hk⟩)
          · exact .inl r
          · exact .inr (.inl ⟨x, List.mem_append_left _ hx, hk⟩)
          · by_cases hap : a = p
            · subst hap
              rw [hq] at hx
              rcases List.mem_cons.1 hx with rfl | hx
              · exact .inr (.inl ⟨(a, x), by simp, hk⟩)
              · exact .inr (.inr ⟨a, ha, x, by simpa using hx, hk⟩)
            · exact .inr (.inr ⟨a, ha, x, by simpa [hap] using hx, hk⟩)
      · cases he
        rfl
  | route =>
    simp only [reduceCtorEq, false_and, exists_false, or_false]
    simp only [LocalDown.step, LocalDown.routeStep] at he
    by_cases c : s.central = .running
    swap
    · rw [if_neg c] at he; cases he
    rw [if_pos c] at he
    have hl : ∀ q < n, s.recvRouter q = .loop := fun q hq => by
      rcases hv.rr q hq with r | ⟨-, -, -, -, r⟩
      · exact r
      · exact absurd c r
    cases hq : s.queue with
    | nil =>
      rw [hq] at he
      simp only at he
      split_ifs at he
      cases he
      simp [LocalDown.Bad, c, hq]
    | cons x rest =>
      obtain ⟨a, m⟩ := x
      rw [hq] at he
      simp only at he
      by_cases c2 : m.dest.known n = true ∧ ∀ q < n, m.dest.includes q → (s.recvRouter q).alive = true
      · rw [if_pos c2] at he
        cases he
        simp [LocalDown.Bad, c, hq, c2.1]
      · rw [if_neg c2] at he
        cases he
        have hk : m.dest.known n = false := by
          by_contra hk
          exact c2 ⟨by simpa using hk, fun q hq _ => by rw [hl q hq]; rfl⟩
        simp [LocalDown.Bad, c, hq, hk]
  | request p id k =>
    simp only [reduceCtorEq, false_and, exists_false, or_false]
    simp only [LocalDown.step] at he
    split_ifs at he
    cases he
    rfl
  | drop p =>
    simp only [reduceCtorEq, false_and, exists_false, or_false]
    simp only [LocalDown.step] at he
    split_ifs at he
    cases he
    rfl
  | arrive p =>
    simp only [reduceCtorEq, false_and, exists_false, or_false]
    simp only [LocalDown.step] at he
    (repeat' split at he) <;> cases he
    all_goals rfl
  | answer p =>
    simp only [reduceCtorEq, false_and, exists_false, or_false]
    simp only [LocalDown.step] at he
    (repeat' split at he) <;> cases he
    all_goals rfl
  | leave p =>
    simp only [reduceCtorEq, false_and, exists_false, or_false]
    simp only [LocalDown.step] at he
    split_ifs at he
    cases he
    rfl
  | clean p =>
    simp only [reduceCtorEq, false_and, exists_false, or_false]
    simp only [LocalDown.step, LocalDown.cleanStep] at he
    (repeat' split at he) <;> cases he
    all_goals rfl

theorem bad_run {n : Nat} {s s' : LocalDown} (hv : LocalInv n s) {es : List LocalStep} (he : s.run n es = some s') :
    s'.Bad n ↔ s.Bad n ∨ SendsUnknown n es := by
  induction es generalizing s with
  | nil => cases he; simp [SendsUnknown]
  | cons e es ih =>
    rw [LocalDown.run, Option.bind_eq_some_iff] at he
    obtain ⟨t, h1, h2⟩ := he
    rw [ih (localInv_step hv h1) h2, bad_step hv h1, or_assoc]
    apply or_congr_right
    unfold SendsUnknown
    constructor
    · rintro (⟨p, m, rfl, hk⟩ | ⟨p, m, hm, hk⟩)
      · exact ⟨p, m, by simp, hk⟩
      · exact ⟨p, m, List.mem_cons_of_mem _ hm, hk⟩
    · rintro ⟨p, m, hm, hk⟩
      rcases List.mem_cons.1 hm with rfl | hm
      · exact .inl ⟨p, m, rfl, hk⟩
      · exact .inr ⟨p, m, hm, hk⟩

/-! ### How much work there is -/

/-- A bound of the number of steps which the tasks can take. -/
def LocalDown.work (n : Nat) (s : LocalDown) : Nat :=
  (∑ p ∈ Finset.range n, (n + 2) * (s.netInp p).length) + (n + 1) * s.queue.length + (∑ p ∈ Finset.range n, (s.partyOut p).length)
    + (∑ p ∈ Finset.range n, (s.netOut p).length) + (∑ p ∈ Finset.range n, (s.forward p).rank) + (∑ p ∈ Finset.range n, (s.recvRouter p).rank)
    + s.central.rank

theorem localWork_lt {n : Nat} {s s' : LocalDown} {e : LocalStep} (hi : e.internal = true) (he : s.step n e = some s') : s'.work n < s.work n := by
  have hnet : ∀ p < n, ∀ x rest, s.netOut p = x :: rest →
      (∑ a ∈ Finset.range n, (Function.update s.netOut p rest a).length) < ∑ a ∈ Finset.range n, (s.netOut a).length := by
    intro p hp x rest hq
    have := sum_upd hp List.length s.netOut rest
    rw [hq] at this
    simp only [List.length_cons] at this
    omega
  have hrr : ∀ p < n, ∀ v : RouterLife, v.rank < (s.recvRouter p).rank →
      (∑ a ∈ Finset.range n, (Function.update s.recvRouter p v a).rank) < ∑ a ∈ Finset.range n, (s.recvRouter a).rank := by
    intro p hp v hv
    have := sum_upd hp RouterLife.rank s.recvRouter v
    omega
  have hfw : ∀ p < n, ∀ v : Life, v.rank < (s.forward p).rank →
      (∑ a ∈ Finset.range n, (Function.update s.forward p v a).rank) < ∑ a ∈ Finset.range n, (s.forward a).rank := by
    intro p hp v hv
    have := sum_upd hp Life.rank s.forward v
    omega
  cases e with
  | send p m => cases hi
  | request p id k => cases hi
  | drop p => cases hi
  | pass p =>
    simp only [LocalDown.step, LocalDown.passStep] at he
    by_cases c : p < n ∧ s.forward p = .running
    swap
    · rw [if_neg c] at he; cases he
    rw [if_pos c] at he
    cases hq : s.netInp p with
    | nil =>
      rw [hq] at he
      simp only at he
      split_ifs at he
      cases he
      have := hfw p c.1 .ended (by rw [c.2]; decide)
      simp only [LocalDown.work]
      omega
    | cons m rest =>
      rw [hq] at he
      simp only at he
      split_ifs at he with c3
      · cases he
        have h1 := sum_upd c.1 (fun l : List SMsg => (n + 2) * l.length) s.netInp rest
        rw [hq] at h1
        simp only [List.length_cons, Nat.mul_succ] at h1
        simp only [LocalDown.work, List.length_append, List.length_singleton, Nat.mul_succ]
        generalize (n + 2) * rest.length = z at h1
        generalize (n + 1) * s.queue.length = y
        omega
      · cases he
        have := hfw p c.1 .panicked (by rw [c.2]; decide)
        simp only [LocalDown.work]
        omega
  | route =>
    simp only [LocalDown.step, LocalDown.routeStep] at he
    by_cases c : s.central = .running
    swap
    · rw [if_neg c] at he; cases he
    rw [if_pos c] at he
    cases hq : s.queue with
    | nil =>
      rw [hq] at he
      simp only at he
      split_ifs at he
      cases he
      simp only [LocalDown.work, c, hq, Life.rank]
      omega
    | cons x rest =>
      obtain ⟨a, m⟩ := x
      rw [hq] at he
      simp only at he
      by_cases c2 : m.dest.known n = true ∧ ∀ q < n, m.dest.includes q → (s.recvRouter q).alive = true
      · rw [if_pos c2] at he
        cases he
        have h1 : (∑ q ∈ Finset.range n, (if q < n ∧ m.dest.includes q then s.partyOut q ++ [⟨m.protoId, a, m.data⟩] else s.partyOut q).length) ≤
            ∑ q ∈ Finset.range n, ((s.partyOut q).length + 1) := Finset.sum_le_sum fun q _ => by split_ifs <;> simp
        rw [Finset.sum_add_distrib, Finset.sum_const, Finset.card_range, smul_eq_mul, mul_one] at h1
        simp only [LocalDown.work, hq, List.length_cons, Nat.mul_succ]
        generalize (n + 1) * rest.length = y
        omega
      · rw [if_neg c2] at he
        cases he
        simp only [LocalDown.work, c, hq, Life.rank, List.length_nil, Nat.mul_zero]
        omega
  | arrive p =>
    simp only [LocalDown.step] at he
    by_cases c : p < n ∧ s.recvRouter p = .loop
    swap
    · rw [if_neg c] at he; cases he
    rw [if_pos c] at he
    cases hq : s.partyOut p with
    | nil => rw [hq] at he; cases he
    | cons m rest =>
      rw [hq] at he
      cases hs : (s.router p).step (.arrive m) with
      | none =>
        simp only [hs] at he
        cases he
        have := hrr p c.1 .panicked (by rw [c.2]; decide)
        simp only [LocalDown.work]
        omega
      | some r =>
        simp only [hs] at he
        cases he
        have := sum_upd c.1 List.length s.partyOut rest
        rw [hq] at this
        simp only [List.length_cons] at this
        simp only [LocalDown.work]
        omega
  | answer p =>
    simp only [LocalDown.step] at he
    by_cases c : p < n ∧ s.recvRouter p = .loop
    swap
    · rw [if_neg c] at he; cases he
    rw [if_pos c] at he
    cases hq : s.netOut p with
    | nil => rw [hq] at he; cases he
    | cons x rest =>
      obtain ⟨id, k⟩ := x
      rw [hq] at he
      cases hs : (s.router p).step (.request id k) with
      | none =>
        simp only [hs] at he
        cases he
        have := hrr p c.1 .panicked (by rw [c.2]; decide)
        simp only [LocalDown.work]
        omega
      | some r =>
        simp only [hs] at he
        cases he
        have := hnet p c.1 _ rest hq
        simp only [LocalDown.work]
        omega
  | leave p =>
    simp only [LocalDown.step] at he
    split_ifs at he with c
    cases he
    have := hrr p c.1 .cleanup (by rw [c.2.1]; decide)
    simp only [LocalDown.work]
    omega
  | clean p =>
    simp only [LocalDown.step, LocalDown.cleanStep] at he
    by_cases c : p < n ∧ s.recvRouter p = .cleanup
    swap
    · rw [if_neg c] at he; cases he
    rw [if_pos c] at he
    have hend : ∀ v : RouterLife, v.rank = 0 → ({ s with recvRouter := Function.update s.recvRouter p v } : LocalDown).work n < s.work n := by
      intro v hv
      have := hrr p c.1 v (by rw [c.2, hv]; decide)
      simp only [LocalDown.work]
      omega
    by_cases hpool : ∀ id, (s.router p).mssgPool id = none
    · rw [if_pos hpool] at he
      cases he
      exact hend _ rfl
    · rw [if_neg hpool] at he
      cases hq : s.netOut p with
      | nil =>
        rw [hq] at he
        simp only at he
        split_ifs at he
        cases he
        exact hend _ rfl
      | cons x rest =>
        obtain ⟨id, k⟩ := x
        rw [hq] at he
        simp only at he
        cases hm : (s.router p).mssgPool id with
        | none =>
          simp only [hm] at he
          cases he
          exact hend _ rfl
        | some buf =>
          simp only [hm] at he
          cases hs : (s.router p).step (.request id k) with
          | none =>
            simp only [hs] at he
            cases he
            exact hend _ rfl
          | some r =>
            simp only [hs] at he
            cases he
            have := hnet p c.1 _ rest hq
            simp only [LocalDown.work]
            omega

end Verif
