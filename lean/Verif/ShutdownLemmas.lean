import Verif.Shutdown
import Mathlib.Algebra.BigOperators.Group.Finset.Basic
import Mathlib.Algebra.Order.BigOperators.Group.Finset

/-! # Lemmas about the end of the network's tasks -/

namespace Verif

/-- The messages of a list which come from `p`. -/
def fromParty (p : Nat) (l : List RMsg) : List NetMsg := (l.filter fun m => m.sender = p).map fun m => ⟨m.protoId, m.data⟩

/-- The messages of a list which are for `q`. -/
def forParty (q : Nat) (l : List SMsg) : List NetMsg := (l.filter fun m => m.dest.includes q).map fun m => ⟨m.protoId, m.data⟩

/-- No request has been abandoned, and no buffer is empty. -/
def Router.Tidy (r : Router) : Prop := r.cancelled = [] ∧ ∀ id, r.mssgPool id ≠ some []

theorem Router.tidy_arrive {r : Router} (h : r.Tidy) (m : RMsg) : ∃ r', r.step (.arrive m) = some r' ∧ r'.Tidy := by
  obtain ⟨h1, h2⟩ := h
  cases hh : r.handlePool m.protoId with
  | some k =>
    simp only [Router.step, hh]
    rw [if_neg (by simp [h1])]
    exact ⟨_, rfl, h1, h2⟩
  | none =>
    simp only [Router.step, hh]
    refine ⟨_, rfl, h1, fun id => ?_⟩
    simp only [Function.update_apply]
    split_ifs
    · simp
    · exact h2 id

theorem Router.tidy_request {r : Router} (h : r.Tidy) (id : ProtocolID) (k : Nat) : ∃ r', r.step (.request id k) = some r' ∧ r'.Tidy := by
  obtain ⟨h1, h2⟩ := h
  cases hh : r.mssgPool id with
  | none =>
    simp only [Router.step, hh]
    exact ⟨_, rfl, h1, h2⟩
  | some buf =>
    cases buf with
    | nil => exact absurd hh (h2 id)
    | cons m buf =>
      simp only [Router.step, hh]
      rw [if_neg (by simp [h1])]
      refine ⟨_, rfl, h1, fun id' => ?_⟩
      simp only [Function.update_apply]
      split_ifs with a b
      · simp
      · simpa using b
      · exact h2 id'

/-- What is always true of the tasks. -/
structure DownInv (n : Nat) (s : Down) : Prop where
  ids : ∀ p < n, ∀ m ∈ s.netInp p, m.protoId.length ≤ 255
  ids' : ∀ p < n, ∀ q < n, ∀ m ∈ s.partyInp p q, m.protoId.length ≤ 255
  sr : ∀ p < n, s.sendRouter p = .running ∨ (s.sendRouter p = .ended ∧ s.held p = false ∧ s.netInp p = [])
  sn : ∀ p < n, ∀ q < n, p ≠ q → s.sender p q = .running ∨ (s.sender p q = .ended ∧ s.sendRouter p = .ended ∧ s.partyInp p q = [])
  rc : ∀ p < n, ∀ q < n, p ≠ q → s.receiver p q = .running ∨ (s.receiver p q = .ended ∧ s.sender p q = .ended ∧ s.stream p q = [])
  rr : ∀ p < n, s.recvRouter p = .loop ∨ ((s.recvRouter p = .cleanup ∨ s.recvRouter p = .ended) ∧ s.held p = false ∧ s.netOut p = [] ∧
    s.sendRouter p = .ended ∧ s.partyOut p = [] ∧ ∀ q < n, q ≠ p → s.receiver q p = .ended)
  rt : ∀ p < n, (s.router p).Tidy
  flow : ∀ p < n, ∀ q < n, s.sent p q = fromParty p (s.arrived q) ++ fromParty p (s.partyOut q)
    ++ (if p = q then [] else s.stream p q ++ s.partyInp p q) ++ forParty q (s.netInp p)

theorem fromParty_append (p : Nat) (a b : List RMsg) : fromParty p (a ++ b) = fromParty p a ++ fromParty p b := by simp [fromParty]
theorem forParty_append (p : Nat) (a b : List SMsg) : forParty p (a ++ b) = forParty p a ++ forParty p b := by simp [forParty]
theorem forParty_cons (q : Nat) (m : SMsg) (l : List SMsg) : forParty q (m :: l) = (if m.dest.includes q then [⟨m.protoId, m.data⟩] else []) ++ forParty q l := by
  unfold forParty
  rw [List.filter_cons]
  split_ifs <;> simp
theorem fromParty_one (p : Nat) (m : RMsg) : fromParty p [m] = if m.sender = p then [⟨m.protoId, m.data⟩] else [] := by
  unfold fromParty
  rw [List.filter_cons]
  split_ifs <;> simp_all

theorem downInv_start (n : Nat) : DownInv n Down.start := by
  constructor <;> simp [Down.start, Router.Tidy, Router.init, fromParty, forParty]

theorem downInv_send {n : Nat} {s s' : Down} (h : DownInv n s) {p : Nat} {m : SMsg} (e : s.sendStep n p m = some s') : DownInv n s' := by
  unfold Down.sendStep at e
  split_ifs at e with c
  obtain ⟨c1, c2, c3, c4⟩ := c
  cases e
  refine ⟨?_, h.ids', ?_, h.sn, h.rc, h.rr, h.rt, ?_⟩
  · intro a ha x hx
    simp only [Function.update_apply] at hx
    split_ifs at hx with hap
    · subst hap
      rcases List.mem_append.1 hx with hx | hx
      · exact h.ids a ha x hx
      · simp only [List.mem_singleton] at hx; subst hx; exact c4
    · exact h.ids a ha x hx
  · intro a ha
    simp only [Function.update_apply]
    rcases h.sr a ha with r | ⟨r1, r2, r3⟩
    · exact .inl r
    · split_ifs with hap
      · subst hap; rw [r2] at c2; cases c2
      · exact .inr ⟨r1, r2, r3⟩
  · intro a ha b hb
    simp only [Function.update_apply]
    by_cases hap : a = p
    · subst hap
      rw [if_pos rfl, forParty_append, forParty_cons]
      by_cases hi : m.dest.includes b = true
      · simp [hi, h.flow a ha b hb, forParty]
      · simp [hi, h.flow a ha b hb, forParty]
    · simp [hap, h.flow a ha b hb]

theorem downInv_route {n : Nat} {s s' : Down} (h : DownInv n s) {p : Nat} (e : s.routeStep n p = some s') : DownInv n s' := by
  unfold Down.routeStep at e
  by_cases c : p < n ∧ s.sendRouter p = .running
  swap
  · rw [if_neg c] at e; cases e
  rw [if_pos c] at e
  obtain ⟨c1, c2⟩ := c
  cases hq : s.netInp p with
  | nil =>
    rw [hq] at e
    simp only at e
    split_ifs at e with c3
    cases e
    have c3 : s.held p = false := by simpa using c3
    refine ⟨h.ids, h.ids', ?_, ?_, h.rc, ?_, h.rt, h.flow⟩
    · intro a ha
      simp only [Function.update_apply]
      split_ifs with hap
      · subst hap; exact .inr ⟨rfl, c3, hq⟩
      · exact h.sr a ha
    · intro a ha b hb hab
      simp only [Function.update_apply]
      rcases h.sn a ha b hb hab with r | ⟨r1, r2, r3⟩
      · exact .inl r
      · refine .inr ⟨r1, ?_, r3⟩
        split_ifs
        · rfl
        · exact r2
    · intro a ha
      simp only [Function.update_apply]
      rcases h.rr a ha with r | ⟨r1, r2, r3, r4, r5⟩
      · exact .inl r
      · refine .inr ⟨r1, r2, r3, ?_, r5⟩
        split_ifs
        · rfl
        · exact r4
  | cons m rest =>
    rw [hq] at e
    simp only at e
    have hrun : ∀ q < n, q ≠ p → s.sender p q = .running := fun q hqn hqp => by
      rcases h.sn p c1 q hqn (Ne.symm hqp) with r | ⟨-, r, -⟩
      · exact r
      · rw [c2] at r; cases r
    have halive : (s.recvRouter p).alive = true := by
      rcases h.rr p c1 with r | ⟨-, -, -, r, -⟩
      · rw [r]; rfl
      · rw [c2] at r; cases r
    rw [if_pos ⟨fun q hqn hqp _ => hrun q hqn hqp, fun _ => halive⟩] at e
    cases e
    refine ⟨?_, ?_, ?_, ?_, h.rc, ?_, h.rt, ?_⟩
    · intro a ha x hx
      simp only [Function.update_apply] at hx
      split_ifs at hx with hap
      · subst hap; exact h.ids a ha x (by rw [hq]; exact List.mem_cons_of_mem _ hx)
      · exact h.ids a ha x hx
    · intro a ha b hb x hx
      simp only at hx
      split_ifs at hx with hc
      · rcases List.mem_append.1 hx with hx | hx
        · exact h.ids' a ha b hb x hx
        · simp only [List.mem_singleton] at hx
          subst hx
          exact h.ids p c1 m (by rw [hq]; simp)
      · exact h.ids' a ha b hb x hx
    · intro a ha
      simp only [Function.update_apply]
      rcases h.sr a ha with r | ⟨r1, r2, r3⟩
      · exact .inl r
      · split_ifs with hap
        · subst hap; rw [c2] at r1; cases r1
        · exact .inr ⟨r1, r2, r3⟩
    · intro a ha b hb hab
      rcases h.sn a ha b hb hab with r | ⟨r1, r2, r3⟩
      · exact .inl r
      · refine .inr ⟨r1, r2, ?_⟩
        simp only
        rw [if_neg]
        · exact r3
        · rintro ⟨rfl, -⟩; rw [c2] at r2; cases r2
    · intro a ha
      rcases h.rr a ha with r | ⟨r1, r2, r3, r4, r5, r6⟩
      · exact .inl r
      · refine .inr ⟨r1, r2, r3, r4, ?_, r6⟩
        have hap : a ≠ p := by rintro rfl; rw [c2] at r4; cases r4
        simp only
        split_ifs
        · rw [Function.update_of_ne hap]; exact r5
        · exact r5
    · intro a ha b hb
      have hf := h.flow a ha b hb
      simp only [Function.update_apply]
      by_cases hap : a = p
      · subst hap
        rw [hq, forParty_cons] at hf
        rw [if_pos rfl, hf]
        by_cases hi : m.dest.includes b = true
        · by_cases hab : a = b
          · subst hab
            simp [hi, fromParty_append, fromParty_one]
          · have hba : b ≠ a := Ne.symm hab
            have e1 : fromParty a ((if m.dest.includes a = true then Function.update s.partyOut a (s.partyOut a ++ [⟨m.protoId, a, m.data⟩]) else s.partyOut) b) =
                fromParty a (s.partyOut b) := by
              split_ifs
              · rw [Function.update_of_ne hba]
              · rfl
            rw [e1]
            simp [hi, hab, hba]
        · have e1 : fromParty a ((if m.dest.includes a = true then Function.update s.partyOut a (s.partyOut a ++ [⟨m.protoId, a, m.data⟩]) else s.partyOut) b) =
                fromParty a (s.partyOut b) := by
            split_ifs with hia
            · rw [Function.update_of_ne]
              rintro rfl; exact hi hia
            · rfl
          rw [e1]
          simp [hi]
      · rw [if_neg hap, hf]
        have e1 : fromParty a ((if m.dest.includes p = true then Function.update s.partyOut p (s.partyOut p ++ [⟨m.protoId, p, m.data⟩]) else s.partyOut) b) =
            fromParty a (s.partyOut b) := by
          split_ifs with hip
          · by_cases hbp : b = p
            · subst hbp
              rw [Function.update_self, fromParty_append, fromParty_one]
              simp [Ne.symm hap]
            · rw [Function.update_of_ne hbp]
          · rfl
        rw [e1]
        simp [hap]

theorem downInv_write {n : Nat} {s s' : Down} (h : DownInv n s) {p q : Nat} (e : s.writeStep n p q = some s') : DownInv n s' := by
  unfold Down.writeStep at e
  by_cases c : p < n ∧ q < n ∧ p ≠ q ∧ s.sender p q = .running
  swap
  · rw [if_neg c] at e; cases e
  rw [if_pos c] at e
  obtain ⟨c1, c2, c3, c4⟩ := c
  cases hq : s.partyInp p q with
  | nil =>
    rw [hq] at e
    simp only at e
    split_ifs at e with c5
    cases e
    refine ⟨h.ids, h.ids', h.sr, ?_, ?_, h.rr, h.rt, h.flow⟩
    · intro a ha b hb hab
      simp only [set2]
      split_ifs with hc
      · obtain ⟨rfl, rfl⟩ := hc
        rcases h.sr a ha with r | ⟨r, -⟩
        · exact absurd r c5
        · exact .inr ⟨rfl, r, hq⟩
      · exact h.sn a ha b hb hab
    · intro a ha b hb hab
      simp only [set2]
      rcases h.rc a ha b hb hab with r | ⟨r1, r2, r3⟩
      · exact .inl r
      · refine .inr ⟨r1, ?_, r3⟩
        split_ifs
        · rfl
        · exact r2
  | cons m rest =>
    rw [hq] at e
    simp only at e
    have hr : s.receiver p q = .running := by
      rcases h.rc p c1 q c2 c3 with r | ⟨-, r, -⟩
      · exact r
      · rw [c4] at r; cases r
    rw [if_pos ⟨h.ids' p c1 q c2 m (by rw [hq]; simp), hr⟩] at e
    cases e
    refine ⟨h.ids, ?_, h.sr, ?_, ?_, h.rr, h.rt, ?_⟩
    · intro a ha b hb x hx
      simp only [set2] at hx
      split_ifs at hx with hc
      · obtain ⟨rfl, rfl⟩ := hc
        exact h.ids' a ha b hb x (by rw [hq]; exact List.mem_cons_of_mem _ hx)
      · exact h.ids' a ha b hb x hx
    · intro a ha b hb hab
      simp only [set2]
      rcases h.sn a ha b hb hab with r | ⟨r1, r2, r3⟩
      · exact .inl r
      · refine .inr ⟨r1, r2, ?_⟩
        rw [if_neg]
        · exact r3
        · rintro ⟨rfl, rfl⟩; rw [c4] at r1; cases r1
    · intro a ha b hb hab
      simp only [set2]
      rcases h.rc a ha b hb hab with r | ⟨r1, r2, r3⟩
      · exact .inl r
      · refine .inr ⟨r1, r2, ?_⟩
        rw [if_neg]
        · exact r3
        · rintro ⟨rfl, rfl⟩; rw [c4] at r2; cases r2
    · intro a ha b hb
      have hf := h.flow a ha b hb
      simp only [set2]
      by_cases hc : a = p ∧ b = q
      · obtain ⟨rfl, rfl⟩ := hc
        rw [hq, if_neg c3] at hf
        simp [hf, c3]
      · simp only [if_neg hc]
        exact hf

theorem downInv_read {n : Nat} {s s' : Down} (h : DownInv n s) {p q : Nat} (e : s.readStep n p q = some s') : DownInv n s' := by
  unfold Down.readStep at e
  by_cases c : p < n ∧ q < n ∧ p ≠ q ∧ s.receiver p q = .running
  swap
  · rw [if_neg c] at e; cases e
  rw [if_pos c] at e
  obtain ⟨c1, c2, c3, c4⟩ := c
  cases hq : s.stream p q with
  | nil =>
    rw [hq] at e
    simp only at e
    split_ifs at e with c5
    cases e
    refine ⟨h.ids, h.ids', h.sr, h.sn, ?_, ?_, h.rt, h.flow⟩
    · intro a ha b hb hab
      simp only [set2]
      split_ifs with hc
      · obtain ⟨rfl, rfl⟩ := hc
        rcases h.sn a ha b hb hab with r | ⟨r, -⟩
        · exact absurd r c5
        · exact .inr ⟨rfl, r, hq⟩
      · exact h.rc a ha b hb hab
    · intro a ha
      rcases h.rr a ha with r | ⟨r1, r2, r3, r4, r5, r6⟩
      · exact .inl r
      · refine .inr ⟨r1, r2, r3, r4, r5, fun b hb hba => ?_⟩
        simp only [set2]
        split_ifs
        · rfl
        · exact r6 b hb hba
  | cons m rest =>
    rw [hq] at e
    simp only at e
    have hl : s.recvRouter q = .loop := by
      rcases h.rr q c2 with r | ⟨-, -, -, -, -, r⟩
      · exact r
      · rw [r p c1 c3] at c4; cases c4
    rw [if_pos (by rw [hl]; rfl)] at e
    cases e
    refine ⟨h.ids, h.ids', h.sr, h.sn, ?_, ?_, h.rt, ?_⟩
    · intro a ha b hb hab
      simp only [set2]
      rcases h.rc a ha b hb hab with r | ⟨r1, r2, r3⟩
      · exact .inl r
      · refine .inr ⟨r1, r2, ?_⟩
        rw [if_neg]
        · exact r3
        · rintro ⟨rfl, rfl⟩; rw [c4] at r1; cases r1
    · intro a ha
      rcases h.rr a ha with r | ⟨r1, r2, r3, r4, r5, r6⟩
      · exact .inl r
      · refine .inr ⟨r1, r2, r3, r4, ?_, r6⟩
        simp only [Function.update_apply]
        rw [if_neg]
        · exact r5
        · rintro rfl; rw [hl] at r1; rcases r1 with r1 | r1 <;> cases r1
    · intro a ha b hb
      have hf := h.flow a ha b hb
      simp only [set2, Function.update_apply]
      by_cases hb' : b = q
      · subst hb'
        by_cases ha' : a = p
        · subst ha'
          rw [hq, if_neg c3] at hf
          simp [hf, c3, fromParty_append, fromParty_one]
        · simp [hf, ha', fromParty_append, fromParty_one, Ne.symm ha']
      · simp [hf, hb']

theorem downInv_clean {n : Nat} {s : Down} (h : DownInv n s) {p : Nat} (hp : p < n) (hc : s.recvRouter p = .cleanup) :
    s.cleanStep n p = some { s with recvRouter := Function.update s.recvRouter p .ended } := by
  unfold Down.cleanStep
  rw [if_pos ⟨hp, hc⟩]
  rcases h.rr p hp with r | ⟨-, r2, r3, -⟩
  · rw [hc] at r; cases r
  · by_cases hpool : ∀ id, (s.router p).mssgPool id = none
    · rw [if_pos hpool]
    · rw [if_neg hpool]
      simp only [r3, r2, Bool.false_eq_true, if_false]

theorem downInv_step {n : Nat} {s s' : Down} (h : DownInv n s) {e : DownStep} (he : s.step n e = some s') : DownInv n s' := by
  cases e with
  | send p m => exact downInv_send h he
  | route p => exact downInv_route h he
  | write p q => exact downInv_write h he
  | read p q => exact downInv_read h he
  | request p id k =>
    simp only [Down.step] at he
    split_ifs at he with c
    cases he
    refine ⟨h.ids, h.ids', h.sr, h.sn, h.rc, ?_, h.rt, h.flow⟩
    intro a ha
    rcases h.rr a ha with r | ⟨r1, r2, r3, r4, r5, r6⟩
    · exact .inl r
    · refine .inr ⟨r1, r2, ?_, r4, r5, r6⟩
      simp only [Function.update_apply]
      rw [if_neg]
      · exact r3
      · rintro rfl; rw [r2] at c; simp at c
  | drop p =>
    simp only [Down.step] at he
    split_ifs at he with c
    cases he
    refine ⟨h.ids, h.ids', ?_, h.sn, h.rc, ?_, h.rt, h.flow⟩
    · intro a ha
      rcases h.sr a ha with r | ⟨r1, r2, r3⟩
      · exact .inl r
      · refine .inr ⟨r1, ?_, r3⟩
        simp only [Function.update_apply]
        split_ifs
        · rfl
        · exact r2
    · intro a ha
      rcases h.rr a ha with r | ⟨r1, r2, r3, r4⟩
      · exact .inl r
      · refine .inr ⟨r1, ?_, r3, r4⟩
        simp only [Function.update_apply]
        split_ifs
        · rfl
        · exact r2
  | arrive p =>
    simp only [Down.step] at he
    by_cases c : p < n ∧ s.recvRouter p = .loop
    swap
    · rw [if_neg c] at he; cases he
    rw [if_pos c] at he
    obtain ⟨c1, c2⟩ := c
    cases hq : s.partyOut p with
    | nil => rw [hq] at he; cases he
    | cons m rest =>
      obtain ⟨r, hr, ht⟩ := Router.tidy_arrive (h.rt p c1) m
      rw [hq] at he
      simp only [hr] at he
      cases he
      refine ⟨h.ids, h.ids', h.sr, h.sn, h.rc, ?_, ?_, ?_⟩
      · intro a ha
        rcases h.rr a ha with x | ⟨r1, r2, r3, r4, r5, r6⟩
        · exact .inl x
        · refine .inr ⟨r1, r2, r3, r4, ?_, r6⟩
          simp only [Function.update_apply]
          rw [if_neg]
          · exact r5
          · rintro rfl; rw [c2] at r1; rcases r1 with r1 | r1 <;> cases r1
      · intro a ha
        simp only [Function.update_apply]
        split_ifs
        · exact ht
        · exact h.rt a ha
      · intro a ha b hb
        have hf := h.flow a ha b hb
        simp only [Function.update_apply]
        by_cases hbp : b = p
        · subst hbp
          rw [hq, ← List.singleton_append, fromParty_append] at hf
          simp [hf, fromParty_append]
        · simp [hf, hbp]
  | answer p =>
    simp only [Down.step] at he
    by_cases c : p < n ∧ s.recvRouter p = .loop
    swap
    · rw [if_neg c] at he; cases he
    rw [if_pos c] at he
    obtain ⟨c1, c2⟩ := c
    cases hq : s.netOut p with
    | nil => rw [hq] at he; cases he
    | cons x rest =>
      obtain ⟨id, k⟩ := x
      obtain ⟨r, hr, ht⟩ := Router.tidy_request (h.rt p c1) id k
      rw [hq] at he
      simp only [hr] at he
      cases he
      refine ⟨h.ids, h.ids', h.sr, h.sn, h.rc, ?_, ?_, h.flow⟩
      · intro a ha
        rcases h.rr a ha with x | ⟨r1, r2, r3, r4, r5, r6⟩
        · exact .inl x
        · refine .inr ⟨r1, r2, ?_, r4, r5, r6⟩
          simp only [Function.update_apply]
          rw [if_neg]
          · exact r3
          · rintro rfl; rw [c2] at r1; rcases r1 with r1 | r1 <;> cases r1
      · intro a ha
        simp only [Function.update_apply]
        split_ifs
        · exact ht
        · exact h.rt a ha
  | leave p =>
    simp only [Down.step] at he
    split_ifs at he with c
    obtain ⟨c1, c2, c3, ⟨c4, c5⟩, c6, c7⟩ := c
    cases he
    refine ⟨h.ids, h.ids', h.sr, h.sn, h.rc, ?_, h.rt, h.flow⟩
    intro a ha
    simp only [Function.update_apply]
    split_ifs with hap
    · subst hap
      refine .inr ⟨.inl rfl, c7, c6, ?_, c3, fun q hq hqa => ?_⟩
      · rcases h.sr a ha with r | ⟨r, -⟩
        · exact absurd r c4
        · exact r
      · rcases h.rc q hq a ha hqa with r | ⟨r, -⟩
        · exact absurd r (c5 q hq hqa)
        · exact r
    · exact h.rr a ha
  | clean p =>
    have he0 := he
    simp only [Down.step] at he
    by_cases hc : p < n ∧ s.recvRouter p = .cleanup
    · rw [downInv_clean h hc.1 hc.2] at he
      cases he
      refine ⟨h.ids, h.ids', h.sr, h.sn, h.rc, ?_, h.rt, h.flow⟩
      intro a ha
      simp only [Function.update_apply]
      split_ifs with hap
      · subst hap
        rcases h.rr a ha with r | ⟨-, r⟩
        · rw [hc.2] at r; cases r
        · exact .inr ⟨.inr rfl, r⟩
      · exact h.rr a ha
    · unfold Down.cleanStep at he
      rw [if_neg hc] at he
      cases he

theorem downInv_run {n : Nat} {s s' : Down} (h : DownInv n s) {es : List DownStep} (he : s.run n es = some s') : DownInv n s' := by
  induction es generalizing s with
  | nil => cases he; exact h
  | cons e es ih =>
    rw [Down.run, Option.bind_eq_some_iff] at he
    obtain ⟨t, h1, h2⟩ := he
    exact ih (downInv_step h h1) h2

/-! ### How much work there is -/

/-- 1 for a running task. -/
def Life.rank : Life → Nat
  | .running => 1
  | _ => 0

/-- The steps which a receive router still has to take to its end. -/
def RouterLife.rank : RouterLife → Nat
  | .loop => 2
  | .cleanup => 1
  | _ => 0

/-- A bound of the number of steps which the tasks can take. -/
def Down.work (n : Nat) (s : Down) : Nat :=
  (∑ p ∈ Finset.range n, (3 * n + 1) * (s.netInp p).length) + (∑ p ∈ Finset.range n, (s.partyOut p).length)
    + (∑ p ∈ Finset.range n, (s.netOut p).length) + (∑ p ∈ Finset.range n, (s.sendRouter p).rank) + (∑ p ∈ Finset.range n, (s.recvRouter p).rank)
    + (∑ p ∈ Finset.range n, ∑ q ∈ Finset.range n, 3 * (s.partyInp p q).length)
    + (∑ p ∈ Finset.range n, ∑ q ∈ Finset.range n, 2 * (s.stream p q).length)
    + (∑ p ∈ Finset.range n, ∑ q ∈ Finset.range n, (s.sender p q).rank) + (∑ p ∈ Finset.range n, ∑ q ∈ Finset.range n, (s.receiver p q).rank)

theorem sum_upd {α : Type} {n p : Nat} (hp : p < n) (w : α → Nat) (g : Nat → α) (v : α) :
    (∑ a ∈ Finset.range n, w (Function.update g p v a)) + w (g p) = (∑ a ∈ Finset.range n, w (g a)) + w v := by
  have hm := Finset.mem_range.2 hp
  rw [← Finset.add_sum_erase _ _ hm, ← Finset.add_sum_erase (Finset.range n) (fun a => w (g a)) hm]
  have : ∑ a ∈ (Finset.range n).erase p, w (Function.update g p v a) = ∑ a ∈ (Finset.range n).erase p, w (g a) :=
    Finset.sum_congr rfl fun a ha => by rw [Function.update_of_ne (Finset.ne_of_mem_erase ha)]
  rw [this]
  simp only [Function.update_self]
  omega

theorem sum_set2 {α : Type} {n p q : Nat} (hp : p < n) (hq : q < n) (w : α → Nat) (g : Nat → Nat → α) (v : α) :
    (∑ a ∈ Finset.range n, ∑ b ∈ Finset.range n, w (set2 g p q v a b)) + w (g p q) = (∑ a ∈ Finset.range n, ∑ b ∈ Finset.range n, w (g a b)) + w v := by
  have e : set2 g p q v = Function.update g p (Function.update (g p) q v) := by
    funext a b
    simp only [set2, Function.update_apply]
    by_cases ha : a = p
    · subst ha
      by_cases hb : b = q
      · simp [hb]
      · simp [hb]
    · simp [ha]
  rw [e]
  have h1 := sum_upd hp (fun r : Nat → α => ∑ b ∈ Finset.range n, w (r b)) g (Function.update (g p) q v)
  have h2 := sum_upd hq w (g p) v
  omega

theorem sum_fan {n p : Nat} (hp : p < n) (g : Nat → Nat → List NetMsg) (x : NetMsg) (c : Nat → Prop) [DecidablePred c] :
    (∑ a ∈ Finset.range n, ∑ b ∈ Finset.range n, 3 * (if a = p ∧ b ≠ p ∧ c b then g a b ++ [x] else g a b).length) + 3
      ≤ (∑ a ∈ Finset.range n, ∑ b ∈ Finset.range n, 3 * (g a b).length) + 3 * n := by
  have hm := Finset.mem_range.2 hp
  rw [← Finset.add_sum_erase _ _ hm, ← Finset.add_sum_erase (Finset.range n) (fun a => ∑ b ∈ Finset.range n, 3 * (g a b).length) hm]
  have e1 : ∑ a ∈ (Finset.range n).erase p, ∑ b ∈ Finset.range n, 3 * (if a = p ∧ b ≠ p ∧ c b then g a b ++ [x] else g a b).length =
      ∑ a ∈ (Finset.range n).erase p, ∑ b ∈ Finset.range n, 3 * (g a b).length :=
    Finset.sum_congr rfl fun a ha => Finset.sum_congr rfl fun b _ => by rw [if_neg (fun h => Finset.ne_of_mem_erase ha h.1)]
  rw [e1]
  have e2 : ∑ b ∈ (Finset.range n).erase p, 3 * (if p = p ∧ b ≠ p ∧ c b then g p b ++ [x] else g p b).length ≤
      ∑ b ∈ (Finset.range n).erase p, (3 * (g p b).length + 3) := Finset.sum_le_sum fun b _ => by split_ifs <;> simp <;> omega
  rw [Finset.sum_add_distrib, Finset.sum_const, Finset.card_erase_of_mem hm, Finset.card_range, smul_eq_mul] at e2
  rw [← Finset.add_sum_erase _ (fun b => 3 * (if p = p ∧ b ≠ p ∧ c b then g p b ++ [x] else g p b).length) hm,
    ← Finset.add_sum_erase _ (fun b => 3 * (g p b).length) hm]
  have e3 : 3 * (if p = p ∧ p ≠ p ∧ c p then g p p ++ [x] else g p p).length = 3 * (g p p).length := by simp
  rw [e3]
  omega

theorem work_lt {n : Nat} {s s' : Down} {e : DownStep} (hi : e.internal = true) (he : s.step n e = some s') : s'.work n < s.work n := by
  cases e with
  | send p m => cases hi
  | request p id k => cases hi
  | drop p => cases hi
  | route p =>
    simp only [Down.step, Down.routeStep] at he
    by_cases c : p < n ∧ s.sendRouter p = .running
    swap
    · rw [if_neg c] at he; cases he
    rw [if_pos c] at he
    obtain ⟨c1, c2⟩ := c
    cases hq : s.netInp p with
    | nil =>
      rw [hq] at he
      simp only at he
      split_ifs at he
      cases he
      have := sum_upd c1 Life.rank s.sendRouter .ended
      rw [c2] at this
      simp only [Down.work, Life.rank] at this ⊢
      omega
    | cons m rest =>
      rw [hq] at he
      simp only at he
      by_cases hcond : (∀ q < n, q ≠ p → m.dest.includes q → s.sender p q = .running) ∧ (m.dest.includes p → (s.recvRouter p).alive = true)
      · rw [if_pos hcond] at he
        cases he
        have h1 := sum_upd c1 (fun l : List SMsg => (3 * n + 1) * l.length) s.netInp rest
        have h2 := sum_fan c1 s.partyInp ⟨m.protoId, m.data⟩ (fun b => m.dest.includes b = true)
        rw [hq] at h1
        simp only [List.length_cons, Nat.mul_succ] at h1
        generalize (3 * n + 1) * rest.length = z at h1
        have h3 := sum_upd c1 List.length s.partyOut (s.partyOut p ++ [⟨m.protoId, p, m.data⟩])
        simp only [List.length_append, List.length_singleton] at h3
        simp only [Down.work]
        by_cases hinc : m.dest.includes p = true
        · simp only [hinc, if_true]
          omega
        · simp only [hinc, Bool.false_eq_true, if_false]
          omega
      · rw [if_neg hcond] at he
        cases he
        have := sum_upd c1 Life.rank s.sendRouter .panicked
        rw [c2] at this
        simp only [Down.work, Life.rank] at this ⊢
        omega
  | write p q =>
    simp only [Down.step, Down.writeStep] at he
    by_cases c : p < n ∧ q < n ∧ p ≠ q ∧ s.sender p q = .running
    swap
    · rw [if_neg c] at he; cases he
    rw [if_pos c] at he
    obtain ⟨c1, c2, c3, c4⟩ := c
    cases hq : s.partyInp p q with
    | nil =>
      rw [hq] at he
      simp only at he
      split_ifs at he
      cases he
      have := sum_set2 c1 c2 Life.rank s.sender .ended
      rw [c4] at this
      simp only [Down.work, Life.rank] at this ⊢
      omega
    | cons m rest =>
      rw [hq] at he
      simp only at he
      split_ifs at he
      · cases he
        have h1 := sum_set2 c1 c2 (fun l : List NetMsg => 3 * l.length) s.partyInp rest
        have h2 := sum_set2 c1 c2 (fun l : List NetMsg => 2 * l.length) s.stream (s.stream p q ++ [m])
        rw [hq] at h1
        simp only [List.length_cons, List.length_append, List.length_nil] at h1 h2
        simp only [Down.work]
        omega
      · cases he
        have := sum_set2 c1 c2 Life.rank s.sender .panicked
        rw [c4] at this
        simp only [Down.work, Life.rank] at this ⊢
        omega
  | read p q =>
    simp only [Down.step, Down.readStep] at he
    by_cases c : p < n ∧ q < n ∧ p ≠ q ∧ s.receiver p q = .running
    swap
    · rw [if_neg c] at he; cases he
    rw [if_pos c] at he
    obtain ⟨c1, c2, c3, c4⟩ := c
    cases hq : s.stream p q with
    | nil =>
      rw [hq] at he
      simp only at he
      split_ifs at he
      cases he
      have := sum_set2 c1 c2 Life.rank s.receiver .ended
      rw [c4] at this
      simp only [Down.work, Life.rank] at this ⊢
      omega
    | cons m rest =>
      rw [hq] at he
      simp only at he
      split_ifs at he
      · cases he
        have h1 := sum_set2 c1 c2 (fun l : List NetMsg => 2 * l.length) s.stream rest
        have h2 := sum_upd c2 List.length s.partyOut (s.partyOut q ++ [⟨m.protoId, p, m.data⟩])
        rw [hq] at h1
        simp only [List.length_cons, List.length_append, List.length_nil] at h1 h2
        simp only [Down.work]
        omega
      · cases he
        have := sum_set2 c1 c2 Life.rank s.receiver .panicked
        rw [c4] at this
        simp only [Down.work, Life.rank] at this ⊢
        omega
  | arrive p =>
    simp only [Down.step] at he
    by_cases c : p < n ∧ s.recvRouter p = .loop
    swap
    · rw [if_neg c] at he; cases he
    rw [if_pos c] at he
    obtain ⟨c1, c2⟩ := c
    cases hq : s.partyOut p with
    | nil => rw [hq] at he; cases he
    | cons m rest =>
      rw [hq] at he
      simp only at he
      cases hr : (s.router p).step (.arrive m) with
      | none =>
        simp only [hr] at he
        cases he
        have := sum_upd c1 RouterLife.rank s.recvRouter .panicked
        rw [c2] at this
        simp only [Down.work, RouterLife.rank] at this ⊢
        omega
      | some r =>
        simp only [hr] at he
        cases he
        have := sum_upd c1 List.length s.partyOut rest
        rw [hq] at this
        simp only [List.length_cons] at this
        simp only [Down.work]
        omega
  | answer p =>
    simp only [Down.step] at he
    by_cases c : p < n ∧ s.recvRouter p = .loop
    swap
    · rw [if_neg c] at he; cases he
    rw [if_pos c] at he
    obtain ⟨c1, c2⟩ := c
    cases hq : s.netOut p with
    | nil => rw [hq] at he; cases he
    | cons x rest =>
      rw [hq] at he
      simp only at he
      cases hr : (s.router p).step (.request x.1 x.2) with
      | none =>
        simp only [hr] at he
        cases he
        have := sum_upd c1 RouterLife.rank s.recvRouter .panicked
        rw [c2] at this
        simp only [Down.work, RouterLife.rank] at this ⊢
        omega
      | some r =>
        simp only [hr] at he
        cases he
        have := sum_upd c1 List.length s.netOut rest
        rw [hq] at this
        simp only [List.length_cons] at this
        simp only [Down.work]
        omega
  | leave p =>
    simp only [Down.step] at he
    split_ifs at he with c
    cases he
    have := sum_upd c.1 RouterLife.rank s.recvRouter .cleanup
    rw [c.2.1] at this
    simp only [Down.work, RouterLife.rank] at this ⊢
    omega
  | clean p =>
    simp only [Down.step, Down.cleanStep] at he
    by_cases c : p < n ∧ s.recvRouter p = .cleanup
    swap
    · rw [if_neg c] at he; cases he
    rw [if_pos c] at he
    obtain ⟨c1, c2⟩ := c
    have hend : ∀ l : RouterLife, l.rank = 0 → ({ s with recvRouter := Function.update s.recvRouter p l } : Down).work n < s.work n := by
      intro l hl
      have := sum_upd c1 RouterLife.rank s.recvRouter l
      rw [c2, hl] at this
      simp only [Down.work, RouterLife.rank] at this ⊢
      omega
    by_cases hpool : ∀ id, (s.router p).mssgPool id = none
    · rw [if_pos hpool] at he
      cases he
      exact hend _ rfl
    · rw [if_neg hpool] at he
      cases hq : s.netOut p with
      | nil =>
        rw [hq] at he
        simp only at he
        split_ifs at he
        cases he
        exact hend _ rfl
      | cons x rest =>
        rw [hq] at he
        simp only at he
        cases hb : (s.router p).mssgPool x.1 with
        | none =>
          simp only [hb] at he
          cases he
          exact hend _ rfl
        | some buf =>
          simp only [hb] at he
          cases hr : (s.router p).step (.request x.1 x.2) with
          | none =>
            simp only [hr] at he
            cases he
            exact hend _ rfl
          | some r =>
            simp only [hr] at he
            cases he
            have := sum_upd c1 List.length s.netOut rest
            rw [hq] at this
            simp only [List.length_cons] at this
            simp only [Down.work]
            omega

end Verif
