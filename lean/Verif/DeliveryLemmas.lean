import Verif.NetworkLemmas
import Mathlib.Algebra.BigOperators.Group.Finset.Basic
import Mathlib.Algebra.Order.BigOperators.Group.Finset

/-!
# Helper lemmas about `message_from_each_party`, the forwarding tasks, statistics and connections
-/

namespace Verif

/-! ### `message_from_each_party` -/

/-- Party `p` has a message in `ms`. -/
def HasMsg (p : Nat) (ms : List RMsg) : Prop := ∃ m ∈ ms, m.sender = p

theorem firstOf_isSome (p : Nat) (ms : List RMsg) : (firstOf p ms).isSome ↔ HasMsg p ms := by
  simp [firstOf, HasMsg, List.find?_isSome]

theorem firstOf_append (p : Nat) (a b : List RMsg) : firstOf p (a ++ b) = (firstOf p a).or (firstOf p b) := by
  unfold firstOf
  rw [List.find?_append]
  cases List.find? (fun m => decide (m.sender = p)) a <;> simp

theorem firstOf_none {p : Nat} {ms : List RMsg} (h : ¬ HasMsg p ms) : firstOf p ms = none := by
  cases hf : firstOf p ms with
  | none => rfl
  | some v => exact absurd ((firstOf_isSome p ms).1 (by simp [hf])) h

theorem firstOf_some {p : Nat} {ms : List RMsg} (h : HasMsg p ms) : ∃ v, firstOf p ms = some v :=
  Option.isSome_iff_exists.1 ((firstOf_isSome p ms).2 h)

open Classical in
/-- The loop state after the messages `pre`. -/
structure Gather.Inv (n : Nat) (g : Gather) (pre : List RMsg) : Prop where
  lenM : g.mssgs.length = n
  sent : g.hasSent = (List.range n).map fun p => decide (HasMsg p pre)
  vals : ∀ p, p < n → HasMsg p pre → g.mssgs[p]? = firstOf p pre
  count : g.counter = (List.range n).countP fun p => decide (HasMsg p pre)

theorem Gather.inv_init (n : Nat) : (Gather.init n).Inv n [] := by
  refine ⟨by simp [Gather.init], ?_, ?_, ?_⟩
  · simp [Gather.init, HasMsg, List.map_const']
  · rintro p _ ⟨m, hm, _⟩; cases hm
  · simp [Gather.init, HasMsg]

theorem countP_range_set (n s : Nat) (hs : s < n) (p q : Nat → Bool) (h1 : p s = false) (h2 : q s = true)
    (h3 : ∀ i, i ≠ s → q i = p i) : (List.range n).countP q = (List.range n).countP p + 1 := by
  induction n with
  | zero => omega
  | succ n ih =>
    rw [List.range_succ, List.countP_append, List.countP_append]
    by_cases hsn : s = n
    · subst hsn
      have : (List.range s).countP q = (List.range s).countP p := by
        apply List.countP_congr
        intro i hi
        rw [h3 i (by rw [List.mem_range] at hi; omega)]
      simp [this, h1, h2]
    · rw [ih (by omega)]
      simp [h3 n (fun h => hsn h.symm)]
      omega

theorem Gather.inv_step {n : Nat} {g : Gather} {pre : List RMsg} (hg : g.Inv n pre) (m : RMsg) (hm : m.sender < n) :
    ∃ g', g.step m = some g' ∧ g'.Inv n (pre ++ [m]) := by
  classical
  have hmem : ∀ p, HasMsg p (pre ++ [m]) ↔ HasMsg p pre ∨ m.sender = p := by
    intro p; simp [HasMsg, or_and_right, exists_or]
  have hget : g.hasSent[m.sender]? = some (decide (HasMsg m.sender pre)) := by
    rw [hg.sent]; simp [hm]
  unfold Gather.step
  rw [hget]
  by_cases h : HasMsg m.sender pre
  · simp only [h, decide_true]
    have hiff : ∀ p, HasMsg p (pre ++ [m]) ↔ HasMsg p pre := by
      intro p
      rw [hmem]
      constructor
      · rintro (h' | rfl)
        · exact h'
        · exact h
      · exact Or.inl
    refine ⟨g, rfl, hg.lenM, ?_, ?_, ?_⟩
    · rw [hg.sent]; simp only [hiff]
    · intro p hp hh
      rw [hiff] at hh
      rw [hg.vals p hp hh, firstOf_append]
      obtain ⟨v, hv⟩ := firstOf_some hh
      simp [hv]
    · rw [hg.count]; simp only [hiff]
  · simp only [h, decide_false]
    refine ⟨_, rfl, by simp [hg.lenM], ?_, ?_, ?_⟩
    · apply List.ext_getElem?
      intro i
      rw [List.getElem?_set]
      simp only [hg.sent, List.getElem?_map, List.length_map, List.length_range]
      by_cases hi : m.sender = i
      · subst hi
        rw [if_pos rfl]
        rw [List.getElem?_range hm]
        simp [hm, hmem]
      · rw [if_neg hi]
        by_cases hin : i < n
        · rw [List.getElem?_range hin]
          simp [hmem, hi]
        · simp [hin]
    · intro p hp hh
      rw [firstOf_append]
      by_cases hi : m.sender = p
      · subst hi
        rw [firstOf_none h]
        simp [firstOf, hg.lenM, hm]
      · rw [List.getElem?_set_ne hi]
        have hh' : HasMsg p pre := by
          rcases (hmem p).1 hh with h' | h'
          · exact h'
          · exact absurd h' hi
        rw [hg.vals p hp hh']
        obtain ⟨v, hv⟩ := firstOf_some hh'
        simp [hv]
    · rw [hg.count]
      symm
      apply countP_range_set n m.sender hm
      · simp [h]
      · simp [hmem]
      · intro i hi
        simp [hmem, Ne.symm hi]

theorem Gather.count_eq {n : Nat} {g : Gather} {pre : List RMsg} (hg : g.Inv n pre) :
    g.counter = n ↔ ∀ p, p < n → HasMsg p pre := by
  rw [hg.count]
  conv_lhs => rhs; rw [← List.length_range (n := n)]
  rw [List.countP_eq_length]
  simp

/-- What the loop computes from the messages which arrive. -/
theorem Gather.run_spec (n : Nat) (g : Gather) (pre ms : List RMsg) (hg : g.Inv n pre) (hms : ∀ m ∈ ms, m.sender < n)
    (hpre : ∀ k, k < pre.length → ∃ p, p < n ∧ ¬ HasMsg p (pre.take k)) :
    (∃ k vals, Gather.run n g ms = .done vals (ms.drop k) ∧ k ≤ ms.length ∧ vals.length = n ∧
      (∀ p, p < n → ∃ v, vals[p]? = some v ∧ firstOf p (pre ++ ms) = some v) ∧
      (∀ p, p < n → HasMsg p (pre ++ ms.take k)) ∧
      (∀ k', k' < pre.length + k → ∃ p, p < n ∧ ¬ HasMsg p ((pre ++ ms).take k'))) ∨
    (Gather.run n g ms = .pending ∧ ∃ p, p < n ∧ ¬ HasMsg p (pre ++ ms)) := by
  induction ms generalizing g pre with
  | nil =>
    unfold Gather.run
    by_cases hc : g.counter = n
    · left
      have hall := (Gather.count_eq hg).1 hc
      refine ⟨0, g.mssgs, by simp [hc], by simp, hg.lenM, ?_, ?_, ?_⟩
      · intro p hp
        obtain ⟨v, hv⟩ := firstOf_some (hall p hp)
        exact ⟨v, by rw [hg.vals p hp (hall p hp), hv], by simpa using hv⟩
      · simpa using hall
      · simpa using hpre
    · right
      rw [if_neg hc]
      refine ⟨rfl, ?_⟩
      by_contra hcon
      push Not at hcon
      simp only [List.append_nil] at hcon
      exact hc ((Gather.count_eq hg).2 hcon)
  | cons m ms ih =>
    unfold Gather.run
    by_cases hc : g.counter = n
    · left
      have hall := (Gather.count_eq hg).1 hc
      refine ⟨0, g.mssgs, by simp [hc], by simp, hg.lenM, ?_, ?_, ?_⟩
      · intro p hp
        obtain ⟨v, hv⟩ := firstOf_some (hall p hp)
        exact ⟨v, by rw [hg.vals p hp (hall p hp), hv], by rw [firstOf_append, hv]; simp⟩
      · simpa using hall
      · intro k hk
        rw [List.take_append_of_le_length (by omega)]
        exact hpre k (by omega)
    · rw [if_neg hc]
      obtain ⟨g', h1, h2⟩ := Gather.inv_step hg m (hms m (by simp))
      rw [h1]
      have hpre' : ∀ k, k < (pre ++ [m]).length → ∃ p, p < n ∧ ¬ HasMsg p ((pre ++ [m]).take k) := by
        intro k hk
        rw [List.length_append, List.length_singleton] at hk
        rw [List.take_append_of_le_length (by omega)]
        by_cases hkl : k < pre.length
        · exact hpre k hkl
        · rw [List.take_of_length_le (by omega)]
          by_contra hcon
          push Not at hcon
          exact hc ((Gather.count_eq hg).2 hcon)
      have happ : pre ++ [m] ++ ms = pre ++ m :: ms := by simp
      rcases ih g' (pre ++ [m]) h2 (fun m' hm' => hms m' (by simp [hm'])) hpre' with
        ⟨k, vals, e1, e2, e3, e4, e5, e6⟩ | ⟨e1, e2⟩
      · left
        refine ⟨k + 1, vals, by simpa using e1, by simp; omega, e3, by rw [← happ]; exact e4, ?_, ?_⟩
        · simpa using e5
        · intro k' hk'
          rw [← happ]
          exact e6 k' (by simp; omega)
      · right
        exact ⟨e1, by rw [← happ]; exact e2⟩

/-! ### The local network -/

theorem LocalNet.run_append (n : Nat) (s : LocalNet) (a b : List LStep) :
    s.run n (a ++ b) = (s.run n a).bind fun s => s.run n b := by
  induction a generalizing s with
  | nil => rfl
  | cons e a ih =>
    simp only [List.cons_append, LocalNet.run]
    cases s.step n e with
    | none => rfl
    | some s' => simpa using ih s'

theorem LocalNet.run_snoc (n : Nat) (s : LocalNet) (a : List LStep) (e : LStep) :
    s.run n (a ++ [e]) = (s.run n a).bind fun s => s.step n e := by
  rw [LocalNet.run_append]
  congr 1
  funext s
  simp only [LocalNet.run]
  cases s.step n e <;> rfl

/-- The queued messages of `p` for `j`. -/
def queuedFor (p j : Nat) (q : List SMsg) : List NetMsg := sentTo p j (q.map fun m => (p, m))

theorem sentTo_append (p j : Nat) (a b : List (Nat × SMsg)) : sentTo p j (a ++ b) = sentTo p j a ++ sentTo p j b := by
  simp [sentTo]

theorem sentTo_single (p j p' : Nat) (m : SMsg) : sentTo p j [(p', m)] =
    if p' = p ∧ m.dest.includes j then [⟨m.protoId, m.data⟩] else [] := by
  by_cases h : p' = p ∧ m.dest.includes j = true
  · rw [if_pos h]; simp [sentTo, h]
  · rw [if_neg h]; simp only [sentTo, List.map_eq_nil_iff, List.filter_eq_nil_iff]
    intro e he
    rw [List.mem_singleton] at he
    subst he
    simpa using h

theorem queuedFor_append (p j : Nat) (a b : List SMsg) : queuedFor p j (a ++ b) = queuedFor p j a ++ queuedFor p j b := by
  simp [queuedFor, sentTo_append]

theorem queuedFor_single (p j : Nat) (m : SMsg) : queuedFor p j [m] =
    if m.dest.includes j then [⟨m.protoId, m.data⟩] else [] := by
  rw [queuedFor, List.map_singleton, sentTo_single]; simp

theorem queuedFor_cons (p j : Nat) (m : SMsg) (q : List SMsg) : queuedFor p j (m :: q) =
    queuedFor p j [m] ++ queuedFor p j q := by
  rw [← queuedFor_append]; rfl

theorem gotFrom_snoc (p : Nat) (out : List RMsg) (m : RMsg) : gotFrom p (out ++ [m]) =
    gotFrom p out ++ if m.sender = p then [⟨m.protoId, m.data⟩] else [] := by
  by_cases h : m.sender = p <;> simp [gotFrom, h]

theorem LStep.sends_append (a b : List LStep) : LStep.sends (a ++ b) = LStep.sends a ++ LStep.sends b := by
  simp [LStep.sends]

structure LocalNet.Inv (n : Nat) (s : LocalNet) (evs : List LStep) : Prop where
  order : ∀ p j, j < n → gotFrom p (s.partyOut j) ++ sentTo p j s.router ++ queuedFor p j (s.netInp p) =
    sentTo p j (LStep.sends evs)
  outside : ∀ p, n ≤ p → s.netInp p = []
  memQ : ∀ p m, m ∈ s.netInp p → (p, m) ∈ LStep.sends evs
  memR : ∀ x, x ∈ s.router → x ∈ LStep.sends evs

/-- Bound on the number of steps the local network can take by itself. -/
def LocalNet.measure (n : Nat) (s : LocalNet) : Nat := (∑ p ∈ Finset.range n, 2 * (s.netInp p).length) + s.router.length

theorem LocalNet.inv_step {n : Nat} {s s' : LocalNet} {evs : List LStep} {e : LStep} (hs : s.Inv n evs)
    (h : s.step n e = some s') : s'.Inv n (evs ++ [e]) ∧ (e.internal = true → s'.measure n < s.measure n) := by
  cases e with
  | send p m =>
    rw [LocalNet.step] at h
    split at h
    case isFalse => cases h
    rename_i hp
    rw [Option.some.injEq] at h
    subst h
    have hsd : LStep.sends (evs ++ [.send p m]) = LStep.sends evs ++ [(p, m)] := by
      rw [LStep.sends_append]; rfl
    refine ⟨⟨?_, ?_, ?_, ?_⟩, by simp [LStep.internal]⟩
    · intro p' j hj
      rw [hsd, sentTo_append, ← hs.order p' j hj, sentTo_single]
      by_cases hpp : p = p'
      · subst hpp
        simp only [Function.update_self]
        rw [queuedFor_append, queuedFor_single]
        simp
      · have hpp' : p' ≠ p := fun h => hpp h.symm
        simp [hpp, Function.update_of_ne hpp']
    · intro p' hp'
      have hpp' : p' ≠ p := by omega
      simp only [Function.update_of_ne hpp']
      exact hs.outside p' hp'
    · intro p' m' hm'
      rw [hsd]
      by_cases hpp : p' = p
      · subst hpp
        simp only [Function.update_self, List.mem_append, List.mem_singleton] at hm' ⊢
        rcases hm' with hm' | rfl
        · exact Or.inl (hs.memQ _ _ hm')
        · exact Or.inr rfl
      · simp only [Function.update_of_ne hpp] at hm'
        exact List.mem_append_left _ (hs.memQ _ _ hm')
    · intro x hx
      rw [hsd]
      exact List.mem_append_left _ (hs.memR x hx)
  | forward p =>
    have hsd : LStep.sends (evs ++ [.forward p]) = LStep.sends evs := by
      rw [LStep.sends_append]; simp [LStep.sends]
    rw [LocalNet.step] at h
    cases hq : s.netInp p with
    | nil => rw [hq] at h; cases h
    | cons m q =>
      rw [hq] at h
      simp only [Option.some.injEq] at h
      subst h
      have hpn : p < n := by
        by_contra hcon
        rw [hs.outside p (by omega)] at hq; cases hq
      refine ⟨⟨?_, ?_, ?_, ?_⟩, ?_⟩
      · intro p' j hj
        rw [hsd, ← hs.order p' j hj]
        simp only [sentTo_append, sentTo_single]
        by_cases hpp : p = p'
        · subst hpp
          rw [hq, queuedFor_cons p j m q, queuedFor_single]
          simp
        · have hpp' : p' ≠ p := fun h => hpp h.symm
          simp [hpp, Function.update_of_ne hpp']
      · intro p' hp'
        have hpp' : p' ≠ p := by omega
        simp only [Function.update_of_ne hpp']
        exact hs.outside p' hp'
      · intro p' m' hm'
        rw [hsd]
        by_cases hpp : p' = p
        · subst hpp
          simp only [Function.update_self] at hm'
          exact hs.memQ _ _ (by rw [hq]; simp [hm'])
        · simp only [Function.update_of_ne hpp] at hm'
          exact hs.memQ _ _ hm'
      · intro x hx
        rw [hsd]
        rcases List.mem_append.1 hx with hx | hx
        · exact hs.memR x hx
        · rw [List.mem_singleton] at hx; subst hx
          exact hs.memQ _ _ (by rw [hq]; simp)
      · intro _
        unfold LocalNet.measure
        simp only [List.length_append, List.length_singleton]
        rw [← Finset.add_sum_erase _ _ (Finset.mem_range.2 hpn), ← Finset.add_sum_erase _ _ (Finset.mem_range.2 hpn)]
        rw [Function.update_self, hq]
        have : ∑ x ∈ (Finset.range n).erase p, 2 * (Function.update s.netInp p q x).length =
            ∑ x ∈ (Finset.range n).erase p, 2 * (s.netInp x).length := by
          apply Finset.sum_congr rfl
          intro x hx
          rw [Function.update_of_ne (Finset.ne_of_mem_erase hx)]
        rw [this]
        simp only [List.length_cons]
        omega
  | route =>
    have hsd : LStep.sends (evs ++ [.route]) = LStep.sends evs := by
      rw [LStep.sends_append]; simp [LStep.sends]
    rw [LocalNet.step] at h
    cases hr : s.router with
    | nil => rw [hr] at h; cases h
    | cons x q =>
      obtain ⟨p, m⟩ := x
      rw [hr] at h
      simp only at h
      have hrc : ∀ p' j, sentTo p' j s.router = sentTo p' j [(p, m)] ++ sentTo p' j q := by
        intro p' j; rw [hr, ← sentTo_append]; rfl
      have hmem : ∀ x, x ∈ q → x ∈ LStep.sends evs := fun x hx => hs.memR x (by rw [hr]; simp [hx])
      cases hd : m.dest with
      | one j =>
        rw [hd] at h
        simp only at h
        split at h
        case isFalse => cases h
        rename_i hj
        rw [Option.some.injEq] at h
        subst h
        refine ⟨⟨?_, hs.outside, by rw [hsd]; exact hs.memQ, by rw [hsd]; exact hmem⟩, ?_⟩
        · intro p' j' hj'
          rw [hsd, ← hs.order p' j' hj', hrc, sentTo_single, hd]
          by_cases hjj : j' = j
          · subst hjj
            simp only [Function.update_self]
            rw [gotFrom_snoc]
            simp [Recipient.includes]
          · simp [Function.update_of_ne hjj, Recipient.includes, Ne.symm hjj]
        · intro _
          simp [LocalNet.measure, hr]
      | all =>
        rw [hd] at h
        simp only [Option.some.injEq] at h
        subst h
        refine ⟨⟨?_, hs.outside, by rw [hsd]; exact hs.memQ, by rw [hsd]; exact hmem⟩, ?_⟩
        · intro p' j' hj'
          rw [hsd, ← hs.order p' j' hj', hrc, sentTo_single, hd]
          simp only [if_pos hj']
          rw [gotFrom_snoc]
          simp [Recipient.includes]
        · intro _
          simp [LocalNet.measure, hr]

theorem LocalNet.inv_init (n : Nat) : LocalNet.init.Inv n [] := by
  refine ⟨?_, ?_, ?_, ?_⟩ <;> intros <;> simp_all [LocalNet.init, gotFrom, sentTo, queuedFor, LStep.sends]

theorem LocalNet.inv_run {n : Nat} {evs : List LStep} {s : LocalNet} (h : LocalNet.init.run n evs = some s) : s.Inv n evs := by
  induction evs using List.reverseRecOn generalizing s with
  | nil => simp only [LocalNet.run, Option.some.injEq] at h; subst h; exact LocalNet.inv_init n
  | append_singleton evs e ih =>
    rw [LocalNet.run_snoc] at h
    obtain ⟨s₁, h1, h2⟩ := Option.bind_eq_some_iff.1 h
    exact (LocalNet.inv_step (ih h1) h2).1

theorem LocalNet.internal_bound {n : Nat} {s : LocalNet} {evs evs' : List LStep} (hs : s.Inv n evs)
    (hi : ∀ e ∈ evs', e.internal = true) (h : (s.run n evs').isSome) : evs'.length ≤ s.measure n := by
  induction evs' generalizing s evs with
  | nil => simp
  | cons e es ih =>
    obtain ⟨s', hs'⟩ := Option.isSome_iff_exists.1 h
    rw [LocalNet.run] at hs'
    obtain ⟨s₁, h1, h2⟩ := Option.bind_eq_some_iff.1 hs'
    obtain ⟨i1, i2⟩ := LocalNet.inv_step hs h1
    have := ih i1 (fun e he => hi e (by simp [he])) (by rw [h2]; rfl)
    have := i2 (hi e (by simp))
    simp only [List.length_cons]
    omega

theorem LocalNet.stuck_empty {n : Nat} {s : LocalNet} {evs : List LStep} (hs : s.Inv n evs)
    (hd : ∀ x ∈ LStep.sends evs, ∀ j, x.2.dest = .one j → j < n)
    (hst : ∀ e : LStep, e.internal = true → s.step n e = none) : (∀ p, s.netInp p = []) ∧ s.router = [] := by
  constructor
  · intro p
    have := hst (.forward p) rfl
    rw [LocalNet.step] at this
    cases hq : s.netInp p with
    | nil => rfl
    | cons m q => rw [hq] at this; cases this
  · have := hst .route rfl
    rw [LocalNet.step] at this
    cases hr : s.router with
    | nil => rfl
    | cons x q =>
      exfalso
      obtain ⟨p, m⟩ := x
      have hx := hd (p, m) (hs.memR _ (by rw [hr]; simp))
      rw [hr] at this
      simp only at this hx
      cases hdst : m.dest with
      | one j => rw [hdst] at this hx; simp only [if_pos (hx j rfl)] at this; cases this
      | all => rw [hdst] at this; cases this

/-! ### The TCP network -/

theorem TcpNet.run_append (n : Nat) (s : TcpNet) (a b : List TStep) :
    s.run n (a ++ b) = (s.run n a).bind fun s => s.run n b := by
  induction a generalizing s with
  | nil => rfl
  | cons e a ih =>
    simp only [List.cons_append, TcpNet.run]
    cases s.step n e with
    | none => rfl
    | some s' => simpa using ih s'

theorem TcpNet.run_snoc (n : Nat) (s : TcpNet) (a : List TStep) (e : TStep) :
    s.run n (a ++ [e]) = (s.run n a).bind fun s => s.step n e := by
  rw [TcpNet.run_append]
  congr 1
  funext s
  simp only [TcpNet.run]
  cases s.step n e <;> rfl

theorem TStep.sends_append (a b : List TStep) : TStep.sends (a ++ b) = TStep.sends a ++ TStep.sends b := by
  simp [TStep.sends]

/-- Effect of handing a message of `p` to the task of party `j`. -/
def TcpNet.toParty (p : Nat) (m : SMsg) (s : TcpNet) (j : Nat) : TcpNet :=
  if j = p then { s with partyOut := Function.update s.partyOut p (s.partyOut p ++ [⟨m.protoId, p, m.data⟩]) }
  else { s with partyInp := fun a b => if a = p ∧ b = j then s.partyInp a b ++ [⟨m.protoId, m.data⟩] else s.partyInp a b }

theorem TcpNet.toParty_all (p : Nat) (m : SMsg) (s : TcpNet) (n : Nat) :
    (List.range n).foldl (TcpNet.toParty p m) s =
      { s with
        partyInp := fun a b => if a = p ∧ b < n ∧ b ≠ p then s.partyInp a b ++ [⟨m.protoId, m.data⟩] else s.partyInp a b
        partyOut := fun b => if b = p ∧ p < n then s.partyOut b ++ [⟨m.protoId, p, m.data⟩] else s.partyOut b } := by
  induction n with
  | zero => simp
  | succ n ih =>
    rw [List.range_succ, List.foldl_append, ih]
    simp only [List.foldl_cons, List.foldl_nil]
    unfold TcpNet.toParty
    by_cases hn : n = p
    · subst hn
      rw [if_pos rfl]
      congr 1
      · funext a b
        by_cases ha : a = n
        · subst ha
          by_cases hb : b = a
          · simp [hb]
          · have : b < a + 1 ↔ b < a := by omega
            simp [this, hb]
        · simp [ha]
      · funext b
        by_cases hb : b = n
        · subst hb; simp
        · simp [hb]
    · rw [if_neg hn]
      congr 1
      · funext a b
        by_cases ha : a = p
        · subst ha
          by_cases hb : b = n
          · subst hb; simp [hn]
          · have : b < n + 1 ↔ b < n := by omega
            simp [this, hb]
        · simp [ha]
      · funext b
        by_cases hb : b = p
        · subst hb
          have : b < n + 1 ↔ b < n := by omega
          simp [this]
        · simp [hb]

structure TcpNet.Inv (n : Nat) (s : TcpNet) (evs : List TStep) (fr : Nat → Nat → List NetMsg) : Prop where
  order : ∀ p j, j < n → gotFrom p (s.partyOut j) ++ fr p j ++ s.partyInp p j ++ queuedFor p j (s.netInp p) =
    sentTo p j (TStep.sends evs)
  stream : ∀ p j, encodeFrames (fr p j) = some (s.stream p j)
  outside : ∀ p, n ≤ p → s.netInp p = []
  inpOut : ∀ p j, ¬ (p < n ∧ j < n ∧ p ≠ j) → s.partyInp p j = [] ∧ fr p j = []
  memQ : ∀ p m, m ∈ s.netInp p → (p, m) ∈ TStep.sends evs
  frOk : ∀ p j m, m ∈ fr p j ∨ m ∈ s.partyInp p j → ∃ x ∈ TStep.sends evs, x.2.protoId = m.protoId ∧ x.2.data = m.data

/-- Weight of the messages from `p` to `j` which have not arrived. -/
def TcpNet.weight (s : TcpNet) (fr : Nat → Nat → List NetMsg) (p j : Nat) : Nat :=
  3 * (queuedFor p j (s.netInp p)).length + 2 * (s.partyInp p j).length + (fr p j).length

/-- Bound on the number of steps the TCP network can take by itself. -/
def TcpNet.measure (n : Nat) (s : TcpNet) (fr : Nat → Nat → List NetMsg) : Nat :=
  ∑ p ∈ Finset.range n, ((s.netInp p).length + ∑ j ∈ Finset.range n, s.weight fr p j)

theorem TcpNet.measure_lt {n : Nat} {s s' : TcpNet} {fr fr' : Nat → Nat → List NetMsg} (p : Nat) (hp : p < n)
    (h1 : ∀ q, (s'.netInp q).length ≤ (s.netInp q).length) (h2 : ∀ q j, j < n → s'.weight fr' q j ≤ s.weight fr q j)
    (h3 : (s'.netInp p).length < (s.netInp p).length ∨ ∃ j, j < n ∧ s'.weight fr' p j < s.weight fr p j) :
    s'.measure n fr' < s.measure n fr := by
  unfold TcpNet.measure
  apply Finset.sum_lt_sum
  · intro q _
    exact add_le_add (h1 q) (Finset.sum_le_sum fun j hj => h2 q j (Finset.mem_range.1 hj))
  · refine ⟨p, Finset.mem_range.2 hp, ?_⟩
    rcases h3 with h3 | ⟨j, hj, h3⟩
    · exact add_lt_add_of_lt_of_le h3 (Finset.sum_le_sum fun j hj => h2 p j (Finset.mem_range.1 hj))
    · exact add_lt_add_of_le_of_lt (h1 p) (Finset.sum_lt_sum (fun j hj => h2 p j (Finset.mem_range.1 hj))
        ⟨j, Finset.mem_range.2 hj, h3⟩)

theorem TcpNet.inv_step {n : Nat} {s s' : TcpNet} {evs : List TStep} {e : TStep} {fr : Nat → Nat → List NetMsg}
    (hs : s.Inv n evs fr) (hok : ∀ x ∈ TStep.sends evs, x.2.Ok n) (h : s.step n e = some s') :
    ∃ fr', s'.Inv n (evs ++ [e]) fr' ∧ (e.internal = true → s'.measure n fr' < s.measure n fr) := by
  cases e with
  | send p m =>
    rw [TcpNet.step] at h
    split at h
    case isFalse => cases h
    rename_i hp
    rw [Option.some.injEq] at h
    subst h
    have hsd : TStep.sends (evs ++ [.send p m]) = TStep.sends evs ++ [(p, m)] := by
      rw [TStep.sends_append]; rfl
    refine ⟨fr, ⟨?_, hs.stream, ?_, hs.inpOut, ?_, ?_⟩, by simp [TStep.internal]⟩
    · intro p' j hj
      rw [hsd, sentTo_append, ← hs.order p' j hj, sentTo_single]
      by_cases hpp : p = p'
      · subst hpp
        simp only [Function.update_self]
        rw [queuedFor_append, queuedFor_single]
        simp
      · have hpp' : p' ≠ p := fun h => hpp h.symm
        simp [hpp, Function.update_of_ne hpp']
    · intro p' hp'
      have hpp' : p' ≠ p := by omega
      simp only [Function.update_of_ne hpp']
      exact hs.outside p' hp'
    · intro p' m' hm'
      rw [hsd]
      by_cases hpp : p' = p
      · subst hpp
        simp only [Function.update_self, List.mem_append, List.mem_singleton] at hm' ⊢
        rcases hm' with hm' | rfl
        · exact Or.inl (hs.memQ _ _ hm')
        · exact Or.inr rfl
      · simp only [Function.update_of_ne hpp] at hm'
        exact List.mem_append_left _ (hs.memQ _ _ hm')
    · intro p' j m' hm'
      obtain ⟨x, hx, hx'⟩ := hs.frOk p' j m' hm'
      exact ⟨x, by rw [hsd]; exact List.mem_append_left _ hx, hx'⟩
  | route p =>
    have hsd : TStep.sends (evs ++ [.route p]) = TStep.sends evs := by
      rw [TStep.sends_append]; simp [TStep.sends]
    rw [TcpNet.step] at h
    cases hq : s.netInp p with
    | nil => rw [hq] at h; cases h
    | cons m q =>
      rw [hq] at h
      simp only at h
      have hpn : p < n := by
        by_contra hcon
        rw [hs.outside p (by omega)] at hq; cases hq
      have hmem : (p, m) ∈ TStep.sends evs := hs.memQ p m (by rw [hq]; simp)
      -- common part
      have common : ∀ (s'' : TcpNet), s''.netInp = Function.update s.netInp p q → s''.stream = s.stream →
          (∀ a b, s''.partyInp a b = if a = p ∧ (m.dest.includes b = true ∧ b < n) ∧ b ≠ p then s.partyInp a b ++ [⟨m.protoId, m.data⟩] else s.partyInp a b) →
          (∀ b, s''.partyOut b = if b = p ∧ m.dest.includes p = true then s.partyOut b ++ [⟨m.protoId, p, m.data⟩] else s.partyOut b) →
          ∃ fr', s''.Inv n (evs ++ [.route p]) fr' ∧ (TStep.internal (.route p) = true → s''.measure n fr' < s.measure n fr) := by
        intro s'' e1 e2 e3 e4
        refine ⟨fr, ⟨?_, by rw [e2]; exact hs.stream, ?_, ?_, ?_, ?_⟩, ?_⟩
        · intro p' j hj
          rw [hsd, ← hs.order p' j hj, e1, e3, e4]
          by_cases hpp : p' = p
          · subst hpp
            rw [Function.update_self, hq, queuedFor_cons, queuedFor_single]
            by_cases hjp : j = p'
            · subst hjp
              have hio := hs.inpOut j j (by simp)
              rw [hio.1, hio.2]
              by_cases hinc : m.dest.includes j = true
              · simp [hinc, gotFrom_snoc]
              · simp [hinc]
            · by_cases hinc : m.dest.includes j = true
              · simp [hinc, hjp, hj]
              · simp [hinc, hjp]
          · rw [Function.update_of_ne hpp]
            simp only [hpp, false_and, if_false]
            by_cases hjp : j = p ∧ m.dest.includes p = true
            · rw [if_pos hjp, gotFrom_snoc, if_neg (fun h => hpp (Eq.symm h))]; simp
            · rw [if_neg hjp]
        · intro p' hp'
          have hpp' : p' ≠ p := by omega
          rw [e1, Function.update_of_ne hpp']
          exact hs.outside p' hp'
        · intro p' j hpj
          rw [e3, if_neg]
          · exact hs.inpOut p' j hpj
          · rintro ⟨rfl, ⟨_, hj⟩, hne⟩
            exact hpj ⟨hpn, hj, hne.symm⟩
        · intro p' m' hm'
          rw [hsd]
          rw [e1] at hm'
          by_cases hpp : p' = p
          · subst hpp
            rw [Function.update_self] at hm'
            exact hs.memQ _ _ (by rw [hq]; simp [hm'])
          · rw [Function.update_of_ne hpp] at hm'
            exact hs.memQ _ _ hm'
        · intro p' j m' hm'
          rw [hsd]
          rw [e3] at hm'
          split at hm'
          · rw [List.mem_append, List.mem_singleton] at hm'
            rcases hm' with hm' | hm' | rfl
            · exact hs.frOk p' j m' (Or.inl hm')
            · exact hs.frOk p' j m' (Or.inr hm')
            · exact ⟨(p, m), hmem, rfl, rfl⟩
          · exact hs.frOk p' j m' hm'
        · intro _
          apply TcpNet.measure_lt p hpn
          · intro q'
            rw [e1]
            by_cases hqq : q' = p
            · subst hqq; rw [Function.update_self, hq]; simp
            · rw [Function.update_of_ne hqq]
          · intro q' j hj
            unfold TcpNet.weight
            rw [e1, e3]
            by_cases hqq : q' = p
            · subst hqq
              rw [Function.update_self, hq, queuedFor_cons, queuedFor_single]
              by_cases hinc : m.dest.includes j = true
              · rw [if_pos hinc]
                split <;> simp <;> omega
              · simp [hinc]
            · rw [Function.update_of_ne hqq]
              simp [hqq]
          · left
            rw [e1, Function.update_self, hq]; simp
      cases hd : m.dest with
      | one j =>
        rw [hd] at h
        simp only at h
        split at h
        case isFalse => cases h
        rename_i hj
        rw [Option.some.injEq] at h
        by_cases hjp : j = p
        · rw [if_pos hjp] at h
          subst hjp h
          apply common
          · rfl
          · rfl
          · intro a b
            rw [if_neg]
            simp only [hd, Recipient.includes, decide_eq_true_eq]
            rintro ⟨_, ⟨h1, _⟩, h2⟩
            exact h2 h1.symm
          · intro b
            by_cases hb : b = j
            · subst hb; simp [hd, Recipient.includes]
            · simp [hb]
        · rw [if_neg hjp] at h
          subst h
          apply common
          · rfl
          · rfl
          · intro a b
            simp only [hd, Recipient.includes, decide_eq_true_eq]
            have : (a = p ∧ b = j) ↔ (a = p ∧ (j = b ∧ b < n) ∧ b ≠ p) := by
              constructor
              · rintro ⟨h1, rfl⟩; exact ⟨h1, ⟨rfl, hj⟩, hjp⟩
              · rintro ⟨h1, ⟨h2, _⟩, _⟩; exact ⟨h1, h2.symm⟩
            simp only [this]
          · intro b
            simp only [hd, Recipient.includes, decide_eq_true_eq]
            rw [if_neg]
            rintro ⟨_, h2⟩
            exact hjp h2
      | all =>
        rw [hd] at h
        simp only [Option.some.injEq] at h
        have hfold := TcpNet.toParty_all p m { s with netInp := Function.update s.netInp p q } n
        unfold TcpNet.toParty at hfold
        rw [hfold] at h
        subst h
        apply common
        · rfl
        · rfl
        · intro a b
          simp [hd, Recipient.includes]
        · intro b
          simp [hd, Recipient.includes, hpn]
  | write p j =>
    have hsd : TStep.sends (evs ++ [.write p j]) = TStep.sends evs := by
      rw [TStep.sends_append]; simp [TStep.sends]
    rw [TcpNet.step] at h
    cases hq : s.partyInp p j with
    | nil => rw [hq] at h; cases h
    | cons m q =>
      rw [hq] at h
      simp only at h
      obtain ⟨bytes, hb, h⟩ := Option.map_eq_some_iff.1 h
      subst h
      have hpj : p < n ∧ j < n ∧ p ≠ j := by
        by_contra hcon
        rw [(hs.inpOut p j hcon).1] at hq; cases hq
      refine ⟨fun a b => if a = p ∧ b = j then fr a b ++ [m] else fr a b, ⟨?_, ?_, hs.outside, ?_, by rw [hsd]; exact hs.memQ, ?_⟩, ?_⟩
      · intro p' j' hj'
        rw [hsd, ← hs.order p' j' hj']
        by_cases hc : p' = p ∧ j' = j
        · obtain ⟨rfl, rfl⟩ := hc
          simp [hq]
        · simp [hc]
      · intro p' j'
        by_cases hc : p' = p ∧ j' = j
        · obtain ⟨rfl, rfl⟩ := hc
          simp only [and_self, if_true]
          exact encodeFrames_snoc (hs.stream p' j') hb
        · simp only [if_neg hc]; exact hs.stream p' j'
      · intro p' j' hc
        have hcc : ¬ (p' = p ∧ j' = j) := by
          rintro ⟨rfl, rfl⟩; exact hc hpj
        simp only [if_neg hcc]
        exact hs.inpOut p' j' hc
      · intro p' j' m' hm'
        rw [hsd]
        apply hs.frOk p' j' m'
        by_cases hc : p' = p ∧ j' = j
        · simp only [if_pos hc, List.mem_append, List.mem_singleton] at hm'
          obtain ⟨rfl, rfl⟩ := hc
          rw [hq]
          rcases hm' with (hm' | rfl) | hm'
          · exact Or.inl hm'
          · right; simp
          · right; simp [hm']
        · simpa only [if_neg hc] using hm'
      · intro _
        apply TcpNet.measure_lt p hpj.1
        · intro _; exact le_refl _
        · intro q' j' _
          unfold TcpNet.weight
          by_cases hc : q' = p ∧ j' = j
          · obtain ⟨rfl, rfl⟩ := hc
            simp [hq]
            omega
          · simp [hc]
        · right
          refine ⟨j, hpj.2.1, ?_⟩
          unfold TcpNet.weight
          simp [hq]
          omega
  | read p j =>
    have hsd : TStep.sends (evs ++ [.read p j]) = TStep.sends evs := by
      rw [TStep.sends_append]; simp [TStep.sends]
    rw [TcpNet.step] at h
    have hstr := hs.stream p j
    cases hf : fr p j with
    | nil =>
      rw [hf, encodeFrames, Option.some.injEq] at hstr
      rw [← hstr] at h
      cases h
    | cons m q =>
      have hpj : p < n ∧ j < n ∧ p ≠ j := by
        by_contra hcon
        rw [(hs.inpOut p j hcon).2] at hf; cases hf
      have hmok : m.Ok := by
        obtain ⟨x, hx, hx1, hx2⟩ := hs.frOk p j m (by rw [hf]; simp)
        have := hok x hx
        unfold NetMsg.Ok
        rw [← hx1, ← hx2]
        exact this.2
      rw [hf, encodeFrames] at hstr
      obtain ⟨f, hfm, hstr⟩ := Option.bind_eq_some_iff.1 hstr
      obtain ⟨b, hb, hstr⟩ := Option.map_eq_some_iff.1 hstr
      rw [← hstr, recvFrame_encode m hmok f b hfm] at h
      simp only [Option.some.injEq] at h
      subst h
      refine ⟨fun a c => if a = p ∧ c = j then q else fr a c, ⟨?_, ?_, hs.outside, ?_, by rw [hsd]; exact hs.memQ, ?_⟩, ?_⟩
      · intro p' j' hj'
        rw [hsd, ← hs.order p' j' hj']
        by_cases hjj : j' = j
        · subst hjj
          simp only [Function.update_self]
          rw [gotFrom_snoc]
          by_cases hpp : p' = p
          · subst hpp; simp [hf]
          · simp [hpp, Ne.symm hpp]
        · simp [hjj]
      · intro p' j'
        by_cases hc : p' = p ∧ j' = j
        · simp only [if_pos hc]; exact hb
        · simp only [if_neg hc]; exact hs.stream p' j'
      · intro p' j' hc
        have hcc : ¬ (p' = p ∧ j' = j) := by
          rintro ⟨rfl, rfl⟩; exact hc hpj
        simp only [if_neg hcc]
        exact hs.inpOut p' j' hc
      · intro p' j' m' hm'
        rw [hsd]
        apply hs.frOk p' j' m'
        by_cases hc : p' = p ∧ j' = j
        · simp only [if_pos hc] at hm'
          obtain ⟨rfl, rfl⟩ := hc
          rw [hf]
          rcases hm' with hm' | hm'
          · left; simp [hm']
          · right; exact hm'
        · simpa only [if_neg hc] using hm'
      · intro _
        apply TcpNet.measure_lt p hpj.1
        · intro _; exact le_refl _
        · intro q' j' _
          unfold TcpNet.weight
          by_cases hc : q' = p ∧ j' = j
          · obtain ⟨rfl, rfl⟩ := hc
            simp [hf]
          · simp [hc]
        · right
          refine ⟨j, hpj.2.1, ?_⟩
          unfold TcpNet.weight
          simp [hf]

theorem TcpNet.inv_init (n : Nat) : TcpNet.init.Inv n [] fun _ _ => [] := by
  refine ⟨?_, ?_, ?_, ?_, ?_, ?_⟩ <;> intros <;>
    simp_all [TcpNet.init, gotFrom, sentTo, queuedFor, TStep.sends, encodeFrames]

theorem TcpNet.inv_run {n : Nat} {evs : List TStep} {s : TcpNet} (hok : ∀ x ∈ TStep.sends evs, x.2.Ok n)
    (h : TcpNet.init.run n evs = some s) : ∃ fr, s.Inv n evs fr := by
  induction evs using List.reverseRecOn generalizing s with
  | nil => simp only [TcpNet.run, Option.some.injEq] at h; subst h; exact ⟨_, TcpNet.inv_init n⟩
  | append_singleton evs e ih =>
    rw [TcpNet.run_snoc] at h
    obtain ⟨s₁, h1, h2⟩ := Option.bind_eq_some_iff.1 h
    have hok' : ∀ x ∈ TStep.sends evs, x.2.Ok n := fun x hx => hok x (by rw [TStep.sends_append]; simp [hx])
    obtain ⟨fr, hfr⟩ := ih hok' h1
    obtain ⟨fr', hfr', _⟩ := TcpNet.inv_step hfr hok' h2
    exact ⟨fr', hfr'⟩

theorem TStep.sends_internal {evs : List TStep} (h : ∀ e ∈ evs, e.internal = true) : TStep.sends evs = [] := by
  unfold TStep.sends
  rw [List.filterMap_eq_nil_iff]
  intro e he
  have := h e he
  cases e <;> simp_all [TStep.internal]

theorem TcpNet.internal_bound {n : Nat} {s : TcpNet} {evs evs' : List TStep} {fr : Nat → Nat → List NetMsg}
    (hs : s.Inv n evs fr) (hok : ∀ x ∈ TStep.sends evs, x.2.Ok n)
    (hi : ∀ e ∈ evs', e.internal = true) (h : (s.run n evs').isSome) : evs'.length ≤ s.measure n fr := by
  induction evs' generalizing s evs fr with
  | nil => simp
  | cons e es ih =>
    obtain ⟨s', hs'⟩ := Option.isSome_iff_exists.1 h
    rw [TcpNet.run] at hs'
    obtain ⟨s₁, h1, h2⟩ := Option.bind_eq_some_iff.1 hs'
    obtain ⟨fr', i1, i2⟩ := TcpNet.inv_step hs hok h1
    have hok' : ∀ x ∈ TStep.sends (evs ++ [e]), x.2.Ok n := by
      intro x hx
      rw [TStep.sends_append, TStep.sends_internal (evs := [e]) (by simpa using hi e (by simp)), List.append_nil] at hx
      exact hok x hx
    have := ih i1 hok' (fun e he => hi e (by simp [he])) (by rw [h2]; rfl)
    have := i2 (hi e (by simp))
    simp only [List.length_cons]
    omega

theorem TcpNet.stuck_empty {n : Nat} {s : TcpNet} {evs : List TStep} {fr : Nat → Nat → List NetMsg}
    (hs : s.Inv n evs fr) (hok : ∀ x ∈ TStep.sends evs, x.2.Ok n)
    (hst : ∀ e : TStep, e.internal = true → s.step n e = none) :
    (∀ p, s.netInp p = []) ∧ (∀ p j, s.partyInp p j = []) ∧ ∀ p j, fr p j = [] := by
  refine ⟨?_, ?_, ?_⟩
  · intro p
    have := hst (.route p) rfl
    rw [TcpNet.step] at this
    cases hq : s.netInp p with
    | nil => rfl
    | cons m q =>
      exfalso
      have hx := (hok (p, m) (hs.memQ _ _ (by rw [hq]; simp))).1
      rw [hq] at this
      simp only at this hx
      cases hdst : m.dest with
      | one j => rw [hdst] at this hx; simp only [if_pos (hx j rfl)] at this; cases this
      | all => rw [hdst] at this; cases this
  · intro p j
    have := hst (.write p j) rfl
    rw [TcpNet.step] at this
    cases hq : s.partyInp p j with
    | nil => rfl
    | cons m q =>
      exfalso
      obtain ⟨x, hx, hx1, hx2⟩ := hs.frOk p j m (by rw [hq]; simp)
      have hmok : m.Ok := by
        unfold NetMsg.Ok
        rw [← hx1, ← hx2]
        exact (hok x hx).2
      obtain ⟨f, hf, _⟩ := encodeFrame_ok hmok
      rw [hq] at this
      simp [hf] at this
  · intro p j
    have := hst (.read p j) rfl
    rw [TcpNet.step] at this
    have hstr := hs.stream p j
    cases hf : fr p j with
    | nil => rfl
    | cons m q =>
      exfalso
      obtain ⟨x, hx, hx1, hx2⟩ := hs.frOk p j m (by rw [hf]; simp)
      have hmok : m.Ok := by
        unfold NetMsg.Ok
        rw [← hx1, ← hx2]
        exact (hok x hx).2
      rw [hf, encodeFrames] at hstr
      obtain ⟨f, hfm, hstr⟩ := Option.bind_eq_some_iff.1 hstr
      obtain ⟨b, hb, hstr⟩ := Option.map_eq_some_iff.1 hstr
      rw [← hstr, recvFrame_encode m hmok f b hfm] at this
      cases this

/-! ### Statistics -/

theorem statsRun_spec (n : Nat) (st : List (Nat × Nat)) (ms : List RMsg) (hst : st.length = n) (hms : ∀ m ∈ ms, m.sender < n) :
    ∃ st', statsRun st ms = some st' ∧ st'.length = n ∧ ∀ p, p < n → ∃ a b, st[p]? = some a ∧ st'[p]? = some b ∧
      b = (a.1 + (bytesFrom p ms).1, a.2 + (bytesFrom p ms).2) := by
  induction ms generalizing st with
  | nil =>
    refine ⟨st, rfl, hst, ?_⟩
    intro p hp
    exact ⟨st[p], st[p], by simp [hst, hp], by simp [hst, hp], by simp [bytesFrom]⟩
  | cons m ms ih =>
    have hm := hms m (by simp)
    rw [statsRun, statsIncrement, List.getElem?_eq_getElem (by omega), Option.map_some, Option.bind_some]
    obtain ⟨st', h1, h2, h3⟩ := ih (st.set m.sender (st[m.sender].1 + m.data.length, st[m.sender].2 + (m.data.length + m.protoId.length)))
      (by simp [hst]) (fun m' hm' => hms m' (by simp [hm']))
    refine ⟨st', h1, h2, ?_⟩
    intro p hp
    obtain ⟨a, b, ha, hb, hab⟩ := h3 p hp
    refine ⟨st[p], b, by simp [hst, hp], hb, ?_⟩
    by_cases hpm : m.sender = p
    · subst hpm
      rw [List.getElem?_set_self (by omega), Option.some.injEq] at ha
      rw [hab, ← ha]
      simp only [bytesFrom, List.filter_cons_of_pos, decide_true, List.map_cons, List.sum_cons]
      ext <;> simp <;> omega
    · rw [List.getElem?_set_ne hpm, List.getElem?_eq_getElem (by omega), Option.some.injEq] at ha
      rw [hab, ← ha]
      simp [bytesFrom, hpm]

end Verif
