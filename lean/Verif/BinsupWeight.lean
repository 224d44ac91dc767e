import Verif.BinsupRank
import Mathlib.Algebra.BigOperators.Intervals

/-!
# The weights of all combinations of outputs

For files with few outputs the weights of all combinations can be computed: one number holds the weights of all `2 ^ k` combinations as its digits,
and the lines are added one after the other.
-/

namespace Verif

/-- `f t`, with `t` evaluated first. -/
def force {α : Type} (t : Nat) (f : Nat → α) : α :=
  match t with
  | 0 => f 0
  | t + 1 => f (t + 1)

theorem force_eq {α : Type} (t : Nat) (f : Nat → α) : force t f = f t := by cases t <;> rfl

/-- Whether an odd number of the first `k` bits are set in both numbers. -/
def parity (v u : Nat) : Nat → Bool
  | 0 => false
  | k + 1 => parity v u k ^^ (v.testBit k && u.testBit k)

/-- The number with digit `parity v u k` at place `u`, for `u < 2 ^ k`. -/
def spread (B v : Nat) : Nat → Nat
  | 0 => 0
  | k + 1 => force (spread B v k) fun t => t + (if v.testBit k then (B ^ 2 ^ k - 1) / (B - 1) - t else t) * B ^ 2 ^ k

/-- The sum for several lines. -/
def sumSpread (B k : Nat) : List Nat → Nat → Nat
  | [], a => a
  | v :: vs, a => force (a + spread B v k) fun a => sumSpread B k vs a

/-- All `2 ^ k` digits are at least `D`. -/
def digitsGe (B D : Nat) : Nat → Nat → Bool
  | 0, s => Nat.ble D s
  | k + 1, s => force (s % B ^ 2 ^ k) (digitsGe B D k) && force (s / B ^ 2 ^ k) (digitsGe B D k)

/-- All combinations of outputs but the empty one have weight at least `D`. -/
def BinFile.weightCheck (f : BinFile) (D : Nat) : Bool :=
  Nat.blt (f.lines.length + D) 512 && digitsGe 512 D f.k (sumSpread 512 f.k f.lines D)

theorem testBit_high {k u x : Nat} (hx : x < k) : (2 ^ k + u).testBit x = u.testBit x := Nat.testBit_two_pow_add_gt hx u

theorem testBit_top {k u : Nat} (hu : u < 2 ^ k) : (2 ^ k + u).testBit k = true := by
  rw [Nat.testBit_two_pow_add_eq, Nat.testBit_lt_two_pow hu]
  rfl

theorem parity_congr {v u u' k : Nat} (h : ∀ x < k, u.testBit x = u'.testBit x) : parity v u k = parity v u' k := by
  induction k with
  | zero => rfl
  | succ k ih => rw [parity, parity, ih fun x hx => h x (by omega), h k (by omega)]

theorem sum_split (B k : Nat) (w : Nat → Nat) : ∑ u ∈ Finset.range (2 ^ (k + 1)), w u * B ^ u
    = ∑ u ∈ Finset.range (2 ^ k), w u * B ^ u + (∑ u ∈ Finset.range (2 ^ k), w (2 ^ k + u) * B ^ u) * B ^ 2 ^ k := by
  rw [pow_succ, mul_two, Finset.sum_range_add, Finset.sum_mul]
  congr 1
  refine Finset.sum_congr rfl fun u _ => ?_
  rw [pow_add]
  ring

theorem ones_eq {B : Nat} (hB : 2 ≤ B) (k : Nat) : (B ^ 2 ^ k - 1) / (B - 1) = ∑ u ∈ Finset.range (2 ^ k), B ^ u := (Nat.geomSum_eq hB _).symm

theorem spread_eq {B : Nat} (hB : 2 ≤ B) (v k : Nat) : spread B v k = ∑ u ∈ Finset.range (2 ^ k), (parity v u k).toNat * B ^ u := by
  induction k with
  | zero => simp [spread, parity]
  | succ k ih =>
    have hlow : ∑ u ∈ Finset.range (2 ^ k), (parity v u (k + 1)).toNat * B ^ u = ∑ u ∈ Finset.range (2 ^ k), (parity v u k).toNat * B ^ u := by
      refine Finset.sum_congr rfl fun u hu => ?_
      rw [parity, Nat.testBit_lt_two_pow (Finset.mem_range.1 hu), Bool.and_false, Bool.xor_false]
    have hparity : ∀ u ∈ Finset.range (2 ^ k), parity v (2 ^ k + u) (k + 1) = (parity v u k ^^ v.testBit k) := by
      intro u hu
      rw [parity, testBit_top (Finset.mem_range.1 hu), Bool.and_true, parity_congr fun x hx => testBit_high hx]
    rw [sum_split, hlow, spread, force_eq, ih, ones_eq hB]
    congr 2
    split
    · next hv =>
      rw [Nat.sub_eq_iff_eq_add]
      · rw [← Finset.sum_add_distrib]
        refine Finset.sum_congr rfl fun u hu => ?_
        rw [hparity u hu, hv]
        cases parity v u k <;> simp
      · refine Finset.sum_le_sum fun u _ => ?_
        cases parity v u k <;> simp
    · next hv =>
      rw [Bool.not_eq_true] at hv
      refine Finset.sum_congr rfl fun u hu => ?_
      rw [hparity u hu, hv, Bool.xor_false]

theorem sumSpread_eq {B : Nat} (hB : 2 ≤ B) (k : Nat) (vs : List Nat) (a : Nat) :
    sumSpread B k vs a = a + ∑ u ∈ Finset.range (2 ^ k), (vs.countP fun v => parity v u k) * B ^ u := by
  induction vs generalizing a with
  | nil => simp [sumSpread]
  | cons v vs ih =>
    rw [sumSpread, force_eq, ih, spread_eq hB, add_assoc, ← Finset.sum_add_distrib]
    congr 1
    refine Finset.sum_congr rfl fun u _ => ?_
    rw [List.countP_cons]
    cases parity v u k <;> simp
    ring

theorem digitsGe_eq {B : Nat} (D k : Nat) (w : Nat → Nat) (hw : ∀ u < 2 ^ k, w u < B) :
    digitsGe B D k (∑ u ∈ Finset.range (2 ^ k), w u * B ^ u) = true ↔ ∀ u < 2 ^ k, D ≤ w u := by
  induction k generalizing w with
  | zero =>
    simp [digitsGe]
  | succ k ih =>
    have hpow : 2 ^ (k + 1) = 2 ^ k + 2 ^ k := by rw [pow_succ, mul_two]
    have hB : 0 < B := by
      have := hw 0 (by positivity)
      omega
    have hlt : ∀ m, m ≤ 2 ^ k → ∑ u ∈ Finset.range m, w u * B ^ u < B ^ m := by
      intro m hm
      induction m with
      | zero => simp
      | succ m ihm =>
        rw [Finset.sum_range_succ, pow_succ]
        have h1 := ihm (by omega)
        have h2 := hw m (by omega)
        have h3 : w m * B ^ m + B ^ m ≤ B ^ m * B := by
          have := Nat.mul_le_mul_right (B ^ m) h2
          rw [Nat.succ_mul] at this
          rw [mul_comm (B ^ m) B]
          exact this
        omega
    rw [sum_split, digitsGe, force_eq, force_eq, Nat.add_mul_mod_self_right, Nat.mod_eq_of_lt (hlt _ le_rfl),
      Nat.add_mul_div_right _ _ (by positivity), Nat.div_eq_of_lt (hlt _ le_rfl), Nat.zero_add, Bool.and_eq_true,
      ih _ fun u hu => hw u (by omega), ih (fun u => w (2 ^ k + u)) fun u hu => hw _ (by omega)]
    constructor
    · rintro ⟨h1, h2⟩ u hu
      by_cases hk : u < 2 ^ k
      · exact h1 u hk
      · have := h2 (u - 2 ^ k) (by omega)
        rwa [show 2 ^ k + (u - 2 ^ k) = u by omega] at this
    · exact fun h => ⟨fun u hu => h u (by omega), fun u hu => h _ (by omega)⟩

/-- The number with the given bits. -/
def ofBits (u : Nat → Bool) : Nat → Nat
  | 0 => 0
  | k + 1 => ofBits u k + (if u k then 2 ^ k else 0)

theorem ofBits_spec (u : Nat → Bool) (k : Nat) : ofBits u k < 2 ^ k ∧ ∀ x < k, (ofBits u k).testBit x = u x := by
  induction k with
  | zero => simp [ofBits]
  | succ k ih =>
    obtain ⟨h1, h2⟩ := ih
    rw [ofBits]
    by_cases hu : u k = true
    · rw [if_pos hu, add_comm, pow_succ]
      refine ⟨by omega, fun x hx => ?_⟩
      by_cases hk : x = k
      · rw [hk, testBit_top h1, hu]
      · rw [testBit_high (by omega), h2 x (by omega)]
    · rw [if_neg hu, Nat.add_zero, pow_succ]
      refine ⟨by omega, fun x hx => ?_⟩
      by_cases hk : x = k
      · rw [hk, Nat.testBit_lt_two_pow h1]
        simpa using hu
      · exact h2 x (by omega)

theorem coef_parity (f : BinFile) (u : Nat → Bool) (p : Nat) : f.coef u p = bz (parity (f.lines.getD p 0) (ofBits u f.k) f.k) := by
  unfold BinFile.coef
  have h := (ofBits_spec u f.k).2
  generalize ofBits u f.k = U at h
  generalize f.k = k at h
  induction k with
  | zero => rfl
  | succ k ih =>
    rw [Finset.sum_range_succ, ih fun x hx => h x (by omega), parity, bz_xor, bz_and, h k (by omega), mul_comm]

theorem BinFile.weight_ge (f : BinFile) (D : Nat) (h : f.weightCheck D = true) (u : Nat → Bool) (hu : ∃ x < f.k, u x = true) :
    D ≤ ((Finset.range f.lines.length).filter fun p => f.coef u p ≠ 0).card := by
  unfold BinFile.weightCheck at h
  rw [Bool.and_eq_true, Nat.blt_eq] at h
  obtain ⟨hlen, h⟩ := h
  obtain ⟨h1, h2⟩ := ofBits_spec u f.k
  have hne : ofBits u f.k ≠ 0 := by
    intro h0
    obtain ⟨x, hx, hux⟩ := hu
    have := h2 x hx
    rw [h0, hux] at this
    simp at this
  rw [sumSpread_eq (by omega)] at h
  have hsum : D + ∑ u ∈ Finset.range (2 ^ f.k), (f.lines.countP fun v => parity v u f.k) * 512 ^ u
      = ∑ u ∈ Finset.range (2 ^ f.k), ((f.lines.countP fun v => parity v u f.k) + if u = 0 then D else 0) * 512 ^ u := by
    have : ∑ u ∈ Finset.range (2 ^ f.k), (if u = 0 then D else 0) * 512 ^ u = D := by
      rw [Finset.sum_eq_single 0]
      · simp
      · intro b _ hb
        simp [hb]
      · intro h0
        simp at h0
    rw [← Nat.add_comm, ← this, ← Finset.sum_add_distrib]
    rw [this]
    exact Finset.sum_congr rfl fun u _ => by rw [add_mul]
  rw [hsum, digitsGe_eq] at h
  · have := h _ h1
    rw [if_neg hne, Nat.add_zero] at this
    refine this.trans (le_of_eq ?_)
    rw [List.countP_eq_length_filter]
    have hl : f.lines = (List.range f.lines.length).map fun p => f.lines.getD p 0 := by
      apply List.ext_getElem (by simp)
      intro i h1 h2
      simp [h1]
    conv_lhs => rw [hl]
    rw [List.filter_map, List.length_map, ← List.toFinset_card_of_nodup (List.Nodup.filter _ List.nodup_range)]
    congr 1
    ext p
    rw [Finset.mem_filter, List.mem_toFinset, List.mem_filter, Finset.mem_range, List.mem_range, coef_parity]
    simp [bz_eq_zero]
  · intro v _
    have := List.countP_le_length (l := f.lines) (p := fun w => parity w v f.k)
    split <;> omega

end Verif
