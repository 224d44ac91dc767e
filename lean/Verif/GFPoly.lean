import Verif.GFTables
import Mathlib.RingTheory.AdjoinRoot
import Mathlib.Algebra.Field.ZMod
import Mathlib.GroupTheory.OrderOfElement

/-!
# Integers as polynomials over GF(2)

`toPoly b` is the polynomial whose coefficient of `X^i` is bit `i` of `b`; this is the specification
side of the field arithmetic.
-/

open Polynomial

namespace Verif.Galois

/-- The polynomial over GF(2) denoted by the bits of `b`. -/
noncomputable def toPoly (b : Nat) : (ZMod 2)[X] :=
  ∑ i ∈ Finset.range b, if b.testBit i then X ^ i else 0

theorem coeff_toPoly (b i : Nat) : (toPoly b).coeff i = if b.testBit i then 1 else 0 := by
  unfold toPoly
  rw [finsetSum_coeff]
  have : ∀ j, (if b.testBit j then (X ^ j : (ZMod 2)[X]) else 0).coeff i
      = if j = i then (if b.testBit i then 1 else 0) else 0 := by
    intro j
    by_cases hj : j = i
    · subst hj
      split <;> simp
    · rw [if_neg hj]
      split
      · rw [coeff_X_pow, if_neg (Ne.symm hj)]
      · simp
  simp only [this]
  rw [Finset.sum_ite_eq']
  split
  · rfl
  · rename_i h
    simp at h
    rw [Nat.testBit_lt_two_pow (lt_of_le_of_lt h Nat.lt_two_pow_self)]
    rfl

theorem toPoly_zero : toPoly 0 = 0 := by simp [toPoly]

theorem toPoly_one : toPoly 1 = 1 := by simp [toPoly]

theorem toPoly_xor (a b : Nat) : toPoly (a ^^^ b) = toPoly a + toPoly b := by
  ext i
  simp only [coeff_add, coeff_toPoly, Nat.testBit_xor]
  cases a.testBit i <;> cases b.testBit i <;> simp
  decide

theorem toPoly_shift (b : Nat) : toPoly (b <<< 1) = X * toPoly b := by
  ext i
  cases i with
  | zero => simp [coeff_toPoly]
  | succ i => rw [coeff_X_mul, coeff_toPoly, coeff_toPoly]; simp

theorem toPoly_injective : Function.Injective toPoly := by
  intro a b h
  apply Nat.eq_of_testBit_eq
  intro i
  have := congrArg (fun p => p.coeff i) h
  simp only [coeff_toPoly] at this
  cases ha : a.testBit i <;> cases hb : b.testBit i <;> simp [ha, hb] at this ⊢

theorem degree_toPoly_lt {b w : Nat} (h : b < 2 ^ w) : (toPoly b).degree < w := by
  rw [degree_lt_iff_coeff_zero]
  intro m hm
  rw [coeff_toPoly, Nat.testBit_lt_two_pow (lt_of_lt_of_le h (Nat.pow_le_pow_right (by norm_num) hm))]
  simp

/-- The full modulus of width `w`: `prim_poly[w]` with the bit `w` present (it is omitted in the
table for `w = 1` only, among the supported widths). -/
def fullPoly (w : Nat) : Nat := primPoly w ||| 2 ^ w

/-- The modulus as a polynomial. -/
noncomputable def modulus (w : Nat) : (ZMod 2)[X] := toPoly (fullPoly w)

theorem primPoly_lt (w : Nat) : primPoly w < 2 ^ (w + 1) := by
  unfold primPoly
  split <;> first | decide | positivity

theorem fullPoly_lt (w : Nat) : fullPoly w < 2 ^ (w + 1) :=
  Nat.or_lt_two_pow (primPoly_lt w) (Nat.pow_lt_pow_right (by norm_num) (by omega))

theorem testBit_fullPoly_self (w : Nat) : (fullPoly w).testBit w = true := by
  simp [fullPoly, Nat.testBit_or]

theorem degree_modulus (w : Nat) : (modulus w).degree = w := by
  apply le_antisymm
  · have := degree_toPoly_lt (fullPoly_lt w)
    rw [degree_lt_iff_coeff_zero] at this
    rw [modulus, degree_le_iff_coeff_zero]
    intro m hm
    exact this m (by exact_mod_cast hm)
  · apply le_degree_of_ne_zero
    rw [modulus, coeff_toPoly, testBit_fullPoly_self]
    simp

theorem monic_modulus (w : Nat) : (modulus w).Monic := by
  unfold Monic leadingCoeff
  rw [natDegree_eq_of_degree_eq_some (degree_modulus w), modulus, coeff_toPoly,
    testBit_fullPoly_self]
  simp

/-- Reduce after a shift: the C expression equals xor with the full modulus. -/
theorem stepB_eq (w b : Nat) (hw : w ≠ 0) (hb : b < 2 ^ w) :
    stepB w b = if (b <<< 1).testBit w then (b <<< 1) ^^^ fullPoly w else b <<< 1 := by
  have hnw : nw w = 2 ^ w := by simp [nw, hw, Nat.shiftLeft_eq]
  have hnwm1 : nwm1 w = 2 ^ w - 1 := by simp [nwm1, hw, Nat.shiftLeft_eq]
  have hcond : (b <<< 1 &&& nw w ≠ 0) ↔ (b <<< 1).testBit w = true := by
    rw [hnw]
    constructor
    · intro h
      obtain ⟨i, hi⟩ := Nat.exists_testBit_of_ne_zero h
      rw [Nat.testBit_and, Nat.testBit_two_pow] at hi
      simp at hi
      rw [← hi.2] at hi; simpa using hi.1
    · intro h h0
      have : (b <<< 1 &&& 2 ^ w).testBit w = true := by
        rw [Nat.testBit_and, h]; simp
      rw [h0] at this
      simp at this
  unfold stepB
  simp only []
  by_cases hc : (b <<< 1).testBit w = true
  · rw [if_pos (hcond.2 hc), if_pos hc, hnwm1]
    apply Nat.eq_of_testBit_eq
    intro i
    rw [Nat.testBit_and, Nat.testBit_two_pow_sub_one, Nat.testBit_xor, Nat.testBit_xor]
    unfold fullPoly
    rw [Nat.testBit_or, Nat.testBit_two_pow]
    by_cases hi : i < w
    · simp [hi, show w ≠ i by omega]
    · by_cases hi2 : i = w
      · subst hi2; simp at hc; simp [hc]
      · have h1 : (b <<< 1).testBit i = false := by
          apply Nat.testBit_lt_two_pow
          rw [Nat.shiftLeft_eq]
          calc b * 2 ^ 1 < 2 ^ w * 2 ^ 1 := by omega
            _ = 2 ^ (w + 1) := by rw [← pow_add]
            _ ≤ 2 ^ i := Nat.pow_le_pow_right (by norm_num) (by omega)
        have h2 : (primPoly w).testBit i = false := by
          apply Nat.testBit_lt_two_pow
          exact lt_of_lt_of_le (primPoly_lt w) (Nat.pow_le_pow_right (by norm_num) (by omega))
        simp [hi, h1, h2, show w ≠ i by omega]
  · rw [if_neg (fun h => hc (hcond.1 h)), if_neg hc]

theorem stepB_lt (w b : Nat) (hw : w ≠ 0) (hb : b < 2 ^ w) : stepB w b < 2 ^ w := by
  have hlt : b <<< 1 < 2 ^ (w + 1) := by rw [Nat.shiftLeft_eq, pow_succ]; omega
  rw [stepB_eq w b hw hb]
  split
  · rename_i h
    apply Nat.lt_pow_two_of_testBit
    intro i hi
    rw [Nat.testBit_xor]
    rcases Nat.lt_or_ge w i with h1 | h1
    · rw [Nat.testBit_lt_two_pow (lt_of_lt_of_le hlt (Nat.pow_le_pow_right (by norm_num) h1)),
        Nat.testBit_lt_two_pow (lt_of_lt_of_le (fullPoly_lt w) (Nat.pow_le_pow_right (by norm_num) h1))]
      rfl
    · have : i = w := by omega
      subst this
      rw [h, testBit_fullPoly_self]; rfl
  · rename_i h
    apply Nat.lt_pow_two_of_testBit
    intro i hi
    rcases Nat.lt_or_ge w i with h1 | h1
    · exact Nat.testBit_lt_two_pow (lt_of_lt_of_le hlt (Nat.pow_le_pow_right (by norm_num) h1))
    · have : i = w := by omega
      subst this
      simpa using h

/-- The residue ring modulo the primitive polynomial. -/
noncomputable abbrev K (w : Nat) : Type := AdjoinRoot (modulus w)

/-- The residue class of the polynomial denoted by `b`. -/
noncomputable def val (w b : Nat) : K w := AdjoinRoot.mk (modulus w) (toPoly b)

theorem val_zero (w : Nat) : val w 0 = 0 := by simp [val, toPoly_zero]
theorem val_one (w : Nat) : val w 1 = 1 := by simp [val, toPoly_one]

theorem val_xor (w a b : Nat) : val w (a ^^^ b) = val w a + val w b := by
  simp [val, toPoly_xor]

theorem val_step (w b : Nat) (hw : w ≠ 0) (hb : b < 2 ^ w) :
    val w (stepB w b) = AdjoinRoot.root (modulus w) * val w b := by
  have h1 : val w (b <<< 1) = AdjoinRoot.root (modulus w) * val w b := by
    simp [val, toPoly_shift]
  rw [stepB_eq w b hw hb]
  split
  · rw [val_xor, h1]
    have : val w (fullPoly w) = 0 := by
      unfold val
      exact AdjoinRoot.mk_self
    rw [this, add_zero]
  · exact h1

theorem val_inj (w a b : Nat) (ha : a < 2 ^ w) (hb : b < 2 ^ w) (h : val w a = val w b) : a = b := by
  apply toPoly_injective
  unfold val at h
  rw [AdjoinRoot.mk_eq_mk] at h
  have hd : (toPoly a - toPoly b).degree < (modulus w).degree := by
    rw [degree_modulus]
    exact lt_of_le_of_lt (degree_sub_le _ _) (max_lt (degree_toPoly_lt ha) (degree_toPoly_lt hb))
  exact sub_eq_zero.1 (eq_zero_of_dvd_of_degree_lt h hd)

end Verif.Galois
