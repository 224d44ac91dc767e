import Verif.GFPoly
import Mathlib.Tactic.NormNum.Prime
import Mathlib.Tactic.IntervalCases
import Mathlib.Algebra.BigOperators.Associated

/-!
# The hard-coded polynomials are primitive

For every width `1 ≤ w ≤ 29`, `x` has multiplicative order exactly `2^w - 1` modulo the polynomial of
that width.  The order is certified by the factorisation of `2^w - 1` and powers of `x` which the
kernel computes with `gmul`/`gpow`.
-/

open Polynomial

namespace Verif.Galois

/-- Shift-and-add product of residues: scans `k` bits of `a` from the lowest one. -/
def gmulAux (w : Nat) : Nat → Nat → Nat → Nat → Nat
  | 0, _, _, acc => acc
  | k + 1, a, b, acc =>
    gmulAux w k (a >>> 1) (stepB w b) (if a &&& 1 = 1 then acc ^^^ b else acc)

/-- Product of two residues. -/
def gmul (w a b : Nat) : Nat := gmulAux w w a b 0

/-- Binary exponentiation over `k` bits of `e` from the lowest one. -/
def gpowAux (w : Nat) : Nat → Nat → Nat → Nat → Nat
  | 0, _, _, acc => acc
  | k + 1, a, e, acc =>
    gpowAux w k (gmul w a a) (e >>> 1) (if e &&& 1 = 1 then gmul w acc a else acc)

/-- Power of a residue. -/
def gpow (w a e : Nat) : Nat := gpowAux w (e.log2 + 1) a e 1

theorem gmulAux_lt (w : Nat) (hw : w ≠ 0) (k a b acc : Nat) (hb : b < 2 ^ w) (hacc : acc < 2 ^ w) :
    gmulAux w k a b acc < 2 ^ w := by
  induction k generalizing a b acc with
  | zero => exact hacc
  | succ k ih =>
    apply ih _ _ _ (stepB_lt w b hw hb)
    split
    · exact Nat.xor_lt_two_pow hacc hb
    · exact hacc

theorem gmul_lt (w a b : Nat) (hw : w ≠ 0) (hb : b < 2 ^ w) : gmul w a b < 2 ^ w :=
  gmulAux_lt w hw w a b 0 hb (by positivity)

theorem val_bit (w a : Nat) :
    val w a = (if a &&& 1 = 1 then 1 else 0) + AdjoinRoot.root (modulus w) * val w (a >>> 1) := by
  have h : toPoly a = (if a &&& 1 = 1 then (1 : (ZMod 2)[X]) else 0) + X * toPoly (a >>> 1) := by
    ext i
    have hb : (a &&& 1 = 1) ↔ a.testBit 0 = true := by
      rw [Nat.testBit_zero, Nat.and_one_is_mod]; simp
    cases i with
    | zero =>
      rw [coeff_toPoly, coeff_add]
      by_cases h : a.testBit 0 = true
      · rw [if_pos h, if_pos (hb.2 h)]; simp
      · rw [if_neg h, if_neg (fun h' => h (hb.1 h'))]; simp
    | succ i =>
      rw [coeff_toPoly, coeff_add, coeff_X_mul, coeff_toPoly]
      have : (if a &&& 1 = 1 then (1 : (ZMod 2)[X]) else 0).coeff (i + 1) = 0 := by
        split
        · rw [coeff_one]; simp
        · simp
      rw [this, zero_add, Nat.testBit_shiftRight, add_comm 1 i]
  unfold val
  rw [h, map_add, map_mul, AdjoinRoot.mk_X]
  congr 1
  split <;> simp

theorem val_gmulAux (w : Nat) (hw : w ≠ 0) (k a b acc : Nat) (ha : a < 2 ^ k) (hb : b < 2 ^ w) :
    val w (gmulAux w k a b acc) = val w acc + val w a * val w b := by
  induction k generalizing a b acc with
  | zero =>
    have : a = 0 := by simpa using ha
    subst this
    simp [gmulAux, val_zero]
  | succ k ih =>
    have ha2 : a >>> 1 < 2 ^ k := by
      rw [Nat.shiftRight_eq_div_pow]
      rw [pow_succ] at ha
      omega
    rw [gmulAux, ih _ _ _ ha2 (stepB_lt w b hw hb), val_step w b hw hb, val_bit w a]
    split
    · rw [val_xor]; ring
    · ring

theorem val_gmul (w a b : Nat) (hw : w ≠ 0) (ha : a < 2 ^ w) (hb : b < 2 ^ w) :
    val w (gmul w a b) = val w a * val w b := by
  rw [gmul, val_gmulAux w hw w a b 0 ha hb, val_zero, zero_add]

theorem gpowAux_spec (w : Nat) (hw : w ≠ 0) (k a e acc : Nat) (he : e < 2 ^ k) (ha : a < 2 ^ w)
    (hacc : acc < 2 ^ w) :
    gpowAux w k a e acc < 2 ^ w ∧ val w (gpowAux w k a e acc) = val w acc * val w a ^ e := by
  induction k generalizing a e acc with
  | zero =>
    have : e = 0 := by simpa using he
    subst this
    simp [gpowAux, hacc]
  | succ k ih =>
    have he2 : e >>> 1 < 2 ^ k := by
      rw [Nat.shiftRight_eq_div_pow]
      rw [pow_succ] at he
      omega
    have hacc2 : (if e &&& 1 = 1 then gmul w acc a else acc) < 2 ^ w := by
      split
      · exact gmul_lt w _ _ hw ha
      · exact hacc
    obtain ⟨h1, h2⟩ := ih (gmul w a a) (e >>> 1) _ he2 (gmul_lt w a a hw ha) hacc2
    refine ⟨h1, ?_⟩
    rw [gpowAux, h2, val_gmul w a a hw ha ha, ← sq, ← pow_mul, Nat.shiftRight_eq_div_pow, pow_one]
    rw [Nat.and_one_is_mod]
    split
    · rename_i h
      rw [val_gmul w acc a hw hacc ha, mul_assoc, ← pow_succ']
      congr 2; omega
    · rename_i h
      congr 2; omega

theorem gpow_lt (w a e : Nat) (hw : w ≠ 0) (ha : a < 2 ^ w) : gpow w a e < 2 ^ w :=
  (gpowAux_spec w hw _ a e 1 (Nat.lt_log2_self) ha (Nat.one_lt_two_pow hw)).1

theorem val_gpow (w a e : Nat) (hw : w ≠ 0) (ha : a < 2 ^ w) :
    val w (gpow w a e) = val w a ^ e := by
  rw [gpow, (gpowAux_spec w hw _ a e 1 (Nat.lt_log2_self) ha (Nat.one_lt_two_pow hw)).2,
    val_one, one_mul]

/-- `x` as a residue. -/
def xElem (w : Nat) : Nat := stepB w 1

theorem val_xElem (w : Nat) (hw : w ≠ 0) : val w (xElem w) = AdjoinRoot.root (modulus w) := by
  rw [xElem, val_step w 1 hw (Nat.one_lt_two_pow hw), val_one, mul_one]

/-- Order certificate: `fs` multiply to `2^w - 1`, `x^(2^w - 1) = 1`, and no maximal proper divisor
works. -/
def orderCheck (w : Nat) (fs : List Nat) : Bool :=
  fs.prod == 2 ^ w - 1 && gpow w (xElem w) (2 ^ w - 1) == 1 &&
    fs.all fun q => gpow w (xElem w) ((2 ^ w - 1) / q) != 1

theorem orderOf_of_check (w : Nat) (hw : w ≠ 0) (fs : List Nat) (hp : ∀ q ∈ fs, q.Prime)
    (h : orderCheck w fs = true) : orderOf (AdjoinRoot.root (modulus w)) = 2 ^ w - 1 := by
  unfold orderCheck at h
  simp only [Bool.and_eq_true, beq_iff_eq, List.all_eq_true, bne_iff_ne, ne_eq] at h
  obtain ⟨⟨h1, h2⟩, h3⟩ := h
  have hx : xElem w < 2 ^ w := stepB_lt w 1 hw (Nat.one_lt_two_pow hw)
  have hval := val_xElem w hw
  have h2w := Nat.one_lt_two_pow hw
  apply orderOf_eq_of_pow_and_pow_div_prime (by omega)
  · rw [← hval, ← val_gpow w _ _ hw hx, h2, val_one]
  · intro q hq hd hc
    rw [← h1] at hd
    obtain ⟨r, hr, hdvd⟩ := (Prime.dvd_prod_iff hq.prime).1 hd
    have : q = r := (Nat.prime_dvd_prime_iff_eq hq (hp r hr)).1 hdvd
    subst this
    apply h3 q hr
    rw [← hval, ← val_gpow w _ _ hw hx, ← val_one w] at hc
    exact val_inj w _ _ (gpow_lt w _ _ hw hx) (Nat.one_lt_two_pow hw) hc

/-- Prime factors of `2^w - 1` (with multiplicity). -/
def mersenneFactors : Nat → List Nat
  | 1 => []
  | 2 => [3]
  | 3 => [7]
  | 4 => [3, 5]
  | 5 => [31]
  | 6 => [3, 3, 7]
  | 7 => [127]
  | 8 => [3, 5, 17]
  | 9 => [7, 73]
  | 10 => [3, 11, 31]
  | 11 => [23, 89]
  | 12 => [3, 3, 5, 7, 13]
  | 13 => [8191]
  | 14 => [3, 43, 127]
  | 15 => [7, 31, 151]
  | 16 => [3, 5, 17, 257]
  | 17 => [131071]
  | 18 => [3, 3, 3, 7, 19, 73]
  | 19 => [524287]
  | 20 => [3, 5, 5, 11, 31, 41]
  | 21 => [7, 7, 127, 337]
  | 22 => [3, 23, 89, 683]
  | 23 => [47, 178481]
  | 24 => [3, 3, 5, 7, 13, 17, 241]
  | 25 => [31, 601, 1801]
  | 26 => [3, 2731, 8191]
  | 27 => [7, 73, 262657]
  | 28 => [3, 5, 29, 43, 113, 127]
  | 29 => [233, 1103, 2089]
  | 30 => [3, 3, 7, 11, 31, 151, 331]
  | _ => []

theorem mersenneFactors_prime (w : Nat) : ∀ q ∈ mersenneFactors w, q.Prime := by
  unfold mersenneFactors
  split <;> simp only [List.forall_mem_cons, List.not_mem_nil, false_implies, implies_true, and_true] <;>
    norm_num

theorem orderCheck_all : ∀ w ∈ List.range' 1 30, orderCheck w (mersenneFactors w) = true := by
  decide +kernel

/-- `x` generates all non-zero residues, for every width the library can build tables for. -/
theorem orderOf_root (w : Nat) (h1 : 1 ≤ w) (h2 : w ≤ 30) :
    orderOf (AdjoinRoot.root (modulus w)) = 2 ^ w - 1 :=
  orderOf_of_check w (by omega) (mersenneFactors w) (mersenneFactors_prime w)
    (orderCheck_all w (by simp; omega))

end Verif.Galois
