import Verif.LagrangeLemmas
import Mathlib.LinearAlgebra.Vandermonde
import Mathlib.LinearAlgebra.Matrix.NonsingularInverse
import Mathlib.Algebra.BigOperators.Fin

/-!
# Helper lemmas for `rs_gen_mat`, `Combination` and the matrix reader
-/

open Polynomial

namespace Verif

variable {F : Type}

/-- Number of places where two vectors differ. -/
def hdist [DecidableEq F] (a b : List F) : Nat := ((a.zip b).filter fun (x, y) => x ≠ y).length

section agree
variable [Field F] [DecidableEq F]

/-- Distinct polynomials of degree below `k` agree on fewer than `k` of distinct points. -/
theorem agree_lt {k : Nat} (pts : List F) (hn : pts.Nodup) (p q : F[X]) (hp : p.degree < k)
    (hq : q.degree < k) (hne : p ≠ q) :
    (pts.filter fun x => decide (p.eval x = q.eval x)).length < k := by
  by_contra hc
  push Not at hc
  apply hne
  have hk : (k : WithBot ℕ) ≤ ((pts.filter fun x => decide (p.eval x = q.eval x)).length : ℕ) := by
    exact_mod_cast hc
  apply poly_eq_of_values _ (hn.filter _) p q (lt_of_lt_of_le hp hk) (lt_of_lt_of_le hq hk)
  apply List.map_congr_left
  intro x hx
  simpa using (List.mem_filter.1 hx).2

omit [Field F] in
theorem hdist_map (pts : List F) (f g : F → F) :
    hdist (pts.map f) (pts.map g) = pts.length - (pts.filter fun x => decide (f x = g x)).length := by
  have h : hdist (pts.map f) (pts.map g) + (pts.filter fun x => decide (f x = g x)).length
      = pts.length := by
    unfold hdist
    induction pts with
    | nil => simp
    | cons x pts ih =>
      simp only [List.map_cons, List.zip_cons_cons, List.filter_cons, List.length_cons]
      by_cases hx : f x = g x
      · simp [hx]; simp at ih; omega
      · simp [hx]; simp at ih; omega
  omega

end agree

theorem hdist_comm [DecidableEq F] (a b : List F) : hdist a b = hdist b a := by
  unfold hdist
  induction a generalizing b with
  | nil => cases b <;> simp
  | cons x a ih => cases b with
    | nil => simp
    | cons y b =>
      simp only [List.zip_cons_cons, List.filter_cons]
      by_cases h : x = y
      · simp [h]; simpa using ih b
      · simp [h, Ne.symm h]; simpa using ih b

theorem hdist_triangle [DecidableEq F] (a b c : List F) (h1 : a.length = b.length)
    (h2 : b.length = c.length) : hdist a c ≤ hdist a b + hdist b c := by
  unfold hdist
  induction a generalizing b c with
  | nil => simp
  | cons x a ih =>
    cases b with
    | nil => simp at h1
    | cons y b => cases c with
      | nil => simp at h2
      | cons z c =>
        have := ih b c (by simpa using h1) (by simpa using h2)
        simp only [List.zip_cons_cons, List.filter_cons]
        by_cases hxy : x = y
        · by_cases hyz : y = z
          · simp [hxy, hyz]; simpa using this
          · simp [hxy, hyz]; simp at this; omega
        · by_cases hyz : y = z
          · subst hyz; simp [hxy]; simp at this; omega
          · simp only [ne_eq, hxy, hyz, not_false_eq_true, decide_true, if_true, List.length_cons]
            split <;> (simp at this ⊢; omega)

/-! ### Reed-Solomon generator -/

section RS

theorem vmul_map [Field F] {ι : Type} (l : List ι) (f g : ι → F) :
    vmul (l.map f) (l.map g) = l.map fun i => f i * g i := by
  unfold vmul
  induction l with
  | nil => simp
  | cons x l ih => simp [ih]

theorem rsCols_eq [CodeField F] (pts : List F) (m k : Nat) :
    rsCols pts k (pts.map (· ^ (m + 1))) =
      (List.range (k + 1)).map fun r => pts.map (· ^ (m + r + 1)) := by
  induction k generalizing m with
  | zero => simp [rsCols]
  | succ k ih =>
    rw [rsCols]
    have : vmul pts (pts.map (· ^ (m + 1))) = pts.map (· ^ (m + 1 + 1)) := by
      have := vmul_map pts id (· ^ (m + 1))
      simp only [List.map_id, id] at this
      rw [this]
      apply List.map_congr_left
      intro x _
      ring
    rw [this, ih (m + 1), List.range_succ_eq_map (n := k + 1), List.map_cons, List.map_map]
    congr 1
    apply List.map_congr_left
    intro r _
    apply List.map_congr_left
    intro x _
    congr 1
    omega

variable [CodeField F]

/-- The evaluation points `1, .., code_len`. -/
def rsPts (codeLen : Nat) : List F := (List.range codeLen).map fun i => CodeField.ofU32 (i + 1)

theorem rsPts_length (n : Nat) : (rsPts n : List F).length = n := by simp [rsPts]

theorem rsPts_nodup {n : Nat} (h : n < CodeField.order F) : (rsPts n : List F).Nodup := by
  unfold rsPts
  apply List.Nodup.map_on _ List.nodup_range
  intro a ha b hb hab
  simp at ha hb
  have := CodeField.ofU32_inj (a + 1) (b + 1) (by omega) (by omega) hab
  omega

theorem rsPts_ne_zero {n : Nat} (h : n < CodeField.order F) : ∀ x ∈ (rsPts n : List F), x ≠ 0 := by
  intro x hx h0
  simp only [rsPts, List.mem_map, List.mem_range] at hx
  obtain ⟨i, hi, rfl⟩ := hx
  rw [← CodeField.ofU32_zero] at h0
  have := CodeField.ofU32_inj (i + 1) 0 (by omega) (by omega) h0
  omega

theorem rsGenCols_eq {k n : Nat} (hk : 1 ≤ k) (hn : n < CodeField.order F) :
    rsGenCols (F := F) k n = some ((List.range k).map fun r => (rsPts n).map (· ^ (r + 1))) := by
  unfold rsGenCols
  rw [if_neg (by omega), if_neg (by omega)]
  simp only [Option.some.injEq]
  have := rsCols_eq (rsPts n : List F) 0 (k - 1)
  simp only [Nat.zero_add, pow_one, List.map_id'] at this
  rw [show k - 1 + 1 = k by omega] at this
  exact this

theorem rsGenMat_eq {k n : Nat} (hk : 1 ≤ k) (hn : n < CodeField.order F) :
    rsGenMat (F := F) k n = some
      { ncols := k, rows := (rsPts n).map fun x => (List.range k).map fun r => x ^ (r + 1) } := by
  unfold rsGenMat
  rw [rsGenCols_eq hk hn]
  simp only [Option.map_some, Option.some.injEq, Mat.mk.injEq, true_and]
  apply List.ext_getElem (by simp [rsPts])
  intro i h1 h2
  simp only [List.length_map, List.length_range] at h1
  simp only [List.getElem_map, List.getElem_range, List.map_map]
  apply List.map_congr_left
  intro r _
  simp [rsPts, h1]

/-- A codeword entry is `x * m(x)`. -/
theorem dot_powers (m : List F) (x : F) (k : Nat) (hm : m.length = k) :
    dot ((List.range k).map fun r => x ^ (r + 1)) m
      = x * (∑ r ∈ Finset.range k, C (m.getD r 0) * X ^ r : F[X]).eval x := by
  rw [eval_finsetSum, Finset.mul_sum]
  have hm' : m = (List.range k).map fun r => m.getD r 0 := by
    apply List.ext_getElem (by simp [hm])
    intro i h1 h2
    simp [h1]
  conv_lhs => rw [hm']
  rw [dot_map_left_right, ← List.sum_toFinset _ List.nodup_range]
  have : (List.range k).toFinset = Finset.range k := by ext; simp
  rw [this]
  apply Finset.sum_congr rfl
  intro r _
  simp
  ring

theorem degree_msgPoly_lt (m : List F) (k : Nat) :
    (∑ r ∈ Finset.range k, C (m.getD r 0) * X ^ r : F[X]).degree < k := by
  rw [degree_lt_iff_coeff_zero]
  intro j hj
  rw [finsetSum_coeff]
  apply Finset.sum_eq_zero
  intro r hr
  rw [coeff_C_mul, coeff_X_pow, if_neg (by simp at hr; omega), mul_zero]

theorem coeff_msgPoly (m : List F) (k i : Nat) (hi : i < k) :
    (∑ r ∈ Finset.range k, C (m.getD r 0) * X ^ r : F[X]).coeff i = m.getD i 0 := by
  rw [finsetSum_coeff, Finset.sum_eq_single i]
  · simp
  · intro r _ hr
    rw [coeff_C_mul, coeff_X_pow, if_neg (Ne.symm hr), mul_zero]
  · intro h; simp at h; omega

/-- The square Vandermonde-like systems behind super-invertibility. -/
theorem powers_bijective {k : Nat} (α : Fin k → F) (hinj : Function.Injective α)
    (hne : ∀ j, α j ≠ 0) (y : Fin k → F) :
    ∃! z : Fin k → F, ∀ r : Fin k, ∑ j, α j ^ (r.1 + 1) * z j = y r := by
  let A : Matrix (Fin k) (Fin k) F := Matrix.of fun r j => α j ^ (r.1 + 1)
  have hA : A = (Matrix.vandermonde α).transpose * Matrix.diagonal α := by
    ext r j
    simp [A, Matrix.mul_diagonal, Matrix.vandermonde_apply, pow_succ]
  have hdet : IsUnit A.det := by
    rw [hA, Matrix.det_mul, Matrix.det_transpose, Matrix.det_diagonal, isUnit_iff_ne_zero]
    exact mul_ne_zero (Matrix.det_vandermonde_ne_zero_iff.2 hinj)
      (Finset.prod_ne_zero_iff.2 fun j _ => hne j)
  have hmv : ∀ z : Fin k → F, (∀ r : Fin k, ∑ j, α j ^ (r.1 + 1) * z j = y r) ↔ A.mulVec z = y := by
    intro z
    constructor
    · intro h; ext r; exact h r
    · intro h r; rw [← h]; rfl
  refine ⟨A⁻¹.mulVec y, ?_, ?_⟩
  · change ∀ r : Fin k, _
    rw [hmv, Matrix.mulVec_mulVec, Matrix.mul_nonsing_inv A hdet, Matrix.one_mulVec]
  · intro z hz
    change ∀ r : Fin k, _ at hz
    rw [hmv] at hz
    rw [← hz, Matrix.mulVec_mulVec, Matrix.nonsing_inv_mul A hdet, Matrix.one_mulVec]

end RS

/-! ### Combination -/

section Comb
variable {T : Type} [DecidableEq T]

theorem lookup_foldl (l : List (T × Nat)) (m : T → Option Nat) (w : T) :
    (l.foldl (fun m (p : T × Nat) => fun w => if w = p.1 then some p.2 else m w) m) w
      = match l.reverse.find? (fun p => decide (w = p.1)) with
        | some p => some p.2
        | none => m w := by
  induction l generalizing m with
  | nil => rfl
  | cons a l ih =>
    rw [List.foldl_cons, ih, List.reverse_cons, List.find?_append]
    cases h : l.reverse.find? (fun p => decide (w = p.1)) with
    | some p => simp
    | none =>
      by_cases hw : w = a.1
      · simp [hw]
      · simp [hw]

theorem instanceLookup_some (inp : List T) (v : T) (hv : v ∈ inp) :
    ∃ i, instanceLookup inp v = some i ∧ inp[i]? = some v := by
  unfold instanceLookup
  rw [lookup_foldl]
  cases h : inp.zipIdx.reverse.find? (fun p => decide (v = p.1)) with
  | none =>
    exfalso
    obtain ⟨i, hi⟩ := List.mem_iff_getElem?.1 hv
    have := List.find?_eq_none.1 h (v, i) (by
      rw [List.mem_reverse]; exact List.mem_zipIdx_iff_getElem?.2 hi)
    simp at this
  | some p =>
    have h1 := List.find?_some h
    have h2 := List.mem_of_find?_eq_some h
    rw [List.mem_reverse] at h2
    have h3 := List.mem_zipIdx_iff_getElem?.1 h2
    simp at h1
    exact ⟨p.2, rfl, by rw [h3, h1]⟩

theorem instanceLookup_none (inp : List T) (v : T) (hv : v ∉ inp) :
    instanceLookup inp v = none := by
  unfold instanceLookup
  rw [lookup_foldl]
  cases h : inp.zipIdx.reverse.find? (fun p => decide (v = p.1)) with
  | none => rfl
  | some p =>
    exfalso
    have h1 := List.find?_some h
    have h2 := List.mem_of_find?_eq_some h
    rw [List.mem_reverse] at h2
    have h3 := List.mem_zipIdx_iff_getElem?.1 h2
    simp at h1
    apply hv
    rw [h1]
    exact List.mem_of_getElem? h3

end Comb

/-- `mapM` into `Option` fails as soon as one element does. -/
theorem mapM_none_of_mem {α β : Type} (f : α → Option β) (l : List α) (x : α) (hx : x ∈ l)
    (hf : f x = none) : l.mapM f = none := by
  induction l with
  | nil => simp at hx
  | cons a l ih =>
    rw [List.mapM_cons]
    rw [List.mem_cons] at hx
    rcases hx with rfl | hx
    · simp [hf]
    · cases f a with
      | none => rfl
      | some b => simp [ih hx]

/-- `mapM` into `Option` succeeds when every element does. -/
theorem mapM_some_map {α β : Type} (f : α → Option β) (g : α → β) (l : List α)
    (h : ∀ x ∈ l, f x = some (g x)) : l.mapM f = some (l.map g) := by
  induction l with
  | nil => rfl
  | cons a l ih =>
    rw [List.mapM_cons, h a (by simp), ih (fun x hx => h x (by simp [hx]))]
    rfl

end Verif
