import Verif.MathMod
import Mathlib.LinearAlgebra.Lagrange

/-!
# Helper lemmas about `dot` and `lagrangeRow`
-/

open Polynomial

namespace Verif

variable {F : Type} [Field F]

section dot

@[simp] theorem dot_nil_left (b : List F) : dot [] b = 0 := by simp [dot]
@[simp] theorem dot_nil_right (a : List F) : dot a [] = 0 := by simp [dot]
@[simp] theorem dot_cons (x y : F) (a b : List F) : dot (x :: a) (y :: b) = x * y + dot a b := by
  simp [dot]

theorem dot_append (a b c d : List F) (h : a.length = c.length) :
    dot (a ++ b) (c ++ d) = dot a c + dot b d := by
  induction a generalizing c with
  | nil => cases c with
    | nil => simp
    | cons _ _ => simp at h
  | cons x a ih => cases c with
    | nil => simp at h
    | cons y c => simp at h; simp [ih c h, add_assoc]

theorem dot_comm (a b : List F) : dot a b = dot b a := by
  induction a generalizing b with
  | nil => simp
  | cons x a ih => cases b with
    | nil => simp
    | cons y b => simp [ih b, mul_comm]

theorem dot_vadd (a b c : List F) (h : b.length = c.length) :
    dot a (vadd b c) = dot a b + dot a c := by
  induction a generalizing b c with
  | nil => simp
  | cons x a ih =>
    cases b with
    | nil => cases c with
      | nil => simp [vadd]
      | cons _ _ => simp at h
    | cons y b => cases c with
      | nil => simp at h
      | cons z c =>
        simp at h
        have := ih b c h
        simp [vadd] at this ⊢
        rw [this]; ring

theorem dot_vsmul (s : F) (a b : List F) : dot a (vsmul s b) = s * dot a b := by
  induction a generalizing b with
  | nil => simp
  | cons x a ih => cases b with
    | nil => simp [vsmul]
    | cons y b =>
      have := ih b
      simp [vsmul] at this ⊢
      rw [this]; ring

theorem dot_map_left_right {ι : Type} (l : List ι) (f g : ι → F) :
    dot (l.map f) (l.map g) = (l.map fun i => f i * g i).sum := by
  induction l with
  | nil => simp
  | cons x l ih => simp [ih]

theorem dot_replicate_zero (n : Nat) (b : List F) : dot (List.replicate n 0) b = 0 := by
  induction n generalizing b with
  | zero => simp
  | succ n ih => cases b with
    | nil => simp
    | cons y b => simp [List.replicate_succ, ih]

theorem dot_set_one (n i : Nat) (b : List F) (hi : i < n) (hb : b.length = n) :
    dot ((List.replicate n 0).set i 1) b = b[i]'(by omega) := by
  induction n generalizing i b with
  | zero => omega
  | succ n ih =>
    cases b with
    | nil => simp at hb
    | cons y b =>
      simp at hb
      cases i with
      | zero => simp [List.replicate_succ, dot_replicate_zero]
      | succ i => simp [List.replicate_succ, ih i b (by omega) hb]

end dot

section lagrange
variable [DecidableEq F]

theorem lagrangeRow_length (cpos : List F) (v : F) : (lagrangeRow cpos v).length = cpos.length := by
  unfold lagrangeRow
  split <;> simp

theorem lagrangeDenom_ne_zero (cpos : List F) (v : F) : lagrangeDenom cpos v ≠ 0 := by
  unfold lagrangeDenom
  rw [Ne, List.prod_eq_zero_iff]
  intro h
  obtain ⟨x, _, hx⟩ := List.mem_map.1 h
  split at hx
  · exact one_ne_zero hx
  · rename_i hne; exact hne (sub_eq_zero.1 hx)

theorem lagrangeDenom_eq (cpos : List F) (hn : cpos.Nodup) (v : F) (hv : v ∈ cpos) :
    lagrangeDenom cpos v = ∏ x ∈ cpos.toFinset.erase v, (v - x) := by
  unfold lagrangeDenom
  rw [← List.prod_toFinset _ hn, ← Finset.mul_prod_erase _ _ (List.mem_toFinset.2 hv)]
  simp only [if_true, one_mul]
  apply Finset.prod_congr rfl
  intro x hx
  rw [if_neg (Ne.symm (Finset.ne_of_mem_erase hx))]

theorem degree_lt_toFinset {cpos : List F} (hn : cpos.Nodup) {p : F[X]}
    (hp : p.degree < cpos.length) : p.degree < cpos.toFinset.card := by
  rwa [List.toFinset_card_of_nodup hn]

/-- Key lemma: a Lagrange row evaluates every low-degree polynomial. -/
theorem dot_lagrangeRow (cpos : List F) (hn : cpos.Nodup) (v : F) (p : F[X])
    (hp : p.degree < cpos.length) :
    dot (lagrangeRow cpos v) (cpos.map fun x => p.eval x) = p.eval v := by
  unfold lagrangeRow
  split
  · rename_i i hi
    rw [List.findIdx?_eq_some_iff_getElem] at hi
    obtain ⟨hlt, hv, _⟩ := hi
    rw [dot_set_one _ _ _ hlt (by simp)]
    simp at hv
    simp [hv]
  · rename_i hnone
    have hv : ∀ x ∈ cpos, x ≠ v := by
      intro x hx
      simpa using (List.findIdx?_eq_none_iff.1 hnone) x hx
    have hs : ∀ x ∈ cpos.toFinset, v - x ≠ 0 := by
      intro x hx h
      exact hv x (List.mem_toFinset.1 hx) (sub_eq_zero.1 h).symm
    simp only []
    have h1 : List.zipWith (fun x d => (List.map (fun x => v - x) cpos).prod / ((v - x) * d)) cpos
        (cpos.map (lagrangeDenom cpos)) = cpos.map fun x =>
          (List.map (fun x => v - x) cpos).prod / ((v - x) * lagrangeDenom cpos x) := by
      rw [List.zipWith_map_right]
      exact List.zipWith_self
    rw [h1, dot_map_left_right, ← List.prod_toFinset _ hn, ← List.sum_toFinset _ hn]
    have hint := Lagrange.eq_interpolate (s := cpos.toFinset) (v := id) (f := p)
      Function.injective_id.injOn (degree_lt_toFinset hn hp)
    conv_rhs => rw [hint, Lagrange.interpolate_apply, eval_finsetSum]
    apply Finset.sum_congr rfl
    intro x hx
    rw [eval_mul, eval_C, mul_comm]
    simp only [id]
    congr 1
    rw [lagrangeDenom_eq cpos hn x (List.mem_toFinset.1 hx)]
    rw [Lagrange.basis, eval_prod]
    rw [← Finset.mul_prod_erase _ _ hx, mul_div_mul_left _ _ (hs x hx), ← Finset.prod_div_distrib]
    apply Finset.prod_congr rfl
    intro y hy
    simp [Lagrange.basisDivisor, div_eq_inv_mul]

/-- Every vector of values at distinct positions comes from a low-degree polynomial. -/
theorem exists_poly_of_values (cpos : List F) (hn : cpos.Nodup) (vals : List F)
    (hl : vals.length = cpos.length) :
    ∃ p : F[X], p.degree < cpos.length ∧ cpos.map (fun x => p.eval x) = vals := by
  refine ⟨Lagrange.interpolate cpos.toFinset id
    (fun x => vals.getD (cpos.idxOf x) 0), ?_, ?_⟩
  · have := Lagrange.degree_interpolate_lt (s := cpos.toFinset) (v := (id : F → F))
      (r := fun x => vals.getD (cpos.idxOf x) 0) Function.injective_id.injOn
    rwa [List.toFinset_card_of_nodup hn] at this
  · apply List.ext_getElem (by simp [hl])
    intro i h1 h2
    simp only [List.getElem_map]
    have hi : i < cpos.length := by simpa using h1
    have := Lagrange.eval_interpolate_at_node (s := cpos.toFinset) (v := (id : F → F))
      (i := cpos[i]) (fun x => vals.getD (cpos.idxOf x) 0) Function.injective_id.injOn
      (List.mem_toFinset.2 (List.getElem_mem hi))
    simp only [id] at this
    rw [this, hn.idxOf_getElem i hi]
    simp [List.getD_eq_getElem?_getD, h2]

/-- Low-degree polynomials are determined by their values. -/
theorem poly_eq_of_values (cpos : List F) (hn : cpos.Nodup) (p q : F[X])
    (hp : p.degree < cpos.length) (hq : q.degree < cpos.length)
    (h : cpos.map (fun x => p.eval x) = cpos.map (fun x => q.eval x)) : p = q := by
  apply Polynomial.eq_of_degrees_lt_of_eval_finset_eq cpos.toFinset
    (degree_lt_toFinset hn hp) (degree_lt_toFinset hn hq)
  intro x hx
  exact List.map_inj_left.1 h x (List.mem_toFinset.1 hx)

end lagrange

end Verif
