import Verif.NetSortHide
import Verif.ShippedSort
import Verif.GFSlice
import Verif.PrivacyGarbleSpec
import Mathlib.LinearAlgebra.Lagrange

/-!
# The last XOR block of `sub64.txt`, where its own masks hide what is seen of its input
-/

open Polynomial

namespace Verif

open Props

/-- The zeros of the polynomial which is 0 at one place and 1 at the others. -/
theorem chi_zero {F : Type} [Field F] (pos : Nat → F) (s : Finset Nat) {A : Nat} (hA : A ∈ s) (inj : Set.InjOn pos s) (χ : F[X])
    (hd : χ.degree < s.card) (hχ : ∀ w ∈ s, χ.eval (pos w) = if w = A then 0 else 1) (x : F) :
    χ.eval x = 0 ↔ ∏ w ∈ s.erase A, (x - pos w) = ∏ w ∈ s.erase A, (pos A - pos w) := by
  have hc0 : ∏ w ∈ s.erase A, (pos A - pos w) ≠ 0 := by
    refine Finset.prod_ne_zero_iff.2 fun w hw h => ?_
    exact (Finset.mem_erase.1 hw).1 (inj (Finset.mem_erase.1 hw).2 hA (sub_eq_zero.1 h).symm)
  have hcard : (s.erase A).card < s.card := by
    rw [Finset.card_erase_of_mem hA]
    have := Finset.card_pos.2 ⟨A, hA⟩
    omega
  have key : (1 - χ) * C (∏ w ∈ s.erase A, (pos A - pos w)) = ∏ w ∈ s.erase A, (X - C (pos w)) := by
    refine Polynomial.eq_of_degrees_lt_of_eval_index_eq s inj ?_ ?_ fun w hw => ?_
    · rw [degree_mul_C hc0]
      refine (degree_sub_le _ _).trans_lt (max_lt ?_ hd)
      rw [degree_one]
      exact_mod_cast Finset.card_pos.2 ⟨A, hA⟩
    · rw [degree_prod]
      simp only [degree_X_sub_C, Finset.sum_const, nsmul_eq_mul, mul_one]
      exact_mod_cast hcard
    · rw [eval_mul, eval_sub, eval_one, eval_C, hχ w hw, eval_prod]
      simp only [eval_sub, eval_X, eval_C]
      by_cases h : w = A
      · rw [if_pos h, h, sub_zero, one_mul]
      · rw [if_neg h, sub_self, zero_mul]
        exact (Finset.prod_eq_zero (Finset.mem_erase.2 ⟨h, hw⟩) (sub_self _)).symm
  have key := congrArg (eval x) key
  rw [eval_mul, eval_sub, eval_one, eval_C, eval_prod] at key
  simp only [eval_sub, eval_X, eval_C] at key
  rw [← key]
  constructor
  · intro h
    rw [h, sub_zero, one_mul]
  · intro h
    have := mul_right_cancel₀ hc0 (h.trans (one_mul _).symm)
    exact sub_eq_self.1 this

/-- The packing parameters for which the wires of the last XOR block are `A` and the `A + i`, of which it has itself the latter; and the numbers
of parties for which it does not hide what is seen. -/
def sub64Hide : List (Nat × Nat × Nat × List Nat × List Nat) :=
  [(7, 5, 500, [1], []), (9, 7, 500, [1], []), (15, 13, 498, [1, 2, 3], []),
    (20, 13, 498, [1, 2, 3], [32338, 32340, 32342, 65239, 98032, 123811, 146845, 147057]), (21, 19, 497, [1, 2, 3, 4], []),
    (23, 14, 498, [1, 2, 3], [32335, 32337, 32339, 65236, 98029, 123808, 146842, 147038, 147054])]

theorem sub64_hideTail : ∀ x ∈ sub64Hide, fullPart sub64Sort.xor.cnt x.1 < sub64Sort.xor.cnt ∧
    (sub64Sort.tailWires sub64Net x.1 0 1).length = x.2.1 ∧ (sub64Sort.tailOuts sub64Net x.1).length = x.2.1 ∧
    (∀ w ∈ sub64Sort.tailWires sub64Net x.1 0 1, w = x.2.2.1 ∨ w ∈ x.2.2.2.1.map (x.2.2.1 + ·)) ∧
    x.2.2.1 ∈ sub64Sort.tailWires sub64Net x.1 0 1 ∧ x.2.2.1 ∉ sub64Sort.tailOuts sub64Net x.1 ∧
    (∀ w ∈ x.2.2.2.1.map (x.2.2.1 + ·), w ∈ sub64Sort.tailWires sub64Net x.1 0 1 ∧ w ∈ sub64Sort.tailOuts sub64Net x.1) ∧
    sub64Sort.restOk sub64Net x.1 = true := by decide +kernel

theorem sub64_hideTable : ∀ x ∈ sub64Hide, x.2.2.2.1.Nodup ∧ (∀ i ∈ x.2.2.2.1, 0 < i ∧ i ≤ 64) ∧ x.1 + x.2.2.2.1.length + 1 ≤ 2 * x.2.1 ∧
    x.1 ≤ 24 ∧ x.2.2.1 ≤ 500 ∧ x.2.2.2.1.length + 1 ≤ x.2.1 := by decide

theorem sub64_differ : ∀ x ∈ sub64Hide, differLanes ((List.range (x.1 - x.2.1)).map fun q => x.2.1 + q - (x.2.2.2.1.length + 1)) x.2.2.2.1
    (x.2.2.2.2.map fun n => x.2.2.1 + (n + x.1)) (x.2.2.1 + 3 * x.1) = true := by decide +kernel

/-- The different wires of the last XOR block. -/
theorem sub64_hideWires {x : Nat × Nat × Nat × List Nat × List Nat} (hx : x ∈ sub64Hide) :
    (sub64Sort.tailWires sub64Net x.1 0 1).toFinset.erase x.2.2.1 = (x.2.2.2.1.map (x.2.2.1 + ·)).toFinset ∧
      (sub64Sort.tailWires sub64Net x.1 0 1).toFinset.card = x.2.2.2.1.length + 1 := by
  obtain ⟨-, -, -, t1, t2, -, t3, -⟩ := sub64_hideTail x hx
  obtain ⟨n1, n2, -⟩ := sub64_hideTable x hx
  have hA : x.2.2.1 ∉ x.2.2.2.1.map (x.2.2.1 + ·) := by
    intro h
    obtain ⟨i, hi, e⟩ := List.mem_map.1 h
    have := n2 i hi
    omega
  have he : (sub64Sort.tailWires sub64Net x.1 0 1).toFinset.erase x.2.2.1 = (x.2.2.2.1.map (x.2.2.1 + ·)).toFinset := by
    ext w
    rw [Finset.mem_erase, List.mem_toFinset, List.mem_toFinset]
    constructor
    · rintro ⟨h1, h2⟩
      exact (t1 w h2).resolve_left h1
    · intro h
      exact ⟨fun e => hA (e ▸ h), (t3 w h).1⟩
  refine ⟨he, ?_⟩
  rw [← Finset.card_erase_add_one (List.mem_toFinset.2 t2), he, List.toFinset_card_of_nodup, List.length_map]
  exact n1.map fun a b h => Nat.add_left_cancel h

/-- When the last XOR block does not contribute to what is seen. -/
theorem sub64_zero {ctx : Ctx (GF 18)} {x : Nat × Nat × Nat × List Nat × List Nat} (hx : x ∈ sub64Hide) (hl : ctx.l = x.1)
    (hw : ctx.n + ctx.l + 567 ≤ 2 ^ 18) (r : Nat) (χ : (GF 18)[X]) (hd : χ.degree < (sub64Sort.tailWires sub64Net ctx.l 0 1).toFinset.card)
    (hχ : ∀ w ∈ sub64Sort.tailWires sub64Net ctx.l 0 1, χ.eval (CodeField.ofU32 (w + (ctx.n + ctx.l))) =
      if w ∈ sub64Sort.tailOuts sub64Net ctx.l then 1 else 0) :
    χ.eval (CodeField.ofU32 r) = 0 ↔ (x.2.2.2.1.map fun i => (GF.ofU32 r - GF.ofU32 (x.2.2.1 + (ctx.n + ctx.l) + i) : GF 18)).prod
      = (x.2.2.2.1.map fun i => (GF.ofU32 (x.2.2.1 + (ctx.n + ctx.l)) - GF.ofU32 (x.2.2.1 + (ctx.n + ctx.l) + i) : GF 18)).prod := by
  obtain ⟨-, -, -, t3, t4, t5, t6, -⟩ := sub64_hideTail x hx
  obtain ⟨n1, n2, -, -, n5, -⟩ := sub64_hideTable x hx
  obtain ⟨w1, -⟩ := sub64_hideWires hx
  rw [← hl] at t3 t4 t5 t6 w1
  have hpos : ∀ w ∈ sub64Sort.tailWires sub64Net ctx.l 0 1, w + (ctx.n + ctx.l) < 2 ^ 18 := by
    intro w h
    rcases t3 w h with rfl | h
    · omega
    · obtain ⟨i, hi, rfl⟩ := List.mem_map.1 h
      have := n2 i hi
      omega
  rw [chi_zero (fun w => CodeField.ofU32 (w + (ctx.n + ctx.l)) : Nat → GF 18) _ (List.mem_toFinset.2 t4) (fun v hv w hw' e => by
      have := CodeField.ofU32_inj _ _ (hpos v (List.mem_toFinset.1 hv)) (hpos w (List.mem_toFinset.1 hw')) e
      omega) χ hd (fun w h => by
      rw [hχ w (List.mem_toFinset.1 h)]
      by_cases e : w = x.2.2.1
      · rw [if_pos e, e, if_neg t5]
      · rw [if_neg e, if_pos (t6 w ((t3 w (List.mem_toFinset.1 h)).resolve_left e)).2]),
    w1, List.prod_toFinset _ (n1.map fun a b h => Nat.add_left_cancel h), List.prod_toFinset _ (n1.map fun a b h => Nat.add_left_cancel h),
    List.map_map, List.map_map]
  have e : ∀ i, x.2.2.1 + (ctx.n + ctx.l) + i = x.2.2.1 + i + (ctx.n + ctx.l) := fun i => by omega
  simp only [e]
  exact Iff.rfl

/-- What is seen of the last XOR block is hidden. -/
theorem sub64_hides {ctx : Ctx (GF 18)} {x : Nat × Nat × Nat × List Nat × List Nat} (hx : x ∈ sub64Hide) (hl : ctx.l = x.1)
    (hn : 2 * ctx.l ≤ ctx.n) (hw : ctx.n + ctx.l + 567 ≤ 2 ^ 18) (hb : ctx.n ∉ x.2.2.2.2) (p : PackedCircuit)
    (hp : sub64Net.circuit.pack ctx.l = some p) : p.Hides ctx := by
  obtain ⟨t0, t1, t2, -, -, -, -, t7⟩ := sub64_hideTail x hx
  obtain ⟨-, n2, n3, n4, n5, -⟩ := sub64_hideTable x hx
  obtain ⟨-, w2⟩ := sub64_hideWires hx
  rw [← hl] at t0 t1 t2 t7 w2 n3 n4
  right
  refine ⟨_, _, _, _, ⟨sub64_sort.xorInp hp (k := 1) (by norm_num) t0, sub64_sort.xorBlock hp t0, by rw [t1, t2], by rw [t1, t2, w2]; omega,
    fun χ hd hχ q hq h0 => ?_⟩, fun j ws' h1 h2 => sub64_sort.rest hp t7 h1 h2⟩
  have hz := (sub64_zero hx hl hw _ χ hd hχ).1 h0
  rw [w2, t1] at hz
  rw [t1] at hq
  refine differ_prod (sub64_differ x hx) (fun i hi => (n2 i hi).2) (r := x.2.1 + q - (x.2.2.2.1.length + 1))
    (List.mem_map.2 ⟨q, List.mem_range.2 (by omega), rfl⟩) (by omega) (c := x.2.2.1 + (ctx.n + ctx.l)) (by omega) (by omega) (fun h => ?_) hz
  obtain ⟨n, h1, h2⟩ := List.mem_map.1 h
  exact hb (by rwa [show ctx.n = n by omega])

theorem sub64_hideSelf : ∀ x ∈ sub64Hide, sub64Sort.selfLeakOk sub64Net x.1 1 = true := by decide +kernel

/-- For the exceptional numbers of parties the block does not contribute for some party. -/
theorem sub64_rare : ∀ x ∈ sub64Hide, ∀ n ∈ x.2.2.2.2, ∃ q < x.1 - x.2.1,
    prodNat (x.2.1 + q - (x.2.2.2.1.length + 1)) (x.2.2.1 + (n + x.1)) x.2.2.2.1 1
      = prodNat (x.2.2.1 + (n + x.1)) (x.2.2.1 + (n + x.1)) x.2.2.2.1 1 ∧ 1000 < n := by decide +kernel

/-- In these cases the last XOR block is seen. -/
theorem sub64_rareLeak {ctx : Ctx (GF 18)} {x : Nat × Nat × Nat × List Nat × List Nat} (hx : x ∈ sub64Hide) (hl : ctx.l = x.1)
    (hw : ctx.n + ctx.l + 567 ≤ 2 ^ 18) (hb : ctx.n ∈ x.2.2.2.2) (ht : 2 ≤ ctx.t) (hn : ctx.t + 2 * ctx.l ≤ ctx.n) (p : PackedCircuit)
    (hp : sub64Net.circuit.pack ctx.l = some p) : ∃ i q ws Cs, Coalition ctx Cs ∧ Cs.card = ctx.t ∧ p.LeakyInput ctx Cs i q ws := by
  obtain ⟨t0, t1, t2, -⟩ := sub64_hideTail x hx
  obtain ⟨-, n2, n3, n4, n5, n6⟩ := sub64_hideTable x hx
  obtain ⟨-, w2⟩ := sub64_hideWires hx
  obtain ⟨q, hq, hz, hbig⟩ := sub64_rare x hx ctx.n hb
  have hself := sub64_hideSelf x hx
  rw [← hl] at t0 t1 t2 w2 n3 n4 hq hz hself
  obtain ⟨r, hr⟩ : ∃ r, x.2.1 + q - (x.2.2.2.1.length + 1) = r := ⟨_, rfl⟩
  rw [hr] at hz
  have hi : (2 * ((63 + ctx.l - 1) / ctx.l + 313 / ctx.l) + 1) % ctx.n = 2 * ((63 + ctx.l - 1) / ctx.l + 313 / ctx.l) + 1 := by
    refine Nat.mod_eq_of_lt ?_
    have h1 : (63 + ctx.l - 1) / ctx.l ≤ 63 + ctx.l - 1 := Nat.div_le_self ..
    have h2 : 313 / ctx.l ≤ 313 := Nat.div_le_self ..
    omega
  have hir : 2 * ((63 + ctx.l - 1) / ctx.l + 313 / ctx.l) + 1 ≠ r := by
    have : ∀ l < 25, 0 < l → 24 < 2 * ((63 + l - 1) / l + 313 / l) + 1 := by decide
    have := this ctx.l (by omega) (by omega)
    omega
  have hsub : ({(2 * ((63 + ctx.l - 1) / ctx.l + 313 / ctx.l) + 1) % ctx.n, q} : Finset Nat) ⊆ (Finset.range ctx.n).erase r := by
    intro y hy
    simp only [Finset.mem_insert, Finset.mem_singleton] at hy
    rw [Finset.mem_erase, Finset.mem_range]
    rcases hy with rfl | rfl
    · rw [hi]
      exact ⟨hir, by rw [← hi]; exact Nat.mod_lt _ (by omega)⟩
    · exact ⟨by omega, by omega⟩
  have h3 : ctx.t ≤ ((Finset.range ctx.n).erase r).card := by
    have := Finset.pred_card_le_card_erase (s := Finset.range ctx.n) (a := r)
    rw [Finset.card_range] at this
    omega
  obtain ⟨Cs, c1, c2, c3⟩ := Finset.exists_subsuperset_card_eq hsub ((Finset.card_le_two).trans ht) h3
  refine ⟨_, q, _, Cs, ⟨fun y hy => ?_, c3.le⟩, c3, sub64_sort.xorInp hp (k := 1) (by norm_num) t0, c1 (Finset.mem_insert_self ..),
    c1 (by simp), by omega, fun h => ?_, fun w hw' b bs hb hm => ?_⟩
  · have := c2 hy
    rw [Finset.mem_erase, Finset.mem_range] at this
    exact this.2
  · rw [t1, w2, hr] at h
    exact (Finset.mem_erase.1 (c2 h)).1 rfl
  · rcases sub64_sort.selfLeak sub64_checked hp hself w hw' b bs hb hm with h | ⟨rfl, -⟩
    · exact Or.inl h
    · right; right
      rw [sub64_sort.xorBlock hp t0, Option.some.injEq] at hb
      subst hb
      intro χ hd hχ
      rw [sub64_zero hx hl hw _ χ hd hχ, t1, w2, hr]
      have h1 : (1 : GF 18).val = 1 := rfl
      have hv : ∀ y < 2 ^ 18, (GF.ofU32 y : GF 18).val = y := fun y hy => Nat.mod_eq_of_lt hy
      have hci : ∀ i ∈ x.2.2.2.1, x.2.2.1 + (ctx.n + ctx.l) + i < 2 ^ 18 := fun i h => by have := n2 i h; omega
      have a := prodNat_val (GF.ofU32 r) (x.2.2.1 + (ctx.n + ctx.l)) _ hci 1
      have b := prodNat_val (GF.ofU32 (x.2.2.1 + (ctx.n + ctx.l))) (x.2.2.1 + (ctx.n + ctx.l)) _ hci 1
      rw [h1, hv _ (by omega), mul_one] at a
      rw [h1, hv _ (by omega), mul_one] at b
      exact GF.ext (a.symm.trans (hz.trans b))

end Verif
