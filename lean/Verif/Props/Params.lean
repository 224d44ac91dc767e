import Verif.Props.Core
import Verif.EndToEndLemmas
import Mathlib.LinearAlgebra.Lagrange

/-!
# C108: parameters which are not checked
-/

open Polynomial Verif
open Verif.CodeField (ofU32)

namespace Verif.Props

variable {F : Type} [CodeField F] [DecidableEq F]

omit [DecidableEq F] in
theorem ofU32_injOn_range {n : Nat} (h : n ≤ CodeField.order F) : Set.InjOn (fun i => (ofU32 i : F)) (Finset.range n) := fun a ha b hb hab =>
  CodeField.ofU32_inj a b (lt_of_lt_of_le (Finset.mem_range.1 ha) h) (lt_of_lt_of_le (Finset.mem_range.1 hb) h) hab

omit [DecidableEq F] in
theorem zeros_map (n l : Nat) : ((defaultPos n l : List F).map fun _ => (0 : F)) = List.replicate l 0 := by
  rw [List.map_const']
  simp [defaultPos]

/-- C108. `PackedSharing::new`, for the sharings of the secrets, succeeds exactly if `t + l ≤ n`. -/
theorem C108_checked (n t l : Nat) (hl : 1 ≤ l) :
    (PackedSharing.new (t + l - 1) n (defaultPos n l : List F)).isSome = true ↔ t + l ≤ n := by
  unfold PackedSharing.new
  simp only
  split <;> simp <;> omega

/-- C108. What `mult` does for all parameters with which `PackedSharing::new` succeeds: it never panics and, for all sharings `x` and `y`, gives sharings of
the values, at the positions of the secrets, of the polynomials of degree below `n` through the products of the parties' shares. -/
theorem C108_result (ctx : Ctx F) (h : ctx.Good) (num : Nat) (tapes : List (List F)) (ht : tapes.length = num) (htl : ∀ tp ∈ tapes, tp.length = ctx.t)
    (x y : Nat → F[X]) (R randoms zeros : List (List F))
    (hr : VecSharing ctx.n (ctx.t + ctx.l) (defaultPos ctx.n ctx.l) R randoms) (hR : R.length = num)
    (hz : VecZero ctx.n ctx.n (defaultPos ctx.n ctx.l) num zeros) :
    ∃ (q : Nat → F[X]) (outs : List (List F)), (∀ j < num, (q j).degree < ctx.n ∧ ∀ i < ctx.n, (q j).eval (ofU32 i) = (x j * y j).eval (ofU32 i)) ∧
      mult ctx num tapes ((List.range ctx.n).map fun i => (List.range num).map fun j => (x j).eval (ofU32 i))
        ((List.range ctx.n).map fun i => (List.range num).map fun j => (y j).eval (ofU32 i)) randoms zeros = some outs ∧
      VecSharing ctx.n (ctx.t + ctx.l) (defaultPos ctx.n ctx.l)
        ((List.range num).map fun j => (defaultPos ctx.n ctx.l).map fun v => (q j).eval v) outs := by
  obtain ⟨r, r1, r2, r3⟩ := (vecSharing_iff _ _ _ _ _).1 hr
  rw [hR] at r1 r2
  obtain ⟨z, z1, z2, z3⟩ := vecZero_tab hz
  have hinj : Set.InjOn (fun i => (ofU32 i : F)) (Finset.range ctx.n) := ofU32_injOn_range (by have := h.fit; omega)
  let q : Nat → F[X] := fun j => Lagrange.interpolate (Finset.range ctx.n) (fun i => (ofU32 i : F)) fun i => (x j * y j).eval (ofU32 i)
  have q1 : ∀ j, (q j).degree < ctx.n := fun j => by
    have := Lagrange.degree_interpolate_lt (fun i => (x j * y j).eval (ofU32 i)) hinj
    rwa [Finset.card_range] at this
  have q2 : ∀ j, ∀ i < ctx.n, (q j).eval (ofU32 i) = (x j * y j).eval (ofU32 i) := fun j i hi =>
    Lagrange.eval_interpolate_at_node (fun i => (x j * y j).eval (ofU32 i)) hinj (Finset.mem_range.2 hi)
  obtain ⟨w, w1, w2, w3⟩ := reduceDegree_tab h num tapes ht htl q r z (fun j _ => q1 j) r1 z1 z3
  refine ⟨q, tabShares ctx.n num w, fun j _ => ⟨q1 j, q2 j⟩, ?_, ?_⟩
  · unfold mult
    rw [r2, z2, mapM_range_some ctx.n _ (fun i => (List.range num).map fun j => (q j).eval (ofU32 i))]
    · exact w3
    · intro i hi
      rw [List.getElem?_map, List.getElem?_map, List.getElem?_range hi]
      simp only [Option.map_some, Option.bind_some]
      rw [if_pos (by simp), vmul_map]
      congr 1
      refine List.map_congr_left fun j _ => ?_
      rw [q2 j i hi, eval_mul]
  · rw [vecSharing_iff, List.length_map, List.length_range]
    refine ⟨w, w1, rfl, ?_⟩
    unfold tabSecrets
    refine List.map_congr_left fun j hj => List.map_congr_left fun v hv => ?_
    rw [w2 j (List.mem_range.1 hj) v hv]

/-- C108 is false: with all parameters for which `t + l ≤ n ≤ 2(t + l - 1)` nothing panics, and there are sharings of secrets, none of which is zero, for
which `mult` gives sharings of zeros, whatever the randomness is. -/
theorem C108_mult_false (ctx : Ctx F) (h : ctx.Good) (hn : ctx.n ≤ 2 * (ctx.t + ctx.l - 1)) :
    ∃ (X Y vxs vys : List (List F)), X.length = 1 ∧ Y.length = 1 ∧
      VecSharing ctx.n (ctx.t + ctx.l) (defaultPos ctx.n ctx.l) X vxs ∧ VecSharing ctx.n (ctx.t + ctx.l) (defaultPos ctx.n ctx.l) Y vys ∧
      (∀ v ∈ X.flatten ++ Y.flatten, v ≠ 0) ∧
      ∀ (R randoms zeros tapes : List (List F)), VecSharing ctx.n (ctx.t + ctx.l) (defaultPos ctx.n ctx.l) R randoms → R.length = 1 →
        VecZero ctx.n ctx.n (defaultPos ctx.n ctx.l) 1 zeros → tapes.length = 1 → (∀ tp ∈ tapes, tp.length = ctx.t) →
        ∃ outs, mult ctx 1 tapes vxs vys randoms zeros = some outs ∧
          VecSharing ctx.n (ctx.t + ctx.l) (defaultPos ctx.n ctx.l) [List.replicate ctx.l 0] outs := by
  have hl := h.posL
  have hfit := h.fit
  obtain ⟨a, ha⟩ : ∃ a, a = ctx.t + ctx.l - 1 := ⟨_, rfl⟩
  have han : a < ctx.n := by have := h.le; omega
  let f : F[X] := ∏ i ∈ Finset.range a, (X - C (ofU32 i))
  let g : F[X] := ∏ i ∈ Finset.Ico a ctx.n, (X - C (ofU32 i))
  have degp : ∀ S : Finset Nat, (∏ i ∈ S, (X - C (ofU32 i : F))).degree = (S.card : WithBot Nat) := fun S => by
    rw [degree_prod]
    simp
  have df : f.degree < (ctx.t + ctx.l : Nat) := by
    simp only [f]
    rw [degp, Finset.card_range]
    exact_mod_cast (by omega : a < ctx.t + ctx.l)
  have dg : g.degree < (ctx.t + ctx.l : Nat) := by
    simp only [g]
    rw [degp, Nat.card_Ico]
    exact_mod_cast (by omega : ctx.n - a < ctx.t + ctx.l)
  have nz : ∀ S : Finset Nat, (∀ i ∈ S, i < ctx.n) → ∀ v ∈ (defaultPos ctx.n ctx.l : List F), (∏ i ∈ S, (X - C (ofU32 i : F))).eval v ≠ 0 := by
    intro S hS v hv
    unfold defaultPos at hv
    obtain ⟨s, hs, rfl⟩ := List.mem_map.1 hv
    rw [List.mem_range] at hs
    rw [eval_prod, Finset.prod_ne_zero_iff]
    intro i hi
    rw [eval_sub, eval_X, eval_C, sub_ne_zero]
    intro he
    have := CodeField.ofU32_inj _ _ (by omega) (by have := hS i hi; omega) he
    have := hS i hi
    omega
  have zero : ∀ i < ctx.n, (f * g).eval (ofU32 i) = 0 := by
    intro i hi
    rw [eval_mul]
    by_cases hia : i < a
    · refine mul_eq_zero_of_left ?_ _
      simp only [f]
      rw [eval_prod]
      exact Finset.prod_eq_zero (Finset.mem_range.2 hia) (by simp)
    · refine mul_eq_zero_of_right _ ?_
      simp only [g]
      rw [eval_prod]
      exact Finset.prod_eq_zero (Finset.mem_Ico.2 ⟨by omega, hi⟩) (by simp)
  have hsh : ∀ p : F[X], p.degree < (ctx.t + ctx.l : Nat) → VecSharing ctx.n (ctx.t + ctx.l) (defaultPos ctx.n ctx.l)
      [(defaultPos ctx.n ctx.l).map fun v => p.eval v] ((List.range ctx.n).map fun i => (List.range 1).map fun _ => p.eval (ofU32 i)) := fun p hp =>
    ⟨[p], fun q hq => by rw [List.mem_singleton.1 hq]; exact hp, rfl, rfl⟩
  refine ⟨[(defaultPos ctx.n ctx.l).map fun v => f.eval v], [(defaultPos ctx.n ctx.l).map fun v => g.eval v], _, _, rfl, rfl, hsh f df, hsh g dg, ?_, ?_⟩
  · intro v hv
    rw [List.flatten_singleton, List.flatten_singleton] at hv
    rcases List.mem_append.1 hv with hv | hv
    · obtain ⟨w, hw, rfl⟩ := List.mem_map.1 hv
      exact nz _ (fun i hi => by have := Finset.mem_range.1 hi; omega) w hw
    · obtain ⟨w, hw, rfl⟩ := List.mem_map.1 hv
      exact nz _ (fun i hi => (Finset.mem_Ico.1 hi).2) w hw
  · intro R randoms zeros tapes hr hR hz ht htl
    obtain ⟨q, outs, q1, q2, q3⟩ := C108_result ctx h 1 tapes ht htl (fun _ => f) (fun _ => g) R randoms zeros hr hR hz
    refine ⟨outs, q2, ?_⟩
    obtain ⟨d1, d2⟩ := q1 0 Nat.one_pos
    have hq : q 0 = 0 := by
      refine Polynomial.eq_zero_of_degree_lt_of_eval_index_eq_zero (v := fun i => (ofU32 i : F)) (s := Finset.range ctx.n) (ofU32_injOn_range (by omega)) ?_ ?_
      · rw [Finset.card_range]
        exact d1
      · intro i hi
        rw [d2 i (Finset.mem_range.1 hi)]
        exact zero i (Finset.mem_range.1 hi)
    have e : ((List.range 1).map fun j => (defaultPos ctx.n ctx.l : List F).map fun v => (q j).eval v) = [List.replicate ctx.l 0] := by
      rw [show List.range 1 = [0] from rfl, List.map_singleton, hq]
      simp only [eval_zero]
      rw [zeros_map]
    rw [e] at q3
    exact q3

/-- C108. So `mult` multiplies exactly if `2(t + l - 1) < n`. -/
theorem C108_mult_iff (ctx : Ctx F) (h : ctx.Good) :
    (∀ (X Y R vxs vys randoms zeros tapes : List (List F)), VecSharing ctx.n (ctx.t + ctx.l) (defaultPos ctx.n ctx.l) X vxs →
      VecSharing ctx.n (ctx.t + ctx.l) (defaultPos ctx.n ctx.l) Y vys → Y.length = X.length →
      VecSharing ctx.n (ctx.t + ctx.l) (defaultPos ctx.n ctx.l) R randoms → R.length = X.length →
      VecZero ctx.n ctx.n (defaultPos ctx.n ctx.l) X.length zeros → tapes.length = X.length → (∀ tp ∈ tapes, tp.length = ctx.t) →
      ∃ outs, mult ctx X.length tapes vxs vys randoms zeros = some outs ∧
        VecSharing ctx.n (ctx.t + ctx.l) (defaultPos ctx.n ctx.l) (List.zipWith vmul X Y) outs) ↔ 2 * (ctx.t + ctx.l - 1) < ctx.n := by
  constructor
  · intro hall
    by_contra hlt
    obtain ⟨X, Y, vxs, vys, lX, lY, sX, sY, hne, hbad⟩ := C108_mult_false ctx h (by omega)
    have hl := h.posL
    have z1 : VecSharing ctx.n (ctx.t + ctx.l) (defaultPos ctx.n ctx.l) [List.replicate ctx.l (0 : F)] ((List.range ctx.n).map fun _ => [0]) := by
      refine ⟨[0], fun p hp => ?_, by simp, by simp only [List.map_singleton, eval_zero]; rw [zeros_map]⟩
      rw [List.mem_singleton.1 hp, degree_zero]
      exact WithBot.bot_lt_coe _
    have z2 : VecZero ctx.n ctx.n (defaultPos ctx.n ctx.l) 1 ((List.range ctx.n).map fun _ => [(0 : F)]) := by
      refine ⟨[0], fun p hp => ?_, by simp, ?_⟩
      · rw [List.mem_singleton.1 hp, degree_zero]
        exact WithBot.bot_lt_coe _
      · simp only [List.map_singleton, eval_zero]
        rw [zeros_map]
        simp [defaultPos]
    obtain ⟨outs, o1, o2⟩ := hall X Y _ vxs vys _ _ [List.replicate ctx.t 0] sX sY (by omega) z1 (by simp [lX]) (by rw [lX]; exact z2) (by simp [lX])
      (fun tp htp => by rw [List.mem_singleton.1 htp, List.length_replicate])
    obtain ⟨outs', o3, o4⟩ := hbad _ _ _ [List.replicate ctx.t 0] z1 rfl z2 rfl (fun tp htp => by rw [List.mem_singleton.1 htp, List.length_replicate])
    rw [lX, o3, Option.some.injEq] at o1
    subst o1
    have hfit := h.fit
    have := vecSharing_unique (by omega) h.le h.posN o2 o4
    obtain ⟨x, rfl⟩ := List.length_eq_one_iff.1 lX
    obtain ⟨y, rfl⟩ := List.length_eq_one_iff.1 lY
    obtain ⟨px, -, -, ex⟩ := sX
    obtain ⟨py, -, -, ey⟩ := sY
    have lx : x.length = ctx.l := by
      cases px with
      | nil => simp at ex
      | cons p ps => rw [List.map_cons] at ex; rw [(List.cons.inj ex).1]; simp [defaultPos]
    have ly : y.length = ctx.l := by
      cases py with
      | nil => simp at ey
      | cons p ps => rw [List.map_cons] at ey; rw [(List.cons.inj ey).1]; simp [defaultPos]
    cases x with
    | nil => simp at lx; omega
    | cons a x =>
      cases y with
      | nil => simp at ly; omega
      | cons b y =>
        obtain ⟨k, hk⟩ : ∃ k, ctx.l = k + 1 := ⟨ctx.l - 1, by omega⟩
        rw [hk, List.replicate_succ] at this
        simp only [List.zipWith_cons_cons, List.zipWith_nil_right, vmul, List.cons.injEq, and_true] at this
        rcases mul_eq_zero.1 this.1 with h0 | h0
        · exact hne a (by simp) h0
        · exact hne b (by simp) h0
  · intro hd X Y R vxs vys randoms zeros tapes h1 h2 h3 h4 h5 h6 h7 h8
    exact C41_mult ctx h hd X Y R vxs vys randoms zeros tapes h1 h2 h3 h4 h5 h6 h7 h8

/-- The parameters of the next example: four parties, threshold 1, two secrets, over GF(16). -/
noncomputable def c108Ctx : Option (Ctx (GF 4)) :=
  (PackedSharing.new (1 + 2 - 1) 4 (defaultPos 4 2)).bind fun pss =>
  (PackedSharing.new (4 - 1) 4 (defaultPos 4 2)).map fun pssN => ⟨4, 1, 2, pss, pssN⟩

/-- The values of `X (X - 1)` and `(X - 2)(X - 3)` are multiplied: the result is 0, although the product is not 0 at the positions 4 and 5 of the secrets. -/
example : (c108Ctx.bind fun ctx =>
    (mult ctx 1 [[ofU32 3]] ((List.range 4).map fun i => [ofU32 i * (ofU32 i - 1)])
      ((List.range 4).map fun i => [(ofU32 i - ofU32 2) * (ofU32 i - ofU32 3)])
      ((List.range 4).map fun i => [(ofU32 i) ^ 2]) ((List.range 4).map fun _ => [0])).bind fun outs =>
    (outs.mapM fun v => v[0]?).bind fun s => ctx.pss.semihonRecon s) = some [0, 0] ∧
    (ofU32 4 * (ofU32 4 - 1) * ((ofU32 4 - ofU32 2) * (ofU32 4 - ofU32 3)) : GF 4) ≠ 0 := by
  decide +kernel

end Verif.Props
