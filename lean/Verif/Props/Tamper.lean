import Verif.TamperSpec
import Verif.PreprocLemmas
import Verif.GF
import Verif.Props.Core

/-! # C112: parties which send wrong shares -/

open Polynomial Verif
open Verif.CodeField (ofU32)

namespace Verif.Props

variable {F : Type} [CodeField F] [DecidableEq F]

omit [DecidableEq F] in
theorem nodes_inj {n : Nat} (hn : n ≤ CodeField.order F) : Set.InjOn (fun i => (ofU32 i : F)) (Finset.range n : Finset Nat) := by
  intro a ha b hb h
  simp only [Finset.coe_range, Set.mem_Iio] at ha hb
  exact CodeField.ofU32_inj a b (by omega) (by omega) h

omit [DecidableEq F] in
/-- The polynomial through the errors. -/
theorem shift_poly {n : Nat} (hn : n ≤ CodeField.order F) (e : Nat → F) : ∃ p : F[X], p.degree < n ∧ (∀ i, i < n → p.eval (ofU32 i) = e i) ∧
    ∀ k, p.eval (ofU32 (n + k)) = secretShift n e k := by
  refine ⟨Lagrange.interpolate (Finset.range n) (fun i => (ofU32 i : F)) e, ?_, ?_, ?_⟩
  · have := Lagrange.degree_interpolate_lt (s := Finset.range n) (v := fun i => (ofU32 i : F)) e (nodes_inj hn)
    simpa using this
  · intro i hi
    exact Lagrange.eval_interpolate_at_node (s := Finset.range n) (v := fun i => (ofU32 i : F)) e (nodes_inj hn) (Finset.mem_range.2 hi)
  · intro k
    rw [Lagrange.interpolate_apply, eval_finsetSum]
    simp [secretShift]

/-- The two halves are `reduce_degree`. -/
theorem reduceDegree_halves (ctx : Ctx F) (num : Nat) (tapes vxs randoms zeros : List (List F)) :
    reduceDegree ctx num tapes vxs randoms zeros = (reduceSends ctx vxs randoms zeros).bind (reduceFrom ctx num tapes randoms) := rfl

omit [DecidableEq F] in
theorem tamper_tab (n num : Nat) (e : Nat → Nat → F) (f : Nat → Nat → F) :
    tamper e ((List.range n).map fun i => (List.range num).map (f i)) = (List.range n).map fun i => (List.range num).map fun j => f i j + e i j := by
  unfold tamper
  apply List.ext_getElem?
  intro i
  by_cases hi : i < n
  · simp only [List.getElem?_mapIdx, List.getElem?_map, List.getElem?_range hi, Option.map_some, Option.some.injEq]
    apply List.ext_getElem?
    intro j
    by_cases hj : j < num
    · simp [hj]
    · simp [hj]
  · simp [hi]

/-- C112. The inputs of `reduce_degree` are as in C40, but the parties add arbitrary values to the shares they send to the leader.  Nobody
notices: all parties get results, and these are a sharing of degree below `t + l`, of secrets which are shifted by a linear function of the errors. -/
theorem C112_undetected_false (ctx : Ctx F) (h : ctx.Good) (X R vxs randoms zeros tapes : List (List F))
    (hx : VecSharing ctx.n ctx.n (defaultPos ctx.n ctx.l) X vxs)
    (hr : VecSharing ctx.n (ctx.t + ctx.l) (defaultPos ctx.n ctx.l) R randoms) (hR : R.length = X.length)
    (hz : VecZero ctx.n ctx.n (defaultPos ctx.n ctx.l) X.length zeros)
    (ht : tapes.length = X.length) (htl : ∀ tp ∈ tapes, tp.length = ctx.t) (e : Nat → Nat → F) :
    ∃ sent outs, reduceSends ctx vxs randoms zeros = some sent ∧ reduceFrom ctx X.length tapes randoms (tamper e sent) = some outs ∧
      VecSharing ctx.n (ctx.t + ctx.l) (defaultPos ctx.n ctx.l) (shiftSecrets ctx.n e X) outs := by
  have hfit := h.fit
  obtain ⟨x, x1, x2, x3⟩ := (vecSharing_iff _ _ _ _ _).1 hx
  obtain ⟨r, r1, r2, r3⟩ := (vecSharing_iff _ _ _ _ _).1 hr
  rw [hR] at r1 r2
  obtain ⟨z, z1, z2, z3⟩ := vecZero_tab hz
  choose E hE1 hE2 hE3 using fun j => shift_poly (n := ctx.n) (by omega) fun p => e p j
  obtain ⟨s, s1, s2, s3⟩ := rdLeader_tab h X.length tapes ht htl (fun j => x j + r j + z j + E j)
    (fun j hj => degree_add_lt (degree_add_lt (degree_add_lt (x1 j hj) (degree_lt_mono (r1 j hj) h.le)) (z1 j hj)) (hE1 j))
  have hsend : reduceSends ctx vxs randoms zeros
      = some ((List.range ctx.n).map fun i => (List.range X.length).map fun j => (x j + r j + z j).eval (ofU32 i)) := by
    unfold reduceSends
    apply mapM_range_some
    intro i hi
    rw [x2, r2, z2, tabShares_row _ _ _ _ hi, tabShares_row _ _ _ _ hi, tabShares_row _ _ _ _ hi]
    simp only [Option.bind_some]
    rw [rdSend_tab]
    simp only [eval_add]
  have htam : tamper e ((List.range ctx.n).map fun i => (List.range X.length).map fun j => (x j + r j + z j).eval (ofU32 i))
      = tabShares ctx.n X.length fun j => x j + r j + z j + E j := by
    rw [tamper_tab]
    unfold tabShares
    apply List.map_congr_left
    intro i hi
    apply List.map_congr_left
    intro j _
    rw [eval_add (q := E j), hE2 j i (List.mem_range.1 hi)]
  refine ⟨_, tabShares ctx.n X.length fun j => s j - r j, hsend, ?_, ?_⟩
  · rw [htam]
    unfold reduceFrom
    rw [s3]
    simp only [Option.bind_some]
    apply mapM_range_some
    intro i hi
    rw [r2, tabShares_row _ _ _ _ hi, tabShares_row _ _ _ _ hi]
    simp only [Option.bind_some]
    rw [rdFinish_tab]
    simp only [eval_sub]
  · have := vecSharing_of_tab ctx.n (ctx.t + ctx.l) (defaultPos ctx.n ctx.l) X.length (fun j => s j - r j)
      (fun j hj => degree_sub_lt' (s1 j hj) (r1 j hj))
    convert this using 1
    unfold shiftSecrets
    conv_lhs => rw [x3]
    unfold tabSecrets
    apply List.ext_getElem?
    intro j
    by_cases hj : j < X.length
    · simp only [List.getElem?_mapIdx, List.getElem?_map, List.getElem?_range hj, Option.map_some, Option.some.injEq]
      apply List.ext_getElem?
      intro k
      by_cases hk : k < ctx.l
      · simp only [defaultPos, List.map_map, List.getElem?_mapIdx, List.getElem?_map, List.getElem?_range hk, Option.map_some, Option.some.injEq,
          Function.comp]
        have hv : (ofU32 (ctx.n + k) : F) ∈ defaultPos ctx.n ctx.l := List.mem_map.2 ⟨k, List.mem_range.2 hk, rfl⟩
        rw [eval_sub, s2 j hj _ hv, eval_add, eval_add, eval_add, z3 j hj _ hv, hE3 j k]
        ring
      · simp [defaultPos, hk]
    · simp [hj]

omit [DecidableEq F] in
/-- A single wrong share changes every secret of its block. -/
theorem C112_every_secret {n l : Nat} (hfit : n + l ≤ CodeField.order F) (e : Nat → F) (p : Nat) (hp : p < n) (hne : e p ≠ 0)
    (ho : ∀ q, q < n → q ≠ p → e q = 0) (k : Nat) (hk : k < l) : secretShift n e k ≠ 0 := by
  unfold secretShift
  rw [Finset.sum_eq_single_of_mem p (Finset.mem_range.2 hp) fun q hq hqp => by rw [ho q (Finset.mem_range.1 hq) hqp, zero_mul]]
  refine mul_ne_zero hne ?_
  rw [Lagrange.basis, eval_prod]
  refine Finset.prod_ne_zero_iff.2 fun q hq => ?_
  rw [Finset.mem_erase, Finset.mem_range] at hq
  have h1 : (ofU32 p : F) ≠ ofU32 q := fun h => hq.1 (CodeField.ofU32_inj p q (by omega) (by omega) h).symm
  have h2 : (ofU32 (n + k) : F) ≠ ofU32 q := fun h => by
    have := CodeField.ofU32_inj (n + k) q (by omega) (by omega) h
    omega
  simp [Lagrange.basisDivisor, sub_ne_zero.2 h1, sub_ne_zero.2 h2]

omit [DecidableEq F] in
/-- Every party can shift any one of the secrets by any amount. -/
theorem C112_chosen {n l : Nat} (hfit : n + l ≤ CodeField.order F) (p : Nat) (hp : p < n) (k : Nat) (hk : k < l) (δ : F) :
    ∃ a, secretShift n (fun q => if q = p then a else 0) k = δ := by
  have h := C112_every_secret hfit (fun q => if q = p then (1 : F) else 0) p hp (by simp) (fun q _ hq => by simp [hq]) k hk
  have hsum : ∀ a, secretShift n (fun q => if q = p then a else 0) k = a * secretShift n (fun q => if q = p then (1 : F) else 0) k := by
    intro a
    unfold secretShift
    rw [Finset.mul_sum]
    exact Finset.sum_congr rfl fun q _ => by by_cases hq : q = p <;> simp [hq]
  exact ⟨δ / secretShift n (fun q => if q = p then (1 : F) else 0) k, by rw [hsum]; field_simp⟩

/-- Values on a polynomial of degree below `d`, changed for at least one and at most `n - d` parties. -/
theorem not_consistent {n d : Nat} (hfit : n ≤ CodeField.order F) {v e : Nat → F} (hv : OnPoly n d v)
    (h1 : ∃ i, i < n ∧ e i ≠ 0) (h2 : d ≤ ((Finset.range n).filter fun i => e i = 0).card) : ¬ OnPoly n d fun i => v i + e i := by
  rintro ⟨q, q1, q2⟩
  obtain ⟨p, p1, p2⟩ := hv
  obtain ⟨i, hi, hne⟩ := h1
  have hz : q - p = 0 := by
    apply eq_zero_of_degree_lt_of_eval_finset_eq_zero (((Finset.range n).filter fun i => e i = 0).image fun i => (ofU32 i : F))
    · rw [Finset.card_image_of_injOn]
      · exact lt_of_lt_of_le (degree_sub_lt' q1 p1) (by exact_mod_cast h2)
      · exact (nodes_inj hfit).mono (by exact_mod_cast Finset.filter_subset _ _)
    · intro x hx
      obtain ⟨j, hj, rfl⟩ := Finset.mem_image.1 hx
      rw [Finset.mem_filter, Finset.mem_range] at hj
      rw [eval_sub, ← q2 j hj.1, ← p2 j hj.1]
      simp [hj.2]
  have := q2 i hi
  rw [sub_eq_zero.1 hz, ← p2 i hi] at this
  exact hne (by simpa using this)

omit [DecidableEq F] in
theorem onPoly_of_vecSharing {n k num : Nat} {pos : List F} {X : List (List F)} {f : Nat → Nat → F}
    (h : VecSharing n k pos X ((List.range n).map fun i => (List.range num).map (f i))) (hn : 0 < n) (j : Nat) (hj : j < num) :
    OnPoly n k fun i => f i j := by
  obtain ⟨q, q1, q2, -⟩ := (vecSharing_iff _ _ _ _ _).1 h
  have hrow : ∀ i, i < n → (List.range num).map (f i) = (List.range X.length).map fun j => (q j).eval (ofU32 i) := by
    intro i hi
    have := congrArg (fun l => l[i]?) q2
    simpa [tabShares_row _ _ _ _ hi, hi] using this
  have hlen : num = X.length := by simpa using congrArg List.length (hrow 0 hn)
  refine ⟨q j, q1 j (by omega), fun i hi => ?_⟩
  have := congrArg (fun l => l[j]?) (hrow i hi)
  simpa [hj, ← hlen] using this

/-- C112. The leader of `reduce_degree` adds `d i j` to the share number `j` which it sends to party `i`.  The parties accept this, and if, for
one of the shares, it does so for at least one and at most `n - (t + l)` parties, their results are not a sharing of anything. -/
theorem C112_leader_false (ctx : Ctx F) (h : ctx.Good) (X R vxs randoms zeros tapes : List (List F))
    (hx : VecSharing ctx.n ctx.n (defaultPos ctx.n ctx.l) X vxs)
    (hr : VecSharing ctx.n (ctx.t + ctx.l) (defaultPos ctx.n ctx.l) R randoms) (hR : R.length = X.length)
    (hz : VecZero ctx.n ctx.n (defaultPos ctx.n ctx.l) X.length zeros)
    (ht : tapes.length = X.length) (htl : ∀ tp ∈ tapes, tp.length = ctx.t) (d : Nat → Nat → F) :
    ∃ sent replies outs, reduceSends ctx vxs randoms zeros = some sent ∧ rdLeader ctx X.length tapes sent = some replies ∧
      ((List.range ctx.n).mapM fun i => ((tamper d replies)[i]?).bind fun s => (randoms[i]?).bind fun r => rdFinish r s) = some outs ∧
      ∀ j, j < X.length → (∃ i, i < ctx.n ∧ d i j ≠ 0) → ((Finset.range ctx.n).filter fun i => d i j ≠ 0).card ≤ ctx.n - (ctx.t + ctx.l) →
        ¬ ∃ Y, VecSharing ctx.n (ctx.t + ctx.l) (defaultPos ctx.n ctx.l) Y outs := by
  have hfit := h.fit
  have hle := h.le
  have hl := h.posL
  obtain ⟨x, x1, x2, x3⟩ := (vecSharing_iff _ _ _ _ _).1 hx
  obtain ⟨r, r1, r2, r3⟩ := (vecSharing_iff _ _ _ _ _).1 hr
  rw [hR] at r1 r2
  obtain ⟨z, z1, z2, z3⟩ := vecZero_tab hz
  obtain ⟨s, s1, s2, s3⟩ := rdLeader_tab h X.length tapes ht htl (fun j => x j + r j + z j)
    (fun j hj => degree_add_lt (degree_add_lt (x1 j hj) (degree_lt_mono (r1 j hj) h.le)) (z1 j hj))
  have hsend : reduceSends ctx vxs randoms zeros = some (tabShares ctx.n X.length fun j => x j + r j + z j) := by
    unfold reduceSends
    apply mapM_range_some
    intro i hi
    rw [x2, r2, z2, tabShares_row _ _ _ _ hi, tabShares_row _ _ _ _ hi, tabShares_row _ _ _ _ hi]
    simp only [Option.bind_some]
    rw [rdSend_tab]
    simp only [eval_add]
  refine ⟨_, _, (List.range ctx.n).map fun i => (List.range X.length).map fun j => (s j).eval (ofU32 i) + d i j - (r j).eval (ofU32 i),
    hsend, s3, ?_, ?_⟩
  · unfold tabShares
    rw [tamper_tab]
    apply mapM_range_some
    intro i hi
    rw [getElem?_tab _ _ _ hi, r2, tabShares_row _ _ _ _ hi]
    simp only [Option.bind_some]
    rw [rdFinish_tab]
  · rintro j hj hne hcard ⟨Y, hY⟩
    have hon := onPoly_of_vecSharing hY (by omega) j hj
    have hbase : OnPoly ctx.n (ctx.t + ctx.l) fun i => (s j).eval (ofU32 i) - (r j).eval (ofU32 i) :=
      ⟨s j - r j, degree_sub_lt' (s1 j hj) (r1 j hj), fun i _ => by rw [eval_sub]⟩
    refine not_consistent (e := fun i => d i j) (by omega) hbase hne ?_ ?_
    · have := Finset.card_filter_add_card_filter_not (s := Finset.range ctx.n) (fun i => d i j = 0)
      rw [Finset.card_range] at this
      simp only [ne_eq] at hcard
      show ctx.t + ctx.l ≤ _
      omega
    · convert hon using 2
      ring

omit [DecidableEq F] in
theorem onPoly_sum {n d : Nat} {s : Finset Nat} {c : Nat → F} {v : Nat → Nat → F} (hv : ∀ p ∈ s, OnPoly n d (v p)) :
    OnPoly n d fun i => ∑ p ∈ s, c p * v p i := by
  choose! q q1 q2 using hv
  refine ⟨∑ p ∈ s, C (c p) * q p, ?_, fun i hi => ?_⟩
  · refine lt_of_le_of_lt (degree_sum_le _ _) ((Finset.sup_lt_iff (by exact WithBot.bot_lt_coe _)).2 fun p hp => ?_)
    exact degree_C_mul_lt _ (q1 p hp)
  · rw [eval_finsetSum]
    exact Finset.sum_congr rfl fun p hp => by rw [eval_mul, eval_C, q2 p hp i hi]

/-- C112, `rand`, `zero` and `randbit`.  Party `i` has got the shares `v p b i` from the dealers `p`.  It accepts them whatever they are.  If all
dealers but `a` have dealt sharings of degree below `d`, then an output to which `a` contributes is such a sharing exactly if `a` has dealt one, too. -/
theorem C112_deal_iff (n d batches : Nat) (m : Mat F) (hm : DealMat n m) (v : Nat → Nat → Nat → F) (a : Nat) (ha : a < n)
    (hv : ∀ p, p < n → p ≠ a → ∀ b, b < batches → OnPoly n d (v p b)) :
    ∃ out : Nat → Nat → F,
      (∀ i, dealFinish n batches m ((List.range n).map fun p => (List.range batches).map fun b => v p b i)
        = some ((List.range (m.rows.length * batches)).map fun k => out k i)) ∧
      ∀ k, k < m.rows.length * batches → (m.rows.getD (k / batches) []).getD a 0 ≠ 0 → (OnPoly n d (out k) ↔ OnPoly n d (v a (k % batches))) := by
  refine ⟨fun k i => ∑ p ∈ Finset.range n, (m.rows.getD (k / batches) []).getD p 0 * v p (k % batches) i, fun i => ?_, fun k hk hne => ?_⟩
  · exact dealFinish_tab n batches m hm.1 hm.2.1 fun p b => v p b i
  · have hb : k % batches < batches := Nat.mod_lt _ (Nat.pos_of_ne_zero (by rintro rfl; simp at hk))
    have hrest : OnPoly n d fun i => ∑ p ∈ (Finset.range n).erase a, (m.rows.getD (k / batches) []).getD p 0 * v p (k % batches) i :=
      onPoly_sum fun p hp => by
        rw [Finset.mem_erase, Finset.mem_range] at hp
        exact hv p hp.2 hp.1 _ hb
    have hsplit : ∀ i, ∑ p ∈ Finset.range n, (m.rows.getD (k / batches) []).getD p 0 * v p (k % batches) i
        = (m.rows.getD (k / batches) []).getD a 0 * v a (k % batches) i
          + ∑ p ∈ (Finset.range n).erase a, (m.rows.getD (k / batches) []).getD p 0 * v p (k % batches) i := fun i =>
      (Finset.add_sum_erase (Finset.range n) (fun p => (m.rows.getD (k / batches) []).getD p 0 * v p (k % batches) i)
        (Finset.mem_range.2 ha)).symm
    obtain ⟨q, q1, q2⟩ := hrest
    set c := (m.rows.getD (k / batches) []).getD a 0
    constructor
    · rintro ⟨w, w1, w2⟩
      refine ⟨C c⁻¹ * (w - q), degree_C_mul_lt _ (degree_sub_lt' w1 q1), fun i hi => ?_⟩
      rw [eval_mul, eval_C, eval_sub, ← w2 i hi, ← q2 i hi]
      simp only [hsplit i]
      field_simp
      ring
    · rintro ⟨w, w1, w2⟩
      refine ⟨C c * w + q, degree_add_lt (degree_C_mul_lt _ w1) q1, fun i hi => ?_⟩
      rw [eval_add, eval_mul, eval_C, ← w2 i hi, ← q2 i hi]
      exact hsplit i

/-- 7 parties reduce a sharing of degree 6; party 5 adds 1 to its share for the leader.  All get results, and both secrets are wrong. -/
example : (exCtx.bind fun ctx =>
    (reduceFrom ctx 1 [[ofU32 3, ofU32 11]] ((List.range 7).map fun i => [(ofU32 i) ^ 3])
      (tamper (fun p _ => if p = 5 then 1 else 0) ((List.range 7).map fun i => [(ofU32 i) ^ 6 + (ofU32 i) ^ 3]))).bind fun outs =>
    (outs.mapM fun v => v[0]?).bind fun s => (ctx.pss.recon s).map fun r => match r with
      | .ok x => decide (x.length = 2 ∧ x[0]? ≠ some ((ofU32 7) ^ 6) ∧ x[1]? ≠ some ((ofU32 8) ^ 6))
      | .error _ => false) = some true := by
  decide +kernel

end Verif.Props
