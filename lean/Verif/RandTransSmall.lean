import Verif.RandTransLemmas
import Mathlib.Algebra.Polynomial.BigOperators
import Mathlib.Algebra.Polynomial.RingDivision

/-!
# `randtrans` for any number of parties

Helper lemmas for C71: what `randtrans` computes also if there are too few parties, so that the polynomials behind the messages have a degree which
is too high for the parties' interpolation.
-/

open Polynomial

namespace Verif

open CodeField (ofU32)

variable {F : Type} [CodeField F]

/-- The polynomial which is zero exactly at the parties' positions. -/
noncomputable def shareZ (F : Type) [CodeField F] (n : Nat) : F[X] := ∏ i ∈ Finset.range n, (X - C (ofU32 i : F))

theorem shareZ_monic (n : Nat) : (shareZ F n).Monic := monic_prod_of_monic _ _ fun i _ => monic_X_sub_C _

theorem shareZ_natDegree (n : Nat) : (shareZ F n).natDegree = n := by
  unfold shareZ
  rw [natDegree_prod_of_monic _ _ fun i _ => monic_X_sub_C _]
  simp

theorem shareZ_degree (n : Nat) : (shareZ F n).degree = n := by
  rw [degree_eq_natDegree (shareZ_monic n).ne_zero, shareZ_natDegree]

theorem shareZ_eval_zero {n i : Nat} (hi : i < n) : (shareZ F n).eval (ofU32 i) = 0 := by
  unfold shareZ
  rw [eval_prod]
  exact Finset.prod_eq_zero (Finset.mem_range.2 hi) (by simp)

theorem shareZ_eval_ne {n m : Nat} (hm : n ≤ m) (hf : m < CodeField.order F) : (shareZ F n).eval (ofU32 m) ≠ 0 := by
  unfold shareZ
  rw [eval_prod, Finset.prod_ne_zero_iff]
  intro i hi
  have hi := Finset.mem_range.1 hi
  simp only [eval_sub, eval_X, eval_C, sub_ne_zero]
  intro e
  have := CodeField.ofU32_inj _ _ hf (by omega) e
  omega

/-- What the parties' interpolation makes of a polynomial of any degree. -/
noncomputable def reduceZ (n : Nat) (p : F[X]) : F[X] := p %ₘ shareZ F n

theorem reduceZ_degree (n : Nat) (p : F[X]) : (reduceZ n p).degree < n := by
  have := degree_modByMonic_lt p (shareZ_monic (F := F) n)
  rwa [shareZ_degree] at this

theorem reduceZ_eval {n i : Nat} (hi : i < n) (p : F[X]) : (reduceZ n p).eval (ofU32 i) = p.eval (ofU32 i) := by
  conv_rhs => rw [← modByMonic_add_div p (shareZ F n)]
  rw [eval_add, eval_mul, shareZ_eval_zero hi, zero_mul, add_zero]
  rfl

theorem reduceZ_of_lt {n : Nat} {p : F[X]} (h : p.degree < n) : reduceZ n p = p :=
  (modByMonic_eq_self_iff (shareZ_monic n)).2 (by rwa [shareZ_degree])

theorem reduceZ_add (n : Nat) (p q : F[X]) : reduceZ n (p + q) = reduceZ n p + reduceZ n q := add_modByMonic _ _

theorem reduceZ_sum (n m : Nat) (f : Nat → F[X]) : reduceZ n (∑ i ∈ Finset.range m, f i) = ∑ i ∈ Finset.range m, reduceZ n (f i) :=
  map_sum (modByMonicHom (shareZ F n)) f _

theorem reduceZ_C_mul (n : Nat) (a : F) (p : F[X]) : reduceZ n (C a * p) = C a * reduceZ n p := by
  unfold reduceZ
  rw [← smul_eq_C_mul, ← smul_eq_C_mul, smul_modByMonic]

/-- If the product has degree exactly `n`, the interpolation adds a multiple of `shareZ`. -/
theorem reduceZ_top {n : Nat} {p : F[X]} (h : p.natDegree = n) : reduceZ n p = p - C p.leadingCoeff * shareZ F n := by
  have hz : reduceZ n (C p.leadingCoeff * shareZ F n) = 0 := by
    rw [reduceZ_C_mul]
    unfold reduceZ
    rw [modByMonic_self (shareZ_monic n), mul_zero]
  have hlt : (p - C p.leadingCoeff * shareZ F n).degree < n := by
    by_cases hp : p = 0
    · subst hp; simp
    have hl : p.leadingCoeff ≠ 0 := leadingCoeff_ne_zero.2 hp
    have hd : p.degree = (C p.leadingCoeff * shareZ F n).degree := by
      rw [degree_C_mul hl, shareZ_degree, degree_eq_natDegree hp, h]
    have := degree_sub_lt_left hd hp (by rw [leadingCoeff_mul, leadingCoeff_C, (shareZ_monic n).leadingCoeff, mul_one])
    rwa [degree_eq_natDegree hp, h] at this
  have : reduceZ n p = reduceZ n ((p - C p.leadingCoeff * shareZ F n) + C p.leadingCoeff * shareZ F n) := by rw [sub_add_cancel]
  rw [this, reduceZ_add, hz, add_zero, reduceZ_of_lt hlt]

variable [DecidableEq F]

/-- What a random sharing contributes to transformation `k` by way of the encoding of transformation `k'`. -/
noncomputable def rtPsi (n : Nat) (E : Nat → F[X]) (k k' : Nat) (p : F[X]) : F := (reduceZ n (E k' * p)).eval (ofU32 (n + k))

/-- The sharing at the new positions which `randtrans` makes. -/
noncomputable def rtR1 (ctx : Ctx F) (K num : Nat) (A : Nat → Nat → F[X]) (E g : Nat → F[X]) (k j : Nat) : F[X] :=
  ∑ c ∈ Finset.range (ctx.t + ctx.l), ∑ k' ∈ Finset.range K, C (rtPsi ctx.n E k k' (g (c * num + j))) * A k' c

/-- The sharing at the old positions which `randtrans` makes. -/
noncomputable def rtRN1 (ctx : Ctx F) (K num : Nat) (AN : Nat → Nat → F[X]) (E g : Nat → F[X]) (k j : Nat) : F[X] :=
  ∑ c ∈ Finset.range ctx.n, ∑ k' ∈ Finset.range K, C (rtPsi ctx.n E k k' (g (ctx.idxN c * num + j))) * AN k' c

section basis
variable {ctx : Ctx F} {tfs : List (SharingTransform F)} {A AN : Nat → Nat → F[X]} {E : Nat → F[X]}

omit [DecidableEq F] in
theorem reduce_batch (n K m k r : Nat) (B : Nat → Nat → F[X]) (E p : Nat → F[X]) :
    (reduceZ n (∑ c ∈ Finset.range m, (∑ k' ∈ Finset.range K, C ((B k' c).eval (ofU32 r)) * E k') * p c)).eval (ofU32 (n + k)) =
      (∑ c ∈ Finset.range m, ∑ k' ∈ Finset.range K, C (rtPsi n E k k' (p c)) * B k' c).eval (ofU32 r : F) := by
  rw [reduceZ_sum, eval_finsetSum, eval_finsetSum]
  refine Finset.sum_congr rfl fun c _ => ?_
  rw [Finset.sum_mul, reduceZ_sum, eval_finsetSum, eval_finsetSum]
  refine Finset.sum_congr rfl fun k' _ => ?_
  rw [mul_assoc, reduceZ_C_mul, eval_mul, eval_C, eval_mul, eval_C, mul_comm]
  rfl

/-- The result of `randtrans`, without any condition on the number of parties. -/
theorem RtBasis.result1 (B : RtBasis ctx tfs A AN E) (h : ctx.Good) (num : Nat) (g z : Nat → F[X])
    (hz : ∀ m < 2 * ctx.n * num, (z m).degree < ctx.n)
    (hz0 : ∀ m < 2 * ctx.n * num, ∀ v ∈ defaultPos ctx.n ctx.l, (z m).eval v = 0) :
    randtrans ctx tfs (tabShares ctx.n ((ctx.n + ctx.t) * num) g) (tabShares ctx.n (2 * ctx.n * num) z)
        = some ((List.range ctx.n).map fun r =>
          ((List.range ctx.l).map fun k => (List.range num).map fun j => (rtR1 ctx tfs.length num A E g k j).eval (ofU32 r),
           (List.range ctx.l).map fun k => (List.range num).map fun j => (rtRN1 ctx tfs.length num AN E g k j).eval (ofU32 r))) := by
  have hn := h.posN
  have hsend : ∀ i < ctx.n, ((RandTransform.new ctx i tfs).bind fun tr =>
      ((tabShares ctx.n ((ctx.n + ctx.t) * num) g)[i]?).bind fun r =>
      ((tabShares ctx.n (2 * ctx.n * num) z)[i]?).bind fun zz => rtSend ctx tr r zz)
      = some ((List.range ctx.n).map fun r =>
          (List.range num).map (fun j => (rtQ ctx tfs.length num A E g z r j).eval (ofU32 i)) ++
          (List.range num).map (fun j => (rtQN ctx tfs.length num AN E g z r j).eval (ofU32 i))) := by
    intro i hi
    rw [tabShares_row _ _ _ _ hi, tabShares_row _ _ _ _ hi]
    simp only [Option.bind_some]
    exact B.send h num g z hi
  unfold randtrans
  rw [mapM_range_some ctx.n _ _ hsend]
  simp only [Option.bind_some]
  apply mapM_range_some
  intro r hr
  rw [List.mapM_map, mapM_range_some ctx.n _ (fun i =>
    (List.range num).map (fun j => (reduceZ ctx.n (rtQ ctx tfs.length num A E g z r j)).eval (ofU32 i)) ++
    (List.range num).map (fun j => (reduceZ ctx.n (rtQN ctx tfs.length num AN E g z r j)).eval (ofU32 i)))]
  · simp only [Option.bind_some]
    rw [tabShares_row _ _ _ _ hr]
    simp only [Option.bind_some, List.length_map, List.length_range]
    rw [Nat.mul_div_cancel_left _ (by omega), rtFinish_tab h num _ _ (fun j _ => reduceZ_degree _ _) (fun j _ => reduceZ_degree _ _)]
    simp only [Option.some.injEq, defaultPos, List.map_map]
    have hdef : ∀ k < ctx.l, (ofU32 (ctx.n + k) : F) ∈ defaultPos ctx.n ctx.l := by
      intro k hk
      exact List.mem_map.2 ⟨k, List.mem_range.2 hk, rfl⟩
    congr 1
    · apply List.map_congr_left
      intro k hk
      have hk := List.mem_range.1 hk
      apply List.map_congr_left
      intro j hj
      have hj := List.mem_range.1 hj
      have hi := rt_idxz (n := ctx.n) (r := ctx.n + r) (by omega) hj
      show (reduceZ ctx.n (rtQ ctx tfs.length num A E g z r j)).eval (ofU32 (ctx.n + k)) = _
      unfold rtQ
      rw [reduceZ_add, eval_add, reduceZ_of_lt (hz _ hi), hz0 _ hi _ (hdef k hk), add_zero, reduce_batch]
      rfl
    · apply List.map_congr_left
      intro k hk
      have hk := List.mem_range.1 hk
      apply List.map_congr_left
      intro j hj
      have hj := List.mem_range.1 hj
      have hi := rt_idxz (n := ctx.n) (r := r) (by omega) hj
      show (reduceZ ctx.n (rtQN ctx tfs.length num AN E g z r j)).eval (ofU32 (ctx.n + k)) = _
      unfold rtQN
      rw [reduceZ_add, eval_add, reduceZ_of_lt (hz _ hi), hz0 _ hi _ (hdef k hk), add_zero, reduce_batch]
      rfl
  · intro i hi
    simp only [Function.comp]
    rw [getElem?_tab _ _ _ hr]
    simp only [reduceZ_eval hi]

theorem RtBasis.degR1 (B : RtBasis ctx tfs A AN E) (num : Nat) (g : Nat → F[X]) (k j : Nat) :
    (rtR1 ctx tfs.length num A E g k j).degree < (ctx.t + ctx.l : Nat) :=
  degree_finset_sum_lt _ fun c hc => degree_finset_sum_lt _ fun k' hk' => degree_C_mul_lt _ (B.degA k' hk' c hc)

theorem RtBasis.degRN1 (B : RtBasis ctx tfs A AN E) (num : Nat) (g : Nat → F[X]) (k j : Nat) :
    (rtRN1 ctx tfs.length num AN E g k j).degree < ctx.n :=
  degree_finset_sum_lt _ fun c hc => degree_finset_sum_lt _ fun k' hk' => degree_C_mul_lt _ (B.degAN k' hk' c hc)

end basis

/-- The polynomials `E` of `RtBasis` are zero at the position of the first party: the encoding of the matrices has degree `l`, not `l - 1`
(`src/protocol/core.rs:256-265`). -/
theorem rtBasis_exists0 {ctx : Ctx F} (h : ctx.Good) (tfs : List (SharingTransform F))
    (hK : tfs.length ≤ ctx.l) (hok : ∀ tf ∈ tfs, tf.Ok ctx) : ∃ A AN E, RtBasis ctx tfs A AN E ∧ ∀ k < ctx.l, (E k).eval (ofU32 0) = 0 := by
  have hn := h.posN
  have hl := h.posL
  have hle := h.le
  have hA : ∀ k, ∃ A : Nat → F[X], ∀ hk : k < tfs.length,
      (∀ c < ctx.t + ctx.l, (A c).degree < (ctx.t + ctx.l : Nat)) ∧
      (∀ c < ctx.t + ctx.l, ∀ m < ctx.t + ctx.l, ∀ hm : m < (tfs[k].newPos ++ sharePos ctx.n).length,
        (A c).eval ((tfs[k].newPos ++ sharePos ctx.n)[m]) = if tfs[k].base m = c then 1 else 0) ∧
      accCoeffs ctx tfs[k].oldPos tfs[k].newPos tfs[k].f
        = some ((List.range ctx.n).map fun r => (List.range (ctx.t + ctx.l)).map fun c => (A c).eval (ofU32 r)) := by
    intro k
    by_cases hk : k < tfs.length
    · have ok := hok _ (List.getElem_mem hk)
      obtain ⟨A, hA⟩ := accCoeffs_basis (ctx := ctx) (opos := tfs[k].oldPos) (f := tfs[k].f) (by omega) ok.new
        (by have := ok.oldLen; omega) (by have := ok.newLen; omega) hle ok.len ok.idx
      exact ⟨A, fun _ => hA⟩
    · exact ⟨fun _ => 0, fun hk' => absurd hk' hk⟩
  have hAN : ∀ k, ∃ A : Nat → F[X], ∀ hk : k < tfs.length,
      (∀ c < ctx.n, (A c).degree < ctx.n) ∧
      (∀ c < ctx.n, ∀ m < ctx.n, ∀ hm : m < (tfs[k].oldPos ++ sharePos ctx.n).length,
        (A c).eval ((tfs[k].oldPos ++ sharePos ctx.n)[m]) = if m = c then 1 else 0) ∧
      accCoeffsN ctx tfs[k].oldPos
        = some ((List.range ctx.n).map fun r => (List.range ctx.n).map fun c => (A c).eval (ofU32 r)) := by
    intro k
    by_cases hk : k < tfs.length
    · have ok := hok _ (List.getElem_mem hk)
      obtain ⟨A, hA⟩ := accCoeffsN_basis (ctx := ctx) (opos := tfs[k].oldPos) hn ok.old
      exact ⟨A, fun _ => hA⟩
    · exact ⟨fun _ => 0, fun hk' => absurd hk' hk⟩
  choose A hA using hA
  choose AN hAN using hAN
  obtain ⟨E, hE1, hE2, hE3⟩ := rtShareCoeffs_basis (d := ctx.l) (defaultPos_good (F := F) h.fit)
    (by rw [defaultPos_length]; omega)
  have hE : ∀ k < ctx.l, ∀ k' < ctx.l, (E k').eval (ofU32 (ctx.n + k) : F) = if k = k' then 1 else 0 := by
    intro k hk k' hk'
    have := hE2 k' (by omega) k (by omega) (by simp [defaultPos]; omega)
    rw [List.getElem_append_left (by simpa [defaultPos] using hk)] at this
    simpa [defaultPos] using this
  have hE0 : ∀ k < ctx.l, (E k).eval (ofU32 0 : F) = 0 := by
    intro k hk
    have := hE2 k (by omega) ctx.l (by omega) (by simp [defaultPos, sharePos]; omega)
    rw [List.getElem_append_right (by simp [defaultPos]), if_neg (by omega)] at this
    simpa [defaultPos, sharePos] using this
  refine ⟨A, AN, E, ⟨hE1, hE, fun k hk => (hA k hk).1, fun k hk => (hA k hk).2.1, fun k hk => (hAN k hk).1,
    fun k hk => (hAN k hk).2.1, ?_⟩, hE0⟩
  intro i hi
  have htab : tfs = (List.range tfs.length).map fun k => tfs.getD k ⟨[], [], ⟨[]⟩⟩ := by
    have := map_tab tfs ⟨[], [], ⟨[]⟩⟩ id
    rwa [List.map_id] at this
  unfold RandTransform.new
  have m1 : (tfs.mapM fun tf => accCoeffsN ctx tf.oldPos) = some ((List.range tfs.length).map fun k =>
      (List.range ctx.n).map fun r => (List.range ctx.n).map fun c => (AN k c).eval (ofU32 r)) := by
    conv_lhs => rw [htab, List.mapM_map]
    apply mapM_range_some
    intro k hk
    simp only [Function.comp, List.getD_eq_getElem?_getD, List.getElem?_eq_getElem hk, Option.getD_some]
    exact (hAN k hk).2.2
  have m2 : (tfs.mapM fun tf => accCoeffs ctx tf.oldPos tf.newPos tf.f) = some ((List.range tfs.length).map fun k =>
      (List.range ctx.n).map fun r => (List.range (ctx.t + ctx.l)).map fun c => (A k c).eval (ofU32 r)) := by
    conv_lhs => rw [htab, List.mapM_map]
    apply mapM_range_some
    intro k hk
    simp only [Function.comp, List.getD_eq_getElem?_getD, List.getElem?_eq_getElem hk, Option.getD_some]
    exact (hA k hk).2.2
  rw [m1, m2, hE3]
  simp only [Option.bind_some]
  rw [getElem?_tab _ _ _ hi]
  simp only [Option.bind_some]
  rw [encodeShare_tab _ _ _ _ (by omega), encodeShare_tab _ _ _ _ (by omega)]
  rfl

end Verif
