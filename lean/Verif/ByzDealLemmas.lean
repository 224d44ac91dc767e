import Verif.ByzDeal
import Verif.ByzPrivacyLemmas
import Verif.PreRetape

/-!
# Lemmas for `Props/ByzDeal.lean`
-/

open Polynomial

namespace Verif

open CodeField (ofU32)

variable {F : Type} [CodeField F] [DecidableEq F]

/-! ## What is dealt -/

/-- The polynomials through the shares which are dealt. -/
noncomputable def advPoly (n : Nat) (Cs : Finset Nat) (own : Nat → Nat → F[X]) (adv : Nat → Nat → Nat → F) (j b : Nat) : F[X] :=
  if j ∈ Cs then sharePoly n (adv j b) else own j b

omit [DecidableEq F] in
theorem dealWith_eq {n batches : Nat} (hn : n ≤ CodeField.order F) {m : Mat F} (hm : DealMat n m) (Cs : Finset Nat) (own : Nat → Nat → F[X])
    (adv : Nat → Nat → Nat → F) :
    dealWith n batches m Cs own adv = some (tabShares n (m.rows.length * batches) (dealPoly n batches m (advPoly n Cs own adv))) := by
  rw [← dealRound_tab n batches m hm.1 hm.2.1]
  unfold dealWith
  congr 1
  refine List.map_congr_left fun j _ => List.map_congr_left fun b _ => ?_
  unfold sharePos
  rw [List.map_map]
  refine List.map_congr_left fun p hp => ?_
  simp only [Function.comp, advPoly]
  by_cases hj : j ∈ Cs
  · rw [if_pos hj, if_pos hj, sharePoly_eval hn _ (List.mem_range.1 hp)]
  · rw [if_neg hj, if_neg hj]

/-- The errors which the parties of `Cs` cause in result `a`. -/
noncomputable def dealOff (n batches : Nat) (m : Mat F) (Cs : Finset Nat) (mine : Nat → Nat → Nat → F) (adv : Nat → Nat → Nat → F) (a p : Nat) : F :=
  ∑ j ∈ Finset.range n, (m.rows.getD (a / batches) []).getD j 0 * if j ∈ Cs then adv j (a % batches) p - mine j (a % batches) p else 0

omit [DecidableEq F] in
theorem dealPoly_adv {n batches : Nat} (hn : n ≤ CodeField.order F) (m : Mat F) (Cs : Finset Nat) (own : Nat → Nat → F[X])
    (adv mine : Nat → Nat → Nat → F) {a p : Nat} (hp : p < n)
    (hmine : ∀ j < n, j ∈ Cs → mine j (a % batches) p = (own j (a % batches)).eval (ofU32 p)) :
    (dealPoly n batches m (advPoly n Cs own adv) a).eval (ofU32 p)
      = (dealPoly n batches m own a).eval (ofU32 p) + dealOff n batches m Cs mine adv a p := by
  rw [dealPoly_eval, dealPoly_eval]
  unfold dealOff
  rw [← Finset.sum_add_distrib]
  refine Finset.sum_congr rfl fun j hj => ?_
  rw [← mul_add]
  congr 1
  unfold advPoly
  by_cases hjC : j ∈ Cs
  · rw [if_pos hjC, if_pos hjC, sharePoly_eval hn _ hp, hmine j (Finset.mem_range.1 hj) hjC]
    ring
  · rw [if_neg hjC, if_neg hjC, add_zero]

/-! ## The masks which result -/

section
variable {ctx : Ctx F} (h : ctx.Good) {m : Mat F} {ι : Type} {U : Uses ι} {nr nz : ι → Nat} {br bz : Nat}
  (hU : U.Ok nr nz (m.rows.length * br) (m.rows.length * bz))

omit [DecidableEq F] in
theorem randP_degree (δ : DealCoins ctx br bz) {j b : Nat} (hj : j < ctx.n) (hb : b < br) : (δ.randP j b).degree < (ctx.t + ctx.l : Nat) := by
  unfold DealCoins.randP
  rw [dif_pos hj]
  exact Coins.g_degree _ hb

omit [DecidableEq F] in
theorem zeroP_degree (δ : DealCoins ctx br bz) {j b : Nat} (hj : j < ctx.n) (hb : b < bz) : (δ.zeroP j b).degree < ctx.n := by
  unfold DealCoins.zeroP
  rw [dif_pos hj]
  exact Coins.z_degree _ hb

omit [DecidableEq F] in
theorem zeroP_zero (δ : DealCoins ctx br bz) {j b : Nat} (hj : j < ctx.n) (hb : b < bz) :
    ∀ v ∈ defaultPos ctx.n ctx.l, (δ.zeroP j b).eval v = 0 := by
  unfold DealCoins.zeroP
  rw [dif_pos hj]
  exact Coins.z_zero _ hb

theorem mod_lt_of {a rows batches : Nat} (ha : a < rows * batches) : a % batches < batches :=
  Nat.mod_lt _ (Nat.pos_of_ne_zero (by rintro rfl; simp at ha))

/-- The masks, without the errors. -/
noncomputable def collect (δ : DealCoins ctx br bz) : (u : ι) → Coins ctx (nr u) (nz u) := fun k =>
  ⟨fun i => ⟨dealPoly ctx.n br m δ.randP (U.rand k i), dealPoly_degree m _
      (fun _ hp _ hb => randP_degree δ hp hb) _ (hU.rand_lt k i i.2)⟩,
    fun i => ⟨dealPoly ctx.n bz m δ.zeroP (U.zero k i), dealPoly_degree m _
      (fun _ hp _ hb => zeroP_degree δ hp hb) _ (hU.zero_lt k i i.2), fun v hv => by
        rw [dealPoly_eval]
        exact Finset.sum_eq_zero fun p hp => by
          rw [zeroP_zero δ (Finset.mem_range.1 hp) (mod_lt_of (hU.zero_lt k i i.2)) v hv, mul_zero]⟩⟩

omit [DecidableEq F] in
theorem collect_g (δ : DealCoins ctx br bz) (k : ι) {i : Nat} (hi : i < nr k) :
    (collect hU δ k).g i = dealPoly ctx.n br m δ.randP (U.rand k i) := by
  unfold collect Coins.g
  rw [dif_pos hi]

omit [DecidableEq F] in
theorem collect_z (δ : DealCoins ctx br bz) (k : ι) {i : Nat} (hi : i < nz k) :
    (collect hU δ k).z i = dealPoly ctx.n bz m δ.zeroP (U.zero k i) := by
  unfold collect Coins.z
  rw [dif_pos hi]

/-- The errors, as a function of what the parties of `Cs` know. -/
noncomputable def dealOffs (ctx : Ctx F) (m : Mat F) (Cs : Finset Nat) {ι : Type} (U : Uses ι) (nr nz : ι → Nat) (br bz : Nat) (a : Cheat F)
    (v : Fin ctx.n → Nat → List F × List F) (k : ι) (p : Nat) : List F × List F :=
  ((List.range (nr k)).map fun i => dealOff ctx.n br m Cs
      (fun j b p => if hj : j < ctx.n then (v ⟨j, hj⟩ p).1.getD b 0 else 0) a.rand (U.rand k i) p,
    (List.range (nz k)).map fun i => dealOff ctx.n bz m Cs
      (fun j b p => if hj : j < ctx.n then (v ⟨j, hj⟩ p).2.getD b 0 else 0) a.zero (U.zero k i) p)

omit [DecidableEq F] in
theorem dealOffs_sizes (Cs : Finset Nat) (a : Cheat F) (v : Fin ctx.n → Nat → List F × List F) (k : ι) (p : Nat) :
    (dealOffs ctx m Cs U nr nz br bz a v k p).1.length = nr k ∧ (dealOffs ctx m Cs U nr nz br bz a v k p).2.length = nz k := by
  simp [dealOffs]

include h in
theorem dealtFor_eq (hm : DealMat ctx.n m) (Cs : Finset Nat) (a : Cheat F) (δ : DealCoins ctx br bz) (k : ι) {p : Nat}
    (hp : p < ctx.n) :
    dealtFor ctx m Cs U nr nz a δ k p = (vadd ((collect hU δ k).randoms p) (dealOffs ctx m Cs U nr nz br bz a (δ.known Cs) k p).1,
      vadd ((collect hU δ k).zeros p) (dealOffs ctx m Cs U nr nz br bz a (δ.known Cs) k p).2) := by
  have hfit := h.fit
  unfold dealtFor
  refine Prod.ext ?_ ?_
  · simp only [pickFrom]
    rw [dealWith_eq (by omega) hm, Coins.randoms_eq]
    unfold vadd dealOffs
    simp only [List.zipWith_map_left, List.zipWith_map_right, List.zipWith_self, Option.getD_some]
    refine List.map_congr_left fun i hi => ?_
    have hi := List.mem_range.1 hi
    unfold tabShares
    rw [getD_tab _ _ _ hp, getD_tab _ _ _ (hU.rand_lt k i hi), collect_g hU δ k hi]
    refine dealPoly_adv (by omega) m Cs _ _ _ hp fun j hj hjC => ?_
    rw [dif_pos hj]
    unfold DealCoins.known DealCoins.randP
    rw [if_pos (Or.inl hjC), dif_pos hj, Coins.randoms_eq, getD_tab _ _ _ (mod_lt_of (hU.rand_lt k i hi))]
  · simp only [pickFrom]
    rw [dealWith_eq (by omega) hm, Coins.zeros_eq]
    unfold vadd dealOffs
    simp only [List.zipWith_map_left, List.zipWith_map_right, List.zipWith_self, Option.getD_some]
    refine List.map_congr_left fun i hi => ?_
    have hi := List.mem_range.1 hi
    unfold tabShares
    rw [getD_tab _ _ _ hp, getD_tab _ _ _ (hU.zero_lt k i hi), collect_z hU δ k hi]
    refine dealPoly_adv (by omega) m Cs _ _ _ hp fun j hj hjC => ?_
    rw [dif_pos hj]
    unfold DealCoins.known DealCoins.zeroP
    rw [if_pos (Or.inl hjC), dif_pos hj, Coins.zeros_eq, getD_tab _ _ _ (mod_lt_of (hU.zero_lt k i hi))]

/-! ## Changing what is dealt -/

open Classical in
/-- The changes of all results, if those of the results which are used are given. -/
noncomputable def spreadOut {ι : Type} (num : ι → Nat) (pick : ι → Nat → Nat) (γ : ι → Nat → F[X]) (a : Nat) : F[X] :=
  if hx : ∃ ki : ι × Nat, ki.2 < num ki.1 ∧ pick ki.1 ki.2 = a then γ hx.choose.1 hx.choose.2 else 0

omit [DecidableEq F] in
theorem spreadOut_pick {num : ι → Nat} {pick : ι → Nat → Nat} (hinj : ∀ k k' : ι, ∀ i < num k, ∀ i' < num k',
    pick k i = pick k' i' → k = k' ∧ i = i') (γ : ι → Nat → F[X]) (k : ι) {i : Nat} (hi : i < num k) :
    spreadOut num pick γ (pick k i) = γ k i := by
  unfold spreadOut
  have hx : ∃ ki : ι × Nat, ki.2 < num ki.1 ∧ pick ki.1 ki.2 = pick k i := ⟨(k, i), hi, rfl⟩
  rw [dif_pos hx]
  obtain ⟨h1, h2⟩ := hx.choose_spec
  obtain ⟨h3, h4⟩ := hinj _ _ _ h1 _ hi h2
  rw [h3, h4]

omit [DecidableEq F] in
theorem spreadOut_of {num : ι → Nat} {pick : ι → Nat → Nat} {γ : ι → Nat → F[X]} {Q : F[X] → Prop} (h0 : Q 0)
    (hQ : ∀ k : ι, ∀ i < num k, Q (γ k i)) (a : Nat) : Q (spreadOut num pick γ a) := by
  unfold spreadOut
  split_ifs with hx
  · exact hQ _ _ hx.choose_spec.1
  · exact h0

omit [DecidableEq F] in
theorem spreadOut_neg {num : ι → Nat} {pick : ι → Nat → Nat} {γ γ' : ι → Nat → F[X]}
    (hγ : ∀ k : ι, ∀ i < num k, γ' k i = -γ k i) (a : Nat) : spreadOut num pick γ' a = -spreadOut num pick γ a := by
  unfold spreadOut
  split_ifs with hx
  · exact hγ _ _ hx.choose_spec.1
  · rw [neg_zero]

/-- The change of the masks towards `ω'`. -/
noncomputable def gapR (δ : DealCoins ctx br bz) (ω' : (u : ι) → Coins ctx (nr u) (nz u)) : Nat → F[X] :=
  spreadOut nr U.rand fun k i => (ω' k).g i - (collect hU δ k).g i

/-- The same for the sharings of zero. -/
noncomputable def gapZ (δ : DealCoins ctx br bz) (ω' : (u : ι) → Coins ctx (nr u) (nz u)) : Nat → F[X] :=
  spreadOut nz U.zero fun k i => (ω' k).z i - (collect hU δ k).z i

omit [DecidableEq F] in
theorem gapR_degree (δ : DealCoins ctx br bz) (ω' : (u : ι) → Coins ctx (nr u) (nz u)) (a : Nat) : (gapR hU δ ω' a).degree < (ctx.t + ctx.l : Nat) :=
  spreadOut_of (Q := fun q => q.degree < (ctx.t + ctx.l : Nat)) (by rw [degree_zero]; exact WithBot.bot_lt_coe _)
    (fun k i hi => degree_sub_lt' (Coins.g_degree _ hi) (Coins.g_degree _ hi)) a

omit [DecidableEq F] in
theorem gapZ_ok (δ : DealCoins ctx br bz) (ω' : (u : ι) → Coins ctx (nr u) (nz u)) (a : Nat) :
    (gapZ hU δ ω' a).degree < ctx.n ∧ ∀ v ∈ defaultPos ctx.n ctx.l, (gapZ hU δ ω' a).eval v = 0 :=
  spreadOut_of (Q := fun q => q.degree < ctx.n ∧ ∀ v ∈ defaultPos ctx.n ctx.l, q.eval v = 0)
    ⟨by rw [degree_zero]; exact WithBot.bot_lt_coe _, fun v _ => eval_zero⟩
    (fun k i hi => ⟨degree_sub_lt' (Coins.z_degree _ hi) (Coins.z_degree _ hi), fun v hv => by
      rw [eval_sub, Coins.z_zero _ hi v hv, Coins.z_zero _ hi v hv, sub_zero]⟩) a

/-- What the parties deal if the masks shall be `ω'`. -/
noncomputable def toward (N : Nat → Nat → F) (δ : DealCoins ctx br bz) (ω' : (u : ι) → Coins ctx (nr u) (nz u)) : DealCoins ctx br bz := fun j =>
  (δ j).shift (fun b => ∑ r ∈ Finset.range m.rows.length, C (N j r) * gapR hU δ ω' (r * br + b))
    (fun b => ∑ r ∈ Finset.range m.rows.length, C (N j r) * gapZ hU δ ω' (r * bz + b))
    (fun _ _ => degree_finset_sum_lt _ fun _ _ => degree_C_mul_lt _ (gapR_degree hU δ ω' _))
    fun _ _ => ⟨degree_finset_sum_lt _ fun _ _ => degree_C_mul_lt _ (gapZ_ok hU δ ω' _).1, fun v hv => by
      simp only [eval_finsetSum, eval_mul, eval_C]
      exact Finset.sum_eq_zero fun r _ => by rw [(gapZ_ok hU δ ω' _).2 v hv, mul_zero]⟩

omit [DecidableEq F] in
theorem toward_randP (N : Nat → Nat → F) (δ : DealCoins ctx br bz) (ω' : (u : ι) → Coins ctx (nr u) (nz u)) {j b : Nat} (hj : j < ctx.n) (hb : b < br) :
    (toward hU N δ ω').randP j b = shiftPoly m.rows.length br N δ.randP (gapR hU δ ω') j b := by
  unfold shiftPoly DealCoins.randP
  rw [dif_pos hj, dif_pos hj]
  exact Coins.shift_g _ _ _ _ _ hb

omit [DecidableEq F] in
theorem toward_zeroP (N : Nat → Nat → F) (δ : DealCoins ctx br bz) (ω' : (u : ι) → Coins ctx (nr u) (nz u)) {j b : Nat} (hj : j < ctx.n) (hb : b < bz) :
    (toward hU N δ ω').zeroP j b = shiftPoly m.rows.length bz N δ.zeroP (gapZ hU δ ω') j b := by
  unfold shiftPoly DealCoins.zeroP
  rw [dif_pos hj, dif_pos hj]
  exact Coins.shift_z _ _ _ _ _ hb

omit [DecidableEq F] in
theorem dealPoly_congr' {n batches : Nat} {q q' : Nat → Nat → F[X]} {a : Nat} (ha : a < m.rows.length * batches)
    (hq : ∀ j < n, ∀ b < batches, q j b = q' j b) : dealPoly n batches m q a = dealPoly n batches m q' a := by
  unfold dealPoly
  exact Finset.sum_congr rfl fun j hj => by rw [hq j (Finset.mem_range.1 hj) _ (mod_lt_of ha)]

omit [DecidableEq F] in
theorem collect_toward {Cs : Finset Nat} {N : Nat → Nat → F} (hm : DealMat ctx.n m) (hN : RightInv Cs m N) (δ : DealCoins ctx br bz)
    (ω' : (u : ι) → Coins ctx (nr u) (nz u)) : collect hU (toward hU N δ ω') = ω' := by
  funext k
  apply Coins.ext'
  · intro i hi
    have ha := hU.rand_lt k i hi
    rw [collect_g hU _ k hi, dealPoly_congr' ha fun j hj b hb => toward_randP hU N δ ω' hj hb, dealPoly_shift hm.2.1 hN ha]
    unfold gapR
    rw [spreadOut_pick hU.rand_inj _ k hi, collect_g hU δ k hi, add_sub_cancel]
  · intro i hi
    have ha := hU.zero_lt k i hi
    rw [collect_z hU _ k hi, dealPoly_congr' ha fun j hj b hb => toward_zeroP hU N δ ω' hj hb, dealPoly_shift hm.2.1 hN ha]
    unfold gapZ
    rw [spreadOut_pick hU.zero_inj _ k hi, collect_z hU δ k hi, add_sub_cancel]

omit [DecidableEq F] in
theorem toward_back {Cs : Finset Nat} {N : Nat → Nat → F} (hm : DealMat ctx.n m) (hN : RightInv Cs m N) (δ : DealCoins ctx br bz)
    (ω' : (u : ι) → Coins ctx (nr u) (nz u)) : toward hU N (toward hU N δ ω') (collect hU δ) = δ := by
  have hc := collect_toward hU hm hN δ ω'
  have e1 : ∀ a, gapR hU (toward hU N δ ω') (collect hU δ) a = -gapR hU δ ω' a := fun a =>
    spreadOut_neg (fun k i _ => by rw [hc, neg_sub]) a
  have e2 : ∀ a, gapZ hU (toward hU N δ ω') (collect hU δ) a = -gapZ hU δ ω' a := fun a =>
    spreadOut_neg (fun k i _ => by rw [hc, neg_sub]) a
  funext j
  apply Coins.ext'
  · intro b hb
    have h1 := toward_randP hU N (toward hU N δ ω') (collect hU δ) j.2 hb
    have h2 := shiftPoly_back (N := N) hb (toward_randP hU N δ ω' j.2 hb) (fun a _ => e1 a)
    rw [h2] at h1
    unfold DealCoins.randP at h1
    rw [dif_pos j.2, dif_pos j.2] at h1
    exact h1
  · intro b hb
    have h1 := toward_zeroP hU N (toward hU N δ ω') (collect hU δ) j.2 hb
    have h2 := shiftPoly_back (N := N) hb (toward_zeroP hU N δ ω' j.2 hb) (fun a _ => e2 a)
    rw [h2] at h1
    unfold DealCoins.zeroP at h1
    rw [dif_pos j.2, dif_pos j.2] at h1
    exact h1

omit [DecidableEq F] in
theorem toward_known {Cs : Finset Nat} {N : Nat → Nat → F} (hN : RightInv Cs m N) (δ : DealCoins ctx br bz) (ω' : (u : ι) → Coins ctx (nr u) (nz u))
    (hs : ∀ k : ι, ∀ p ∈ Cs, (ω' k).randoms p = (collect hU δ k).randoms p ∧ (ω' k).zeros p = (collect hU δ k).zeros p) :
    (toward hU N δ ω').known Cs = δ.known Cs := by
  have hR : ∀ p ∈ Cs, ∀ a, (gapR hU δ ω' a).eval (ofU32 p) = 0 := fun p hp =>
    spreadOut_of (Q := fun q => q.eval (ofU32 p) = 0) eval_zero fun k i hi => by
      have := (hs k p hp).1
      rw [Coins.randoms_eq, Coins.randoms_eq] at this
      have := congrArg (fun l => l.getD i 0) this
      simp only [getD_tab _ _ _ hi] at this
      rw [eval_sub, this, sub_self]
  have hZ : ∀ p ∈ Cs, ∀ a, (gapZ hU δ ω' a).eval (ofU32 p) = 0 := fun p hp =>
    spreadOut_of (Q := fun q => q.eval (ofU32 p) = 0) eval_zero fun k i hi => by
      have := (hs k p hp).2
      rw [Coins.zeros_eq, Coins.zeros_eq] at this
      have := congrArg (fun l => l.getD i 0) this
      simp only [getD_tab _ _ _ hi] at this
      rw [eval_sub, this, sub_self]
  funext j p
  unfold DealCoins.known
  by_cases hjp : (j : Nat) ∈ Cs ∨ p ∈ Cs
  · rw [if_pos hjp, if_pos hjp]
    have g1 : ∀ b < br, ((toward hU N δ ω' j).g b).eval (ofU32 p) = ((δ j).g b).eval (ofU32 p) := by
      intro b hb
      have e : (toward hU N δ ω' j).g b = _ := Coins.shift_g _ _ _ _ _ hb
      rw [e, eval_add]
      simp only [eval_finsetSum, eval_mul, eval_C]
      rw [Finset.sum_eq_zero, add_zero]
      intro r _
      rcases hjp with hj | hp
      · rw [hN.zero _ hj, zero_mul]
      · rw [hR p hp, mul_zero]
    have g2 : ∀ b < bz, ((toward hU N δ ω' j).z b).eval (ofU32 p) = ((δ j).z b).eval (ofU32 p) := by
      intro b hb
      have e : (toward hU N δ ω' j).z b = _ := Coins.shift_z _ _ _ _ _ hb
      rw [e, eval_add]
      simp only [eval_finsetSum, eval_mul, eval_C]
      rw [Finset.sum_eq_zero, add_zero]
      intro r _
      rcases hjp with hj | hp
      · rw [hN.zero _ hj, zero_mul]
      · rw [hZ p hp, mul_zero]
    refine Prod.ext ?_ ?_
    · simp only [Coins.randoms_eq]
      exact List.map_congr_left fun b hb => g1 b (List.mem_range.1 hb)
    · simp only [Coins.zeros_eq]
      exact List.map_congr_left fun b hb => g2 b (List.mem_range.1 hb)
  · rw [if_neg hjp, if_neg hjp]

omit [DecidableEq F] in
/-- A change of the results which the parties of `Cs` do not notice comes from a change of what is dealt. -/
theorem deal_lift {Cs : Finset Nat} {N : Nat → Nat → F} (hm : DealMat ctx.n m) (hN : RightInv Cs m N)
    (E : (Fin ctx.n → Nat → List F × List F) → ((u : ι) → Coins ctx (nr u) (nz u)) ≃ ((u : ι) → Coins ctx (nr u) (nz u)))
    (hE : ∀ v ω, ∀ k, ∀ p ∈ Cs, (E v ω k).randoms p = (ω k).randoms p ∧ (E v ω k).zeros p = (ω k).zeros p) :
    ∃ e : DealCoins ctx br bz ≃ DealCoins ctx br bz, ∀ δ, (e δ).known Cs = δ.known Cs ∧ collect hU (e δ) = E (δ.known Cs) (collect hU δ) := by
  have hsymm : ∀ v ω, ∀ k, ∀ p ∈ Cs, ((E v).symm ω k).randoms p = (ω k).randoms p ∧ ((E v).symm ω k).zeros p = (ω k).zeros p := by
    intro v ω k p hp
    have := hE v ((E v).symm ω) k p hp
    rw [Equiv.apply_symm_apply] at this
    exact ⟨this.1.symm, this.2.symm⟩
  have k1 : ∀ δ, (toward hU N δ (E (δ.known Cs) (collect hU δ))).known Cs = δ.known Cs := fun δ => toward_known hU hN δ _ (hE _ _)
  have k2 : ∀ δ, (toward hU N δ ((E (δ.known Cs)).symm (collect hU δ))).known Cs = δ.known Cs := fun δ => toward_known hU hN δ _ (hsymm _ _)
  refine ⟨⟨fun δ => toward hU N δ (E (δ.known Cs) (collect hU δ)), fun δ => toward hU N δ ((E (δ.known Cs)).symm (collect hU δ)), ?_, ?_⟩, ?_⟩
  · intro δ
    simp only
    rw [k1, collect_toward hU hm hN, Equiv.symm_apply_apply, toward_back hU hm hN]
  · intro δ
    simp only
    rw [k2, collect_toward hU hm hN, Equiv.apply_symm_apply, toward_back hU hm hN]
  · intro δ
    simp only [Equiv.coe_fn_mk]
    exact ⟨k1 δ, collect_toward hU hm hN _ _⟩

/-! ## Executions -/

variable {rs : List (RdJob F)}

/-- Only what the existing parties use matters. -/
theorem play_congr (c : Codec F) (x : Nat → Nat → Env (List F) → List F) {held held' : Fin rs.length → Nat → List F × List F}
    (hh : ∀ k, ∀ p < ctx.n, held' k p = held k p) (Cs : Finset Nat) (strat : List (Sys Unit) → ByzStep) (N : Nat) :
    (Sys.play ctx.n (rdJobs c ctx rs x held') Cs strat N).1 = (Sys.play ctx.n (rdJobs c ctx rs x held) Cs strat N).1 ∧
      SysRel (fun _ _ o => o) (Sys.play ctx.n (rdJobs c ctx rs x held) Cs strat N).2 (Sys.play ctx.n (rdJobs c ctx rs x held') Cs strat N).2 := by
  induction N with
  | zero => exact ⟨rfl, SysRel.start _⟩
  | succ N ih =>
    obtain ⟨ih1, ih2⟩ := ih
    have hstep := byzStep_rel (n := ctx.n) (jobs := rdJobs c ctx rs x held) (jobs' := rdJobs c ctx rs x held') (Cs := Cs) ih2
      (by simp [rdJobs])
      (by
        intro j job job' hj hj'
        obtain ⟨k, hk, rfl⟩ := rdJobs_get c x _ hj
        obtain ⟨k', hk', rfl⟩ := rdJobs_get c x _ hj'
        have : k' = k := Fin.ext (by omega)
        subst this
        exact ⟨rfl, rfl⟩)
      (play_lead ctx.n _ Cs strat N)
      (by
        intro p j job job' hp hpC hj hj' hready
        obtain ⟨k, hk, rfl⟩ := rdJobs_get c x _ hj
        obtain ⟨k', hk', rfl⟩ := rdJobs_get c x _ hj'
        have : k' = k := Fin.ext (by omega)
        subst this
        have henv : (Sys.play ctx.n (rdJobs c ctx rs x held') Cs strat N).2.env p = (Sys.play ctx.n (rdJobs c ctx rs x held) Cs strat N).2.env p := by
          funext d
          rw [ih2.env]
          simp
        rw [henv]
        refine ⟨rfl, ?_, ?_, ?_⟩
        · simp only [rdProto, hh k' p hp]
        · intro ms hL
          have hL : (rs.get k').leader = p := Option.some.inj hL
          simp only [rdProto]
          rw [hL, hh k' p hp]
        · intro ms
          simp only [rdProto, hh k' p hp, Option.map_id'])
      (strat ((Sys.play ctx.n (rdJobs c ctx rs x held) Cs strat N).1 ++ [(Sys.play ctx.n (rdJobs c ctx rs x held) Cs strat N).2.erase]))
    simp only [Sys.play]
    rw [ih1, ih2.erase]
    refine ⟨rfl, ?_⟩
    revert hstep
    generalize Sys.byzStep _ _ _ _ _ = a
    generalize Sys.byzStep _ _ _ _ _ = b
    intro hstep
    cases a <;> cases b
    · exact ih2
    · exact hstep.elim
    · exact hstep.elim
    · exact hstep

end

end Verif
