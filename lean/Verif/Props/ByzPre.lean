import Verif.ByzPreLemmas
import Verif.Props.ByzDeal

/-! # C135: the multiplications of `preproc` with parties which do not follow the protocols -/

open Polynomial Verif
open Verif.CodeField (ofU32)

namespace Verif.Props

variable {F : Type} [CodeField F] [DecidableEq F]

/-- C135 (missing: dealers which send other numbers of values, for which it is false, see `C137_private_false`): `rand` and `zero` followed by runs of `reduce_degree`, whose inputs may be computed from other results of the same `rand` and `zero` (`κ`).  At most `t` parties
deal what they like, depending on what they get from the others, and in the runs they do what they like and see all messages.  There is a bijection between the
randomness of the dealers under which they have the same shares and see the same at all times, while the inputs of the runs change from `x` to `x'`, and the other
results change by any polynomials which vanish at the positions of these parties. -/
theorem C135_private_partial (c : Codec F) (ctx : Ctx F) (h : ctx.Good) (Cs : Finset Nat) (hC : Coalition ctx Cs) (m : Mat F) (hm : DealMat ctx.n m)
    (hall : m.AllOutputs ctx.t) (br bz : Nat) (rs : List (RdJob F)) (ho : RdOrder rs) {κ : Type} (er ez : κ → Nat) (U : Uses (Fin rs.length ⊕ κ))
    (hU : U.Ok (Sum.elim (runNum rs) er) (Sum.elim (runNum rs) ez) (m.rows.length * br) (m.rows.length * bz)) (cheat : (Fin ctx.n → Nat → List F × List F) → Cheat F)
    (strat : (Fin ctx.n → Nat → List F × List F) → List (Sys Unit) → ByzStep)
    (x x' : (Fin ctx.n → Nat → List F × List F) → Nat → Nat → (κ → List F × List F) → Env (List F) → List F)
    (hx : ∀ v (own : Nat → κ → List F × List F), RdSizes rs fun k p => x v k p (own p)) (hx' : ∀ v (own : Nat → κ → List F × List F), RdSizes rs fun k p => x' v k p (own p))
    (D : OwnShift ctx Cs er ez) :
    ∃ e : DealCoins ctx br bz ≃ DealCoins ctx br bz, ∀ δ, (e δ).known Cs = δ.known Cs ∧
      (∀ p < ctx.n, dealtOwn ctx m Cs U er ez (cheat ((e δ).known Cs)) (e δ) p = D.apply p (dealtOwn ctx m Cs U er ez (cheat (δ.known Cs)) δ p)) ∧
      ∀ N, (Sys.play ctx.n (rdJobs c ctx rs (fun k p => x' ((e δ).known Cs) k p (dealtOwn ctx m Cs U er ez (cheat ((e δ).known Cs)) (e δ) p))
            (dealtMask ctx m Cs U er ez (cheat ((e δ).known Cs)) (e δ))) Cs (strat ((e δ).known Cs)) N).1
        = (Sys.play ctx.n (rdJobs c ctx rs (fun k p => x (δ.known Cs) k p (dealtOwn ctx m Cs U er ez (cheat (δ.known Cs)) δ p))
            (dealtMask ctx m Cs U er ez (cheat (δ.known Cs)) δ)) Cs (strat (δ.known Cs)) N).1 := by
  obtain ⟨N, hN⟩ := rightInv_of_all hm.1 hall hC.size (fun p hp => by rw [hm.2.1]; exact hC.parties p hp)
  -- the errors, and what the parties have of the other results
  let off := fun v => dealOffs ctx m Cs U (Sum.elim (runNum rs) er) (Sum.elim (runNum rs) ez) br bz (cheat v) v
  let own : (Fin ctx.n → Nat → List F × List F) → ((k : κ) → Coins ctx (er k) (ez k)) → Nat → κ → List F × List F := fun v ω p k =>
    (vadd ((ω k).randoms p) (off v (.inr k) p).1, vadd ((ω k).zeros p) (off v (.inr k) p).2)
  let T : ((k : κ) → Coins ctx (er k) (ez k)) ≃ ((k : κ) → Coins ctx (er k) (ez k)) :=
    Equiv.piCongrRight fun k => Coins.translate (D.rand k) (D.zero k) (D.rand_deg k) (D.zero_ok k)
  have key : ∀ (v : Fin ctx.n → Nat → List F × List F) (w : (k : κ) → Coins ctx (er k) (ez k)), ∃ e : RdCoins ctx rs ≃ RdCoins ctx rs,
      ∀ ω, (e ω).known Cs = ω.known Cs ∧
      ∀ N, (Sys.play ctx.n (rdJobs c ctx rs (fun k p => x' v k p (own v (T w) p)) ((e ω).held fun k => off v (.inl k))) Cs (strat v) N).1
        = (Sys.play ctx.n (rdJobs c ctx rs (fun k p => x v k p (own v w p)) (ω.held fun k => off v (.inl k))) Cs (strat v) N).1 := fun v w =>
    C127_private c ctx h Cs hC rs ho (fun _ k => off v (.inl k)) (fun _ k p => dealOffs_sizes Cs _ _ (Sum.inl k) p) (fun _ => strat v) _ _ (hx v _) (hx' v _)
  choose E hE using key
  let split := Equiv.sumPiEquivProdPi fun u : Fin rs.length ⊕ κ => Coins ctx (Sum.elim (runNum rs) er u) (Sum.elim (runNum rs) ez u)
  let G : (Fin ctx.n → Nat → List F × List F) → ((u : Fin rs.length ⊕ κ) → Coins ctx (Sum.elim (runNum rs) er u) (Sum.elim (runNum rs) ez u)) ≃
      ((u : Fin rs.length ⊕ κ) → Coins ctx (Sum.elim (runNum rs) er u) (Sum.elim (runNum rs) ez u)) := fun v =>
    split.trans (((Equiv.prodComm _ _).trans ((Equiv.prodShear T (E v)).trans (Equiv.prodComm _ _))).trans split.symm)
  have hGl : ∀ v ω (k : Fin rs.length), G v ω (.inl k) = E v (fun k => ω (.inr k)) (fun k => ω (.inl k)) k := fun _ _ _ => rfl
  have hGr : ∀ v ω (k : κ), G v ω (.inr k) = (ω (.inr k)).shift (D.rand k) (D.zero k) (D.rand_deg k) (D.zero_ok k) := fun _ _ _ => rfl
  obtain ⟨e, he⟩ := deal_lift hU hm hN G (by
    rintro v ω (k | k) p hp
    · have := congrFun (congrFun (hE v (fun k => ω (.inr k)) (fun k => ω (.inl k))).1 k) p
      unfold RdCoins.known at this
      rw [if_pos hp, if_pos hp] at this
      rw [hGl]
      exact Prod.mk.inj this
    · rw [hGr]
      have := Coins.shift_agree (ω (.inr k)) (D.rand k) (D.zero k) (D.rand_deg k) (D.zero_ok k) Cs (D.rand_hid k) (D.zero_hid k) p hp
      exact this)
  have hown : ∀ δ, ∀ p < ctx.n, dealtOwn ctx m Cs U er ez (cheat (δ.known Cs)) δ p = own (δ.known Cs) (fun k => collect hU δ (.inr k)) p := by
    intro δ p hp
    funext k
    exact dealtFor_eq h hU hm Cs (cheat (δ.known Cs)) δ (.inr k) hp
  have hmask : ∀ δ, ∀ k, ∀ p < ctx.n, dealtMask ctx m Cs U er ez (cheat (δ.known Cs)) δ k p
      = RdCoins.held (rs := rs) (fun k => collect hU δ (.inl k)) (fun k => off (δ.known Cs) (.inl k)) k p := by
    intro δ k p hp
    exact dealtFor_eq h hU hm Cs (cheat (δ.known Cs)) δ (.inl k) hp
  have hT : ∀ δ, (fun k => collect hU (e δ) (.inr k)) = T (fun k => collect hU δ (.inr k)) := by
    intro δ
    funext k
    rw [(he δ).2]
    exact hGr _ _ k
  refine ⟨e, fun δ => ⟨(he δ).1, fun p hp => ?_, fun M => ?_⟩⟩
  · rw [hown _ p hp, hown _ p hp, hT, (he δ).1]
    funext k
    exact vadd_shift (collect hU δ (.inr k)) _ _ (D.rand_deg k) (D.zero_ok k) (dealOffs_sizes Cs (cheat (δ.known Cs)) (δ.known Cs) (Sum.inr k) p) p
  · have h1 := (play_congr_in c (hmask (e δ)) (fun k p hp => congrArg (x' ((e δ).known Cs) k p) (hown (e δ) p hp)) Cs (strat ((e δ).known Cs)) M).1
    have h2 := (play_congr_in c (hmask δ) (fun k p hp => congrArg (x (δ.known Cs) k p) (hown δ p hp)) Cs (strat (δ.known Cs)) M).1
    refine h1.trans (Eq.trans ?_ h2.symm)
    rw [hT, (he δ).1]
    refine Eq.trans ?_ ((hE (δ.known Cs) _ (fun k => collect hU δ (.inl k))).2 M)
    congr 4
    funext k
    rw [(he δ).2]
    exact hGl _ _ k

/-- C135 for `preproc`: in the runs of `mult`, the bits which the honest parties multiply (`b` and `b'`, which may depend on what the deviating parties know) can be
replaced by others, and at the same time the secrets of the scalars, of the keys and of the random sharings for `garble` can change by any values `d`, without the
deviating parties noticing it.  Here the runs begin when the dealing has ended; for runs which begin earlier see C136.
Missing: as in `C135_private_partial`. -/
theorem C135_preproc_partial (c : Codec F) (ctx : Ctx F) (h : ctx.Good) (Cs : Finset Nat) (hC : Coalition ctx Cs) (m : Mat F) (hm : DealMat ctx.n m)
    (hall : m.AllOutputs ctx.t) (br bz : Nat) (desc : PreProcCount) (sizes : List Nat) (hs : errorBatches desc.errors ctx.n = some sizes)
    (hbr : desc.numKeys + desc.randoms + 3 * desc.errors ≤ m.rows.length * br) (hbz : desc.zeros + 2 * desc.errors ≤ m.rows.length * bz)
    (ids : List ProtocolID) (errs : List (ErrTapes F)) (cheat : (Fin ctx.n → Nat → List F × List F) → Cheat F)
    (strat : (Fin ctx.n → Nat → List F × List F) → List (Sys Unit) → ByzStep) (b b' : (Fin ctx.n → Nat → List F × List F) → Nat → List F)
    (d : Option Nat → Nat → Nat → F) :
    ∃ D : OwnShift ctx Cs (preOwnR sizes (desc.numKeys + desc.randoms)) (preOwnZ desc.zeros),
      (∀ k i, ∀ j < ctx.l, (D.rand k i).eval (ofU32 (ctx.n + j)) = d k i j) ∧ (∀ k i, D.zero k i = 0) ∧
    ∃ e : DealCoins ctx br bz ≃ DealCoins ctx br bz, ∀ δ, (e δ).known Cs = δ.known Cs ∧
      (∀ p < ctx.n, preOwn ctx m Cs ids errs sizes desc (cheat ((e δ).known Cs)) (e δ) p = D.apply p (preOwn ctx m Cs ids errs sizes desc (cheat (δ.known Cs)) δ p)) ∧
      ∀ N, (Sys.play ctx.n (preMults c ctx m Cs ids errs sizes desc (b' ((e δ).known Cs)) (cheat ((e δ).known Cs)) (e δ)) Cs (strat ((e δ).known Cs)) N).1
        = (Sys.play ctx.n (preMults c ctx m Cs ids errs sizes desc (b (δ.known Cs)) (cheat (δ.known Cs)) δ) Cs (strat (δ.known Cs)) N).1 := by
  obtain ⟨D, hD, hD0⟩ := ownShift_exists h hC (preOwnR sizes (desc.numKeys + desc.randoms)) (preOwnZ desc.zeros) d
  refine ⟨D, hD, hD0, ?_⟩
  have hsum := errorBatches_sum hs
  have hU := preUses_ok ids errs sizes (restR := desc.numKeys + desc.randoms) (restZ := desc.zeros) (haveR := m.rows.length * br) (haveZ := m.rows.length * bz)
    (by omega) (by omega)
  have hl : ∀ b : Nat → List F, RdSizes (preRuns ids errs sizes) (fun k p env => preLeft sizes (b p) k env) := by
    intro b k p env
    exact (fitTo_length _ _).trans (preRuns_num ids errs sizes k).symm
  have hr : ∀ (b : Nat → List F) (own : Nat → Option Nat → List F × List F), RdSizes (preRuns ids errs sizes) (fun k p _ => preRight sizes (b p) k (own p)) := by
    intro b own k p env
    exact (fitTo_length _ _).trans (preRuns_num ids errs sizes k).symm
  have hmul : ∀ (b : Nat → List F) (own : Nat → Option Nat → List F × List F), RdSizes (preRuns ids errs sizes)
      (fun k p env => vmul (preLeft sizes (b p) k env) (preRight sizes (b p) k (own p))) := by
    intro b own k p env
    unfold vmul
    have h1 := hl b k p env
    have h2 := hr b own k p env
    simp only at h1 h2
    rw [List.length_zipWith, h1, h2, Nat.min_self]
  obtain ⟨e, he⟩ := C135_private_partial c ctx h Cs hC m hm hall br bz (preRuns ids errs sizes) (preRuns_order ids errs sizes) _ _ _ hU cheat strat
    (fun v k p own env => vmul (preLeft sizes (b v p) k env) (preRight sizes (b v p) k own))
    (fun v k p own env => vmul (preLeft sizes (b' v p) k env) (preRight sizes (b' v p) k own)) (fun v own => hmul (b v) own) (fun v own => hmul (b' v) own) D
  refine ⟨e, fun δ => ⟨(he δ).1, (he δ).2.1, fun N => ?_⟩⟩
  unfold preMults
  rw [multJobs_eq c ctx _ _ _ (hl _) (hr _ _), multJobs_eq c ctx _ _ _ (hl _) (hr _ _)]
  exact (he δ).2.2 N

/-- C135: the jobs of `preproc` (C73) after the first three are the runs of `mult` above: with results `R` of `rand`, `Z` of `zero` and `B` of `randbit`, party `p`
multiplies the same factors and uses the results at the same places as masks. -/
theorem C135_jobs (c : Codec F) (ctx : Ctx F) (superInv binSuperInv : Mat F) (desc : PreProcCount) (tp : PreTapes F) (id : ProtocolID) (jobs : List (Job (List F)))
    (hj : preprocJobs c ctx superInv binSuperInv desc tp id = some jobs) (ids : List ProtocolID) (hids : preprocIds id ctx.n = some ids) (sizes : List Nat)
    (hs : errorBatches desc.errors ctx.n = some sizes) (ht : tp.errs.length = ctx.n) (k : Nat) (hk : k < (preRuns (ids.drop 3) tp.errs sizes).length) :
    ∃ job inp, jobs[3 + k]? = some job ∧ job.id = ((preRuns (ids.drop 3) tp.errs sizes)[k]).id ∧
      job.deps = [0, 1, 2] ++ ((preRuns (ids.drop 3) tp.errs sizes)[k]).deps.map (3 + ·) ∧
      job.proto = multProto c ctx ((preRuns (ids.drop 3) tp.errs sizes)[k]).leader ((preRuns (ids.drop 3) tp.errs sizes)[k]).tapes inp (fun o => o) ∧
      ∀ (p : Nat) (env : Env (List F)) (R Z B : List F), env 0 = some R → env 1 = some Z → env 2 = some B → 3 * desc.errors ≤ R.length → 2 * desc.errors ≤ Z.length →
        2 * desc.errors ≤ B.length → (k % 2 = 1 → ∃ v, env (3 + (k - 1)) = some v ∧ v.length = sizes.getD (k / 2) 0) →
        inp p env = some (preLeft sizes B k (fun j => env (3 + j)),
          preRight sizes B k (fun u => ((List.range (preOwnR sizes 0 u)).map fun i => R.getD ((preUses (2 * sizes.length) sizes).rand (.inr u) i) 0, [])),
          (List.range (sizes.getD (k / 2) 0)).map (fun i => R.getD ((preUses _ sizes).rand (.inl ⟨k, hk⟩) i) 0),
          (List.range (sizes.getD (k / 2) 0)).map fun i => Z.getD ((preUses _ sizes).zero (.inl ⟨k, hk⟩) i) 0) := by
  have hsum := errorBatches_sum hs
  have hlen := errorBatches_len hs
  have hil : ids.length = 3 + 2 * ctx.n := preprocIds_length hids
  rw [preRuns_length] at hk
  unfold preprocJobs at hj
  rw [hids, Option.bind_some] at hj
  obtain ⟨br, -, hj⟩ := Option.bind_eq_some_iff.1 hj
  obtain ⟨bz, -, hj⟩ := Option.bind_eq_some_iff.1 hj
  obtain ⟨bb, -, hj⟩ := Option.map_eq_some_iff.1 hj
  have ha : k / 2 < tp.errs.length := by omega
  have hzi : tp.errs.zipIdx[k / 2]? = some (tp.errs[k / 2], k / 2) := by
    rw [List.getElem?_zipIdx, List.getElem?_eq_getElem ha]
    simp
  have hg : ∀ st, (tp.errs.zipIdx.flatMap fun e => errJobs c ctx desc e.2 e.1)[k]? = some st → jobs[3 + k]? = some ⟨ids.getD (3 + k) [], st.1, st.2⟩ := by
    intro st hst
    rw [← hj, List.getElem?_map, List.getElem?_zip_eq_some (z := (ids.getD (3 + k) [], st)) |>.2 ⟨?_, ?_⟩, Option.map_some]
    · rw [List.getD_eq_getElem _ _ (by omega), List.getElem?_eq_getElem]
    · rw [List.getElem?_append_right (by simp)]
      simpa using hst
  unfold errJobs at hg
  rw [flatMap_pair, hzi] at hg
  have hins : ∀ (env : Env (List F)) (R Z B : List F), env 0 = some R → env 1 = some Z → env 2 = some B → 3 * desc.errors ≤ R.length → 2 * desc.errors ≤ Z.length →
      2 * desc.errors ≤ B.length → ∃ ins, preIns desc ctx.n env = some ins ∧ ins[k / 2]? = some
        ⟨(B.drop (slotPos 2 sizes (k / 2) 0 0)).take (sizes.getD (k / 2) 0), (B.drop (slotPos 2 sizes (k / 2) 1 0)).take (sizes.getD (k / 2) 0),
          (List.range (sizes.getD (k / 2) 0)).map (fun i => R.getD (slotPos 3 sizes (k / 2) 0 i) 0),
          (List.range (sizes.getD (k / 2) 0)).map (fun i => Z.getD (slotPos 2 sizes (k / 2) 0 i) 0),
          (List.range (sizes.getD (k / 2) 0)).map (fun i => R.getD (slotPos 3 sizes (k / 2) 1 i) 0),
          (List.range (sizes.getD (k / 2) 0)).map (fun i => R.getD (slotPos 3 sizes (k / 2) 2 i) 0),
          (List.range (sizes.getD (k / 2) 0)).map (fun i => Z.getD (slotPos 2 sizes (k / 2) 1 i) 0)⟩ := by
    intro env R Z B h0 h1 h2 hR hZ hB
    unfold preIns
    rw [h0, Option.bind_some, h1, Option.bind_some, h2, Option.bind_some, drain_some hR, Option.bind_some]
    simp only
    rw [drain_some hZ, Option.bind_some]
    simp only
    rw [drain_some hB, Option.bind_some]
    simp only
    rw [hs, Option.bind_some]
    obtain ⟨ins, h3, h4⟩ := errIns_get sizes (B.take (2 * desc.errors)) (R.take (3 * desc.errors)) (Z.take (2 * desc.errors)) (by simp; omega) (by simp; omega) (by simp; omega)
    refine ⟨ins, h3, ?_⟩
    rw [h4 _ (by omega)]
    have hle : ∀ c s, s < c → slotPos c sizes (k / 2) s 0 + sizes.getD (k / 2) 0 ≤ c * desc.errors := by
      intro c s hc
      rw [← hsum]
      have h5 := Nat.mul_le_mul_left c (errOff_le sizes (k / 2 + 1))
      rw [errOff_succ, Nat.mul_add] at h5
      have h6 : (s + 1) * sizes.getD (k / 2) 0 ≤ c * sizes.getD (k / 2) 0 := Nat.mul_le_mul_right _ hc
      rw [Nat.add_mul, Nat.one_mul] at h6
      unfold slotPos
      omega
    have hpos : ∀ c s i, slotPos c sizes (k / 2) s 0 + i = slotPos c sizes (k / 2) s i := fun c s i => by unfold slotPos; omega
    congr 2
    · rw [take_slot B hB (hle 2 0 (by omega)), take_slot' B (by have := hle 2 0 (by omega); omega)]
    · rw [take_slot B hB (hle 2 1 (by omega)), take_slot' B (by have := hle 2 1 (by omega); omega)]
    · rw [take_slot R hR (hle 3 0 (by omega))]
      simp only [hpos]
    · rw [take_slot Z hZ (hle 2 0 (by omega))]
      simp only [hpos]
    · rw [take_slot R hR (hle 3 1 (by omega))]
      simp only [hpos]
    · rw [take_slot R hR (hle 3 2 (by omega))]
      simp only [hpos]
    · rw [take_slot Z hZ (hle 2 1 (by omega))]
      simp only [hpos]
  have hfit : ∀ (B : List F) s, 2 * desc.errors ≤ B.length → s < 2 → fitTo (sizes.getD (k / 2) 0) ((B.drop (slotPos 2 sizes (k / 2) s 0)).take (sizes.getD (k / 2) 0))
      = (B.drop (slotPos 2 sizes (k / 2) s 0)).take (sizes.getD (k / 2) 0) := by
    intro B s hB hs2
    unfold fitTo
    rw [if_pos]
    have h5 := Nat.mul_le_mul_left 2 (errOff_le sizes (k / 2 + 1))
    rw [errOff_succ, Nat.mul_add, hsum] at h5
    have h6 : (s + 1) * sizes.getD (k / 2) 0 ≤ 2 * sizes.getD (k / 2) 0 := Nat.mul_le_mul_right _ hs2
    rw [Nat.add_mul, Nat.one_mul] at h6
    rw [List.length_take, List.length_drop]
    unfold slotPos
    omega
  have hgd : (ids.drop 3).getD k [] = ids.getD (3 + k) [] := by
    rw [List.getD_eq_getElem?_getD, List.getD_eq_getElem?_getD, List.getElem?_drop]
  rw [preRuns_get, List.getElem?_eq_getElem ha, Option.map_some, Option.getD_some, hgd]
  by_cases hpar : k % 2 = 0
  · rw [if_pos hpar, Option.map_some] at hg
    refine ⟨_, fun _ env => (preIns desc ctx.n env).bind fun ins => (ins[k / 2]?).map fun i => (i.rbit0, i.rbit1, i.rands, i.zeros), hg _ rfl, rfl, by simp [hpar],
      by simp only [hpar, if_true], ?_⟩
    intro p env R Z B h0 h1 h2 hR hZ hB _
    obtain ⟨ins, h3, h4⟩ := hins env R Z B h0 h1 h2 hR hZ hB
    beta_reduce
    rw [h3, Option.bind_some, h4, Option.map_some]
    simp only [preLeft, preRight, preUses, hpar, if_true, hfit B _ hB (show 0 < 2 by omega), hfit B _ hB (show 1 < 2 by omega)]
  · rw [if_neg hpar, Option.map_some] at hg
    refine ⟨_, fun _ env => (preIns desc ctx.n env).bind fun ins => (ins[k / 2]?).bind fun i => (env (3 + 2 * (k / 2))).map fun biased =>
        (biased, i.scalars, i.rands2, i.zeros2), hg _ rfl, rfl, by simp [hpar]; omega, by simp only [hpar, if_false], ?_⟩
    intro p env R Z B h0 h1 h2 hR hZ hB hv
    obtain ⟨v, hv1, hv2⟩ := hv (by omega)
    obtain ⟨ins, h3, h4⟩ := hins env R Z B h0 h1 h2 hR hZ hB
    beta_reduce
    rw [h3, Option.bind_some, h4, Option.bind_some, show 3 + 2 * (k / 2) = 3 + (k - 1) by omega, hv1, Option.map_some]
    simp only [preLeft, preRight, preUses, preOwnR, hpar, if_false, hv1, Option.getD_some, show k % 2 = 1 by omega]
    congr 2
    · exact (if_pos hv2).symm
    · congr 1
      exact (if_pos (by simp)).symm

/-- 7 parties, of which 0 and 3 deviate, and which make 15 errors: 2 for each of the leaders 0 to 5 and 3 for leader 6.  10 batches are dealt in `rand` (50 results, of which 45
are used for the errors) and 7 in `zero` (35, of which 30).  Whether the other parties multiply sharings of bits or zeros, and all scalars are changed by 1, is not noticed. -/
example (cheat : (Fin 7 → Nat → List (GF 4) × List (GF 4)) → Cheat (GF 4)) (strat : (Fin 7 → Nat → List (GF 4) × List (GF 4)) → List (Sys Unit) → ByzStep)
    (bits : Nat → List (GF 4)) (ids : List ProtocolID) (errs : List (ErrTapes (GF 4))) :
    ∃ ctx m, exCtx = some ctx ∧ superInvMatrix 7 5 = some m ∧ ∃ hn : ctx.n = 7,
      ∃ D : OwnShift ctx {0, 3} (preOwnR [2, 2, 2, 2, 2, 2, 3] 5) (preOwnZ 5), (∀ a i, ∀ j < ctx.l, (D.rand (some a) i).eval (ofU32 (7 + j)) = 1) ∧
      ∃ e : DealCoins ctx 10 7 ≃ DealCoins ctx 10 7, ∀ δ, (e δ).known {0, 3} = δ.known {0, 3} ∧
        (∀ p < 7, preOwn ctx m {0, 3} ids errs [2, 2, 2, 2, 2, 2, 3] ⟨0, (1, 1, 2), 3, 5, 15⟩ (cheat fun j => (e δ).known {0, 3} (Fin.cast hn.symm j)) (e δ) p
          = D.apply p (preOwn ctx m {0, 3} ids errs [2, 2, 2, 2, 2, 2, 3] ⟨0, (1, 1, 2), 3, 5, 15⟩ (cheat fun j => δ.known {0, 3} (Fin.cast hn.symm j)) δ p)) ∧
        ∀ N, (Sys.play ctx.n (preMults (gfCodec 4) ctx m {0, 3} ids errs [2, 2, 2, 2, 2, 2, 3] ⟨0, (1, 1, 2), 3, 5, 15⟩ bits
              (cheat fun j => (e δ).known {0, 3} (Fin.cast hn.symm j)) (e δ)) {0, 3} (strat fun j => (e δ).known {0, 3} (Fin.cast hn.symm j)) N).1
          = (Sys.play ctx.n (preMults (gfCodec 4) ctx m {0, 3} ids errs [2, 2, 2, 2, 2, 2, 3] ⟨0, (1, 1, 2), 3, 5, 15⟩ (fun _ => List.replicate 30 0)
              (cheat fun j => δ.known {0, 3} (Fin.cast hn.symm j)) δ) {0, 3} (strat fun j => δ.known {0, 3} (Fin.cast hn.symm j)) N).1 := by
  obtain ⟨ctx, hctx, hg, hn, ht, hl⟩ := exCtx_good
  have ho : CodeField.order (GF 4) = 16 := rfl
  obtain ⟨m, hm⟩ : ∃ m, superInvMatrix (F := GF 4) 7 5 = some m := Option.isSome_iff_exists.1 (by decide +kernel)
  have hrows : m.rows.length = 5 := by
    have : (superInvMatrix (F := GF 4) 7 5).map (fun m => m.rows.length) = some 5 := by decide +kernel
    rw [hm] at this
    exact Option.some.inj this
  obtain ⟨k1, k2⟩ := superInv_good (F := GF 4) (n := ctx.n) (t := ctx.t) (by omega) (by omega) (by rw [hn, ht]; exact hm)
  refine ⟨ctx, m, hctx, hm, hn, ?_⟩
  obtain ⟨D, hD, _, e, he⟩ := C135_preproc_partial (gfCodec 4) ctx hg {0, 3} ⟨by rw [hn]; decide, by rw [ht]; decide⟩ m k1 k2 10 7 ⟨0, (1, 1, 2), 3, 5, 15⟩
    [2, 2, 2, 2, 2, 2, 3] (by rw [hn]; decide) (by rw [hrows]; decide) (by rw [hrows]; decide) ids errs (fun v => cheat fun j => v (Fin.cast hn.symm j))
    (fun v => strat fun j => v (Fin.cast hn.symm j)) (fun _ _ => List.replicate 30 0) (fun _ => bits) (fun _ _ _ => 1)
  refine ⟨D, fun a i j hj => ?_, e, fun δ => ?_⟩
  · have := hD (some a) i j hj
    rwa [hn] at this
  · exact ⟨(he δ).1, fun p hp => (he δ).2.1 p (by omega), (he δ).2.2⟩

/-- The positions of the first and the last leader in this example. -/
example : errorBatches 15 7 = some [2, 2, 2, 2, 2, 2, 3] ∧ ((List.range 3).map fun i => (preUses 14 [2, 2, 2, 2, 2, 2, 3]).rand (.inl 13) i) = [42, 43, 44] ∧
    ((List.range 3).map fun i => (preUses 14 [2, 2, 2, 2, 2, 2, 3]).zero (.inl 13) i) = [27, 28, 29] ∧
    ((List.range 2).map fun i => (preUses 14 [2, 2, 2, 2, 2, 2, 3]).rand (.inr (some 0)) i) = [2, 3] ∧
    (preUses 14 [2, 2, 2, 2, 2, 2, 3]).rand (.inr none) 0 = 45 := by decide

end Verif.Props
