import Verif.PrivacyLink
import Verif.GarbleRows
import Mathlib.Logic.Equiv.Prod

/-!
# What the parameters of a run of `garble` imply
-/

open Polynomial

namespace Verif

open CodeField (ofU32)

variable {F : Type} [CodeField F] [DecidableEq F]

/-! ## Sharings of given secrets -/

section sharings
variable {ctx : Ctx F} {num : Nat} {x y : List (List F)}

/-- Polynomial `j`. -/
noncomputable def SharingsOf.poly (S : SharingsOf ctx num x) (j : Nat) : F[X] := if h : j < num then (S ⟨j, h⟩).1 else 0

omit [DecidableEq F] in
theorem SharingsOf.shares_eq (S : SharingsOf ctx num x) (p : Nat) :
    SharingsOf.shares S p = (List.range num).map fun j => (SharingsOf.poly S j).eval (ofU32 p) := by
  unfold SharingsOf.shares SharingsOf.poly
  apply List.ext_getElem (by simp)
  intro i h1 h2
  have hi : i < num := by simpa using h1
  rw [List.getElem_ofFn, List.getElem_map, List.getElem_range, dif_pos hi]

omit [DecidableEq F] in
theorem SharingsOf.vec (S : SharingsOf ctx num x) (hx : x.length = num) :
    VecSharing ctx.n (ctx.t + ctx.l) (defaultPos ctx.n ctx.l) x ((List.range ctx.n).map (SharingsOf.shares S)) := by
  rw [vecSharing_iff]
  refine ⟨SharingsOf.poly S, ?_, ?_, ?_⟩
  · intro j hj
    unfold SharingsOf.poly
    rw [dif_pos (by omega)]
    exact (S _).2.1
  · rw [hx]
    unfold tabShares
    exact List.map_congr_left fun p _ => S.shares_eq p
  · rw [hx]
    unfold tabSecrets
    apply List.ext_getElem (by simp [hx])
    intro i h1 h2
    have hi : i < num := by omega
    simp only [List.getElem_map, List.getElem_range]
    unfold SharingsOf.poly
    rw [dif_pos hi, (S _).2.2, List.getD_eq_getElem?_getD, List.getElem?_eq_getElem h1, Option.getD_some]

variable (h : ctx.Good) {Cs : Finset Nat} (hC : Coalition ctx Cs)

include h hC in
theorem move_ok (hx : ∀ v ∈ x, v.length = ctx.l) (hy : ∀ v ∈ y, v.length = ctx.l) (hxn : x.length = num)
    (hyn : y.length = num) (i : Fin num)
    (q : {q : F[X] // q.degree < (ctx.t + ctx.l : Nat) ∧ (defaultPos ctx.n ctx.l).map (fun v => q.eval v) = x.getD i []}) :
    (q.1 + packC ctx Cs (fun k => at2 y i k - at2 x i k)).degree < (ctx.t + ctx.l : Nat) ∧
    (defaultPos ctx.n ctx.l).map (fun v => (q.1 + packC ctx Cs (fun k => at2 y i k - at2 x i k)).eval v) = y.getD i [] := by
  refine ⟨lt_of_le_of_lt (degree_add_le _ _) (max_lt q.2.1 (packC_degree h hC _)), ?_⟩
  have hi := i.2
  have ex : x.getD i [] = x[i.1]'(by omega) := by
    rw [List.getD_eq_getElem?_getD, List.getElem?_eq_getElem (by omega), Option.getD_some]
  have ey : y.getD i [] = y[i.1]'(by omega) := by
    rw [List.getD_eq_getElem?_getD, List.getElem?_eq_getElem (by omega), Option.getD_some]
  have lx : (x.getD i []).length = ctx.l := by rw [ex]; exact hx _ (List.getElem_mem _)
  have ly : (y.getD i []).length = ctx.l := by rw [ey]; exact hy _ (List.getElem_mem _)
  have hq := q.2.2
  unfold defaultPos at hq ⊢
  rw [List.map_map] at hq ⊢
  apply List.ext_getElem (by rw [ly]; simp)
  intro k h1 h2
  have hk : k < ctx.l := by simpa using h1
  have hqk : q.1.eval (ofU32 (ctx.n + k)) = at2 x i k := by
    have := congrArg (fun u => u.getD k 0) hq
    rw [List.getD_eq_getElem?_getD, List.getElem?_map, List.getElem?_range hk] at this
    exact this
  simp only [List.getElem_map, List.getElem_range, Function.comp_apply, eval_add]
  rw [packC_secret h hC _ hk, hqk]
  unfold at2
  rw [add_sub_cancel, List.getD_eq_getElem?_getD (l := y.getD i []), List.getElem?_eq_getElem h2, Option.getD_some]

/-- Sharings of other secrets with the same shares of the coalition. -/
noncomputable def moveSharings (hx : ∀ v ∈ x, v.length = ctx.l) (hy : ∀ v ∈ y, v.length = ctx.l) (hxn : x.length = num)
    (hyn : y.length = num) : SharingsOf ctx num x ≃ SharingsOf ctx num y :=
  Equiv.piCongrRight fun i =>
    { toFun := fun q => ⟨q.1 + packC ctx Cs (fun k => at2 y i k - at2 x i k), move_ok h hC hx hy hxn hyn i q⟩
      invFun := fun q => ⟨q.1 + packC ctx Cs (fun k => at2 x i k - at2 y i k), move_ok h hC hy hx hyn hxn i q⟩
      left_inv := fun q => by
        apply Subtype.ext
        simp only
        rw [show (fun k => at2 x i k - at2 y i k) = fun k => -(at2 y i k - at2 x i k) from funext fun k => (neg_sub _ _).symm,
          packC_neg, add_neg_cancel_right]
      right_inv := fun q => by
        apply Subtype.ext
        simp only
        rw [show (fun k => at2 x i k - at2 y i k) = fun k => -(at2 y i k - at2 x i k) from funext fun k => (neg_sub _ _).symm,
          packC_neg, neg_add_cancel_right] }

theorem moveSharings_shares (hx : ∀ v ∈ x, v.length = ctx.l) (hy : ∀ v ∈ y, v.length = ctx.l) (hxn : x.length = num)
    (hyn : y.length = num) (S : SharingsOf ctx num x) {p : Nat} (hp : p ∈ Cs) :
    SharingsOf.shares (moveSharings h hC hx hy hxn hyn S) p = SharingsOf.shares S p := by
  unfold SharingsOf.shares moveSharings
  congr 1
  funext i
  simp only [Equiv.piCongrRight_apply, Pi.map_apply, Equiv.coe_fn_mk, eval_add]
  rw [packC_share h hC _ hp, add_zero]

end sharings

/-! ## Worlds -/

/-- The shared secrets. -/
abbrev SecShares (ctx : Ctx F) (d : PreProcCount) (M : GarbleSecrets F) : Type :=
  SharingsOf ctx d.masks M.masks × SharingsOf ctx d.numKeys M.keys × SharingsOf ctx d.errors M.errors

/-- The part of the material which depends on the secrets. -/
noncomputable def SecShares.sec {ctx : Ctx F} {d : PreProcCount} {M : GarbleSecrets F} (S : SecShares ctx d M) (p : Nat) : PreProc F :=
  ⟨SharingsOf.shares S.1 p, ⟨d.keys, SharingsOf.shares S.2.1 p⟩, [], [], SharingsOf.shares S.2.2 p⟩

/-- Splitting a world. -/
def worldEquiv (ctx : Ctx F) (d : PreProcCount) (M : GarbleSecrets F) :
    GarbleWorld ctx d M ≃ SecShares ctx d M × Coins ctx d.randoms d.zeros where
  toFun w := ((w.masks, w.keys, w.errors), w.coins)
  invFun s := ⟨s.1.1, s.1.2.1, s.1.2.2, s.2⟩
  left_inv _ := rfl
  right_inv _ := rfl

omit [DecidableEq F] in
theorem material_eq {ctx : Ctx F} {d : PreProcCount} {M : GarbleSecrets F} (w : GarbleWorld ctx d M) :
    w.material = ofCoins (SecShares.sec (worldEquiv ctx d M w).1) (worldEquiv ctx d M w).2 := rfl

section run
variable {hash : List Nat → List Nat} {rng : List Nat → Nat → F} {ctx : Ctx F} {lpn : LpnParams} {circ : PackedCircuit}
  {g : GarbleCtx F} {tp : GarbleTapes F} {d : PreProcCount} {M : GarbleSecrets F}

theorem GarbleParams.setup (P : GarbleParams hash rng ctx lpn circ g tp d) (hM : M.Fit ctx.l d) (w : GarbleWorld ctx d M) :
    Setup hash rng ctx lpn circ g tp ((List.range ctx.n).map w.material) M.masks M.keys M.errors d.randoms d.zeros where
  good := P.good
  parties := P.parties
  mult := P.mult
  circ := P.circ
  fit := P.fit
  code := P.code
  new := P.new
  tapes := P.tapes
  material := {
    count := by
      obtain ⟨d₀, h1, h2, h3, h4, h5, h6⟩ := P.count
      have hk : d.numKeys = d₀.numKeys := by
        unfold PreProcCount.numKeys
        rw [h3]
      refine ⟨d₀, h1, by rw [hM.masks.1, h2], by rw [hM.keys.1, hk]; rfl, fun p hp => ?_, h5, h6, by rw [hM.errors.1, h4]⟩
      obtain ⟨i, _, rfl⟩ := List.mem_map.1 hp
      exact h3
    len := by simp
    masks := by rw [List.map_map]; exact SharingsOf.vec w.masks hM.masks.1
    keys := by rw [List.map_map]; exact SharingsOf.vec w.keys hM.keys.1
    errors := by rw [List.map_map]; exact SharingsOf.vec w.errors hM.errors.1
    randoms := by
      refine ⟨tabSecrets (defaultPos ctx.n ctx.l) d.randoms w.coins.g, ?_, by simp [tabSecrets]⟩
      rw [List.map_map, show List.map ((fun x : PreProc F => x.randoms) ∘ w.material) (List.range ctx.n)
        = tabShares ctx.n d.randoms w.coins.g from List.map_congr_left fun p _ => w.coins.randoms_eq p]
      exact vecSharing_of_tab _ _ _ _ _ fun j hj => w.coins.g_degree hj
    zeros := by
      rw [List.map_map, show List.map ((fun x : PreProc F => x.zeros) ∘ w.material) (List.range ctx.n)
        = tabShares ctx.n d.zeros w.coins.z from List.map_congr_left fun p _ => w.coins.zeros_eq p]
      exact vecZero_of_tab _ (fun j hj => w.coins.z_degree hj) fun j hj => w.coins.z_zero hj }

theorem sortDedup_length_nodup {ws : List Nat} (h : ws.Nodup) : (sortDedup ws).length = ws.length :=
  ((List.perm_ext_iff_of_nodup (sortDedup_nodup ws) h).2 fun w => mem_sortDedup ws w).length_eq

/-- What `garble` prepares. -/
structure Prepared (ctx : Ctx F) (cc : PackedCircuit) (lpn : LpnParams) (g : GarbleCtx F) (tp : GarbleTapes F)
    (go gi : List (List (SharingTransform F))) : Prop where
  circ : g.circ = cc
  lpn : g.lpn = lpn
  out : g.tfOut.length = cc.inputs.length + (cc.gates.map PackedGate.kind).length
  inp : g.tfInp.length = ((cc.gates.map PackedGate.kind).map GateKind.arity).sum
  mats : g.mats.length = ctx.n
  go : chunks? ctx.l g.tfOut = some go
  gi : chunks? ctx.l g.tfInp = some gi
  lens : TapeLens g tp

theorem GarbleParams.prepared (P : GarbleParams hash rng ctx lpn circ g tp d) :
    ∃ go gi, Prepared ctx circ lpn g tp go gi := by
  have hnew := P.new
  unfold GarbleCtx.new at hnew
  obtain ⟨tout, n1, hnew⟩ := Option.bind_eq_some_iff.1 hnew
  obtain ⟨tinp, n2, hnew⟩ := Option.bind_eq_some_iff.1 hnew
  obtain ⟨enc, n3, hnew⟩ := Option.bind_eq_some_iff.1 hnew
  obtain ⟨nl, n4, hnew⟩ := Option.bind_eq_some_iff.1 hnew
  obtain ⟨mats, n5, hnew⟩ := Option.map_eq_some_iff.1 hnew
  have hl0 : ctx.l ≠ 0 := by have := P.good.posL; omega
  refine ⟨chunks ctx.l g.tfOut, chunks ctx.l g.tfInp, ?_, ?_, ?_, ?_, ?_, ?_, ?_, ?_⟩
  · rw [← hnew]
  · rw [← hnew]
  · rw [← hnew]
    unfold Verif.tfOut at n1
    simp only [mapM_length n1, PackedCircuit.blocks, List.length_append, List.length_map]
  · rw [← hnew]
    unfold Verif.tfInp at n2
    simp only [mapM_length n2, flatMap_inps_length]
  · rw [← hnew]
    simp only [mapM_length n5, List.length_range]
  · unfold chunks?; rw [if_neg hl0]
  · unfold chunks?; rw [if_neg hl0]
  · exact ⟨P.tapes.out.1, P.tapes.inp.1, P.tapes.len⟩

theorem GarbleParams.okO (P : GarbleParams hash rng ctx lpn circ g tp d) : ∀ tf ∈ g.tfOut, tf.Ok ctx ∧ tf.Aligned ctx.l := by
  have hnew := P.new
  unfold GarbleCtx.new at hnew
  rw [tfOut_eq P.circ.blockLen, Option.bind_some] at hnew
  obtain ⟨tinp, n2, hnew⟩ := Option.bind_eq_some_iff.1 hnew
  obtain ⟨enc, n3, hnew⟩ := Option.bind_eq_some_iff.1 hnew
  obtain ⟨nl, n4, hnew⟩ := Option.bind_eq_some_iff.1 hnew
  obtain ⟨mats, n5, hnew⟩ := Option.map_eq_some_iff.1 hnew
  intro tf htf
  rw [← hnew] at htf
  obtain ⟨ws, hws, rfl⟩ := List.mem_map.1 htf
  have hl := P.circ.blockLen ws hws
  refine ⟨tfOut_ok P.good hl ((List.nodup_flatten.1 P.circ.nodup).1 ws hws)
    fun w hw => P.fit w (List.mem_flatten.2 ⟨ws, hws, hw⟩), Or.inl ?_⟩
  simp only [wireToPos, List.length_take, List.length_map]
  rw [show (defaultPos ctx.n ctx.l : List F).length = ctx.l from by simp [defaultPos]]
  omega

theorem GarbleParams.tfI (P : GarbleParams hash rng ctx lpn circ g tp d) :
    ∃ tr : List Nat → SharingTransform F, (∀ ws ∈ circ.gates.flatMap PackedGate.inps, InpTf ctx ws (tr ws)) ∧
      g.tfInp = (circ.gates.flatMap PackedGate.inps).map tr := by
  obtain ⟨tr, tr1, tr2⟩ := tfInp_eq P.good (inps_length P.circ) fun ws hws w hw => P.fit w (inps_driven P.circ ws hws w hw)
  refine ⟨tr, tr1, ?_⟩
  have hnew := P.new
  unfold GarbleCtx.new at hnew
  obtain ⟨tout, n1, hnew⟩ := Option.bind_eq_some_iff.1 hnew
  rw [tr2, Option.bind_some] at hnew
  obtain ⟨enc, n3, hnew⟩ := Option.bind_eq_some_iff.1 hnew
  obtain ⟨nl, n4, hnew⟩ := Option.bind_eq_some_iff.1 hnew
  obtain ⟨mats, n5, hnew⟩ := Option.map_eq_some_iff.1 hnew
  rw [← hnew]

theorem GarbleParams.okI (P : GarbleParams hash rng ctx lpn circ g tp d) : ∀ tf ∈ g.tfInp, tf.Ok ctx := by
  obtain ⟨tr, tr1, tr2⟩ := P.tfI
  intro tf htf
  rw [tr2] at htf
  obtain ⟨ws, hws, rfl⟩ := List.mem_map.1 htf
  exact (tr1 ws hws).ok

variable {c : Codec F} {go gi : List (List (SharingTransform F))} {lead : ProtocolID → Nat}

theorem GarbleParams.run (P : GarbleParams hash rng ctx lpn circ g tp d) (hc : c.Ok)
    (hG : Prepared ctx circ lpn g tp go gi) (hL : ∀ id, lead id < ctx.n) (hM : M.Fit ctx.l d) (S : SecShares ctx d M)
    (ω : Coins ctx d.randoms d.zeros) : ∃ fin, GarbleRun c ctx g lead tp go gi (ofCoins S.sec ω) fin ∧
      fin.length = (g.tfOut.length + ctx.l - 1) / ctx.l + (g.tfInp.length + ctx.l - 1) / ctx.l +
        g.tfOut.length + g.tfInp.length + ((g.circ.gates.map PackedGate.kind).map GateKind.numJobs).sum := by
  have hn : 0 < ctx.n := lt_of_le_of_lt (Nat.zero_le _) (hL [])
  obtain ⟨tables, st, d', _, hgar, _⟩ := garble_rows (P.setup hM ((worldEquiv ctx d M).symm (S, ω)))
  obtain ⟨go', gi', fin, k1, k2, k3, k4, k5, _⟩ := garble_seq hc ctx hn g hG.mats lead hL tp _ (by simp)
    (by rw [hG.lpn]; exact P.size) (by rw [hG.lpn]; exact P.size') tables st hgar
  obtain rfl : go = go' := Option.some.inj (hG.go.symm.trans k1)
  obtain rfl : gi = gi' := Option.some.inj (hG.gi.symm.trans k2)
  exact ⟨fin, ⟨hG.lens, k3, k5⟩, k4⟩

theorem GarbleParams.runHyp (P : GarbleParams hash rng ctx lpn circ g tp d) (hc : c.Ok) (hG : Prepared ctx circ lpn g tp go gi) :
    RunHyp c ctx g go gi :=
  ⟨P.good, P.parties, hc, by rw [hG.lpn]; exact P.size, hG.go, hG.gi, fun tf h => (P.okO tf h).1, P.okI⟩

end run

end Verif
