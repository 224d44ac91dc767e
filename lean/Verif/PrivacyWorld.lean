import Verif.PrivacyAbsorb

/-!
# From the parameters of a run of `garble` to the lemmas about two runs
-/

open Polynomial

namespace Verif

open CodeField (ofU32)

variable {F : Type} [CodeField F] [DecidableEq F]

section run
variable {hash : List Nat → List Nat} {rng : List Nat → Nat → F} {ctx : Ctx F} {lpn : LpnParams} {circ : PackedCircuit}
  {g : GarbleCtx F} {tp : GarbleTapes F} {d : PreProcCount} {c : Codec F} {go gi : List (List (SharingTransform F))}
  {lead : ProtocolID → Nat}

/-! ## The view -/

/-- The view in a run. -/
theorem GarbleRun.view {pr : Nat → PreProc F} {fin : List (List (GOut F))} (R : GarbleRun c ctx g lead tp go gi pr fin)
    (hG : Prepared ctx circ lpn g tp go gi) {id : ProtocolID} {ids : List ProtocolID}
    (hids : garbleIdsOf id circ.inputs.length ctx.l (circ.gates.map PackedGate.kind) = some ids)
    (hlen : ids.length = fin.length) (q : Nat) :
    garbleView c ctx g lead tp ((List.range ctx.n).map pr) id q = some (((List.range ctx.n).map pr)[q]?,
      (ids.zip (garbleSteps c ctx g lead tp ((List.range ctx.n).map pr) go gi)).map fun s =>
        (List.range ctx.n).map fun p => (s.2.proto s.1).between ctx.n (fun r => Env.only (outsEnv fin r) s.2.deps) p q) := by
  unfold garbleView garbleJobs
  rw [hG.circ, hids, Option.bind_some, hG.go, Option.bind_some, hG.gi, Option.map_some, Option.bind_some,
    R.ok.seq R.all ids (by rw [hlen, R.all]), Option.map_some, List.map_map]
  rfl

omit [CodeField F] [DecidableEq F] in
theorem ids_length_eq (hG : Prepared ctx circ lpn g tp go gi) {id : ProtocolID}
    {ids : List ProtocolID} (hids : garbleIdsOf id circ.inputs.length ctx.l (circ.gates.map PackedGate.kind) = some ids)
    {fin : List (List (GOut F))} (hf : fin.length = (g.tfOut.length + ctx.l - 1) / ctx.l + (g.tfInp.length + ctx.l - 1) / ctx.l +
      g.tfOut.length + g.tfInp.length + ((g.circ.gates.map PackedGate.kind).map GateKind.numJobs).sum) :
    ids.length = fin.length := by
  rw [garbleIdsOf_length hids, hf, hG.circ, hG.out, hG.inp]

/-- Two linked worlds look the same to the coalition. -/
theorem view_linked (P : GarbleParams hash rng ctx lpn circ g tp d) (hc : c.Ok) (hG : Prepared ctx circ lpn g tp go gi)
    {Cs : Finset Nat} (hC : Coalition ctx Cs) {σ : MaskShift F} (H : PrivHyp c ctx g Cs go gi σ) {id : ProtocolID} {ids : List ProtocolID}
    (hids : garbleIdsOf id circ.inputs.length ctx.l (circ.gates.map PackedGate.kind) = some ids)
    {sec sec' : Nat → PreProc F} {ω ω' : Coins ctx d.randoms d.zeros} {fin fin' : List (List (GOut F))}
    (R : GarbleRun c ctx g lead tp go gi (ofCoins sec ω) fin) (R' : GarbleRun c ctx g lead tp go gi (ofCoins sec' ω') fin')
    (hlen : ids.length = fin.length) (hlen' : ids.length = fin'.length)
    (hsec : ∀ p ∈ Cs, (sec' p).masks = (sec p).masks ∧ (sec' p).keys = (sec p).keys ∧ (sec' p).errors = (sec p).errors)
    (L : Linked ctx Cs g go gi σ (gVal ctx g go gi sec fin) (gVal ctx g go gi sec' fin') ω ω') {q : Nat} (hq : q ∈ Cs) :
    garbleView c ctx g lead tp ((List.range ctx.n).map (ofCoins sec ω)) id q
      = garbleView c ctx g lead tp ((List.range ctx.n).map (ofCoins sec' ω')) id q := by
  have hall := fun (k : Nat) (st st' : GStep F) h h' => link_all H R R' (fun p hp => ⟨(hsec p hp).1, (hsec p hp).2.1⟩) L (k := k)
    (st := st) (st' := st') h h'
  rw [R.view hG hids hlen, R'.view hG hids hlen']
  have hq' := hC.parties q hq
  congr 2
  · rw [List.getElem?_map, List.getElem?_map, List.getElem?_range hq', Option.map_some, Option.map_some]
    have ha := L.agree H q hq
    simp only [ofCoins]
    rw [ha.1, ha.2, (hsec q hq).1, (hsec q hq).2.1, (hsec q hq).2.2]
  · have e1 := R.all
    have e2 := R'.all
    apply List.ext_getElem (by simp only [List.length_map, List.length_zip]; omega)
    intro k h1 h2
    simp only [List.length_map, List.length_zip] at h1 h2
    simp only [List.getElem_map, List.getElem_zip]
    obtain ⟨d1, d2⟩ := hall k _ _ (List.getElem?_eq_getElem (by omega)) (List.getElem?_eq_getElem (by omega))
    exact List.map_congr_left fun p hp => (d2 _ p (List.mem_range.1 hp) q hq).symm

/-- The bijection of the worlds. -/
theorem world_bijection (P : GarbleParams hash rng ctx lpn circ g tp d) (hc : c.Ok) (hL : ∀ id, lead id < ctx.n)
    {Cs : Finset Nat} (hC : Coalition ctx Cs) (hD : circ.Hides ctx) {id : ProtocolID} {ids : List ProtocolID}
    (hids : garbleIdsOf id circ.inputs.length ctx.l (circ.gates.map PackedGate.kind) = some ids) :
    GarblePrivate c ctx g lead tp d id Cs := by
  intro M M' hM hM'
  obtain ⟨go, gi, hG⟩ := P.prepared
  obtain ⟨σ, H⟩ := P.hyp hc hG hC hD
  choose fin hfin hfl using fun (S : SecShares ctx d M) (ω : Coins ctx d.randoms d.zeros) =>
    P.run (lead := lead) hc hG hL hM S ω
  choose fin' hfin' hfl' using fun (S : SecShares ctx d M') (ω : Coins ctx d.randoms d.zeros) =>
    P.run (lead := lead) hc hG hL hM' S ω
  let mv : SecShares ctx d M ≃ SecShares ctx d M' := Equiv.prodCongr
    (moveSharings P.good hC hM.masks.2 hM'.masks.2 hM.masks.1 hM'.masks.1)
    (Equiv.prodCongr (moveSharings P.good hC hM.keys.2 hM'.keys.2 hM.keys.1 hM'.keys.1)
      (moveSharings P.good hC hM.errors.2 hM'.errors.2 hM.errors.1 hM'.errors.1))
  have hmv : ∀ S, ∀ p ∈ Cs, ((mv S).sec p).masks = (S.sec p).masks ∧ ((mv S).sec p).keys = (S.sec p).keys ∧
      ((mv S).sec p).errors = (S.sec p).errors := by
    intro S p hp
    refine ⟨moveSharings_shares P.good hC _ _ _ _ S.1 hp, ?_, moveSharings_shares P.good hC _ _ _ _ S.2.2 hp⟩
    exact congrArg (Arr3.mk d.keys) (moveSharings_shares P.good hC _ _ _ _ S.2.1 hp)
  have hE := fun S : SecShares ctx d M => (gLayers H d.randoms d.zeros).bijection
    (V := fun r ω => gVal ctx g go gi S.sec (fin S ω) r) (V' := fun r ω => gVal ctx g go gi (mv S).sec (fin' (mv S) ω) r)
    (fun r ω ω' h => gVal_local H (hfin S ω) (hfin S ω') h)
    (fun r ω ω' h => gVal_local H (hfin' (mv S) ω) (hfin' (mv S) ω') h)
  choose E hE using hE
  refine ⟨(worldEquiv ctx d M).trans ((Equiv.prodShear mv E).trans (worldEquiv ctx d M').symm), fun w q hq => ?_⟩
  have heq := view_linked P hc hG hC H hids (hfin (worldEquiv ctx d M w).1 (worldEquiv ctx d M w).2)
    (hfin' (mv (worldEquiv ctx d M w).1) (E (worldEquiv ctx d M w).1 (worldEquiv ctx d M w).2))
    (ids_length_eq hG hids (hfl _ _)) (ids_length_eq hG hids (hfl' _ _)) (hmv _)
    ⟨(hE _ _).1, (hE _ _).2⟩ hq
  have hv := (hfin (worldEquiv ctx d M w).1 (worldEquiv ctx d M w).2).view hG hids (ids_length_eq hG hids (hfl _ _)) q
  exact ⟨_, hv, heq.symm.trans hv⟩

end run

end Verif
