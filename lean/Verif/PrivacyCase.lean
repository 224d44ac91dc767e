import Verif.PrivacyPad

/-!
# Two runs of `garble` which a corrupted leader cannot tell apart agree on an honest party's share of a wire
-/

open Polynomial

namespace Verif

open CodeField (ofU32)

variable {F : Type} [CodeField F] [DecidableEq F]

section leak
variable {hash : List Nat → List Nat} {rng : List Nat → Nat → F} {ctx : Ctx F} {lpn : LpnParams} {circ : PackedCircuit}
  {g : GarbleCtx F} {tp : GarbleTapes F} {c : Codec F} {d : PreProcCount}
  {go gi : List (List (SharingTransform F))} {lead : ProtocolID → Nat} {A : Nat → Nat → Nat → Nat → F[X]}

/-- The share of a gate input. -/
theorem inpX_sum (P : GarbleParams hash rng ctx lpn circ g tp d) (hS : CtxSpec hash rng ctx lpn circ g A) {m : Nat} {ws : List Nat}
    (hm : (circ.gates.flatMap PackedGate.inps)[m]? = some ws) :
    ∃ e : Nat → F[X], (∀ w ∈ ws, (e w).degree < ws.toFinset.card ∧
        ∀ v ∈ ws, (e w).eval (wirePos ctx.n ctx.l v) = if v = w then 1 else 0) ∧
      ∀ (fin : List (List (GOut F))) (Y : Nat → Nat → F[X]),
        (∀ i < circ.blocks.length, ∀ j < gReps g, (Y i j).degree < (ctx.t + ctx.l : Nat)) →
        (∀ i < circ.blocks.length, fin[go.length + gi.length + i]? = some ((List.range ctx.n).map fun p =>
          .vec ((List.range (gReps g)).map fun j => (Y i j).eval (ofU32 p)))) →
        ∀ p < ctx.n, inpX ctx g go gi fin p m = (List.range (gReps g)).map fun j =>
          ∑ w ∈ ws.toFinset, (e w).eval (ofU32 p) * (Y ((wireToBlock circ w).getD 0) j).eval (ofU32 p) := by
  obtain ⟨e, e1, e2⟩ := inpX_at (go := go) (gi := gi) P hS hm
  refine ⟨e, e1, fun fin Y _ hfin p hp => ?_⟩
  rw [e2 fin (fun i j => (Y i j).eval (ofU32 p)) p hp fun i hi => ?_]
  unfold outsEnv
  rw [hfin i hi, Option.bind_some, tab_get _ hp]

/-- The transformed masks of a block. -/
structure MaskRes (ctx : Ctx F) (circ : PackedCircuit) (M : List (List F)) (b : Nat) (y : F[X]) : Prop where
  deg : y.degree < (ctx.t + ctx.l : Nat)
  val : ∀ s w, circ.Drives b s w → y.eval (wirePos ctx.n ctx.l w) = at2 M b s

omit [DecidableEq F] in
/-- The sharings of the masks. -/
theorem masks_poly {M : GarbleSecrets F} (w : GarbleWorld ctx d M) {b : Nat} (hb : b < d.masks) :
    (SharingsOf.poly w.masks b).degree < (ctx.t + ctx.l : Nat) ∧
      ∀ k < ctx.l, (SharingsOf.poly w.masks b).eval (ofU32 (ctx.n + k)) = at2 M.masks b k := by
  unfold SharingsOf.poly
  rw [dif_pos hb]
  refine ⟨(w.masks ⟨b, hb⟩).2.1, fun k hk => ?_⟩
  have h2 := (w.masks ⟨b, hb⟩).2.2
  have h3 := congrArg (fun x => x.getD k 0) h2
  unfold defaultPos at h3
  rw [List.map_map, getD_tab _ _ _ hk] at h3
  exact h3

/-- Corrupted parties which take part in two runs without a difference have the same shares of the masks of all blocks in both
runs, and another party has the same share of the masks of a gate input which is not full and has a corrupted leader.  Also, the
shares of the parties at the free places of a block change as the shares of the untransformed masks do, if the leader of the block is
corrupted. -/
theorem mask_leak (P : GarbleParams hash rng ctx lpn circ g tp d) (hc : c.Ok) (hL : ∀ id, lead id < ctx.n) {M M' : GarbleSecrets F}
    (hM : M.Fit ctx.l d) (hM' : M'.Fit ctx.l d) (w : GarbleWorld ctx d M) (w' : GarbleWorld ctx d M') {id : ProtocolID} {Cs : Finset Nat}
    (hCs : ∀ r ∈ Cs, r < ctx.n) (hview : ∀ r ∈ Cs, ∃ v, garbleView c ctx g lead tp ((List.range ctx.n).map w.material) id r = some v ∧
      garbleView c ctx g lead tp ((List.range ctx.n).map w'.material) id r = some v)
    {m : Nat} {ws : List Nat} (hm : (circ.gates.flatMap PackedGate.inps)[m]? = some ws) (hlead : m % ctx.n ∈ Cs) {q : Nat} (hqC : q ∈ Cs)
    (hws : ws.length + q < ctx.l) :
    ∃ y y' e : Nat → F[X], (∀ b < circ.blocks.length, MaskRes ctx circ M.masks b (y b) ∧ MaskRes ctx circ M'.masks b (y' b) ∧
        (∀ r ∈ Cs, (y b).eval (ofU32 r) = (y' b).eval (ofU32 r)) ∧
        (∀ r ∈ Cs, (SharingsOf.poly w.masks b).eval (ofU32 r) = (SharingsOf.poly w'.masks b).eval (ofU32 r)) ∧
        ∀ bs, circ.blocks[b]? = some bs → b % ctx.n ∈ Cs → ∀ p, bs.length + p < ctx.l →
          (y' b).eval (ofU32 p) - (SharingsOf.poly w'.masks b).eval (ofU32 p)
            = (y b).eval (ofU32 p) - (SharingsOf.poly w.masks b).eval (ofU32 p)) ∧
      (∀ w ∈ ws, (e w).degree < ws.toFinset.card ∧ ∀ v ∈ ws, (e w).eval (wirePos ctx.n ctx.l v) = if v = w then 1 else 0) ∧
      ∑ w ∈ ws.toFinset, (e w).eval (ofU32 (ws.length + q - ws.toFinset.card)) *
          (y ((wireToBlock circ w).getD 0)).eval (ofU32 (ws.length + q - ws.toFinset.card))
        = ∑ w ∈ ws.toFinset, (e w).eval (ofU32 (ws.length + q - ws.toFinset.card)) *
          (y' ((wireToBlock circ w).getD 0)).eval (ofU32 (ws.length + q - ws.toFinset.card)) := by
  have hq := hCs q hqC
  obtain ⟨v, hv, hv'⟩ := hview q hqC
  obtain ⟨ids, hids⟩ : ∃ ids, garbleIdsOf id circ.inputs.length ctx.l (circ.gates.map PackedGate.kind) = some ids := by
    obtain ⟨go, gi, hG⟩ := P.prepared
    unfold garbleView garbleJobs at hv
    rw [hG.circ] at hv
    cases h : garbleIdsOf id circ.inputs.length ctx.l (circ.gates.map PackedGate.kind) with
    | none => rw [h] at hv; simp at hv
    | some ids => exact ⟨ids, rfl⟩
  obtain ⟨go, gi, hG⟩ := P.prepared
  have H := P.runHyp hc hG
  obtain ⟨g', A, hnew, hS⟩ := garbleCtx_new hash rng P.good lpn P.circ P.fit P.code
  obtain rfl : g' = g := Option.some.inj (hnew.symm.trans P.new)
  obtain ⟨d₀, hd₀, hdm, hdk, -⟩ := P.count
  obtain ⟨no, ni, -, -, e1, e2, -, -, -⟩ := describe_eq hd₀
  rw [← hdm] at e1
  rw [← hdk] at e2
  have hlen : g'.tfOut.length = circ.blocks.length := by rw [hS.tfOut, List.length_map]
  have ekeys : d.numKeys = 2 * g'.lpn.keyLen * g'.circ.blocks.length := by
    rw [hS.lpnEq, hS.circ]; unfold PreProcCount.numKeys; rw [e2]
  have emasks : d.masks = g'.circ.blocks.length := by rw [e1, hS.circ]
  obtain ⟨fin, R, hf⟩ := P.run (lead := lead) hc hG hL hM (worldEquiv ctx d M w).1 (worldEquiv ctx d M w).2
  obtain ⟨fin', R', hf'⟩ := P.run (lead := lead) hc hG hL hM' (worldEquiv ctx d M' w').1 (worldEquiv ctx d M' w').2
  have S : ∀ r ∈ Cs, SameView c ctx g' lead tp go gi (ofCoins (SecShares.sec (worldEquiv ctx d M w).1) (worldEquiv ctx d M w).2)
      (ofCoins (SecShares.sec (worldEquiv ctx d M' w').1) (worldEquiv ctx d M' w').2) fin fin' r := by
    intro r hr
    obtain ⟨v, hv, hv'⟩ := hview r hr
    obtain ⟨v1, v2⟩ := view_jobs R R' hG hids (ids_length_eq hG hids hf) (ids_length_eq hG hids hf') (hCs r hr) (hv'.trans hv.symm)
    exact ⟨v1, v2⟩
  have hsmall : 2 * g'.lpn.keyLen < gReps g' := Nat.lt_succ_self _
  obtain ⟨e, e1', e2'⟩ := inpX_sum (go := go) (gi := gi) P hS hm
  have res : ∀ {N : GarbleSecrets F} (hN : N.Fit ctx.l d) (u : GarbleWorld ctx d N) {fn : List (List (GOut F))}
      (Ru : GarbleRun c ctx g' lead tp go gi (ofCoins (SecShares.sec (worldEquiv ctx d N u).1) (worldEquiv ctx d N u).2) fn),
      ∃ y : Nat → F[X], (∀ b < circ.blocks.length, MaskRes ctx circ N.masks b (y b) ∧
        ∀ p < ctx.n, ∃ o : List F, outsEnv fn p (go.length + gi.length + b) = some (.vec o) ∧
          o[2 * g'.lpn.keyLen]? = some ((y b).eval (ofU32 p))) ∧
        ∀ p < ctx.n, (inpX ctx g' go gi fn p m)[2 * g'.lpn.keyLen]? = some (∑ w ∈ ws.toFinset, (e w).eval (ofU32 p) *
          (y ((wireToBlock circ w).getD 0)).eval (ofU32 p)) := by
    intro N hN u fn Ru
    obtain ⟨Y, hY⟩ := Ru.outRes H (P.tapes.out) (K := SharingsOf.poly u.keys) (M := SharingsOf.poly u.masks) (by rw [hlen, hS.circ])
      (fun p _ => by rw [← ekeys]; exact SharingsOf.shares_eq u.keys p) (fun p _ => by rw [← emasks]; exact SharingsOf.shares_eq u.masks p)
      (fun j hj => by
        unfold SharingsOf.poly
        rw [dif_pos (by omega)]
        exact (u.keys _).2.1) (fun j hj => by
        unfold SharingsOf.poly
        rw [dif_pos (by omega)]
        exact (u.masks _).2.1)
    have hget : ∀ (i : Nat) (hi : i < circ.blocks.length), g'.tfOut[i]? = some (g'.tfOut[i]'(by omega)) := fun i hi => List.getElem?_eq_getElem (by omega)
    refine ⟨fun b => Y b (2 * g'.lpn.keyLen), fun b hbl => ⟨⟨((hY b _ (hget b hbl)).1 _ hsmall).1, ?_⟩, ?_⟩, ?_⟩
    · rintro s w ⟨bs, hbs, hs⟩
      obtain ⟨hslt, hsw⟩ := List.getElem?_eq_some_iff.1 hs
      have hbm : bs ∈ circ.blocks := List.mem_of_getElem? hbs
      have := ((hY b ⟨(defaultPos ctx.n ctx.l).take bs.length, wireToPos ctx.n ctx.l bs, ⟨List.range bs.length⟩⟩ (by
        rw [hS.tfOut, List.getElem?_map, hbs, Option.map_some])).1 _ hsmall).2
      simp only [] at this
      rw [(defaultPos_take (F := F) P.good.fit (P.circ.blockLen bs hbm)).2.2, List.map_map,
        apply_range _ _ _ (by intro i hi; exact List.mem_range.1 hi), Option.some.injEq] at this
      have := congrArg (fun x => x[s]?) this
      simp only [] at this
      rw [getElem?_tab _ _ _ hslt, wireToPos_eq, List.map_map, List.getElem?_map, hs, Option.map_some,
        Option.some.injEq] at this
      refine (this.symm.trans ?_)
      unfold keyCol
      rw [if_neg (by omega)]
      unfold SharingsOf.poly
      have hbd : b < d.masks := by omega
      rw [dif_pos hbd]
      have h2 := (u.masks ⟨b, hbd⟩).2.2
      have hsl : s < ctx.l := by have := P.circ.blockLen bs hbm; omega
      have h3 := congrArg (fun x => x.getD s 0) h2
      unfold defaultPos at h3
      rw [List.map_map, getD_tab _ _ _ hsl] at h3
      exact h3
    · intro p hp
      refine ⟨(List.range (gReps g')).map fun j => (Y b j).eval (ofU32 p), ?_, getElem?_tab _ _ _ hsmall⟩
      unfold outsEnv
      rw [(hY b _ (hget b hbl)).2, Option.bind_some, tab_get _ hp]
    · intro p hp
      rw [e2' fn Y (fun i hi j hj => ((hY i _ (hget i hi)).1 j hj).1) (fun i hi => (hY i _ (hget i hi)).2) p hp,
        getElem?_tab _ _ _ hsmall]
  have hoX : ∀ {N : GarbleSecrets F} (u : GarbleWorld ctx d N), ∀ p < ctx.n, ∀ b < circ.blocks.length,
      (outX g' (SecShares.sec (worldEquiv ctx d N u).1 p) b).getD (2 * g'.lpn.keyLen) 0 = (SharingsOf.poly u.masks b).eval (ofU32 p) := by
    intro N u p hp b hb
    unfold outX
    rw [outInput_tab _ _ p (SharingsOf.poly u.keys) (SharingsOf.poly u.masks) _ (by rw [← ekeys]; exact SharingsOf.shares_eq u.keys p)
      (by rw [← emasks]; exact SharingsOf.shares_eq u.masks p), Option.bind_some, getElem?_tab _ _ _ (by rw [hS.circ]; exact hb), Option.getD_some,
      getD_tab _ _ _ (by omega)]
    unfold keyCol
    rw [if_neg (by omega)]
  obtain ⟨y, y1, y3⟩ := res hM w R
  obtain ⟨y', y1', y3'⟩ := res hM' w' R'
  refine ⟨y, y', e, fun b hbl => ⟨(y1 b hbl).1, (y1' b hbl).1, ?_, ?_, ?_⟩, e1', ?_⟩
  · intro r hr
    obtain ⟨o, o1, o2⟩ := (y1 b hbl).2 r (hCs r hr)
    obtain ⟨o', o1', o2'⟩ := (y1' b hbl).2 r (hCs r hr)
    have := (S r hr).out R R' (hCs r hr) (i := b) (by omega)
    rw [o1, o1', Option.some.injEq, GOut.vec.injEq] at this
    rw [this, o2, Option.some.injEq] at o2'
    exact o2'
  · intro r hr
    have h1 : SharingsOf.shares w'.masks r = SharingsOf.shares w.masks r := congrArg PreProc.masks (S r hr).material
    have h2 := congrArg (fun l => l.getD b 0) h1
    simp only [SharingsOf.shares_eq] at h2
    rw [getD_tab _ _ _ (by omega), getD_tab _ _ _ (by omega)] at h2
    exact h2.symm
  · intro bs hbs hlb p hp
    have hpn : p < ctx.n := by have := P.good.le; omega
    obtain ⟨o, o1, o2⟩ := (y1 b hbl).2 p hpn
    obtain ⟨o', o1', o2'⟩ := (y1' b hbl).2 p hpn
    have hbm := List.mem_of_getElem? hbs
    have := (S _ hlb).pad H R R' (i := b) (tf := ⟨(defaultPos ctx.n ctx.l).take bs.length, wireToPos ctx.n ctx.l bs, ⟨List.range bs.length⟩⟩) (by
      rw [hS.tfOut, List.getElem?_map, hbs, Option.map_some]) rfl (by
      have := P.circ.blockLen bs hbm
      simp [wireToPos, defaultPos]
      omega) (p := p) (by simpa [wireToPos] using hp) o1 o1' hsmall
    rw [hoX w p hpn b hbl, hoX w' p hpn b hbl, List.getD_eq_getElem?_getD, List.getD_eq_getElem?_getD, o2, o2'] at this
    exact this
  · obtain ⟨tr, tr1, tr2⟩ := P.tfI
    have it := tr1 ws (List.mem_of_getElem? hm)
    have hle := P.good.le
    have hnl : (tr ws).newPos.length = ws.length := by
      rw [it.new, List.length_take, defaultPos_length]
      omega
    have hol : (tr ws).oldPos.length = ws.toFinset.card := by
      rw [it.old, show ws.toFinset = (sortDedup ws).toFinset by ext v; simp [mem_sortDedup],
        List.toFinset_card_of_nodup (sortDedup_nodup ws)]
      simp [wireToPos]
    have hcw := List.toFinset_card_le ws
    have := (S q hqC).leak H R R' hq (S _ hlead) (i := m) (tf := tr ws) (by rw [tr2, List.getElem?_map, hm, Option.map_some]) rfl (by omega) (by omega)
    rw [hnl, hol] at this
    have h1 := y3 (ws.length + q - ws.toFinset.card) (by omega)
    rw [← this, y3' (ws.length + q - ws.toFinset.card) (by omega), Option.some.injEq] at h1
    exact h1.symm

end leak

end Verif
