import Verif.PrivacyPair

/-!
# The values which determine the changes depend on coins of lower rank
-/

open Polynomial

namespace Verif

open CodeField (ofU32)

variable {F : Type} [CodeField F] [DecidableEq F]

/-- The values of rank `r`: inputs of the transformations and products, by number, entry and party. -/
def gVal (ctx : Ctx F) (g : GarbleCtx F) (go gi : List (List (SharingTransform F))) (sec : Nat → PreProc F)
    (fin : List (List (GOut F))) (r i j p : Nat) : F :=
  if p < ctx.n then
    match r with
    | 0 => (outX g (sec p) i).getD j 0
    | 1 => (inpX ctx g go gi fin p i).getD j 0
    | 2 => ((gatePair g go gi (sec p) fin p i .and).map fun x => x.lmask * x.rmask).getD 0
    | 3 => ((((gKinds g)[i]?).bind (gateFactors g go gi (sec p) fin p i)).map fun x => x.1.getD j 0 * x.2.getD j 0).getD 0
    | _ => 0
  else 0

section congr
variable {ctx : Ctx F} {g : GarbleCtx F} {go gi : List (List (SharingTransform F))} {fin fin' : List (List (GOut F))} {p : Nat}

theorem inpX_congr (h : ∀ i < g.tfOut.length, outsEnv fin' p (go.length + gi.length + i) = outsEnv fin p (go.length + gi.length + i))
    (i : Nat) : inpX ctx g go gi fin' p i = inpX ctx g go gi fin p i := by
  unfold inpX
  rw [transformed_congr h]

theorem gateCore_congr {pr pr' : PreProc F} (hm : pr'.masks = pr.masks) (hk : pr'.keys = pr.keys)
    (h : ∀ i < g.tfInp.length, outsEnv fin' p (go.length + gi.length + g.tfOut.length + i)
      = outsEnv fin p (go.length + gi.length + g.tfOut.length + i))
    (gid : Nat) (kind : GateKind) : gateCore g go gi pr' fin' p gid kind = gateCore g go gi pr fin p gid kind := by
  unfold gateCore
  rw [transformed_congr h, hm, hk]

theorem gatePair_congr {pr pr' : PreProc F} (hm : pr'.masks = pr.masks) (hk : pr'.keys = pr.keys)
    (h : ∀ i < g.tfInp.length, outsEnv fin' p (go.length + gi.length + g.tfOut.length + i)
      = outsEnv fin p (go.length + gi.length + g.tfOut.length + i))
    (gid : Nat) (kind : GateKind) : gatePair g go gi pr' fin' p gid kind = gatePair g go gi pr fin p gid kind := by
  unfold gatePair
  rw [gateCore_congr hm hk h]

theorem gateFactors_congr {pr pr' : PreProc F} (hm : pr'.masks = pr.masks) (hk : pr'.keys = pr.keys)
    (h : ∀ i < g.tfInp.length, outsEnv fin' p (go.length + gi.length + g.tfOut.length + i)
      = outsEnv fin p (go.length + gi.length + g.tfOut.length + i))
    {gid : Nat} {kind : GateKind}
    (ha : kind = .and → outsEnv fin' p (gateOff g go gi gid) = outsEnv fin p (gateOff g go gi gid)) :
    gateFactors g go gi pr' fin' p gid kind = gateFactors g go gi pr fin p gid kind := by
  cases kind
  · simp only [gateFactors]
    rw [gatePair_congr hm hk h, ha rfl]
  · simp only [gateFactors]
    rw [gatePair_congr hm hk h]
  · simp only [gateFactors]
    rw [gateCore_congr hm hk h]

end congr

section local_
variable {c : Codec F} {ctx : Ctx F} {g : GarbleCtx F} {lead : ProtocolID → Nat} {tp : GarbleTapes F} {Cs : Finset Nat}
  {go gi : List (List (SharingTransform F))} {σ : MaskShift F} (H : PrivHyp c ctx g Cs go gi σ) {nr nz : Nat} {sec : Nat → PreProc F}
  {ω ω' : Coins ctx nr nz} {fin fin' : List (List (GOut F))} (R : GarbleRun c ctx g lead tp go gi (ofCoins sec ω) fin)
  (R' : GarbleRun c ctx g lead tp go gi (ofCoins sec ω') fin')

include H in
theorem gR_congr {v : Nat} (h : ∀ m < gA ctx g, ω'.g (v * gA ctx g + m) = ω.g (v * gA ctx g + m)) (k : Nat) :
    ((List.range (gReps g)).map fun j => gR ctx g go gi ω' v k j) = (List.range (gReps g)).map fun j => gR ctx g go gi ω v k j := by
  apply List.map_congr_left
  intro j hj
  exact rtR_congr h H.good.le (List.mem_range.1 hj)

theorem gRN_congr {v : Nat} (h : ∀ m < gA ctx g, ω'.g (v * gA ctx g + m) = ω.g (v * gA ctx g + m)) (k : Nat) :
    ((List.range (gReps g)).map fun j => gRN ctx g go gi ω' v k j) = (List.range (gReps g)).map fun j => gRN ctx g go gi ω v k j := by
  apply List.map_congr_left
  intro j hj
  exact rtRN_congr h (List.mem_range.1 hj)

include H in
theorem gR_eval_congr {v : Nat} (h : ∀ m < gA ctx g, ω'.g (v * gA ctx g + m) = ω.g (v * gA ctx g + m)) (k p : Nat) :
    ((List.range (gReps g)).map fun j => (gR ctx g go gi ω' v k j).eval (ofU32 p))
      = (List.range (gReps g)).map fun j => (gR ctx g go gi ω v k j).eval (ofU32 p) := by
  have := congrArg (List.map fun q : F[X] => q.eval (ofU32 p)) (gR_congr H h k (go := go) (gi := gi))
  rwa [List.map_map, List.map_map] at this

theorem gRN_eval_congr {v : Nat} (h : ∀ m < gA ctx g, ω'.g (v * gA ctx g + m) = ω.g (v * gA ctx g + m)) (k p : Nat) :
    ((List.range (gReps g)).map fun j => (gRN ctx g go gi ω' v k j).eval (ofU32 p))
      = (List.range (gReps g)).map fun j => (gRN ctx g go gi ω v k j).eval (ofU32 p) := by
  have := congrArg (List.map fun q : F[X] => q.eval (ofU32 p)) (gRN_congr h k (go := go) (gi := gi))
  rwa [List.map_map, List.map_map] at this

omit [CodeField F] [DecidableEq F] in
theorem group_lt {l len i : Nat} (hl : 0 < l) (hi : i < len) : i / l < numGroups l len := by
  unfold numGroups
  rw [Nat.div_lt_iff_lt_mul hl]
  have := Nat.lt_div_mul_add (a := len + l - 1) hl
  have := Nat.div_mul_le_self (len + l - 1) l
  omega

include H R R' in
theorem local_out (h : ∀ m < go.length * gA ctx g, ω'.g m = ω.g m) {i : Nat} (hi : i < g.tfOut.length) :
    fin'[go.length + gi.length + i]? = fin[go.length + gi.length + i]? := by
  have h1 := List.getElem?_eq_getElem hi
  have h2 := List.getElem?_eq_getElem (l := tp.out) (i := i) (by rw [R.lens.out]; exact hi)
  have hv : i / ctx.l < go.length := by rw [H.go_length]; exact group_lt H.posL hi
  have hg : ∀ m < gA ctx g, ω'.g (i / ctx.l * gA ctx g + m) = ω.g (i / ctx.l * gA ctx g + m) :=
    fun m hm => h _ (mulAdd_lt hv hm)
  obtain ⟨o, e1, e2⟩ := R.step (steps_outTr R.lens h1 h2) default
  obtain ⟨o', e1', e2'⟩ := R'.step (steps_outTr R'.lens h1 h2) default
  rw [e1, e1', ← e2, ← e2']
  refine trans_congr fun p hp => ?_
  have a := (R.outTr H h1 h2 p hp).1
  have a' := (R'.outTr H h1 h2 p hp).1
  rw [gR_eval_congr H hg, gRN_eval_congr hg, ← a] at a'
  exact a'

include H R R' in
theorem local_inp (h : ∀ m < (go.length + gi.length) * gA ctx g, ω'.g m = ω.g m) {i : Nat} (hi : i < g.tfInp.length) :
    fin'[go.length + gi.length + g.tfOut.length + i]? = fin[go.length + gi.length + g.tfOut.length + i]? := by
  have h1 := List.getElem?_eq_getElem hi
  have h2 := List.getElem?_eq_getElem (l := tp.inp) (i := i) (by rw [R.lens.inp]; exact hi)
  have hv : i / ctx.l < gi.length := by rw [H.gi_length]; exact group_lt H.posL hi
  have hg : ∀ m < gA ctx g, ω'.g ((go.length + i / ctx.l) * gA ctx g + m) = ω.g ((go.length + i / ctx.l) * gA ctx g + m) :=
    fun m hm => h _ (mulAdd_lt (by omega) hm)
  obtain ⟨o, e1, e2⟩ := R.step (steps_inpTr R.lens h1 h2) default
  obtain ⟨o', e1', e2'⟩ := R'.step (steps_inpTr R'.lens h1 h2) default
  rw [e1, e1', ← e2, ← e2']
  refine trans_congr fun p hp => ?_
  have a := (R.inpTr H h1 h2 p hp).1
  have a' := (R'.inpTr H h1 h2 p hp).1
  have hX : inpX ctx g go gi fin' p i = inpX ctx g go gi fin p i := inpX_congr (fun k hk => by
    unfold outsEnv
    rw [local_out H R R' (fun m hm => h m (lt_of_lt_of_le hm (Nat.mul_le_mul_right _ (by omega)))) hk]) i
  rw [gR_eval_congr H hg, gRN_eval_congr hg, hX, ← a] at a'
  exact a'

include H R R' in
theorem local_and (h : ∀ m < (go.length + gi.length) * gA ctx g, ω'.g m = ω.g m) {gid : Nat}
    (hk : (gKinds g)[gid]? = some .and)
    (hr : ω'.g ((go.length + gi.length) * gA ctx g + gPos g gid (3 * (g.lpn.keyLen + 1)))
      = ω.g ((go.length + gi.length) * gA ctx g + gPos g gid (3 * (g.lpn.keyLen + 1))))
    (hz : ω'.z ((go.length + gi.length) * gB ctx g + gPos g gid (3 * (g.lpn.keyLen + 1)))
      = ω.z ((go.length + gi.length) * gB ctx g + gPos g gid (3 * (g.lpn.keyLen + 1)))) :
    fin'[gateOff g go gi gid]? = fin[gateOff g go gi gid]? := by
  have h2 := List.getElem?_eq_getElem (l := tp.gates) (i := gid) (by
    rw [R.lens.gates]
    have := (List.getElem?_eq_some_iff.1 hk).1
    simpa [gKinds] using this)
  have s1 := steps_gate (c := c) (ctx := ctx) (lead := lead) (pre := (List.range ctx.n).map (ofCoins sec ω)) (go := go) (gi := gi)
    R.lens hk h2 (a := 0) (by simp [GateKind.numJobs])
  have s1' := steps_gate (c := c) (ctx := ctx) (lead := lead) (pre := (List.range ctx.n).map (ofCoins sec ω')) (go := go) (gi := gi)
    R'.lens hk h2 (a := 0) (by simp [GateKind.numJobs])
  rw [sGate_first, Nat.add_zero] at s1 s1'
  obtain ⟨o, e1, e2⟩ := R.step s1 default
  obtain ⟨o', e1', e2'⟩ := R'.step s1' default
  rw [e1, e1', ← e2, ← e2']
  refine mult_congr fun p hp => ?_
  obtain ⟨x, a1, a2, _⟩ := R.and1 H hk h2 p hp
  obtain ⟨x', a1', a2', _⟩ := R'.and1 H hk h2 p hp
  have := gatePair_congr (fin := fin) (fin' := fin') (go := go) (gi := gi) (p := p) (pr := sec p) (pr' := sec p) rfl rfl
    (fun i hi => by unfold outsEnv; rw [local_inp H R R' h hi]) gid .and
  rw [a1, a1', Option.some.injEq] at this
  subst this
  rw [hr, hz, ← a2] at a2'
  exact a2'

include H R R' in
/-- The values of rank `r` are determined by the coins of lower rank. -/
theorem gVal_local {r : Nat} (h : Coins.AgreeBelow (gRank g go gi (gA ctx g)) (gRank g go gi (gB ctx g)) r ω ω') :
    gVal ctx g go gi sec fin r = gVal ctx g go gi sec fin' r := by
  have hout : 1 ≤ r → ∀ m < go.length * gA ctx g, ω'.g m = ω.g m := by
    intro hr m hm
    by_cases hmn : m < nr
    · refine (h.1 m hmn ?_).symm
      unfold gRank
      rw [if_pos hm]
      omega
    · unfold Coins.g
      rw [dif_neg hmn, dif_neg hmn]
  have hinp : 2 ≤ r → ∀ m < (go.length + gi.length) * gA ctx g, ω'.g m = ω.g m := by
    intro hr m hm
    by_cases hmn : m < nr
    · refine (h.1 m hmn ?_).symm
      unfold gRank
      split_ifs <;> omega
    · unfold Coins.g
      rw [dif_neg hmn, dif_neg hmn]
  funext i j p
  unfold gVal
  by_cases hp : p < ctx.n
  swap
  · rw [if_neg hp, if_neg hp]
  rw [if_pos hp, if_pos hp]
  match r with
  | 0 => rfl
  | 1 =>
    simp only []
    rw [inpX_congr fun k hk => by unfold outsEnv; rw [local_out H R R' (hout (by omega)) hk]]
  | 2 =>
    simp only []
    rw [gatePair_congr rfl rfl fun k hk => by unfold outsEnv; rw [local_inp H R R' (hinp (by omega)) hk]]
  | 3 =>
    simp only []
    cases hk : (gKinds g)[i]? with
    | none => rfl
    | some kind =>
      simp only [Option.bind_some]
      rw [gateFactors_congr rfl rfl (fun k hk => by unfold outsEnv; rw [local_inp H R R' (hinp (by omega)) hk]) ?_]
      rintro rfl
      unfold outsEnv
      have hj : 3 * (g.lpn.keyLen + 1) < GateKind.and.numMult g.lpn.keyLen := Nat.lt_succ_self _
      have hrk : ∀ A, gRank g go gi A ((go.length + gi.length) * A + gPos g i (3 * (g.lpn.keyLen + 1))) < 3 := by
        intro A
        rw [gRank_gate hk hj, if_neg (by simp [GateKind.lastMult])]
        omega
      rw [local_and H R R' (hinp (by omega)) hk ?_ ?_]
      · by_cases hmn : (go.length + gi.length) * gA ctx g + gPos g i (3 * (g.lpn.keyLen + 1)) < nr
        · exact (h.1 _ hmn (hrk _)).symm
        · unfold Coins.g
          rw [dif_neg hmn, dif_neg hmn]
      · by_cases hmn : (go.length + gi.length) * gB ctx g + gPos g i (3 * (g.lpn.keyLen + 1)) < nz
        · exact (h.2 _ hmn (hrk _)).symm
        · unfold Coins.z
          rw [dif_neg hmn, dif_neg hmn]
  | r + 4 => rfl

end local_

end Verif
