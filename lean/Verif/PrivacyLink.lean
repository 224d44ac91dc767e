import Verif.PrivacyLocal

/-!
# Two runs whose coins are linked look alike to the coalition
-/

open Polynomial

namespace Verif

open CodeField (ofU32)

variable {F : Type} [CodeField F] [DecidableEq F]

theorem transSend_tab {num : Nat} {X X' : List F} (hX : X.length = num) (hX' : X'.length = num) {f f' : Nat → F}
    (h : ∀ j < num, f' j + X'.getD j 0 = f j + X.getD j 0) :
    transSend X' ((List.range num).map f') = transSend X ((List.range num).map f) := by
  unfold transSend vadd
  rw [if_pos (by simp [hX']), if_pos (by simp [hX])]
  congr 1
  apply List.ext_getElem
  · simp [hX, hX']
  · intro j h1 h2
    simp only [List.length_zipWith, List.length_map, List.length_range, hX'] at h1
    have hj : j < num := by omega
    have := h j hj
    rw [List.getD_eq_getElem?_getD, List.getD_eq_getElem?_getD, List.getElem?_eq_getElem (by omega),
      List.getElem?_eq_getElem (by omega), Option.getD_some, Option.getD_some] at this
    simpa using this

theorem vsub_tab {num : Nat} {s : List F} (hs : s.length = num) {f : Nat → F} :
    vsub s ((List.range num).map f) = (List.range num).map fun j => s.getD j 0 - f j := by
  unfold vsub
  apply List.ext_getElem
  · simp [hs]
  · intro j h1 h2
    simp only [List.length_map, List.length_range] at h2
    simp [List.getD_eq_getElem, hs, h2]

/-- The coins `ω'` are the coins `ω` changed according to the differences of the values of the runs. -/
structure Linked (ctx : Ctx F) (Cs : Finset Nat) (g : GarbleCtx F) (go gi : List (List (SharingTransform F))) (σ : MaskShift F)
    (V V' : Nat → Nat → Nat → Nat → F) {nr nz : Nat} (ω ω' : Coins ctx nr nz) : Prop where
  rand : ∀ m < nr, ω'.g m = ω.g m + gGamma ctx Cs g go gi σ (V (gRank g go gi (gA ctx g) m) - V' (gRank g go gi (gA ctx g) m)) m
  zero : ∀ m < nz, ω'.z m = ω.z m + gZeta ctx Cs g go gi σ (V (gRank g go gi (gB ctx g) m) - V' (gRank g go gi (gB ctx g) m)) m

section link
variable {c : Codec F} {ctx : Ctx F} {g : GarbleCtx F} {lead : ProtocolID → Nat} {tp : GarbleTapes F} {Cs : Finset Nat}
  {go gi : List (List (SharingTransform F))} {σ : MaskShift F} (H : PrivHyp c ctx g Cs go gi σ) {nr nz : Nat} {sec sec' : Nat → PreProc F}
  {ω ω' : Coins ctx nr nz} {fin fin' : List (List (GOut F))} (R : GarbleRun c ctx g lead tp go gi (ofCoins sec ω) fin)
  (R' : GarbleRun c ctx g lead tp go gi (ofCoins sec' ω') fin')
  (hsec : ∀ p ∈ Cs, (sec' p).masks = (sec p).masks ∧ (sec' p).keys = (sec p).keys)
  (L : Linked ctx Cs g go gi σ (gVal ctx g go gi sec fin) (gVal ctx g go gi sec' fin') ω ω')

include H in
theorem gamma_share (d : Nat → Nat → Nat → F) (m : Nat) {p : Nat} (hp : p ∈ Cs) :
    (gGamma ctx Cs g go gi σ d m).eval (ofU32 p) = 0 := by
  unfold gGamma
  split
  · split
    · split
      · exact rtShift_share H.good H.coal _ _ _ hp
      · exact eval_zero
    · exact packC_share H.good H.coal _ hp
  · exact eval_zero

include H in
theorem zeta_share (d : Nat → Nat → Nat → F) (m : Nat) {p : Nat} (hp : p ∈ Cs) :
    (gZeta ctx Cs g go gi σ d m).eval (ofU32 p) = 0 := by
  have hfit := H.good.fit
  unfold gZeta
  split
  · rename_i hq
    split
    · split
      · exact rtShiftZ_share H.good H.coal _ _ _ hp
      · exact eval_zero
    · unfold rdShiftZ
      rw [eval_sub, sharePoly_eval (by omega) _ (H.coal.parties p hp), hq _ _ p hp]
      unfold rdShift
      rw [packC_share H.good H.coal _ hp, sub_zero]
  · exact eval_zero

include H L in
/-- The coalition has the same shares of the coins. -/
theorem Linked.agree : Coins.Agree Cs ω ω' := by
  intro p hp
  rw [Coins.randoms_eq, Coins.randoms_eq, Coins.zeros_eq, Coins.zeros_eq]
  constructor
  · apply List.map_congr_left
    intro m hm
    rw [L.rand m (List.mem_range.1 hm), eval_add, gamma_share H _ _ hp, add_zero]
  · apply List.map_congr_left
    intro m hm
    rw [L.zero m (List.mem_range.1 hm), eval_add, zeta_share H _ _ hp, add_zero]

/-- Rank of group `v`. -/
def vRank (go : List (List (SharingTransform F))) (v : Nat) : Nat := if v < go.length then 0 else 1

omit [CodeField F] [DecidableEq F] in
theorem gRank_group {A v idx : Nat} (hv : v < go.length + gi.length) (hi : idx < A) :
    gRank g go gi A (v * A + idx) = vRank go v := by
  unfold vRank
  split
  · rename_i h
    exact gRank_out h hi
  · obtain ⟨u, rfl⟩ : ∃ u, v = go.length + u := ⟨v - go.length, by omega⟩
    exact gRank_inp (by omega) hi

/-- The difference of the values of rank `r`. -/
def gDiff (ctx : Ctx F) (g : GarbleCtx F) (go gi : List (List (SharingTransform F))) (sec sec' : Nat → PreProc F)
    (fin fin' : List (List (GOut F))) (r : Nat) : Nat → Nat → Nat → F :=
  gVal ctx g go gi sec fin r - gVal ctx g go gi sec' fin' r

section group
variable {v : Nat} (hv : v < go.length + gi.length) (hq : Quiet Cs (gDiff ctx g go gi sec sec' fin fin' (vRank go v)))
  (hf : GroupFits ctx Cs g go gi σ (gDiff ctx g go gi sec sec' fin fin' (vRank go v)) v)

include H R L hv hq hf in
theorem link_rand : ∀ m < (ctx.n + ctx.t) * gReps g, ω'.g (v * gA ctx g + m) = ω.g (v * gA ctx g + m) +
    rtShift ctx Cs ((go ++ gi).getD v []) (gReps g) (gDelta ctx go (gDiff ctx g go gi sec sec' fin fin' (vRank go v)) v)
      (σ (gDiff ctx g go gi sec sec' fin fin' (vRank go v)) v) m := by
  intro m hm
  have hv' : v < (go ++ gi).length := by rwa [List.length_append]
  obtain ⟨b1, b2, _⟩ := R.rt H (List.getElem?_eq_getElem hv')
  have hb : v * gA ctx g + m < nr := lt_of_lt_of_le (mulAdd_lt (Nat.lt_succ_self v) hm) b1
  rw [L.rand _ hb, gRank_group hv hm]
  congr 1
  exact gGamma_group hq hv hf hm

include H R L hv hq hf in
theorem link_zero : ∀ m < 2 * ctx.n * gReps g, ω'.z (v * gB ctx g + m) = ω.z (v * gB ctx g + m) +
    rtShiftZ ctx Cs ((go ++ gi).getD v []) (rtB ctx ((go ++ gi).getD v [])).1 (rtB ctx ((go ++ gi).getD v [])).2.1
        (rtB ctx ((go ++ gi).getD v [])).2.2 (gReps g)
        (gDelta ctx go (gDiff ctx g go gi sec sec' fin fin' (vRank go v)) v) (σ (gDiff ctx g go gi sec sec' fin fin' (vRank go v)) v) m := by
  intro m hm
  have hv' : v < (go ++ gi).length := by rwa [List.length_append]
  obtain ⟨b1, b2, _⟩ := R.rt H (List.getElem?_eq_getElem hv')
  have hb : v * gB ctx g + m < nz := lt_of_lt_of_le (mulAdd_lt (Nat.lt_succ_self v) hm) b2
  rw [L.zero _ hb, gRank_group hv hm]
  congr 1
  exact gZeta_group hq hv hf hm

include H R L hv hq hf in
/-- The masks at the old positions. -/
theorem link_old {k j : Nat} (hk : k < ((go ++ gi).getD v []).length) (hj : j < gReps g) {p : Nat} (hp : p < ctx.n) :
    (gRN ctx g go gi ω' v k j).eval (ofU32 p) = (gRN ctx g go gi ω v k j).eval (ofU32 p) +
      gDiff ctx g go gi sec sec' fin fin' (vRank go v) (gBase go v * ctx.l + k) j p := by
  obtain ⟨k1, k2⟩ := H.group_getD hv
  unfold gRN
  rw [rt_pair_old H.good H.coal (rtB_basis H.good k1 k2) k1 k2 (fun k _ j _ => gDelta_degree H.good _ _ _ _ _)
    (link_rand H R L hv hq hf) hk hj, eval_add, gDelta_eval H.good _ _ _ _ _ hp]

include H R L hv hq hf in
/-- The masks at the new positions. -/
theorem link_new {k j : Nat} (hk : k < ((go ++ gi).getD v []).length) (hj : j < gReps g) :
    gR ctx g go gi ω' v k j = gR ctx g go gi ω v k j + σ (gDiff ctx g go gi sec sec' fin fin' (vRank go v)) v k j := by
  obtain ⟨k1, k2⟩ := H.group_getD hv
  unfold gR
  exact rt_pair_new H.good H.coal (rtB_basis H.good k1 k2) k1 k2 (link_rand H R L hv hq hf) hk hj (hf k hk j hj)

/-- A job of both runs looks the same to the coalition. -/
def Alike (n : Nat) (Cs : Finset Nat) (fin fin' : List (List (GOut F))) (st st' : GStep F) : Prop :=
  st'.deps = st.deps ∧ ∀ id, ∀ p < n, ∀ q ∈ Cs,
    (st'.proto id).between n (fun r => Env.only (outsEnv fin' r) st'.deps) p q
      = (st.proto id).between n (fun r => Env.only (outsEnv fin r) st.deps) p q

include H R R' L hv hq hf in
theorem link_rt {st st' : GStep F}
    (h : (garbleSteps c ctx g lead tp ((List.range ctx.n).map (ofCoins sec ω)) go gi)[v]? = some st)
    (h' : (garbleSteps c ctx g lead tp ((List.range ctx.n).map (ofCoins sec' ω')) go gi)[v]? = some st') :
    Alike ctx.n Cs fin fin' st st' := by
  have hv' : v < (go ++ gi).length := by rwa [List.length_append]
  obtain ⟨_, _, inp, e1, e2⟩ := R.rt H (List.getElem?_eq_getElem hv')
  obtain ⟨_, _, inp', e1', e2'⟩ := R'.rt H (List.getElem?_eq_getElem hv')
  rw [h, Option.some.injEq] at e1
  rw [h', Option.some.injEq] at e1'
  subst e1 e1'
  refine ⟨rfl, fun id p hp q hqC => ?_⟩
  obtain ⟨k1, k2⟩ := H.group (List.getElem_mem hv')
  have e3 : (go ++ gi).getD v [] = (go ++ gi)[v] := by
    rw [List.getD_eq_getElem?_getD, List.getElem?_eq_getElem hv', Option.getD_some]
  have hm := fun j (hj : j < gReps g) => rt_pair_messages (A := (rtB ctx (go ++ gi)[v]).1) (AN := (rtB ctx (go ++ gi)[v]).2.1)
    (E := (rtB ctx (go ++ gi)[v]).2.2) H.good H.coal (g := fun m => ω.g (v * gA ctx g + m))
    (z := fun m => ω.z (v * gB ctx g + m)) (g' := fun m => ω'.g (v * gA ctx g + m)) (z' := fun m => ω'.z (v * gB ctx g + m))
    (by have := link_rand H R L hv hq hf; rw [e3] at this; exact this)
    (by have := link_zero H R L hv hq hf; rw [e3] at this; exact this) hqC hj
  have hqn := H.coal.parties q hqC
  refine (rt_between (num := gReps g) (g := fun m => ω'.g (v * gA ctx g + m)) (z := fun m => ω'.z (v * gB ctx g + m))
    (rtB_basis H.good k1 k2) H.good (fun p hp => e2' p hp _) hp hqn).trans ((rt_between (num := gReps g)
    (g := fun m => ω.g (v * gA ctx g + m)) (z := fun m => ω.z (v * gB ctx g + m)) (rtB_basis H.good k1 k2) H.good
    (fun p hp => e2 p hp _) hp hqn).trans ?_).symm
  congr 3
  · apply List.map_congr_left
    intro j hj
    rw [(hm j (List.mem_range.1 hj)).1]
  · apply List.map_congr_left
    intro j hj
    rw [(hm j (List.mem_range.1 hj)).2]

end group

/-! ## Transformations of the output wires -/

include hsec in
theorem quiet0 : Quiet Cs (gDiff ctx g go gi sec sec' fin fin' 0) := by
  intro i j p hp
  unfold gDiff
  simp only [Pi.sub_apply]
  unfold gVal
  split
  · simp only []
    unfold outX outInput
    rw [(hsec p hp).1, (hsec p hp).2, sub_self]
  · exact sub_self _

include H in
theorem group_index_out {i : Nat} (hi : i < g.tfOut.length) :
    i / ctx.l < go.length ∧ i % ctx.l < ((go ++ gi).getD (i / ctx.l) []).length := by
  have hv : i / ctx.l < go.length := by rw [H.go_length]; exact group_lt H.posL hi
  refine ⟨hv, ?_⟩
  have h1 := H.out
  unfold chunks? at h1
  rw [if_neg (by have := H.posL; omega), Option.some.injEq] at h1
  obtain ⟨grp, e1, e2⟩ := chunks_index H.posL g.tfOut hi
  rw [List.getD_eq_getElem?_getD, List.getElem?_append_left hv, ← h1, e1, Option.getD_some]
  exact e2

include H in
theorem group_index_inp {i : Nat} (hi : i < g.tfInp.length) :
    i / ctx.l < gi.length ∧ i % ctx.l < ((go ++ gi).getD (go.length + i / ctx.l) []).length := by
  have hv : i / ctx.l < gi.length := by rw [H.gi_length]; exact group_lt H.posL hi
  refine ⟨hv, ?_⟩
  have h1 := H.inp
  unfold chunks? at h1
  rw [if_neg (by have := H.posL; omega), Option.some.injEq] at h1
  obtain ⟨grp, e1, e2⟩ := chunks_index H.posL g.tfInp hi
  rw [List.getD_eq_getElem?_getD, List.getElem?_append_right (Nat.le_add_right _ _), Nat.add_sub_cancel_left, ← h1, e1, Option.getD_some]
  exact e2

include H R R' hsec L in
theorem link_outTr {i : Nat} (hi : i < g.tfOut.length) {st st' : GStep F}
    (h : (garbleSteps c ctx g lead tp ((List.range ctx.n).map (ofCoins sec ω)) go gi)[go.length + gi.length + i]? = some st)
    (h' : (garbleSteps c ctx g lead tp ((List.range ctx.n).map (ofCoins sec' ω')) go gi)[go.length + gi.length + i]? = some st') :
    Alike ctx.n Cs fin fin' st st' ∧
      (∀ p ∈ Cs, outsEnv fin' p (go.length + gi.length + i) = outsEnv fin p (go.length + gi.length + i)) ∧
      ∀ p < ctx.n, ∃ f f' : Nat → F,
        outsEnv fin p (go.length + gi.length + i) = some (.vec ((List.range (gReps g)).map f)) ∧
        outsEnv fin' p (go.length + gi.length + i) = some (.vec ((List.range (gReps g)).map f')) ∧
        ∀ j < gReps g, f j - f' j = (σ (gDiff ctx g go gi sec sec' fin fin' 0) (i / ctx.l) (i % ctx.l) j).eval (ofU32 p) := by
  have h1 := List.getElem?_eq_getElem hi
  have h2 := List.getElem?_eq_getElem (l := tp.out) (i := i) (by rw [R.lens.out]; exact hi)
  obtain ⟨hv, hk⟩ := group_index_out (gi := gi) H hi
  have hq : Quiet Cs (gDiff ctx g go gi sec sec' fin fin' (vRank go (i / ctx.l))) := by
    unfold vRank
    rw [if_pos hv]
    exact quiet0 hsec
  have hf : GroupFits ctx Cs g go gi σ (gDiff ctx g go gi sec sec' fin fin' (vRank go (i / ctx.l))) (i / ctx.l) := H.fitO _ hq _ hv
  have s1 := steps_outTr (c := c) (ctx := ctx) (lead := lead) (pre := (List.range ctx.n).map (ofCoins sec ω)) (go := go) (gi := gi)
    R.lens h1 h2
  have s1' := steps_outTr (c := c) (ctx := ctx) (lead := lead) (pre := (List.range ctx.n).map (ofCoins sec' ω')) (go := go) (gi := gi)
    R'.lens h1 h2
  obtain ⟨o, e1, e2⟩ := R.step s1 default
  obtain ⟨o', e1', e2'⟩ := R'.step s1' default
  rw [h, Option.some.injEq] at s1
  rw [h', Option.some.injEq] at s1'
  subst s1 s1'
  have key := trans_rel e2 e2' (fun p hp => (R.outTr H h1 h2 p hp).1) (fun p hp => (R'.outTr H h1 h2 p hp).1)
    (fun p hp => by rw [(R.outTr H h1 h2 p hp).2, (R'.outTr H h1 h2 p hp).2])
    (fun p hp => by
      refine transSend_tab (R.outTr H h1 h2 p hp).2 (R'.outTr H h1 h2 p hp).2 fun j hj => ?_
      rw [link_old H R L (by omega) hq hf hk hj hp]
      unfold vRank gBase
      rw [if_pos hv, if_pos hv, Nat.div_add_mod']
      unfold gDiff
      simp only [Pi.sub_apply]
      unfold gVal
      rw [if_pos hp, if_pos hp]
      simp only []
      ring)
  have hnew := fun {j : Nat} (hj : j < gReps g) => link_new H R L (by omega) hq hf hk hj
  obtain ⟨s, hs⟩ := key.2
  refine ⟨⟨rfl, fun id p hp q hq => key.1 p hp q⟩, fun p hp => ?_, fun p hp => ?_⟩
  · obtain ⟨_, _, f1, f2⟩ := hs p (H.coal.parties p hp)
    unfold outsEnv
    rw [e1, e1', Option.bind_some, Option.bind_some, f1, f2]
    congr 3
    apply List.map_congr_left
    intro j hj
    have hj := List.mem_range.1 hj
    rw [hnew hj, eval_add, (hf _ hk j hj).coal p hp, add_zero]
  · obtain ⟨l1, l2, f1, f2⟩ := hs p hp
    simp only [List.length_map, List.length_range] at l1 l2
    refine ⟨fun j => (s p).getD j 0 - (gR ctx g go gi ω (i / ctx.l) (i % ctx.l) j).eval (ofU32 p),
      fun j => (s p).getD j 0 - (gR ctx g go gi ω' (i / ctx.l) (i % ctx.l) j).eval (ofU32 p), ?_, ?_, fun j hj => ?_⟩
    · unfold outsEnv
      rw [e1, Option.bind_some, f1]
      congr 2
      exact vsub_tab l1
    · unfold outsEnv
      rw [e1', Option.bind_some, f2]
      congr 2
      exact vsub_tab l1
    · simp only []
      rw [hnew hj, eval_add]
      unfold vRank
      rw [if_pos hv]
      ring

/-! ## Transformations of the gate inputs -/

include H R R' hsec L in
theorem out_same {p : Nat} (hp : p ∈ Cs) : ∀ i < g.tfOut.length,
    outsEnv fin' p (go.length + gi.length + i) = outsEnv fin p (go.length + gi.length + i) := by
  intro i hi
  have h1 := List.getElem?_eq_getElem hi
  have h2 := List.getElem?_eq_getElem (l := tp.out) (i := i) (by rw [R.lens.out]; exact hi)
  exact (link_outTr H R R' hsec L hi (steps_outTr R.lens h1 h2) (steps_outTr R'.lens h1 h2)).2.1 p hp

include H R R' hsec L in
theorem quiet1 : Quiet Cs (gDiff ctx g go gi sec sec' fin fin' 1) := by
  intro i j p hp
  unfold gDiff
  simp only [Pi.sub_apply]
  unfold gVal
  split
  · simp only []
    rw [inpX_congr (out_same H R R' hsec L hp), sub_self]
  · exact sub_self _

include H R R' hsec L in
theorem fits1 {u : Nat} (hu : u < gi.length) :
    GroupFits ctx Cs g go gi σ (gDiff ctx g go gi sec sec' fin fin' 1) (go.length + u) := by
  refine H.fitI (gDiff ctx g go gi sec sec' fin fin' 0) _ fin fin' (quiet0 hsec) (quiet1 H R R' hsec L) (fun p hp i hi => ?_) (fun i j p hp => ?_) u hu
  · have h1 := List.getElem?_eq_getElem hi
    have h2 := List.getElem?_eq_getElem (l := tp.out) (i := i) (by rw [R.lens.out]; exact hi)
    exact (link_outTr H R R' hsec L hi (steps_outTr R.lens h1 h2) (steps_outTr R'.lens h1 h2)).2.2 p hp
  · unfold gDiff
    simp only [Pi.sub_apply]
    unfold gVal
    simp only [if_pos hp]

include H R R' hsec L in
theorem link_inpTr {i : Nat} (hi : i < g.tfInp.length) {st st' : GStep F}
    (h : (garbleSteps c ctx g lead tp ((List.range ctx.n).map (ofCoins sec ω)) go gi)[go.length + gi.length + g.tfOut.length + i]?
      = some st)
    (h' : (garbleSteps c ctx g lead tp ((List.range ctx.n).map (ofCoins sec' ω')) go gi)[go.length + gi.length + g.tfOut.length + i]?
      = some st') :
    Alike ctx.n Cs fin fin' st st' ∧
      ∀ p ∈ Cs, outsEnv fin' p (go.length + gi.length + g.tfOut.length + i)
        = outsEnv fin p (go.length + gi.length + g.tfOut.length + i) := by
  have h1 := List.getElem?_eq_getElem hi
  have h2 := List.getElem?_eq_getElem (l := tp.inp) (i := i) (by rw [R.lens.inp]; exact hi)
  obtain ⟨hv, hk⟩ := group_index_inp (go := go) H hi
  have hq : Quiet Cs (gDiff ctx g go gi sec sec' fin fin' (vRank go (go.length + i / ctx.l))) := by
    unfold vRank
    rw [if_neg (Nat.not_lt.2 (Nat.le_add_right _ _))]
    exact quiet1 H R R' hsec L
  have hf : GroupFits ctx Cs g go gi σ (gDiff ctx g go gi sec sec' fin fin' (vRank go (go.length + i / ctx.l))) (go.length + i / ctx.l) := by
    unfold vRank
    rw [if_neg (Nat.not_lt.2 (Nat.le_add_right _ _))]
    exact fits1 H R R' hsec L hv
  have s1 := steps_inpTr (c := c) (ctx := ctx) (lead := lead) (pre := (List.range ctx.n).map (ofCoins sec ω)) (go := go) (gi := gi)
    R.lens h1 h2
  have s1' := steps_inpTr (c := c) (ctx := ctx) (lead := lead) (pre := (List.range ctx.n).map (ofCoins sec' ω')) (go := go) (gi := gi)
    R'.lens h1 h2
  obtain ⟨o, e1, e2⟩ := R.step s1 default
  obtain ⟨o', e1', e2'⟩ := R'.step s1' default
  rw [h, Option.some.injEq] at s1
  rw [h', Option.some.injEq] at s1'
  subst s1 s1'
  have key := trans_rel e2 e2' (fun p hp => (R.inpTr H h1 h2 p hp).1) (fun p hp => (R'.inpTr H h1 h2 p hp).1)
    (fun p hp => by rw [(R.inpTr H h1 h2 p hp).2, (R'.inpTr H h1 h2 p hp).2])
    (fun p hp => by
      refine transSend_tab (R.inpTr H h1 h2 p hp).2 (R'.inpTr H h1 h2 p hp).2 fun j hj => ?_
      rw [link_old H R L (Nat.add_lt_add_left hv _) hq hf hk hj hp]
      unfold vRank gBase
      rw [if_neg (Nat.not_lt.2 (Nat.le_add_right _ _)), if_neg (Nat.not_lt.2 (Nat.le_add_right _ _)), Nat.add_sub_cancel_left,
        Nat.div_add_mod']
      unfold gDiff
      simp only [Pi.sub_apply]
      unfold gVal
      rw [if_pos hp, if_pos hp]
      simp only []
      ring)
  refine ⟨⟨rfl, fun id p hp q hq => key.1 p hp q⟩, fun p hp => ?_⟩
  obtain ⟨s, hs⟩ := key.2
  obtain ⟨_, _, f1, f2⟩ := hs p (H.coal.parties p hp)
  unfold outsEnv
  rw [e1, e1', Option.bind_some, Option.bind_some, f1, f2]
  congr 3
  apply List.map_congr_left
  intro j hj
  have hj := List.mem_range.1 hj
  rw [link_new H R L (Nat.add_lt_add_left hv _) hq hf hk hj, eval_add, (hf _ hk j hj).coal p hp, add_zero]

include H R R' hsec L in
theorem inp_same {p : Nat} (hp : p ∈ Cs) : ∀ i < g.tfInp.length,
    outsEnv fin' p (go.length + gi.length + g.tfOut.length + i) = outsEnv fin p (go.length + gi.length + g.tfOut.length + i) := by
  intro i hi
  have h1 := List.getElem?_eq_getElem hi
  have h2 := List.getElem?_eq_getElem (l := tp.inp) (i := i) (by rw [R.lens.inp]; exact hi)
  exact (link_inpTr H R R' hsec L hi (steps_inpTr R.lens h1 h2) (steps_inpTr R'.lens h1 h2)).2 p hp

/-! ## Gates -/

include H R R' hsec L in
theorem quiet2 : Quiet Cs (gDiff ctx g go gi sec sec' fin fin' 2) := by
  intro i j p hp
  unfold gDiff
  simp only [Pi.sub_apply]
  unfold gVal
  split
  · simp only []
    rw [gatePair_congr (hsec p hp).1 (hsec p hp).2 (inp_same H R R' hsec L hp), sub_self]
  · exact sub_self _

section gate
variable {gid : Nat} {kind : GateKind} (hk : (gKinds g)[gid]? = some kind)

include H L hk in
/-- The masks of a gate. -/
theorem link_gate {j r : Nat} (hj : j < kind.numMult g.lpn.keyLen) (hr : (if j < kind.lastMult g.lpn.keyLen then 3 else 2) = r)
    (hq : Quiet Cs (gDiff ctx g go gi sec sec' fin fin' r))
    (b1 : (go.length + gi.length) * gA ctx g + gPos g gid j < nr) (b2 : (go.length + gi.length) * gB ctx g + gPos g gid j < nz)
    {p : Nat} (hp : p < ctx.n) :
    (ω'.g ((go.length + gi.length) * gA ctx g + gPos g gid j)).eval (ofU32 p)
      + (ω'.z ((go.length + gi.length) * gB ctx g + gPos g gid j)).eval (ofU32 p)
    = (ω.g ((go.length + gi.length) * gA ctx g + gPos g gid j)).eval (ofU32 p)
      + (ω.z ((go.length + gi.length) * gB ctx g + gPos g gid j)).eval (ofU32 p)
      + gDiff ctx g go gi sec sec' fin fin' r gid j p := by
  have hfit := H.good.fit
  rw [L.rand _ b1, L.zero _ b2, gRank_gate hk hj, gRank_gate hk hj, hr]
  rw [show gGamma ctx Cs g go gi σ (gVal ctx g go gi sec fin r - gVal ctx g go gi sec' fin' r) _ = _ from gGamma_gate hq hk hj,
    show gZeta ctx Cs g go gi σ (gVal ctx g go gi sec fin r - gVal ctx g go gi sec' fin' r) _ = _ from gZeta_gate hq hk hj]
  rw [eval_add, eval_add]
  unfold rdShiftZ
  rw [eval_sub, sharePoly_eval (by omega) _ hp]
  ring

end gate

include H R R' hsec L in
theorem link_and {gid : Nat} (hk : (gKinds g)[gid]? = some .and) {st st' : GStep F}
    (h : (garbleSteps c ctx g lead tp ((List.range ctx.n).map (ofCoins sec ω)) go gi)[gateOff g go gi gid]? = some st)
    (h' : (garbleSteps c ctx g lead tp ((List.range ctx.n).map (ofCoins sec' ω')) go gi)[gateOff g go gi gid]? = some st') :
    Alike ctx.n Cs fin fin' st st' ∧
      ∀ p ∈ Cs, outsEnv fin' p (gateOff g go gi gid) = outsEnv fin p (gateOff g go gi gid) := by
  have h2 := List.getElem?_eq_getElem (l := tp.gates) (i := gid) (by
    rw [R.lens.gates]
    have := (List.getElem?_eq_some_iff.1 hk).1
    simpa [gKinds] using this)
  have s1 := steps_gate (c := c) (ctx := ctx) (lead := lead) (pre := (List.range ctx.n).map (ofCoins sec ω)) (go := go) (gi := gi)
    R.lens hk h2 (a := 0) (by simp [GateKind.numJobs])
  have s1' := steps_gate (c := c) (ctx := ctx) (lead := lead) (pre := (List.range ctx.n).map (ofCoins sec' ω')) (go := go) (gi := gi)
    R'.lens hk h2 (a := 0) (by simp [GateKind.numJobs])
  rw [sGate_first, Nat.add_zero] at s1 s1'
  rw [h, Option.some.injEq] at s1
  rw [h', Option.some.injEq] at s1'
  subst s1 s1'
  choose x x1 x2 x3 using R.and1 H hk h2
  choose x' x1' x2' x3' using R'.and1 H hk h2
  have hj : 3 * (g.lpn.keyLen + 1) < GateKind.and.numMult g.lpn.keyLen := Nat.lt_succ_self _
  have hr : (if 3 * (g.lpn.keyLen + 1) < GateKind.and.lastMult g.lpn.keyLen then 3 else 2) = 2 := by
    rw [if_neg (by simp [GateKind.lastMult])]
  have hz := fun p (hp : p < ctx.n) => link_gate H L hk hj hr (quiet2 H R R' hsec L) (x3 p hp).1 (x3 p hp).2 hp
  have hval : ∀ p (hp : p < ctx.n), gDiff ctx g go gi sec sec' fin fin' 2 gid (3 * (g.lpn.keyLen + 1)) p
      = (x p hp).lmask * (x p hp).rmask - (x' p hp).lmask * (x' p hp).rmask := by
    intro p hp
    unfold gDiff
    simp only [Pi.sub_apply]
    unfold gVal
    rw [if_pos hp, if_pos hp]
    simp only []
    rw [x1 p hp, x1' p hp]
    rfl
  choose o e1 e2 using fun id => R.step h id
  choose o' e1' e2' using fun id => R'.step h' id
  have key := fun id => mult_rel (A := fun p => if hp : p < ctx.n then [(x p hp).lmask] else [])
      (B := fun p => if hp : p < ctx.n then [(x p hp).rmask] else [])
      (A' := fun p => if hp : p < ctx.n then [(x' p hp).lmask] else [])
      (B' := fun p => if hp : p < ctx.n then [(x' p hp).rmask] else []) (e2 id) (e2' id)
      (fun p hp => by simp only [dif_pos hp]; exact x2 p hp) (fun p hp => by simp only [dif_pos hp]; exact x2' p hp)
      (fun p hp => by simp only [dif_pos hp]; rfl)
      (fun p hp j hj => by
        simp only [dif_pos hp, List.length_cons, List.length_nil] at hj
        obtain rfl : j = 0 := by omega
        simp only [dif_pos hp, List.getD_cons_zero]
        have := hz p hp
        rw [hval p hp] at this
        linear_combination this)
  refine ⟨⟨rfl, fun id p hp q hq => (key id).1 p hp q⟩, fun p hp => ?_⟩
  obtain ⟨_, s, hs⟩ := key default
  obtain ⟨_, _, g1, g2⟩ := hs p (H.coal.parties p hp)
  unfold outsEnv
  rw [e1 default, e1' default, Option.bind_some, Option.bind_some, g1, g2]
  rw [L.rand _ (x3 p (H.coal.parties p hp)).1, eval_add, gamma_share H _ _ hp, add_zero]

include H R R' hsec L in
theorem and_same {p : Nat} (hp : p ∈ Cs) {gid : Nat} (hk : (gKinds g)[gid]? = some .and) :
    outsEnv fin' p (gateOff g go gi gid) = outsEnv fin p (gateOff g go gi gid) := by
  have h2 := List.getElem?_eq_getElem (l := tp.gates) (i := gid) (by
    rw [R.lens.gates]
    have := (List.getElem?_eq_some_iff.1 hk).1
    simpa [gKinds] using this)
  have s1 := steps_gate (c := c) (ctx := ctx) (lead := lead) (pre := (List.range ctx.n).map (ofCoins sec ω)) (go := go) (gi := gi)
    R.lens hk h2 (a := 0) (by simp [GateKind.numJobs])
  have s1' := steps_gate (c := c) (ctx := ctx) (lead := lead) (pre := (List.range ctx.n).map (ofCoins sec' ω')) (go := go) (gi := gi)
    R'.lens hk h2 (a := 0) (by simp [GateKind.numJobs])
  rw [sGate_first, Nat.add_zero] at s1 s1'
  exact (link_and H R R' hsec L hk s1 s1').2 p hp

include H R R' hsec L in
theorem quiet3 : Quiet Cs (gDiff ctx g go gi sec sec' fin fin' 3) := by
  intro i j p hp
  unfold gDiff
  simp only [Pi.sub_apply]
  unfold gVal
  split
  · simp only []
    cases hk : (gKinds g)[i]? with
    | none => exact sub_self _
    | some kind =>
      simp only [Option.bind_some]
      rw [gateFactors_congr (hsec p hp).1 (hsec p hp).2 (inp_same H R R' hsec L hp)
        (fun e => and_same H R R' hsec L hp (by rw [hk, e])), sub_self]
  · exact sub_self _

include H R R' hsec L in
theorem link_last {gid : Nat} {kind : GateKind} (hk : (gKinds g)[gid]? = some kind) {st st' : GStep F}
    (h : (garbleSteps c ctx g lead tp ((List.range ctx.n).map (ofCoins sec ω)) go gi)[gateOff g go gi gid + (kind.numJobs - 1)]?
      = some st)
    (h' : (garbleSteps c ctx g lead tp ((List.range ctx.n).map (ofCoins sec' ω')) go gi)[gateOff g go gi gid + (kind.numJobs - 1)]?
      = some st') :
    Alike ctx.n Cs fin fin' st st' := by
  have h2 := List.getElem?_eq_getElem (l := tp.gates) (i := gid) (by
    rw [R.lens.gates]
    have := (List.getElem?_eq_some_iff.1 hk).1
    simpa [gKinds] using this)
  have hnj : kind.numJobs - 1 < kind.numJobs := by cases kind <;> simp [GateKind.numJobs]
  have s1 := steps_gate (c := c) (ctx := ctx) (lead := lead) (pre := (List.range ctx.n).map (ofCoins sec ω)) (go := go) (gi := gi)
    R.lens hk h2 hnj
  have s1' := steps_gate (c := c) (ctx := ctx) (lead := lead) (pre := (List.range ctx.n).map (ofCoins sec' ω')) (go := go) (gi := gi)
    R'.lens hk h2 hnj
  rw [sGate_last] at s1 s1'
  rw [h, Option.some.injEq] at s1
  rw [h', Option.some.injEq] at s1'
  subst s1 s1'
  choose x x1 x2 x3 x4 using R.last H hk h2
  choose x' x1' x2' x3' x4' using R'.last H hk h2
  have hlm : kind.lastMult g.lpn.keyLen ≤ kind.numMult g.lpn.keyLen := by
    cases kind <;> simp [GateKind.lastMult, GateKind.numMult]
  have hval : ∀ p (hp : p < ctx.n) j, gDiff ctx g go gi sec sec' fin fin' 3 gid j p
      = (x p hp).1.getD j 0 * (x p hp).2.getD j 0 - (x' p hp).1.getD j 0 * (x' p hp).2.getD j 0 := by
    intro p hp j
    unfold gDiff
    simp only [Pi.sub_apply]
    unfold gVal
    rw [if_pos hp, if_pos hp]
    simp only [hk, Option.bind_some]
    rw [x1 p hp, x1' p hp]
    rfl
  refine ⟨rfl, fun id => ?_⟩
  obtain ⟨o, e1, e2⟩ := R.step h id
  obtain ⟨o', e1', e2'⟩ := R'.step h' id
  have := mult_rel (A := fun p => if hp : p < ctx.n then (x p hp).1 else [])
    (B := fun p => if hp : p < ctx.n then (x p hp).2 else [])
    (A' := fun p => if hp : p < ctx.n then (x' p hp).1 else [])
    (B' := fun p => if hp : p < ctx.n then (x' p hp).2 else []) e2 e2'
    (fun p hp => by simp only [dif_pos hp]; exact x2 p hp) (fun p hp => by simp only [dif_pos hp]; exact x2' p hp)
    (fun p hp => by simp only [dif_pos hp]; rw [x3 p hp, x3' p hp])
    (fun p hp j hj => by
      simp only [dif_pos hp] at hj ⊢
      rw [x3 p hp] at hj
      rw [getD_tab _ _ _ hj, getD_tab _ _ _ hj, getD_tab _ _ _ hj, getD_tab _ _ _ hj]
      have := link_gate H L hk (lt_of_lt_of_le hj hlm) (if_pos hj) (quiet3 H R R' hsec L) (x4 p hp j hj).1 (x4 p hp j hj).2 hp
      rw [hval p hp] at this
      linear_combination this)
  exact fun p hp q _ => this.1 p hp q

/-! ## Every job -/

include H R R' hsec L in
/-- All jobs of the two runs look the same to the coalition. -/
theorem link_all {k : Nat} {st st' : GStep F}
    (h : (garbleSteps c ctx g lead tp ((List.range ctx.n).map (ofCoins sec ω)) go gi)[k]? = some st)
    (h' : (garbleSteps c ctx g lead tp ((List.range ctx.n).map (ofCoins sec' ω')) go gi)[k]? = some st') :
    Alike ctx.n Cs fin fin' st st' := by
  have hkl := (List.getElem?_eq_some_iff.1 h).1
  rcases steps_index R.lens hkl with ⟨u, grp, e, rfl⟩ | ⟨u, grp, e, rfl⟩ | ⟨i, tf, tape, e, _, rfl⟩ | ⟨i, tf, tape, e, _, rfl⟩ |
    ⟨gid, a, kind, tpg, e, et, ha, rfl⟩
  · have hu := (List.getElem?_eq_some_iff.1 e).1
    have hq : Quiet Cs (gDiff ctx g go gi sec sec' fin fin' (vRank go k)) := by
      unfold vRank
      rw [if_pos hu]
      exact quiet0 hsec
    exact link_rt H R R' L (v := k) (by omega) hq (H.fitO _ hq _ hu) h h'
  · have hu := (List.getElem?_eq_some_iff.1 e).1
    refine link_rt H R R' L (by omega) ?_ ?_ h h'
    · unfold vRank
      rw [if_neg (Nat.not_lt.2 (Nat.le_add_right _ _))]
      exact quiet1 H R R' hsec L
    · unfold vRank
      rw [if_neg (Nat.not_lt.2 (Nat.le_add_right _ _))]
      exact fits1 H R R' hsec L hu
  · exact (link_outTr H R R' hsec L (List.getElem?_eq_some_iff.1 e).1 h h').1
  · exact (link_inpTr H R R' hsec L (List.getElem?_eq_some_iff.1 e).1 h h').1
  · by_cases hl : a = kind.numJobs - 1
    · subst hl
      exact link_last H R R' hsec L e h h'
    · have : kind = .and ∧ a = 0 := by cases kind <;> simp [GateKind.numJobs] at * <;> omega
      obtain ⟨rfl, rfl⟩ := this
      exact (link_and H R R' hsec L e h h').1

end link

end Verif
