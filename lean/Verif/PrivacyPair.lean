import Verif.PrivacyRun
import Verif.PrivacyLayers

/-!
# Two runs of `garble`: the change of the coins, and what it hides
-/

open Polynomial

namespace Verif

open CodeField (ofU32)

variable {F : Type} [CodeField F] [DecidableEq F]

omit [CodeField F] [DecidableEq F] in
theorem chunks_index {α : Type} {k : Nat} (hk : 0 < k) (xs : List α) {i : Nat} (hi : i < xs.length) :
    ∃ grp, (chunks k xs)[i / k]? = some grp ∧ i % k < grp.length := by
  induction h : xs.length using Nat.strong_induction_on generalizing xs i with
  | _ n ih =>
    rw [chunks_eq k xs (by omega), if_neg (by intro e; rw [e] at hi; simp at hi)]
    by_cases hik : i < k
    · refine ⟨xs.take k, by rw [Nat.div_eq_of_lt hik]; rfl, ?_⟩
      rw [Nat.mod_eq_of_lt hik, List.length_take]
      omega
    · obtain ⟨grp, h1, h2⟩ := ih (xs.drop k).length (by rw [List.length_drop]; omega) (xs.drop k) (i := i - k)
        (by rw [List.length_drop]; omega) rfl
      refine ⟨grp, ?_, ?_⟩
      · rw [Nat.div_eq_sub_div hk (Nat.not_lt.1 hik)]
        rw [List.getElem?_cons_succ]
        exact h1
      · rwa [← Nat.mod_eq_sub_mod (by omega)] at h2

/-! ## The random transformations -/

section rt
variable {ctx : Ctx F} {Cs : Finset Nat} (h : ctx.Good) (hC : Coalition ctx Cs) {tfs : List (SharingTransform F)}
  {A AN : Nat → Nat → F[X]} {E : Nat → F[X]} (B : RtBasis ctx tfs A AN E) (hK : tfs.length ≤ ctx.l)
  (hok : ∀ tf ∈ tfs, tf.Ok ctx) {num : Nat} {δ σ : Nat → Nat → F[X]}
  (hδ : ∀ k < tfs.length, ∀ j < num, (δ k j).degree < ctx.n)
  {g g' z z' : Nat → F[X]} (hg : ∀ m < (ctx.n + ctx.t) * num, g' m = g m + rtShift ctx Cs tfs num δ σ m)
  (hz : ∀ m < 2 * ctx.n * num, z' m = z m + rtShiftZ ctx Cs tfs A AN E num δ σ m)

include h hC hg hz in
theorem rt_pair_messages {q j : Nat} (hq : q ∈ Cs) (hj : j < num) :
    rtQ ctx tfs.length num A E g' z' q j = rtQ ctx tfs.length num A E g z q j ∧
    rtQN ctx tfs.length num AN E g' z' q j = rtQN ctx tfs.length num AN E g z q j := by
  have hl : ctx.t + ctx.l ≤ ctx.n := h.le
  constructor
  · rw [rtQ_congr hg hz hl (hC.parties q hq) hj, rtQ_same δ σ g z hq hj]
  · rw [rtQN_congr hg hz (hC.parties q hq) hj, rtQN_same hC δ σ g z hq hj]

include h hC B hK hok hδ hg in
theorem rt_pair_old {k j : Nat} (hk : k < tfs.length) (hj : j < num) :
    rtRN ctx tfs.length num AN g' k j = rtRN ctx tfs.length num AN g k j + δ k j := by
  rw [rtRN_congr hg hj, rtRN_add, rtRN_shift h hC B hK hok δ σ hδ hk hj]

include h hC B hK hok hg in
theorem rt_pair_new {k j : Nat} (hk : k < tfs.length) (hj : j < num) (S : NewShift ctx Cs tfs[k] (δ k j) (σ k j)) :
    rtR ctx tfs.length num A g' k j = rtR ctx tfs.length num A g k j + σ k j := by
  have hl : ctx.t + ctx.l ≤ ctx.n := h.le
  rw [rtR_congr hg hl hj, rtR_add, rtR_shift h hC B hK hok δ σ hk hj S]

end rt

/-! ## The change of the coins -/

/-- Differences which the coalition does not see. -/
def Quiet (Cs : Finset Nat) (d : Nat → Nat → Nat → F) : Prop := ∀ i c, ∀ p ∈ Cs, d i c p = 0

omit [DecidableEq F] in
theorem Quiet.neg_iff (Cs : Finset Nat) (d : Nat → Nat → Nat → F) : Quiet Cs (-d) ↔ Quiet Cs d := by
  unfold Quiet
  simp only [Pi.neg_apply, neg_eq_zero]

/-- Number of group `v` among the groups of its kind. -/
def gBase (go : List (List (SharingTransform F))) (v : Nat) : Nat := if v < go.length then v else v - go.length

/-- The difference of the masks of group `v`. -/
noncomputable def gDelta (ctx : Ctx F) (go : List (List (SharingTransform F))) (d : Nat → Nat → Nat → F) (v k j : Nat) : F[X] :=
  sharePoly ctx.n (d (gBase go v * ctx.l + k) j)

/-- Gate and number of a coin for gates. -/
def gGate (g : GarbleCtx F) (m : Nat) : Nat × Nat := locate ((gKinds g).map (GateKind.numMult g.lpn.keyLen)) m

/-- How the masks at the new positions change: for differences of the values, a group, a transformation in it and a column. -/
abbrev MaskShift (F : Type) [CodeField F] : Type := (Nat → Nat → Nat → F) → Nat → Nat → Nat → F[X]

/-- The changes of the masks of group `v` fit together. -/
def GroupFits (ctx : Ctx F) (Cs : Finset Nat) (g : GarbleCtx F) (go gi : List (List (SharingTransform F))) (σ : MaskShift F)
    (d : Nat → Nat → Nat → F) (v : Nat) : Prop :=
  ∀ (k : Nat) (hk : k < ((go ++ gi).getD v []).length), ∀ j < gReps g,
    NewShift ctx Cs ((go ++ gi).getD v [])[k] (gDelta ctx go d v k j) (σ d v k j)

open Classical in
/-- The change of random sharing `m`. -/
noncomputable def gGamma (ctx : Ctx F) (Cs : Finset Nat) (g : GarbleCtx F) (go gi : List (List (SharingTransform F))) (σ : MaskShift F)
    (d : Nat → Nat → Nat → F) (m : Nat) : F[X] :=
  if Quiet Cs d then
    if m < (go.length + gi.length) * gA ctx g then
      if GroupFits ctx Cs g go gi σ d (m / gA ctx g) then
        rtShift ctx Cs ((go ++ gi).getD (m / gA ctx g) []) (gReps g) (gDelta ctx go d (m / gA ctx g)) (σ d (m / gA ctx g)) (m % gA ctx g)
      else 0
    else rdShift ctx Cs (d (gGate g (m - (go.length + gi.length) * gA ctx g)).1
      (gGate g (m - (go.length + gi.length) * gA ctx g)).2)
  else 0

open Classical in
/-- The change of sharing of zero `m`. -/
noncomputable def gZeta (ctx : Ctx F) (Cs : Finset Nat) (g : GarbleCtx F) (go gi : List (List (SharingTransform F))) (σ : MaskShift F)
    (d : Nat → Nat → Nat → F) (m : Nat) : F[X] :=
  if Quiet Cs d then
    if m < (go.length + gi.length) * gB ctx g then
      if GroupFits ctx Cs g go gi σ d (m / gB ctx g) then
        rtShiftZ ctx Cs ((go ++ gi).getD (m / gB ctx g) []) (rtB ctx ((go ++ gi).getD (m / gB ctx g) [])).1
          (rtB ctx ((go ++ gi).getD (m / gB ctx g) [])).2.1 (rtB ctx ((go ++ gi).getD (m / gB ctx g) [])).2.2
          (gReps g) (gDelta ctx go d (m / gB ctx g)) (σ d (m / gB ctx g)) (m % gB ctx g)
      else 0
    else rdShiftZ ctx Cs (d (gGate g (m - (go.length + gi.length) * gB ctx g)).1
      (gGate g (m - (go.length + gi.length) * gB ctx g)).2)
  else 0

/-- Rank of coin `m`, if a group of transformations takes `A` coins. -/
def gRank (g : GarbleCtx F) (go gi : List (List (SharingTransform F))) (A m : Nat) : Nat :=
  if m < go.length * A then 0
  else if m < (go.length + gi.length) * A then 1
  else if (gKinds g)[(gGate g (m - (go.length + gi.length) * A)).1]? = some .and ∧
    (gGate g (m - (go.length + gi.length) * A)).2 = 3 * (g.lpn.keyLen + 1) then 2 else 3

theorem gDelta_degree {ctx : Ctx F} (h : ctx.Good) (go : List (List (SharingTransform F))) (d : Nat → Nat → Nat → F) (v k j : Nat) :
    (gDelta ctx go d v k j).degree < ctx.n := by
  have := h.fit
  exact sharePoly_degree (by omega) _

theorem gDelta_eval {ctx : Ctx F} (h : ctx.Good) (go : List (List (SharingTransform F))) (d : Nat → Nat → Nat → F) (v k j : Nat)
    {p : Nat} (hp : p < ctx.n) : (gDelta ctx go d v k j).eval (ofU32 p) = d (gBase go v * ctx.l + k) j p := by
  have := h.fit
  exact sharePoly_eval (by omega) _ hp

omit [DecidableEq F] in
theorem gDelta_neg (ctx : Ctx F) (go : List (List (SharingTransform F))) (d : Nat → Nat → Nat → F) (v : Nat) :
    gDelta ctx go (-d) v = fun k j => -gDelta ctx go d v k j := by
  funext k j
  exact sharePoly_neg _ _

/-- What the statements about two runs assume: the changes of the masks of the transformations of the output wires fit together,
and so do those of the gate inputs, if their values change as those changes say. -/
structure PrivHyp (c : Codec F) (ctx : Ctx F) (g : GarbleCtx F) (Cs : Finset Nat) (go gi : List (List (SharingTransform F)))
    (σ : MaskShift F) : Prop extends RunHyp c ctx g go gi where
  coal : Coalition ctx Cs
  neg : ∀ d v k j, σ (-d) v k j = -σ d v k j
  fitO : ∀ d, Quiet Cs d → ∀ v < go.length, GroupFits ctx Cs g go gi σ d v
  fitI : ∀ (d d' : Nat → Nat → Nat → F) (fin fin' : List (List (GOut F))), Quiet Cs d → Quiet Cs d' →
    (∀ p < ctx.n, ∀ i < g.tfOut.length, ∃ f f' : Nat → F,
      outsEnv fin p (go.length + gi.length + i) = some (.vec ((List.range (gReps g)).map f)) ∧
      outsEnv fin' p (go.length + gi.length + i) = some (.vec ((List.range (gReps g)).map f')) ∧
      ∀ j < gReps g, f j - f' j = (σ d (i / ctx.l) (i % ctx.l) j).eval (ofU32 p)) →
    (∀ i j p, p < ctx.n → d' i j p = (inpX ctx g go gi fin p i).getD j 0 - (inpX ctx g go gi fin' p i).getD j 0) →
    ∀ u < gi.length, GroupFits ctx Cs g go gi σ d' (go.length + u)

instance (c : Codec F) (ctx : Ctx F) (g : GarbleCtx F) (Cs : Finset Nat) (go gi : List (List (SharingTransform F))) (σ : MaskShift F) :
    CoeOut (PrivHyp c ctx g Cs go gi σ) (RunHyp c ctx g go gi) := ⟨PrivHyp.toRunHyp⟩

theorem GroupFits.neg_iff {ctx : Ctx F} {g : GarbleCtx F} {Cs : Finset Nat} {go gi : List (List (SharingTransform F))} {σ : MaskShift F}
    (hn : ∀ d v k j, σ (-d) v k j = -σ d v k j) (d : Nat → Nat → Nat → F) (v : Nat) :
    GroupFits ctx Cs g go gi σ (-d) v ↔ GroupFits ctx Cs g go gi σ d v := by
  have key : ∀ d, GroupFits ctx Cs g go gi σ d v → GroupFits ctx Cs g go gi σ (-d) v := by
    intro d h k hk j hj
    rw [gDelta_neg, hn]
    exact (h k hk j hj).neg
  exact ⟨fun h => by have := key _ h; rwa [neg_neg] at this, key d⟩

section layers
variable {c : Codec F} {ctx : Ctx F} {g : GarbleCtx F} {Cs : Finset Nat} {go gi : List (List (SharingTransform F))} {σ : MaskShift F}
  (H : PrivHyp c ctx g Cs go gi σ)

include H in
theorem PrivHyp.group_getD {v : Nat} (hv : v < go.length + gi.length) :
    ((go ++ gi).getD v []).length ≤ ctx.l ∧ (∀ tf ∈ (go ++ gi).getD v [], tf.Ok ctx) := by
  have hv' : v < (go ++ gi).length := by rwa [List.length_append]
  rw [List.getD_eq_getElem?_getD, List.getElem?_eq_getElem hv', Option.getD_some]
  exact H.group (List.getElem_mem hv')

include H in
theorem PrivHyp.posA : 0 < gA ctx g := Nat.mul_pos (by have := H.good.posN; omega) (by unfold gReps; omega)

include H in
theorem PrivHyp.posB : 0 < gB ctx g := Nat.mul_pos (by have := H.good.posN; omega) (by unfold gReps; omega)

/-- The layers of the coins of `garble`. -/
noncomputable def gLayers (nr nz : Nat) : Layers ctx nr nz (Nat → Nat → Nat → F) where
  rkR := gRank g go gi (gA ctx g)
  rkZ := gRank g go gi (gB ctx g)
  γ := fun _ => gGamma ctx Cs g go gi σ
  ζ := fun _ => gZeta ctx Cs g go gi σ
  num := 4
  ltR := fun m _ => by unfold gRank; split_ifs <;> omega
  ltZ := fun m _ => by unfold gRank; split_ifs <;> omega
  degγ := fun _ d m _ => by
    unfold gGamma
    split
    · split
      · split
        · exact rtShift_degree H.good H.coal _ _ _
        · rw [degree_zero]; exact WithBot.bot_lt_coe _
      · exact packC_degree H.good H.coal _
    · rw [degree_zero]; exact WithBot.bot_lt_coe _
  zeroζ := fun _ d m _ => by
    unfold gZeta
    split
    · rename_i hq
      split
      · rename_i hm
        split
        · rename_i hf
          have hv : m / gB ctx g < go.length + gi.length := (Nat.div_lt_iff_lt_mul H.posB).2 hm
          obtain ⟨k1, k2⟩ := H.group_getD hv
          exact rtShiftZ_zero H.good H.coal (rtB_basis H.good k1 k2) k1 k2 _ _ H.parties (by unfold gReps; omega)
            (fun k _ j _ => gDelta_degree H.good _ _ _ _ _)
            (fun k _ j _ p hp => (gDelta_eval H.good _ _ _ _ _ (H.coal.parties p hp)).trans (hq _ _ p hp)) hf _
        · exact ⟨by rw [degree_zero]; exact WithBot.bot_lt_coe _, fun _ _ => eval_zero⟩
      · exact rdShiftZ_zero H.good H.coal _
    · exact ⟨by rw [degree_zero]; exact WithBot.bot_lt_coe _, fun _ _ => eval_zero⟩
  negγ := fun _ d m => by
    unfold gGamma
    rw [Quiet.neg_iff, GroupFits.neg_iff H.neg, show σ (-d) (m / gA ctx g) = fun k j => -σ d (m / gA ctx g) k j from
      funext fun k => funext fun j => H.neg _ _ _ _]
    split
    · split
      · split
        · rw [gDelta_neg, rtShift_neg]
        · rw [neg_zero]
      · exact rdShift_neg _ _ _
    · rw [neg_zero]
  negζ := fun _ d m => by
    unfold gZeta
    rw [Quiet.neg_iff, GroupFits.neg_iff H.neg, show σ (-d) (m / gB ctx g) = fun k j => -σ d (m / gB ctx g) k j from
      funext fun k => funext fun j => H.neg _ _ _ _]
    split
    · split
      · split
        · rw [gDelta_neg, rtShiftZ_neg]
        · rw [neg_zero]
      · exact rdShiftZ_neg _ _ _
    · rw [neg_zero]

omit [CodeField F] [DecidableEq F] in
theorem mulAdd_div {A v idx : Nat} (hi : idx < A) : (v * A + idx) / A = v ∧ (v * A + idx) % A = idx := by
  constructor
  · rw [Nat.add_comm, Nat.add_mul_div_right _ _ (by omega), Nat.div_eq_of_lt hi, Nat.zero_add]
  · rw [Nat.add_comm, Nat.add_mul_mod_self_right, Nat.mod_eq_of_lt hi]

omit [CodeField F] [DecidableEq F] in
theorem mulAdd_lt {A v w idx : Nat} (hv : v < w) (hi : idx < A) : v * A + idx < w * A := by
  calc v * A + idx < v * A + A := by omega
    _ = (v + 1) * A := by ring
    _ ≤ _ := Nat.mul_le_mul_right _ hv

theorem gGamma_group {d : Nat → Nat → Nat → F} (hq : Quiet Cs d) {v idx : Nat} (hv : v < go.length + gi.length)
    (hf : GroupFits ctx Cs g go gi σ d v) (hi : idx < gA ctx g) : gGamma ctx Cs g go gi σ d (v * gA ctx g + idx)
      = rtShift ctx Cs ((go ++ gi).getD v []) (gReps g) (gDelta ctx go d v) (σ d v) idx := by
  unfold gGamma
  rw [if_pos hq, if_pos (mulAdd_lt hv hi), (mulAdd_div hi).1, (mulAdd_div hi).2, if_pos hf]

theorem gZeta_group {d : Nat → Nat → Nat → F} (hq : Quiet Cs d) {v idx : Nat} (hv : v < go.length + gi.length)
    (hf : GroupFits ctx Cs g go gi σ d v) (hi : idx < gB ctx g) : gZeta ctx Cs g go gi σ d (v * gB ctx g + idx)
      = rtShiftZ ctx Cs ((go ++ gi).getD v []) (rtB ctx ((go ++ gi).getD v [])).1 (rtB ctx ((go ++ gi).getD v [])).2.1
        (rtB ctx ((go ++ gi).getD v [])).2.2 (gReps g) (gDelta ctx go d v) (σ d v) idx := by
  unfold gZeta
  rw [if_pos hq, if_pos (mulAdd_lt hv hi), (mulAdd_div hi).1, (mulAdd_div hi).2, if_pos hf]

omit [CodeField F] [DecidableEq F] in
theorem gGate_pos {gid j : Nat} {kind : GateKind} (hk : (gKinds g)[gid]? = some kind) (hj : j < kind.numMult g.lpn.keyLen) :
    gGate g (gPos g gid j) = (gid, j) := by
  unfold gGate gPos
  exact locate_get (by rw [List.getElem?_map, hk]; rfl) hj

theorem gGamma_gate {d : Nat → Nat → Nat → F} (hq : Quiet Cs d) {gid j : Nat} {kind : GateKind} (hk : (gKinds g)[gid]? = some kind)
    (hj : j < kind.numMult g.lpn.keyLen) :
    gGamma ctx Cs g go gi σ d ((go.length + gi.length) * gA ctx g + gPos g gid j) = rdShift ctx Cs (d gid j) := by
  unfold gGamma
  rw [if_pos hq, if_neg (by omega), Nat.add_sub_cancel_left, gGate_pos hk hj]

theorem gZeta_gate {d : Nat → Nat → Nat → F} (hq : Quiet Cs d) {gid j : Nat} {kind : GateKind} (hk : (gKinds g)[gid]? = some kind)
    (hj : j < kind.numMult g.lpn.keyLen) :
    gZeta ctx Cs g go gi σ d ((go.length + gi.length) * gB ctx g + gPos g gid j) = rdShiftZ ctx Cs (d gid j) := by
  unfold gZeta
  rw [if_pos hq, if_neg (by omega), Nat.add_sub_cancel_left, gGate_pos hk hj]

omit [CodeField F] [DecidableEq F] in
theorem gRank_out {A v idx : Nat} (hv : v < go.length) (hi : idx < A) : gRank g go gi A (v * A + idx) = 0 := by
  unfold gRank
  rw [if_pos (mulAdd_lt hv hi)]

omit [CodeField F] [DecidableEq F] in
theorem gRank_inp {A u idx : Nat} (hu : u < gi.length) (hi : idx < A) : gRank g go gi A ((go.length + u) * A + idx) = 1 := by
  unfold gRank
  have : go.length * A ≤ (go.length + u) * A := Nat.mul_le_mul_right _ (by omega)
  rw [if_neg (by omega), if_pos (mulAdd_lt (by omega) hi)]

omit [CodeField F] [DecidableEq F] in
theorem gRank_gate {A gid j : Nat} {kind : GateKind} (hk : (gKinds g)[gid]? = some kind) (hj : j < kind.numMult g.lpn.keyLen) :
    gRank g go gi A ((go.length + gi.length) * A + gPos g gid j) = if j < kind.lastMult g.lpn.keyLen then 3 else 2 := by
  unfold gRank
  have : go.length * A ≤ (go.length + gi.length) * A := Nat.mul_le_mul_right _ (by omega)
  rw [if_neg (by omega), if_neg (by omega), Nat.add_sub_cancel_left, gGate_pos hk hj, hk]
  have hl : GateKind.lastMult g.lpn.keyLen kind = if kind = .and then 3 * (g.lpn.keyLen + 1) else g.lpn.keyLen + 1 := by
    cases kind <;> rfl
  have hm : GateKind.numMult g.lpn.keyLen kind = if kind = .and then 3 * (g.lpn.keyLen + 1) + 1 else g.lpn.keyLen + 1 := by
    cases kind <;> rfl
  rw [hm] at hj
  generalize GateKind.lastMult g.lpn.keyLen kind = x at *
  subst hl
  by_cases hkd : kind = .and
  · subst hkd
    rw [if_pos rfl] at hj
    simp only [true_and, if_true]
    split_ifs <;> omega
  · rw [if_neg hkd] at hj
    simp only [Option.some.injEq, hkd, false_and, if_false]
    rw [if_pos hj]

end layers

end Verif
