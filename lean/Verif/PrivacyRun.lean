import Verif.PrivacyGarbleSpec
import Verif.PrivacySteps

/-!
# One run of `garble`: what the jobs get, in terms of the coins
-/

open Polynomial

namespace Verif

open CodeField (ofU32)

variable {F : Type} [CodeField F] [DecidableEq F]

/-- What the statements about a run assume. -/
structure RunHyp (c : Codec F) (ctx : Ctx F) (g : GarbleCtx F) (go gi : List (List (SharingTransform F))) : Prop where
  good : ctx.Good
  parties : ctx.t + 2 * ctx.l ≤ ctx.n
  codec : c.Ok
  size : 2 * ((ctx.n + ctx.t) * (2 * g.lpn.keyLen + 1)) < 2 ^ 64
  out : chunks? ctx.l g.tfOut = some go
  inp : chunks? ctx.l g.tfInp = some gi
  okO : ∀ tf ∈ g.tfOut, tf.Ok ctx
  okI : ∀ tf ∈ g.tfInp, tf.Ok ctx

/-- Columns of the transformations. -/
abbrev gReps (g : GarbleCtx F) : Nat := 2 * g.lpn.keyLen + 1
/-- Random sharings for a group of transformations. -/
abbrev gA (ctx : Ctx F) (g : GarbleCtx F) : Nat := (ctx.n + ctx.t) * gReps g
/-- Sharings of zero for a group of transformations. -/
abbrev gB (ctx : Ctx F) (g : GarbleCtx F) : Nat := 2 * ctx.n * gReps g

/-- Polynomials for `randtrans`. -/
noncomputable def rtB (ctx : Ctx F) (tfs : List (SharingTransform F)) : (Nat → Nat → F[X]) × (Nat → Nat → F[X]) × (Nat → F[X]) :=
  open Classical in
  if h : ∃ b : (Nat → Nat → F[X]) × (Nat → Nat → F[X]) × (Nat → F[X]), RtBasis ctx tfs b.1 b.2.1 b.2.2 then h.choose
  else (fun _ _ => 0, fun _ _ => 0, fun _ => 0)

theorem rtB_basis {ctx : Ctx F} (h : ctx.Good) {tfs : List (SharingTransform F)} (hK : tfs.length ≤ ctx.l)
    (hok : ∀ tf ∈ tfs, tf.Ok ctx) : RtBasis ctx tfs (rtB ctx tfs).1 (rtB ctx tfs).2.1 (rtB ctx tfs).2.2 := by
  have : ∃ b : (Nat → Nat → F[X]) × (Nat → Nat → F[X]) × (Nat → F[X]), RtBasis ctx tfs b.1 b.2.1 b.2.2 := by
    obtain ⟨A, AN, E, B⟩ := rtBasis_exists h tfs hK hok
    exact ⟨(A, AN, E), B⟩
  unfold rtB
  rw [dif_pos this]
  exact this.choose_spec

section hyp
variable {c : Codec F} {ctx : Ctx F} {g : GarbleCtx F} {go gi : List (List (SharingTransform F))}
  (H : RunHyp c ctx g go gi)
include H

theorem RunHyp.posL : 0 < ctx.l := H.good.posL

theorem RunHyp.go_length : go.length = numGroups ctx.l g.tfOut.length := by
  have := H.out
  have hl := H.posL
  unfold chunks? at this
  rw [if_neg (by omega), Option.some.injEq] at this
  rw [← this, chunks_length _ _ (by omega)]

theorem RunHyp.gi_length : gi.length = numGroups ctx.l g.tfInp.length := by
  have := H.inp
  have hl := H.posL
  unfold chunks? at this
  rw [if_neg (by omega), Option.some.injEq] at this
  rw [← this, chunks_length _ _ (by omega)]

theorem RunHyp.group {grp : List (SharingTransform F)} (hg : grp ∈ go ++ gi) :
    grp.length ≤ ctx.l ∧ ∀ tf ∈ grp, tf.Ok ctx := by
  have hl := H.posL
  have h1 := H.out
  have h2 := H.inp
  unfold chunks? at h1 h2
  rw [if_neg (by omega), Option.some.injEq] at h1 h2
  have key : ∀ tfs : List (SharingTransform F), (∀ tf ∈ tfs, tf.Ok ctx) → grp ∈ chunks ctx.l tfs →
      grp.length ≤ ctx.l ∧ ∀ tf ∈ grp, tf.Ok ctx := by
    intro tfs hok hm
    have hmem : ∀ tf ∈ grp, tf ∈ tfs := fun tf htf => by
      rw [← chunks_flatten ctx.l tfs (by omega)]
      exact List.mem_flatten.2 ⟨grp, hm, htf⟩
    exact ⟨((chunks_sizes ctx.l tfs (by omega)).1 grp hm).2, fun tf htf => hok tf (hmem tf htf)⟩
  rcases List.mem_append.1 hg with hg | hg
  · exact key _ H.okO (h1 ▸ hg)
  · exact key _ H.okI (h2 ▸ hg)

end hyp

/-- In a run which succeeds the arguments are there. -/
theorem rt_inp {O : Type} {c : Codec F} {ctx : Ctx F} {tfs : List (SharingTransform F)} {inp : Nat → Env O → Option (List F × List F)}
    {ret : List (List F) × List (List F) → O} {n : Nat} {envs : Nat → Env O} {o : List O}
    (h : (rtProto c ctx tfs inp ret).round n envs = some o) : ∀ p < n, ∃ x, inp p (envs p) = some x := by
  obtain ⟨snd, msg, ans, hp⟩ := Proto.round_parts h
  intro p hpn
  have := hp.sends p hpn
  obtain ⟨x, e, _⟩ := Option.bind_eq_some_iff.1 this
  exact ⟨x, e⟩

/-! ## Congruence of what is read from the results -/

omit [CodeField F] [DecidableEq F] in
theorem vecResults_congr {env env' : Env (GOut F)} {off num : Nat} (h : ∀ i < num, env' (off + i) = env (off + i)) :
    vecResults env' off num = vecResults env off num := by
  unfold vecResults
  exact mapM_congr_mem fun i hi => by rw [h i (List.mem_range.1 hi)]

omit [CodeField F] [DecidableEq F] in
theorem rtResults_congr {env env' : Env (GOut F)} {off num : Nat} (h : ∀ i < num, env' (off + i) = env (off + i)) :
    rtResults env' off num = rtResults env off num := by
  unfold rtResults
  exact mapM_congr_mem fun i hi => by rw [h i (List.mem_range.1 hi)]

omit [CodeField F] [DecidableEq F] in
theorem transformed_congr {tfs : List (SharingTransform F)} {reps off : Nat} {env env' : Env (GOut F)}
    (h : ∀ i < tfs.length, env' (off + i) = env (off + i)) : transformed tfs reps off env' = transformed tfs reps off env := by
  unfold transformed
  rw [vecResults_congr h]

/-! ## Values which determine the changes of the coins -/

section values
variable (ctx : Ctx F) (g : GarbleCtx F) (go gi : List (List (SharingTransform F)))

/-- The input of transformation `i` of the output wires. -/
def outX (pr : PreProc F) (i : Nat) : List F := ((outInput g.circ.blocks.length g.lpn.keyLen pr).bind (·[i]?)).getD []

/-- The input of transformation `i` of the gate inputs. -/
def inpX (fin : List (List (GOut F))) (p i : Nat) : List F :=
  (((transformed g.tfOut (gReps g) (go.length + gi.length) (outsEnv fin p)).bind (selectAll ctx.n ctx.l p (gReps g) g)).bind
    (·[i]?)).getD []

/-- What gate `gid` reads: mask and keys of the output, and the rows of its inputs. -/
def gateCore (pr : PreProc F) (fin : List (List (GOut F))) (p gid : Nat) (kind : GateKind) :
    Option (F × (List F × List F) × List (List F)) :=
  (transformed g.tfInp (gReps g) (go.length + gi.length + g.tfOut.length) (outsEnv fin p)).bind fun rows =>
  (pr.masks[g.circ.inputs.length + gid]?).bind fun om => (outKeys pr.keys om (g.circ.inputs.length + gid)).map fun ok =>
    (om, ok, (rows.drop (preSum ((gKinds g).map GateKind.arity) gid)).take kind.arity)

/-- The inputs of a gate with two inputs. -/
def gatePair (pr : PreProc F) (fin : List (List (GOut F))) (p gid : Nat) (kind : GateKind) : Option (PairIn F) :=
  (gateCore g go gi pr fin p gid kind).bind fun x => pairIn g.lpn.keyLen x.2.2 x.1 x.2.1

/-- The factors of the last multiplication of a gate. -/
def gateFactors (pr : PreProc F) (fin : List (List (GOut F))) (p gid : Nat) : GateKind → Option (List F × List F)
  | .and => (gatePair g go gi pr fin p gid .and).bind fun x =>
      ((outsEnv fin p (gateOff g go gi gid)).bind GOut.vec?).bind fun prod => (prod[0]?).bind fun v =>
      (andMultiplicand g.lpn.keyLen x).map fun m => (andSelector g.lpn.keyLen x v, m)
  | .xor => (gatePair g go gi pr fin p gid .xor).map fun x =>
      (List.replicate (g.lpn.keyLen + 1) (x.lmask + x.rmask + x.omask), vsub x.k1 x.k0)
  | .inv => ((gateCore g go gi pr fin p gid .inv).bind fun x => oneIn g.lpn.keyLen x.2.2 x.1 x.2.1).map fun x =>
      (List.replicate (g.lpn.keyLen + 1) (x.mask + x.omask), vsub x.k1 x.k0)

end values

/-! ## The run -/

section run
variable {c : Codec F} {ctx : Ctx F} {g : GarbleCtx F} {lead : ProtocolID → Nat} {tp : GarbleTapes F} {Cs : Finset Nat}
  {go gi : List (List (SharingTransform F))} (H : RunHyp c ctx g go gi) {nr nz : Nat} {sec : Nat → PreProc F}
  {ω : Coins ctx nr nz} {fin : List (List (GOut F))} (R : GarbleRun c ctx g lead tp go gi (ofCoins sec ω) fin)
include H R

omit R in
theorem material_slices {p : Nat} {m : List (List F × List F) × List (List F × List F) × List F × List F}
    (h : garbleMaterial ctx g (ofCoins sec ω p) = some m) :
    (∀ u < go.length, m.1[u]? = some ((List.range (gA ctx g)).map (fun k => (ω.g (u * gA ctx g + k)).eval (ofU32 p)),
      (List.range (gB ctx g)).map fun k => (ω.z (u * gB ctx g + k)).eval (ofU32 p))) ∧
    (∀ u < gi.length, m.2.1[u]? = some ((List.range (gA ctx g)).map (fun k => (ω.g ((go.length + u) * gA ctx g + k)).eval (ofU32 p)),
      (List.range (gB ctx g)).map fun k => (ω.z ((go.length + u) * gB ctx g + k)).eval (ofU32 p))) ∧
    m.2.2.1 = (ω.randoms p).drop ((go.length + gi.length) * gA ctx g) ∧
    m.2.2.2 = (ω.zeros p).drop ((go.length + gi.length) * gB ctx g) ∧
    (go.length + gi.length) * gA ctx g ≤ nr ∧ (go.length + gi.length) * gB ctx g ≤ nz := by
  obtain ⟨so, si, r, z⟩ := m
  obtain ⟨h1, h2, h3, h4, h5, h6⟩ := garbleMaterial_get h
  rw [← H.go_length] at h1 h2 h3 h4 h5 h6
  rw [← H.gi_length] at h2 h3 h4 h5 h6
  simp only [ofCoins] at h1 h2 h3 h4 h5 h6
  rw [Coins.randoms_eq, List.length_map, List.length_range] at h5
  rw [Coins.zeros_eq, List.length_map, List.length_range] at h6
  have b : ∀ v < go.length + gi.length, ∀ x, v * x + x ≤ (go.length + gi.length) * x := fun v hv x => by
    calc _ = (v + 1) * x := by ring
      _ ≤ _ := Nat.mul_le_mul_right _ hv
  refine ⟨fun u hu => ?_, fun u hu => ?_, h3, h4, h5, h6⟩
  · rw [h1 u hu, Coins.randoms_eq, Coins.zeros_eq, tab_slice _ (le_trans (b u (by omega) _) h5),
      tab_slice _ (le_trans (b u (by omega) _) h6)]
  · rw [h2 u hu, Coins.randoms_eq, Coins.zeros_eq, tab_slice _ (le_trans (b (go.length + u) (by omega) _) h5),
      tab_slice _ (le_trans (b (go.length + u) (by omega) _) h6)]

/-- Job `v` is the random transformation of group `v`, and uses slice `v` of the coins. -/
theorem GarbleRun.rt {v : Nat} {grp : List (SharingTransform F)} (hv : (go ++ gi)[v]? = some grp) :
    (v + 1) * gA ctx g ≤ nr ∧ (v + 1) * gB ctx g ≤ nz ∧
    ∃ inp : Nat → Env (GOut F) → Option (List F × List F),
      (garbleSteps c ctx g lead tp ((List.range ctx.n).map (ofCoins sec ω)) go gi)[v]?
        = some ⟨[], fun _ => rtProto c ctx grp inp fun o => .rt o.1 o.2⟩ ∧
      ∀ p < ctx.n, ∀ env, inp p env = some ((List.range (gA ctx g)).map (fun k => (ω.g (v * gA ctx g + k)).eval (ofU32 p)),
        (List.range (gB ctx g)).map fun k => (ω.z (v * gB ctx g + k)).eval (ofU32 p)) := by
  have hn := H.good.posN
  have hvl : v < go.length + gi.length := by
    have := (List.getElem?_eq_some_iff.1 hv).1
    rwa [List.length_append] at this
  by_cases hu : v < go.length
  · rw [List.getElem?_append_left hu] at hv
    have hst := steps_outRt (c := c) (ctx := ctx) (g := g) (lead := lead) (tp := tp)
      (pre := (List.range ctx.n).map (ofCoins sec ω)) (gi := gi) hv
    obtain ⟨o, _, ho⟩ := R.step hst default
    have hin : ∀ p < ctx.n, ∃ m, garbleMaterial ctx g (ofCoins sec ω p) = some m := by
      intro p hp
      obtain ⟨x, hx⟩ := rt_inp ho p hp
      rw [tab_get _ hp, Option.bind_some] at hx
      obtain ⟨m, hm, _⟩ := Option.bind_eq_some_iff.1 hx
      exact ⟨m, hm⟩
    obtain ⟨m, hm⟩ := hin 0 (by omega)
    obtain ⟨_, _, _, _, b1, b2⟩ := material_slices H hm
    refine ⟨le_trans (Nat.mul_le_mul_right _ hvl) b1, le_trans (Nat.mul_le_mul_right _ hvl) b2, _, hst, fun p hp env => ?_⟩
    obtain ⟨m, hm⟩ := hin p hp
    rw [tab_get _ hp, Option.bind_some, hm, Option.bind_some]
    exact (material_slices H hm).1 v hu
  · obtain ⟨u, rfl⟩ : ∃ u, v = go.length + u := ⟨v - go.length, by omega⟩
    rw [List.getElem?_append_right (by omega), Nat.add_sub_cancel_left] at hv
    have hst := steps_inpRt (c := c) (ctx := ctx) (g := g) (lead := lead) (tp := tp)
      (pre := (List.range ctx.n).map (ofCoins sec ω)) (go := go) hv
    obtain ⟨o, _, ho⟩ := R.step hst default
    have hin : ∀ p < ctx.n, ∃ m, garbleMaterial ctx g (ofCoins sec ω p) = some m := by
      intro p hp
      obtain ⟨x, hx⟩ := rt_inp ho p hp
      rw [tab_get _ hp, Option.bind_some] at hx
      obtain ⟨m, hm, _⟩ := Option.bind_eq_some_iff.1 hx
      exact ⟨m, hm⟩
    obtain ⟨m, hm⟩ := hin 0 (by omega)
    obtain ⟨_, _, _, _, b1, b2⟩ := material_slices H hm
    refine ⟨le_trans (Nat.mul_le_mul_right _ hvl) b1, le_trans (Nat.mul_le_mul_right _ hvl) b2, _, hst, fun p hp env => ?_⟩
    obtain ⟨m, hm⟩ := hin p hp
    rw [tab_get _ hp, Option.bind_some, hm, Option.bind_some]
    exact (material_slices H hm).2.1 u (by omega)

omit H R in
/-- The masks at the new positions from group `v`. -/
noncomputable def gR (ctx : Ctx F) (g : GarbleCtx F) (go gi : List (List (SharingTransform F))) {nr nz : Nat} (ω : Coins ctx nr nz)
    (v k j : Nat) : F[X] :=
  rtR ctx ((go ++ gi).getD v []).length (gReps g) (rtB ctx ((go ++ gi).getD v [])).1 (fun m => ω.g (v * gA ctx g + m)) k j

omit H R in
/-- The masks at the old positions from group `v`. -/
noncomputable def gRN (ctx : Ctx F) (g : GarbleCtx F) (go gi : List (List (SharingTransform F))) {nr nz : Nat} (ω : Coins ctx nr nz)
    (v k j : Nat) : F[X] :=
  rtRN ctx ((go ++ gi).getD v []).length (gReps g) (rtB ctx ((go ++ gi).getD v [])).2.1 (fun m => ω.g (v * gA ctx g + m)) k j

/-- The results of the random transformations. -/
theorem GarbleRun.rt_fin {v : Nat} (hv : v < go.length + gi.length) :
    fin[v]? = some ((List.range ctx.n).map fun p => .rt
      ((List.range ctx.l).map fun k => (List.range (gReps g)).map fun j => (gR ctx g go gi ω v k j).eval (ofU32 p))
      ((List.range ctx.l).map fun k => (List.range (gReps g)).map fun j => (gRN ctx g go gi ω v k j).eval (ofU32 p))) := by
  have hv' : v < (go ++ gi).length := by rwa [List.length_append]
  have hgrp := List.getElem?_eq_getElem hv'
  obtain ⟨b1, b2, inp, hst, hin⟩ := R.rt H hgrp
  obtain ⟨o, e1, e2⟩ := R.step hst default
  obtain ⟨k1, k2⟩ := H.group (List.getElem_mem hv')
  have hb1 : ∀ k < gA ctx g, v * gA ctx g + k < nr := fun k hk => by
    have : (v + 1) * gA ctx g = v * gA ctx g + gA ctx g := by ring
    omega
  have hb2 : ∀ k < gB ctx g, v * gB ctx g + k < nz := fun k hk => by
    have : (v + 1) * gB ctx g = v * gB ctx g + gB ctx g := by ring
    omega
  have := rt_round_eq (ret := fun o => GOut.rt o.1 o.2) (num := gReps g) H.codec (rtB_basis H.good k1 k2) H.good H.parties k1 H.size
    (g := fun m => ω.g (v * gA ctx g + m)) (z := fun m => ω.z (v * gB ctx g + m))
    (fun m hm => ω.g_degree (hb1 m hm)) (fun m hm => ω.z_degree (hb2 m hm)) (fun m hm => ω.z_zero (hb2 m hm))
    (envs := fun p => Env.only (outsEnv fin p) []) (fun p hp => hin p hp _)
  rw [e1, ← e2]
  rw [this]
  unfold gR gRN
  have e3 : (go ++ gi).getD v [] = (go ++ gi)[v] := by
    rw [List.getD_eq_getElem?_getD, List.getElem?_eq_getElem hv', Option.getD_some]
  rw [e3]

theorem GarbleRun.rt_env {v : Nat} (hv : v < go.length + gi.length) {p : Nat} (hp : p < ctx.n) :
    outsEnv fin p v = some (.rt
      ((List.range ctx.l).map fun k => (List.range (gReps g)).map fun j => (gR ctx g go gi ω v k j).eval (ofU32 p))
      ((List.range ctx.l).map fun k => (List.range (gReps g)).map fun j => (gRN ctx g go gi ω v k j).eval (ofU32 p))) := by
  unfold outsEnv
  rw [R.rt_fin H hv, Option.bind_some, tab_get _ hp]

/-- What the transformations of the output wires get. -/
theorem GarbleRun.outTr {i : Nat} {tf : SharingTransform F} {tape : List (List F)} (h : g.tfOut[i]? = some tf)
    (ht : tp.out[i]? = some tape) : ∀ p < ctx.n,
      (((List.range ctx.n).map (ofCoins sec ω))[p]?).bind (fun pr => outTransIn ctx g go.length pr
        (Env.only (outsEnv fin p) (List.range go.length)) i)
      = some (outX g (sec p) i, (List.range (gReps g)).map (fun j => (gR ctx g go gi ω (i / ctx.l) (i % ctx.l) j).eval (ofU32 p)),
          (List.range (gReps g)).map (fun j => (gRN ctx g go gi ω (i / ctx.l) (i % ctx.l) j).eval (ofU32 p))) ∧
      (outX g (sec p) i).length = gReps g := by
  have hst := steps_outTr (c := c) (ctx := ctx) (lead := lead) (pre := (List.range ctx.n).map (ofCoins sec ω)) (go := go) (gi := gi)
    R.lens h ht
  obtain ⟨o, _, ho⟩ := R.step hst default
  obtain ⟨X, R', N, hi⟩ := trans_inp ho
  intro p hp
  have hil : i < g.tfOut.length := (List.getElem?_eq_some_iff.1 h).1
  obtain ⟨h1, _⟩ := hi p hp
  simp only [sOutTr] at h1
  rw [tab_get _ hp, Option.bind_some] at h1 ⊢
  rw [h1]
  unfold outTransIn at h1
  obtain ⟨os, a1, h1⟩ := Option.bind_eq_some_iff.1 h1
  obtain ⟨rr, a2, h1⟩ := Option.bind_eq_some_iff.1 h1
  obtain ⟨inp, a3, h1⟩ := Option.bind_eq_some_iff.1 h1
  obtain ⟨x, a4, h1⟩ := Option.bind_eq_some_iff.1 h1
  obtain ⟨r, a5, h1⟩ := Option.bind_eq_some_iff.1 h1
  obtain ⟨rn, a6, h1⟩ := Option.map_eq_some_iff.1 h1
  rw [H.go_length] at a1
  obtain ⟨c1, c2⟩ := collect_get (l := ctx.l) (reps := gReps g) (off := 0) (len := g.tfOut.length) H.posL
    (a := fun u k j => (gR ctx g go gi ω u k j).eval (ofU32 p)) (b := fun u k j => (gRN ctx g go gi ω u k j).eval (ofU32 p))
    (fun u hu => by
      unfold Env.only
      rw [← H.go_length] at hu
      rw [if_pos (by rw [← H.go_length]; simp; omega), Nat.zero_add, R.rt_env H (by omega) hp]) a1 a2 hil
  have hX : outX g (sec p) i = x := by
    unfold outX
    rw [show outInput g.circ.blocks.length g.lpn.keyLen (sec p) = some inp from a3, Option.bind_some, a4, Option.getD_some]
  rw [hX]
  rw [c1, Option.some.injEq] at a5
  rw [c2, Option.some.injEq] at a6
  subst a5 a6
  rw [← h1]
  exact ⟨rfl, outInput_width a3 x (List.mem_of_getElem? a4)⟩

/-- What the transformations of the gate inputs get. -/
theorem GarbleRun.inpTr {i : Nat} {tf : SharingTransform F} {tape : List (List F)} (h : g.tfInp[i]? = some tf)
    (ht : tp.inp[i]? = some tape) : ∀ p < ctx.n,
      inpTransIn ctx g go.length gi.length p (Env.only (outsEnv fin p) (inpDeps g go gi)) i
      = some (inpX ctx g go gi fin p i,
          (List.range (gReps g)).map (fun j => (gR ctx g go gi ω (go.length + i / ctx.l) (i % ctx.l) j).eval (ofU32 p)),
          (List.range (gReps g)).map (fun j => (gRN ctx g go gi ω (go.length + i / ctx.l) (i % ctx.l) j).eval (ofU32 p))) ∧
      (inpX ctx g go gi fin p i).length = gReps g := by
  have hst := steps_inpTr (c := c) (ctx := ctx) (lead := lead) (pre := (List.range ctx.n).map (ofCoins sec ω)) (go := go) (gi := gi)
    R.lens h ht
  obtain ⟨o, _, ho⟩ := R.step hst default
  obtain ⟨X, R', N, hi⟩ := trans_inp ho
  intro p hp
  have hil : i < g.tfInp.length := (List.getElem?_eq_some_iff.1 h).1
  obtain ⟨h1, _⟩ := hi p hp
  simp only [sInpTr] at h1
  rw [h1]
  unfold inpTransIn at h1
  obtain ⟨out, a0, h1⟩ := Option.bind_eq_some_iff.1 h1
  obtain ⟨inp, a3, h1⟩ := Option.bind_eq_some_iff.1 h1
  obtain ⟨os, a1, h1⟩ := Option.bind_eq_some_iff.1 h1
  obtain ⟨rr, a2, h1⟩ := Option.bind_eq_some_iff.1 h1
  obtain ⟨x, a4, h1⟩ := Option.bind_eq_some_iff.1 h1
  obtain ⟨r, a5, h1⟩ := Option.bind_eq_some_iff.1 h1
  obtain ⟨rn, a6, h1⟩ := Option.map_eq_some_iff.1 h1
  have hmem : ∀ k < gi.length + g.tfOut.length, go.length + k ∈ inpDeps g go gi := fun k hk =>
    List.mem_map.2 ⟨k, List.mem_range.2 hk, rfl⟩
  rw [H.gi_length] at a1
  obtain ⟨c1, c2⟩ := collect_get (l := ctx.l) (reps := gReps g) (off := go.length) (len := g.tfInp.length) H.posL
    (a := fun u k j => (gR ctx g go gi ω (go.length + u) k j).eval (ofU32 p))
    (b := fun u k j => (gRN ctx g go gi ω (go.length + u) k j).eval (ofU32 p))
    (fun u hu => by
      unfold Env.only
      rw [← H.gi_length] at hu
      rw [if_pos (hmem u (by omega)), R.rt_env H (by omega) hp]) a1 a2 hil
  have hT : transformed g.tfOut (gReps g) (go.length + gi.length) (outsEnv fin p) = some out := by
    rw [← a0]
    refine transformed_congr fun k hk => ?_
    unfold Env.only
    rw [if_pos (by rw [Nat.add_assoc]; exact hmem _ (by omega))]
  have hX : inpX ctx g go gi fin p i = x := by
    unfold inpX
    rw [hT, Option.bind_some, a3, Option.bind_some, a4, Option.getD_some]
  rw [hX]
  rw [c1, Option.some.injEq] at a5
  rw [c2, Option.some.injEq] at a6
  subst a5 a6
  rw [← h1]
  exact ⟨rfl, selectAll_width a3 x (List.mem_of_getElem? a4)⟩

/-! ### Gates -/

omit R in
/-- What a gate gets. -/
theorem gateInput_get {D : List Nat} (hD : ∀ d ∈ gateDeps g go gi, d ∈ D) {gid p : Nat} (hp : p < ctx.n) {kind : GateKind}
    (hk : (gKinds g)[gid]? = some kind) {I : GateIn F}
    (h : gateInput ctx g ((List.range ctx.n).map (ofCoins sec ω)) go gi gid p (Env.only (outsEnv fin p) D) = some I) :
    gateCore g go gi (sec p) fin p gid kind = some (I.omask, I.ok, I.rows) ∧
    I.randoms = (List.range (kind.numMult g.lpn.keyLen)).map (fun j => (ω.g ((go.length + gi.length) * gA ctx g +
      (preSum ((gKinds g).map (GateKind.numMult g.lpn.keyLen)) gid + j))).eval (ofU32 p)) ∧
    I.zeros = (List.range (kind.numMult g.lpn.keyLen)).map (fun j => (ω.z ((go.length + gi.length) * gB ctx g +
      (preSum ((gKinds g).map (GateKind.numMult g.lpn.keyLen)) gid + j))).eval (ofU32 p)) ∧
    (go.length + gi.length) * gA ctx g + (preSum ((gKinds g).map (GateKind.numMult g.lpn.keyLen)) gid + kind.numMult g.lpn.keyLen) ≤ nr ∧
    (go.length + gi.length) * gB ctx g + (preSum ((gKinds g).map (GateKind.numMult g.lpn.keyLen)) gid + kind.numMult g.lpn.keyLen) ≤ nz := by
  unfold gateInput at h
  rw [tab_get _ hp, Option.bind_some] at h
  obtain ⟨L, h1, h2⟩ := Option.bind_eq_some_iff.1 h
  unfold gatesIn at h1
  obtain ⟨⟨so, si, r, z⟩, hm, h1⟩ := Option.bind_eq_some_iff.1 h1
  obtain ⟨rows, ht, h1⟩ := Option.bind_eq_some_iff.1 h1
  obtain ⟨mats, _, h1⟩ := Option.bind_eq_some_iff.1 h1
  obtain ⟨_, _, e1, e2, b1, b2⟩ := material_slices H hm
  simp only [] at e1 e2
  obtain ⟨I', i1, i2, i3, i4, i5, i6, i7, i8⟩ := gateIns_get h1 gid kind hk
  rw [h2, Option.some.injEq] at i1
  subst i1
  rw [Nat.zero_add] at i2 i3
  have hT : transformed g.tfInp (gReps g) (go.length + gi.length + g.tfOut.length) (outsEnv fin p) = some rows := by
    rw [← ht]
    refine transformed_congr fun k hk => ?_
    unfold Env.only
    rw [if_pos (hD _ (List.mem_map.2 ⟨k, List.mem_range.2 hk, rfl⟩))]
  subst e1 e2
  rw [Coins.randoms_eq] at i5 i7
  rw [Coins.zeros_eq] at i6 i8
  simp only [List.length_drop, List.length_map, List.length_range] at i7 i8
  rw [List.drop_drop] at i5 i6
  have c1 : (go.length + gi.length) * gA ctx g + (preSum ((gKinds g).map (GateKind.numMult g.lpn.keyLen)) gid
      + kind.numMult g.lpn.keyLen) ≤ nr := by
    generalize (go.length + gi.length) * gA ctx g = x at *
    have := (Nat.le_sub_iff_add_le' b1).1 i7
    omega
  have c2 : (go.length + gi.length) * gB ctx g + (preSum ((gKinds g).map (GateKind.numMult g.lpn.keyLen)) gid
      + kind.numMult g.lpn.keyLen) ≤ nz := by
    generalize (go.length + gi.length) * gB ctx g = x at *
    have := (Nat.le_sub_iff_add_le' b2).1 i8
    omega
  refine ⟨?_, ?_, ?_, c1, c2⟩
  · unfold gateCore
    rw [hT, Option.bind_some, show (sec p).masks[g.circ.inputs.length + gid]? = some I.omask from i2, Option.bind_some,
      show outKeys (sec p).keys I.omask (g.circ.inputs.length + gid) = some I.ok from i3, Option.map_some, i4]
  · rw [i5, tab_slice _ (by omega)]
    apply List.map_congr_left
    intro j _
    rw [Nat.add_assoc]
  · rw [i6, tab_slice _ (by omega)]
    apply List.map_congr_left
    intro j _
    rw [Nat.add_assoc]

omit H R [CodeField F] [DecidableEq F] in
theorem popMask_tab {m : Nat} (f : Nat → F) : popMask ((List.range (m + 1)).map f) = some ((List.range m).map f, f m) := by
  unfold popMask
  rw [List.range_succ, List.map_append]
  simp

omit H R in
/-- The position of coin `j` of gate `gid`. -/
def gPos (g : GarbleCtx F) (gid j : Nat) : Nat := preSum ((gKinds g).map (GateKind.numMult g.lpn.keyLen)) gid + j

/-- The first multiplication of an `AND` gate. -/
theorem GarbleRun.and1 {gid : Nat} {tpg : GateTapes F} (hk : (gKinds g)[gid]? = some .and) (ht : tp.gates[gid]? = some tpg) :
    ∀ p < ctx.n, ∃ x, gatePair g go gi (sec p) fin p gid .and = some x ∧
      (gateInput ctx g ((List.range ctx.n).map (ofCoins sec ω)) go gi gid p (Env.only (outsEnv fin p) (gateDeps g go gi))).bind
        (andFirst g.lpn.keyLen) = some ([x.lmask], [x.rmask],
          [(ω.g ((go.length + gi.length) * gA ctx g + gPos g gid (3 * (g.lpn.keyLen + 1)))).eval (ofU32 p)],
          [(ω.z ((go.length + gi.length) * gB ctx g + gPos g gid (3 * (g.lpn.keyLen + 1)))).eval (ofU32 p)]) ∧
      (go.length + gi.length) * gA ctx g + gPos g gid (3 * (g.lpn.keyLen + 1)) < nr ∧
      (go.length + gi.length) * gB ctx g + gPos g gid (3 * (g.lpn.keyLen + 1)) < nz := by
  have hst : (garbleSteps c ctx g lead tp ((List.range ctx.n).map (ofCoins sec ω)) go gi)[gateOff g go gi gid + 0]? = _ :=
    steps_gate R.lens hk ht (by simp [GateKind.numJobs])
  obtain ⟨o, _, ho⟩ := R.step hst default
  obtain ⟨A, B, R', Z, hi⟩ := mult_inp ho
  intro p hp
  obtain ⟨h1, _⟩ := hi p hp
  rw [h1]
  obtain ⟨I, h2, h3⟩ := Option.bind_eq_some_iff.1 h1
  obtain ⟨e1, e2, e3, e4, e5⟩ := gateInput_get H (fun d hd => hd) hp hk h2
  unfold andFirst at h3
  obtain ⟨x, a1, h3⟩ := Option.bind_eq_some_iff.1 h3
  obtain ⟨r, a2, h3⟩ := Option.bind_eq_some_iff.1 h3
  obtain ⟨z, a3, h3⟩ := Option.map_eq_some_iff.1 h3
  rw [e2] at a2
  rw [e3] at a3
  rw [show GateKind.numMult g.lpn.keyLen .and = 3 * (g.lpn.keyLen + 1) + 1 from rfl] at a2 a3 e4 e5
  rw [popMask_tab, Option.some.injEq] at a2 a3
  subst a2 a3
  refine ⟨x, ?_, ?_, ?_, ?_⟩
  · unfold gatePair
    rw [e1, Option.bind_some]
    exact a1
  · rw [← h3]
    rfl
  · unfold gPos; omega
  · unfold gPos; omega

/-- Number of random sharings for the last multiplication of a gate. -/
def GateKind.lastMult (keyLen : Nat) : GateKind → Nat
  | .and => 3 * (keyLen + 1)
  | .xor => keyLen + 1
  | .inv => keyLen + 1

omit H R in
/-- The arguments of the last multiplication of a gate. -/
def lastArgs (ctx : Ctx F) (g : GarbleCtx F) (pre : List (PreProc F)) (go gi : List (List (SharingTransform F))) (gid p : Nat)
    (env : Env (GOut F)) : GateKind → Option (List F × List F × List F × List F)
  | .and => (gateInput ctx g pre go gi gid p env).bind fun i =>
        ((env (gateOff g go gi gid)).bind GOut.vec?).bind fun prod => andSecond g.lpn.keyLen i prod
  | .xor => (gateInput ctx g pre go gi gid p env).bind (xorArgs g.lpn.keyLen)
  | .inv => (gateInput ctx g pre go gi gid p env).bind (invArgs g.lpn.keyLen)

omit H R in
/-- The jobs which the last multiplication of a gate waits for. -/
def lastDeps (g : GarbleCtx F) (go gi : List (List (SharingTransform F))) (gid : Nat) : GateKind → List Nat
  | .and => gateOff g go gi gid :: gateDeps g go gi
  | .xor => gateDeps g go gi
  | .inv => gateDeps g go gi

omit H R in
theorem sGate_last {pre : List (PreProc F)} (gid : Nat) (kind : GateKind) (tpg : GateTapes F) :
    sGate c ctx g lead pre go gi gid (kind.numJobs - 1) kind tpg = some ⟨lastDeps g go gi gid kind,
      fun id => multProto c ctx (lead id) tpg.second (fun p env => lastArgs ctx g pre go gi gid p env kind) .vec⟩ := by
  cases kind <;> rfl

omit H R in
theorem sGate_first {pre : List (PreProc F)} (gid : Nat) (tpg : GateTapes F) :
    sGate c ctx g lead pre go gi gid 0 .and tpg = some ⟨gateDeps g go gi,
      fun id => multProto c ctx (lead id) tpg.first
        (fun p env => (gateInput ctx g pre go gi gid p env).bind (andFirst g.lpn.keyLen)) .vec⟩ := rfl

/-- The last multiplication of a gate. -/
theorem GarbleRun.last {gid : Nat} {kind : GateKind} {tpg : GateTapes F} (hk : (gKinds g)[gid]? = some kind)
    (ht : tp.gates[gid]? = some tpg) :
    ∀ p < ctx.n, ∃ x, gateFactors g go gi (sec p) fin p gid kind = some x ∧
      lastArgs ctx g ((List.range ctx.n).map (ofCoins sec ω)) go gi gid p (Env.only (outsEnv fin p) (lastDeps g go gi gid kind)) kind
        = some (x.1, x.2,
          (List.range (kind.lastMult g.lpn.keyLen)).map (fun j =>
            (ω.g ((go.length + gi.length) * gA ctx g + gPos g gid j)).eval (ofU32 p)),
          (List.range (kind.lastMult g.lpn.keyLen)).map (fun j =>
            (ω.z ((go.length + gi.length) * gB ctx g + gPos g gid j)).eval (ofU32 p))) ∧
      x.1.length = kind.lastMult g.lpn.keyLen ∧
      ∀ j < kind.lastMult g.lpn.keyLen, (go.length + gi.length) * gA ctx g + gPos g gid j < nr ∧
        (go.length + gi.length) * gB ctx g + gPos g gid j < nz := by
  have hst : (garbleSteps c ctx g lead tp ((List.range ctx.n).map (ofCoins sec ω)) go gi)[gateOff g go gi gid + (kind.numJobs - 1)]? = _ :=
    steps_gate R.lens hk ht (by cases kind <;> simp [GateKind.numJobs])
  rw [sGate_last] at hst
  obtain ⟨o, _, ho⟩ := R.step hst default
  obtain ⟨A, B, R', Z, hi⟩ := mult_inp ho
  intro p hp
  obtain ⟨h1, _, hl, _⟩ := hi p hp
  rw [h1]
  cases kind with
  | and =>
    obtain ⟨I, h2, h3⟩ := Option.bind_eq_some_iff.1 h1
    obtain ⟨prod, h4, h3⟩ := Option.bind_eq_some_iff.1 h3
    obtain ⟨e1, e2, e3, e4, e5⟩ := gateInput_get H (fun d hd => List.mem_cons_of_mem _ hd) hp hk h2
    unfold andSecond at h3
    obtain ⟨x, a1, h3⟩ := Option.bind_eq_some_iff.1 h3
    obtain ⟨r, a2, h3⟩ := Option.bind_eq_some_iff.1 h3
    obtain ⟨z, a3, h3⟩ := Option.bind_eq_some_iff.1 h3
    obtain ⟨v, a4, h3⟩ := Option.bind_eq_some_iff.1 h3
    obtain ⟨m, a5, h3⟩ := Option.map_eq_some_iff.1 h3
    rw [e2] at a2
    rw [e3] at a3
    rw [show GateKind.numMult g.lpn.keyLen .and = 3 * (g.lpn.keyLen + 1) + 1 from rfl] at a2 a3 e4 e5
    rw [popMask_tab, Option.some.injEq] at a2 a3
    subst a2 a3
    simp only [Prod.mk.injEq] at h3
    obtain ⟨r1, r2, r3, r4⟩ := h3
    refine ⟨(A p, B p), ?_, ?_, ?_, ?_⟩
    · unfold gateFactors gatePair
      rw [e1, Option.bind_some, a1, Option.bind_some]
      simp only [lastDeps, Env.only, List.mem_cons, true_or, if_true] at h4
      rw [h4, Option.bind_some, a4, Option.bind_some, a5, Option.map_some, r1, r2]
    · rw [← r3, ← r4]
      rfl
    · rw [← hl, ← r3]
      simp [GateKind.lastMult]
    · intro j hj
      simp only [GateKind.lastMult] at hj
      unfold gPos
      constructor <;> omega
  | xor =>
    obtain ⟨I, h2, h3⟩ := Option.bind_eq_some_iff.1 h1
    obtain ⟨e1, e2, e3, e4, e5⟩ := gateInput_get H (fun d hd => hd) hp hk h2
    unfold xorArgs at h3
    obtain ⟨x, a1, h3⟩ := Option.bind_eq_some_iff.1 h3
    split at h3
    · simp only [Option.some.injEq, Prod.mk.injEq] at h3
      obtain ⟨r1, r2, r3, r4⟩ := h3
      refine ⟨(A p, B p), ?_, ?_, ?_, ?_⟩
      · unfold gateFactors gatePair
        rw [e1, Option.bind_some, a1, Option.map_some, r1, r2]
      · rw [← r3, ← r4, e2, e3]
        rfl
      · rw [← hl, ← r3, e2]
        simp [GateKind.lastMult, GateKind.numMult]
      · intro j hj
        simp only [GateKind.lastMult] at hj
        rw [show GateKind.numMult g.lpn.keyLen _ = g.lpn.keyLen + 1 from rfl] at e4 e5
        unfold gPos
        constructor <;> omega
    · cases h3
  | inv =>
    obtain ⟨I, h2, h3⟩ := Option.bind_eq_some_iff.1 h1
    obtain ⟨e1, e2, e3, e4, e5⟩ := gateInput_get H (fun d hd => hd) hp hk h2
    unfold invArgs at h3
    obtain ⟨x, a1, h3⟩ := Option.bind_eq_some_iff.1 h3
    split at h3
    · simp only [Option.some.injEq, Prod.mk.injEq] at h3
      obtain ⟨r1, r2, r3, r4⟩ := h3
      refine ⟨(A p, B p), ?_, ?_, ?_, ?_⟩
      · unfold gateFactors
        rw [e1, Option.bind_some, a1, Option.map_some, r1, r2]
      · rw [← r3, ← r4, e2, e3]
        rfl
      · rw [← hl, ← r3, e2]
        simp [GateKind.lastMult, GateKind.numMult]
      · intro j hj
        simp only [GateKind.lastMult] at hj
        rw [show GateKind.numMult g.lpn.keyLen _ = g.lpn.keyLen + 1 from rfl] at e4 e5
        unfold gPos
        constructor <;> omega
    · cases h3

end run

end Verif
