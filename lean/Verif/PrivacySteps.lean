import Verif.PrivacyExtract

/-!
# The jobs of `garble`, one by one
-/

open Polynomial

namespace Verif

variable {F : Type} [CodeField F] [DecidableEq F]

section steps
variable (c : Codec F) (ctx : Ctx F) (g : GarbleCtx F) (lead : ProtocolID → Nat) (tp : GarbleTapes F)
  (pre : List (PreProc F)) (go gi : List (List (SharingTransform F)))

/-- Job of group `u` of random transformations of the output wires. -/
def sOutRt (u : Nat) (grp : List (SharingTransform F)) : GStep F :=
  ⟨[], fun _ => rtProto c ctx grp (fun p _ => (pre[p]?).bind fun pr =>
    (garbleMaterial ctx g pr).bind fun m => m.1[u]?) fun o => .rt o.1 o.2⟩

/-- Job of group `u` of random transformations of the gate inputs. -/
def sInpRt (u : Nat) (grp : List (SharingTransform F)) : GStep F :=
  ⟨[], fun _ => rtProto c ctx grp (fun p _ => (pre[p]?).bind fun pr =>
    (garbleMaterial ctx g pr).bind fun m => m.2.1[u]?) fun o => .rt o.1 o.2⟩

/-- Job of transformation `i` of the output wires. -/
def sOutTr (i : Nat) (tf : SharingTransform F) (tape : List (List F)) : GStep F :=
  ⟨List.range go.length, fun _ => transProto c ctx tf (i % ctx.n) tape
    (fun p env => (pre[p]?).bind fun pr => outTransIn ctx g go.length pr env i) .vec⟩

/-- The jobs which the transformations of the gate inputs wait for. -/
def inpDeps : List Nat := (List.range (gi.length + g.tfOut.length)).map (go.length + ·)

/-- Job of transformation `i` of the gate inputs. -/
def sInpTr (i : Nat) (tf : SharingTransform F) (tape : List (List F)) : GStep F :=
  ⟨inpDeps g go gi, fun _ => transProto c ctx tf (i % ctx.n) tape
      (fun p env => inpTransIn ctx g go.length gi.length p env i) .vec⟩

/-- The jobs which the gates wait for. -/
def gateDeps : List Nat := (List.range g.tfInp.length).map (go.length + gi.length + g.tfOut.length + ·)

/-- What gate `gid` gets. -/
def gateInput (gid p : Nat) (env : Env (GOut F)) : Option (GateIn F) :=
  ((pre[p]?).bind fun pr => gatesIn ctx g p pr (go.length + gi.length + g.tfOut.length) env).bind fun l => l[gid]?

/-- The kinds of the gates. -/
abbrev gKinds : List GateKind := g.circ.gates.map PackedGate.kind

/-- The first job of gate `gid`. -/
def gateOff (gid : Nat) : Nat :=
  go.length + gi.length + g.tfOut.length + g.tfInp.length + preSum ((gKinds g).map GateKind.numJobs) gid

/-- Job `a` of gate `gid`. -/
def sGate (gid a : Nat) (kind : GateKind) (tpg : GateTapes F) : Option (GStep F) :=
  (gateSteps c ctx lead g.lpn.keyLen (gateDeps g go gi) (gateInput ctx g pre go gi gid) (gateOff g go gi gid) tpg kind)[a]?

end steps

variable {c : Codec F} {ctx : Ctx F} {g : GarbleCtx F} {lead : ProtocolID → Nat} {tp : GarbleTapes F}
  {pre : List (PreProc F)} {go gi : List (List (SharingTransform F))}

theorem gatesSteps_get {keyLen : Nat} {deps : List Nat} {gins : Nat → Env (GOut F) → Option (List (GateIn F))} {off gid : Nat}
    {gs : List (GateKind × GateTapes F)} {i a : Nat} {kind : GateKind} {tpg : GateTapes F} (hi : gs[i]? = some (kind, tpg))
    (ha : a < kind.numJobs) :
    (gatesSteps c ctx lead keyLen deps gins off gid gs)[preSum (gs.map fun x => x.1.numJobs) i + a]?
      = (gateSteps c ctx lead keyLen deps (fun p env => (gins p env).bind fun l => l[gid + i]?)
          (off + preSum (gs.map fun x => x.1.numJobs) i) tpg kind)[a]? := by
  induction gs generalizing off gid i with
  | nil => simp at hi
  | cons x gs ih =>
    obtain ⟨k0, t0⟩ := x
    unfold gatesSteps
    cases i with
    | zero =>
      simp only [List.getElem?_cons_zero, Option.some.injEq, Prod.mk.injEq] at hi
      obtain ⟨rfl, rfl⟩ := hi
      rw [preSum_zero, Nat.zero_add, List.getElem?_append_left (by rw [gateSteps_length]; exact ha)]
      rfl
    | succ i =>
      rw [List.getElem?_cons_succ] at hi
      rw [List.map_cons, preSum_cons, List.getElem?_append_right (by rw [gateSteps_length]; simp only []; omega), gateSteps_length]
      simp only []
      rw [show k0.numJobs + preSum (gs.map fun x => x.1.numJobs) i + a - k0.numJobs
        = preSum (gs.map fun x => x.1.numJobs) i + a by omega, ih hi,
        show gid + 1 + i = gid + (i + 1) by omega,
        show off + k0.numJobs + preSum (gs.map fun x => x.1.numJobs) i
          = off + (k0.numJobs + preSum (gs.map fun x => x.1.numJobs) i) by omega]

theorem gatesSteps_index {keyLen : Nat} {deps : List Nat} {gins : Nat → Env (GOut F) → Option (List (GateIn F))} {off gid : Nat}
    {gs : List (GateKind × GateTapes F)} {k : Nat} (hk : k < (gatesSteps c ctx lead keyLen deps gins off gid gs).length) :
    ∃ i a kind tpg, gs[i]? = some (kind, tpg) ∧ a < kind.numJobs ∧ k = preSum (gs.map fun x => x.1.numJobs) i + a := by
  induction gs generalizing off gid k with
  | nil => simp [gatesSteps] at hk
  | cons x gs ih =>
    obtain ⟨k0, t0⟩ := x
    unfold gatesSteps at hk
    rw [List.length_append, gateSteps_length] at hk
    by_cases h : k < k0.numJobs
    · exact ⟨0, k, k0, t0, rfl, h, by rw [preSum_zero]; omega⟩
    · obtain ⟨i, a, kind, tpg, h1, h2, h3⟩ := ih (off := off + k0.numJobs) (gid := gid + 1) (k := k - k0.numJobs) (by omega)
      exact ⟨i + 1, a, kind, tpg, by rw [List.getElem?_cons_succ, h1], h2, by rw [List.map_cons, preSum_cons]; simp only []; omega⟩

theorem zip_fst {α β : Type} {a : List α} {b : List β} (h : b.length = a.length) : (a.zip b).map (·.1) = a := by
  rw [List.map_fst_zip (by omega)]

/-- The tapes have the right lengths. -/
structure TapeLens (g : GarbleCtx F) (tp : GarbleTapes F) : Prop where
  out : tp.out.length = g.tfOut.length
  inp : tp.inp.length = g.tfInp.length
  gates : tp.gates.length = g.circ.gates.length

section get
variable (hl : TapeLens g tp)

theorem steps_outRt {u : Nat} {grp : List (SharingTransform F)} (h : go[u]? = some grp) :
    (garbleSteps c ctx g lead tp pre go gi)[u]? = some (sOutRt c ctx g pre u grp) := by
  have hu : u < go.length := (List.getElem?_eq_some_iff.1 h).1
  unfold garbleSteps
  simp only [List.append_assoc]
  rw [List.getElem?_append_left (by simpa using hu), List.getElem?_map, List.getElem?_zipIdx, h]
  simp [sOutRt]

theorem steps_inpRt {u : Nat} {grp : List (SharingTransform F)} (h : gi[u]? = some grp) :
    (garbleSteps c ctx g lead tp pre go gi)[go.length + u]? = some (sInpRt c ctx g pre u grp) := by
  have hu : u < gi.length := (List.getElem?_eq_some_iff.1 h).1
  unfold garbleSteps
  simp only [List.append_assoc]
  rw [List.getElem?_append_right (by simp), List.getElem?_append_left (by simp; omega), List.getElem?_map, List.getElem?_zipIdx]
  simp [sInpRt, h]

include hl in
theorem steps_outTr {i : Nat} {tf : SharingTransform F} {tape : List (List F)} (h : g.tfOut[i]? = some tf)
    (ht : tp.out[i]? = some tape) : (garbleSteps c ctx g lead tp pre go gi)[go.length + gi.length + i]?
      = some (sOutTr c ctx g pre go i tf tape) := by
  have hu : i < g.tfOut.length := (List.getElem?_eq_some_iff.1 h).1
  have := hl.out
  unfold garbleSteps
  simp only [List.append_assoc]
  rw [List.getElem?_append_right (by simp; omega), List.getElem?_append_right (by simp; omega),
    List.getElem?_append_left (by simp; omega), List.getElem?_map, List.getElem?_zipIdx]
  have e : go.length + gi.length + i - (go.zipIdx).length - gi.zipIdx.length = i := by simp; omega
  simp only [List.length_map, e]
  rw [show (g.tfOut.zip tp.out)[i]? = some (tf, tape) by rw [List.getElem?_zip_eq_some]; exact ⟨h, ht⟩]
  simp [sOutTr]

include hl in
theorem steps_inpTr {i : Nat} {tf : SharingTransform F} {tape : List (List F)} (h : g.tfInp[i]? = some tf)
    (ht : tp.inp[i]? = some tape) : (garbleSteps c ctx g lead tp pre go gi)[go.length + gi.length + g.tfOut.length + i]?
      = some (sInpTr c ctx g go gi i tf tape) := by
  have hu : i < g.tfInp.length := (List.getElem?_eq_some_iff.1 h).1
  have := hl.out
  have := hl.inp
  unfold garbleSteps
  simp only [List.append_assoc]
  rw [List.getElem?_append_right (by simp; omega), List.getElem?_append_right (by simp; omega),
    List.getElem?_append_right (by simp; omega), List.getElem?_append_left (by simp; omega), List.getElem?_map, List.getElem?_zipIdx]
  have e : go.length + gi.length + g.tfOut.length + i - (go.zipIdx).length - gi.zipIdx.length
    - (g.tfOut.zip tp.out).zipIdx.length = i := by simp; omega
  simp only [List.length_map, e]
  rw [show (g.tfInp.zip tp.inp)[i]? = some (tf, tape) by rw [List.getElem?_zip_eq_some]; exact ⟨h, ht⟩]
  simp [sInpTr, inpDeps]

omit [CodeField F] [DecidableEq F] in
include hl in
theorem zip_kinds : (((gKinds g).zip tp.gates).map fun x => x.1.numJobs) = (gKinds g).map GateKind.numJobs := by
  have : (((gKinds g).zip tp.gates).map fun x => x.1.numJobs) = (((gKinds g).zip tp.gates).map (·.1)).map GateKind.numJobs := by
    rw [List.map_map]; rfl
  rw [this, zip_fst (by simp [hl.gates])]

include hl in
theorem steps_gate {gid a : Nat} {kind : GateKind} {tpg : GateTapes F} (h : (gKinds g)[gid]? = some kind)
    (ht : tp.gates[gid]? = some tpg) (ha : a < kind.numJobs) :
    (garbleSteps c ctx g lead tp pre go gi)[gateOff g go gi gid + a]? = sGate c ctx g lead pre go gi gid a kind tpg := by
  have h1 := hl.out
  have h2 := hl.inp
  unfold garbleSteps gateOff
  rw [List.getElem?_append_right (by simp; omega)]
  have e : go.length + gi.length + g.tfOut.length + g.tfInp.length + preSum ((gKinds g).map GateKind.numJobs) gid + a
    - ((go.zipIdx).length + gi.zipIdx.length + (g.tfOut.zip tp.out).zipIdx.length + (g.tfInp.zip tp.inp).zipIdx.length)
    = preSum (((gKinds g).zip tp.gates).map fun x => x.1.numJobs) gid + a := by rw [zip_kinds hl]; simp; omega
  simp only [List.length_append, List.length_map, e]
  rw [gatesSteps_get (i := gid) (kind := kind) (tpg := tpg) (by rw [List.getElem?_zip_eq_some]; exact ⟨h, ht⟩) ha]
  unfold sGate gateOff
  rw [zip_kinds hl]
  simp only [Nat.zero_add]
  rfl

include hl in
/-- Every job is one of these. -/
theorem steps_index {k : Nat} (hk : k < (garbleSteps c ctx g lead tp pre go gi).length) :
    (∃ u grp, go[u]? = some grp ∧ k = u) ∨
    (∃ u grp, gi[u]? = some grp ∧ k = go.length + u) ∨
    (∃ i tf tape, g.tfOut[i]? = some tf ∧ tp.out[i]? = some tape ∧ k = go.length + gi.length + i) ∨
    (∃ i tf tape, g.tfInp[i]? = some tf ∧ tp.inp[i]? = some tape ∧ k = go.length + gi.length + g.tfOut.length + i) ∨
    ∃ gid a kind tpg, (gKinds g)[gid]? = some kind ∧ tp.gates[gid]? = some tpg ∧ a < kind.numJobs ∧
      k = gateOff g go gi gid + a := by
  have h1 := hl.out
  have h2 := hl.inp
  by_cases k1 : k < go.length
  · exact .inl ⟨k, _, List.getElem?_eq_getElem k1, rfl⟩
  by_cases k2 : k < go.length + gi.length
  · exact .inr (.inl ⟨k - go.length, _, List.getElem?_eq_getElem (by omega), by omega⟩)
  by_cases k3 : k < go.length + gi.length + g.tfOut.length
  · exact .inr (.inr (.inl ⟨k - go.length - gi.length, _, _, List.getElem?_eq_getElem (by omega),
      List.getElem?_eq_getElem (by omega), by omega⟩))
  by_cases k4 : k < go.length + gi.length + g.tfOut.length + g.tfInp.length
  · exact .inr (.inr (.inr (.inl ⟨k - go.length - gi.length - g.tfOut.length, _, _, List.getElem?_eq_getElem (by omega),
      List.getElem?_eq_getElem (by omega), by omega⟩)))
  · refine .inr (.inr (.inr (.inr ?_)))
    unfold garbleSteps at hk
    rw [List.length_append] at hk
    simp only [List.length_append, List.length_map, List.length_zipIdx, List.length_zip] at hk
    rw [h1, h2, Nat.min_self, Nat.min_self] at hk
    obtain ⟨i, a, kind, tpg, e1, e2, e3⟩ := gatesSteps_index
      (k := k - (go.length + gi.length + g.tfOut.length + g.tfInp.length)) (Nat.sub_lt_left_of_lt_add (by omega) hk)
    rw [List.getElem?_zip_eq_some] at e1
    rw [zip_kinds hl] at e3
    exact ⟨i, a, kind, tpg, e1.1, e1.2, e2, by unfold gateOff; omega⟩

end get

/-- What a run of the jobs gives. -/
structure GarbleRun (c : Codec F) (ctx : Ctx F) (g : GarbleCtx F) (lead : ProtocolID → Nat) (tp : GarbleTapes F)
    (go gi : List (List (SharingTransform F))) (pr : Nat → PreProc F) (fin : List (List (GOut F))) : Prop where
  lens : TapeLens g tp
  all : fin.length = (garbleSteps c ctx g lead tp ((List.range ctx.n).map pr) go gi).length
  ok : StepsOk ctx.n fin 0 (garbleSteps c ctx g lead tp ((List.range ctx.n).map pr) go gi)

theorem GarbleRun.step {pr : Nat → PreProc F} {fin : List (List (GOut F))} (R : GarbleRun c ctx g lead tp go gi pr fin)
    {i : Nat} {st : GStep F} (h : (garbleSteps c ctx g lead tp ((List.range ctx.n).map pr) go gi)[i]? = some st) (id : ProtocolID) :
    ∃ o, fin[i]? = some o ∧ (st.proto id).round ctx.n (fun p => Env.only (outsEnv fin p) st.deps) = some o := by
  have hi := (List.getElem?_eq_some_iff.1 h).1
  rw [← R.all] at hi
  refine ⟨fin[i], List.getElem?_eq_getElem hi, ?_⟩
  rw [(R.ok i st h).2 id, Nat.zero_add, List.getElem?_eq_getElem hi]

end Verif
