import Verif.AsyncProto
import Verif.Garble

/-!
# `garble` as concurrent tasks

`garble` (`src/protocol/garble.rs:132-353`) spawns the random transformations of the output wires and of the gate inputs,
then (when those of the output wires are there) the transformations of the output wires, then (when the other ones are there,
too) the transformations of the gate inputs, and at last one task for each gate.  These tasks are the jobs (the task of an
`AND` gate makes two multiplications: two jobs); what a party computes between them is given by functions of its own material
and results only.
-/

namespace Verif

variable {F : Type} [CodeField F] [DecidableEq F]

/-- The result of a job: of `randtrans`, or of `trans` and `mult`. -/
inductive GOut (F : Type)
  | rt (rand randN : List (List F))
  | vec (v : List F)

/-- The result of a `randtrans`. -/
def GOut.rt? : GOut F → Option (List (List F) × List (List F))
  | .rt a b => some (a, b)
  | .vec _ => none

/-- The result of a `trans` or `mult`. -/
def GOut.vec? : GOut F → Option (List F)
  | .rt _ _ => none
  | .vec v => some v

/-- A protocol to be run once its ID is known, with the jobs it waits for. -/
structure GStep (F : Type) where
  deps : List Nat
  proto : ProtocolID → Proto (GOut F)

/-- The results of the jobs `off`, ..., `off + num - 1`, which are `randtrans`. -/
def rtResults (env : Env (GOut F)) (off num : Nat) : Option (List (List (List F) × List (List F))) :=
  (List.range num).mapM fun i => (env (off + i)).bind GOut.rt?

/-- The results of the jobs `off`, ..., `off + num - 1`, which are `trans`. -/
def vecResults (env : Env (GOut F)) (off num : Nat) : Option (List (List F)) :=
  (List.range num).mapM fun i => (env (off + i)).bind GOut.vec?

/-! ## Random transformations -/

/-- What the loop `src/protocol/garble.rs:717-726` drains for each group, at one party. -/
def rtSlices (ctx : Ctx F) (reps : Nat) : Nat → (randoms zeros : List F) → Option (List (List F × List F))
  | 0, _, _ => some []
  | k + 1, randoms, zeros =>
    (drain ((ctx.n + ctx.t) * reps) randoms).bind fun (r, randoms) =>
    (drain (2 * ctx.n * reps) zeros).bind fun (z, zeros) =>
    (rtSlices ctx reps k randoms zeros).map fun more => (r, z) :: more

/-- One party's call of `run_rtrans`, `src/protocol/garble.rs:153-171`: what the groups get, and what is left. -/
def rtMaterial (ctx : Ctx F) (tfs : List (SharingTransform F)) (reps : Nat) (randoms zeros : List F) :
    Option (List (List F × List F) × List F × List F) :=
  (numBatches tfs.length ctx.l).bind fun num =>
  (drain (num * reps * (ctx.n + ctx.t)) randoms).bind fun (r, randoms) =>
  (drain (num * reps * 2 * ctx.n) zeros).bind fun (z, zeros) =>
  (rtSlices ctx reps num r z).map fun sl => (sl, randoms, zeros)

/-- The loop `src/protocol/garble.rs:728-743` at one party: the results of the groups joined, the last one shortened;
`append` panics if a row has the wrong length. -/
def rtCollect (l reps : Nat) : Nat → List (List (List F) × List (List F)) → Option (List (List F) × List (List F))
  | _, [] => some ([], [])
  | rem, o :: os =>
    (rtCollect l reps (rem - l) os).bind fun m =>
    if o.1.all (fun row => row.length = reps) && o.2.all (fun row => row.length = reps) then
      some (if os = [] then (o.1.take (min l rem) ++ m.1, o.2.take (min l rem) ++ m.2) else (o.1 ++ m.1, o.2 ++ m.2))
    else none

/-- The material for the random transformations of the output wires, of the gate inputs, and the rest:
`src/protocol/garble.rs:173-174`. -/
def garbleMaterial (ctx : Ctx F) (g : GarbleCtx F) (pre : PreProc F) :
    Option (List (List F × List F) × List (List F × List F) × List F × List F) :=
  (rtMaterial ctx g.tfOut (2 * g.lpn.keyLen + 1) pre.randoms pre.zeros).bind fun (so, r, z) =>
  (rtMaterial ctx g.tfInp (2 * g.lpn.keyLen + 1) r z).map fun (si, r, z) => (so, si, r, z)

/-! ## Transformations -/

/-- What `trans` number `i` of the output wires gets at one party, `src/protocol/garble.rs:178-199`, `765-771`; `ro` is the
number of groups of random transformations, whose jobs come first. -/
def outTransIn (ctx : Ctx F) (g : GarbleCtx F) (ro : Nat) (pre : PreProc F) (env : Env (GOut F)) (i : Nat) :
    Option (List F × List F × List F) :=
  (rtResults env 0 ro).bind fun os =>
  (rtCollect ctx.l (2 * g.lpn.keyLen + 1) g.tfOut.length os).bind fun rr =>
  (outInput g.circ.blocks.length g.lpn.keyLen pre).bind fun inp =>
  (inp[i]?).bind fun x => (rr.1[i]?).bind fun r => (rr.2[i]?).map fun rn => (x, r, rn)

/-- The array returned by `transform`, `src/protocol/garble.rs:781-786`, when its jobs start with number `off`. -/
def transformed (tfs : List (SharingTransform F)) (reps off : Nat) (env : Env (GOut F)) : Option (List (List F)) :=
  (vecResults env off tfs.length).bind fun rows => toRows tfs.length reps rows.flatten

/-- What `trans` number `i` of the gate inputs gets at party `p`, `src/protocol/garble.rs:204-227`; `ro` and `ri` are the
numbers of groups of random transformations. -/
def inpTransIn (ctx : Ctx F) (g : GarbleCtx F) (ro ri p : Nat) (env : Env (GOut F)) (i : Nat) :
    Option (List F × List F × List F) :=
  (transformed g.tfOut (2 * g.lpn.keyLen + 1) (ro + ri) env).bind fun out =>
  (selectAll ctx.n ctx.l p (2 * g.lpn.keyLen + 1) g out).bind fun inp =>
  (rtResults env ro ri).bind fun os =>
  (rtCollect ctx.l (2 * g.lpn.keyLen + 1) g.tfInp.length os).bind fun rr =>
  (inp[i]?).bind fun x => (rr.1[i]?).bind fun r => (rr.2[i]?).map fun rn => (x, r, rn)

/-! ## Gates -/

/-- What the task of a gate gets at one party, `src/protocol/garble.rs:231-344`. -/
structure GateIn (F : Type) where
  omask : F
  ok : List F × List F
  rows : List (List F)
  randoms : List F
  zeros : List F
  errors : List F
  mat : List (List (List F))

/-- The loop over the gates at one party, `src/protocol/garble.rs:229-350`; `mats` are the party's shares of the LPN
matrices. -/
def gateIns (g : GarbleCtx F) (pre : PreProc F) (mats : List (List (List (List F)))) :
    Nat → List GateKind → (rows : List (List F)) → (randoms zeros errors : List F) → Option (List (GateIn F))
  | _, [], _, _, _, _ => some []
  | gid, kind :: ks, rows, randoms, zeros, errors =>
    (pre.masks[g.circ.inputs.length + gid]?).bind fun omask =>
    (outKeys pre.keys omask (g.circ.inputs.length + gid)).bind fun ok =>
    (drain kind.arity rows).bind fun (rw, rows) =>
    (drain (kind.numMult g.lpn.keyLen) randoms).bind fun (r, randoms) =>
    (drain (kind.numMult g.lpn.keyLen) zeros).bind fun (z, zeros) =>
    (drain (kind.numRows * g.lpn.mssgLen) errors).bind fun (e, errors) =>
    (g.gidLookup[gid]?).bind fun idx => (mats[idx]?).bind fun mat =>
    (gateIns g pre mats (gid + 1) ks rows randoms zeros errors).map fun more => ⟨omask, ok, rw, r, z, e, mat⟩ :: more

/-- What the gates get at party `p`; the transformations of the gate inputs start with number `off`. -/
def gatesIn (ctx : Ctx F) (g : GarbleCtx F) (p : Nat) (pre : PreProc F) (off : Nat) (env : Env (GOut F)) :
    Option (List (GateIn F)) :=
  (garbleMaterial ctx g pre).bind fun (_, _, r, z) =>
  (transformed g.tfInp (2 * g.lpn.keyLen + 1) off env).bind fun rows =>
  (g.mats[p]?).bind fun mats =>
  gateIns g pre mats 0 (g.circ.gates.map PackedGate.kind) rows r z pre.errors

/-- The arguments of the first multiplication of an `AND` gate, `src/protocol/garble.rs:383-393`. -/
def andFirst (keyLen : Nat) (i : GateIn F) : Option (List F × List F × List F × List F) :=
  (pairIn keyLen i.rows i.omask i.ok).bind fun p => (popMask i.randoms).bind fun r => (popMask i.zeros).map fun z =>
    ([p.lmask], [p.rmask], [r.2], [z.2])

/-- The arguments of the second multiplication of an `AND` gate, `src/protocol/garble.rs:396-423`, given the result of the
first. -/
def andSecond (keyLen : Nat) (i : GateIn F) (prod : List F) : Option (List F × List F × List F × List F) :=
  (pairIn keyLen i.rows i.omask i.ok).bind fun p => (popMask i.randoms).bind fun r => (popMask i.zeros).bind fun z =>
  (prod[0]?).bind fun v => (andMultiplicand keyLen p).map fun m => (andSelector keyLen p v, m, r.1, z.1)

/-- The arguments of the multiplication of an `XOR` gate, `src/protocol/garble.rs:495-516`. -/
def xorArgs (keyLen : Nat) (i : GateIn F) : Option (List F × List F × List F × List F) :=
  (pairIn keyLen i.rows i.omask i.ok).bind fun p =>
  if p.k0.length = p.k1.length then
    some (List.replicate (keyLen + 1) (p.lmask + p.rmask + p.omask), vsub p.k1 p.k0, i.randoms, i.zeros)
  else none

/-- The arguments of the multiplication of an `INV` gate, `src/protocol/garble.rs:579-597`. -/
def invArgs (keyLen : Nat) (i : GateIn F) : Option (List F × List F × List F × List F) :=
  (oneIn keyLen i.rows i.omask i.ok).bind fun p =>
  if p.k0.length = p.k1.length then
    some (List.replicate (keyLen + 1) (p.mask + p.omask), vsub p.k1 p.k0, i.randoms, i.zeros)
  else none

/-- Number of multiplications of a gate. -/
def GateKind.numJobs : GateKind → Nat
  | .and => 2
  | .xor => 1
  | .inv => 1

/-- A party's table of a gate, from the result of the last multiplication: `src/protocol/garble.rs:424-465`, `518-548`,
`598-627`. -/
def gateTable (lpn : LpnParams) (enc : Mat F) (kind : GateKind) (i : GateIn F) (s : List F) : Option (List (List F)) :=
  match kind with
  | .and => (pairIn lpn.keyLen i.rows i.omask i.ok).bind fun p => (andPlain lpn.keyLen p s).bind fun plain =>
      pairTable enc lpn.mssgLen i.mat p.keys plain i.errors
  | .xor => (pairIn lpn.keyLen i.rows i.omask i.ok).bind fun p =>
      pairTable enc lpn.mssgLen i.mat p.keys (xorPlain p s) i.errors
  | .inv => (oneIn lpn.keyLen i.rows i.omask i.ok).bind fun p =>
      oneTable enc lpn.mssgLen i.mat p.keys (invPlain p s) i.errors

/-- The multiplications of a gate, whose jobs start with number `off`; `deps` are the jobs which the gates wait for and `gin`
gives what the gate gets.  `lead` gives the leader
for an ID (`leader_from_proto_id`). -/
def gateSteps (c : Codec F) (ctx : Ctx F) (lead : ProtocolID → Nat) (keyLen : Nat) (deps : List Nat)
    (gin : Nat → Env (GOut F) → Option (GateIn F)) (off : Nat) (tp : GateTapes F) : GateKind → List (GStep F)
  | .and => [
      ⟨deps, fun id => multProto c ctx (lead id) tp.first (fun p env => (gin p env).bind (andFirst keyLen)) .vec⟩,
      ⟨off :: deps, fun id => multProto c ctx (lead id) tp.second (fun p env => (gin p env).bind fun i =>
        ((env off).bind GOut.vec?).bind fun prod => andSecond keyLen i prod) .vec⟩]
  | .xor => [
      ⟨deps, fun id => multProto c ctx (lead id) tp.second (fun p env => (gin p env).bind (xorArgs keyLen)) .vec⟩]
  | .inv => [
      ⟨deps, fun id => multProto c ctx (lead id) tp.second (fun p env => (gin p env).bind (invArgs keyLen)) .vec⟩]

/-- The multiplications of all gates; `gins` gives what the gates get. -/
def gatesSteps (c : Codec F) (ctx : Ctx F) (lead : ProtocolID → Nat) (keyLen : Nat) (deps : List Nat)
    (gins : Nat → Env (GOut F) → Option (List (GateIn F))) : Nat → Nat → List (GateKind × GateTapes F) → List (GStep F)
  | _, _, [] => []
  | off, gid, (kind, tp) :: gs =>
    gateSteps c ctx lead keyLen deps (fun p env => (gins p env).bind fun l => l[gid]?) off tp kind ++
      gatesSteps c ctx lead keyLen deps gins (off + kind.numJobs) (gid + 1) gs

/-- The tables of all gates of a party, from its results. -/
def tablesOf (lpn : LpnParams) (enc : Mat F) (env : Env (GOut F)) : Nat → List GateKind → List (GateIn F) →
    Option (List (List (List F)))
  | off, kind :: ks, i :: is =>
    ((env (off + kind.numJobs - 1)).bind GOut.vec?).bind fun s => (gateTable lpn enc kind i s).bind fun t =>
    (tablesOf lpn enc env (off + kind.numJobs) ks is).map fun more => t :: more
  | _, [], [] => some []
  | _, _, _ => none

/-! ## `garble` -/

/-- All protocols which `garble` runs: `src/protocol/garble.rs:153-345`.  The jobs are numbered in the order in which
the IDs are drawn: groups of random transformations for output wires and gate inputs, transformations of output wires and gate
inputs, gates. -/
def garbleSteps (c : Codec F) (ctx : Ctx F) (g : GarbleCtx F) (lead : ProtocolID → Nat) (tp : GarbleTapes F)
    (pre : List (PreProc F)) (go gi : List (List (SharingTransform F))) : List (GStep F) :=
  (go.zipIdx.map fun a => ⟨[], fun _ => rtProto c ctx a.1 (fun p _ => (pre[p]?).bind fun pr =>
    (garbleMaterial ctx g pr).bind fun m => m.1[a.2]?) fun o => .rt o.1 o.2⟩) ++
  (gi.zipIdx.map fun a => ⟨[], fun _ => rtProto c ctx a.1 (fun p _ => (pre[p]?).bind fun pr =>
    (garbleMaterial ctx g pr).bind fun m => m.2.1[a.2]?) fun o => .rt o.1 o.2⟩) ++
  ((g.tfOut.zip tp.out).zipIdx.map fun a => ⟨List.range go.length, fun _ => transProto c ctx a.1.1 (a.2 % ctx.n) a.1.2
    (fun p env => (pre[p]?).bind fun pr => outTransIn ctx g go.length pr env a.2) .vec⟩) ++
  ((g.tfInp.zip tp.inp).zipIdx.map fun a => ⟨(List.range (gi.length + g.tfOut.length)).map (go.length + ·),
    fun _ => transProto c ctx a.1.1 (a.2 % ctx.n) a.1.2
      (fun p env => inpTransIn ctx g go.length gi.length p env a.2) .vec⟩) ++
  gatesSteps c ctx lead g.lpn.keyLen ((List.range g.tfInp.length).map (go.length + gi.length + g.tfOut.length + ·))
    (fun p env => (pre[p]?).bind fun pr => gatesIn ctx g p pr (go.length + gi.length + g.tfOut.length) env)
    (go.length + gi.length + g.tfOut.length + g.tfInp.length) 0 ((g.circ.gates.map PackedGate.kind).zip tp.gates)

/-- The jobs of `garble` called with protocol ID `id`. -/
def garbleJobs (c : Codec F) (ctx : Ctx F) (g : GarbleCtx F) (lead : ProtocolID → Nat) (tp : GarbleTapes F)
    (pre : List (PreProc F)) (id : ProtocolID) : Option (List (Job (GOut F))) :=
  (garbleIdsOf id g.circ.inputs.length ctx.l (g.circ.gates.map PackedGate.kind)).bind fun ids =>
  (chunks? ctx.l g.tfOut).bind fun go => (chunks? ctx.l g.tfInp).map fun gi =>
  (ids.zip (garbleSteps c ctx g lead tp pre go gi)).map fun s => ⟨s.1, s.2.deps, s.2.proto s.1⟩

/-- A party's result of `garble`, from its results of the jobs: `src/protocol/garble.rs:347-352`. -/
def garbleResult (ctx : Ctx F) (g : GarbleCtx F) (p : Nat) (pre : PreProc F) (env : Env (GOut F)) :
    Option (List (List (List F))) :=
  (chunks? ctx.l g.tfOut).bind fun go => (chunks? ctx.l g.tfInp).bind fun gi =>
  (gatesIn ctx g p pre (go.length + gi.length + g.tfOut.length) env).bind fun ins =>
  tablesOf g.lpn g.enc env (go.length + gi.length + g.tfOut.length + g.tfInp.length) (g.circ.gates.map PackedGate.kind) ins

end Verif
