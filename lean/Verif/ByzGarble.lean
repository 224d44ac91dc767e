import Verif.ByzPipe
import Verif.AsyncGarble

/-!
# The runs of `trans` and `mult` of `garble`, with parties which do not follow the protocols

The jobs of `garble` (`Verif.AsyncGarble`) without those of `randtrans`, as runs of `Verif.ByzTrans`: each with what it waits for, its leader, the number
of values, which masks it uses, and how a party computes its input from its material and its results before.
-/

namespace Verif

variable {F : Type}

/-- A run of `trans` or `mult`; the results are numbered as the jobs of `garble`, the runs in `deps` without those of `randtrans`.  The sharings which
`mult` uses start at position `pos` after those for `randtrans`. -/
structure GRun (F : Type) where
  deps : List Nat
  leader : ProtocolID → Nat
  num : Nat
  tapes : List (List F)
  tr : Option (Nat × Nat)
  pos : Nat
  input : Nat → Env (GOut F) → Option (List F)

/-- The run with protocol ID `id`. -/
def GRun.job (r : GRun F) (id : ProtocolID) : MkJob F := ⟨id, r.deps, r.leader id, r.num, r.tapes, r.tr⟩

variable [CodeField F]

/-- The material without the values of the random sharings and the sharings of zero. -/
def PreProc.blank (pr : PreProc F) : PreProc F := { pr with randoms := pr.randoms.map fun _ => 0, zeros := pr.zeros.map fun _ => 0 }

/-- The products which `mult` reduces, `src/protocol/core.rs:86-100`. -/
def multIn (a : Option (List F × List F × List F × List F)) : Option (List F) :=
  a.bind fun i => if i.1.length = i.2.1.length then some (vmul i.1 i.2.1) else none

/-- The multiplications of a gate, `src/protocol/garble.rs:240-344`, whose runs start with number `off`; the results of run `j` have number `R + j`,
and the sharings which the gate uses start at position `mat`. -/
def gateRuns (lead : ProtocolID → Nat) (keyLen : Nat) (deps : List Nat) (gin : Nat → Env (GOut F) → Option (GateIn F)) (R off mat : Nat)
    (tp : GateTapes F) : GateKind → List (GRun F)
  | .and => [
      ⟨deps, lead, 1, tp.first, none, mat + 3 * (keyLen + 1), fun p env => multIn ((gin p env).bind (andFirst keyLen))⟩,
      ⟨off :: deps, lead, 3 * (keyLen + 1), tp.second, none, mat, fun p env => multIn ((gin p env).bind fun i =>
        ((env (R + off)).bind GOut.vec?).bind fun prod => andSecond keyLen i prod)⟩]
  | .xor => [⟨deps, lead, keyLen + 1, tp.second, none, mat, fun p env => multIn ((gin p env).bind (xorArgs keyLen))⟩]
  | .inv => [⟨deps, lead, keyLen + 1, tp.second, none, mat, fun p env => multIn ((gin p env).bind (invArgs keyLen))⟩]

/-- The multiplications of all gates, `src/protocol/garble.rs:229-350`. -/
def gatesRuns (lead : ProtocolID → Nat) (keyLen : Nat) (deps : List Nat) (gins : Nat → Env (GOut F) → Option (List (GateIn F))) (R : Nat) :
    Nat → Nat → Nat → List (GateKind × GateTapes F) → List (GRun F)
  | _, _, _, [] => []
  | off, mat, gid, (kind, tp) :: gs =>
    gateRuns lead keyLen deps (fun p env => (gins p env).bind fun l => l[gid]?) R off mat tp kind ++
      gatesRuns lead keyLen deps gins R (off + kind.numJobs) (mat + kind.numMult keyLen) (gid + 1) gs

variable [DecidableEq F]

/-- The runs of `trans` and `mult` of `garble`, `src/protocol/garble.rs:173-345`; `go` and `gi` are the groups of transformations of output wires and of gate
inputs, one run of `randtrans` each.  Party `p` has the masks, keys and errors of `sec p`. -/
def garbleRuns (ctx : Ctx F) (g : GarbleCtx F) (lead : ProtocolID → Nat) (tp : GarbleTapes F) (sec : Nat → PreProc F)
    (go gi : List (List (SharingTransform F))) : List (GRun F) :=
  ((g.tfOut.zip tp.out).zipIdx.map fun a => ⟨[], fun _ => a.2 % ctx.n, 2 * g.lpn.keyLen + 1, a.1.2, some (a.2 / ctx.l, a.2 % ctx.l), 0,
    fun p _ => (outInput g.circ.blocks.length g.lpn.keyLen (sec p)).bind fun inp => inp[a.2]?⟩) ++
  ((g.tfInp.zip tp.inp).zipIdx.map fun a => ⟨List.range g.tfOut.length, fun _ => a.2 % ctx.n, 2 * g.lpn.keyLen + 1, a.1.2,
    some (go.length + a.2 / ctx.l, a.2 % ctx.l), 0, fun p env => (transformed g.tfOut (2 * g.lpn.keyLen + 1) (go.length + gi.length) env).bind fun out =>
      (selectAll ctx.n ctx.l p (2 * g.lpn.keyLen + 1) g out).bind fun inp => inp[a.2]?⟩) ++
  gatesRuns lead g.lpn.keyLen ((List.range g.tfInp.length).map (g.tfOut.length + ·))
    (fun p env => gatesIn ctx g p (sec p).blank (go.length + gi.length + g.tfOut.length) env) (go.length + gi.length)
    (g.tfOut.length + g.tfInp.length) 0 0 ((g.circ.gates.map PackedGate.kind).zip tp.gates)

/-- The runs of `randtrans`, `src/protocol/garble.rs:153-171`. -/
def garbleRts (g : GarbleCtx F) (go gi : List (List (SharingTransform F))) : List (RtRun F) := (go ++ gi).map fun grp => ⟨grp, 2 * g.lpn.keyLen + 1⟩

/-- The runs with their protocol IDs. -/
def runJobs (ids : List ProtocolID) (runs : List (GRun F)) : List (MkJob F) := (ids.zip runs).map fun s => s.2.job s.1

/-- A party's results of the runs, numbered as the jobs of `garble`. -/
def jobResults (R : Nat) (env : Env (List F)) : Env (GOut F) := fun j => if R ≤ j then (env (j - R)).map .vec else none

/-- What party `p` uses as input of run `k`.  (If something were wrong with the number of values, which `C131_inputs` excludes, the party would panic;
here it takes zeros.) -/
def runInputs (R : Nat) (runs : List (GRun F)) (k p : Nat) (env : Env (List F)) : List F :=
  match runs[k]? with
  | none => []
  | some r =>
    match r.input p (jobResults R env) with
    | none => List.replicate r.num 0
    | some v => if v.length = r.num then v else List.replicate r.num 0

/-- Which results of `rand` and `zero` the runs use, if the sharings of `garble` start with numbers `b` and `bz`: `src/protocol/garble.rs:153-171`, `256-264`,
`296-297`, `327-328`. -/
def garbleUses (ctx : Ctx F) (g : GarbleCtx F) (go gi : List (List (SharingTransform F))) (ids : List ProtocolID) (runs : List (GRun F)) (b bz : Nat) :
    Uses (Use (garbleRts g go gi) (runJobs ids runs)) where
  rand
    | .inl k, i => b + ((go.length + gi.length) * ((ctx.n + ctx.t) * (2 * g.lpn.keyLen + 1)) + (((runs[k.1]?).map GRun.pos).getD 0 + i))
    | .inr v, i => b + (v * ((ctx.n + ctx.t) * (2 * g.lpn.keyLen + 1)) + i)
  zero
    | .inl k, i => bz + ((go.length + gi.length) * (2 * ctx.n * (2 * g.lpn.keyLen + 1)) + (((runs[k.1]?).map GRun.pos).getD 0 + i))
    | .inr v, i => bz + (v * (2 * ctx.n * (2 * g.lpn.keyLen + 1)) + i)

/-- Run `r` is what job `job` does: it waits for the same jobs apart from `randtrans`, it is `reduce_degree` or `trans` with the same leader, transformation
and tapes; a party with material `pre` which gets to the run has the input of `r`, whatever the results of `randtrans` are, and masks with the entries
`R * A + pos`, ... of its random sharings and `R * B + pos`, ... of its sharings of zero, or with row `i` of the results of `randtrans` number `v`. -/
def GRun.Is (c : Codec F) (ctx : Ctx F) (gs : List (RtRun F)) (pre : List (PreProc F)) (R A B : Nat) (r : GRun F) (job : Job (GOut F)) : Prop :=
  job.deps.filter (R ≤ ·) = r.deps.map (R + ·) ∧
  ∃ inp : Nat → Env (GOut F) → Option (List F × List F × List F),
    job.proto = (match r.tr with
      | none => rdProto c ctx (r.leader job.id) r.tapes inp .vec
      | some (v, i) => transProto c ctx (tfOf gs v i) (r.leader job.id) r.tapes inp .vec) ∧
    ∀ p env m, (∀ v a b, env v = some (.rt a b) → a.length = ctx.l ∧ b.length = ctx.l) → inp p env = some m →
      (∀ env', (∀ j, R ≤ j → env' j = env j) → r.input p env' = some m.1) ∧
      match r.tr with
      | none => ∃ pr, pre[p]? = some pr ∧ m.2.1 = (pr.randoms.drop (R * A + r.pos)).take r.num ∧ R * A + r.pos + r.num ≤ pr.randoms.length ∧
          m.2.2 = (pr.zeros.drop (R * B + r.pos)).take r.num ∧ R * B + r.pos + r.num ≤ pr.zeros.length
      | some (v, i) => ∃ a b, env v = some (.rt a b) ∧ a[i]? = some m.2.1 ∧ b[i]? = some m.2.2

/-- The material has the sizes which are asked for. -/
structure PreProc.Fits (pr : PreProc F) (d : PreProcCount) : Prop where
  masks : pr.masks.length = d.masks
  keys : pr.keys.shape = d.keys ∧ pr.keys.flat.length = d.numKeys
  randoms : pr.randoms.length = d.randoms
  zeros : pr.zeros.length = d.zeros
  errors : pr.errors.length = d.errors

end Verif
