import Verif.GarbleSpec
import Verif.CircuitSpec

/-!
# Vocabulary of the statement about `preproc` followed by `garble`

The statement speaks about the gates and wires of the circuit file; blocks and slots enter only through the places of the
wires.
-/

namespace Verif

/-- The circuit of the file is in order: gates in topological order, every wire driven at most once, and all outputs driven. -/
structure BristolDesc.Proper (d : BristolDesc) : Prop where
  valid : d.Valid
  topo : Topological (List.range d.inpLens.sum) d.gates
  outputs : ∀ w, d.numWires - d.outLens.sum ≤ w → w < d.numWires → w < d.inpLens.sum ∨ ∃ g ∈ d.gates, g.outWire = w

/-- Kind of a gate. -/
def Gate.kind : Gate → GateKind
  | .xor _ => .xor
  | .and _ => .and
  | .inv _ => .inv

variable {F : Type} [CodeField F]

/-- The shares of all parties of entry `(r, a)` of table `gid`; `results` lists the parties' tables. -/
def entryShares (results : List (List (List (List F)))) (gid r a : Nat) : Option (List F) :=
  results.mapM fun T => ((T[gid]?).bind fun t => t[r]?).bind fun row => row[a]?

/-- The places (block and slot) of the wires: the inputs of the circuit and the outputs of its gates. -/
def Places (d : BristolDesc) (p : PackedCircuit) (place : Nat → Nat × Nat) : Prop :=
  ∀ w, (w < d.inpLens.sum ∨ ∃ g ∈ d.gates, g.outWire = w) → p.Drives (place w).1 (place w).2 w

/-- The parties' tables contain the garbled gate `gt`.  Some slot `x` of some table `gid` is its own, namely the one in which its
output wire lives.  For every row and column of the table, the parties' shares are consistent, and slot `x` of the secret is the LPN
encryption of the label of the output wire, whose number is that of the masked result of the gate for this row (`rowBit`), with the
sum of the labels of the input wires as `garble` reads them (`readKey`). -/
def GarbledGate [DecidableEq F] (hash : List Nat → List Nat) (rng : List Nat → Nat → F) (ctx : Ctx F) (lpn : LpnParams) (enc : Mat F) (p : PackedCircuit)
    (masks keys errors : List (List F)) (place : Nat → Nat × Nat) (mask : Nat → Nat)
    (results : List (List (List (List F)))) (gt : Gate) : Prop :=
  ∃ gid x width, place gt.outWire = (p.inputs.length + gid, x) ∧
    (∃ ws, p.blocks[p.inputs.length + gid]? = some ws ∧ ws.length = width) ∧
    ∀ r < gt.kind.numRows, ∀ a < lpn.mssgLen, ∃ shares ps secrets,
      entryShares results gid r a = some shares ∧
      PackedSharing.new (ctx.t + 2 * ctx.l - 2) ctx.n ((defaultPos ctx.n ctx.l).take width) = some ps ∧
      ps.recon shares = some (.ok secrets) ∧
      secrets[x]? = some (rowSecret rng ctx.l lpn enc (hash (p.nonceString ctx.l gid))
        (readKey gt.kind lpn.keyLen keys (fun i => (place (gt.inWires.getD i 0)).1) (fun i => (place (gt.inWires.getD i 0)).2) r)
        (fun j => labelMsg lpn.keyLen p.blocks.length masks keys (p.inputs.length + gid)
          (rowBit gt.kind r (mask (gt.inWires.getD 0 0)) (mask (gt.inWires.getD 1 0)) (mask gt.outWire)) j x)
        (at2 errors (p.errorIdx lpn.mssgLen gid r a) x) r a x)

/-- The secrets of the material: masks are the bits `mask`, and every error is the product of two bits and some scalar, slot by
slot. -/
structure GoodSecrets (p : PackedCircuit) (masks errors : List (List F)) (place : Nat → Nat × Nat) (mask : Nat → Nat) : Prop where
  masks : ∀ w, p.Drives (place w).1 (place w).2 w → mask w < 2 ∧ at2 masks (place w).1 (place w).2 = (mask w : F)
  errors : ∀ e ∈ errors, ∃ b0 b1 s : List F, (∀ x ∈ b0, x = 0 ∨ x = 1) ∧ (∀ x ∈ b1, x = 0 ∨ x = 1) ∧
    e = List.zipWith (· * ·) (List.zipWith (· * ·) b0 b1) s

end Verif
