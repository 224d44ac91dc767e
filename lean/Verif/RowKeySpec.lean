import Verif.EvalSpec
import Verif.LpnErrSpec

/-!
# Vocabulary of the statements about the keys of the rows of garbled tables
-/

namespace Verif

variable {F : Type} [CodeField F] [DecidableEq F]

/-- The run of `preproc` with randomness `tp` shares keys with which row `r` of the table of gate `gt` is encrypted with the key `K`. -/
def RowKeyIs (ctx : Ctx F) (m mb : Mat F) (d : PreProcCount) (k : Nat) (place : Nat → Nat × Nat) (gt : Gate) (r : Nat) (K : Nat → F)
    (tp : PreTapes F) : Prop :=
  ∃ pre keys, preproc ctx m mb d tp = some pre ∧
    VecSharing ctx.n (ctx.t + ctx.l) (defaultPos ctx.n ctx.l) keys (pre.map fun p => p.keys.flat) ∧
    ∀ j < k, readKey gt.kind k keys (fun i => (place (gt.inWires.getD i 0)).1) (fun i => (place (gt.inWires.getD i 0)).2) r j = K j

/-- Someone who holds no label gets the message `m` from row `r` of the table of a gate, correcting at most `e` errors: nothing is subtracted from the
row. -/
def ReadsClear (ctx : Ctx F) (lpn : LpnParams) (enc : Mat F) (p : PackedCircuit) (place : Nat → Nat × Nat)
    (results : List (List (List (List F)))) (e : Nat) (gt : Gate) (r : Nat) (m : List F) : Prop :=
  ∃ gid x ws row code, place gt.outWire = (p.inputs.length + gid, x) ∧ p.blocks[p.inputs.length + gid]? = some ws ∧
    openRow ctx lpn.mssgLen ws.length results gid r x = some row ∧ m.length = lpn.keyLen + 1 ∧ enc.mulVec m = some code ∧ hdist code row ≤ e

end Verif
