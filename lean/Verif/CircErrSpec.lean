import Verif.LpnErrSpec
import Verif.EndToEndSpec

/-!
# Vocabulary of the statements about undecodable rows in a whole circuit
-/

namespace Verif

variable {F : Type} [CodeField F] [DecidableEq F]

/-- With randomness `tp` some row of the table of some gate gets more than `e` errors.  Slot `x` of a packed gate is the one of the gate with the
output wire `gate.out[x]`; the slots from `gate.out.length` on are not used. -/
def SomeRowFails (ctx : Ctx F) (m mb : Mat F) (d : PreProcCount) (p : PackedCircuit) (mssgLen e : Nat) (tp : PreTapes F) : Prop :=
  ∃ gid gate, p.gates[gid]? = some gate ∧ ∃ r < gate.kind.numRows, ∃ x < gate.out.length,
    ManyErrors ctx m mb d (p.rowErrors mssgLen gid r) x e tp

/-- The number of rows of the garbled tables of all gates. -/
def Circuit.numRows (c : Circuit) : Nat := (c.gates.map fun g => g.kind.numRows).sum

end Verif
