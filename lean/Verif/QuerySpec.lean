import Verif.GarbleSpec
import Verif.CircuitSpec

/-!
# Vocabulary of the statements about the number of LPN queries
-/

namespace Verif

/-- How often the gates of a circuit read wire `w`. -/
def Circuit.numReads (c : Circuit) (w : Nat) : Nat := (c.gates.flatMap Gate.inWires).count w

/-- Where a packed circuit with blocks of at most `l` gates reads wire `w`: gate block, slot and input number. -/
def PackedCircuit.readSet (c : PackedCircuit) (l w : Nat) : Finset (Nat × Nat × Nat) :=
  (Finset.range c.gates.length ×ˢ (Finset.range l ×ˢ Finset.range 2)).filter fun r => (c.inpWires r.1 r.2.2)[r.2.1]? = some w

/-- The row of a gate's table whose key is made of label `bit` of the wire read as input `i` and label `other` of the wire which is read as the
other input. -/
def readRow (kind : GateKind) (i bit other : Nat) : Nat :=
  match kind with
  | .inv => bit
  | _ => if i = 0 then 2 * bit + other else 2 * other + bit

/-- The wire which is read as the other input of a gate. -/
def PackedCircuit.otherWire (c : PackedCircuit) (gid x i : Nat) : Nat := ((c.inpWires gid (1 - i))[x]?).getD 0

end Verif
