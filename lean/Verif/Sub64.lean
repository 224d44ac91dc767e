import Verif.Data.Sub64Data
import Verif.Data.Sub64Text

/-!
# The circuit `data/circ/sub64.txt` and its certificate

Signals: `i` is bit `i` of the first input, `64 + i` bit `i` of the second, `128 + i` the borrow into
position `i`, `192 + i` bit `i` of the difference, 256 is always true.  Box `i` is position `i`: its inputs
are the two bits and the borrow, and its functions are the 8-bit truth tables themselves.
-/

namespace Verif

open Data

/-- The contents of `data/circ/sub64.txt`. -/
def sub64Text : String := sub64Head ++ String.join sub64Blocks ++ sub64Tail

/-- The gates of `data/circ/sub64.txt`. -/
noncomputable def sub64Net : Net := ⟨439, 567, 64, 64, 64, fun q => sub64GateTree.get 56 64 q⟩

/-- Position of the gate driving a wire. -/
noncomputable def sub64Rank (w : Nat) : Nat := Nat.shiftRight (sub64WireTree.get 44 64 w) 26

/-- Truth tables of the inputs of box `b`. -/
noncomputable def sub64In (b v : Nat) : Option Nat :=
  bsel (Nat.blt b 64) (bsel (Nat.beq v b) (some 0xAA) (bsel (Nat.beq v (Nat.add 64 b)) (some 0xCC)
    (bsel (Nat.beq v (Nat.add 128 b)) (some 0xF0) none))) none

/-- Functions which are signals: the difference, and the borrow into the next position.  There is no borrow
into position 0, whose functions are simpler. -/
noncomputable def sub64Out (b n : Nat) : Option (List Nat) :=
  bsel (Nat.beq b 0) (bsel (Nat.beq n 0x66) (some [192]) (bsel (Nat.beq n 0x44) (some [129]) none))
    (bsel (Nat.blt b 64) (bsel (Nat.beq n 0x96) (some [Nat.add 192 b])
      (bsel (Nat.beq n 0xD4) (bsel (Nat.blt b 63) (some [Nat.add 129 b]) none) none)) none)

/-- The certificate of the circuit. -/
noncomputable def sub64Cert : WireCert where
  claim w := claimOf (fun v => [v]) (sub64WireTree.get 44 64 w)
  size := 257
  nf v := Nat.shiftLeft 1 v
  inNode := sub64In
  table n := n
  out := sub64Out
  one := 256
  full := 255

end Verif
