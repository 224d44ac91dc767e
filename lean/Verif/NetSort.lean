import Verif.Cut

/-!
# Certificates for the order in which `pack` puts the gates of a circuit

`pack` sorts the gates of each kind by the fan-outs of their inputs (`src/circuit.rs:253-286`).  A certificate claims the fan-outs,
the order of the gates, and the order of the inputs of the gates by wires, from which the fan-outs can be read off.  All checks
are local; like those of `Verif/Cut.lean` they are evaluated by the kernel.
-/

namespace Verif

/-- The class of a gate: 0 for XOR, 1 for AND, 2 for INV. -/
noncomputable def Net.cls (N : Net) (q : Nat) : Nat :=
  bsel (Nat.blt (codeKind (N.slot q)) 2) (codeKind (N.slot q)) 2

/-- Input `k` of gate `q`. -/
noncomputable def Net.wireAt (N : Net) (q k : Nat) : Nat := bsel (Nat.beq k 0) (codeA (N.slot q)) (codeB (N.slot q))

/-- The wire which is read as `2 * q + k`, input `k` of gate `q`. -/
noncomputable def Net.readAt (N : Net) (e : Nat) : Nat := N.wireAt (Nat.div e 2) (Nat.mod e 2)

/-- Claims for the gates of a class with `K` inputs: their number, the inputs in the order of the wires, the fan-outs, and the
order in which they are packed. -/
structure KindCert where
  cls : Nat
  K : Nat
  cnt : Nat
  reads : Nat → Nat
  fan : Nat → Nat
  order : Nat → Nat

/-- The number of inputs. -/
noncomputable def KindCert.total (C : KindCert) : Nat := Nat.mul C.K C.cnt

/-- Gate `q` is one of the class. -/
noncomputable def KindCert.has (N : Net) (C : KindCert) (q : Nat) : Bool :=
  bsel (Nat.blt q N.numGates) (Nat.beq (N.cls q) C.cls) false

/-- The input after the one at `j`, which is `e` and reads `w`, comes later. -/
noncomputable def KindCert.nextOk (N : Net) (C : KindCert) (j e w : Nat) : Bool :=
  bsel (Nat.blt (Nat.succ j) C.total)
    (Nat.blt (Nat.add (Nat.mul w 1048576) e)
      (Nat.add (Nat.mul (N.readAt (C.reads (Nat.succ j))) 1048576) (C.reads (Nat.succ j)))) true

/-- The input at `j` does not read `w`. -/
noncomputable def KindCert.other (N : Net) (C : KindCert) (w j : Nat) : Bool :=
  bsel (Nat.beq (N.readAt (C.reads j)) w) false true

/-- If the inputs which read `w` begin at `j`, their number is the fan-out. -/
noncomputable def KindCert.runOk (N : Net) (C : KindCert) (j w : Nat) : Bool :=
  bsel (bsel (Nat.beq j 0) true (C.other N w (Nat.sub j 1)))
    (bsel (Nat.blt 0 (C.fan w)) (bsel (Nat.ble (Nat.add j (C.fan w)) C.total)
      (bsel (C.other N w (Nat.sub (Nat.add j (C.fan w)) 1)) false
        (bsel (Nat.beq (Nat.add j (C.fan w)) C.total) true (C.other N w (Nat.add j (C.fan w))))) false) false) true

/-- The checks for the input at `j`. -/
noncomputable def KindCert.readOk (N : Net) (C : KindCert) (j : Nat) : Bool :=
  bsel (C.has N (Nat.div (C.reads j) 2)) (bsel (Nat.blt (Nat.mod (C.reads j) 2) C.K)
    (bsel (C.nextOk N j (C.reads j) (N.readAt (C.reads j))) (C.runOk N j (N.readAt (C.reads j))) false) false) false

/-- Fan-out and wire as one number. -/
noncomputable def KindCert.enc (C : KindCert) (w : Nat) : Nat := Nat.add (Nat.mul (C.fan w) 1048576) w

/-- The key by which gate `q` is sorted. -/
noncomputable def KindCert.key (N : Net) (C : KindCert) (q : Nat) : Nat :=
  bsel (Nat.beq C.K 1) (C.enc (N.wireAt q 0))
    (bsel (Nat.blt (C.enc (N.wireAt q 0)) (C.enc (N.wireAt q 1))) (C.enc (N.wireAt q 1)) (C.enc (N.wireAt q 0)))

/-- The key and the number of the gate at `r`. -/
noncomputable def KindCert.rankKey (N : Net) (C : KindCert) (r : Nat) : Nat :=
  Nat.add (Nat.mul (C.key N (C.order r)) 1048576) (C.order r)

/-- The checks for the gate at `r`; `pos` claims class and place of the gate which drives a wire. -/
noncomputable def KindCert.orderOk (N : Net) (pos : Nat → Nat) (C : KindCert) (r : Nat) : Bool :=
  bsel (C.has N (C.order r)) (bsel (Nat.beq (pos (codeO (N.slot (C.order r)))) (Nat.add (Nat.mul 4 r) C.cls))
    (bsel (Nat.blt (Nat.succ r) C.cnt) (Nat.blt (C.rankKey N r) (C.rankKey N (Nat.succ r))) true) false) false

/-- A certificate for a circuit. -/
structure SortCert where
  xor : KindCert
  and : KindCert
  inv : KindCert
  pos : Nat → Nat

/-- The claims for a class. -/
noncomputable def SortCert.kind (S : SortCert) (κ : Nat) : KindCert := bsel (Nat.beq κ 0) S.xor (bsel (Nat.beq κ 1) S.and S.inv)

/-! ## The last blocks -/

/-- The number of things in full blocks, of `c` things. -/
def fullPart (c l : Nat) : Nat := Nat.mul (Nat.div c l) l

/-- Wire `w` is in a full block. -/
noncomputable def SortCert.wireFull (N : Net) (S : SortCert) (l w : Nat) : Bool :=
  bsel (Nat.blt w (Nat.add N.n1 N.n2)) (Nat.blt w (fullPart (Nat.add N.n1 N.n2) l))
    (Nat.blt (Nat.div (S.pos w) 4) (fullPart (S.kind (Nat.mod (S.pos w) 4)).cnt l))

/-- The last block of class `κ` has at least `free` free places, its inputs `k` are in full blocks, and the gates at `r1` and `r2` in
it read the same wire. -/
noncomputable def SortCert.leakOk (N : Net) (S : SortCert) (l free κ k r1 r2 : Nat) : Bool :=
  bsel (Nat.ble (Nat.add (Nat.sub (S.kind κ).cnt (fullPart (S.kind κ).cnt l)) free) l)
  (bsel (Nat.ble (fullPart (S.kind κ).cnt l) r1) (bsel (Nat.blt r1 r2) (bsel (Nat.blt r2 (S.kind κ).cnt)
    (bsel (Nat.beq (N.wireAt ((S.kind κ).order r1) k) (N.wireAt ((S.kind κ).order r2) k))
      (allFrom (fun r => S.wireFull N l (N.wireAt ((S.kind κ).order r) k)) (fullPart (S.kind κ).cnt l)
        (Nat.sub (S.kind κ).cnt (fullPart (S.kind κ).cnt l))) false) false) false) false) false

/-- The same, from a code for the class, the input and the two places. -/
noncomputable def SortCert.leakCode (N : Net) (S : SortCert) (l free c : Nat) : Bool :=
  S.leakOk N l free (Nat.mod c 2) (Nat.mod (Nat.div c 2) 2) (Nat.mod (Nat.div c 4) 1048576) (Nat.div c 4194304)

/-- Input `k` of the last block of class `κ` has no wire twice. -/
noncomputable def SortCert.nodupOk (N : Net) (S : SortCert) (l κ k : Nat) : Bool :=
  allFrom (fun r => allFrom (fun r' => bsel (Nat.beq (N.wireAt ((S.kind κ).order r) k) (N.wireAt ((S.kind κ).order r') k)) false true)
      (Nat.succ r) (Nat.sub (S.kind κ).cnt (Nat.succ r)))
    (fullPart (S.kind κ).cnt l) (Nat.sub (S.kind κ).cnt (fullPart (S.kind κ).cnt l))

/-- No input of a last block has a wire twice. -/
noncomputable def SortCert.distinctOk (N : Net) (S : SortCert) (l : Nat) : Bool :=
  bsel (S.nodupOk N l 0 0) (bsel (S.nodupOk N l 0 1) (bsel (S.nodupOk N l 1 0) (bsel (S.nodupOk N l 1 1) (S.nodupOk N l 2 0)
    false) false) false) false

end Verif
