import Verif.CircuitSpec

/-!
# Embedded circuit files and certificates for them

`data/circ` of the repository contains three circuits in the Bristol format (64-bit subtraction, AES-128,
the compression function of SHA-256).  They are embedded in `Verif/Data`: the text of a file as string
literals, and the same gates as numbers in a binary tree, which the kernel can look up quickly.  This
module has the definitions used for checking what a circuit computes, gate by gate:

* a *certificate* (`WireCert`) claims for every wire either that it is the exclusive or of some *signals* or
  that it is a given function of the inputs of a given *box*.  A box is a small part of the circuit (an
  S-box, one position of an adder); its functions are truth tables;
* signals can be linear combinations of other signals (`nf`); lists of signals are compared by their
  normal forms;
* `WireCert.ok` checks one gate against the claims for its wires.

The definitions are evaluated by the kernel for every gate, so they use recursors and the functions of
`Nat` which the kernel implements by big number arithmetic.
-/

namespace Verif

/-- Choice by a Boolean, in one step for the kernel (`cond` takes several). -/
noncomputable def bsel {α : Type} (b : Bool) (x y : α) : α := Bool.rec y x b

@[simp] theorem bsel_true {α : Type} (x y : α) : bsel true x y = x := rfl

@[simp] theorem bsel_false {α : Type} (x y : α) : bsel false x y = y := rfl

/-! ## Numbers in a tree -/

/-- Binary trees of numbers; every number packs several entries. -/
inductive BTree
  | lf (n : Nat)
  | nd (l r : BTree)

/-- The number at a position; the lowest bit of the position selects the subtree at the root. -/
noncomputable def BTree.leaf (t : BTree) : Nat → Nat :=
  BTree.rec (fun n _ => n) (fun _ _ l r i =>
    Bool.rec (r (Nat.shiftRight i 1)) (l (Nat.shiftRight i 1)) (Nat.beq (Nat.land i 1) 0)) t

/-- Entry `i`, when every leaf holds `per` entries of `bits` bits. -/
noncomputable def BTree.get (t : BTree) (bits per i : Nat) : Nat :=
  Nat.mod (Nat.shiftRight (t.leaf (Nat.div i per)) (Nat.mul bits (Nat.mod i per))) (Nat.pow 2 bits)

/-! ## Gates as numbers -/

/-- Kind of a gate code: 0 for XOR, 1 for AND, otherwise INV. -/
def codeKind (c : Nat) : Nat := Nat.mod c 4

/-- First input wire. -/
def codeA (c : Nat) : Nat := Nat.mod (Nat.shiftRight c 2) 262144

/-- Second input wire. -/
def codeB (c : Nat) : Nat := Nat.mod (Nat.shiftRight c 20) 262144

/-- Output wire. -/
def codeO (c : Nat) : Nat := Nat.shiftRight c 38

/-- The gate described by kind and wires. -/
def mkCode (k a b o : Nat) : Gate :=
  if k = 0 then .xor ⟨#v[a, b], o⟩ else if k = 1 then .and ⟨#v[a, b], o⟩ else .inv ⟨#v[a], o⟩

/-- The gate a code stands for. -/
def decodeGate (c : Nat) : Gate := mkCode (codeKind c) (codeA c) (codeB c) (codeO c)

/-! ## Circuits with two inputs and one output -/

/-- A circuit given by gate codes: `n1 + n2` input wires, the last `m` wires are the output. -/
structure Net where
  numGates : Nat
  numWires : Nat
  n1 : Nat
  n2 : Nat
  m : Nat
  slot : Nat → Nat

/-- The gates of the circuit. -/
def Net.gates (N : Net) : List Gate := (List.range N.numGates).map fun q => decodeGate (N.slot q)

/-- What the file of the circuit describes. -/
def Net.desc (N : Net) : BristolDesc := ⟨N.numWires, [N.n1, N.n2], [N.m], N.gates⟩

/-- The circuit `from_bristol_fashion` is expected to produce from the file. -/
def Net.circuit (N : Net) : Circuit where
  gates := N.gates
  inputs := [List.range' 0 N.n1, List.range' N.n1 N.n2]
  outputs := [List.range' (N.numWires - N.m) N.m]
  numWires := N.numWires

/-! ## Text -/

/-- Decimal digits of `n` in front of `acc`; `f` bounds the number of digits. -/
noncomputable def digs (f n : Nat) (acc : List Char) : List Char :=
  Nat.rec (fun _ acc => acc) (fun _ r n acc =>
    bsel (Nat.blt n 10) (Char.ofNat (Nat.add 48 n) :: acc)
      (r (Nat.div n 10) (Char.ofNat (Nat.add 48 (Nat.mod n 10)) :: acc))) f n acc

/-- The line of a gate, in front of `rest`. -/
noncomputable def gateLine (c : Nat) (rest : List Char) : List Char :=
  bsel (Nat.beq (codeKind c) 0)
    ('2' :: ' ' :: '1' :: ' ' :: digs 10 (codeA c) (' ' :: digs 10 (codeB c) (' ' :: digs 10 (codeO c)
      (' ' :: 'X' :: 'O' :: 'R' :: '\n' :: rest))))
  (bsel (Nat.beq (codeKind c) 1)
    ('2' :: ' ' :: '1' :: ' ' :: digs 10 (codeA c) (' ' :: digs 10 (codeB c) (' ' :: digs 10 (codeO c)
      (' ' :: 'A' :: 'N' :: 'D' :: '\n' :: rest))))
    ('1' :: ' ' :: '1' :: ' ' :: digs 10 (codeA c) (' ' :: digs 10 (codeO c)
      (' ' :: 'I' :: 'N' :: 'V' :: '\n' :: rest))))

/-- The lines of `k` gates from gate `q` on, in front of `rest`. -/
noncomputable def gateLines (slot : Nat → Nat) (k q : Nat) (rest : List Char) : List Char :=
  Nat.rec (fun _ => rest) (fun _ r q => gateLine (slot q) (r (Nat.succ q))) k q

/-- The first four lines of the file. -/
noncomputable def Net.headText (N : Net) : List Char :=
  digs 10 N.numGates (' ' :: digs 10 N.numWires ('\n' ::
    '2' :: ' ' :: digs 10 N.n1 (' ' :: digs 10 N.n2 (' ' :: '\n' ::
    '1' :: ' ' :: digs 10 N.m (' ' :: '\n' :: '\n' :: [])))))

/-- The text of blocks of gate lines. -/
noncomputable def Net.block (N : Net) (size j : Nat) : String :=
  String.ofList (gateLines N.slot (min size (N.numGates - size * j)) (size * j) [])

/-! ## Certificates -/

/-- What is claimed about a wire: it is the exclusive or of signals, or a function of the inputs of a
box. -/
inductive Claim
  | sig (vs : List Nat)
  | box (b node : Nat)

/-- A certificate: the claims, the normal forms of signals (as sets of base signals, given by the bits of a
number below `2 ^ size`), the function a box computes when it is fed a signal directly, the truth tables
of the functions, the signals a function of a box equals, the signal which is always true, the truth
table which is always true. -/
structure WireCert where
  claim : Nat → Claim
  size : Nat
  nf : Nat → Nat
  inNode : Nat → Nat → Option Nat
  table : Nat → Nat
  out : Nat → Nat → Option (List Nat)
  one : Nat
  full : Nat

/-- Normal form of an exclusive or of signals. -/
noncomputable def WireCert.mask (C : WireCert) (vs : List Nat) : Nat :=
  List.rec 0 (fun v _ m => Nat.xor (C.nf v) m) vs

/-- Normal form of a claim, if it is about signals. -/
noncomputable def WireCert.sigOf (C : WireCert) (c : Claim) : Option Nat :=
  Claim.rec (fun vs => some (C.mask vs))
    (fun b n => Option.rec none (fun vs => some (C.mask vs)) (C.out b n)) c

/-- Truth table of a single signal in a box. -/
noncomputable def WireCert.sigTab (C : WireCert) (b : Nat) (vs : List Nat) : Option Nat :=
  List.rec none (fun v vs _ => List.rec
    (Option.rec none (fun n => some (C.table n)) (C.inNode b v)) (fun _ _ _ => none) vs) vs

/-- Truth table, over the inputs of box `b`, of a claim. -/
noncomputable def WireCert.tabOf (C : WireCert) (b : Nat) (c : Claim) : Option Nat :=
  Claim.rec (fun vs => C.sigTab b vs)
    (fun b' n => bsel (Nat.beq b' b) (some (C.table n))
      (Option.rec none (fun vs => C.sigTab b vs) (C.out b' n))) c

/-- Compare a function of two numbers with a number. -/
noncomputable def eq2 (f : Nat → Nat → Nat) (x y : Option Nat) (z : Nat) : Bool :=
  Option.rec false (fun x => Option.rec false (fun y => Nat.beq (f x y) z) y) x

/-- The claims for the wires of a gate are consistent with the gate. -/
noncomputable def WireCert.ok (C : WireCert) (k a b o : Nat) : Bool :=
  Claim.rec
    (fun vs => bsel (Nat.beq k 0) (eq2 Nat.xor (C.sigOf (C.claim a)) (C.sigOf (C.claim b)) (C.mask vs))
      (bsel (Nat.beq k 1) false (eq2 Nat.xor (C.sigOf (C.claim a)) (some (C.nf C.one)) (C.mask vs))))
    (fun x n => bsel (Nat.beq k 0)
      (eq2 Nat.xor (C.tabOf x (C.claim a)) (C.tabOf x (C.claim b)) (C.table n))
      (bsel (Nat.beq k 1) (eq2 Nat.land (C.tabOf x (C.claim a)) (C.tabOf x (C.claim b)) (C.table n))
        (eq2 Nat.xor (C.tabOf x (C.claim a)) (some C.full) (C.table n)))) (C.claim o)

/-- The check for the gate with a code. -/
noncomputable def WireCert.okCode (C : WireCert) (c : Nat) : Bool := C.ok (codeKind c) (codeA c) (codeB c) (codeO c)

/-- The claim for wire `w` says that it is signal `v`. -/
noncomputable def WireCert.isSig (C : WireCert) (w v : Nat) : Bool :=
  Option.rec false (fun m => Nat.beq m (C.nf v)) (C.sigOf (C.claim w))

/-- A claim from its code: the lowest bit says whether it is about signals, which are then given by an entry
of a dictionary. -/
noncomputable def claimOf (dict : Nat → List Nat) (c : Nat) : Claim :=
  bsel (Nat.beq (Nat.mod c 2) 0)
    (.box (Nat.mod (Nat.shiftRight c 9) 131072) (Nat.mod (Nat.shiftRight c 1) 256))
    (.sig (dict (Nat.mod (Nat.shiftRight c 1) 33554432)))

/-! ## Well-formedness -/

/-- Wire `w` is an input or the output of a gate before gate `q`; `rank` claims the position of the gate
driving a wire. -/
noncomputable def Net.wireOk (N : Net) (rank : Nat → Nat) (q w : Nat) : Bool :=
  bsel (Nat.blt w (Nat.add N.n1 N.n2)) true
    (bsel (Nat.blt (rank w) q) (Nat.beq (codeO (N.slot (rank w))) w) false)

/-- Gate `q` reads wires which are known and drives a new one, in range. -/
noncomputable def Net.gateOk (N : Net) (rank : Nat → Nat) (q : Nat) : Bool :=
  (fun c => bsel (Nat.blt (codeO c) N.numWires) (bsel (Nat.ble (Nat.add N.n1 N.n2) (codeO c))
    (bsel (Nat.beq (rank (codeO c)) q) (bsel (N.wireOk rank q (codeA c))
      (bsel (Nat.ble 2 (codeKind c)) true (N.wireOk rank q (codeB c))) false) false) false) false) (N.slot q)

/-- A check at `k` consecutive positions. -/
noncomputable def allFrom (P : Nat → Bool) (i k : Nat) : Bool :=
  Nat.rec (fun _ => true) (fun _ f i => bsel (P i) (f (Nat.succ i)) false) k i

end Verif
