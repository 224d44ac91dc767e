import Verif.EvalSpec
import Verif.QuerySpec

/-!
# Vocabulary of the statements about LPN matrices which are used for two gates
-/

namespace Verif

/-- No LPN matrix is used with two keys which contain labels of one wire: gates which read a wire in the same slot hash different strings. -/
def PackedCircuit.MatrixOnce (c : PackedCircuit) (l : Nat) : Prop :=
  ∀ g g' i i' x w, g ≠ g' → x < l → (c.inpWires g i)[x]? = some w → (c.inpWires g' i')[x]? = some w → c.nonceString l g ≠ c.nonceString l g'

/-- Two gates, in slot `x` of blocks `g1` and `g2`, use the same LPN matrix, and read wire `w`, as input `i1` and as input `i2`. -/
structure SameMatrix (p : PackedCircuit) (l : Nat) (place : Nat → Nat × Nat) (gt1 gt2 : Gate) (g1 g2 x i1 i2 w : Nat) : Prop where
  place1 : place gt1.outWire = (p.inputs.length + g1, x)
  place2 : place gt2.outWire = (p.inputs.length + g2, x)
  nonce : p.nonceString l g1 = p.nonceString l g2
  read1 : gt1.inWires[i1]? = some w
  read2 : gt2.inWires[i2]? = some w

variable {F : Type} [CodeField F] [DecidableEq F]

/-- What the wire which is not input `i` of a gate contributes to the key of a row: label `o` of this wire, or nothing if there is no such wire. -/
def partnerKey (S : Scheme F) (gt : Gate) (i o b : Nat) : F :=
  match gt.kind with
  | .inv => 0
  | _ => S.key (gt.inWires.getD (1 - i) 0) o b

/-- Someone who knows the message `m1` of row `r` of a gate's table gets the message `m` of the same row of another gate's table from the difference of
the two rows, correcting at most `e` errors.  Of the labels of the input wires, only `k1 - k2` is used, where `k1` and `k2` are labels of one input
wire of the first and of the second gate. -/
def DiffDecrypts (hash : List Nat → List Nat) (rng : List Nat → Nat → F) (ctx : Ctx F) (lpn : LpnParams) (enc : Mat F) (p : PackedCircuit)
    (place : Nat → Nat × Nat) (results : List (List (List (List F)))) (e : Nat) (gt1 gt2 : Gate) (r : Nat) (k1 k2 : Nat → F) (m1 m : List F) :
    Prop :=
  ∃ g1 g2 x ws1 ws2 row1 row2 code, place gt1.outWire = (p.inputs.length + g1, x) ∧ place gt2.outWire = (p.inputs.length + g2, x) ∧
    p.blocks[p.inputs.length + g1]? = some ws1 ∧ p.blocks[p.inputs.length + g2]? = some ws2 ∧
    openRow ctx lpn.mssgLen ws1.length results g1 r x = some row1 ∧ openRow ctx lpn.mssgLen ws2.length results g2 r x = some row2 ∧
    m.length = lpn.keyLen + 1 ∧ enc.mulVec (List.zipWith (· - ·) m1 m) = some code ∧
    hdist code (unmaskRow rng ctx.l lpn (hash (p.nonceString ctx.l g1)) (fun b => k1 b - k2 b) r x (List.zipWith (· - ·) row1 row2)) ≤ e

end Verif
