import Verif.Data.ShaData
import Verif.Data.ShaText00
import Verif.Data.ShaText01
import Verif.Data.ShaText02
import Verif.Data.ShaText03
import Verif.Data.ShaText04
import Verif.Data.ShaText05
import Verif.Data.ShaText06
import Verif.Data.ShaText07
import Verif.Data.ShaText08
import Verif.Data.ShaText09
import Verif.Data.ShaText10

/-!
# The circuit `data/circ/sha256.txt` and its certificate

The words of the computation have numbers `16 u + s`, where `s` is

* 0: word `u` of the message schedule;
* 1: output word `u` for `u < 8`, and for `16 ≤ u` the sum of word `u - 16` of the schedule and `σ0`;
* 2: the sum of word `u - 7` of the schedule and `σ1`;
* 3, 4: `σ0` and `σ1` for word `u` of the schedule;
* 5, 6: the working variables `a` and `e` after `u - 3` steps (before, the initial `b`, `c`, `d` and `f`, `g`, `h`);
* 7, 8: `Σ1` and `Ch` in step `u + 1`;
* 9: the sum of `h` and the message word;
* 10: the sum of `Σ1` and `Ch`;
* 11: the sum of 9 and 10;
* 12: the sum of 11 and the constant;
* 13, 14: `Σ0` and `Maj`;
* 15: the sum of `Σ0` and `Maj`.

A box is a position `k` of an addition, of `Ch` or of `Maj`, with number `32 n + k` for the word `n`; its nodes are
truth tables over two bits and the carry, or three bits.  Signals are bit `k` of word `n`, `32 n + k`, and the carry
into position `k`, `34816 + 32 n + k`; 69632 is always true.
-/

namespace Verif

open Data

/-- The contents of `data/circ/sha256.txt`. -/
def shaText : String :=
  shaHead ++ String.join (shaBlocks00 ++ shaBlocks01 ++ shaBlocks02 ++ shaBlocks03 ++ shaBlocks04 ++ shaBlocks05
    ++ shaBlocks06 ++ shaBlocks07 ++ shaBlocks08 ++ shaBlocks09 ++ shaBlocks10) ++ shaTail

/-- The gates of `data/circ/sha256.txt`. -/
noncomputable def shaNet : Net := ⟨135073, 135841, 512, 256, 256, fun q => shaGateTree.get 56 64 q⟩

/-- Position of the gate driving a wire. -/
noncomputable def shaRank (w : Nat) : Nat := Nat.shiftRight (shaWireTree.get 44 64 w) 26

/-- Up to two signals of 17 bits from a number; 0 ends the list. -/
noncomputable def shaSigs (c : Nat) : List Nat :=
  bsel (Nat.beq c 0) [] (Nat.sub (Nat.mod c 131072) 1 ::
    bsel (Nat.blt c 131072) [] [Nat.sub (Nat.div c 131072) 1])

/-- Claim for a wire. -/
noncomputable def shaClaim (w : Nat) : Claim :=
  claimOf (fun i => shaSigs (shaSigTree.get 34 64 i)) (shaWireTree.get 44 64 w)

/-! ## Words -/

/-- How a word is made from others: sum, sum with a constant, `Ch`, `Maj`, exclusive or of the word rotated by
three distances, the same with a shift instead of the third rotation. -/
inductive ShaOp
  | none
  | add (x y : Nat)
  | addk (x c : Nat)
  | ch (x y z : Nat)
  | maj (x y z : Nat)
  | rot (x i j k : Nat)
  | shf (x i j k : Nat)

/-- An operation only for `lo ≤ u < hi`. -/
noncomputable def shaIf (lo hi u : Nat) (o : ShaOp) : ShaOp := bsel (Nat.ble lo u) (bsel (Nat.blt u hi) o .none) .none

/-- Word `s` of group `u`. -/
def shaNum (u s : Nat) : Nat := Nat.add (Nat.mul 16 u) s

/-- The operation for word `s` of group `u`. -/
noncomputable def shaOpAt (u s : Nat) : ShaOp :=
  bsel (Nat.blt s 8)
    (bsel (Nat.blt s 4)
      (bsel (Nat.blt s 2)
        (bsel (Nat.beq s 0) (shaIf 16 64 u (.add (shaNum u 1) (shaNum u 2)))
          (bsel (Nat.blt u 4) (.add (shaNum (Nat.sub 3 u) 5) (shaNum (Nat.sub 67 u) 5))
            (bsel (Nat.blt u 8) (.add (shaNum (Nat.sub 7 u) 6) (shaNum (Nat.sub 71 u) 6))
              (shaIf 16 64 u (.add (shaNum (Nat.sub u 16) 0) (shaNum u 3))))))
        (bsel (Nat.beq s 2) (shaIf 16 64 u (.add (shaNum (Nat.sub u 7) 0) (shaNum u 4)))
          (shaIf 16 64 u (.shf (shaNum (Nat.sub u 15) 0) 7 18 3))))
      (bsel (Nat.blt s 6)
        (bsel (Nat.beq s 4) (shaIf 16 64 u (.shf (shaNum (Nat.sub u 2) 0) 17 19 10))
          (shaIf 4 68 u (.add (shaNum (Nat.sub u 4) 12) (shaNum (Nat.sub u 4) 15))))
        (bsel (Nat.beq s 6) (shaIf 4 68 u (.add (shaNum (Nat.sub u 4) 5) (shaNum (Nat.sub u 4) 12)))
          (shaIf 0 64 u (.rot (shaNum (Nat.add u 3) 6) 6 11 25)))))
    (shaIf 0 64 u (bsel (Nat.blt s 12)
      (bsel (Nat.blt s 10)
        (bsel (Nat.beq s 8) (.ch (shaNum (Nat.add u 3) 6) (shaNum (Nat.add u 2) 6) (shaNum (Nat.add u 1) 6))
          (.add (shaNum u 6) (shaNum u 0)))
        (bsel (Nat.beq s 10) (.add (shaNum u 7) (shaNum u 8)) (.add (shaNum u 9) (shaNum u 10))))
      (bsel (Nat.blt s 14)
        (bsel (Nat.beq s 12) (.addk (shaNum u 11) (shaKTree.leaf u)) (.rot (shaNum (Nat.add u 3) 5) 2 13 22))
        (bsel (Nat.beq s 14) (.maj (shaNum (Nat.add u 3) 5) (shaNum (Nat.add u 2) 5) (shaNum (Nat.add u 1) 5))
          (.add (shaNum u 13) (shaNum u 14))))))

/-- The operation for word `n`. -/
noncomputable def shaOp (n : Nat) : ShaOp := shaOpAt (Nat.div n 16) (Nat.mod n 16)

/-! ## Signals -/

/-- Bit `k` of word `n`. -/
def shaBit (n k : Nat) : Nat := Nat.add (Nat.mul 32 n) k

/-- The exclusive or of one signal. -/
def shaOne (v : Nat) : Nat := Nat.shiftLeft 1 v

/-- Normal form of a signal: the words made by rotations and shifts are exclusive ors of others. -/
noncomputable def shaNf (v : Nat) : Nat :=
  bsel (Nat.blt v 34816)
    (ShaOp.rec (shaOne v) (fun _ _ => shaOne v) (fun _ _ => shaOne v) (fun _ _ _ => shaOne v)
      (fun _ _ _ => shaOne v)
      (fun x i j l => Nat.xor (shaOne (shaBit x (Nat.mod (Nat.add (Nat.mod v 32) i) 32)))
        (Nat.xor (shaOne (shaBit x (Nat.mod (Nat.add (Nat.mod v 32) j) 32)))
          (shaOne (shaBit x (Nat.mod (Nat.add (Nat.mod v 32) l) 32)))))
      (fun x i j l => Nat.xor (shaOne (shaBit x (Nat.mod (Nat.add (Nat.mod v 32) i) 32)))
        (Nat.xor (shaOne (shaBit x (Nat.mod (Nat.add (Nat.mod v 32) j) 32)))
          (bsel (Nat.blt (Nat.add (Nat.mod v 32) l) 32) (shaOne (shaBit x (Nat.add (Nat.mod v 32) l))) 0)))
      (shaOp (Nat.div v 32)))
    (shaOne v)

/-! ## Boxes -/

/-- The node of an input: one of three signals. -/
noncomputable def shaPick (x y z v : Nat) : Option Nat :=
  bsel (Nat.beq v x) (some 0xAA) (bsel (Nat.beq v y) (some 0xCC) (bsel (Nat.beq v z) (some 0xF0) none))

/-- The constant has its lowest one below position `k`, at `k - 1`. -/
def shaLow (c k : Nat) : Bool := Nat.beq (Nat.mul 2 (Nat.mod c (Nat.pow 2 k))) (Nat.pow 2 k)

/-- Inputs of boxes.  In an addition of a constant whose lowest one is at `k - 1` the carry into position `k` is
bit `k - 1` of the word, and the complement of bit `k - 1` of the sum. -/
noncomputable def shaIn (b v : Nat) : Option Nat :=
  (fun n k => ShaOp.rec none
    (fun x y => shaPick (shaBit x k) (shaBit y k) (Nat.add 34816 b) v)
    (fun x c => bsel (Nat.beq v (shaBit x k)) (some 0xAA) (bsel (Nat.beq v (Nat.add 34816 b)) (some 0xF0)
      (bsel (shaLow c k) (bsel (Nat.beq (Nat.add v 1) (shaBit x k)) (some 0xF0)
        (bsel (Nat.beq (Nat.add v 1) b) (some 0x0F) none)) none)))
    (fun x y z => shaPick (shaBit x k) (shaBit y k) (shaBit z k) v)
    (fun x y z => shaPick (shaBit x k) (shaBit y k) (shaBit z k) v)
    (fun _ _ _ _ => none) (fun _ _ _ _ => none) (shaOp n)) (Nat.div b 32) (Nat.mod b 32)

/-- Node `s` is the signal `v`, node `c` the carry into the next position. -/
noncomputable def shaSum (b k s v c t : Nat) : Option (List Nat) :=
  bsel (Nat.beq t s) (some [v]) (bsel (Nat.beq t c) (bsel (Nat.blt k 31)
    (some [Nat.add 34817 b]) none) none)

/-- Outputs of boxes.  Below the lowest one of a constant, a sum with the constant is the word itself. -/
noncomputable def shaOut (b t : Nat) : Option (List Nat) :=
  (fun n k => ShaOp.rec none
    (fun _ _ => bsel (Nat.beq k 0)
      (shaSum b k 0x66 (bsel (Nat.beq (Nat.mod n 16) 11)
        (bsel (Nat.beq (Nat.mod (shaKTree.leaf (Nat.div n 16)) 2) 0) (Nat.add b 32) b) b) 0x88 t)
      (shaSum b k 0x96 (bsel (Nat.beq (Nat.mod n 16) 11)
        (bsel (Nat.beq (Nat.mod (shaKTree.leaf (Nat.div n 16)) (Nat.pow 2 (Nat.add k 1))) 0) (Nat.add b 32) b) b)
        0xE8 t))
    (fun _ c => bsel (Nat.beq (Nat.mod c (Nat.pow 2 k)) 0)
      (bsel (Nat.beq t 0x55) (bsel (Nat.beq (Nat.mod (Nat.shiftRight c k) 2) 1) (some [b]) none) none)
      (bsel (Nat.beq (Nat.mod (Nat.shiftRight c k) 2) 1) (shaSum b k 0xA5 b 0xFA t) (shaSum b k 0x5A b 0xA0 t)))
    (fun _ _ _ => bsel (Nat.beq t 0xD8) (some [b]) none)
    (fun _ _ _ => bsel (Nat.beq t 0xE8) (some [b]) none)
    (fun _ _ _ _ => none) (fun _ _ _ _ => none) (shaOp n)) (Nat.div b 32) (Nat.mod b 32)

/-- The certificate. -/
noncomputable def shaCert : WireCert :=
  ⟨shaClaim, 69633, shaNf, shaIn, fun n => n, shaOut, 69632, 255⟩

end Verif
