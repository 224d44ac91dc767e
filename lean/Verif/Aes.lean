import Verif.Data.AesData
import Verif.Data.AesText00
import Verif.Data.AesText01
import Verif.Data.AesText02
import Verif.Data.AesText03

/-!
# The circuit `data/circ/aes_128.txt` and its certificate

Boxes are the S-boxes: `16 r + i` for byte `i` in round `r + 1`, `160 + 4 r + j` for byte `j` in the key
schedule.  Signals are the bits of bytes, `128 r + 8 i + k` (and an offset) for bit `k` of byte `i`:

* offset 0: round key `r`;
* offset 2048: the state before SubBytes in round `r + 1`, and the ciphertext for `r = 10`;
* offset 4096: the state after SubBytes in round `r + 1`;
* offset 6144: the outputs of the S-boxes of the key schedule;
* offset 8192: the plaintext (`r = 0`);
* 8320 is always true.

Base signals are the key, the plaintext, the outputs of S-boxes and 8320; the others are linear combinations
of these (`aesNf`).
-/

namespace Verif

open Data

/-- The contents of `data/circ/aes_128.txt`. -/
def aesText : String :=
  aesHead ++ String.join (aesBlocks00 ++ aesBlocks01 ++ aesBlocks02 ++ aesBlocks03) ++ aesTail

/-- The gates of `data/circ/aes_128.txt`. -/
noncomputable def aesNet : Net := ⟨36663, 36919, 128, 128, 128, fun q => aesGateTree.get 56 64 q⟩

/-- Position of the gate driving a wire. -/
noncomputable def aesRank (w : Nat) : Nat := Nat.shiftRight (aesWireTree.get 44 64 w) 26

/-- Up to `k` signals of 14 bits from a number; 0 ends the list. -/
noncomputable def aesSigs (k c : Nat) : List Nat :=
  Nat.rec (fun _ => []) (fun _ f c => bsel (Nat.beq c 0) []
    ((Nat.sub (Nat.mod c 16384) 1) :: f (Nat.div c 16384))) k c

/-- Claim for a wire. -/
noncomputable def aesClaim (w : Nat) : Claim :=
  claimOf (fun i => aesSigs 8 (aesSigTree.get 112 32 i)) (aesWireTree.get 44 64 w)

/-! ## Signals -/

/-- Bit `k` of byte `i` of round key `r`. -/
def sRK (r i k : Nat) : Nat := Nat.add (Nat.mul 128 r) (Nat.add (Nat.mul 8 i) k)

/-- Bit `k` of byte `i` before SubBytes in round `r + 1`. -/
def sX (r i k : Nat) : Nat := Nat.add 2048 (sRK r i k)

/-- Bit `k` of byte `i` after SubBytes in round `r + 1`. -/
def sY (r i k : Nat) : Nat := Nat.add 4096 (sRK r i k)

/-- Bit `k` of byte `i` of SubWord (RotWord ...) for round key `r + 1`. -/
def sKS (r i k : Nat) : Nat := Nat.add 6144 (sRK r i k)

/-- Bit `k` of byte `i` of the plaintext. -/
def sPT (i k : Nat) : Nat := Nat.add 8192 (sRK 0 i k)

/-- The signal which is always true. -/
def sOne : Nat := 8320

/-- The set containing one signal. -/
def sBit (v : Nat) : Nat := Nat.shiftLeft 1 v

/-- The set containing a signal if a bit is set. -/
noncomputable def sIf (b : Bool) (v : Nat) : Nat := bsel b (sBit v) 0

/-- Bit `k` of a number, for the kernel. -/
def nBit (n k : Nat) : Bool := Nat.beq 1 (Nat.mod (Nat.shiftRight n k) 2)

/-- Powers of `x` in GF(2^8). -/
noncomputable def xPow (r : Nat) : Nat :=
  Nat.rec 1 (fun _ a => bsel (Nat.blt a 128) (Nat.mul 2 a) (Nat.xor (Nat.mul 2 a) 0x11b)) r

/-- Normal forms of bit `k` of the bytes `j`, `4 + j`, `8 + j`, `12 + j` of round key `r`. -/
noncomputable def rkRow (j k r : Nat) : Nat × Nat × Nat × Nat :=
  Nat.rec (sBit (sRK 0 j k), sBit (sRK 0 (Nat.add 4 j) k), sBit (sRK 0 (Nat.add 8 j) k),
    sBit (sRK 0 (Nat.add 12 j) k))
  (fun r p => Prod.rec (fun a p => Prod.rec (fun b p => Prod.rec (fun c d =>
    (fun a => (fun b => (fun c => (a, b, c, Nat.xor d c)) (Nat.xor c b)) (Nat.xor b a))
      (Nat.xor a (Nat.xor (sBit (sKS r j k)) (sIf (bsel (Nat.beq j 0) (nBit (xPow r) k) false) sOne))))
    p) p) p) r

/-- Normal form of bit `k` of byte `i` of round key `r`. -/
noncomputable def nfRK (r i k : Nat) : Nat :=
  (fun p : Nat × Nat × Nat × Nat => bsel (Nat.blt i 4) p.1 (bsel (Nat.blt i 8) p.2.1
    (bsel (Nat.blt i 12) p.2.2.1 p.2.2.2))) (rkRow (Nat.mod i 4) k r)

/-- The byte which ShiftRows moves to byte `i`. -/
def shiftSrc (i : Nat) : Nat := Nat.mod (Nat.add i (Nat.mul 4 (Nat.mod i 4))) 16

/-- Normal form of bit `k` of twice byte `i` after SubBytes. -/
noncomputable def nfX2 (r i k : Nat) : Nat :=
  Nat.xor (bsel (Nat.beq k 0) 0 (sBit (sY r i (Nat.sub k 1)))) (sIf (nBit 0x1b k) (sY r i 7))

/-- The byte that MixColumns (after ShiftRows) multiplies with entry `d` of its row for byte `i`. -/
def mixSrc (i d : Nat) : Nat :=
  shiftSrc (Nat.add (Nat.mul 4 (Nat.div i 4)) (Nat.mod (Nat.add i d) 4))

/-- Normal form of bit `k` of byte `i` before SubBytes. -/
noncomputable def nfX (r i k : Nat) : Nat :=
  bsel (Nat.beq r 0) (Nat.xor (sBit (sPT i k)) (sBit (sRK 0 i k)))
  (bsel (Nat.beq r 10) (Nat.xor (sBit (sY 9 (shiftSrc i) k)) (nfRK 10 i k))
    ((fun r' => Nat.xor (nfX2 r' (mixSrc i 0) k) (Nat.xor (nfX2 r' (mixSrc i 1) k)
      (Nat.xor (sBit (sY r' (mixSrc i 1) k)) (Nat.xor (sBit (sY r' (mixSrc i 2) k))
      (Nat.xor (sBit (sY r' (mixSrc i 3) k)) (nfRK r i k)))))) (Nat.sub r 1)))

/-- Normal form of a signal. -/
noncomputable def aesNf (v : Nat) : Nat :=
  bsel (Nat.blt v 2048) (nfRK (Nat.div v 128) (Nat.mod (Nat.div v 8) 16) (Nat.mod v 8))
  (bsel (Nat.blt v 4096) (nfX (Nat.sub (Nat.div v 128) 16) (Nat.mod (Nat.div v 8) 16) (Nat.mod v 8))
    (sBit v))

/-! ## Certificate -/

/-- Bit 0 of the input of a box. -/
noncomputable def aesBoxIn (b : Nat) : Nat :=
  bsel (Nat.blt b 160) (Nat.add 2048 (Nat.mul 8 b))
    (sRK (Nat.div (Nat.sub b 160) 4) (Nat.add 12 (Nat.mod (Nat.add b 1) 4)) 0)

/-- Bit 0 of the output of a box. -/
noncomputable def aesBoxOut (b : Nat) : Nat :=
  bsel (Nat.blt b 160) (Nat.add 4096 (Nat.mul 8 b)) (sKS (Nat.div (Nat.sub b 160) 4) (Nat.mod b 4) 0)

/-- The inputs of boxes: table `16 + k` for bit `k`. -/
noncomputable def aesIn (b v : Nat) : Option Nat :=
  bsel (Nat.blt b 200) (bsel (Nat.ble (aesBoxIn b) v) (bsel (Nat.blt v (Nat.add (aesBoxIn b) 8))
    (some (Nat.add 16 (Nat.sub v (aesBoxIn b)))) none) none) none

/-- The outputs of boxes: table `n` for bit `n`, table `8 + n` for its complement. -/
noncomputable def aesOut (b n : Nat) : Option (List Nat) :=
  bsel (Nat.blt b 200) (bsel (Nat.blt n 8) (some [Nat.add (aesBoxOut b) n])
    (bsel (Nat.blt n 16) (some [Nat.add (aesBoxOut b) (Nat.sub n 8), sOne]) none)) none

/-- The certificate of the circuit. -/
noncomputable def aesCert : WireCert where
  claim := aesClaim
  size := 8321
  nf := aesNf
  inNode := aesIn
  table n := aesTableTree.leaf n
  out := aesOut
  one := sOne
  full := Nat.sub (Nat.pow 2 256) 1

end Verif
