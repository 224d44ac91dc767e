import Mathlib.Data.List.Basic

/-!
# AES-128

Transcribed from FIPS 197.  Bytes are `BitVec 8`; the state is the list of its 16 bytes in the order of the
input (column by column), words are lists of four bytes.
-/

namespace Verif.Aes

/-- Bytes, polynomials over GF(2) of degree less than 8. -/
abbrev Byte := BitVec 8

/-- Multiplication by `x` modulo `x^8 + x^4 + x^3 + x + 1` (section 4.2.1). -/
def xtime (a : Byte) : Byte := (a <<< 1) ^^^ (if a.getLsbD 7 then 0x1b else 0)

/-- Multiplication in GF(2^8) (section 4.2): Horner's scheme over the bits of `b`. -/
def gmul (a b : Byte) : Byte :=
  (List.range 8).foldr (fun k acc => xtime acc ^^^ (if b.getLsbD k then a else 0)) 0

/-- `a^127`. -/
def pow127 (a : Byte) : Byte := (List.range 6).foldl (fun p _ => gmul (gmul p p) a) a

/-- The multiplicative inverse, 0 for 0: `a^254`. -/
def ginv (a : Byte) : Byte := gmul (pow127 a) (pow127 a)

/-- The S-box (section 5.1.1): inverse, then the affine map
`b_i + b_(i+4) + b_(i+5) + b_(i+6) + b_(i+7) + c_i` with `c = 0x63`. -/
def sbox (a : Byte) : Byte :=
  let b := ginv a
  b ^^^ b.rotateLeft 1 ^^^ b.rotateLeft 2 ^^^ b.rotateLeft 3 ^^^ b.rotateLeft 4 ^^^ 0x63

/-- Byte `i` of a state. -/
def at' (s : List Byte) (i : Nat) : Byte := s.getD i 0

/-- SubBytes (section 5.1.1). -/
def subBytes (s : List Byte) : List Byte := s.map sbox

/-- ShiftRows (section 5.1.2): byte `i` is in row `i % 4` and column `i / 4`; row `j` is rotated by `j`. -/
def shiftRows (s : List Byte) : List Byte := (List.range 16).map fun i => at' s ((i + 4 * (i % 4)) % 16)

/-- MixColumns (section 5.1.3): every column is multiplied by the circulant matrix 2, 3, 1, 1. -/
def mixColumns (s : List Byte) : List Byte :=
  (List.range 16).map fun i =>
    let col := fun d => at' s (4 * (i / 4) + (i + d) % 4)
    gmul 2 (col 0) ^^^ gmul 3 (col 1) ^^^ col 2 ^^^ col 3

/-- AddRoundKey (section 5.1.4). -/
def addRoundKey (s k : List Byte) : List Byte := List.zipWith (· ^^^ ·) s k

/-- Rcon[i] (section 5.2): `x^(i-1)` in the first byte. -/
def rcon (i : Nat) : List Byte := [(List.range (i - 1)).foldl (fun a _ => xtime a) 1, 0, 0, 0]

/-- RotWord (section 5.2). -/
def rotWord (w : List Byte) : List Byte := w.tail ++ w.take 1

/-- Key expansion (section 5.2, figure 11): the first `n + 4` words. -/
def keyExpansion (key : List Byte) : Nat → List (List Byte)
  | 0 => [key.take 4, (key.drop 4).take 4, (key.drop 8).take 4, key.drop 12]
  | n + 1 =>
    let ws := keyExpansion key n
    let temp := ws.getD (n + 3) []
    let temp := if n % 4 = 0 then
        List.zipWith (· ^^^ ·) (subBytes (rotWord temp)) (rcon (n / 4 + 1)) else temp
    ws ++ [List.zipWith (· ^^^ ·) (ws.getD n []) temp]

/-- The round key of round `r`: words `4 r` to `4 r + 3`. -/
def roundKey (ws : List (List Byte)) (r : Nat) : List Byte := ((ws.drop (4 * r)).take 4).flatten

/-- The state after `r` of the nine full rounds (section 5.1, figure 5). -/
def rounds (ws : List (List Byte)) (inp : List Byte) : Nat → List Byte
  | 0 => addRoundKey inp (roundKey ws 0)
  | r + 1 => addRoundKey (mixColumns (shiftRows (subBytes (rounds ws inp r)))) (roundKey ws (r + 1))

/-- The cipher (section 5.1, figure 5), for 10 rounds. -/
def cipher (key inp : List Byte) : List Byte :=
  let ws := keyExpansion key 40
  addRoundKey (shiftRows (subBytes (rounds ws inp 9))) (roundKey ws 10)

/-- The bytes of a 128-bit number, most significant first. -/
def bytesOf (x : BitVec 128) : List Byte := (List.range 16).map fun i => x.extractLsb' (8 * (15 - i)) 8

/-- The number with the given bytes, most significant first. -/
def ofBytes (l : List Byte) : BitVec 128 := l.foldl (fun acc b => (acc <<< 8) ||| b.setWidth 128) 0

/-- AES-128 on 128-bit numbers whose hexadecimal digits are the usual way to write blocks and keys. -/
def aes128 (key pt : BitVec 128) : BitVec 128 := ofBytes (cipher (bytesOf key) (bytesOf pt))

end Verif.Aes
