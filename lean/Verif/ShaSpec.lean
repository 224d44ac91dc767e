/-!
# Specification: SHA-256 (FIPS 180-4)

Words are 32-bit numbers; blocks and hash values are 512-bit and 256-bit numbers whose first word is the most
significant one, so that their hexadecimal digits are those which the standard prints.
-/

namespace Verif.Sha

/-- A word of 32 bits. -/
abbrev Word := BitVec 32

/-- `Ch` (section 4.1.2, equation 4.2). -/
def ch (x y z : Word) : Word := (x &&& y) ^^^ (~~~x &&& z)

/-- `Maj` (equation 4.3). -/
def maj (x y z : Word) : Word := (x &&& y) ^^^ (x &&& z) ^^^ (y &&& z)

/-- `Σ0` (equation 4.4). -/
def bigSigma0 (x : Word) : Word := x.rotateRight 2 ^^^ x.rotateRight 13 ^^^ x.rotateRight 22

/-- `Σ1` (equation 4.5). -/
def bigSigma1 (x : Word) : Word := x.rotateRight 6 ^^^ x.rotateRight 11 ^^^ x.rotateRight 25

/-- `σ0` (equation 4.6). -/
def smallSigma0 (x : Word) : Word := x.rotateRight 7 ^^^ x.rotateRight 18 ^^^ (x >>> 3)

/-- `σ1` (equation 4.7). -/
def smallSigma1 (x : Word) : Word := x.rotateRight 17 ^^^ x.rotateRight 19 ^^^ (x >>> 10)

/-- The constants (section 4.2.2): the first 32 bits of the fractional parts of the cube roots of the first 64
primes. -/
def constants : List Word :=
  [ 0x428a2f98, 0x71374491, 0xb5c0fbcf, 0xe9b5dba5, 0x3956c25b, 0x59f111f1, 0x923f82a4, 0xab1c5ed5,
    0xd807aa98, 0x12835b01, 0x243185be, 0x550c7dc3, 0x72be5d74, 0x80deb1fe, 0x9bdc06a7, 0xc19bf174,
    0xe49b69c1, 0xefbe4786, 0x0fc19dc6, 0x240ca1cc, 0x2de92c6f, 0x4a7484aa, 0x5cb0a9dc, 0x76f988da,
    0x983e5152, 0xa831c66d, 0xb00327c8, 0xbf597fc7, 0xc6e00bf3, 0xd5a79147, 0x06ca6351, 0x14292967,
    0x27b70a85, 0x2e1b2138, 0x4d2c6dfc, 0x53380d13, 0x650a7354, 0x766a0abb, 0x81c2c92e, 0x92722c85,
    0xa2bfe8a1, 0xa81a664b, 0xc24b8b70, 0xc76c51a3, 0xd192e819, 0xd6990624, 0xf40e3585, 0x106aa070,
    0x19a4c116, 0x1e376c08, 0x2748774c, 0x34b0bcb5, 0x391c0cb3, 0x4ed8aa4a, 0x5b9cca4f, 0x682e6ff3,
    0x748f82ee, 0x78a5636f, 0x84c87814, 0x8cc70208, 0x90befffa, 0xa4506ceb, 0xbef9a3f7, 0xc67178f2]

/-- Entry of a list of words. -/
def at' (l : List Word) (i : Nat) : Word := l.getD i 0

/-- The first `n + 16` words of the message schedule (section 6.2.2, step 1). -/
def schedule (block : List Word) : Nat → List Word
  | 0 => block
  | n + 1 =>
    let ws := schedule block n
    let t := n + 16
    ws ++ [smallSigma1 (at' ws (t - 2)) + at' ws (t - 7) + smallSigma0 (at' ws (t - 15)) + at' ws (t - 16)]

/-- The working variables (section 6.2.2, step 2). -/
structure State where
  a : Word
  b : Word
  c : Word
  d : Word
  e : Word
  f : Word
  g : Word
  h : Word

/-- One step with constant `k` and message word `w` (section 6.2.2, step 3). -/
def step (s : State) (k w : Word) : State :=
  let t1 := s.h + bigSigma1 s.e + ch s.e s.f s.g + k + w
  let t2 := bigSigma0 s.a + maj s.a s.b s.c
  { h := s.g, g := s.f, f := s.e, e := s.d + t1, d := s.c, c := s.b, b := s.a, a := t1 + t2 }

/-- The working variables after `t` steps. -/
def steps (ws : List Word) (s : State) : Nat → State
  | 0 => s
  | t + 1 => step (steps ws s t) (at' constants t) (at' ws t)

/-- The first `n` words of a number, the most significant one first. -/
def wordsOf {w : Nat} (n : Nat) (x : BitVec w) : List Word :=
  (List.range n).map fun i => x.extractLsb' (32 * (n - 1 - i)) 32

/-- The number with the given words, most significant first. -/
def ofWords (l : List Word) : BitVec 256 := l.foldl (fun acc b => (acc <<< 32) ||| b.setWidth 256) 0

/-- The working variables with the words of a hash value. -/
def State.init (hash : List Word) : State :=
  ⟨at' hash 0, at' hash 1, at' hash 2, at' hash 3, at' hash 4, at' hash 5, at' hash 6, at' hash 7⟩

/-- The hash value for a list of eight words, a block of 16 words (section 6.2.2). -/
def compressWords (block hash : List Word) : List Word :=
  let s := steps (schedule block 48) (State.init hash) 64
  List.zipWith (· + ·) hash [s.a, s.b, s.c, s.d, s.e, s.f, s.g, s.h]

/-- Section 6.2.2: the next hash value. -/
def compress (block : BitVec 512) (hash : BitVec 256) : BitVec 256 :=
  ofWords (compressWords (wordsOf 16 block) (wordsOf 8 hash))

/-! ## The hash function -/

/-- The initial hash value (section 5.3.3). -/
def initial : BitVec 256 := 0x6a09e667bb67ae853c6ef372a54ff53a510e527f9b05688c1f83d9ab5be0cd19

/-- Padding of a message of bytes (section 5.1.1). -/
def pad (msg : List (BitVec 8)) : List (BitVec 8) :=
  msg ++ [0x80] ++ List.replicate ((119 - msg.length % 64) % 64) 0
    ++ (List.range 8).map fun i => (BitVec.ofNat 64 (8 * msg.length)).extractLsb' (8 * (7 - i)) 8

/-- A block from 64 bytes. -/
def blockOf (l : List (BitVec 8)) : BitVec 512 := l.foldl (fun acc b => (acc <<< 8) ||| b.setWidth 512) 0

/-- The first `n` blocks of a padded message. -/
def blocks (l : List (BitVec 8)) (n : Nat) : List (BitVec 512) :=
  (List.range n).map fun i => blockOf ((l.drop (64 * i)).take 64)

/-- SHA-256 (section 6.2). -/
def sha256 (msg : List (BitVec 8)) : BitVec 256 :=
  let p := pad msg
  (blocks p (p.length / 64)).foldl (fun hash block => compress block hash) initial

end Verif.Sha
