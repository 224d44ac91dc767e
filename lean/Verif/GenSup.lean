import Mathlib.Data.ZMod.Defs
import Mathlib.Algebra.Field.ZMod
import Mathlib.Algebra.BigOperators.Group.List.Basic

/-!
# The generator of matrices for random bits

`scripts/gen_binary_supmat.py`, which the README tells users to run when `data/binsup_mat` has no file for their number of
parties.  The libraries `galois` and `numpy` are parameters: the field `galois.GF(2, k)` (`BinField`) and the generator matrix
of a BCH code (`galois.BCH(n, k).G`).  Numbers are natural numbers; the only place where numpy's 64-bit integers make a
difference for sensible arguments is the power `2**k_bin`.
-/

namespace Verif

/-- `2**k_bin` for a 64-bit integer `k_bin` of numpy, which wraps around. -/
def pow2Int64 (k : Nat) : Int := if k < 63 then 2 ^ k else if k = 63 then -2 ^ 63 else 0

/-- Length, dimension and distance of the outer and of the inner code, `n_rs, k_rs, d_rs, n_bch, k_bch, d_bch`. -/
structure SupParams where
  nRs : Nat
  kRs : Nat
  dRs : Nat
  nBin : Nat
  kBin : Nat
  dBin : Nat
  deriving DecidableEq, Repr

/-- `check_rs`, `scripts/gen_binary_supmat.py:7-18`. -/
def checkRs (N T nBin kBin dBin : Nat) : Option (Nat × Nat × Nat) :=
  let nRs := (N + nBin - 1) / nBin
  if (nRs : Int) > pow2Int64 kBin then none
  else
    let dRs := (nRs * nBin + T * dBin - 1) / (T * dBin)
    if dRs > nRs then none else some (nRs, nRs - dRs + 1, dRs)

/-- The body of the inner loop of `find_bch_rs`, `scripts/gen_binary_supmat.py:36-43`, with the best parameters so far and their
dimension. -/
def tryParams (N T nBin kBin dBin : Nat) (best : Nat × Option SupParams) : Nat × Option SupParams :=
  match checkRs N T nBin kBin dBin with
  | none => best
  | some (nRs, kRs, dRs) =>
    if kRs * kBin > best.1 then (kRs * kBin, some ⟨nRs, kRs, dRs, nBin, kBin, dBin⟩) else best

/-- The inner loop of `find_bch_rs` for `t, t - 1, …, 1`, `scripts/gen_binary_supmat.py:28-43`. -/
def tLoop (N T m : Nat) : Nat → Nat × Option SupParams → Nat × Option SupParams
  | 0, best => best
  | t + 1, best =>
    let nBin := 2 ^ m - 1
    let kBin := nBin - m * (t + 1)
    if kBin ≤ 1 then tLoop N T m t best
    else
      let dBin := 2 * (t + 1) + 1
      if dBin < nBin / T then best else tLoop N T m t (tryParams N T (nBin + 1) kBin (dBin + 1) best)

/-- `find_bch_rs`, `scripts/gen_binary_supmat.py:21-45`.  For `T = 0` the program ends with a division by zero. -/
def findBchRs (N T : Nat) : Option SupParams :=
  if T = 0 then none
  else ((List.range' 1 10).foldl (fun best m => tLoop N T m ((2 ^ m - 1) / m) best) (0, none)).2

/-- The field `galois.GF(2, k)`: `x.vector()` and `GF.Vector(l)`, coefficients of the highest power first. -/
structure BinField (K : Type) (k : Nat) where
  vec : K → List (ZMod 2)
  ofVec : List (ZMod 2) → K

section
variable {K : Type} [Field K] {k : Nat}

/-- What is assumed about the field: elements are vectors of `k` bits, added as such. -/
structure BinField.Ok (B : BinField K k) : Prop where
  len : ∀ x, (B.vec x).length = k
  left : ∀ x, B.ofVec (B.vec x) = x
  right : ∀ l, l.length = k → B.vec (B.ofVec l) = l
  add : ∀ x y, B.vec (x + y) = List.zipWith (· + ·) (B.vec x) (B.vec y)

/-- The element `GF(i)`, written as a number. -/
def BinField.ofInt (B : BinField K k) (i : Nat) : K :=
  B.ofVec ((List.range k).map fun j => if i.testBit (k - 1 - j) then 1 else 0)

/-- The rows after the first one, `scripts/gen_binary_supmat.py:56-58`. -/
def rsRows (base : List K) : List K → Nat → List (List K)
  | _, 0 => []
  | acc, r + 1 => List.zipWith (· * ·) acc base :: rsRows base (List.zipWith (· * ·) acc base) r

/-- `gen_mat_rs`, `scripts/gen_binary_supmat.py:48-59`. -/
def genMatRs (B : BinField K k) (nRs kRs : Nat) : Option (List (List K)) :=
  if 2 ^ k > nRs then
    let acc := (List.range nRs).map fun _ => (1 : K)
    let base := (List.range' 1 nRs).map B.ofInt
    some (acc :: rsRows base acc (kRs - 1))
  else none

/-- `gen_mat_bch`, `scripts/gen_binary_supmat.py:62-66`, given the generator matrix of the library. -/
def genMatBch (G : List (List (ZMod 2))) : List (List (ZMod 2)) := G.map fun row => row ++ [1]

/-- `np.matmul` of a vector and a matrix with `n` columns. -/
def vecMat {R : Type} [Field R] (n : Nat) (v : List R) (M : List (List R)) : List R :=
  (List.range n).map fun c => (List.zipWith (fun a row => a * row.getD c 0) v M).sum

/-- `encode_concat`, `scripts/gen_binary_supmat.py:69-82`, for matrices with `nRs` and `nBin` columns. -/
def encodeConcat (B : BinField K k) (nRs nBin : Nat) (gRs : List (List K)) (gBch : List (List (ZMod 2))) (inp : List (ZMod 2)) :
    Option (List (ZMod 2)) :=
  if inp.length = gRs.length * gBch.length then
    let inpRs := (List.range gRs.length).map fun i => B.ofVec ((List.range gBch.length).map fun j => inp.getD (i + j * gRs.length) 0)
    some ((vecMat nRs inpRs gRs).flatMap fun c => vecMat nBin (B.vec c) gBch)
  else none

/-- `gen_mat_concat`, `scripts/gen_binary_supmat.py:85-97`. -/
def genMatConcat (B : BinField K k) (nRs nBin : Nat) (gRs : List (List K)) (gBch : List (List (ZMod 2))) :
    Option (List (List (ZMod 2))) :=
  (List.range (gRs.length * gBch.length)).mapM fun i =>
    encodeConcat B nRs nBin gRs gBch ((List.range (gRs.length * gBch.length)).map fun j => if j = i then 1 else 0)

/-- `np.savetxt(…, fmt="%i")` of the transposed matrix with `n` columns, `scripts/gen_binary_supmat.py:142-145`. -/
def saveTxt (n : Nat) (M : List (List (ZMod 2))) : List Char :=
  (List.range n).flatMap fun p =>
    ((M.map fun row => [if row.getD p 0 = 0 then '0' else '1']).intersperse [' ']).flatten ++ ['\n']

end

/-- The program, `scripts/gen_binary_supmat.py:117-145`: the parameters printed and the file written.  `none` stands for a failed
assertion, an error of the library, or the message that there are no parameters. -/
def genBinarySupmat {K : Nat → Type} [∀ k, Field (K k)] (B : ∀ k, BinField (K k) k)
    (bch : Nat → Nat → Option (List (List (ZMod 2)))) (N T : Nat) : Option (SupParams × List Char) :=
  (findBchRs N T).bind fun p =>
    (genMatRs (B p.kBin) p.nRs p.kRs).bind fun gRs =>
      (bch (p.nBin - 1) p.kBin).bind fun G =>
        (genMatConcat (B p.kBin) p.nRs p.nBin gRs (genMatBch G)).map fun gCc => (p, saveTxt (p.nBin * p.nRs) gCc)

end Verif
