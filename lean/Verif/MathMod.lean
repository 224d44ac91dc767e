import Verif.Basic

/-!
# Model of `src/math/mod.rs`
-/

namespace Verif

variable {F : Type}

section Lagrange
variable [Field F] [DecidableEq F]

/-- `denom` of `lagrange_coeffs`, `src/math/mod.rs:30-39`.  (`rayon`'s `reduce` with an associative
and commutative product is a plain product.) -/
def lagrangeDenom (cpos : List F) (v : F) : F :=
  (cpos.map fun x => if v = x then 1 else v - x).prod

/-- One row of `lagrange_coeffs`, `src/math/mod.rs:44-66`: selection if `v` is one of the current
positions (`position_any` returns any matching index; for distinct `cpos` there is only one, and we
take the first), the quotient formula otherwise. -/
def lagrangeRow (cpos : List F) (v : F) : List F :=
  match cpos.findIdx? (fun x => decide (x = v)) with
  | some i => (List.replicate cpos.length 0).set i 1
  | none =>
    let numerator := (cpos.map fun x => v - x).prod
    List.zipWith (fun x d => numerator / ((v - x) * d)) cpos (cpos.map (lagrangeDenom cpos))

/-- `lagrange_coeffs`, `src/math/mod.rs:15-70` (the debug assertions of lines 16-28 are not
modelled: they are hypotheses of the theorems). -/
def lagrangeCoeffs (cpos npos : List F) : Mat F where
  ncols := cpos.length
  rows := npos.map (lagrangeRow cpos)

end Lagrange

section RS
variable [CodeField F]

/-- The loop of `rs_gen_mat`, `src/math/mod.rs:118-121`: column `i+1` is `col` times column `i`,
starting from `col` itself; `k` further columns are pushed after `cur`. -/
def rsCols (col : List F) : Nat → List F → List (List F)
  | 0, cur => [cur]
  | k + 1, cur => cur :: rsCols col k (vmul col cur)

/-- `rs_gen_mat`, `src/math/mod.rs:108-124`, given by its columns.  `mssg_len - 1` underflows for
`mssg_len = 0` (a panic, or a practically endless loop in release mode): `none`.
`GF::from` is only defined below `order`: `none` otherwise. -/
def rsGenCols (mssgLen codeLen : Nat) : Option (List (List F)) :=
  if mssgLen = 0 then none
  else if CodeField.order F ≤ codeLen then none
  else
    let col := (List.range codeLen).map fun i => (CodeField.ofU32 (i + 1) : F)
    some (rsCols col (mssgLen - 1) col)

/-- `rs_gen_mat` as a matrix with `code_len` rows and `mssg_len` columns. -/
def rsGenMat (mssgLen codeLen : Nat) : Option (Mat F) :=
  (rsGenCols mssgLen codeLen).map fun cols =>
    { ncols := mssgLen
      rows := (List.range codeLen).map fun i => cols.map fun c => c.getD i 0 }

/-- `super_inv_matrix`, `src/math/mod.rs:73-76`: the transposed generator. -/
def superInvMatrix (numInp numOut : Nat) : Option (Mat F) :=
  (rsGenCols numOut numInp).map fun cols => { ncols := numInp, rows := cols }

end RS

section Combination

/-- `struct Combination(Vec<usize>)`, `src/math/mod.rs:128`. -/
structure Combination where
  map : List Nat

/-- The `HashMap` built in `Combination::from_instance`, `src/math/mod.rs:143-146`: later insertions
overwrite earlier ones. -/
def instanceLookup {T : Type} [DecidableEq T] (inp : List T) : T → Option Nat :=
  (inp.zipIdx).foldl (fun m (v, i) => fun w => if w = v then some i else m w) (fun _ => none)

/-- `Combination::from_instance`, `src/math/mod.rs:142-149`; `unwrap` of a missing entry is `none`. -/
def Combination.fromInstance {T : Type} [DecidableEq T] (inp out : List T) : Option Combination :=
  (out.mapM (instanceLookup inp)).map Combination.mk

/-- `Combination::len`, `src/math/mod.rs:152-154`. -/
def Combination.len (c : Combination) : Nat := c.map.length

/-- `Combination::apply`, `src/math/mod.rs:157-159`; an index out of range panics. -/
def Combination.apply {T : Type} (c : Combination) (v : List T) : Option (List T) :=
  c.map.mapM fun i => v[i]?

end Combination

section BinaryMatrix
variable [Field F]

/-- `str::split(' ')` on one line, for any separator: always at least one piece. -/
def splitOnChar (sep : Char) : List Char → List (List Char)
  | [] => [[]]
  | c :: cs =>
    if c = sep then [] :: splitOnChar sep cs
    else
      match splitOnChar sep cs with
      | [] => [[c]]
      | w :: ws => (c :: w) :: ws

/-- `BufRead::lines` on the file contents: split at newlines, no trailing empty line, and one
trailing carriage return is removed from each line that a newline ends. -/
def readLines (s : List Char) : List (List Char) :=
  let pieces := splitOnChar '\n' s
  let strip (l : List Char) : List Char := if l.getLast? = some '\r' then l.dropLast else l
  (pieces.dropLast.map strip) ++
    (match pieces.getLast? with
      | some [] => []
      | some l => [l]
      | none => [])

/-- One entry, `src/math/mod.rs:91-95`. -/
def binaryEntry (v : List Char) : Option F :=
  if v = ['0'] then some 0 else if v = ['1'] then some 1 else none

/-- Cut a flat vector into `r` rows of `c` entries (`Array::from_shape_vec`, row-major). -/
def reshape {T : Type} (c : Nat) : Nat → List T → List (List T)
  | 0, _ => []
  | r + 1, l => l.take c :: reshape c r (l.drop c)

/-- `binary_super_inv_matrix`, `src/math/mod.rs:79-105`, on the file contents.  An empty file
divides by zero; a total number of entries not divisible by the number of lines makes
`from_shape_vec` fail; both panic. -/
def binarySuperInvMatrix (file : List Char) : Option (Mat F) :=
  let lines := readLines file
  ((lines.flatMap (splitOnChar ' ')).mapM binaryEntry).bind fun matrix =>
    let numRows := lines.length
    if numRows = 0 then none
    else
      let numCols := matrix.length / numRows
      if numRows * numCols = matrix.length then
        let m : List (List F) := reshape numCols numRows matrix
        some { ncols := numRows
               rows := (List.range numCols).map fun j => m.map fun r => r.getD j 0 }
      else none

end BinaryMatrix

end Verif
