import Mathlib.Algebra.Field.Basic
import Mathlib.Algebra.BigOperators.Group.List.Basic
import Mathlib.Algebra.CharP.Two

/-!
# Basic vocabulary of the model

Vectors (`ndarray::Array1`, `Vec`) are lists, matrices (`ndarray::Array2`) are lists of rows together
with their number of columns (`ndarray` knows the column count even of a matrix without rows).
Operations which panic in Rust return `none`.
-/

namespace Verif

/-- The field interface the upper layers rely on: what `src/math/galois/mod.rs` provides after
`GF::<W>::init()`.  `ofU32` is `From<u32>` (lines 60-70) for arguments below `order`
(= `GF::ORDER`, line 18); the layers above only state results for such arguments.
`Verif.GF` gives the instance for the actual log-table field. -/
class CodeField (F : Type) extends Field F where
  /-- `GF::ORDER`. -/
  order : Nat
  /-- `From<u32>` for values below `order`. -/
  ofU32 : Nat → F
  one_lt_order : 1 < order
  ofU32_inj : ∀ a b, a < order → b < order → ofU32 a = ofU32 b → a = b
  ofU32_zero : ofU32 0 = 0
  ofU32_one : ofU32 1 = 1
  add_self : ∀ x : F, x + x = 0

section
variable {F : Type} [Field F]

/-- Inner product of two vectors; only used where the lengths agree. -/
def dot (a b : List F) : F := (List.zipWith (· * ·) a b).sum

/-- Entrywise sum, `&a + &b` on `ndarray` arrays of equal shape. -/
def vadd (a b : List F) : List F := List.zipWith (· + ·) a b

/-- Entrywise difference. -/
def vsub (a b : List F) : List F := List.zipWith (· - ·) a b

/-- Entrywise product. -/
def vmul (a b : List F) : List F := List.zipWith (· * ·) a b

/-- Scalar multiple. -/
def vsmul (c : F) (a : List F) : List F := a.map (c * ·)

end

/-- `ndarray::Array2`: rows, and the number of columns. -/
structure Mat (F : Type) where
  ncols : Nat
  rows : List (List F)

/-- All rows have the declared length. -/
def Mat.WF {F : Type} (m : Mat F) : Prop := ∀ r ∈ m.rows, r.length = m.ncols

/-- `m.dot(&v)`; `ndarray` panics when the lengths disagree. -/
def Mat.mulVec {F : Type} [Field F] (m : Mat F) (v : List F) : Option (List F) :=
  if v.length = m.ncols then some (m.rows.map (dot · v)) else none

/-- `reversed_axes` (transposition), for well-formed matrices. -/
def Mat.transpose {F : Type} [Inhabited F] (m : Mat F) : Mat F where
  ncols := m.rows.length
  rows := (List.range m.ncols).map fun j => m.rows.map fun r => r.getD j default

end Verif
