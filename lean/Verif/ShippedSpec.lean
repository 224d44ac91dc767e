import Verif.EndToEndSpec

/-!
# Specifications of the circuits shipped in `data/circ`
-/

namespace Verif

/-- The bits of a word, least significant first: how the inputs and outputs of the circuits in `data/circ`
are numbered. -/
def bitsOf {w : Nat} (x : BitVec w) : List Bool := (List.range w).map x.getLsbD

/-- The text of a circuit file is accepted by `from_bristol_fashion`, and the circuit it produces computes
`f` under `eval`. -/
def Computes {n1 n2 m : Nat} (text : String) (f : BitVec n1 → BitVec n2 → BitVec m) : Prop :=
  ∃ c, fromBristol text.toList = some c ∧ ∀ x y, c.eval [bitsOf x, bitsOf y] = some [bitsOf (f x y)]

/-- The text is a circuit file as the theorems about `preproc` and `garble` (C84) need it: in the format, with
gates in topological order, every wire driven once, and all outputs driven. -/
def ProperFile (text : String) : Prop := ∃ d : BristolDesc, IsBristolFile d text.toList ∧ d.Proper

end Verif
