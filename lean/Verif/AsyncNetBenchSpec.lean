import Verif.AsyncNetSpec
import Mathlib.Algebra.BigOperators.Group.Finset.Basic

/-!
# Specification: the bytes of the benchmark programs
-/

namespace Verif

variable {O : Type}

/-- The bytes which `p` sends to `q` in the body of iteration `r`, without and with the IDs. -/
def bodyBytes (n : Nat) (bodies : List (List (Job O))) (outs : List (List (List O))) (p q r : Nat) : Nat × Nat :=
  ∑ i ∈ Finset.range (bodies[r]?.getD []).length, jobBytes n (bodies[r]?.getD []) (outs[r]?.getD []) p q i

/-- The bytes which `p` sends to `q` at the end of the program when measurements are saved: everybody sends its own to party 0,
which answers with four bytes.  `a` is the length of the ID. -/
def saveBytes (a : Nat) (save : Option (Nat → List Nat)) (p q : Nat) : Nat × Nat :=
  match save with
  | none => 0
  | some data => (if q = 0 then ((data p).length, (data p).length + a) else 0) + if p = 0 then (4, 4 + a) else 0

end Verif
