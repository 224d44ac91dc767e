import Verif.Basic
import Mathlib.Algebra.Polynomial.Eval.Degree

/-!
# Specification of packed Shamir sharings

A share vector of `n` parties, of degree below `k`, carrying `secrets` at the positions `pos`:
party `i` holds the value at the field element `i` of one polynomial of degree below `k` which takes
the secret `j` at `pos j`.
-/

open Polynomial

namespace Verif

variable {F : Type} [CodeField F]

open CodeField (ofU32)

/-- `shares` are the `n` shares of a polynomial of degree below `k` whose values at `pos` are
`secrets`. -/
def IsSharing (n k : Nat) (pos secrets shares : List F) : Prop :=
  ∃ p : F[X], p.degree < k ∧ shares = (List.range n).map (fun i => p.eval (ofU32 i)) ∧
    secrets = pos.map (fun x => p.eval x)

/-- `shares` are consistent: they lie on a polynomial of degree below `k`. -/
def Consistent (n k : Nat) (shares : List F) : Prop :=
  ∃ p : F[X], p.degree < k ∧ shares = (List.range n).map (fun i => p.eval (ofU32 i))

/-- Admissible parameters: distinct secret positions, none of which is the position of one of the
`n` parties, and all party positions are distinct field elements. -/
structure GoodPos (n : Nat) (pos : List F) : Prop where
  nodup : pos.Nodup
  disj : ∀ i, i < n → ofU32 i ∉ pos
  small : n ≤ CodeField.order F

end Verif
