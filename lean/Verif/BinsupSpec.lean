import Verif.Preproc
import Mathlib.Data.Set.Card

/-!
# What a matrix for extracting randomness should do
-/

namespace Verif

/-- Inputs or outputs which are bits. -/
def bitList (F : Type) [Field F] {n : Nat} (x : Fin n → Bool) : List F := List.ofFn fun i => bitVal F (x i)

/-- Whatever the inputs of at most `t` parties are, all outputs are possible. -/
def Mat.AllOutputs {F : Type} [Field F] (M : Mat F) (t : Nat) : Prop :=
  ∀ T : Finset Nat, T.card ≤ t → ∀ base y : List F, base.length = M.ncols → y.length = M.rows.length →
    ∃ x : List F, x.length = M.ncols ∧ (∀ i ∈ T, x[i]? = base[i]?) ∧ M.mulVec x = some y

/-- Whatever the input bits of at most `t` parties are, uniformly random bits of the others give uniformly random output bits:
each of the `2^k` outputs is the result of a `2^k`-th part of the choices. -/
def Mat.UniformBits {F : Type} [Field F] (M : Mat F) (t : Nat) : Prop :=
  ∀ T : Finset (Fin M.ncols), T.card ≤ t → ∀ base : Fin M.ncols → Bool, ∀ y : Fin M.rows.length → Bool,
    Nat.card {x : Fin M.ncols → Bool // (∀ i ∈ T, x i = base i) ∧ M.mulVec (bitList F x) = some (bitList F y)}
      * 2 ^ M.rows.length = 2 ^ (M.ncols - T.card)

/-- The parties in `T` know the sum of the outputs in `U`, whatever the others do. -/
def Mat.Leaks {F : Type} [Field F] (M : Mat F) (T U : Finset Nat) : Prop :=
  ∀ x y : List F, M.mulVec x = some y → ∑ u ∈ U, y.getD u 0 = ∑ i ∈ T, x.getD i 0

end Verif
