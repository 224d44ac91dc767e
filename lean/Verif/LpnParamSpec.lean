import Mathlib.Data.Finset.Powerset
import Mathlib.Data.Fintype.Powerset
import Mathlib.Data.Fin.Basic
import Mathlib.Data.Real.Basic

/-!
# Vocabulary of the statements about attacks on LPN
-/

namespace Verif

/-- The probability that `k` different positions, chosen uniformly among `N`, are all free of errors, where `E` are the positions with errors. -/
noncomputable def cleanFraction (N k : Nat) (E : Finset (Fin N)) : ℝ :=
  (((Finset.univ : Finset (Fin N)).powersetCard k).filter fun S => Disjoint S E).card / ((Finset.univ : Finset (Fin N)).powersetCard k).card

end Verif
