import Verif.GenSup
import Mathlib.Algebra.BigOperators.Group.Finset.Basic

/-!
# Specification: parameters and codes for random bits
-/

namespace Verif

/-- Parameters which serve `N` parties with at most one corrupt party in `T`: a BCH code of length `2^m - 1` which corrects `t`
errors, one more bit, and a Reed-Solomon code for its messages.  The dimension of the BCH code is at most 62. -/
structure SupParams.Fits (p : SupParams) (N T : Nat) : Prop where
  inner : ∃ m t, 1 ≤ m ∧ m ≤ 10 ∧ 1 ≤ t ∧ p.nBin = 2 ^ m ∧ p.kBin + m * t = 2 ^ m - 1 ∧ p.dBin = 2 * t + 2
  two : 2 ≤ p.kBin
  small : p.kBin ≤ 62
  parties : N ≤ p.nRs * p.nBin
  tight : p.nRs * p.nBin < N + p.nBin
  dim : 1 ≤ p.kRs
  dist : p.kRs + p.dRs = p.nRs + 1
  ratio : p.nRs * p.nBin ≤ T * (p.dRs * p.dBin)
  symbols : p.nRs ≤ 2 ^ p.kBin

/-- Number of non-zero entries. -/
def weight (l : List (ZMod 2)) : Nat := (l.filter fun a => a ≠ 0).length

/-- The rows of `G` generate a code of length `n`, dimension `k` and distance at least `d`: every combination of the rows, except
the one without any, has at least `d` non-zero entries. -/
structure Generates (G : List (List (ZMod 2))) (n k d : Nat) : Prop where
  rows : G.length = k
  cols : ∀ row ∈ G, row.length = n
  dist : ∀ u : Nat → ZMod 2, (∃ i < k, u i ≠ 0) →
    d ≤ weight ((List.range n).map fun c => ∑ i ∈ Finset.range k, u i * (G.getD i []).getD c 0)

end Verif
