import Verif.PrivacyPreSpec
import Verif.GarbleSpec
import Mathlib.Data.Nat.Choose.Basic

/-!
# Vocabulary of the statements about the number of LPN errors in a row
-/

namespace Verif

/-- The probability of more than `e` successes in `N` independent trials with probability `p`. -/
def binomTail (e N : Nat) (p : ℚ) : ℚ := ∑ j ∈ Finset.Ioc e N, (N.choose j : ℚ) * p ^ j * (1 - p) ^ (N - j)

variable {F : Type} [CodeField F] [DecidableEq F]

/-- The run of `preproc` with randomness `tp` shares errors of which more than `e`, among those with numbers in `I`, are not zero in
slot `x`. -/
def ManyErrors (ctx : Ctx F) (m mb : Mat F) (d : PreProcCount) (I : Finset Nat) (x e : Nat) (tp : PreTapes F) : Prop :=
  ∃ pre errors, preproc ctx m mb d tp = some pre ∧
    VecSharing ctx.n (ctx.t + ctx.l) (defaultPos ctx.n ctx.l) errors (pre.map PreProc.errors) ∧
    e < (I.filter fun a => at2 errors a x ≠ 0).card

/-- The part of the randomness of `preproc` for which a statement is true. -/
noncomputable def tapeFraction (ctx : Ctx F) (m mb : Mat F) (d : PreProcCount) (E : PreTapes F → Prop) : ℚ :=
  (Nat.card {tp : PreTapes F // tp.Ok ctx.n ctx.t ctx.l m mb d ∧ E tp} : ℚ) /
    Nat.card {tp : PreTapes F // tp.Ok ctx.n ctx.t ctx.l m mb d}

/-- The numbers of the errors of row `r` of gate `gid`. -/
def PackedCircuit.rowErrors (c : PackedCircuit) (mssgLen gid r : Nat) : Finset Nat :=
  (Finset.range mssgLen).image fun a => c.errorIdx mssgLen gid r a

/-- How many errors per row can be corrected whatever they are: the largest `e` such that no two words which `rs_gen_mat` encodes,
of `k` elements each, can become the same by changing at most `e` of the `N` entries of either. -/
def Corrects (F : Type) [CodeField F] [DecidableEq F] (k N e : Nat) : Prop :=
  ∀ G : Mat F, rsGenMat k N = some G → ∀ m m' c c' w : List F, m.length = k → m'.length = k → G.mulVec m = some c →
    G.mulVec m' = some c' → w.length = N → ((List.range N).filter fun a => c.getD a 0 ≠ w.getD a 0).length ≤ e →
    ((List.range N).filter fun a => c'.getD a 0 ≠ w.getD a 0).length ≤ e → m = m'

end Verif
