import Mathlib.Data.Nat.Choose.Basic
import Mathlib.Algebra.BigOperators.Intervals
import Mathlib.Data.Rat.Defs
import Mathlib.Algebra.Order.Ring.Rat
import Verif.PyFloat

/-!
# Model of `scripts/gen_lpn_params.py`

The script chooses the length `k` of the LPN keys and the length `N` of the rows.  Simplified: probabilities are exact rationals and
not floats; the estimate of the security of LPN, `sec_lpn` (lines 12-17), which calls `scripts/lpn_param.py`, is a parameter `sec` of
the search; it is modelled by `secLpn` in `LpnParam`.  A negative result of `find_k` is `none`.
-/

namespace Verif

/-- `scipy.stats.binom.cdf(w, N, p)`: the probability of at most `w` successes in `N` trials. -/
def binomCdf (w N : Nat) (p : ℚ) : ℚ := ∑ j ∈ Finset.range (w + 1), (N.choose j : ℚ) * p ^ j * (1 - p) ^ (N - j)

/-- `correctness_error`, `scripts/gen_lpn_params.py:6-9`. -/
def correctnessError (N k tau : Nat) : ℚ :=
  let d := N - k + 1
  let maxWeight := (d - 1) / 2
  1 - binomCdf maxWeight N (1 / 2 ^ tau)

/-- `find_k_correct` with bounds, `scripts/gen_lpn_params.py:26-35`. -/
def findKCorrectIn (N tau : Nat) (error : ℚ) (kBeg kEnd : Nat) : Nat :=
  if _h : kEnd ≤ kBeg + 1 then kBeg
  else
    let kMid := (kBeg + kEnd) / 2
    if correctnessError N kMid tau ≤ error then findKCorrectIn N tau error kMid kEnd
    else findKCorrectIn N tau error kBeg kMid
termination_by kEnd - kBeg
decreasing_by all_goals omega

/-- `find_k_correct`, `scripts/gen_lpn_params.py:20-35`. -/
def findKCorrect (N tau : Nat) (error : ℚ) : Nat := findKCorrectIn N tau error 1 N

/-- `find_k_sec` with bounds, `scripts/gen_lpn_params.py:44-53`; `sec k` is `sec_lpn(N, k, tau, q)`. -/
noncomputable def findKSecIn (sec : Nat → PyFloat) (want : ℝ) (kBeg kEnd : Nat) : Nat :=
  if _h : kEnd ≤ kBeg then kBeg
  else
    let kMid := (kBeg + kEnd) / 2
    if (sec kMid).lt (.real want) then findKSecIn sec want (kMid + 1) kEnd else findKSecIn sec want kBeg kMid
termination_by kEnd - kBeg
decreasing_by all_goals omega

/-- `find_k`, `scripts/gen_lpn_params.py:56-64`.  (`find_k_correct` never returns -1.) -/
noncomputable def findK (sec : Nat → PyFloat) (N tau : Nat) (want : ℝ) (error : ℚ) : Option Nat :=
  let kMax := findKCorrect N tau error
  if PyFloat.le (.real want) (sec kMax) then some (findKSecIn sec want 1 kMax) else none

/-- `find_lpn_params` with bounds, `scripts/gen_lpn_params.py:73-82`; `sec N k` is `sec_lpn(N, k, tau, q)`. -/
noncomputable def findLpnParamsIn (sec : Nat → Nat → PyFloat) (tau : Nat) (want : ℝ) (error : ℚ) (low high : Nat) : Nat × Option Nat :=
  if _h : high ≤ low then (low, findK (sec low) low tau want error)
  else
    let N := (low + high) / 2
    match findK (sec N) N tau want error with
    | none => findLpnParamsIn sec tau want error (N + 1) high
    | some _ => findLpnParamsIn sec tau want error low N
termination_by high - low
decreasing_by all_goals omega

/-- `find_lpn_params`, `scripts/gen_lpn_params.py:67-82`. -/
noncomputable def findLpnParams (sec : Nat → Nat → PyFloat) (tau : Nat) (want : ℝ) (error : ℚ) : Nat × Option Nat :=
  findLpnParamsIn sec tau want error 1 1500

end Verif
