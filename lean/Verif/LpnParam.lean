import Verif.PyFloat
import Mathlib.Analysis.SpecialFunctions.Log.Base
import Mathlib.Analysis.SpecialFunctions.Pow.Real

/-!
# Model of the part of `scripts/lpn_param.py` which `scripts/gen_lpn_params.py` uses

The script estimates how many bits of security LPN has: `N` is the number of queries, `k` the length of the secret, `t` the number of errors,
and `q` the size of the field.  Simplified: decimals with 170 digits and floats are exact real numbers, see `PyFloat`.  An exception is
`none`.  The attacks over the field with two elements and over rings (lines 44-306, 409-436, 464-490 and 504-530) and the command line
of the script are not modelled: nothing else uses them.
-/

namespace Verif

/-- The logarithm to base 2 of a positive number, `x.log10() / log10Two` in the script. -/
noncomputable def log2r (x : ℝ) : ℝ := Real.logb 2 x

/-- `com`, `scripts/lpn_param.py:16-24`. -/
def com (n m : Int) : ℚ :=
  let mn := min m (n - m)
  (List.range mn.toNat).foldl (fun result (j : Nat) => result * ((n - (j : Int) : Int) : ℚ) / ((mn - (j : Int) : Int) : ℚ)) 1

/-- `np.log2` of a number that is not negative. -/
noncomputable def npLog2 (x : ℝ) : EReal := if x = 0 then ⊥ else (log2r x : EReal)

/-- `Guass`, `scripts/lpn_param.py:28-41`.  For `k > N`, which the search never asks for
(`C100_range`), the power is a complex number; this case is left out. -/
noncomputable def guass (N k t : Nat) : Option PyFloat :=
  let pp := log2r (com ((N : Int) - k) t) - log2r (com N t)
  if N < k then none
  else
    let T : ℝ := if k < N - k then (k : ℝ) ^ (2.8 : ℝ) else ((N - k : Nat) : ℝ) ^ (2.8 : ℝ)
    some (.val (npLog2 T - (pp : EReal)))

/-- `sub_SD_ISDq`, `scripts/lpn_param.py:312-350`, for `q > 1`.  `np.log2` of 1 is 0 and dividing a decimal by it is an exception; of 0 it is
minus infinity and the quotient is 0; and of a negative number it is NaN, as is the result unless it is 230. -/
noncomputable def subSdIsdq (N k t q l p : Nat) : Option PyFloat :=
  let l' : Int := ((k + l) / 2 : Nat) * 2 - k + 2
  let p' := p / 2 * 2
  let c : ℝ := com (((k : Int) + l') / 2) ((p' / 2 : Nat) : Int)
  let L0 : ℝ := c * ((q : ℝ) - 1) ^ (p' / 2)
  let logL0 : ℝ := log2r c + ((p' / 2 : Nat) : ℝ) * log2r ((q : ℝ) - 1)
  let logS : ℝ := 2 * logL0 - (l' : ℝ) * log2r q
  let S : ℝ := 2 ^ logS
  if 230 < logS then some (.real 230)
  else if 230 < logL0 then some (.real 230)
  else
    let d : Int := (N : Int) - k - l'
    if d = 1 then none
    else
      let Tgauss : ℝ := if d = 0 then 0 else ((d * N : Int) : ℝ) / log2r (d : ℝ)
      let T1 : ℝ := (Tgauss + 2 * L0 + 2 * S) * N
      let pp : ℝ := log2r (com d ((t : Int) - p')) - log2r (com N t)
      let pp : ℝ := pp + (l' : ℝ) * log2r q
      let pp : ℝ := pp - (p' : ℝ) * log2r ((q : ℝ) - 1)
      let pp : ℝ := pp + logS
      if 0 ≤ pp then some (.real 230)
      else if d < 0 then some .nan
      else some (.real (log2r T1 - pp))

/-- The loop of `min_SD_ISDq`, `scripts/lpn_param.py:364-376`: the two bounds and the minimum. -/
noncomputable def ternary (f : Nat → Option PyFloat) (start : Nat) (stop : Int) (m : PyFloat) : Option (Nat × Int × PyFloat) :=
  if _h : 30 < stop - start then
    let third := ((stop - start) / 3).toNat
    let mid1 := third + start
    let mid2 := (stop - third).toNat
    match f mid1, f mid2 with
    | some t1, some t2 => if PyFloat.lt t2 t1 then ternary f mid1 stop t2 else ternary f start mid2 t1
    | _, _ => none
  else some (start, stop, m)
termination_by (stop - start).toNat
decreasing_by all_goals omega

/-- A loop which keeps the smallest of some costs, `scripts/lpn_param.py:383-386`. -/
noncomputable def keepMin (f : Nat → Option PyFloat) (ls : List Nat) (m : PyFloat) : Option PyFloat :=
  ls.foldlM (fun m l => (f l).map fun T => if PyFloat.le T m then T else m) m

/-- `min_SD_ISDq`, `scripts/lpn_param.py:355-388`. -/
noncomputable def minSdIsdq (N k t q p : Nat) : Option PyFloat := do
  let Tstart ← subSdIsdq N k t q 1 p
  let (start, stop, m) ← ternary (fun l => subSdIsdq N k t q l p) 1 ((N : Int) - k - 8) Tstart
  let start := if start < 10 then 0 else start - 10
  keepMin (fun l => subSdIsdq N k t q l p) (List.range' start ((stop + 10).toNat - start)) m

/-- The loop of `SD_ISD_q`, `scripts/lpn_param.py:395-401`; `ps` are the values of `p` that remain. -/
noncomputable def sdLoop (N k t q : Nat) : List Nat → PyFloat → Option PyFloat
  | [], wholemin => some wholemin
  | p :: ps, wholemin => do
    let m ← minSdIsdq N k t q p
    let wholemin := if PyFloat.le m wholemin then m else wholemin
    let limit : PyFloat := match wholemin with
      | .nan => .nan
      | .val x => .val (x + 30)
    if PyFloat.lt limit m then some wholemin else sdLoop N k t q ps wholemin

/-- `SD_ISD_q`, `scripts/lpn_param.py:393-406`. -/
noncomputable def sdIsdq (N k t q : Nat) : Option PyFloat := do
  let wholemin ← subSdIsdq N k t q 0 0
  let wholemin ← sdLoop N k t q (List.range (t / 2)) wholemin
  let T1 ← guass N k t
  return if PyFloat.lt T1 wholemin then T1 else wholemin

/-- `Ourparitycheckforq`, `scripts/lpn_param.py:440-445`. -/
noncomputable def parityCheckq (N k t : Nat) : PyFloat :=
  let pp := log2r (com N t) - log2r (com ((N : Int) - k - 1) t)
  .real (log2r ((k : ℝ) + 1) + 2 * pp)

/-- `analysisforq`, `scripts/lpn_param.py:493-501`. -/
noncomputable def analysisForq (N k t q : Nat) : Option PyFloat := do
  let T1 ← sdIsdq N k t q
  let T2 := parityCheckq N k t
  return if PyFloat.lt T2 T1 then T2 else T1

/-- `sec_lpn`, `scripts/gen_lpn_params.py:12-17`. -/
noncomputable def secLpn (tau q N k : Nat) : PyFloat :=
  let t := N * (q - 1) / (2 ^ tau * q)
  match analysisForq N k t q with
  | some x => x
  | none => .real 0

end Verif
