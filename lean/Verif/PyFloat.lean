import Mathlib.Data.EReal.Basic

/-!
# Python floats without rounding

The scripts which choose parameters compute with floats and decimals.  Their models use exact real numbers, but keep infinities and NaN, since
the scripts compare without checking for either.
-/

namespace Verif

/-- A Python float without rounding: a real number, an infinity, or NaN. -/
inductive PyFloat where
  | nan
  | val (x : EReal)

namespace PyFloat

/-- `a < b`, and `b > a`, in Python: false if either is NaN. -/
def lt : PyFloat → PyFloat → Prop
  | val x, val y => x < y
  | _, _ => False

/-- `a <= b`, and `b >= a`, in Python: false if either is NaN. -/
def le : PyFloat → PyFloat → Prop
  | val x, val y => x ≤ y
  | _, _ => False

noncomputable instance : DecidableRel lt := fun _ _ => Classical.propDecidable _
noncomputable instance : DecidableRel le := fun _ _ => Classical.propDecidable _

/-- A real number as a float. -/
noncomputable def real (x : ℝ) : PyFloat := val (x : EReal)

end PyFloat

end Verif
