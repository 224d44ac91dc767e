import Lean.Elab.Tactic.Basic
import Lean.Meta.AppBuilder

/-!
# Equalities checked by the kernel only

`krfl` closes a goal `a = b` by `Eq.refl a` without comparing the two sides in the elaborator; the kernel
compares them when the theorem is added.  It is used for comparing the embedded text of the circuit files
with the text printed from the gates, where the sides are long strings.
-/

namespace Verif

open Lean Elab Tactic Meta in
/-- Close a goal `a = b` by `Eq.refl a`; only the kernel checks that the sides agree. -/
elab "krfl" : tactic => do
  let g ← getMainGoal
  let some (_, a, _) := (← g.getType).eq? | throwError "krfl: the goal is not an equality"
  g.assign (← mkEqRefl a)

end Verif
