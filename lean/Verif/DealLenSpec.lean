import Verif.ByzDeal

/-!
# Messages with other numbers of values in `rand`, `zero` and `randbit`

The recipient concatenates the messages of all parties and cuts the result into rows, `src/protocol/preproc.rs:64-70`, `124-130` and `184-190`.
-/

open Polynomial

namespace Verif

open CodeField (ofU32)

variable {F : Type} [CodeField F]

/-- What party `j` of 5 sends to party `p` in `rand` with one batch, if parties 2 and 4 deviate: party 3 gets two values of party 2 and none of party 4; all others get one value
of each.  The other parties deal the values of polynomials `ρ j`. -/
noncomputable def lenRand (ρ : Nat → F[X]) (p j : Nat) : List F :=
  if j = 2 then (if p = 3 then [0, 0] else [0]) else if j = 4 then (if p = 3 then [] else [0]) else [(ρ j).eval (ofU32 p)]

/-- The same in `zero`, where all send one value to each party. -/
noncomputable def lenZero (f : Nat → F[X]) (p j : Nat) : List F :=
  if j = 2 ∨ j = 4 then [0] else [(f j).eval (ofU32 p)]

variable [DecidableEq F]

/-- The message of party `p` to the leader in `reduce_degree` for three values `x`, masked with the results. -/
noncomputable def lenMsg (m : Mat F) (x ρ f : Nat → F[X]) (p : Nat) : Option (List F) :=
  (dealFinish 5 1 m ((List.range 5).map (lenRand ρ p))).bind fun r =>
  (dealFinish 5 1 m ((List.range 5).map (lenZero f p))).bind fun z => rdSend ((List.range 3).map fun i => (x i).eval (ofU32 p)) r z

/-- Three values, and polynomials as in `rand` and `zero`, for 5 parties, threshold 2 and one secret per sharing. -/
structure LenRun (x ρ f : Nat → F[X]) : Prop where
  inp : ∀ i, (x i).degree < 5
  rand : ∀ j, (ρ j).degree < 3
  zero : ∀ j, (f j).degree < 5 ∧ (f j).eval (ofU32 5) = 0

end Verif
