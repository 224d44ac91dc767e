import Verif.ByzDeal
import Verif.ByzTrans

/-!
# From the dealing of sharings to the transformations, with parties which do not follow the protocols

The random sharings and the sharings of zero which `randtrans`, `reduce_degree` and `mult` use come from `rand` and `zero`,
`src/protocol/preproc.rs:38-137`, in which the parties of `Cs` deal what they like (`Verif.ByzDeal`); what the other parties send in `randtrans`,
`src/protocol/core.rs:302-343`, is made from what they got there.  All dealing is done before `randtrans` and all runs of `randtrans` before the other
runs; the programs interleave different calls.
-/

open Polynomial

namespace Verif

/-- Where sharings are used: in run `k` of `reduce_degree`, or in run `g` of `randtrans`. -/
abbrev Use {F : Type} (gs : List (RtRun F)) (rs : List (MkJob F)) : Type := Fin rs.length ⊕ Fin gs.length

variable {F : Type} [CodeField F]

/-- The number of random sharings, `src/protocol/core.rs:28` and `302`. -/
def useR (ctx : Ctx F) (gs : List (RtRun F)) (rs : List (MkJob F)) : Use gs rs → Nat
  | .inl k => (rs.get k).own
  | .inr g => (ctx.n + ctx.t) * (gs.get g).num

/-- The number of sharings of zero. -/
def useZ (ctx : Ctx F) (gs : List (RtRun F)) (rs : List (MkJob F)) : Use gs rs → Nat
  | .inl k => (rs.get k).own
  | .inr g => 2 * ctx.n * (gs.get g).num

/-- What the parties of `Cs` know after the dealing. -/
abbrev DealKnown (ctx : Ctx F) : Type := Fin ctx.n → Nat → List F × List F

/-- What they get in the runs of `randtrans`. -/
abbrev Heard (gs : List (RtRun F)) : Type := Fin gs.length → Nat → Nat → Option (List F)

/-- What the parties of `Cs` do: in `rand` and `zero` they deal `cheat` after they have seen what is dealt to them, in run `g` of `randtrans` party `p`
sends `evil g p q` to party `q` after they have seen the messages to them, and then they do `strat`, always depending on all they have seen. -/
structure Attack (ctx : Ctx F) (gs : List (RtRun F)) where
  cheat : DealKnown ctx → Cheat F
  evil : DealKnown ctx → Heard gs → Fin gs.length → Nat → Nat → List F
  strat : DealKnown ctx → Heard gs → List (Sys Unit) → ByzStep

variable [DecidableEq F]

/-- What party `p` sends to party `q` in `randtrans`, `src/protocol/core.rs:302-343`. -/
def rtTo (ctx : Ctx F) (tfs : List (SharingTransform F)) (p q : Nat) (v : List F × List F) : Option (List F) :=
  ((RandTransform.new ctx p tfs).bind fun tr => rtSend ctx tr v.1 v.2).bind fun ms => ms[q]?

section
variable {ctx : Ctx F} {gs : List (RtRun F)} (A : Attack ctx gs) (m : Mat F) (Cs : Finset Nat) (rs : List (MkJob F)) (U : Uses (Use gs rs)) {br bz : Nat}

/-- What party `p` has for use `u` if the others deal `δ`. -/
noncomputable def Attack.has (δ : DealCoins ctx br bz) (u : Use gs rs) (p : Nat) : List F × List F :=
  dealtFor ctx m Cs U (useR ctx gs rs) (useZ ctx gs rs) (A.cheat (δ.known Cs)) δ u p

/-- What the parties of `Cs` get in `randtrans` from the others. -/
noncomputable def Attack.heard (δ : DealCoins ctx br bz) : Heard gs := fun g p q =>
  if p < ctx.n ∧ p ∉ Cs ∧ q ∈ Cs then rtTo ctx (gs.get g).tfs p q (A.has m Cs rs U δ (.inr g) p) else none

/-- What party `q` gets in run `g` of `randtrans`. -/
noncomputable def Attack.inbox (δ : DealCoins ctx br bz) (g : Fin gs.length) (q : Nat) : Option (List (List F)) :=
  (List.range ctx.n).mapM fun p => if p ∈ Cs then some (A.evil (δ.known Cs) (A.heard m Cs rs U δ) g p q)
    else rtTo ctx (gs.get g).tfs p q (A.has m Cs rs U δ (.inr g) p)

/-- The masks of party `q` for run `k`, `none` if `randtrans` fails. -/
noncomputable def Attack.got (δ : DealCoins ctx br bz) (k : Fin rs.length) (q : Nat) : Option (List F × List F) :=
  if q < ctx.n then
    match (rs.get k).tr with
    | none => some (A.has m Cs rs U δ (.inl k) q)
    | some (g, i) =>
      if hg : g < gs.length then
        (A.inbox m Cs rs U δ ⟨g, hg⟩ q).bind fun box => (rtFinish ctx (gs.get ⟨g, hg⟩).num box).map fun o => (o.1.getD i [], o.2.getD i [])
      else none
  else none

/-- What the parties of `Cs` see in the first `N` steps of the runs. -/
noncomputable def Attack.view (c : Codec F) (x : Nat → Nat → Env (List F) → List F) (δ : DealCoins ctx br bz) (N : Nat) : List (Sys Unit) :=
  (Sys.play ctx.n (mkJobs c ctx gs rs x (A.got m Cs rs U δ)) Cs (A.strat (δ.known Cs) (A.heard m Cs rs U δ)) N).1

/-- The messages of the parties of `Cs` in `randtrans` have the right lengths, or together the wrong one. -/
def Attack.Sized : Prop := ∀ v hrd, EvilSizes Cs gs (A.evil v hrd)

end

end Verif
