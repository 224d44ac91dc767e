import Verif.CoreSpec
import Mathlib.Logic.Equiv.Defs

/-!
# Vocabulary of the statements about what corrupted parties learn

The random and zero sharings of the preprocessing are the coins of the later protocols.  Two executions look alike to
a coalition if its members have the same shares and receive the same messages; if a bijection of the coins
maps every execution on one input to an execution on another input which looks alike, then for uniformly distributed coins
what the coalition sees has the same distribution for both inputs.
-/

open Polynomial

namespace Verif

open CodeField (ofU32)

variable {F : Type} [CodeField F]

/-- A random sharing: a polynomial of degree below `t + l`. -/
abbrev RandomSharing (ctx : Ctx F) : Type := {q : F[X] // q.degree < (ctx.t + ctx.l : Nat)}

/-- A sharing of zero: a polynomial of degree below `n` which vanishes at the positions of the secrets. -/
abbrev ZeroSharing (ctx : Ctx F) : Type :=
  {q : F[X] // q.degree < ctx.n ∧ ∀ v ∈ defaultPos ctx.n ctx.l, q.eval v = 0}

/-- `nr` random sharings and `nz` sharings of zero. -/
structure Coins (ctx : Ctx F) (nr nz : Nat) where
  rand : Fin nr → RandomSharing ctx
  zero : Fin nz → ZeroSharing ctx

/-- The shares of party `p` of the random sharings. -/
noncomputable def Coins.randoms {ctx : Ctx F} {nr nz : Nat} (ω : Coins ctx nr nz) (p : Nat) : List F :=
  List.ofFn fun i => (ω.rand i).1.eval (ofU32 p)

/-- The shares of party `p` of the sharings of zero. -/
noncomputable def Coins.zeros {ctx : Ctx F} {nr nz : Nat} (ω : Coins ctx nr nz) (p : Nat) : List F :=
  List.ofFn fun i => (ω.zero i).1.eval (ofU32 p)

/-- The parties of `Cs` have the same shares of both coins. -/
def Coins.Agree {ctx : Ctx F} {nr nz : Nat} (Cs : Finset Nat) (ω ω' : Coins ctx nr nz) : Prop :=
  ∀ p ∈ Cs, ω'.randoms p = ω.randoms p ∧ ω'.zeros p = ω.zeros p

/-- At most `t` of the parties. -/
structure Coalition (ctx : Ctx F) (Cs : Finset Nat) : Prop where
  parties : ∀ p ∈ Cs, p < ctx.n
  size : Cs.card ≤ ctx.t

/-- As many old as new positions, or as many new positions as slots. -/
def SharingTransform.Aligned {F : Type} (l : Nat) (tf : SharingTransform F) : Prop :=
  tf.oldPos.length = tf.newPos.length ∨ tf.newPos.length = l

variable [DecidableEq F]

/-- The messages of party `p` of `randtrans`, by recipient. -/
noncomputable def rtMessages (ctx : Ctx F) (tfs : List (SharingTransform F)) {nr nz : Nat} (ω : Coins ctx nr nz) (p : Nat) :
    Option (List (List F)) :=
  (RandTransform.new ctx p tfs).bind fun tr => rtSend ctx tr (ω.randoms p) (ω.zeros p)

/-- The results of `randtrans`. -/
noncomputable def rtResult (ctx : Ctx F) (tfs : List (SharingTransform F)) {nr nz : Nat} (ω : Coins ctx nr nz) :
    Option (List (List (List F) × List (List F))) :=
  randtrans ctx tfs ((List.range ctx.n).map ω.randoms) ((List.range ctx.n).map ω.zeros)

/-- Entry `(k, j)` of an array. -/
def entry2 (a : List (List F)) (k j : Nat) : F := (a.getD k []).getD j 0

/-- `randtrans` hides the shares of the masks `random_n` (which `trans` adds to the parties' shares of its input, and the
sum goes to the leader) from every coalition: changing the other parties' shares by arbitrary amounts
`d` is a bijection of the coins which the coalition cannot see. -/
def RtHides (ctx : Ctx F) (tfs : List (SharingTransform F)) (num : Nat) : Prop :=
  ∀ Cs : Finset Nat, Coalition ctx Cs → ∀ d : Nat → Nat → Nat → F, (∀ k j, ∀ p ∈ Cs, d k j p = 0) →
    ∃ e : Coins ctx ((ctx.n + ctx.t) * num) (2 * ctx.n * num) ≃ Coins ctx ((ctx.n + ctx.t) * num) (2 * ctx.n * num),
      ∀ ω, Coins.Agree Cs ω (e ω) ∧
        (∀ p < ctx.n, ∀ q ∈ Cs, ∃ m m' x, rtMessages ctx tfs ω p = some m ∧ rtMessages ctx tfs (e ω) p = some m' ∧
          m[q]? = some x ∧ m'[q]? = some x) ∧
        ∃ o o', rtResult ctx tfs ω = some o ∧ rtResult ctx tfs (e ω) = some o' ∧ o.length = ctx.n ∧ o'.length = ctx.n ∧
          ∀ p < ctx.n, ∀ k < tfs.length, ∀ j < num,
            entry2 (o'.getD p ([], [])).2 k j = entry2 (o.getD p ([], [])).2 k j + d k j p

end Verif
