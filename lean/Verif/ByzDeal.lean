import Verif.ByzPrivacy
import Verif.PrivacyRtLemmas
import Verif.Preproc

/-!
# Dealing with parties which do not follow the protocol, and degree reductions with what they have dealt

In `rand` and `zero`, `src/protocol/preproc.rs:38-137`, every party deals sharings and combines what it gets.  The parties in `Cs` deal what they
like, after they have seen what the others have sent to them.
-/

open Polynomial

namespace Verif

open CodeField (ofU32)

variable {F : Type} [CodeField F]

/-- The polynomials which the parties choose for `br` sharings in `rand` and `bz` sharings in `zero` each. -/
abbrev DealCoins (ctx : Ctx F) (br bz : Nat) : Type := Fin ctx.n → Coins ctx br bz

/-- The sharing number `b` of party `j` in `rand`. -/
noncomputable def DealCoins.randP {ctx : Ctx F} {br bz : Nat} (δ : DealCoins ctx br bz) (j b : Nat) : F[X] :=
  if h : j < ctx.n then (δ ⟨j, h⟩).g b else 0

/-- The sharing number `b` of party `j` in `zero`. -/
noncomputable def DealCoins.zeroP {ctx : Ctx F} {br bz : Nat} (δ : DealCoins ctx br bz) (j b : Nat) : F[X] :=
  if h : j < ctx.n then (δ ⟨j, h⟩).z b else 0

/-- What the parties of `Cs` know: what is sent to them, and their own polynomials (all shares of these). -/
noncomputable def DealCoins.known {ctx : Ctx F} {br bz : Nat} (Cs : Finset Nat) (δ : DealCoins ctx br bz) (j : Fin ctx.n) (p : Nat) :
    List F × List F :=
  if (j : Nat) ∈ Cs ∨ p ∈ Cs then ((δ j).randoms p, (δ j).zeros p) else ([], [])

/-- What is dealt: party `j` of `Cs` gives the share `adv j b p` to party `p`, the other parties deal shares of their polynomials; and what the
parties make of it, `src/protocol/preproc.rs:53-75` and `114-136`. -/
def dealWith (n batches : Nat) (m : Mat F) (Cs : Finset Nat) (own : Nat → Nat → F[X]) (adv : Nat → Nat → Nat → F) : Option (List (List F)) :=
  dealRound n batches m ((List.range n).map fun j => (List.range batches).map fun b => (List.range n).map fun p =>
    if j ∈ Cs then adv j b p else (own j b).eval (ofU32 p))

/-- The shares which the parties of `Cs` deal in `rand` and in `zero`. -/
structure Cheat (F : Type) where
  rand : Nat → Nat → Nat → F
  zero : Nat → Nat → Nat → F

/-- Which of the results of `rand` and of `zero` are used for what. -/
structure Uses (ι : Type) where
  rand : ι → Nat → Nat
  zero : ι → Nat → Nat

/-- Nothing is used twice, and there are enough results. -/
structure Uses.Ok {ι : Type} (U : Uses ι) (nr nz : ι → Nat) (haveR haveZ : Nat) : Prop where
  rand_lt : ∀ u, ∀ i < nr u, U.rand u i < haveR
  zero_lt : ∀ u, ∀ i < nz u, U.zero u i < haveZ
  rand_inj : ∀ u u', ∀ i < nr u, ∀ i' < nr u', U.rand u i = U.rand u' i' → u = u' ∧ i = i'
  zero_inj : ∀ u u', ∀ i < nz u, ∀ i' < nz u', U.zero u i = U.zero u' i' → u = u' ∧ i = i'

/-- The results which party `p` uses. -/
def pickFrom (out : Option (List (List F))) (p num : Nat) (pick : Nat → Nat) : List F :=
  (List.range num).map fun i => ((out.getD []).getD p []).getD (pick i) 0

/-- What party `p` has for use `u`. -/
noncomputable def dealtFor (ctx : Ctx F) (m : Mat F) (Cs : Finset Nat) {ι : Type} (U : Uses ι) (nr nz : ι → Nat) {br bz : Nat} (a : Cheat F)
    (δ : DealCoins ctx br bz) (u : ι) (p : Nat) : List F × List F :=
  (pickFrom (dealWith ctx.n br m Cs δ.randP a.rand) p (nr u) (U.rand u), pickFrom (dealWith ctx.n bz m Cs δ.zeroP a.zero) p (nz u) (U.zero u))

/-- The numbers of values in runs of `reduce_degree`. -/
def runNum (rs : List (RdJob F)) (k : Fin rs.length) : Nat := (rs.get k).num

/-- What party `p` uses in run `k`. -/
noncomputable def dealtHeld (ctx : Ctx F) (m : Mat F) (Cs : Finset Nat) (rs : List (RdJob F)) (U : Uses (Fin rs.length)) {br bz : Nat} (a : Cheat F)
    (δ : DealCoins ctx br bz) (k : Fin rs.length) (p : Nat) : List F × List F := dealtFor ctx m Cs U (runNum rs) (runNum rs) a δ k p

end Verif
