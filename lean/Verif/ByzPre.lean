import Verif.ByzDeal
import Verif.AsyncPreproc

/-!
# The multiplications of `preproc` with parties which do not follow the protocols

`preproc`, `src/protocol/preproc.rs:335-460`, uses some results of `rand` and `zero` as masks in runs of `mult`, and others as inputs of these runs and as
preprocessing material.
-/

open Polynomial

namespace Verif

open CodeField (ofU32)

variable {F : Type} [CodeField F]

/-- What party `p` has of the results which are not masks (uses `.inr k`). -/
noncomputable def dealtOwn (ctx : Ctx F) (m : Mat F) (Cs : Finset Nat) {rs : List (RdJob F)} {κ : Type} (U : Uses (Fin rs.length ⊕ κ)) (er ez : κ → Nat) {br bz : Nat}
    (a : Cheat F) (δ : DealCoins ctx br bz) (p : Nat) (k : κ) : List F × List F :=
  dealtFor ctx m Cs U (Sum.elim (runNum rs) er) (Sum.elim (runNum rs) ez) a δ (.inr k) p

/-- What party `p` uses as masks in run `k`. -/
noncomputable def dealtMask (ctx : Ctx F) (m : Mat F) (Cs : Finset Nat) {rs : List (RdJob F)} {κ : Type} (U : Uses (Fin rs.length ⊕ κ)) (er ez : κ → Nat) {br bz : Nat}
    (a : Cheat F) (δ : DealCoins ctx br bz) (k : Fin rs.length) (p : Nat) : List F × List F :=
  dealtFor ctx m Cs U (Sum.elim (runNum rs) er) (Sum.elim (runNum rs) ez) a δ (.inl k) p

/-- A change of the results which are not masks, of which the parties of `Cs` notice nothing: polynomials of the right degrees which vanish at the positions of these parties, and for
sharings of zero also at those of the secrets. -/
structure OwnShift (ctx : Ctx F) (Cs : Finset Nat) {κ : Type} (er ez : κ → Nat) where
  rand : κ → Nat → F[X]
  zero : κ → Nat → F[X]
  rand_deg : ∀ k, ∀ i < er k, (rand k i).degree < (ctx.t + ctx.l : Nat)
  zero_ok : ∀ k, ∀ i < ez k, (zero k i).degree < ctx.n ∧ ∀ v ∈ defaultPos ctx.n ctx.l, (zero k i).eval v = 0
  rand_hid : ∀ k, ∀ i < er k, ∀ p ∈ Cs, (rand k i).eval (ofU32 p) = 0
  zero_hid : ∀ k, ∀ i < ez k, ∀ p ∈ Cs, (zero k i).eval (ofU32 p) = 0

/-- Party `p`'s shares after the change. -/
def OwnShift.apply {ctx : Ctx F} {Cs : Finset Nat} {κ : Type} {er ez : κ → Nat} (D : OwnShift ctx Cs er ez) (p : Nat) (own : κ → List F × List F) (k : κ) : List F × List F :=
  (vadd (own k).1 ((List.range (er k)).map fun i => (D.rand k i).eval (ofU32 p)), vadd (own k).2 ((List.range (ez k)).map fun i => (D.zero k i).eval (ofU32 p)))

/-! ## `preproc` -/

/-- The errors of the leaders before `a`. -/
def errOff (sizes : List Nat) (a : Nat) : Nat := (sizes.take a).sum

/-- Position `i` of slot `s` of leader `a`, if each leader has `c` slots with as many values as it has errors. -/
def slotPos (c : Nat) (sizes : List Nat) (a s i : Nat) : Nat := c * errOff sizes a + s * sizes.getD a 0 + i

/-- The runs of `mult`, two for each leader, `src/protocol/preproc.rs:391-437`. -/
def preRuns (ids : List ProtocolID) (errs : List (ErrTapes F)) (sizes : List Nat) : List (RdJob F) :=
  (List.range (2 * sizes.length)).map fun k =>
    ⟨ids.getD k [], if k % 2 = 0 then [] else [k - 1], k / 2, sizes.getD (k / 2) 0,
      ((errs[k / 2]?).map fun tp => if k % 2 = 0 then tp.first else tp.second).getD []⟩

/-- Which results are used for what, `src/protocol/preproc.rs:384-404,421-423,438-459`: masks in the runs; the scalars of leader `a` (`.inr (some a)`); and the rest, which are keys and
material for `garble` (`.inr none`). -/
def preUses (K : Nat) (sizes : List Nat) : Uses (Fin K ⊕ Option Nat) where
  rand u i := match u with
    | .inl k => slotPos 3 sizes (k / 2) (if (k : Nat) % 2 = 0 then 0 else 2) i
    | .inr (some a) => slotPos 3 sizes a 1 i
    | .inr none => 3 * sizes.sum + i
  zero u i := match u with
    | .inl k => slotPos 2 sizes (k / 2) (k % 2) i
    | .inr (some _) => i
    | .inr none => 2 * sizes.sum + i

/-- The numbers of these random sharings. -/
def preOwnR (sizes : List Nat) (rest : Nat) : Option Nat → Nat
  | some a => sizes.getD a 0
  | none => rest

/-- The numbers of these sharings of zero. -/
def preOwnZ (rest : Nat) : Option Nat → Nat
  | some _ => 0
  | none => rest

/-- `v`, if it has the right length; `mult` panics otherwise. -/
def fitTo (num : Nat) (v : List F) : List F := if v.length = num then v else List.replicate num 0

/-- The first factor in run `k`, for a party with results `bits` of `randbit`: bits, or the results of the run before. -/
def preLeft (sizes : List Nat) (bits : List F) (k : Nat) (env : Env (List F)) : List F :=
  fitTo (sizes.getD (k / 2) 0)
    (if k % 2 = 0 then (bits.drop (slotPos 2 sizes (k / 2) 0 0)).take (sizes.getD (k / 2) 0) else (env (k - 1)).getD [])

/-- The second factor in run `k`: bits or scalars. -/
def preRight (sizes : List Nat) (bits : List F) (k : Nat) (own : Option Nat → List F × List F) : List F :=
  fitTo (sizes.getD (k / 2) 0)
    (if k % 2 = 0 then (bits.drop (slotPos 2 sizes (k / 2) 1 0)).take (sizes.getD (k / 2) 0) else (own (some (k / 2))).1)

variable [DecidableEq F]

/-- What party `p` has of the scalars, and of the results which are not used for errors. -/
noncomputable def preOwn (ctx : Ctx F) (m : Mat F) (Cs : Finset Nat) (ids : List ProtocolID) (errs : List (ErrTapes F)) (sizes : List Nat) (desc : PreProcCount)
    {br bz : Nat} (a : Cheat F) (δ : DealCoins ctx br bz) : Nat → Option Nat → List F × List F :=
  dealtOwn ctx m Cs (preUses (preRuns ids errs sizes).length sizes) (preOwnR sizes (desc.numKeys + desc.randoms)) (preOwnZ desc.zeros) a δ

/-- The runs of `mult`, if the results of `randbit` are `bits`: `src/protocol/preproc.rs:391-437`. -/
noncomputable def preMults (c : Codec F) (ctx : Ctx F) (m : Mat F) (Cs : Finset Nat) (ids : List ProtocolID) (errs : List (ErrTapes F)) (sizes : List Nat)
    (desc : PreProcCount) {br bz : Nat} (bits : Nat → List F) (a : Cheat F) (δ : DealCoins ctx br bz) : List (Job (List F)) :=
  multJobs c ctx (preRuns ids errs sizes) (fun k p env => preLeft sizes (bits p) k env) (fun k p _ => preRight sizes (bits p) k (preOwn ctx m Cs ids errs sizes desc a δ p))
    (dealtMask ctx m Cs (preUses (preRuns ids errs sizes).length sizes) (preOwnR sizes (desc.numKeys + desc.randoms)) (preOwnZ desc.zeros) a δ)

end Verif
