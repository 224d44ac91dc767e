import Verif.LpnErrSpec

/-!
# The LPN bias, and vocabulary of the statements about the distribution of the preprocessing material
-/

namespace Verif

variable {F : Type} [CodeField F] [DecidableEq F]

/-- `preproc`, `src/protocol/preproc.rs:335-461`, with the parameter `lpn_tau` of the context: the only use of it is the assertion of
lines 344-345, which is there in debug builds only.  (`preproc` without the parameter is in `Preproc`.) -/
def preprocTau (debug : Bool) (tau : Nat) (ctx : Ctx F) (m mb : Mat F) (d : PreProcCount) (tp : PreTapes F) : Option (List (PreProc F)) :=
  if debug && tau != 2 then none else preproc ctx m mb d tp

/-- A run ends with material of which these are the masks, labels and errors. -/
def Hides (ctx : Ctx F) (run : Option (List (PreProc F))) (M : GarbleSecrets F) : Prop :=
  ∃ pre, run = some pre ∧
    VecSharing ctx.n (ctx.t + ctx.l) (defaultPos ctx.n ctx.l) M.masks (pre.map PreProc.masks) ∧
    VecSharing ctx.n (ctx.t + ctx.l) (defaultPos ctx.n ctx.l) M.keys (pre.map fun p => p.keys.flat) ∧
    VecSharing ctx.n (ctx.t + ctx.l) (defaultPos ctx.n ctx.l) M.errors (pre.map PreProc.errors)

/-- The probability of a value of a random bit. -/
def bitProb (v : F) : ℚ := if v = 0 ∨ v = 1 then 1 / 2 else 0

/-- The probability of an LPN error: with probability `2^-tau` it is any element of the field, and otherwise it is 0. -/
noncomputable def noiseProb (tau : Nat) (v : F) : ℚ :=
  (1 / 2 ^ tau) * (1 / Nat.card F) + (1 - 1 / 2 ^ tau) * if v = 0 then 1 else 0

/-- The probability of masks, labels and errors if all are independent, slot by slot: masks are random bits, labels are random elements of the
field and errors are LPN errors. -/
noncomputable def idealProb (tau l : Nat) (d : PreProcCount) (M : GarbleSecrets F) : ℚ :=
  (∏ i ∈ Finset.range d.masks, ∏ x ∈ Finset.range l, bitProb (at2 M.masks i x)) *
    (∏ _i ∈ Finset.range d.numKeys, ∏ _x ∈ Finset.range l, (1 / Nat.card F : ℚ)) *
    ∏ a ∈ Finset.range d.errors, ∏ x ∈ Finset.range l, noiseProb tau (at2 M.errors a x)

end Verif
