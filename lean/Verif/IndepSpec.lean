import Verif.NoiseSpec
import Verif.ShippedPrivacySpec

/-!
# Vocabulary of the statements about the independence of what corrupted parties see
-/

namespace Verif

variable {F : Type} [CodeField F] [DecidableEq F]

/-- What a party sees of `preproc`: its randomness, and the messages by job and sender. -/
abbrev PreView (F : Type) : Type :=
  (Option (List (List F)) × Option (List (List F)) × Option (List (List Bool)) × Option (List (List F)) × Option (ErrTapes F)) ×
    List (List (List (List Nat)))

/-- What a party sees of `garble`: its material, and the messages by job and sender. -/
abbrev GarbleView (F : Type) : Type := Option (PreProc F) × List (List (List (List Nat)))

/-- In the run of `preproc` with randomness `tp`, followed by a run of `garble`, the parties of `Cs` see `V`. -/
def Sees (c : Codec F) (ctx : Ctx F) (m mb : Mat F) (d : PreProcCount) (id : ProtocolID) (g : GarbleCtx F) (lead : ProtocolID → Nat)
    (gtp : GarbleTapes F) (gid : ProtocolID) (Cs : Finset Nat) (V : Nat → PreView F × GarbleView F) (tp : PreTapes F) : Prop :=
  ∃ pre, preproc ctx m mb d tp = some pre ∧ ∀ q ∈ Cs, preprocView c ctx m mb d tp id q = some (V q).1 ∧
    garbleView c ctx g lead gtp pre gid q = some (V q).2

/-- What the parties of `Cs` see is independent of the secrets. -/
def RunIndependent (c : Codec F) (ctx : Ctx F) (m mb : Mat F) (d : PreProcCount) (id : ProtocolID) (g : GarbleCtx F) (lead : ProtocolID → Nat)
    (gtp : GarbleTapes F) (gid : ProtocolID) (Cs : Finset Nat) : Prop :=
  ∀ S : PreSecrets F, S.Fit ctx.l d → ∀ V,
    tapeFraction ctx m mb d (fun tp => HasSecrets ctx m mb d tp S ∧ Sees c ctx m mb d id g lead gtp gid Cs V tp)
      = tapeFraction ctx m mb d (fun tp => HasSecrets ctx m mb d tp S) *
        tapeFraction ctx m mb d (Sees c ctx m mb d id g lead gtp gid Cs V)

/-- The file with the characters `cs` is parsed and packed, and what a coalition within the threshold sees when it is garbled is independent of the
secrets, whatever the tapes of `garble`. -/
def FileIndependent (hash : List Nat → List Nat) (rng : List Nat → Nat → GF 18) (ctx : Ctx (GF 18)) (lpn : LpnParams) (m mb : Mat (GF 18))
    (lead : ProtocolID → Nat) (id id' : ProtocolID) (cs : List Char) : Prop :=
  ∃ circ p desc g, fromBristol cs = some circ ∧ circ.pack ctx.l = some p ∧ p.describe ctx.n ctx.t ctx.l lpn = some desc ∧
    GarbleCtx.new hash rng ctx lpn p = some g ∧
    ∀ (gtp : GarbleTapes (GF 18)), gtp.Ok ctx g → ∀ Cs, Coalition ctx Cs → RunIndependent (gfCodec 18) ctx m mb desc id g lead gtp id' Cs

end Verif
