import Verif.ShippedRunSpec
import Verif.PrivacyNetSpec

/-!
# What corrupted parties learn when a circuit file is garbled
-/

namespace Verif

/-- The file with the characters `cs` is garbled privately: it is parsed and packed, and whatever the tapes, no coalition within the threshold
learns anything about the wire masks, labels and errors, neither from the messages which it receives in `preproc` and `garble` nor from what
it sees of the whole network. -/
def FilePrivate (hash : List Nat → List Nat) (rng : List Nat → Nat → GF 18) (ctx : Ctx (GF 18)) (lpn : LpnParams) (m mb : Mat (GF 18))
    (lead : ProtocolID → Nat) (id id' : ProtocolID) (cs : List Char) : Prop :=
  ∃ circ p desc g, fromBristol cs = some circ ∧ circ.pack ctx.l = some p ∧ p.describe ctx.n ctx.t ctx.l lpn = some desc ∧
    GarbleCtx.new hash rng ctx lpn p = some g ∧
    ∀ (gtp : GarbleTapes (GF 18)), gtp.Ok ctx g → ∀ Cs, Coalition ctx Cs →
      RunPrivate (gfCodec 18) ctx m mb desc id g lead gtp id' Cs ∧ RunNetPrivate (gfCodec 18) ctx m mb desc id g lead gtp id' Cs

/-- The file is parsed and packed, but there is a coalition within the threshold which, whatever the tapes, learns something about the
secrets. -/
def FileLeaks (hash : List Nat → List Nat) (rng : List Nat → Nat → GF 18) (ctx : Ctx (GF 18)) (lpn : LpnParams) (m mb : Mat (GF 18))
    (lead : ProtocolID → Nat) (id id' : ProtocolID) (cs : List Char) : Prop :=
  ∃ circ p desc g, fromBristol cs = some circ ∧ circ.pack ctx.l = some p ∧ p.describe ctx.n ctx.t ctx.l lpn = some desc ∧
    GarbleCtx.new hash rng ctx lpn p = some g ∧
    ∃ Cs, Coalition ctx Cs ∧ ∀ (gtp : GarbleTapes (GF 18)), gtp.Ok ctx g → ¬ RunPrivate (gfCodec 18) ctx m mb desc id g lead gtp id' Cs

/-- The packing parameters, and for two of them the numbers of parties, with which `sub64.txt` is garbled privately. -/
def Sub64Private (n l : Nat) : Prop :=
  l ∈ [1, 2, 3, 4, 6, 7, 8, 9, 12, 13, 15, 21, 24] ∨ l = 20 ∧ n ∉ [32338, 32340, 32342, 65239, 98032, 123811, 146845, 147057] ∨
    l = 23 ∧ n ∉ [32335, 32337, 32339, 65236, 98029, 123808, 146842, 147038, 147054]

end Verif
