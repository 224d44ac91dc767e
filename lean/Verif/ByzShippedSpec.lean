import Verif.ByzGarble
import Verif.ByzMix
import Verif.ShippedPrivacySpec

/-! # Garbling the circuits shipped in `data/circ` with parties which do not follow the protocols: specification -/

namespace Verif

/-- The file with the characters `cs` is garbled such that parties which deviate learn nothing: it is parsed and packed, and with whatever tapes, at most `t` parties which decide at any
time what happens next and what they send, in the dealing of the sharings with matrix `m` (`br` random sharings and `bz` sharings of zero by each party, of which those from `b` and
`b'` on are used), in `randtrans`, and in all runs of `trans` and `mult`, see and do the same for all secrets `sec` and `sec'`, up to a bijection of the randomness of the dealers. -/
def FileSecret (hash : List Nat → List Nat) (rng : List Nat → Nat → GF 18) (ctx : Ctx (GF 18)) (lpn : LpnParams) (m : Mat (GF 18))
    (lead : ProtocolID → Nat) (cs : List Char) : Prop :=
  ∃ circ p desc g go gi, fromBristol cs = some circ ∧ circ.pack ctx.l = some p ∧ p.describe ctx.n ctx.t ctx.l lpn = some desc ∧
    GarbleCtx.new hash rng ctx lpn p = some g ∧ chunks? ctx.l g.tfOut = some go ∧ chunks? ctx.l g.tfInp = some gi ∧
    ∀ (gtp : GarbleTapes (GF 18)), gtp.Ok ctx g → ∀ Cs, Coalition ctx Cs →
      ∀ (ids : List ProtocolID) (br bz b b' : Nat), b + desc.randoms ≤ m.rows.length * br → b' + desc.zeros ≤ m.rows.length * bz →
      ∀ (sec sec' : Nat → PreProc (GF 18)) (σ : List ((PreMsg → Option (List (GF 18))) × Sys Unit) → MixAct (GF 18)),
      let runs := garbleRuns ctx g lead gtp sec go gi
      let S : Mix (GF 18) := ⟨ctx, garbleRts g go gi, runJobs ids runs, m, Cs, garbleUses ctx g go gi ids runs b b', br, bz, gfCodec 18⟩
      ∃ e : DealCoins ctx br bz ≃ DealCoins ctx br bz, ∀ δ N,
        playBy σ (S.view (runInputs (go.length + gi.length) (garbleRuns ctx g lead gtp sec' go gi)) (e δ)) N
          = playBy σ (S.view (runInputs (go.length + gi.length) runs) δ) N

end Verif
