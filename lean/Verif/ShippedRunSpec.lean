import Verif.EndToEndSpec
import Verif.PreprocSpec
import Verif.AsyncNetSpec
import Verif.AsyncGarble
import Verif.AsyncPreproc

/-!
# Running `preproc` and `garble` for a circuit file

The binaries of the repository compute in GF(2^18), with 3 bytes per element.
-/

namespace Verif

/-- The parameters of a run for a circuit of `wires` wires: the context, the key and message lengths, the two matrices, the leaders and
the protocol IDs.

* `good`, `parties`, `mult`: the context is one which `PackedSharing::new` accepts, with enough parties for the degrees of the shares;
* `fit`, `code`: the field has enough elements for the positions of the wires and for the code;
* `deal`, `dealBin`, `binary`: the matrices are as `preproc` needs them;
* `lead`: the leader of a protocol is the one of `choose_leader`;
* `id`, `id'`: the protocol IDs do not become too long. -/
structure RunParams (ctx : Ctx (GF 18)) (lpn : LpnParams) (wires : Nat) (m mb : Mat (GF 18)) (seahash : List Nat → Nat)
    (lead : ProtocolID → Nat) (id id' : ProtocolID) : Prop where
  good : ctx.Good
  parties : ctx.t + 2 * ctx.l ≤ ctx.n
  mult : 2 * (ctx.t + ctx.l - 1) < ctx.n
  fit : ctx.n + ctx.l + wires ≤ 2 ^ 18
  key : lpn.keyLen < 2 ^ 18
  code : lpn.mssgLen < 2 ^ 18
  deal : DealMat ctx.n m
  dealBin : DealMat ctx.n mb
  binary : mb.Binary
  lead : ∀ id, chooseLeader seahash id none ctx.n = some (lead id)
  id : id.length ≤ 250
  id' : id'.length ≤ 239

/-- The file with the characters `cs` and the gates `gates` is garbled: it is parsed and packed, and for all tapes, in every schedule of all
tasks of the parties and of their networks, `preproc` ends, and all parties get the same material `pre` as in every other schedule;
`garble` with this material ends in every schedule; and the tables of all parties contain every gate of the file, garbled. -/
def FileGarbled (hash : List Nat → List Nat) (rng : List Nat → Nat → GF 18) (ctx : Ctx (GF 18)) (lpn : LpnParams) (m mb : Mat (GF 18))
    (lead : ProtocolID → Nat) (id id' : ProtocolID) (d : BristolDesc) (cs : List Char) : Prop :=
  ∃ circ p desc g, fromBristol cs = some circ ∧ circ.pack ctx.l = some p ∧ p.describe ctx.n ctx.t ctx.l lpn = some desc ∧
    GarbleCtx.new hash rng ctx lpn p = some g ∧
    ∀ (tp : PreTapes (GF 18)), tp.Ok ctx.n ctx.t ctx.l m mb desc → ∀ (gtp : GarbleTapes (GF 18)), gtp.Ok ctx g →
      ∃ jobs outs pre jobs' outs' masks keys errors place mask,
        preprocJobs (gfCodec 18) ctx m mb desc tp id = some jobs ∧ NetScheduleFree ctx.n jobs outs ∧
        (∀ (es : List FStep) (f : Full (List (GF 18))), (Full.start ctx.n).run ctx.n jobs es = some f → f.Stuck ctx.n jobs →
          (List.range ctx.n).mapM (fun i => preprocResult desc ctx.n (f.env i)) = some pre) ∧
        VecSharing ctx.n (ctx.t + ctx.l) (defaultPos ctx.n ctx.l) masks (pre.map (·.masks)) ∧
        VecSharing ctx.n (ctx.t + ctx.l) (defaultPos ctx.n ctx.l) keys (pre.map (·.keys.flat)) ∧
        VecSharing ctx.n (ctx.t + ctx.l) (defaultPos ctx.n ctx.l) errors (pre.map (·.errors)) ∧
        Places d p place ∧ GoodSecrets p masks errors place mask ∧
        garbleJobs (gfCodec 18) ctx g lead gtp pre id' = some jobs' ∧ NetScheduleFree ctx.n jobs' outs' ∧
        ∀ (es : List FStep) (f : Full (GOut (GF 18))), (Full.start ctx.n).run ctx.n jobs' es = some f → f.Stuck ctx.n jobs' →
          ∃ results, (List.range ctx.n).mapM (fun i => (pre[i]?).bind fun pr => garbleResult ctx g i pr (f.env i)) = some results ∧
            ∀ gt ∈ d.gates, GarbledGate hash rng ctx lpn g.enc p masks keys errors place mask results gt

/-- The file is parsed and packed, but whatever the parameters, the tapes, the material and the protocol ID are, the parties panic in
`garble`, before they exchange a message. -/
def FilePanics (l : Nat) (cs : List Char) : Prop :=
  ∃ circ p, fromBristol cs = some circ ∧ circ.pack l = some p ∧
    ∀ (hash : List Nat → List Nat) (rng : List Nat → Nat → GF 18) (ctx : Ctx (GF 18)) (lpn : LpnParams) (g : GarbleCtx (GF 18)),
      ctx.l = l → GarbleCtx.new hash rng ctx lpn p = some g → ∀ (lead : ProtocolID → Nat) (gtp : GarbleTapes (GF 18))
        (pre : List (PreProc (GF 18))) (id : ProtocolID), garbleJobs (gfCodec 18) ctx g lead gtp pre id = none

end Verif
