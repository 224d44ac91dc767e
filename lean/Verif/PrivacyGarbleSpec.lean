import Verif.PrivacySpec
import Verif.GarbleSpec
import Verif.AsyncGarble
import Verif.AsyncNetSpec

/-!
# Vocabulary of the statements about what corrupted parties learn from `garble`
-/

open Polynomial

namespace Verif

open CodeField (ofU32)

variable {F : Type} [CodeField F] [DecidableEq F]

/-- `num` sharings, of degree below `t + l`, of given secrets. -/
abbrev SharingsOf (ctx : Ctx F) (num : Nat) (secrets : List (List F)) : Type :=
  ∀ i : Fin num, {q : F[X] // q.degree < (ctx.t + ctx.l : Nat) ∧
    (defaultPos ctx.n ctx.l).map (fun v => q.eval v) = secrets.getD i []}

/-- The shares of party `p`. -/
noncomputable def SharingsOf.shares {ctx : Ctx F} {num : Nat} {secrets : List (List F)} (S : SharingsOf ctx num secrets) (p : Nat) :
    List F := List.ofFn fun i => (S i).1.eval (ofU32 p)

/-- What the preprocessing material hides: the wire masks, the labels and the LPN errors, by slot. -/
structure GarbleSecrets (F : Type) where
  masks : List (List F)
  keys : List (List F)
  errors : List (List F)

/-- As many secrets as counted, each for `l` slots. -/
structure GarbleSecrets.Fit (l : Nat) (d : PreProcCount) (M : GarbleSecrets F) : Prop where
  masks : M.masks.length = d.masks ∧ ∀ x ∈ M.masks, x.length = l
  keys : M.keys.length = d.numKeys ∧ ∀ x ∈ M.keys, x.length = l
  errors : M.errors.length = d.errors ∧ ∀ x ∈ M.errors, x.length = l

/-- Everything random in the preprocessing material with given secrets. -/
structure GarbleWorld (ctx : Ctx F) (d : PreProcCount) (M : GarbleSecrets F) where
  masks : SharingsOf ctx d.masks M.masks
  keys : SharingsOf ctx d.numKeys M.keys
  errors : SharingsOf ctx d.errors M.errors
  coins : Coins ctx d.randoms d.zeros

/-- The material of party `p`. -/
noncomputable def GarbleWorld.material {ctx : Ctx F} {d : PreProcCount} {M : GarbleSecrets F} (w : GarbleWorld ctx d M) (p : Nat) :
    PreProc F :=
  ⟨w.masks.shares p, ⟨d.keys, w.keys.shares p⟩, w.coins.randoms p, w.coins.zeros p, w.errors.shares p⟩

/-- The material with the random and zero sharings given by the coins. -/
noncomputable def ofCoins {ctx : Ctx F} {nr nz : Nat} (sec : Nat → PreProc F) (ω : Coins ctx nr nz) (p : Nat) : PreProc F :=
  { sec p with randoms := ω.randoms p, zeros := ω.zeros p }

/-- What party `q` sees of a run of `garble`: its material, and the messages which it gets, by job and sender.  (C78
says that the jobs run in any schedule as if they ran one after the other.) -/
def garbleView (c : Codec F) (ctx : Ctx F) (g : GarbleCtx F) (lead : ProtocolID → Nat) (tp : GarbleTapes F)
    (pre : List (PreProc F)) (id : ProtocolID) (q : Nat) : Option (Option (PreProc F) × List (List (List (List Nat)))) :=
  (garbleJobs c ctx g lead tp pre id).bind fun jobs => (seqRun ctx.n jobs).map fun outs =>
    (pre[q]?, jobs.map fun job => (List.range ctx.n).map fun p => job.proto.between ctx.n (seqEnv outs job.deps) p q)

/-- The parties of `Cs` learn nothing about the secrets: for any two secrets there is a bijection of the random material
with the first secrets to the random material with the second secrets, and with corresponding material they see the
same. -/
def GarblePrivate (c : Codec F) (ctx : Ctx F) (g : GarbleCtx F) (lead : ProtocolID → Nat) (tp : GarbleTapes F) (d : PreProcCount)
    (id : ProtocolID) (Cs : Finset Nat) : Prop :=
  ∀ M M' : GarbleSecrets F, M.Fit ctx.l d → M'.Fit ctx.l d → ∃ e : GarbleWorld ctx d M ≃ GarbleWorld ctx d M', ∀ w, ∀ q ∈ Cs,
    ∃ v, garbleView c ctx g lead tp ((List.range ctx.n).map w.material) id q = some v ∧
      garbleView c ctx g lead tp ((List.range ctx.n).map (e w).material) id q = some v

/-- The parameters of a run of `garble` without the preprocessing material, of which there may be more than needed. -/
structure GarbleParams (hash : List Nat → List Nat) (rng : List Nat → Nat → F) (ctx : Ctx F) (lpn : LpnParams)
    (cc : PackedCircuit) (g : GarbleCtx F) (tp : GarbleTapes F) (d : PreProcCount) : Prop where
  good : ctx.Good
  parties : ctx.t + 2 * ctx.l ≤ ctx.n
  mult : 2 * (ctx.t + ctx.l - 1) < ctx.n
  circ : cc.Ok ctx.l
  fit : ∀ w ∈ cc.blocks.flatten, ctx.n + ctx.l + w < CodeField.order F
  code : lpn.mssgLen < CodeField.order F
  new : GarbleCtx.new hash rng ctx lpn cc = some g
  tapes : tp.Ok ctx g
  count : ∃ d₀, cc.describe ctx.n ctx.t ctx.l lpn = some d₀ ∧ d.masks = d₀.masks ∧ d.keys = d₀.keys ∧ d.errors = d₀.errors ∧
    d₀.randoms ≤ d.randoms ∧ d₀.zeros ≤ d.zeros
  size : 2 * ((ctx.n + ctx.t) * (2 * lpn.keyLen + 1)) < 2 ^ 64
  size' : 3 * (lpn.keyLen + 1) < 2 ^ 64

/-- No gate input block which is not full has a wire twice. -/
def PackedCircuit.Distinct (circ : PackedCircuit) (l : Nat) : Prop :=
  ∀ gate ∈ circ.gates, ∀ ws ∈ gate.inps, ws.Nodup ∨ ws.length = l

/-- Gate input block `i` with the wires `ws` may have a wire twice: what a coalition sees of it too much is hidden by the masks of
block `b`, which is not larger, leaves the parties in question free, and contributes to what is seen. -/
structure PackedCircuit.HiddenInput (circ : PackedCircuit) (ctx : Ctx F) (i : Nat) (ws : List Nat) (b : Nat) (bs : List Nat) : Prop where
  inp : (circ.gates.flatMap PackedGate.inps)[i]? = some ws
  block : circ.blocks[b]? = some bs
  size : bs.length ≤ ws.length
  far : ctx.l + ws.toFinset.card ≤ bs.length + ws.length
  seen : ∀ χ : F[X], χ.degree < ws.toFinset.card → (∀ w ∈ ws, χ.eval (ofU32 (w + (ctx.n + ctx.l))) = if w ∈ bs then 1 else 0) →
    ∀ q, ws.length + q < ctx.l → χ.eval (ofU32 (ws.length + q - ws.toFinset.card)) ≠ 0

/-- No gate input block which is not full has a wire twice, with the exception of at most one whose surplus is hidden. -/
def PackedCircuit.Hides (circ : PackedCircuit) (ctx : Ctx F) : Prop :=
  circ.Distinct ctx.l ∨ ∃ i ws b bs, circ.HiddenInput ctx i ws b bs ∧
    ∀ (j : Nat) (ws' : List Nat), (circ.gates.flatMap PackedGate.inps)[j]? = some ws' → j ≠ i → ws'.Nodup ∨ ws'.length = ctx.l

/-- Gate input block `i` with the wires `ws` is not full, and the corrupted parties `Cs` see more of it than they should: they
include its leader and a party `q` below the number of free places, but not party `|ws| + q - o`, where `o` is the number of
different wires of `ws`; and each block which contains one of the wires is full, or its leader is corrupted and that party is
below the number of free places of the block, too, or it does not contribute to what is seen. -/
structure PackedCircuit.LeakyInput (circ : PackedCircuit) (ctx : Ctx F) (Cs : Finset Nat) (i q : Nat) (ws : List Nat) : Prop where
  inp : (circ.gates.flatMap PackedGate.inps)[i]? = some ws
  leader : i % ctx.n ∈ Cs
  member : q ∈ Cs
  room : ws.length + q < ctx.l
  honest : ws.length + q - ws.toFinset.card ∉ Cs
  known : ∀ w ∈ ws, ∀ b bs, circ.blocks[b]? = some bs → w ∈ bs →
    bs.length = ctx.l ∨ b % ctx.n ∈ Cs ∧ bs.length + (ws.length + q - ws.toFinset.card) < ctx.l ∨
      ∀ χ : F[X], χ.degree < ws.toFinset.card → (∀ w ∈ ws, χ.eval (ofU32 (w + (ctx.n + ctx.l))) = if w ∈ bs then 1 else 0) →
        χ.eval (ofU32 (ws.length + q - ws.toFinset.card)) = 0

end Verif
