import Verif.CoreSpec
import Verif.Garble

/-!
# Vocabulary of the statements about garbling
-/

open Polynomial

namespace Verif

open CodeField (ofU32)

/-- The wires which gate block `gid` reads as its input number `i`, by slot. -/
def PackedCircuit.inpWires (c : PackedCircuit) (gid i : Nat) : List Nat :=
  (((c.gates[gid]?).map PackedGate.inps).getD []).getD i []

/-- How often the gates up to number `gid` read wire `w` in slot `s`. -/
def PackedCircuit.readsUpTo (c : PackedCircuit) (s w gid : Nat) : Nat :=
  ((c.gates.take (gid + 1)).flatMap PackedGate.inps).countP fun ws => ws[s]? = some w

/-- The number which enters the nonce of gate `gid` for input `i` and slot `s`: one less than the number of times
the wire has been read in this slot up to this gate, or 0 if there is no such wire. -/
def PackedCircuit.nonceWord (c : PackedCircuit) (gid i s : Nat) : Nat :=
  match (c.inpWires gid i)[s]? with
  | some w => c.readsUpTo s w gid - 1
  | none => 0

/-- The string hashed for gate `gid`. -/
def PackedCircuit.nonceString (c : PackedCircuit) (l gid : Nat) : List Nat :=
  (List.range l).flatMap (fun s => beBytes8 (c.nonceWord gid 0 s))
    ++ (List.range l).flatMap (fun s => beBytes8 (c.nonceWord gid 1 s))

/-- Packed circuits for blocks of `l` wires: no wire is driven twice, every wire which is read is driven, blocks have
at most `l` wires, and the inputs of a gate are aligned with its outputs. -/
structure PackedCircuit.Ok (c : PackedCircuit) (l : Nat) : Prop where
  nodup : c.blocks.flatten.Nodup
  blockLen : ∀ b ∈ c.blocks, b.length ≤ l
  aligned : ∀ g ∈ c.gates, ∀ ws ∈ g.inps, ws.length = g.out.length
  driven : ∀ g ∈ c.gates, ∀ ws ∈ g.inps, ∀ w ∈ ws, w ∈ c.blocks.flatten

/-- Block `b` carries wire `w` in slot `s`. -/
def PackedCircuit.Drives (c : PackedCircuit) (b s w : Nat) : Prop := ∃ ws, c.blocks[b]? = some ws ∧ ws[s]? = some w

variable {F : Type} [CodeField F] [DecidableEq F]

/-! ## Inputs of a run -/

/-- The tapes of the leaders of `transform`: for every transformation one list of random values per column. -/
def TransTapes (ctx : Ctx F) (tfs : List (SharingTransform F)) (reps : Nat) (tapes : List (List (List F))) : Prop :=
  tapes.length = tfs.length ∧ ∀ (k : Nat) (tr : SharingTransform F) (tp : List (List F)), tfs[k]? = some tr →
    tapes[k]? = some tp → tp.length = reps ∧ ∀ x ∈ tp, x.length = ctx.t + ctx.l - tr.newPos.length

/-- The tapes of the leaders of the multiplications of a gate. -/
def GateTapes.Ok (kind : GateKind) (t k : Nat) (tp : GateTapes F) : Prop :=
  (∀ x ∈ tp.first, x.length = t) ∧ (∀ x ∈ tp.second, x.length = t) ∧
  match kind with
  | .and => tp.first.length = 1 ∧ tp.second.length = 3 * (k + 1)
  | .xor => tp.second.length = k + 1
  | .inv => tp.second.length = k + 1

/-- The tapes of a run of `garble`. -/
structure GarbleTapes.Ok (ctx : Ctx F) (g : GarbleCtx F) (tp : GarbleTapes F) : Prop where
  out : TransTapes ctx g.tfOut (2 * g.lpn.keyLen + 1) tp.out
  inp : TransTapes ctx g.tfInp (2 * g.lpn.keyLen + 1) tp.inp
  len : tp.gates.length = g.circ.gates.length
  gates : ∀ (gid : Nat) (gate : PackedGate) (x : GateTapes F), g.circ.gates[gid]? = some gate → tp.gates[gid]? = some x →
    x.Ok gate.kind ctx.t g.lpn.keyLen

/-- The parties' material: sharings of masks, label entries and errors with the given secrets (listed by slot), and
as many random and zero sharings as `describe` reports, or more. -/
structure Material (ctx : Ctx F) (lpn : LpnParams) (c : PackedCircuit) (pre : List (PreProc F))
    (masks keys errors : List (List F)) (numRandoms numZeros : Nat) : Prop where
  count : ∃ d, c.describe ctx.n ctx.t ctx.l lpn = some d ∧ masks.length = d.masks ∧
    keys.length = d.keys.1 * d.keys.2.1 * d.keys.2.2 ∧ (∀ p ∈ pre, p.keys.shape = d.keys) ∧
    d.randoms ≤ numRandoms ∧ d.zeros ≤ numZeros ∧ d.errors ≤ errors.length
  len : pre.length = ctx.n
  masks : VecSharing ctx.n (ctx.t + ctx.l) (defaultPos ctx.n ctx.l) masks (pre.map (·.masks))
  keys : VecSharing ctx.n (ctx.t + ctx.l) (defaultPos ctx.n ctx.l) keys (pre.map (·.keys.flat))
  errors : VecSharing ctx.n (ctx.t + ctx.l) (defaultPos ctx.n ctx.l) errors (pre.map (·.errors))
  randoms : ∃ rs, VecSharing ctx.n (ctx.t + ctx.l) (defaultPos ctx.n ctx.l) rs (pre.map (·.randoms)) ∧
    rs.length = numRandoms
  zeros : VecZero ctx.n ctx.n (defaultPos ctx.n ctx.l) numZeros (pre.map (·.zeros))

/-- A run of `garble` by parties with compatible parameters. -/
structure Setup (hash : List Nat → List Nat) (rng : List Nat → Nat → F) (ctx : Ctx F) (lpn : LpnParams)
    (c : PackedCircuit) (g : GarbleCtx F) (tp : GarbleTapes F) (pre : List (PreProc F))
    (masks keys errors : List (List F)) (numRandoms numZeros : Nat) : Prop where
  good : ctx.Good
  parties : ctx.t + 2 * ctx.l ≤ ctx.n
  mult : 2 * (ctx.t + ctx.l - 1) < ctx.n
  circ : c.Ok ctx.l
  fit : ∀ w ∈ c.blocks.flatten, ctx.n + ctx.l + w < CodeField.order F
  code : lpn.mssgLen < CodeField.order F
  new : GarbleCtx.new hash rng ctx lpn c = some g
  tapes : tp.Ok ctx g
  material : Material ctx lpn c pre masks keys errors numRandoms numZeros

/-! ## Secrets by slot -/

/-- Number `s` of list `i`. -/
def at2 (xs : List (List F)) (i s : Nat) : F := (xs.getD i []).getD s 0

/-- Entry `j` of label `bit` of the wire in slot `s` of block `blk`, according to the comment on `PreProc`
(`src/protocol/preproc.rs:205`): entry `(bit, j, blk)` of the key array. -/
def label (k numBlocks : Nat) (keys : List (List F)) (blk bit j s : Nat) : F :=
  at2 keys ((bit * k + j) * numBlocks + blk) s

/-- The message for label `bit`: the label and, as last entry, the mask plus the bit. -/
def labelMsg (k numBlocks : Nat) (masks keys : List (List F)) (blk bit j s : Nat) : F :=
  if j < k then label k numBlocks keys blk bit j s else at2 masks blk s + (bit : F)

/-- Entry `row * cols + col` of the errors of gate `gid`. -/
def PackedCircuit.errorIdx (c : PackedCircuit) (mssgLen gid row col : Nat) : Nat :=
  ((c.gates.take gid).map fun x => x.kind.numRows * mssgLen).sum + (row * mssgLen + col)

/-! ## Rows of a table -/

/-- Entry `(a, j)` of a matrix. -/
def Mat.entry (m : Mat F) (a j : Nat) : F := (m.rows.getD a []).getD j 0

/-- What a gate receives as entry `j` of label `bit` of the wire in slot `s` of block `blk`. -/
def readLabel (k : Nat) (keys : List (List F)) (blk bit j s : Nat) : F := at2 keys (blk * (2 * k) + (bit * k + j)) s

/-- Entry `b` of the key of row `r` of a gate which reads slots `ds i` of blocks `db i`. -/
def readKey (kind : GateKind) (k : Nat) (keys : List (List F)) (db ds : Nat → Nat) (r b : Nat) : F :=
  match kind with
  | .and => readLabel k keys (db 0) (r / 2) b (ds 0) + readLabel k keys (db 1) (r % 2) b (ds 1)
  | .xor => readLabel k keys (db 0) (r / 2) b (ds 0) + readLabel k keys (db 1) (r % 2) b (ds 1)
  | .inv => readLabel k keys (db 0) r b (ds 0)

/-- The wires which a gate reads in slot `x` are in slots `ds i` of blocks `db i`. -/
def PackedCircuit.Sources (c : PackedCircuit) (gate : PackedGate) (x : Nat) (db ds : Nat → Nat) : Prop :=
  ∀ i < gate.kind.arity, ∃ w, (gate.inps.getD i [])[x]? = some w ∧ c.Drives (db i) (ds i) w

/-- Slot `x` of entry `(r, a)` of a table: the LPN matrix of the nonce times `key`, plus the encoding of `msg`, plus
`err`. -/
noncomputable def rowSecret (rng : List Nat → Nat → F) (l : Nat) (lpn : LpnParams) (enc : Mat F) (nonce : List Nat)
    (key msg : Nat → F) (err : F) (r a x : Nat) : F :=
  ∑ b ∈ Finset.range lpn.keyLen, rng nonce (((r * lpn.mssgLen + a) * lpn.keyLen + b) * l + x) * key b
    + ∑ j ∈ Finset.range (lpn.keyLen + 1), enc.entry a j * msg j + err

/-- The parties' shares of a table of `rows` times `cols` packed values, whose first `width` slots are given by
`sec`. -/
def TableSharing (n k : Nat) (pos : List F) (width rows cols : Nat) (sec : Nat → Nat → Nat → F)
    (shares : List (List (List F))) : Prop :=
  ∃ T : Nat → Nat → F[X], (∀ r < rows, ∀ a < cols, (T r a).degree < k) ∧
    shares = (List.range n).map (fun i => (List.range rows).map fun r => (List.range cols).map fun a =>
      (T r a).eval (ofU32 i)) ∧
    ∀ r < rows, ∀ a < cols, (pos.take width).map (fun v => (T r a).eval v) = (List.range width).map (sec r a)

/-- The parties' tables of gate `gid` are sharings in which slot `x` of row `r` encrypts `msg r x` with the key
`key r x`, the LPN matrix of the gate, and the errors set aside for the gate. -/
def Encrypts (hash : List Nat → List Nat) (rng : List Nat → Nat → F) (ctx : Ctx F) (lpn : LpnParams) (enc : Mat F)
    (c : PackedCircuit) (errors : List (List F)) (gid width rows : Nat) (key msg : Nat → Nat → Nat → F)
    (table : List (List (List F))) : Prop :=
  TableSharing ctx.n (ctx.t + 2 * ctx.l - 1) (defaultPos ctx.n ctx.l) width rows lpn.mssgLen
    (fun r a x => rowSecret rng ctx.l lpn enc (hash (c.nonceString ctx.l gid)) (key r x) (msg r x)
      (at2 errors (c.errorIdx lpn.mssgLen gid r a) x) r a x) table

/-- The masks are the bits `mb`, by block and slot. -/
def MaskBits (masks : List (List F)) (mb : Nat → Nat → Nat) : Prop :=
  ∀ b s, mb b s < 2 ∧ (b < masks.length → at2 masks b s = (mb b s : F))

/-- The label number in row `r` of a gate's table, for masks `a` and `b` of the wires read and `c` of the output, as the
tables of this code have it: for `INV` the value is not negated (see C60). -/
def rowBit (kind : GateKind) (r a b c : Nat) : Nat :=
  match kind with
  | .and => ((r / 2 + a) * (r % 2 + b) + c) % 2
  | .xor => (r / 2 + a + (r % 2 + b) + c) % 2
  | .inv => (r + a + c) % 2

/-- Row of the inputs of gate `gid`, input `i`, in `inp_shares`. -/
def PackedCircuit.inputRow (c : PackedCircuit) (gid i : Nat) : Nat :=
  ((c.gates.take gid).map fun x => x.kind.arity).sum + i

/-- Entry `(row, col)` of the parties' arrays is a sharing, of degree below `k`, by the polynomial `q`. -/
def EntrySharing (n k : Nat) (arrays : List (List (List F))) (row col : Nat) (q : F[X]) : Prop :=
  q.degree < k ∧ arrays.length = n ∧
    ∀ p < n, ((arrays[p]?).bind fun a => (a[row]?).bind fun r => r[col]?) = some (q.eval (ofU32 p))

end Verif
