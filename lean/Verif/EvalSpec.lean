import Verif.EndToEndSpec
import Verif.MathModLemmas
import Verif.PrivacyPreSpec

/-!
# Evaluation of a garbled circuit

The repository garbles circuits but has no program which evaluates them.  Here is what such a program does in the protocol on which the repository
is based: it holds one label and one bit (the colour, i.e. the value plus the mask) of each input wire.  For each gate, the colours of the input wires
choose a row of the table; the row is opened by the parties' shares; the LPN matrix of the gate times the sum of the labels is subtracted; and
the rest is decoded.  The result is the label and the colour of the output wire.
-/

namespace Verif

variable {F : Type} [CodeField F] [DecidableEq F]

/-- The row of the table which the colours of the input wires choose. -/
def evalRow (kind : GateKind) (c0 c1 : Nat) : Nat :=
  match kind with
  | .and => 2 * c0 + c1
  | .xor => 2 * c0 + c1
  | .inv => c0

/-- The key with which the chosen row is encrypted, from the labels of the input wires. -/
def evalKey (kind : GateKind) (k0 k1 : Nat → F) (b : Nat) : F :=
  match kind with
  | .and => k0 b + k1 b
  | .xor => k0 b + k1 b
  | .inv => k0 b

/-- Slot `x` of row `r` of table `gid`, opened by the shares of all parties. -/
def openRow (ctx : Ctx F) (mssgLen width : Nat) (results : List (List (List (List F)))) (gid r x : Nat) : Option (List F) :=
  (PackedSharing.new (ctx.t + 2 * ctx.l - 2) ctx.n ((defaultPos ctx.n ctx.l).take width)).bind fun ps =>
  (List.range mssgLen).mapM fun a => (entryShares results gid r a).bind fun sh =>
    match ps.recon sh with
    | some (.ok secrets) => secrets[x]?
    | _ => none

/-- A row from which the LPN matrix times the key has been subtracted. -/
def unmaskRow (rng : List Nat → Nat → F) (l : Nat) (lpn : LpnParams) (nonce : List Nat) (key : Nat → F) (r x : Nat) (row : List F) : List F :=
  row.zipIdx.map fun v => v.1 - ∑ b ∈ Finset.range lpn.keyLen, rng nonce (((r * lpn.mssgLen + v.2) * lpn.keyLen + b) * l + x) * key b

/-- Someone who holds the colours `colour` and the labels `lab` of the input wires of a gate gets the message `m` from the gate's table, correcting at
most `e` errors. -/
def Decrypts (hash : List Nat → List Nat) (rng : List Nat → Nat → F) (ctx : Ctx F) (lpn : LpnParams) (enc : Mat F) (p : PackedCircuit)
    (place : Nat → Nat × Nat) (results : List (List (List (List F)))) (e : Nat) (colour : Nat → Nat) (lab : Nat → Nat → F) (gt : Gate)
    (m : List F) : Prop :=
  ∃ gid x ws row code, place gt.outWire = (p.inputs.length + gid, x) ∧ p.blocks[p.inputs.length + gid]? = some ws ∧
    openRow ctx lpn.mssgLen ws.length results gid
      (evalRow gt.kind (colour (gt.inWires.getD 0 0)) (colour (gt.inWires.getD 1 0))) x = some row ∧
    m.length = lpn.keyLen + 1 ∧ enc.mulVec m = some code ∧
    hdist code (unmaskRow rng ctx.l lpn (hash (p.nonceString ctx.l gid))
      (evalKey gt.kind (lab (gt.inWires.getD 0 0)) (lab (gt.inWires.getD 1 0)))
      (evalRow gt.kind (colour (gt.inWires.getD 0 0)) (colour (gt.inWires.getD 1 0))) x row) ≤ e

/-- The colours and labels are obtained gate by gate: the message of each gate is the label and the colour of its output wire. -/
def Evaluation (hash : List Nat → List Nat) (rng : List Nat → Nat → F) (ctx : Ctx F) (lpn : LpnParams) (enc : Mat F) (p : PackedCircuit)
    (place : Nat → Nat × Nat) (results : List (List (List (List F)))) (e : Nat) (gates : List Gate) (colour : Nat → Nat) (lab : Nat → Nat → F) :
    Prop :=
  ∀ gt ∈ gates, colour gt.outWire < 2 ∧
    Decrypts hash rng ctx lpn enc p place results e colour lab gt
      ((List.range lpn.keyLen).map (lab gt.outWire) ++ [(colour gt.outWire : F)])

/-- Every row has at most `e` errors. -/
def FewErrors (p : PackedCircuit) (mssgLen : Nat) (errors : List (List F)) (e : Nat) (place : Nat → Nat × Nat) (gates : List Gate) : Prop :=
  ∀ gt ∈ gates, ∀ gid x, place gt.outWire = (p.inputs.length + gid, x) → ∀ r < gt.kind.numRows,
    ((List.range mssgLen).filter fun a => at2 errors (p.errorIdx mssgLen gid r a) x ≠ 0).length ≤ e

/-- What the tables hold, in terms of the wires: `key w b j` is entry `j` of label `b` of wire `w` as the gates which read `w` use it,
`msg w b j` is entry `j` of the message for label `b` of `w` in the rows of the gate which drives `w`, and `row` is the number of the label in
a row, given the masks of the input wires and of the output wire. -/
structure Scheme (F : Type) where
  key : Nat → Nat → Nat → F
  msg : Nat → Nat → Nat → F
  row : GateKind → Nat → Nat → Nat → Nat → Nat

/-- The tables of this code (C84). -/
def codeScheme (k numBlocks : Nat) (masks keys : List (List F)) (place : Nat → Nat × Nat) : Scheme F where
  key w bit j := readLabel k keys (place w).1 bit j (place w).2
  msg w bit j := labelMsg k numBlocks masks keys (place w).1 bit j (place w).2
  row := rowBit

/-- The number of the label in row `r`, for masks `a` and `b` of the input wires and `c` of the output wire: the result of the gate plus the mask. -/
def intendedRow (kind : GateKind) (r a b c : Nat) : Nat :=
  match kind with
  | .and => ((r / 2 + a) * (r % 2 + b) + c) % 2
  | .xor => (r / 2 + a + (r % 2 + b) + c) % 2
  | .inv => (r + a + 1 + c) % 2

/-- The tables as they should be.  There are three differences to `codeScheme`: the gates use the labels of the wires which they read (C57); the
last element of the message is the colour (C61); and INV negates (C60). -/
def intendedScheme (k numBlocks : Nat) (keys : List (List F)) (place : Nat → Nat × Nat) : Scheme F where
  key w bit j := label k numBlocks keys (place w).1 bit j (place w).2
  msg w bit j := if j < k then label k numBlocks keys (place w).1 bit j (place w).2 else (bit : F)
  row := intendedRow

/-- The parties' tables contain the gate, garbled as the scheme says; compare `GarbledGate`. -/
def HoldsGate (hash : List Nat → List Nat) (rng : List Nat → Nat → F) (ctx : Ctx F) (lpn : LpnParams) (enc : Mat F) (p : PackedCircuit)
    (S : Scheme F) (errors : List (List F)) (place : Nat → Nat × Nat) (mask : Nat → Nat) (results : List (List (List (List F)))) (gt : Gate) :
    Prop :=
  ∃ gid x ws, place gt.outWire = (p.inputs.length + gid, x) ∧ p.blocks[p.inputs.length + gid]? = some ws ∧
    ∀ r < gt.kind.numRows, ∀ a < lpn.mssgLen, ∃ shares ps secrets,
      entryShares results gid r a = some shares ∧
      PackedSharing.new (ctx.t + 2 * ctx.l - 2) ctx.n ((defaultPos ctx.n ctx.l).take ws.length) = some ps ∧
      ps.recon shares = some (.ok secrets) ∧
      secrets[x]? = some (rowSecret rng ctx.l lpn enc (hash (p.nonceString ctx.l gid))
        (match gt.kind with
          | .inv => S.key (gt.inWires.getD 0 0) r
          | _ => fun b => S.key (gt.inWires.getD 0 0) (r / 2) b + S.key (gt.inWires.getD 1 0) (r % 2) b)
        (S.msg gt.outWire (S.row gt.kind r (mask (gt.inWires.getD 0 0)) (mask (gt.inWires.getD 1 0)) (mask gt.outWire)))
        (at2 errors (p.errorIdx lpn.mssgLen gid r a) x) r a x)

/-- The run of `preproc` with randomness `tp` shares keys with which label `bit` of slot `s` of block `blk` is the same in the table of the gate which
drives the wire and in the tables of the gates which read it. -/
def SameLabel (ctx : Ctx F) (m mb : Mat F) (d : PreProcCount) (k numBlocks blk bit s : Nat) (tp : PreTapes F) : Prop :=
  ∃ pre keys, preproc ctx m mb d tp = some pre ∧
    VecSharing ctx.n (ctx.t + ctx.l) (defaultPos ctx.n ctx.l) keys (pre.map fun p => p.keys.flat) ∧
    ∀ j < k, readLabel k keys blk bit j s = label k numBlocks keys blk bit j s

end Verif
