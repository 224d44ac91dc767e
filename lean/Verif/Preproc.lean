import Verif.Core
import Verif.Circuit

/-!
# Model of `src/protocol/preproc.rs`

As in `Verif.Core`, the protocols are given by the parties' local computations and a sequential description
which delivers every message once, in party order.  Randomness is passed as tapes: one list of field elements
for every call of `PackedSharing::rand` or `share`.
-/

namespace Verif

/-- `num_batches`, `src/protocol/preproc.rs:17-19`; division by zero panics. -/
def numBatches (num batchSize : Nat) : Option Nat :=
  if batchSize = 0 then none else some ((num + batchSize - 1) / batchSize)

section protocols
variable {F : Type} [CodeField F] [DecidableEq F]

/-- The messages of a dealing party, `src/protocol/preproc.rs:53-61`, `114-122`, `174-182`: all sharings
as an array of shape `(batches, n)`, whose `i`-th column goes to party `i`. -/
def dealSend (n batches : Nat) (sharings : List (List F)) : Option (List (List F)) :=
  (toRows batches n sharings.flatten).map fun shares => (List.range n).map fun i => col i shares

/-- What a party computes from the messages it gets, `src/protocol/preproc.rs:64-75`, `124-136`, `184-196`. -/
def dealFinish (n batches : Nat) (superInv : Mat F) (mssgs : List (List F)) : Option (List F) :=
  (toRows n batches mssgs.flatten).bind fun sent =>
  (superInv.mulRows batches sent).map fun out => out.flatten

/-- The all-to-all round common to `rand`, `zero` and `randbit`: `sharings` lists the sharings dealt by each
party. -/
def dealRound (n batches : Nat) (superInv : Mat F) (sharings : List (List (List F))) : Option (List (List F)) :=
  (sharings.mapM (dealSend n batches)).bind fun mssgs =>
  (List.range n).mapM fun i => (mssgs.mapM fun m => m[i]?).bind fun inbox => dealFinish n batches superInv inbox

/-- All parties' steps of `rand`, `src/protocol/preproc.rs:38-76`; `tapes[p][b]` is the randomness of the
`b`-th sharing of party `p`.  (`batch_size` is the number of rows of the matrix.) -/
def rand (ctx : Ctx F) (superInv : Mat F) (num : Nat) (tapes : List (List (List F))) : Option (List (List F)) :=
  (numBatches num superInv.rows.length).bind fun batches =>
  ((List.range ctx.n).mapM fun p => (List.range batches).mapM fun b =>
    (tapes[p]?).bind fun tp => (tp[b]?).bind fun tape => ctx.pss.rand tape).bind fun sharings =>
  dealRound ctx.n batches superInv sharings

/-- All parties' steps of `zero`, `src/protocol/preproc.rs:97-137`. -/
def zero (ctx : Ctx F) (superInv : Mat F) (num : Nat) (tapes : List (List (List F))) : Option (List (List F)) :=
  (numBatches num superInv.rows.length).bind fun batches =>
  ((List.range ctx.n).mapM fun p => (List.range batches).mapM fun b =>
    (tapes[p]?).bind fun tp => (tp[b]?).bind fun tape =>
    ctx.pssN.share (List.replicate ctx.l 0) tape).bind fun sharings =>
  dealRound ctx.n batches superInv sharings

/-- A random bit as a field element, `src/protocol/preproc.rs:168`. -/
def bitVal (F : Type) [Field F] (b : Bool) : F := if b then 1 else 0

/-- All parties' steps of `randbit`, `src/protocol/preproc.rs:156-197`; `bits[p][b]` are the random bits drawn
for the `b`-th sharing of party `p` (`num_secrets` many). -/
def randbit (ctx : Ctx F) (binSuperInv : Mat F) (num : Nat) (bits : List (List (List Bool)))
    (tapes : List (List (List F))) : Option (List (List F)) :=
  (numBatches num binSuperInv.rows.length).bind fun batches =>
  ((List.range ctx.n).mapM fun p => (List.range batches).mapM fun b =>
    (bits[p]?).bind fun bp => (bp[b]?).bind fun bs =>
    (tapes[p]?).bind fun tp => (tp[b]?).bind fun tape =>
    if bs.length = ctx.pss.l then ctx.pss.share (bs.map (bitVal F)) tape else none).bind fun sharings =>
  dealRound ctx.n batches binSuperInv sharings

end protocols

/-! ## Material -/

/-- `ndarray::Array3` in standard layout: shape and entries in row-major order. -/
structure Arr3 (F : Type) where
  shape : Nat × Nat × Nat
  flat : List F
deriving DecidableEq

/-- `Array3::from_shape_vec(shape, flat).unwrap()`. -/
def Arr3.ofVec {F : Type} (shape : Nat × Nat × Nat) (flat : List F) : Option (Arr3 F) :=
  if flat.length = shape.1 * shape.2.1 * shape.2.2 then some ⟨shape, flat⟩ else none

/-- `arr[[i, j, k]]`. -/
def Arr3.get? {F : Type} (a : Arr3 F) (i j k : Nat) : Option F :=
  if i < a.shape.1 ∧ j < a.shape.2.1 ∧ k < a.shape.2.2 then a.flat[(i * a.shape.2.1 + j) * a.shape.2.2 + k]? else none

/-- `struct PreProc`, `src/protocol/preproc.rs:199-210`. -/
structure PreProc (F : Type) where
  masks : List F
  keys : Arr3 F
  randoms : List F
  zeros : List F
  errors : List F
deriving DecidableEq

/-- `struct PreProcCount`, `src/protocol/preproc.rs:212-219`. -/
structure PreProcCount where
  masks : Nat
  keys : Nat × Nat × Nat
  randoms : Nat
  zeros : Nat
  errors : Nat
deriving DecidableEq

/-- `desc.keys.0 * desc.keys.1 * desc.keys.2`, `src/protocol/preproc.rs:351,449`. -/
def PreProcCount.numKeys (c : PreProcCount) : Nat := c.keys.1 * c.keys.2.1 * c.keys.2.2

/-- The remaining fields of `MPCContext`, `src/protocol/mod.rs:98-109`. -/
structure LpnParams where
  keyLen : Nat
  mssgLen : Nat

/-- `PreProcCount::new`, `src/protocol/preproc.rs:222-250`, from the numbers of input blocks, gate blocks and
gates of each kind. -/
def PreProcCount.ofCounts (inpBlocks gateBlocks numAnd numXor numInv : Nat) (n t l : Nat) (lpn : LpnParams) :
    Option PreProcCount :=
  let numBlocks := inpBlocks + gateBlocks
  let numInpBlocks := numAnd * 2 + numXor * 2 + numInv
  let perWire := 2 * lpn.keyLen + 1
  (numBatches numBlocks l).bind fun a => (numBatches numInpBlocks l).map fun b =>
  let numRtrans := (a + b) * perWire
  let numMult := numAnd * (3 * (lpn.keyLen + 1) + 1) + numXor * (lpn.keyLen + 1) + numInv * (lpn.keyLen + 1)
  { masks := numBlocks
    keys := (2, lpn.keyLen, numBlocks)
    randoms := numRtrans * (n + t) + numMult
    zeros := numRtrans * 2 * n + numMult
    errors := numAnd * 4 * lpn.mssgLen + numXor * 4 * lpn.mssgLen + numInv * 2 * lpn.mssgLen }

section preproc
variable {F : Type} [CodeField F] [DecidableEq F]

/-- The sizes of the error batches of the leaders, `src/protocol/preproc.rs:388-394`. -/
def errorBatches (errors n : Nat) : Option (List Nat) :=
  if n = 0 then none
  else some (List.replicate (n - 1) (errors / n) ++ [errors - (n - 1) * (errors / n)])

/-- Randomness of the two multiplications of an error batch. -/
structure ErrTapes (F : Type) where
  first : List (List F)
  second : List (List F)

/-- `drain(..k)` at every party. -/
def drainAll {α : Type} (k : Nat) (ls : List (List α)) : Option (List (List α) × List (List α)) :=
  (ls.mapM (drain k)).map fun ds => (ds.map (·.1), ds.map (·.2))

/-- One error batch, `src/protocol/preproc.rs:395-436`: `brand` and `bzeros` are the parties' drained random and
zero shares. -/
def errorBatch (ctx : Ctx F) (bsize : Nat) (tp : ErrTapes F) (rbit0 rbit1 brand bzeros : List (List F)) :
    Option (List (List F)) :=
  (drainAll bsize brand).bind fun (rands, brand) =>
  (drainAll bsize bzeros).bind fun (zeros, bzeros) =>
  (mult ctx bsize tp.first rbit0 rbit1 rands zeros).bind fun biased =>
  (drainAll bsize brand).bind fun (scalars, brand) =>
  mult ctx bsize tp.second biased scalars brand bzeros

/-- The loop over the leaders, `src/protocol/preproc.rs:391-442`, with the concatenation of the results. -/
def errorLoop (ctx : Ctx F) : List (Nat × ErrTapes F) → (rbits brand bzeros : List (List F)) → Option (List (List F))
  | [], _, _, _ => some (List.replicate ctx.n [])
  | (bsize, tp) :: rest, rbits, erand, ezeros =>
    (drainAll bsize rbits).bind fun (rbit0, rbits) =>
    (drainAll bsize rbits).bind fun (rbit1, rbits) =>
    (drainAll (3 * bsize) erand).bind fun (brand, erand) =>
    (drainAll (2 * bsize) ezeros).bind fun (bzeros, ezeros) =>
    (errorBatch ctx bsize tp rbit0 rbit1 brand bzeros).bind fun errs =>
    (errorLoop ctx rest rbits erand ezeros).map fun more => List.zipWith (· ++ ·) errs more

/-- Everything random in a run of `preproc`. -/
structure PreTapes (F : Type) where
  rand : List (List (List F))
  zero : List (List (List F))
  bits : List (List (List Bool))
  rbit : List (List (List F))
  errs : List (ErrTapes F)

/-- All parties' steps of `preproc`, `src/protocol/preproc.rs:335-460` (after the protocol IDs, which are the
subject of `Verif.ProtoId`). -/
def preproc (ctx : Ctx F) (superInv binSuperInv : Mat F) (desc : PreProcCount) (tp : PreTapes F) :
    Option (List (PreProc F)) :=
  (rand ctx superInv (desc.numKeys + desc.randoms + 3 * desc.errors) tp.rand).bind fun rands =>
  (zero ctx superInv (desc.zeros + 2 * desc.errors) tp.zero).bind fun zeros =>
  (randbit ctx binSuperInv (desc.masks + 2 * desc.errors) tp.bits tp.rbit).bind fun rbits =>
  (drainAll (3 * desc.errors) rands).bind fun (erand, rands) =>
  (drainAll (2 * desc.errors) zeros).bind fun (ezeros, zeros) =>
  (drainAll (2 * desc.errors) rbits).bind fun (ebits, rbits) =>
  (errorBatches desc.errors ctx.n).bind fun sizes =>
  if tp.errs.length = sizes.length then
    (errorLoop ctx (sizes.zip tp.errs) ebits erand ezeros).bind fun errors =>
    (drainAll desc.numKeys rands).bind fun (keys, rands) =>
    (List.range ctx.n).mapM fun i =>
      (keys[i]?).bind fun k => (Arr3.ofVec desc.keys k).bind fun karr =>
      (rbits[i]?).bind fun m => (rands[i]?).bind fun r => (zeros[i]?).bind fun z => (errors[i]?).map fun e =>
        { masks := m.take desc.masks, keys := karr, randoms := r, zeros := z, errors := e }
  else none

/-! ## Dummy material -/

/-- The values drawn from the seeded generator by `PreProc::dummy`: the three input arrays (by rows), with
`pool` columns. -/
structure DummyTape (F : Type) where
  rand : List (List F)
  zero : List (List F)
  bits : List (List Bool)
  bitRand : List (List F)

/-- A pool, e.g. `src/protocol/preproc.rs:275-281`: one party's shares of the polynomials through the columns of
the input array. -/
def dummyPool (n l k id pool : Nat) (inp : List (List F)) : Option (List F) :=
  let allPos : List F := defaultPos n l ++ sharePos n
  ((sharePos n)[id]?).bind fun me =>
  if k ≤ allPos.length then
    ((lagrangeCoeffs (allPos.take k) [me]).mulRows pool inp).bind fun r => r[0]?
  else none

/-- The `cycle`d iterator over a pool: entries `start`, ..., `start + num - 1`; `next().unwrap()` panics for an
empty pool. -/
def cycleTake (pool : List F) (start num : Nat) : Option (List F) :=
  (List.range num).mapM fun i => pool[(start + i) % pool.length]?

/-- `PreProc::dummy` of party `id`, `src/protocol/preproc.rs:258-332`, with pools of `pool` entries (100000 in the
code).  Keys, random and error shares are taken from one generator, in this order. -/
def PreProc.dummy (ctx : Ctx F) (id pool : Nat) (counts : PreProcCount) (tp : DummyTape F) : Option (PreProc F) :=
  if ctx.n < ctx.l then none else
  (dummyPool ctx.n ctx.l (ctx.t + ctx.l) id pool tp.rand).bind fun rpool =>
  (dummyPool ctx.n ctx.l ctx.n id pool (List.replicate ctx.l (List.replicate pool 0) ++ tp.zero)).bind fun zpool =>
  (dummyPool ctx.n ctx.l (ctx.t + ctx.l) id pool (tp.bits.map (·.map (bitVal F)) ++ tp.bitRand)).bind fun bpool =>
  (cycleTake bpool 0 counts.masks).bind fun masks =>
  (cycleTake rpool 0 counts.numKeys).bind fun keys =>
  (Arr3.ofVec counts.keys keys).bind fun karr =>
  (cycleTake rpool counts.numKeys counts.randoms).bind fun randoms =>
  (cycleTake zpool 0 counts.zeros).bind fun zeros =>
  (cycleTake rpool (counts.numKeys + counts.randoms) counts.errors).map fun errors =>
    { masks := masks, keys := karr, randoms := randoms, zeros := zeros, errors := errors }

end preproc

/-! ## Serialization -/

/-- `struct PreProcSer`, `src/protocol/preproc.rs:462-469`. -/
structure PreProcSer (F : Type) where
  masks : List F
  keys : List F
  randoms : List F
  zeros : List F
  errors : List F

/-- `From<PreProc> for PreProcSer`, `src/protocol/preproc.rs:471-481` (`into_raw_vec` of an array in standard
layout). -/
def PreProc.ser {F : Type} (p : PreProc F) : PreProcSer F := ⟨p.masks, p.keys.flat, p.randoms, p.zeros, p.errors⟩

/-- `From<PreProcSer> for PreProc`, `src/protocol/preproc.rs:483-499`; panics on division by zero and if the
number of keys does not fit. -/
def PreProcSer.de {F : Type} (s : PreProcSer F) : Option (PreProc F) :=
  if 2 * s.masks.length = 0 then none
  else (Arr3.ofVec (s.masks.length, 2, s.keys.length / (2 * s.masks.length)) s.keys).map fun k =>
    ⟨s.masks, k, s.randoms, s.zeros, s.errors⟩

end Verif
