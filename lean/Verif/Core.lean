import Verif.Sharing

/-!
# Model of `src/protocol/core.rs`

Each protocol is split into its local computations (what a party sends, what the leader does with the
messages, how the result is finished), and a sequential description which wires them together: every
message is delivered once, in party order.  `Verif.Async` proves that the asynchronous execution gives the
same results.  Messages are vectors of field elements; their byte encoding is treated in `Verif.GF`.
-/

namespace Verif

section arrays
variable {α : Type}

/-- `Array2::from_shape_vec((r, c), flat).unwrap()`: the rows of the array; panics if the number of
elements is wrong. -/
def toRows (r c : Nat) (flat : List α) : Option (List (List α)) :=
  if flat.length = r * c then some ((List.range r).map fun i => (flat.drop (i * c)).take c) else none

/-- Column `j` of an array given by its rows (`slice(s![.., j])`). -/
def col (j : Nat) (rows : List (List α)) : List α := rows.filterMap fun r => r[j]?

/-- `deque.drain(..k)`: panics if fewer than `k` elements are left. -/
def drain (k : Nat) (l : List α) : Option (List α × List α) :=
  if k ≤ l.length then some (l.take k, l.drop k) else none

end arrays

variable {F : Type} [CodeField F] [DecidableEq F]

/-- `m.dot(&a)` for an array `a` with `num` columns; panics if the inner dimensions differ. -/
def Mat.mulRows {F : Type} [Field F] (m : Mat F) (num : Nat) (a : List (List F)) : Option (List (List F)) :=
  if a.length = m.ncols then some (m.rows.map fun r => (List.range num).map fun j => dot r (col j a)) else none

/-- `struct MPCContext`, `src/protocol/mod.rs:98-109`, without the LPN parameters and the party's own ID
(which is passed separately, as all other fields are common to the parties). -/
structure Ctx (F : Type) where
  n : Nat
  t : Nat
  l : Nat
  pss : PackedSharing F
  pssN : PackedSharing F

/-- `leader_from_proto_id`, `src/protocol/core.rs:21-23`, for an arbitrary `seahash::hash`; `% 0` panics, and
so does the conversion to a 16 bit party ID. -/
def leaderFromProtoId (hash : List Nat → Nat) (id : List Nat) (numParties : Nat) : Option Nat :=
  if numParties = 0 then none
  else if hash id % numParties < 2 ^ 16 then some (hash id % numParties) else none

/-- The leader of a run, `src/protocol/core.rs:34-37`, `129-132`. -/
def chooseLeader (hash : List Nat → Nat) (id : List Nat) (leader : Option Nat) (numParties : Nat) : Option Nat :=
  match leader with
  | some p => some p
  | none => leaderFromProtoId hash id numParties

/-! ## `reduce_degree` -/

/-- The message to the leader, `src/protocol/core.rs:40-48` (`Zip` panics on different lengths). -/
def rdSend (vx random zero : List F) : Option (List F) :=
  if vx.length = random.length ∧ vx.length = zero.length then some (vadd (vadd vx random) zero) else none

/-- What the leader does, `src/protocol/core.rs:50-76`: reconstruct each column and share it again.
`tapes` gives the randomness used for each column.  The result lists the messages to the parties. -/
def rdLeader (ctx : Ctx F) (num : Nat) (tapes : List (List F)) (mssgs : List (List F)) :
    Option (List (List F)) :=
  (toRows ctx.n num mssgs.flatten).bind fun sharesN =>
  ((List.range num).mapM fun j =>
    (ctx.pssN.semihonRecon (col j sharesN)).bind fun secrets =>
    (tapes[j]?).bind fun tape => ctx.pss.share secrets tape).bind fun shares =>
  (toRows num ctx.n shares.flatten).map fun shares => (List.range ctx.n).map fun i => col i shares

/-- Removing the mask, `src/protocol/core.rs:78-83`, `191-196`. -/
def rdFinish (random shares : List F) : Option (List F) :=
  if shares.length = random.length then some (vsub shares random) else none

/-- All parties' steps of `reduce_degree`, `src/protocol/core.rs:25-84`.  The arguments list the parties'
inputs in party order; `num` is the leader's `vx.len()`. -/
def reduceDegree (ctx : Ctx F) (num : Nat) (tapes : List (List F)) (vxs randoms zeros : List (List F)) :
    Option (List (List F)) :=
  ((List.range ctx.n).mapM fun i => (vxs[i]?).bind fun vx => (randoms[i]?).bind fun r => (zeros[i]?).bind fun z =>
    rdSend vx r z).bind fun mssgs =>
  (rdLeader ctx num tapes mssgs).bind fun replies =>
  (List.range ctx.n).mapM fun i => (replies[i]?).bind fun s => (randoms[i]?).bind fun r => rdFinish r s

/-- `mult`, `src/protocol/core.rs:86-100`. -/
def mult (ctx : Ctx F) (num : Nat) (tapes : List (List F)) (vxs vys randoms zeros : List (List F)) :
    Option (List (List F)) :=
  ((List.range ctx.n).mapM fun i => (vxs[i]?).bind fun vx => (vys[i]?).bind fun vy =>
    if vx.length = vy.length then some (vmul vx vy) else none).bind fun ps =>
  reduceDegree ctx num tapes ps randoms zeros

/-! ## `trans` -/

/-- `struct SharingTransform`, `src/protocol/core.rs:102-117`. -/
structure SharingTransform (F : Type) where
  oldPos : List F
  newPos : List F
  f : Combination

/-- The message to the leader, `src/protocol/core.rs:135-143`. -/
def transSend (vx randomN : List F) : Option (List F) :=
  if vx.length = randomN.length then some (vadd randomN vx) else none

/-- What the leader does, `src/protocol/core.rs:145-189`; `n - 1` and `t + l - 1` underflow at 0. -/
def transLeader (ctx : Ctx F) (tr : SharingTransform F) (num : Nat) (tapes : List (List F))
    (mssgs : List (List F)) : Option (List (List F)) :=
  if ctx.n = 0 ∨ ctx.t + ctx.l = 0 then none else
  (computeReconCoeffs (ctx.n - 1) ctx.n tr.oldPos).bind fun reconN =>
  (computeShareCoeffs (ctx.t + ctx.l - 1) ctx.n tr.newPos).bind fun shareCoeffs =>
  (toRows ctx.n num mssgs.flatten).bind fun sharesN =>
  (reconN.mulRows num sharesN).bind fun secrets =>
  ((List.range num).mapM fun j =>
    (tr.f.apply (col j secrets)).bind fun tfSecrets =>
    (tapes[j]?).bind fun tape => shareUsingCoeffs tfSecrets shareCoeffs tr.newPos.length tape).bind fun shares =>
  (toRows num ctx.n shares.flatten).map fun shares => (List.range ctx.n).map fun i => col i shares

/-- All parties' steps of `trans`, `src/protocol/core.rs:119-197`. -/
def trans (ctx : Ctx F) (tr : SharingTransform F) (num : Nat) (tapes : List (List F))
    (vxs randoms randomsN : List (List F)) : Option (List (List F)) :=
  ((List.range ctx.n).mapM fun i => (vxs[i]?).bind fun vx => (randomsN[i]?).bind fun r =>
    transSend vx r).bind fun mssgs =>
  (transLeader ctx tr num tapes mssgs).bind fun replies =>
  (List.range ctx.n).mapM fun i => (replies[i]?).bind fun s => (randoms[i]?).bind fun r => rdFinish r s

/-! ## `randtrans` -/

/-- The local function `share_coeffs` of `RandSharingTransform::new`, `src/protocol/core.rs:216-221`. -/
def rtShareCoeffs (d n : Nat) (pos : List F) : Option (Mat F) :=
  let np := d + 1
  let allPos := pos ++ sharePos n
  if np ≤ allPos.length then some (lagrangeCoeffs (allPos.take np) (sharePos n)) else none

/-- `Array2::eye(m)`, by columns. -/
def eyeCols (F : Type) [Field F] (m : Nat) : List (List F) :=
  (List.range m).map fun c => (List.range m).map fun i => if i = c then 1 else 0

/-- `trans_mat`, `src/protocol/core.rs:236-250`, by columns. -/
def transMatCols (F : Type) [Field F] (m : Nat) (opos npos : Nat) (f : Combination) : Option (List (List F)) :=
  let v := List.range m
  if opos ≤ m ∧ npos ≤ m then
    (f.apply (v.take opos)).bind fun mp =>
    let ext : Combination := ⟨mp ++ v.drop npos⟩
    if ext.map.length = m then (eyeCols F m).mapM fun c => ext.apply c else none
  else none

/-- One entry of `acc_coeffs`, `src/protocol/core.rs:235-253`: `coeffs.dot(&trans_mat)`, by rows. -/
def accCoeffs (ctx : Ctx F) (opos npos : List F) (f : Combination) : Option (List (List F)) :=
  if ctx.t + ctx.l = 0 then none else
  (rtShareCoeffs (ctx.t + ctx.l - 1) ctx.n npos).bind fun coeffs =>
  (transMatCols F (ctx.t + ctx.l) opos.length npos.length f).map fun cols =>
  coeffs.rows.map fun r => cols.map fun c => dot r c

/-- One entry of `acc_coeffs_n`, `src/protocol/core.rs:232-233`, by rows. -/
def accCoeffsN (ctx : Ctx F) (opos : List F) : Option (List (List F)) :=
  if ctx.n = 0 then none else
  (rtShareCoeffs (ctx.n - 1) ctx.n opos).map fun coeffs => coeffs.rows

/-- `struct RandSharingTransform`, `src/protocol/core.rs:199-203`. -/
structure RandTransform (F : Type) where
  share : Mat F
  shareN : Mat F

/-- Encoding a batch of coefficient matrices as one party's share, `src/protocol/core.rs:267-288`. -/
def encodeShare (shareL : List F) (acc : List (List (List F))) (r c : Nat) : Option (List (List F)) :=
  if acc.length ≤ shareL.length then
    (List.range r).mapM fun i => (List.range c).mapM fun j =>
      (acc.mapM fun m => (m[i]?).bind fun row => row[j]?).map fun es => dot (shareL.take acc.length) es
  else none

/-- `RandSharingTransform::new` of party `id`, `src/protocol/core.rs:206-291`. -/
def RandTransform.new (ctx : Ctx F) (id : Nat) (tfs : List (SharingTransform F)) : Option (RandTransform F) :=
  (tfs.mapM fun tf => accCoeffsN ctx tf.oldPos).bind fun accN =>
  (tfs.mapM fun tf => accCoeffs ctx tf.oldPos tf.newPos tf.f).bind fun acc =>
  (rtShareCoeffs ctx.l ctx.n (defaultPos ctx.n ctx.l)).bind fun sl =>
  (sl.rows[id]?).bind fun shareL =>
  (encodeShare shareL acc ctx.n (ctx.t + ctx.l)).bind fun share =>
  (encodeShare shareL accN ctx.n ctx.n).map fun shareN =>
    { share := ⟨ctx.t + ctx.l, share⟩, shareN := ⟨ctx.n, shareN⟩ }

/-- Entrywise sum of two arrays (of equal shape where it is used). -/
def addRows (a b : List (List F)) : List (List F) := List.zipWith vadd a b

/-- The messages of one party of `randtrans`, `src/protocol/core.rs:302-343`. -/
def rtSend (ctx : Ctx F) (tr : RandTransform F) (randoms zeros : List F) : Option (List (List F)) :=
  if ctx.n + ctx.t = 0 ∨ ctx.n < ctx.l then none else
  let num := randoms.length / (ctx.n + ctx.t)
  (drain (num * ctx.l) randoms).bind fun (a, randoms) =>
  (toRows ctx.l num a).bind fun secrets =>
  (drain (num * ctx.t) randoms).bind fun (b, randoms) =>
  (toRows ctx.t num b).bind fun rands =>
  (toRows (ctx.n - ctx.l) num randoms).bind fun randsN =>
  (drain (ctx.n * num) zeros).bind fun (z, zeros) =>
  (toRows ctx.n num z).bind fun zerosN =>
  (toRows ctx.n num zeros).bind fun zeros =>
  (tr.share.mulRows num (secrets ++ rands)).bind fun shares =>
  (tr.shareN.mulRows num (secrets ++ randsN)).bind fun sharesN =>
  if shares.length = ctx.n ∧ sharesN.length = ctx.n then
    some (List.zipWith (fun s sn => s ++ sn) (addRows shares zeros) (addRows sharesN zerosN))
  else none

/-- What a party computes from the messages it gets, `src/protocol/core.rs:345-365`; both results are
arrays of shape `(l, num)`. -/
def rtFinish (ctx : Ctx F) (num : Nat) (mssgs : List (List F)) : Option (List (List F) × List (List F)) :=
  (toRows ctx.n (2 * num) mssgs.flatten).bind fun all =>
  (ctx.pssN.secretCoeffs.mulRows num (all.map (·.take num))).bind fun shares =>
  (ctx.pssN.secretCoeffs.mulRows num (all.map (·.drop num))).map fun sharesN => (shares, sharesN)

/-- All parties' steps of `randtrans`, `src/protocol/core.rs:294-366`: party `i` uses
`RandSharingTransform::new` with its own ID, and gets the `i`-th message of each party. -/
def randtrans (ctx : Ctx F) (tfs : List (SharingTransform F)) (randoms zeros : List (List F)) :
    Option (List (List (List F) × List (List F))) :=
  ((List.range ctx.n).mapM fun i => (RandTransform.new ctx i tfs).bind fun tr =>
    (randoms[i]?).bind fun r => (zeros[i]?).bind fun z => rtSend ctx tr r z).bind fun mssgs =>
  (List.range ctx.n).mapM fun i =>
    (mssgs.mapM fun m => m[i]?).bind fun inbox =>
    (randoms[i]?).bind fun r => rtFinish ctx (r.length / (ctx.n + ctx.t)) inbox

end Verif
