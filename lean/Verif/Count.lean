import Verif.Garble

/-!
# Counting multiplications

The protocols again, with a counter of the multiplications of field elements in products of vectors and matrices.  `Verif.CountLemmas` proves
that they compute the same as `Verif.Core`, `Verif.Preproc` and `Verif.Garble`.  Simplifications: the counter counts the products which the result
is a sum of, not the scaling by one and zero which `ndarray` may add; Lagrange coefficients and `RandSharingTransform::new` are not counted
(`scripts/computation_estimates.py` does not count them either).
-/

namespace Verif

/-- A computation which may panic, and the number of its multiplications. -/
def Cnt (α : Type) : Type := Option (α × Nat)

namespace Cnt
variable {α β : Type}

/-- No multiplication. -/
def ret (a : α) : Cnt α := some (a, 0)

/-- A panic. -/
def fail : Cnt α := none

/-- One computation after the other. -/
def bind (x : Cnt α) (f : α → Cnt β) : Cnt β :=
  match x with
  | none => none
  | some a => match f a.1 with
    | none => none
    | some b => some (b.1, a.2 + b.2)

/-- A function without multiplications is applied to the result. -/
def map (f : α → β) (x : Cnt α) : Cnt β := x.bind fun a => ret (f a)

/-- The same computation for all entries of a list. -/
def mapM (f : α → Cnt β) : List α → Cnt (List β)
  | [] => ret []
  | a :: l => (f a).bind fun b => (mapM f l).bind fun bs => ret (b :: bs)

end Cnt

/-- Steps without multiplications. -/
def _root_.Option.cnt {α : Type} (o : Option α) : Cnt α := o.map fun a => (a, 0)

section
variable {F : Type} [CodeField F] [DecidableEq F]

/-- A multiplication, `src/math/galois/mod.rs`. -/
def mulC (x y : F) : Cnt F := some (x * y, 1)

/-- `dot`, as in `Verif.dot`. -/
def dotC : List F → List F → Cnt F
  | a :: as, b :: bs => (mulC a b).bind fun x => (dotC as bs).bind fun s => Cnt.ret (x + s)
  | _, _ => Cnt.ret 0

/-- Entrywise product, as in `Verif.vmul`. -/
def vmulC (a b : List F) : Cnt (List F) := Cnt.mapM (fun p => mulC p.1 p.2) (a.zip b)

/-- `m.dot(&v)`, as in `Mat.mulVec`. -/
def Mat.mulVecC (m : Mat F) (v : List F) : Cnt (List F) :=
  if v.length = m.ncols then Cnt.mapM (fun r => dotC r v) m.rows else Cnt.fail

/-- `m.dot(&a)`, as in `Mat.mulRows`. -/
def Mat.mulRowsC (m : Mat F) (num : Nat) (a : List (List F)) : Cnt (List (List F)) :=
  if a.length = m.ncols then Cnt.mapM (fun r => Cnt.mapM (fun j => dotC r (col j a)) (List.range num)) m.rows else Cnt.fail

/-- `share_using_coeffs`, `src/sharing.rs:43-63`. -/
def shareUsingCoeffsC (secrets : List F) (coeffs : Mat F) (l : Nat) (tape : List F) : Cnt (List F) :=
  let np := coeffs.ncols
  let numRand := np - l
  if tape.length = numRand + (l - secrets.length) then
    let shares := tape.take numRand
    let points := (secrets ++ tape.drop numRand).take l ++ shares
    (coeffs.mulVecC points).map fun rest => shares ++ rest
  else Cnt.fail

/-- `PackedSharing::share`, `src/sharing.rs:126-133`. -/
def PackedSharing.shareC (ps : PackedSharing F) (secrets tape : List F) : Cnt (List F) := shareUsingCoeffsC secrets ps.shareCoeffs ps.l tape

/-- `PackedSharing::rand`, `src/sharing.rs:135-139`. -/
def PackedSharing.randC (ps : PackedSharing F) (tape : List F) : Cnt (List F) :=
  if tape.length = ps.np then (ps.randCoeffs.mulVecC tape).map fun rest => tape ++ rest else Cnt.fail

/-- `PackedSharing::semihon_recon`, `src/sharing.rs:141-148`. -/
def PackedSharing.semihonReconC (ps : PackedSharing F) (shares : List F) : Cnt (List F) :=
  if ps.n - ps.np ≤ shares.length then ps.secretCoeffs.mulVecC (shares.drop (ps.n - ps.np)) else Cnt.fail

/-! ## `src/protocol/core.rs` -/

/-- The leader of `reduce_degree`, `src/protocol/core.rs:50-76`. -/
def rdLeaderC (ctx : Ctx F) (num : Nat) (tapes : List (List F)) (mssgs : List (List F)) : Cnt (List (List F)) :=
  (toRows ctx.n num mssgs.flatten).cnt.bind fun sharesN =>
  (Cnt.mapM (fun j =>
    (ctx.pssN.semihonReconC (col j sharesN)).bind fun secrets =>
    (tapes[j]?).cnt.bind fun tape => ctx.pss.shareC secrets tape) (List.range num)).bind fun shares =>
  (toRows num ctx.n shares.flatten).cnt.map fun shares => (List.range ctx.n).map fun i => col i shares

/-- All parties' steps of `reduce_degree`, `src/protocol/core.rs:25-84`. -/
def reduceDegreeC (ctx : Ctx F) (num : Nat) (tapes : List (List F)) (vxs randoms zeros : List (List F)) : Cnt (List (List F)) :=
  ((List.range ctx.n).mapM fun i => (vxs[i]?).bind fun vx => (randoms[i]?).bind fun r => (zeros[i]?).bind fun z =>
    rdSend vx r z).cnt.bind fun mssgs =>
  (rdLeaderC ctx num tapes mssgs).bind fun replies =>
  ((List.range ctx.n).mapM fun i => (replies[i]?).bind fun s => (randoms[i]?).bind fun r => rdFinish r s).cnt

/-- `mult`, `src/protocol/core.rs:86-100`, of all parties. -/
def multC (ctx : Ctx F) (num : Nat) (tapes : List (List F)) (vxs vys randoms zeros : List (List F)) : Cnt (List (List F)) :=
  (Cnt.mapM (fun i => (vxs[i]?).cnt.bind fun vx => (vys[i]?).cnt.bind fun vy =>
    if vx.length = vy.length then vmulC vx vy else Cnt.fail) (List.range ctx.n)).bind fun ps =>
  reduceDegreeC ctx num tapes ps randoms zeros

/-- The leader of `trans`, `src/protocol/core.rs:145-189`. -/
def transLeaderC (ctx : Ctx F) (tr : SharingTransform F) (num : Nat) (tapes : List (List F)) (mssgs : List (List F)) : Cnt (List (List F)) :=
  if ctx.n = 0 ∨ ctx.t + ctx.l = 0 then Cnt.fail else
  (computeReconCoeffs (ctx.n - 1) ctx.n tr.oldPos).cnt.bind fun reconN =>
  (computeShareCoeffs (ctx.t + ctx.l - 1) ctx.n tr.newPos).cnt.bind fun shareCoeffs =>
  (toRows ctx.n num mssgs.flatten).cnt.bind fun sharesN =>
  (reconN.mulRowsC num sharesN).bind fun secrets =>
  (Cnt.mapM (fun j =>
    (tr.f.apply (col j secrets)).cnt.bind fun tfSecrets =>
    (tapes[j]?).cnt.bind fun tape => shareUsingCoeffsC tfSecrets shareCoeffs tr.newPos.length tape) (List.range num)).bind fun shares =>
  (toRows num ctx.n shares.flatten).cnt.map fun shares => (List.range ctx.n).map fun i => col i shares

/-- All parties' steps of `trans`, `src/protocol/core.rs:119-197`. -/
def transC (ctx : Ctx F) (tr : SharingTransform F) (num : Nat) (tapes : List (List F)) (vxs randoms randomsN : List (List F)) :
    Cnt (List (List F)) :=
  ((List.range ctx.n).mapM fun i => (vxs[i]?).bind fun vx => (randomsN[i]?).bind fun r => transSend vx r).cnt.bind fun mssgs =>
  (transLeaderC ctx tr num tapes mssgs).bind fun replies =>
  ((List.range ctx.n).mapM fun i => (replies[i]?).bind fun s => (randoms[i]?).bind fun r => rdFinish r s).cnt

/-- What one party sends in `randtrans`, `src/protocol/core.rs:302-343`. -/
def rtSendC (ctx : Ctx F) (tr : RandTransform F) (randoms zeros : List F) : Cnt (List (List F)) :=
  if ctx.n + ctx.t = 0 ∨ ctx.n < ctx.l then Cnt.fail else
  let num := randoms.length / (ctx.n + ctx.t)
  (drain (num * ctx.l) randoms).cnt.bind fun (a, randoms) =>
  (toRows ctx.l num a).cnt.bind fun secrets =>
  (drain (num * ctx.t) randoms).cnt.bind fun (b, randoms) =>
  (toRows ctx.t num b).cnt.bind fun rands =>
  (toRows (ctx.n - ctx.l) num randoms).cnt.bind fun randsN =>
  (drain (ctx.n * num) zeros).cnt.bind fun (z, zeros) =>
  (toRows ctx.n num z).cnt.bind fun zerosN =>
  (toRows ctx.n num zeros).cnt.bind fun zeros =>
  (tr.share.mulRowsC num (secrets ++ rands)).bind fun shares =>
  (tr.shareN.mulRowsC num (secrets ++ randsN)).bind fun sharesN =>
  (if shares.length = ctx.n ∧ sharesN.length = ctx.n then
    some (List.zipWith (fun s sn => s ++ sn) (addRows shares zeros) (addRows sharesN zerosN))
  else none : Option (List (List F))).cnt

/-- What a party computes from the messages it gets, `src/protocol/core.rs:345-365`. -/
def rtFinishC (ctx : Ctx F) (num : Nat) (mssgs : List (List F)) : Cnt (List (List F) × List (List F)) :=
  (toRows ctx.n (2 * num) mssgs.flatten).cnt.bind fun all =>
  (ctx.pssN.secretCoeffs.mulRowsC num (all.map (·.take num))).bind fun shares =>
  (ctx.pssN.secretCoeffs.mulRowsC num (all.map (·.drop num))).map fun sharesN => (shares, sharesN)

/-- All parties' steps of `randtrans`, `src/protocol/core.rs:294-366`. -/
def randtransC (ctx : Ctx F) (tfs : List (SharingTransform F)) (randoms zeros : List (List F)) :
    Cnt (List (List (List F) × List (List F))) :=
  (Cnt.mapM (fun i => (RandTransform.new ctx i tfs).cnt.bind fun tr =>
    (randoms[i]?).cnt.bind fun r => (zeros[i]?).cnt.bind fun z => rtSendC ctx tr r z) (List.range ctx.n)).bind fun mssgs =>
  Cnt.mapM (fun i =>
    (mssgs.mapM fun m => m[i]?).cnt.bind fun inbox =>
    (randoms[i]?).cnt.bind fun r => rtFinishC ctx (r.length / (ctx.n + ctx.t)) inbox) (List.range ctx.n)

/-! ## `src/protocol/preproc.rs` -/

/-- `src/protocol/preproc.rs:64-75`, `124-136`, `184-196`. -/
def dealFinishC (n batches : Nat) (superInv : Mat F) (mssgs : List (List F)) : Cnt (List F) :=
  (toRows n batches mssgs.flatten).cnt.bind fun sent => (superInv.mulRowsC batches sent).map fun out => out.flatten

/-- The round common to `rand`, `zero` and `randbit`. -/
def dealRoundC (n batches : Nat) (superInv : Mat F) (sharings : List (List (List F))) : Cnt (List (List F)) :=
  (sharings.mapM (dealSend n batches)).cnt.bind fun mssgs =>
  Cnt.mapM (fun i => (mssgs.mapM fun m => m[i]?).cnt.bind fun inbox => dealFinishC n batches superInv inbox) (List.range n)

/-- All parties' steps of `rand`, `src/protocol/preproc.rs:38-76`. -/
def randC (ctx : Ctx F) (superInv : Mat F) (num : Nat) (tapes : List (List (List F))) : Cnt (List (List F)) :=
  (numBatches num superInv.rows.length).cnt.bind fun batches =>
  (Cnt.mapM (fun p => Cnt.mapM (fun b =>
    (tapes[p]?).cnt.bind fun tp => (tp[b]?).cnt.bind fun tape => ctx.pss.randC tape) (List.range batches)) (List.range ctx.n)).bind fun sharings =>
  dealRoundC ctx.n batches superInv sharings

/-- All parties' steps of `zero`, `src/protocol/preproc.rs:97-137`. -/
def zeroC (ctx : Ctx F) (superInv : Mat F) (num : Nat) (tapes : List (List (List F))) : Cnt (List (List F)) :=
  (numBatches num superInv.rows.length).cnt.bind fun batches =>
  (Cnt.mapM (fun p => Cnt.mapM (fun b =>
    (tapes[p]?).cnt.bind fun tp => (tp[b]?).cnt.bind fun tape =>
    ctx.pssN.shareC (List.replicate ctx.l 0) tape) (List.range batches)) (List.range ctx.n)).bind fun sharings =>
  dealRoundC ctx.n batches superInv sharings

/-- All parties' steps of `randbit`, `src/protocol/preproc.rs:156-197`. -/
def randbitC (ctx : Ctx F) (binSuperInv : Mat F) (num : Nat) (bits : List (List (List Bool))) (tapes : List (List (List F))) :
    Cnt (List (List F)) :=
  (numBatches num binSuperInv.rows.length).cnt.bind fun batches =>
  (Cnt.mapM (fun p => Cnt.mapM (fun b =>
    (bits[p]?).cnt.bind fun bp => (bp[b]?).cnt.bind fun bs =>
    (tapes[p]?).cnt.bind fun tp => (tp[b]?).cnt.bind fun tape =>
    if bs.length = ctx.pss.l then ctx.pss.shareC (bs.map (bitVal F)) tape else Cnt.fail) (List.range batches)) (List.range ctx.n)).bind fun sharings =>
  dealRoundC ctx.n batches binSuperInv sharings

/-- One error batch, `src/protocol/preproc.rs:395-436`. -/
def errorBatchC (ctx : Ctx F) (bsize : Nat) (tp : ErrTapes F) (rbit0 rbit1 brand bzeros : List (List F)) : Cnt (List (List F)) :=
  (drainAll bsize brand).cnt.bind fun (rands, brand) =>
  (drainAll bsize bzeros).cnt.bind fun (zeros, bzeros) =>
  (multC ctx bsize tp.first rbit0 rbit1 rands zeros).bind fun biased =>
  (drainAll bsize brand).cnt.bind fun (scalars, brand) =>
  multC ctx bsize tp.second biased scalars brand bzeros

/-- The loop over the leaders, `src/protocol/preproc.rs:391-442`. -/
def errorLoopC (ctx : Ctx F) : List (Nat × ErrTapes F) → (rbits brand bzeros : List (List F)) → Cnt (List (List F))
  | [], _, _, _ => Cnt.ret (List.replicate ctx.n [])
  | (bsize, tp) :: rest, rbits, erand, ezeros =>
    (drainAll bsize rbits).cnt.bind fun (rbit0, rbits) =>
    (drainAll bsize rbits).cnt.bind fun (rbit1, rbits) =>
    (drainAll (3 * bsize) erand).cnt.bind fun (brand, erand) =>
    (drainAll (2 * bsize) ezeros).cnt.bind fun (bzeros, ezeros) =>
    (errorBatchC ctx bsize tp rbit0 rbit1 brand bzeros).bind fun errs =>
    (errorLoopC ctx rest rbits erand ezeros).map fun more => List.zipWith (· ++ ·) errs more

/-- All parties' steps of `preproc`, `src/protocol/preproc.rs:335-460`. -/
def preprocC (ctx : Ctx F) (superInv binSuperInv : Mat F) (desc : PreProcCount) (tp : PreTapes F) : Cnt (List (PreProc F)) :=
  (randC ctx superInv (desc.numKeys + desc.randoms + 3 * desc.errors) tp.rand).bind fun rands =>
  (zeroC ctx superInv (desc.zeros + 2 * desc.errors) tp.zero).bind fun zeros =>
  (randbitC ctx binSuperInv (desc.masks + 2 * desc.errors) tp.bits tp.rbit).bind fun rbits =>
  (drainAll (3 * desc.errors) rands).cnt.bind fun (erand, rands) =>
  (drainAll (2 * desc.errors) zeros).cnt.bind fun (ezeros, zeros) =>
  (drainAll (2 * desc.errors) rbits).cnt.bind fun (ebits, rbits) =>
  (errorBatches desc.errors ctx.n).cnt.bind fun sizes =>
  if tp.errs.length = sizes.length then
    (errorLoopC ctx (sizes.zip tp.errs) ebits erand ezeros).bind fun errors =>
    (drainAll desc.numKeys rands).cnt.bind fun (keys, rands) =>
    ((List.range ctx.n).mapM fun i =>
      (keys[i]?).bind fun k => (Arr3.ofVec desc.keys k).bind fun karr =>
      (rbits[i]?).bind fun m => (rands[i]?).bind fun r => (zeros[i]?).bind fun z => (errors[i]?).map fun e =>
        ({ masks := m.take desc.masks, keys := karr, randoms := r, zeros := z, errors := e } : PreProc F)).cnt
  else Cnt.fail

/-! ## `src/protocol/garble.rs` -/

/-- The loops of `gen_rand_shares`, `src/protocol/garble.rs:716-745`. -/
def genRandLoopC (ctx : Ctx F) (reps : Nat) : Nat → List (List (SharingTransform F)) →
    (randoms zeros : List (List F)) → Cnt (List (List (List F) × List (List F)))
  | _, [], _, _ => Cnt.ret (List.replicate ctx.n ([], []))
  | rem, g :: gs, randoms, zeros =>
    (drainAll ((ctx.n + ctx.t) * reps) randoms).cnt.bind fun (r, randoms) =>
    (drainAll (2 * ctx.n * reps) zeros).cnt.bind fun (z, zeros) =>
    (randtransC ctx g r z).bind fun outs =>
    (genRandLoopC ctx reps (rem - ctx.l) gs randoms zeros).bind fun more =>
    if (outs.all fun o => o.1.all (fun row => row.length = reps) && o.2.all (fun row => row.length = reps)) then
      Cnt.ret (List.zipWith (fun o m =>
        if gs = [] then (o.1.take (min ctx.l rem) ++ m.1, o.2.take (min ctx.l rem) ++ m.2)
        else (o.1 ++ m.1, o.2 ++ m.2)) outs more)
    else Cnt.fail

/-- `gen_rand_shares`, `src/protocol/garble.rs:699-746`. -/
def genRandSharesC (ctx : Ctx F) (tfs : List (SharingTransform F)) (reps : Nat) (randoms zeros : List (List F)) :
    Cnt (List (List (List F) × List (List F))) :=
  (chunks? ctx.l tfs).cnt.bind fun gs => genRandLoopC ctx reps tfs.length gs randoms zeros

/-- One transformation of `transform`, `src/protocol/garble.rs:765-775`. -/
def transformOneC (ctx : Ctx F) (tr : SharingTransform F) (i : Nat) (tapes : List (List F))
    (inp rand randN : List (List (List F))) : Cnt (List (List F)) :=
  if ctx.n = 0 then Cnt.fail else
  (inp.mapM fun a => a[i]?).cnt.bind fun vxs =>
  (rand.mapM fun a => a[i]?).cnt.bind fun rs =>
  (randN.mapM fun a => a[i]?).cnt.bind fun rns =>
  (vxs[i % ctx.n]?).cnt.bind fun v => transC ctx tr v.length tapes vxs rs rns

/-- `transform`, `src/protocol/garble.rs:749-786`. -/
def transformC (ctx : Ctx F) (tfs : List (SharingTransform F)) (reps : Nat) (tapes : List (List (List F)))
    (inp rand randN : List (List (List F))) : Cnt (List (List (List F))) :=
  (Cnt.mapM (fun i => (tfs[i]?).cnt.bind fun tr => (tapes[i]?).cnt.bind fun tp =>
    transformOneC ctx tr i tp inp rand randN) (List.range tfs.length)).bind fun outs =>
  ((List.range ctx.n).mapM fun p => (outs.mapM fun o => o[p]?).bind fun rows => toRows tfs.length reps rows.flatten).cnt

/-- `select` of party `id` for one gate input, `src/protocol/garble.rs:643-663`. -/
def selectInputC (n l id cols : Nat) (lookup : Nat → Option Nat) (shares : List (List F)) (wires : List Nat) : Cnt (List F) :=
  ((sortDedup wires).mapM lookup).cnt.bind fun indices =>
  (indices.mapM fun i => shares[i]?).cnt.bind fun selected =>
  ((sharePos n)[id]?).cnt.bind fun me =>
  ((lagrangeCoeffs (wireToPos n l (sortDedup wires)) [me]).mulRowsC cols selected).bind fun r => (r[0]?).cnt

/-- `select` for all gates, `src/protocol/garble.rs:205-216`. -/
def selectAllC (n l id cols : Nat) (g : GarbleCtx F) (shares : List (List F)) : Cnt (List (List F)) :=
  (Cnt.mapM (selectInputC n l id cols g.lookup shares) (g.circ.gates.flatMap PackedGate.inps)).bind fun sel =>
  if cols = 0 then Cnt.fail else (toRows (sel.flatten.length / cols) cols sel.flatten).cnt

/-- `plain.dot(&lpn_enc.reversed_axes())`. -/
def encodePlainC (enc : Mat F) (plain : List (List F)) : Cnt (List (List F)) := Cnt.mapM (fun r => enc.mulVecC r) plain

/-- One row of a table, `src/protocol/garble.rs:450-462`. -/
def encryptRowC (mat : List (List F)) (key mssg err : List F) : Cnt (List F) :=
  (Cnt.mapM (fun a => dotC a key) mat).map fun m => vadd (vadd m mssg) err

/-- The table of a gate with two inputs, `src/protocol/garble.rs:446-465`. -/
def pairTableC (enc : Mat F) (mssgLen : Nat) (mat : List (List (List F))) (keys plain : List (List F)) (errors : List F) :
    Cnt (List (List F)) :=
  (encodePlainC enc plain).bind fun mssgs =>
  (toRows 4 mssgLen errors).cnt.bind fun errs =>
  Cnt.mapM (fun r =>
    (mat[r]?).cnt.bind fun m => (keys[r / 2]?).cnt.bind fun kl => (keys[2 + r % 2]?).cnt.bind fun kr =>
    (mssgs[r]?).cnt.bind fun ms => (errs[r]?).cnt.bind fun e => encryptRowC m (vadd kl kr) ms e) (List.range 4)

/-- The table of an `INV` gate, `src/protocol/garble.rs:611-627`. -/
def oneTableC (enc : Mat F) (mssgLen : Nat) (mat : List (List (List F))) (keys plain : List (List F)) (errors : List F) :
    Cnt (List (List F)) :=
  (encodePlainC enc plain).bind fun mssgs =>
  (toRows 2 mssgLen errors).cnt.bind fun errs =>
  Cnt.mapM (fun r =>
    (mat[r]?).cnt.bind fun m => (keys[r]?).cnt.bind fun k =>
    (mssgs[r]?).cnt.bind fun ms => (errs[r]?).cnt.bind fun e => encryptRowC m k ms e) (List.range 2)

/-- All parties' steps of `garble_and`, `src/protocol/garble.rs:355-466`. -/
def garbleAndC (ctx : Ctx F) (lpn : LpnParams) (enc : Mat F) (mats : List (List (List (List F)))) (tp : GateTapes F)
    (ins : List (PairIn F)) (randoms zeros errors : List (List F)) : Cnt (List (List (List F))) :=
  (randoms.mapM popMask).cnt.bind fun rs =>
  (zeros.mapM popMask).cnt.bind fun zs =>
  (multC ctx 1 tp.first (ins.map fun p => [p.lmask]) (ins.map fun p => [p.rmask]) (rs.map fun r => [r.2])
    (zs.map fun z => [z.2])).bind fun prods =>
  ((List.range ctx.n).mapM fun i => (ins[i]?).bind fun p => (prods[i]?).bind fun q => (q[0]?).map fun v =>
    andSelector lpn.keyLen p v).cnt.bind fun sels =>
  (ins.mapM (andMultiplicand lpn.keyLen)).cnt.bind fun muls =>
  (multC ctx (3 * (lpn.keyLen + 1)) tp.second sels muls (rs.map (·.1)) (zs.map (·.1))).bind fun selected =>
  Cnt.mapM (fun i =>
    (ins[i]?).cnt.bind fun p => (selected[i]?).cnt.bind fun s => (mats[i]?).cnt.bind fun m => (errors[i]?).cnt.bind fun e =>
    (andPlain lpn.keyLen p s).cnt.bind fun plain => pairTableC enc lpn.mssgLen m p.keys plain e) (List.range ctx.n)

/-- All parties' steps of `garble_xor`, `src/protocol/garble.rs:468-549`. -/
def garbleXorC (ctx : Ctx F) (lpn : LpnParams) (enc : Mat F) (mats : List (List (List (List F)))) (tp : GateTapes F)
    (ins : List (PairIn F)) (randoms zeros errors : List (List F)) : Cnt (List (List (List F))) :=
  (ins.mapM fun p => if p.k0.length = p.k1.length then some (vsub p.k1 p.k0) else none).cnt.bind fun muls =>
  (multC ctx (lpn.keyLen + 1) tp.second
    (ins.map fun p => List.replicate (lpn.keyLen + 1) (p.lmask + p.rmask + p.omask)) muls randoms zeros).bind fun prods =>
  Cnt.mapM (fun i =>
    (ins[i]?).cnt.bind fun p => (prods[i]?).cnt.bind fun s => (mats[i]?).cnt.bind fun m => (errors[i]?).cnt.bind fun e =>
    pairTableC enc lpn.mssgLen m p.keys (xorPlain p s) e) (List.range ctx.n)

/-- All parties' steps of `garble_inv`, `src/protocol/garble.rs:551-628`. -/
def garbleInvC (ctx : Ctx F) (lpn : LpnParams) (enc : Mat F) (mats : List (List (List (List F)))) (tp : GateTapes F)
    (ins : List (OneIn F)) (randoms zeros errors : List (List F)) : Cnt (List (List (List F))) :=
  (ins.mapM fun p => if p.k0.length = p.k1.length then some (vsub p.k1 p.k0) else none).cnt.bind fun muls =>
  (multC ctx (lpn.keyLen + 1) tp.second
    (ins.map fun p => List.replicate (lpn.keyLen + 1) (p.mask + p.omask)) muls randoms zeros).bind fun prods =>
  Cnt.mapM (fun i =>
    (ins[i]?).cnt.bind fun p => (prods[i]?).cnt.bind fun s => (mats[i]?).cnt.bind fun m => (errors[i]?).cnt.bind fun e =>
    oneTableC enc lpn.mssgLen m p.keys (invPlain p s) e) (List.range ctx.n)

/-- The call for one gate, `src/protocol/garble.rs:240-344`. -/
def gateTablesC (ctx : Ctx F) (lpn : LpnParams) (enc : Mat F) (kind : GateKind) (tp : GateTapes F)
    (mats : List (List (List (List F)))) (rows : List (List (List F))) (omasks : List F) (oks : List (List F × List F))
    (randoms zeros errors : List (List F)) : Cnt (List (List (List F))) :=
  match kind with
  | .and =>
    ((List.range ctx.n).mapM fun i => (rows[i]?).bind fun r => (omasks[i]?).bind fun m => (oks[i]?).bind fun ok =>
      pairIn lpn.keyLen r m ok).cnt.bind fun ins => garbleAndC ctx lpn enc mats tp ins randoms zeros errors
  | .xor =>
    ((List.range ctx.n).mapM fun i => (rows[i]?).bind fun r => (omasks[i]?).bind fun m => (oks[i]?).bind fun ok =>
      pairIn lpn.keyLen r m ok).cnt.bind fun ins => garbleXorC ctx lpn enc mats tp ins randoms zeros errors
  | .inv =>
    ((List.range ctx.n).mapM fun i => (rows[i]?).bind fun r => (omasks[i]?).bind fun m => (oks[i]?).bind fun ok =>
      oneIn lpn.keyLen r m ok).cnt.bind fun ins => garbleInvC ctx lpn enc mats tp ins randoms zeros errors

/-- One iteration of the loop over the gates, `src/protocol/garble.rs:231-344`. -/
def gateStepC (ctx : Ctx F) (g : GarbleCtx F) (pre : List (PreProc F)) (gid : Nat) (kind : GateKind)
    (tp : GateTapes F) (s : GarbleState F) : Cnt (List (List (List F)) × GarbleState F) :=
  (pre.mapM fun p => p.masks[g.circ.inputs.length + gid]?).cnt.bind fun omasks =>
  ((List.range ctx.n).mapM fun i => (pre[i]?).bind fun p => (omasks[i]?).bind fun m =>
    outKeys p.keys m (g.circ.inputs.length + gid)).cnt.bind fun oks =>
  (drainAll kind.arity s.rows).cnt.bind fun (rows, restRows) =>
  (drainAll (kind.numMult g.lpn.keyLen) s.randoms).cnt.bind fun (randoms, restRandoms) =>
  (drainAll (kind.numMult g.lpn.keyLen) s.zeros).cnt.bind fun (zeros, restZeros) =>
  (drainAll (kind.numRows * g.lpn.mssgLen) s.errors).cnt.bind fun (errors, restErrors) =>
  (g.gidLookup[gid]?).cnt.bind fun idx =>
  (g.mats.mapM fun m => m[idx]?).cnt.bind fun mats =>
  (gateTablesC ctx g.lpn g.enc kind tp mats rows omasks oks randoms zeros errors).map fun tables =>
  (tables, ⟨restRows, restRandoms, restZeros, restErrors⟩)

/-- The loop over the gates, `src/protocol/garble.rs:229-350`. -/
def gateLoopC (ctx : Ctx F) (g : GarbleCtx F) (pre : List (PreProc F)) :
    Nat → List (GateKind × GateTapes F) → GarbleState F → Cnt (List (List (List (List F))) × GarbleState F)
  | _, [], s => Cnt.ret ([], s)
  | gid, (kind, tp) :: gs, s =>
    (gateStepC ctx g pre gid kind tp s).bind fun (tables, s) =>
    (gateLoopC ctx g pre (gid + 1) gs s).map fun (more, s) => (tables :: more, s)

/-- `run_rtrans`, `src/protocol/garble.rs:153-171`. -/
def runRtransC (ctx : Ctx F) (tfs : List (SharingTransform F)) (reps : Nat) (randoms zeros : List (List F)) :
    Cnt (List (List (List F) × List (List F)) × List (List F) × List (List F)) :=
  (numBatches tfs.length ctx.l).cnt.bind fun num =>
  (drainAll (num * reps * (ctx.n + ctx.t)) randoms).cnt.bind fun (r, randoms) =>
  (drainAll (num * reps * 2 * ctx.n) zeros).cnt.bind fun (z, zeros) =>
  (genRandSharesC ctx tfs reps r z).map fun out => (out, randoms, zeros)

/-- `out_shares` and `inp_shares`, `src/protocol/garble.rs:173-227`. -/
def garbleInputsC (ctx : Ctx F) (g : GarbleCtx F) (tp : GarbleTapes F) (pre : List (PreProc F)) :
    Cnt (List (List (List F)) × List (List (List F)) × List (List F) × List (List F)) :=
  (runRtransC ctx g.tfOut (2 * g.lpn.keyLen + 1) (pre.map (·.randoms)) (pre.map (·.zeros))).bind
    fun (ro, randoms, zeros) =>
  (runRtransC ctx g.tfInp (2 * g.lpn.keyLen + 1) randoms zeros).bind fun (ri, randoms, zeros) =>
  (pre.mapM (outInput g.circ.blocks.length g.lpn.keyLen)).cnt.bind fun inp =>
  (transformC ctx g.tfOut (2 * g.lpn.keyLen + 1) tp.out inp (ro.map (·.1)) (ro.map (·.2))).bind fun outShares =>
  (Cnt.mapM (fun id => (outShares[id]?).cnt.bind fun sh =>
    selectAllC ctx.n ctx.l id (2 * g.lpn.keyLen + 1) g sh) (List.range ctx.n)).bind fun selected =>
  (transformC ctx g.tfInp (2 * g.lpn.keyLen + 1) tp.inp selected (ri.map (·.1)) (ri.map (·.2))).map fun inpShares =>
    (outShares, inpShares, randoms, zeros)

/-- All parties' steps of `garble`, `src/protocol/garble.rs:132-353`. -/
def garbleC (ctx : Ctx F) (g : GarbleCtx F) (tp : GarbleTapes F) (pre : List (PreProc F)) :
    Cnt (List (List (List (List F))) × GarbleState F) :=
  (garbleInputsC ctx g tp pre).bind fun (_, inpShares, randoms, zeros) =>
  if tp.gates.length = g.circ.gates.length then
    gateLoopC ctx g pre 0 ((g.circ.gates.map PackedGate.kind).zip tp.gates) ⟨inpShares, randoms, zeros, pre.map (·.errors)⟩
  else Cnt.fail

end

end Verif
