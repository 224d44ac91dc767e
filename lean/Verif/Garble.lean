import Verif.Preproc
import Verif.Network

/-!
# Model of `src/protocol/garble.rs`

As in `Verif.Core`, the protocols are given by the parties' local computations and a sequential description
which delivers every message once, in party order (protocol IDs are the subject of `Verif.ProtoId`).
`hash` stands for SHA-256 and `rng seed k` for the `k`-th field element drawn from ChaCha12 seeded with `seed`;
both are arbitrary functions.
-/

namespace Verif

/-- `ginf.out`, `src/protocol/garble.rs:42-46`. -/
def PackedGate.out : PackedGate → List Nat
  | .xor g => g.out
  | .and g => g.out
  | .inv g => g.out

/-- `ginf.inp.to_vec()`, `src/protocol/garble.rs:64-68`. -/
def PackedGate.inps : PackedGate → List (List Nat)
  | .xor g => g.inp.toList
  | .and g => g.inp.toList
  | .inv g => g.inp.toList

/-- `Vec::dedup`: removes repetitions of neighbours. -/
def dedupAdj : List Nat → List Nat
  | [] => []
  | [x] => [x]
  | x :: y :: r => if x = y then dedupAdj (y :: r) else x :: dedupAdj (y :: r)

/-- `sort_unstable(); dedup()`, `src/protocol/garble.rs:70-72`, `644-646` (the result of sorting numbers does not
depend on the algorithm). -/
def sortDedup (ws : List Nat) : List Nat := dedupAdj (ws.insertionSort (· ≤ ·))

/-- All blocks of wires: the circuit inputs and the gate outputs, in the order used for the material. -/
def PackedCircuit.blocks (c : PackedCircuit) : List (List Nat) := c.inputs ++ c.gates.map PackedGate.out

/-! ## The wire-to-block map -/

/-- The two loops of `compute_wire_to_block_map`, `src/protocol/garble.rs:102-106`, `112-122`: later insertions
overwrite earlier ones. -/
def insertBlocks (m : Nat → Option Nat) (offset : Nat) (blocks : List (List Nat)) : Nat → Option Nat :=
  (blocks.zipIdx offset).foldl (fun m b => b.1.foldl (fun m w => Function.update m w (some b.2)) m) m

/-- `compute_wire_to_block_map`, `src/protocol/garble.rs:99-125`. -/
def wireToBlock (c : PackedCircuit) : Nat → Option Nat :=
  insertBlocks (insertBlocks (fun _ => none) 0 c.inputs) c.inputs.length (c.gates.map PackedGate.out)

/-- `PreProcCount::new` and `PreProc::describe`, `src/protocol/preproc.rs:222-257`. -/
def PackedCircuit.describe (c : PackedCircuit) (n t l : Nat) (lpn : LpnParams) : Option PreProcCount :=
  PreProcCount.ofCounts c.inputs.length c.gates.length c.gateCounts.1 c.gateCounts.2.1 c.gateCounts.2.2 n t l lpn

/-! ## LPN matrices -/

/-- `u64::to_be_bytes`. -/
def beBytes8 (v : Nat) : List Nat := (leBytes 8 v).reverse

/-- How often a wire has been read in a slot: the `HashMap<(usize, u32), usize>` of `compute_lookup`. -/
abbrev WireCounts := Nat × Nat → Option Nat

/-- `update_counts`, `src/protocol/garble.rs:877-886`. -/
def updateCounts (inps : List (List Nat)) (counts : WireCounts) : WireCounts :=
  inps.foldl (fun c ws => ws.zipIdx.foldl
    (fun c p => Function.update c (p.2, p.1) (some ((c (p.2, p.1)).getD 0 + 1))) c) counts

/-- The numbers hashed for input `i` of a gate, `src/protocol/garble.rs:897-908`; `get(..).unwrap()` and `- 1`
panic. -/
def inpCounts (inps : List (List Nat)) (counts : WireCounts) (l i : Nat) : Option (List Nat) :=
  ((inps.getD i []).zipIdx.mapM fun p => (counts (p.2, p.1)).bind fun v => usub v 1).map fun vs =>
    (vs ++ List.replicate l 0).take l

/-- The string hashed by `hash_inp_wires`, `src/protocol/garble.rs:888-915`. -/
def nonceInput (inps : List (List Nat)) (counts : WireCounts) (l : Nat) : Option (List Nat) :=
  (inpCounts inps counts l 0).bind fun a => (inpCounts inps counts l 1).map fun b =>
    a.flatMap beBytes8 ++ b.flatMap beBytes8

/-- State of the loop of `compute_lookup`, `src/protocol/garble.rs:840-844`; `entries` are the entries of
`nonce_lookup`, in the order of insertion. -/
structure LookupState where
  counts : WireCounts
  entries : List (List Nat × Nat)
  gidLookup : List Nat
  nonceIdx : Nat

/-- One iteration, `src/protocol/garble.rs:845-862`. -/
def lookupStep (hash : List Nat → List Nat) (l : Nat) (s : LookupState) (g : PackedGate) : Option LookupState :=
  (nonceInput g.inps (updateCounts g.inps s.counts) l).map fun inp =>
    match s.entries.lookup (hash inp) with
    | some i =>
      { counts := updateCounts g.inps s.counts, entries := s.entries, gidLookup := s.gidLookup ++ [i]
        nonceIdx := max s.nonceIdx (i + 1) }
    | none =>
      { counts := updateCounts g.inps s.counts, entries := s.entries ++ [(hash inp, s.nonceIdx)]
        gidLookup := s.gidLookup ++ [s.nonceIdx], nonceIdx := max s.nonceIdx (s.nonceIdx + 1) }

/-- The loop `src/protocol/garble.rs:845-862`. -/
def lookupLoop (hash : List Nat → List Nat) (l : Nat) (c : PackedCircuit) : Option LookupState :=
  c.gates.foldlM (lookupStep hash l) ⟨fun _ => none, [], [], 0⟩

/-- The loop `src/protocol/garble.rs:864-871`, for the entries of the map in the order in which they are visited
(which is arbitrary). -/
def noncesOf (entries : List (List Nat × Nat)) : Option (List (List Nat)) :=
  entries.foldlM (fun ns e => if e.2 < ns.length then some (ns.set e.2 e.1) else none)
    (List.replicate entries.length (List.replicate 32 0))

/-- `compute_lookup`, `src/protocol/garble.rs:836-875`. -/
def computeLookup (hash : List Nat → List Nat) (l : Nat) (c : PackedCircuit) : Option (List (List Nat) × List Nat) :=
  (lookupLoop hash l c).bind fun s => (noncesOf s.entries).map fun ns => (ns, s.gidLookup)

section protocols
variable {F : Type} [CodeField F] [DecidableEq F]

/-- The slot values of entry `(r, a, b)` of the matrix of a nonce, `src/protocol/garble.rs:821-826`: `l` elements
are drawn for each entry, in row-major order. -/
def lpnSlots (rng : List Nat → Nat → F) (l mssgLen keyLen : Nat) (nonce : List Nat) (r a b : Nat) : List F :=
  (List.range l).map fun s => rng nonce (((r * mssgLen + a) * keyLen + b) * l + s)

/-- The share of party `id` of an LPN matrix, `src/protocol/garble.rs:801-826`. -/
def lpnShare (rng : List Nat → Nat → F) (n l : Nat) (lpn : LpnParams) (id : Nat) (nonce : List Nat) :
    Option (List (List (List F))) :=
  ((sharePos n)[id]?).map fun me =>
    (List.range 4).map fun r => (List.range lpn.mssgLen).map fun a => (List.range lpn.keyLen).map fun b =>
      dot (lagrangeRow (defaultPos n l) me) (lpnSlots rng l lpn.mssgLen lpn.keyLen nonce r a b)

/-! ## Context -/

/-- `defpos[..m].to_owned()`. -/
def defPrefix (n l m : Nat) : Option (List F) := if m ≤ l then some ((defaultPos n l).take m) else none

/-- The transformations of the output wires, `src/protocol/garble.rs:38-58`. -/
def tfOut (n l : Nat) (c : PackedCircuit) : Option (List (SharingTransform F)) :=
  c.blocks.mapM fun wires => (defPrefix n l wires.length).map fun d =>
    ⟨d, wireToPos n l wires, ⟨List.range wires.length⟩⟩

/-- The transformations of the gate inputs, `src/protocol/garble.rs:60-84`. -/
def tfInp (n l : Nat) (c : PackedCircuit) : Option (List (SharingTransform F)) :=
  (c.gates.flatMap PackedGate.inps).mapM fun wires =>
    (Combination.fromInstance (sortDedup wires) wires).bind fun f =>
    (defPrefix n l wires.length).map fun d => ⟨wireToPos n l (sortDedup wires), d, f⟩

/-- `struct GarbleContext`, `src/protocol/garble.rs:22-30`; the parties' shares of the LPN matrices are listed by
party and nonce. -/
structure GarbleCtx (F : Type) where
  tfOut : List (SharingTransform F)
  tfInp : List (SharingTransform F)
  lookup : Nat → Option Nat
  enc : Mat F
  mats : List (List (List (List (List F))))
  gidLookup : List Nat
  circ : PackedCircuit
  lpn : LpnParams

/-- `GarbleContext::new`, `src/protocol/garble.rs:32-97`, of all parties. -/
def GarbleCtx.new (hash : List Nat → List Nat) (rng : List Nat → Nat → F) (ctx : Ctx F) (lpn : LpnParams)
    (c : PackedCircuit) : Option (GarbleCtx F) :=
  (Verif.tfOut ctx.n ctx.l c).bind fun tout =>
  (Verif.tfInp ctx.n ctx.l c).bind fun tinp =>
  (rsGenMat (lpn.keyLen + 1) lpn.mssgLen).bind fun enc =>
  (computeLookup hash ctx.l c).bind fun nl =>
  ((List.range ctx.n).mapM fun id => nl.1.mapM (lpnShare rng ctx.n ctx.l lpn id)).map fun mats =>
    { tfOut := tout, tfInp := tinp, lookup := wireToBlock c, enc := enc, mats := mats, gidLookup := nl.2
      circ := c, lpn := lpn }

/-! ## `Transforms` -/

/-- The loops of `gen_rand_shares`, `src/protocol/garble.rs:716-745`, over the groups of `l` transformations;
`rem` is `trans.len() - i * l`.  The result has, for every party, the rows of the two arrays. -/
def genRandLoop (ctx : Ctx F) (reps : Nat) : Nat → List (List (SharingTransform F)) →
    (randoms zeros : List (List F)) → Option (List (List (List F) × List (List F)))
  | _, [], _, _ => some (List.replicate ctx.n ([], []))
  | rem, g :: gs, randoms, zeros =>
    (drainAll ((ctx.n + ctx.t) * reps) randoms).bind fun (r, randoms) =>
    (drainAll (2 * ctx.n * reps) zeros).bind fun (z, zeros) =>
    (randtrans ctx g r z).bind fun outs =>
    (genRandLoop ctx reps (rem - ctx.l) gs randoms zeros).bind fun more =>
    if (outs.all fun o => o.1.all (fun row => row.length = reps) && o.2.all (fun row => row.length = reps)) then
      some (List.zipWith (fun o m =>
        if gs = [] then (o.1.take (min ctx.l rem) ++ m.1, o.2.take (min ctx.l rem) ++ m.2)
        else (o.1 ++ m.1, o.2 ++ m.2)) outs more)
    else none

/-- `gen_rand_shares`, `src/protocol/garble.rs:699-746`, with the grouping of `Transforms::new`
(`src/protocol/garble.rs:684-691`). -/
def genRandShares (ctx : Ctx F) (tfs : List (SharingTransform F)) (reps : Nat) (randoms zeros : List (List F)) :
    Option (List (List (List F) × List (List F))) :=
  (chunks? ctx.l tfs).bind fun gs => genRandLoop ctx reps tfs.length gs randoms zeros

/-- One transformation of `transform`, `src/protocol/garble.rs:765-775`: `inp`, `rand` and `randN` list the
parties' arrays, `tapes` the leader's randomness.  The leader is party `i % n`. -/
def transformOne (ctx : Ctx F) (tr : SharingTransform F) (i : Nat) (tapes : List (List F))
    (inp rand randN : List (List (List F))) : Option (List (List F)) :=
  if ctx.n = 0 then none else
  (inp.mapM fun a => a[i]?).bind fun vxs =>
  (rand.mapM fun a => a[i]?).bind fun rs =>
  (randN.mapM fun a => a[i]?).bind fun rns =>
  (vxs[i % ctx.n]?).bind fun v => trans ctx tr v.length tapes vxs rs rns

/-- `transform`, `src/protocol/garble.rs:749-786`; `reps` is `rand.shape()[1]`. -/
def transform (ctx : Ctx F) (tfs : List (SharingTransform F)) (reps : Nat) (tapes : List (List (List F)))
    (inp rand randN : List (List (List F))) : Option (List (List (List F))) :=
  ((List.range tfs.length).mapM fun i => (tfs[i]?).bind fun tr => (tapes[i]?).bind fun tp =>
    transformOne ctx tr i tp inp rand randN).bind fun outs =>
  (List.range ctx.n).mapM fun p => (outs.mapM fun o => o[p]?).bind fun rows => toRows tfs.length reps rows.flatten

/-! ## `select` -/

/-- `select` of party `id` for one gate input, `src/protocol/garble.rs:643-663`. -/
def selectInput (n l id cols : Nat) (lookup : Nat → Option Nat) (shares : List (List F)) (wires : List Nat) :
    Option (List F) :=
  ((sortDedup wires).mapM lookup).bind fun indices =>
  (indices.mapM fun i => shares[i]?).bind fun selected =>
  ((sharePos n)[id]?).bind fun me =>
  ((lagrangeCoeffs (wireToPos n l (sortDedup wires)) [me]).mulRows cols selected).bind fun r => r[0]?

/-- `select` for all gates, `src/protocol/garble.rs:205-216`. -/
def selectAll (n l id cols : Nat) (g : GarbleCtx F) (shares : List (List F)) : Option (List (List F)) :=
  ((g.circ.gates.flatMap PackedGate.inps).mapM (selectInput n l id cols g.lookup shares)).bind fun sel =>
  if cols = 0 then none else toRows (sel.flatten.length / cols) cols sel.flatten

/-! ## Gates -/

/-- `to_vec()` and `pop().unwrap()`: the keys and the mask of an input row, `src/protocol/garble.rs:242-245`. -/
def popMask (row : List F) : Option (List F × F) := row.getLast?.map fun m => (row.dropLast, m)

/-- The keys of a gate with two inputs, `src/protocol/garble.rs:246-251`: row `2 * side + bit`. -/
def pairKeys (keyLen : Nat) (left right : List F) : Option (List (List F)) :=
  if 4 * keyLen ≤ (left ++ right).length then toRows 4 keyLen ((left ++ right).take (4 * keyLen)) else none

/-- The two rows of `out_keys`, with the masks appended: `src/protocol/garble.rs:234-238`, `378-381`. -/
def outKeys (keys : Arr3 F) (mask : F) (block : Nat) : Option (List F × List F) :=
  if keys.shape.1 = 2 then
    ((List.range keys.shape.2.1).mapM fun j => keys.get? 0 j block).bind fun k0 =>
    ((List.range keys.shape.2.1).mapM fun j => keys.get? 1 j block).map fun k1 => (k0 ++ [mask], k1 ++ [mask + 1])
  else none

/-- What one party brings to a gate with two inputs. -/
structure PairIn (F : Type) where
  lmask : F
  rmask : F
  keys : List (List F)
  omask : F
  k0 : List F
  k1 : List F

/-- The same for an `INV` gate. -/
structure OneIn (F : Type) where
  mask : F
  keys : List (List F)
  omask : F
  k0 : List F
  k1 : List F

/-- `selector`, `src/protocol/garble.rs:397-405`. -/
def andSelector (k : Nat) (p : PairIn F) (prod : F) : List F :=
  List.replicate (k + 1) (prod + p.omask) ++ List.replicate (k + 1) (prod + p.omask + p.lmask)
    ++ List.replicate (k + 1) (prod + p.omask + p.rmask)

/-- `multiplicand`, `src/protocol/garble.rs:407-412`; broadcasting to the wrong width panics. -/
def andMultiplicand (k : Nat) (p : PairIn F) : Option (List F) :=
  if p.k0.length = k + 1 ∧ p.k1.length = k + 1 then
    some (vsub p.k1 p.k0 ++ vsub p.k1 p.k0 ++ vsub p.k1 p.k0)
  else none

/-- The plaintexts of the four rows, `src/protocol/garble.rs:425-441`. -/
def andPlain (k : Nat) (p : PairIn F) (selected : List F) : Option (List (List F)) :=
  (toRows 3 (k + 1) selected).bind fun rows =>
  match rows with
  | [a, b, c] =>
    some (([a, b, c] ++ [vsub (vadd (vadd (vadd a b) c) p.k1) p.k0]).map fun r => vadd r p.k0)
  | _ => none

/-- The plaintexts of an `XOR` gate, `src/protocol/garble.rs:518-525`. -/
def xorPlain (p : PairIn F) (prod : List F) : List (List F) :=
  [vadd prod p.k0, vadd prod p.k1, vadd prod p.k1, vadd prod p.k0]

/-- The plaintexts of an `INV` gate, `src/protocol/garble.rs:598-606`. -/
def invPlain (p : OneIn F) (prod : List F) : List (List F) :=
  [vadd prod p.k0, vadd (vadd p.k0 p.k1) (vadd prod p.k0)]

/-- `plain.dot(&lpn_enc.reversed_axes())`. -/
def encodePlain (enc : Mat F) (plain : List (List F)) : Option (List (List F)) :=
  plain.mapM fun r => enc.mulVec r

/-- One row of a table, `src/protocol/garble.rs:450-462`: `lpn_mat.dot(&keys) + mssg + error`. -/
def encryptRow (mat : List (List F)) (key mssg err : List F) : List F :=
  vadd (vadd (mat.map fun a => dot a key) mssg) err

/-- The table of a gate with two inputs, `src/protocol/garble.rs:446-465`. -/
def pairTable (enc : Mat F) (mssgLen : Nat) (mat : List (List (List F))) (keys plain : List (List F))
    (errors : List F) : Option (List (List F)) :=
  (encodePlain enc plain).bind fun mssgs =>
  (toRows 4 mssgLen errors).bind fun errs =>
  (List.range 4).mapM fun r =>
    (mat[r]?).bind fun m => (keys[r / 2]?).bind fun kl => (keys[2 + r % 2]?).bind fun kr =>
    (mssgs[r]?).bind fun ms => (errs[r]?).map fun e => encryptRow m (vadd kl kr) ms e

/-- The table of an `INV` gate, `src/protocol/garble.rs:611-627`. -/
def oneTable (enc : Mat F) (mssgLen : Nat) (mat : List (List (List F))) (keys plain : List (List F))
    (errors : List F) : Option (List (List F)) :=
  (encodePlain enc plain).bind fun mssgs =>
  (toRows 2 mssgLen errors).bind fun errs =>
  (List.range 2).mapM fun r =>
    (mat[r]?).bind fun m => (keys[r]?).bind fun k =>
    (mssgs[r]?).bind fun ms => (errs[r]?).map fun e => encryptRow m k ms e

/-- Randomness of the leaders of the multiplications of a gate. -/
structure GateTapes (F : Type) where
  first : List (List F)
  second : List (List F)

/-- All parties' steps of `garble_and`, `src/protocol/garble.rs:355-466`. -/
def garbleAnd (ctx : Ctx F) (lpn : LpnParams) (enc : Mat F) (mats : List (List (List (List F)))) (tp : GateTapes F)
    (ins : List (PairIn F)) (randoms zeros errors : List (List F)) : Option (List (List (List F))) :=
  (randoms.mapM popMask).bind fun rs =>
  (zeros.mapM popMask).bind fun zs =>
  (mult ctx 1 tp.first (ins.map fun p => [p.lmask]) (ins.map fun p => [p.rmask]) (rs.map fun r => [r.2])
    (zs.map fun z => [z.2])).bind fun prods =>
  ((List.range ctx.n).mapM fun i => (ins[i]?).bind fun p => (prods[i]?).bind fun q => (q[0]?).map fun v =>
    andSelector lpn.keyLen p v).bind fun sels =>
  (ins.mapM (andMultiplicand lpn.keyLen)).bind fun muls =>
  (mult ctx (3 * (lpn.keyLen + 1)) tp.second sels muls (rs.map (·.1)) (zs.map (·.1))).bind fun selected =>
  (List.range ctx.n).mapM fun i =>
    (ins[i]?).bind fun p => (selected[i]?).bind fun s => (mats[i]?).bind fun m => (errors[i]?).bind fun e =>
    (andPlain lpn.keyLen p s).bind fun plain => pairTable enc lpn.mssgLen m p.keys plain e

/-- All parties' steps of `garble_xor`, `src/protocol/garble.rs:468-549`. -/
def garbleXor (ctx : Ctx F) (lpn : LpnParams) (enc : Mat F) (mats : List (List (List (List F)))) (tp : GateTapes F)
    (ins : List (PairIn F)) (randoms zeros errors : List (List F)) : Option (List (List (List F))) :=
  (ins.mapM fun p => if p.k0.length = p.k1.length then some (vsub p.k1 p.k0) else none).bind fun muls =>
  (mult ctx (lpn.keyLen + 1) tp.second
    (ins.map fun p => List.replicate (lpn.keyLen + 1) (p.lmask + p.rmask + p.omask)) muls randoms zeros).bind fun prods =>
  (List.range ctx.n).mapM fun i =>
    (ins[i]?).bind fun p => (prods[i]?).bind fun s => (mats[i]?).bind fun m => (errors[i]?).bind fun e =>
    pairTable enc lpn.mssgLen m p.keys (xorPlain p s) e

/-- All parties' steps of `garble_inv`, `src/protocol/garble.rs:551-628`. -/
def garbleInv (ctx : Ctx F) (lpn : LpnParams) (enc : Mat F) (mats : List (List (List (List F)))) (tp : GateTapes F)
    (ins : List (OneIn F)) (randoms zeros errors : List (List F)) : Option (List (List (List F))) :=
  (ins.mapM fun p => if p.k0.length = p.k1.length then some (vsub p.k1 p.k0) else none).bind fun muls =>
  (mult ctx (lpn.keyLen + 1) tp.second
    (ins.map fun p => List.replicate (lpn.keyLen + 1) (p.mask + p.omask)) muls randoms zeros).bind fun prods =>
  (List.range ctx.n).mapM fun i =>
    (ins[i]?).bind fun p => (prods[i]?).bind fun s => (mats[i]?).bind fun m => (errors[i]?).bind fun e =>
    oneTable enc lpn.mssgLen m p.keys (invPlain p s) e

/-! ## `garble` -/

/-- What is left of the parties' inputs while the gates are handled, `src/protocol/garble.rs:229-345`. -/
structure GarbleState (F : Type) where
  rows : List (List (List F))
  randoms : List (List F)
  zeros : List (List F)
  errors : List (List F)

/-- Multiplications of a gate, `src/protocol/garble.rs:257-264`, `296-297`, `327-328`. -/
def GateKind.numMult (keyLen : Nat) : GateKind → Nat
  | .and => 3 * (keyLen + 1) + 1
  | .xor => keyLen + 1
  | .inv => keyLen + 1

/-- Rows of the table of a gate, `src/protocol/garble.rs:265`, `298`, `329`. -/
def GateKind.numRows : GateKind → Nat
  | .and => 4
  | .xor => 4
  | .inv => 2

/-- A party's inputs of a gate with two inputs, `src/protocol/garble.rs:241-255`, `280-294`. -/
def pairIn (keyLen : Nat) (rows : List (List F)) (omask : F) (ok : List F × List F) : Option (PairIn F) :=
  (rows[0]?).bind fun left => (rows[1]?).bind fun right =>
  (popMask left).bind fun l => (popMask right).bind fun r =>
  (pairKeys keyLen l.1 r.1).map fun keys => ⟨l.2, r.2, keys, omask, ok.1, ok.2⟩

/-- A party's inputs of an `INV` gate, `src/protocol/garble.rs:319-326`. -/
def oneIn (keyLen : Nat) (rows : List (List F)) (omask : F) (ok : List F × List F) : Option (OneIn F) :=
  (rows[0]?).bind fun row => (popMask row).bind fun l =>
  (toRows 2 keyLen l.1).map fun keys => ⟨l.2, keys, omask, ok.1, ok.2⟩

/-- The call for one gate, `src/protocol/garble.rs:240-344`, given what has been drained for it. -/
def gateTables (ctx : Ctx F) (lpn : LpnParams) (enc : Mat F) (kind : GateKind) (tp : GateTapes F)
    (mats : List (List (List (List F)))) (rows : List (List (List F))) (omasks : List F) (oks : List (List F × List F))
    (randoms zeros errors : List (List F)) : Option (List (List (List F))) :=
  match kind with
  | .and =>
    ((List.range ctx.n).mapM fun i => (rows[i]?).bind fun r => (omasks[i]?).bind fun m => (oks[i]?).bind fun ok =>
      pairIn lpn.keyLen r m ok).bind fun ins => garbleAnd ctx lpn enc mats tp ins randoms zeros errors
  | .xor =>
    ((List.range ctx.n).mapM fun i => (rows[i]?).bind fun r => (omasks[i]?).bind fun m => (oks[i]?).bind fun ok =>
      pairIn lpn.keyLen r m ok).bind fun ins => garbleXor ctx lpn enc mats tp ins randoms zeros errors
  | .inv =>
    ((List.range ctx.n).mapM fun i => (rows[i]?).bind fun r => (omasks[i]?).bind fun m => (oks[i]?).bind fun ok =>
      oneIn lpn.keyLen r m ok).bind fun ins => garbleInv ctx lpn enc mats tp ins randoms zeros errors

/-- The part of the loop over the gates which handles one gate, `src/protocol/garble.rs:231-344`: the parties'
tables and what is left of their inputs. -/
def gateStep (ctx : Ctx F) (g : GarbleCtx F) (pre : List (PreProc F)) (gid : Nat) (kind : GateKind)
    (tp : GateTapes F) (s : GarbleState F) : Option (List (List (List F)) × GarbleState F) :=
  (pre.mapM fun p => p.masks[g.circ.inputs.length + gid]?).bind fun omasks =>
  ((List.range ctx.n).mapM fun i => (pre[i]?).bind fun p => (omasks[i]?).bind fun m =>
    outKeys p.keys m (g.circ.inputs.length + gid)).bind fun oks =>
  (drainAll kind.arity s.rows).bind fun (rows, restRows) =>
  (drainAll (kind.numMult g.lpn.keyLen) s.randoms).bind fun (randoms, restRandoms) =>
  (drainAll (kind.numMult g.lpn.keyLen) s.zeros).bind fun (zeros, restZeros) =>
  (drainAll (kind.numRows * g.lpn.mssgLen) s.errors).bind fun (errors, restErrors) =>
  (g.gidLookup[gid]?).bind fun idx =>
  (g.mats.mapM fun m => m[idx]?).bind fun mats =>
  (gateTables ctx g.lpn g.enc kind tp mats rows omasks oks randoms zeros errors).map fun tables =>
  (tables, ⟨restRows, restRandoms, restZeros, restErrors⟩)

/-- The loop over the gates, `src/protocol/garble.rs:229-350`. -/
def gateLoop (ctx : Ctx F) (g : GarbleCtx F) (pre : List (PreProc F)) :
    Nat → List (GateKind × GateTapes F) → GarbleState F → Option (List (List (List (List F))) × GarbleState F)
  | _, [], s => some ([], s)
  | gid, (kind, tp) :: gs, s =>
    (gateStep ctx g pre gid kind tp s).bind fun (tables, s) =>
    (gateLoop ctx g pre (gid + 1) gs s).map fun (more, s) => (tables :: more, s)

/-- Everything random in a run of `garble`. -/
structure GarbleTapes (F : Type) where
  out : List (List (List F))
  inp : List (List (List F))
  gates : List (GateTapes F)

/-- `run_rtrans`, `src/protocol/garble.rs:153-171`: what is drained, and the result of `gen_rand_shares`. -/
def runRtrans (ctx : Ctx F) (tfs : List (SharingTransform F)) (reps : Nat) (randoms zeros : List (List F)) :
    Option (List (List (List F) × List (List F)) × List (List F) × List (List F)) :=
  (numBatches tfs.length ctx.l).bind fun num =>
  (drainAll (num * reps * (ctx.n + ctx.t)) randoms).bind fun (r, randoms) =>
  (drainAll (num * reps * 2 * ctx.n) zeros).bind fun (z, zeros) =>
  (genRandShares ctx tfs reps r z).map fun out => (out, randoms, zeros)

/-- The array which is transformed first, `src/protocol/garble.rs:181-186`: the keys, re-shaped to
`(num_blocks, 2 * lpn_key_len)`, with the masks as last column. -/
def outInput (numBlocks keyLen : Nat) (p : PreProc F) : Option (List (List F)) :=
  (toRows numBlocks (2 * keyLen) p.keys.flat).bind fun rows =>
  if p.masks.length = numBlocks then some (List.zipWith (fun r m => r ++ [m]) rows p.masks) else none

/-- `out_shares` and `inp_shares`, `src/protocol/garble.rs:173-227`, of all parties, and the material left. -/
def garbleInputs (ctx : Ctx F) (g : GarbleCtx F) (tp : GarbleTapes F) (pre : List (PreProc F)) :
    Option (List (List (List F)) × List (List (List F)) × List (List F) × List (List F)) :=
  (runRtrans ctx g.tfOut (2 * g.lpn.keyLen + 1) (pre.map (·.randoms)) (pre.map (·.zeros))).bind
    fun (ro, randoms, zeros) =>
  (runRtrans ctx g.tfInp (2 * g.lpn.keyLen + 1) randoms zeros).bind fun (ri, randoms, zeros) =>
  (pre.mapM (outInput g.circ.blocks.length g.lpn.keyLen)).bind fun inp =>
  (transform ctx g.tfOut (2 * g.lpn.keyLen + 1) tp.out inp (ro.map (·.1)) (ro.map (·.2))).bind fun outShares =>
  ((List.range ctx.n).mapM fun id => (outShares[id]?).bind fun sh =>
    selectAll ctx.n ctx.l id (2 * g.lpn.keyLen + 1) g sh).bind fun selected =>
  (transform ctx g.tfInp (2 * g.lpn.keyLen + 1) tp.inp selected (ri.map (·.1)) (ri.map (·.2))).map fun inpShares =>
    (outShares, inpShares, randoms, zeros)

/-- All parties' steps of `garble`, `src/protocol/garble.rs:132-353`: for every gate the parties' tables, and what is
left of the material. -/
def garble (ctx : Ctx F) (g : GarbleCtx F) (tp : GarbleTapes F) (pre : List (PreProc F)) :
    Option (List (List (List (List F))) × GarbleState F) :=
  (garbleInputs ctx g tp pre).bind fun (_, inpShares, randoms, zeros) =>
  if tp.gates.length = g.circ.gates.length then
    gateLoop ctx g pre 0 ((g.circ.gates.map PackedGate.kind).zip tp.gates) ⟨inpShares, randoms, zeros, pre.map (·.errors)⟩
  else none

end protocols

end Verif
