import Verif.CountLemmas

/-! # Counting multiplications: `garble` -/

open Verif.CodeField (ofU32)

namespace Verif

section
variable {F : Type} [CodeField F] [DecidableEq F]

theorem range_elim_sum {α : Type} (l : List α) (f : α → Nat) :
    ((List.range l.length).map fun i => (l[i]?).elim 0 f).sum = (l.map f).sum := by
  congr 1
  apply List.ext_getElem?
  intro i
  by_cases hi : i < l.length
  · simp [hi]
  · simp [hi]

theorem costs_genRandLoop {ctx : Ctx F} (h : ctx.Good) (reps rem : Nat) (gs : List (List (SharingTransform F))) (randoms zeros : List (List F)) :
    Costs (genRandLoopC ctx reps rem gs randoms zeros) (genRandLoop ctx reps rem gs randoms zeros)
      (gs.length * (reps * rtCost ctx.n ctx.t ctx.l)) := by
  induction gs generalizing rem randoms zeros with
  | nil => exact (costs_ret _).of_eq (by simp)
  | cons g gs ih =>
    unfold genRandLoopC genRandLoop
    refine costs_cnt_bind fun a ha => costs_cnt_bind fun b _ => ?_
    refine (costs_bind (costs_randtrans h reps g _ _ (drainAll_lengths (b := a.2) ha).2.2) fun outs _ =>
      costs_bind (ih _ _ _) fun more _ => costs_ite (fun _ => costs_ret _) fun _ => costs_fail 0).of_eq ?_
    rw [List.length_cons]
    ring

theorem costs_genRandShares {ctx : Ctx F} (h : ctx.Good) (tfs : List (SharingTransform F)) (reps : Nat) (randoms zeros : List (List F)) :
    Costs (genRandSharesC ctx tfs reps randoms zeros) (genRandShares ctx tfs reps randoms zeros)
      (reps * ((tfs.length + ctx.l - 1) / ctx.l * rtCost ctx.n ctx.t ctx.l)) := by
  unfold genRandSharesC genRandShares
  refine costs_cnt_bind fun gs hg => (costs_genRandLoop h reps _ gs _ _).of_eq ?_
  have hl : ctx.l ≠ 0 := by have := h.posL; omega
  unfold chunks? at hg
  rw [if_neg hl, Option.some.injEq] at hg
  rw [← hg, chunks_length _ _ hl]
  ring

theorem costs_runRtrans {ctx : Ctx F} (h : ctx.Good) (tfs : List (SharingTransform F)) (reps : Nat) (randoms zeros : List (List F)) :
    Costs (runRtransC ctx tfs reps randoms zeros) (runRtrans ctx tfs reps randoms zeros)
      (reps * ((tfs.length + ctx.l - 1) / ctx.l * rtCost ctx.n ctx.t ctx.l)) := by
  unfold runRtransC runRtrans
  exact costs_cnt_bind fun num _ => costs_cnt_bind fun a _ => costs_cnt_bind fun b _ => costs_map _ (costs_genRandShares h tfs reps _ _)

theorem costs_transform (ctx : Ctx F) (tfs : List (SharingTransform F)) (reps : Nat) (tapes inp rand randN : List (List (List F)))
    (hi : ∀ a ∈ inp, ∀ r ∈ a, r.length = reps) :
    Costs (transformC ctx tfs reps tapes inp rand randN) (transform ctx tfs reps tapes inp rand randN)
      (reps * (tfs.map fun tr => transCost ctx.n ctx.t ctx.l tr.oldPos.length tr.newPos.length).sum) := by
  unfold transformC transform
  refine (costs_bind (costs_mapM (k := fun i => (tfs[i]?).elim 0 fun tr =>
    reps * transCost ctx.n ctx.t ctx.l tr.oldPos.length tr.newPos.length) fun i _ => ?_) fun outs _ => costs_cnt _).of_eq ?_
  · refine costs_cnt_bind fun tr htr => costs_cnt_bind fun tp _ => ?_
    rw [htr]
    unfold transformOneC transformOne
    refine costs_ite (fun _ => costs_fail _) fun _ => ?_
    refine costs_cnt_bind fun vxs hv => costs_cnt_bind fun rs _ => costs_cnt_bind fun rns _ => costs_cnt_bind fun v hv' => ?_
    refine (costs_trans ctx tr v.length tp vxs rs rns).of_eq ?_
    obtain ⟨hq, hv'⟩ := List.getElem?_eq_some_iff.1 hv'
    have hq' : i % ctx.n < inp.length := by rw [mapM_length hv] at hq; exact hq
    have h1 := mapM_getElem hv (i % ctx.n) hq' hq
    rw [hv'] at h1
    rw [hi _ (List.getElem_mem hq') v (List.mem_of_getElem? h1)]
    rfl
  · rw [range_elim_sum, Nat.add_zero, ← List.sum_map_mul_left]

omit [DecidableEq F] in
theorem transform_width {ctx : Ctx F} [DecidableEq F] {tfs : List (SharingTransform F)} {reps : Nat} {tapes inp rand randN outs : List (List (List F))}
    (h : transform ctx tfs reps tapes inp rand randN = some outs) : ∀ a ∈ outs, ∀ r ∈ a, r.length = reps := by
  unfold transform at h
  obtain ⟨os, _, h⟩ := Option.bind_eq_some_iff.1 h
  intro a ha
  obtain ⟨i, hi, rfl⟩ := List.mem_iff_getElem.1 ha
  have h1 := mapM_getElem h i (by rw [mapM_length h] at hi; exact hi) hi
  obtain ⟨rows, _, h1⟩ := Option.bind_eq_some_iff.1 h1
  exact toRows_width h1

theorem costs_selectInput (n l id cols : Nat) (lookup : Nat → Option Nat) (shares : List (List F)) (hs : ∀ r ∈ shares, r.length = cols)
    (wires : List Nat) :
    Costs (selectInputC n l id cols lookup shares wires) (selectInput n l id cols lookup shares wires) (cols * (sortDedup wires).length) := by
  unfold selectInputC selectInput
  refine costs_cnt_bind fun indices _ => costs_cnt_bind fun selected hsel => costs_cnt_bind fun me _ => ?_
  refine (costs_bind (costs_mulRows (lagrangeCoeffs_wf _ _) cols selected fun r hr => ?_) fun r _ => costs_cnt _).of_eq ?_
  · obtain ⟨i, hi, rfl⟩ := List.mem_iff_getElem.1 hr
    have h1 := mapM_getElem hsel i (by rw [mapM_length hsel] at hi; exact hi) hi
    rw [hs _ (List.mem_of_getElem? h1)]
  · simp [lagrangeCoeffs, wireToPos]

theorem costs_selectAll (n l id cols : Nat) (g : GarbleCtx F) (shares : List (List F)) (hs : ∀ r ∈ shares, r.length = cols) :
    Costs (selectAllC n l id cols g shares) (selectAll n l id cols g shares)
      (cols * ((g.circ.gates.flatMap PackedGate.inps).map fun ws => (sortDedup ws).length).sum) := by
  unfold selectAllC selectAll
  refine (costs_bind (costs_mapM fun ws _ => costs_selectInput n l id cols g.lookup shares hs ws) fun sel _ =>
    costs_ite (fun _ => costs_fail 0) fun _ => costs_cnt _).of_eq ?_
  rw [Nat.add_zero, List.sum_map_mul_left]

theorem costs_garbleInputs {ctx : Ctx F} (h : ctx.Good) (g : GarbleCtx F) (tp : GarbleTapes F) (pre : List (PreProc F)) :
    Costs (garbleInputsC ctx g tp pre) (garbleInputs ctx g tp pre)
      ((2 * g.lpn.keyLen + 1) * (((g.tfOut.length + ctx.l - 1) / ctx.l + (g.tfInp.length + ctx.l - 1) / ctx.l) * rtCost ctx.n ctx.t ctx.l
        + (g.tfOut.map fun tr => transCost ctx.n ctx.t ctx.l tr.oldPos.length tr.newPos.length).sum
        + (g.tfInp.map fun tr => transCost ctx.n ctx.t ctx.l tr.oldPos.length tr.newPos.length).sum
        + ctx.n * ((g.circ.gates.flatMap PackedGate.inps).map fun ws => (sortDedup ws).length).sum)) := by
  unfold garbleInputsC garbleInputs
  refine (costs_bind (costs_runRtrans h _ _ _ _) fun a _ => costs_bind (costs_runRtrans h _ _ _ _) fun b _ => costs_cnt_bind fun inp hinp =>
    costs_bind (costs_transform ctx _ _ _ _ _ _ fun x hx => ?_) fun outs houts => costs_bind (costs_mapM_range fun id _ =>
      costs_cnt_bind fun sh hsh => costs_selectAll _ _ _ _ _ _ ?_) fun sel hsel => costs_map _ (costs_transform ctx _ _ _ _ _ _ fun x hx => ?_)).of_eq ?_
  · obtain ⟨i, hi, rfl⟩ := List.mem_iff_getElem.1 hx
    exact outInput_width (mapM_getElem hinp i (by rw [mapM_length hinp] at hi; exact hi) hi)
  · exact transform_width houts sh (List.mem_of_getElem? hsh)
  · obtain ⟨i, hi, rfl⟩ := List.mem_iff_getElem.1 hx
    have h1 := mapM_getElem hsel i (by rw [mapM_length hsel] at hi; exact hi) hi
    obtain ⟨sh, _, h1⟩ := Option.bind_eq_some_iff.1 h1
    exact selectAll_width h1
  · ring

/-! ### Gates -/

omit [DecidableEq F] in
theorem costs_encryptRow {k m : Nat} {mat : List (List F)} (hm : mat.length = m) (hk : ∀ r ∈ mat, r.length = k) (key mssg err : List F)
    (hkey : key.length = k) : Costs (encryptRowC mat key mssg err) (some (encryptRow mat key mssg err)) (m * k) := by
  unfold encryptRowC encryptRow
  have := costs_map (fun x => vadd (vadd x mssg) err) (costs_mapM_pure (f := fun a => dotC a key) (g := fun a => dot a key) (k := k) (l := mat) fun a ha =>
    (costs_dot a key).of_eq (by rw [hk a ha, hkey, min_self]))
  rw [hm] at this
  exact this

omit [DecidableEq F] in
theorem option_bind_some {α β : Type} (o : Option α) (f : α → β) : (o.bind fun a => some (f a)) = o.map f := by
  cases o <;> rfl

/-- The matrix of a nonce has the right shape. -/
def MatShape (k m : Nat) (mat : List (List (List F))) : Prop := ∀ x ∈ mat, x.length = m ∧ ∀ r ∈ x, r.length = k

omit [DecidableEq F] in
theorem costs_encodePlain {enc : Mat F} (he : enc.WF) (plain : List (List F)) :
    Costs (encodePlainC enc plain) (encodePlain enc plain) (plain.length * (enc.rows.length * enc.ncols)) := by
  unfold encodePlainC encodePlain
  exact costs_mapM_const fun r _ => costs_mulVec he r

omit [DecidableEq F] in
theorem costs_pairTable {k m : Nat} {enc : Mat F} (he : enc.WF) (h1 : enc.rows.length = m) (h2 : enc.ncols = k + 1) {mat : List (List (List F))}
    (hm : MatShape k m mat) {keys plain : List (List F)} (hk : ∀ r ∈ keys, r.length = k) (hp : plain.length = 4) (errors : List F) :
    Costs (pairTableC enc m mat keys plain errors) (pairTable enc m mat keys plain errors) (4 * rowCost k m) := by
  unfold pairTableC pairTable
  refine (costs_bind (costs_encodePlain he plain) fun mssgs _ => costs_cnt_bind fun errs _ => costs_mapM_range (k := m * k) fun r _ =>
    costs_cnt_bind fun x hx => costs_cnt_bind fun kl hl => costs_cnt_bind fun kr hr => costs_cnt_bind fun ms _ => ?_).of_eq ?_
  · rw [← option_bind_some]
    refine costs_cnt_bind fun e _ => costs_encryptRow (hm x (List.mem_of_getElem? hx)).1 (hm x (List.mem_of_getElem? hx)).2 _ _ _ ?_
    simp [vadd, hk kl (List.mem_of_getElem? hl), hk kr (List.mem_of_getElem? hr)]
  · rw [h1, h2, hp]
    unfold rowCost
    ring

omit [DecidableEq F] in
theorem costs_oneTable {k m : Nat} {enc : Mat F} (he : enc.WF) (h1 : enc.rows.length = m) (h2 : enc.ncols = k + 1) {mat : List (List (List F))}
    (hm : MatShape k m mat) {keys plain : List (List F)} (hk : ∀ r ∈ keys, r.length = k) (hp : plain.length = 2) (errors : List F) :
    Costs (oneTableC enc m mat keys plain errors) (oneTable enc m mat keys plain errors) (2 * rowCost k m) := by
  unfold oneTableC oneTable
  refine (costs_bind (costs_encodePlain he plain) fun mssgs _ => costs_cnt_bind fun errs _ => costs_mapM_range (k := m * k) fun r _ =>
    costs_cnt_bind fun x hx => costs_cnt_bind fun kl hl => costs_cnt_bind fun ms _ => ?_).of_eq ?_
  · rw [← option_bind_some]
    exact costs_cnt_bind fun e _ => costs_encryptRow (hm x (List.mem_of_getElem? hx)).1 (hm x (List.mem_of_getElem? hx)).2 _ _ _
      (hk kl (List.mem_of_getElem? hl))
  · rw [h1, h2, hp]
    unfold rowCost
    ring

omit [DecidableEq F] in
theorem andPlain_length {k : Nat} {p : PairIn F} {s : List F} {plain : List (List F)} (h : andPlain k p s = some plain) : plain.length = 4 := by
  unfold andPlain at h
  obtain ⟨rows, _, h⟩ := Option.bind_eq_some_iff.1 h
  split at h
  · rw [Option.some.injEq] at h
    rw [← h]
    rfl
  · cases h

/-- The parties' keys of a gate have the right length. -/
def KeyShape (k : Nat) (keys : List (List F)) : Prop := ∀ r ∈ keys, r.length = k

theorem costs_garbleAnd {ctx : Ctx F} (h : ctx.Good) (lpn : LpnParams) {enc : Mat F} (he : enc.WF) (h1 : enc.rows.length = lpn.mssgLen)
    (h2 : enc.ncols = lpn.keyLen + 1) {mats : List (List (List (List F)))} (hm : ∀ x ∈ mats, MatShape lpn.keyLen lpn.mssgLen x) (tp : GateTapes F)
    (ins : List (PairIn F)) (hk : ∀ p ∈ ins, KeyShape lpn.keyLen p.keys) (randoms zeros errors : List (List F)) :
    Costs (garbleAndC ctx lpn enc mats tp ins randoms zeros errors) (garbleAnd ctx lpn enc mats tp ins randoms zeros errors)
      (gateCost ctx.n ctx.t ctx.l lpn.keyLen lpn.mssgLen .and) := by
  unfold garbleAndC garbleAnd
  refine costs_cnt_bind fun rs _ => costs_cnt_bind fun zs _ => ?_
  refine (costs_bind (costs_mult h 1 _ _ _ _ _ fun v hv => ?_) fun prods _ => costs_cnt_bind fun sels hs => costs_cnt_bind fun muls _ =>
    costs_bind (costs_mult h (3 * (lpn.keyLen + 1)) _ _ _ _ _ fun v hv => ?_) fun selected _ => costs_mapM_range fun i _ =>
    costs_cnt_bind fun p hp => costs_cnt_bind fun s _ => costs_cnt_bind fun m hmm => costs_cnt_bind fun e _ => costs_cnt_bind fun plain hpl =>
    costs_pairTable he h1 h2 (hm m (List.mem_of_getElem? hmm)) (hk p (List.mem_of_getElem? hp)) (andPlain_length hpl) e).of_eq ?_
  · obtain ⟨p, _, rfl⟩ := List.mem_map.1 hv
    rfl
  · obtain ⟨i, hi, rfl⟩ := List.mem_iff_getElem.1 hv
    have h3 := mapM_getElem hs i (by rw [mapM_length hs] at hi; exact hi) hi
    obtain ⟨p, _, h3⟩ := Option.bind_eq_some_iff.1 h3
    obtain ⟨q, _, h3⟩ := Option.bind_eq_some_iff.1 h3
    obtain ⟨x, _, h3⟩ := Option.map_eq_some_iff.1 h3
    rw [← h3]
    unfold andSelector
    simp only [List.length_append, List.length_replicate]
    omega
  · unfold gateCost GateKind.numMult GateKind.numRows
    ring

theorem costs_garbleXor {ctx : Ctx F} (h : ctx.Good) (lpn : LpnParams) {enc : Mat F} (he : enc.WF) (h1 : enc.rows.length = lpn.mssgLen)
    (h2 : enc.ncols = lpn.keyLen + 1) {mats : List (List (List (List F)))} (hm : ∀ x ∈ mats, MatShape lpn.keyLen lpn.mssgLen x) (tp : GateTapes F)
    (ins : List (PairIn F)) (hk : ∀ p ∈ ins, KeyShape lpn.keyLen p.keys) (randoms zeros errors : List (List F)) :
    Costs (garbleXorC ctx lpn enc mats tp ins randoms zeros errors) (garbleXor ctx lpn enc mats tp ins randoms zeros errors)
      (gateCost ctx.n ctx.t ctx.l lpn.keyLen lpn.mssgLen .xor) := by
  unfold garbleXorC garbleXor
  refine costs_cnt_bind fun muls _ => ?_
  refine (costs_bind (costs_mult h (lpn.keyLen + 1) _ _ _ _ _ fun v hv => ?_) fun prods _ => costs_mapM_range fun i _ =>
    costs_cnt_bind fun p hp => costs_cnt_bind fun s _ => costs_cnt_bind fun m hmm => costs_cnt_bind fun e _ =>
    costs_pairTable he h1 h2 (hm m (List.mem_of_getElem? hmm)) (hk p (List.mem_of_getElem? hp)) rfl e).of_eq ?_
  · obtain ⟨p, _, rfl⟩ := List.mem_map.1 hv
    exact List.length_replicate
  · unfold gateCost GateKind.numMult GateKind.numRows
    ring

theorem costs_garbleInv {ctx : Ctx F} (h : ctx.Good) (lpn : LpnParams) {enc : Mat F} (he : enc.WF) (h1 : enc.rows.length = lpn.mssgLen)
    (h2 : enc.ncols = lpn.keyLen + 1) {mats : List (List (List (List F)))} (hm : ∀ x ∈ mats, MatShape lpn.keyLen lpn.mssgLen x) (tp : GateTapes F)
    (ins : List (OneIn F)) (hk : ∀ p ∈ ins, KeyShape lpn.keyLen p.keys) (randoms zeros errors : List (List F)) :
    Costs (garbleInvC ctx lpn enc mats tp ins randoms zeros errors) (garbleInv ctx lpn enc mats tp ins randoms zeros errors)
      (gateCost ctx.n ctx.t ctx.l lpn.keyLen lpn.mssgLen .inv) := by
  unfold garbleInvC garbleInv
  refine costs_cnt_bind fun muls _ => ?_
  refine (costs_bind (costs_mult h (lpn.keyLen + 1) _ _ _ _ _ fun v hv => ?_) fun prods _ => costs_mapM_range fun i _ =>
    costs_cnt_bind fun p hp => costs_cnt_bind fun s _ => costs_cnt_bind fun m hmm => costs_cnt_bind fun e _ =>
    costs_oneTable he h1 h2 (hm m (List.mem_of_getElem? hmm)) (hk p (List.mem_of_getElem? hp)) rfl e).of_eq ?_
  · obtain ⟨p, _, rfl⟩ := List.mem_map.1 hv
    exact List.length_replicate
  · unfold gateCost GateKind.numMult GateKind.numRows
    ring

omit [DecidableEq F] in
theorem pairIn_keys {k : Nat} {rows : List (List F)} {o : F} {ok : List F × List F} {p : PairIn F} (h : pairIn k rows o ok = some p) :
    KeyShape k p.keys := by
  unfold pairIn at h
  obtain ⟨l, _, h⟩ := Option.bind_eq_some_iff.1 h
  obtain ⟨r, _, h⟩ := Option.bind_eq_some_iff.1 h
  obtain ⟨pl, _, h⟩ := Option.bind_eq_some_iff.1 h
  obtain ⟨pr, _, h⟩ := Option.bind_eq_some_iff.1 h
  obtain ⟨keys, hk, rfl⟩ := Option.map_eq_some_iff.1 h
  unfold pairKeys at hk
  split at hk
  · exact toRows_width hk
  · cases hk

omit [DecidableEq F] in
theorem oneIn_keys {k : Nat} {rows : List (List F)} {o : F} {ok : List F × List F} {p : OneIn F} (h : oneIn k rows o ok = some p) :
    KeyShape k p.keys := by
  unfold oneIn at h
  obtain ⟨l, _, h⟩ := Option.bind_eq_some_iff.1 h
  obtain ⟨pl, _, h⟩ := Option.bind_eq_some_iff.1 h
  obtain ⟨keys, hk, rfl⟩ := Option.map_eq_some_iff.1 h
  exact toRows_width hk

theorem costs_gateTables {ctx : Ctx F} (h : ctx.Good) (lpn : LpnParams) {enc : Mat F} (he : enc.WF) (h1 : enc.rows.length = lpn.mssgLen)
    (h2 : enc.ncols = lpn.keyLen + 1) {mats : List (List (List (List F)))} (hm : ∀ x ∈ mats, MatShape lpn.keyLen lpn.mssgLen x)
    (kind : GateKind) (tp : GateTapes F) (rows : List (List (List F))) (omasks : List F) (oks : List (List F × List F))
    (randoms zeros errors : List (List F)) :
    Costs (gateTablesC ctx lpn enc kind tp mats rows omasks oks randoms zeros errors)
      (gateTables ctx lpn enc kind tp mats rows omasks oks randoms zeros errors) (gateCost ctx.n ctx.t ctx.l lpn.keyLen lpn.mssgLen kind) := by
  have key : ∀ {α : Type} {f : Nat → Option α} {P : α → Prop} {ins : List α}, (List.range ctx.n).mapM f = some ins →
      (∀ i a, f i = some a → P a) → ∀ a ∈ ins, P a := by
    intro α f P ins hin hf a ha
    obtain ⟨i, hi, rfl⟩ := List.mem_iff_getElem.1 ha
    exact hf _ _ (mapM_getElem hin i (by rw [mapM_length hin] at hi; exact hi) hi)
  cases kind with
  | and =>
    refine costs_cnt_bind fun ins hin => costs_garbleAnd h lpn he h1 h2 hm tp ins (key hin fun i a ha => ?_) _ _ _
    obtain ⟨_, _, ha⟩ := Option.bind_eq_some_iff.1 ha
    obtain ⟨_, _, ha⟩ := Option.bind_eq_some_iff.1 ha
    obtain ⟨_, _, ha⟩ := Option.bind_eq_some_iff.1 ha
    exact pairIn_keys ha
  | xor =>
    refine costs_cnt_bind fun ins hin => costs_garbleXor h lpn he h1 h2 hm tp ins (key hin fun i a ha => ?_) _ _ _
    obtain ⟨_, _, ha⟩ := Option.bind_eq_some_iff.1 ha
    obtain ⟨_, _, ha⟩ := Option.bind_eq_some_iff.1 ha
    obtain ⟨_, _, ha⟩ := Option.bind_eq_some_iff.1 ha
    exact pairIn_keys ha
  | inv =>
    refine costs_cnt_bind fun ins hin => costs_garbleInv h lpn he h1 h2 hm tp ins (key hin fun i a ha => ?_) _ _ _
    obtain ⟨_, _, ha⟩ := Option.bind_eq_some_iff.1 ha
    obtain ⟨_, _, ha⟩ := Option.bind_eq_some_iff.1 ha
    obtain ⟨_, _, ha⟩ := Option.bind_eq_some_iff.1 ha
    exact oneIn_keys ha

/-- What the counts use of a context. -/
structure CountCtx (ctx : Ctx F) (lpn : LpnParams) (c : PackedCircuit) (g : GarbleCtx F) : Prop where
  circ : g.circ = c
  params : g.lpn = lpn
  enc : g.enc.WF ∧ g.enc.rows.length = lpn.mssgLen ∧ g.enc.ncols = lpn.keyLen + 1
  mats : ∀ a ∈ g.mats, ∀ x ∈ a, MatShape lpn.keyLen lpn.mssgLen x
  out : g.tfOut.map (fun tr => (tr.oldPos.length, tr.newPos.length)) = c.blocks.map fun b => (b.length, b.length)
  inp : g.tfInp.map (fun tr => (tr.oldPos.length, tr.newPos.length)) =
    (c.gates.flatMap PackedGate.inps).map fun ws => ((sortDedup ws).length, ws.length)

theorem costs_gateLoop {ctx : Ctx F} (h : ctx.Good) {lpn : LpnParams} {c : PackedCircuit} {g : GarbleCtx F} (hg : CountCtx ctx lpn c g)
    (pre : List (PreProc F)) (gid : Nat) (ks : List (GateKind × GateTapes F)) (s : GarbleState F) :
    Costs (gateLoopC ctx g pre gid ks s) (gateLoop ctx g pre gid ks s)
      (ks.map fun x => gateCost ctx.n ctx.t ctx.l lpn.keyLen lpn.mssgLen x.1).sum := by
  induction ks generalizing gid s with
  | nil => exact (costs_ret _)
  | cons k ks ih =>
    obtain ⟨kind, tp⟩ := k
    unfold gateLoopC gateLoop
    rw [List.map_cons, List.sum_cons]
    refine costs_bind ?_ fun a _ => costs_map _ (ih _ _)
    unfold gateStepC gateStep
    refine costs_cnt_bind fun omasks _ => costs_cnt_bind fun oks _ => costs_cnt_bind fun r1 _ => costs_cnt_bind fun r2 _ =>
      costs_cnt_bind fun r3 _ => costs_cnt_bind fun r4 _ => costs_cnt_bind fun idx _ => costs_cnt_bind fun mats hm => costs_map _ ?_
    rw [hg.params]
    refine costs_gateTables h lpn hg.enc.1 hg.enc.2.1 hg.enc.2.2 (fun x hx => ?_) kind tp _ _ _ _ _ _
    obtain ⟨i, hi, rfl⟩ := List.mem_iff_getElem.1 hx
    have hi' : i < g.mats.length := by rw [mapM_length hm] at hi; exact hi
    have h1 := mapM_getElem hm i hi' hi
    exact hg.mats _ (List.getElem_mem hi') _ (List.mem_of_getElem? h1)

theorem costs_garble {ctx : Ctx F} (h : ctx.Good) {lpn : LpnParams} {c : PackedCircuit} {g : GarbleCtx F} (hg : CountCtx ctx lpn c g)
    (tp : GarbleTapes F) (pre : List (PreProc F)) :
    Costs (garbleC ctx g tp pre) (garble ctx g tp pre) (garbleCost ctx.n ctx.t ctx.l lpn.keyLen lpn.mssgLen c) := by
  unfold garbleC garble
  refine (costs_bind (costs_garbleInputs h g tp pre) fun a _ => costs_ite (fun hl => ((costs_gateLoop h hg pre 0 _ _).of_eq
    (k' := (c.gates.map fun x => gateCost ctx.n ctx.t ctx.l lpn.keyLen lpn.mssgLen x.kind).sum) ?_)) fun _ => costs_fail _).of_eq ?_
  · rw [hg.circ] at hl ⊢
    congr 1
    apply List.ext_getElem
    · simp [hl]
    · intro i h1 h2
      simp
  · have e1 : (g.tfOut.map fun tr => transCost ctx.n ctx.t ctx.l tr.oldPos.length tr.newPos.length)
        = c.blocks.map fun b => transCost ctx.n ctx.t ctx.l b.length b.length := by
      have := congrArg (List.map fun p : Nat × Nat => transCost ctx.n ctx.t ctx.l p.1 p.2) hg.out
      simpa only [List.map_map, Function.comp_def] using this
    have e2 : (g.tfInp.map fun tr => transCost ctx.n ctx.t ctx.l tr.oldPos.length tr.newPos.length)
        = (c.gates.flatMap PackedGate.inps).map fun ws => transCost ctx.n ctx.t ctx.l (sortDedup ws).length ws.length := by
      have := congrArg (List.map fun p : Nat × Nat => transCost ctx.n ctx.t ctx.l p.1 p.2) hg.inp
      simpa only [List.map_map, Function.comp_def] using this
    have e3 : g.tfOut.length = c.blocks.length := by simpa using congrArg List.length hg.out
    have e4 : g.tfInp.length = (c.gates.flatMap PackedGate.inps).length := by simpa using congrArg List.length hg.inp
    rw [e1, e2, e3, e4, hg.circ, hg.params]
    unfold garbleCost
    simp only
    rw [List.sum_map_add, List.sum_map_mul_left]
    ring

omit [DecidableEq F] in
theorem rsCols_length' (col : List F) (k : Nat) (cur : List F) : (rsCols col k cur).length = k + 1 := by
  induction k generalizing cur with
  | zero => rfl
  | succ k ih => simp [rsCols, ih]

omit [DecidableEq F] in
theorem rsGenMat_shape {a b : Nat} {m : Mat F} (h : rsGenMat a b = some m) : m.WF ∧ m.rows.length = b ∧ m.ncols = a := by
  unfold rsGenMat at h
  obtain ⟨cols, h1, rfl⟩ := Option.map_eq_some_iff.1 h
  unfold rsGenCols at h1
  split at h1
  · cases h1
  · next h0 =>
    split at h1
    · cases h1
    · rw [Option.some.injEq] at h1
      refine ⟨fun r hr => ?_, by simp, rfl⟩
      obtain ⟨i, _, rfl⟩ := List.mem_map.1 hr
      rw [← h1, List.length_map, rsCols_length']
      show a - 1 + 1 = a
      omega

theorem countCtx_of_new {hash : List Nat → List Nat} {rng : List Nat → Nat → F} {ctx : Ctx F} {lpn : LpnParams} {c : PackedCircuit}
    {g : GarbleCtx F} (h : GarbleCtx.new hash rng ctx lpn c = some g) : CountCtx ctx lpn c g := by
  unfold GarbleCtx.new at h
  obtain ⟨tout, n1, h⟩ := Option.bind_eq_some_iff.1 h
  obtain ⟨tinp, n2, h⟩ := Option.bind_eq_some_iff.1 h
  obtain ⟨enc, n3, h⟩ := Option.bind_eq_some_iff.1 h
  obtain ⟨nl, n4, h⟩ := Option.bind_eq_some_iff.1 h
  obtain ⟨mats, n5, h⟩ := Option.map_eq_some_iff.1 h
  subst h
  have dp : ∀ {k : Nat} {d : List F}, defPrefix ctx.n ctx.l k = some d → d.length = k := by
    intro k d hd
    unfold defPrefix at hd
    split at hd
    · rw [Option.some.injEq] at hd
      rw [← hd, List.length_take, defaultPos_length']
      omega
    · cases hd
  refine ⟨rfl, rfl, rsGenMat_shape n3, ?_, ?_, ?_⟩
  · intro a ha x hx y hy
    obtain ⟨i, hi, rfl⟩ := List.mem_iff_getElem.1 ha
    have h1 := mapM_getElem n5 i (by rw [mapM_length n5] at hi; exact hi) hi
    obtain ⟨j, hj, rfl⟩ := List.mem_iff_getElem.1 hx
    have h2 := mapM_getElem h1 j (by rw [mapM_length h1] at hj; exact hj) hj
    unfold lpnShare at h2
    obtain ⟨me, _, h2⟩ := Option.map_eq_some_iff.1 h2
    rw [← h2] at hy
    obtain ⟨r, _, rfl⟩ := List.mem_map.1 hy
    refine ⟨by simp, fun z hz => ?_⟩
    obtain ⟨q, _, rfl⟩ := List.mem_map.1 hz
    simp
  · apply List.ext_getElem
    · simp only [List.length_map]
      exact mapM_length n1
    · intro i h1 h2
      rw [List.length_map] at h1 h2
      have h3 := mapM_getElem n1 i h2 h1
      obtain ⟨d, hd, h3⟩ := Option.map_eq_some_iff.1 h3
      rw [List.getElem_map, List.getElem_map, ← h3]
      simp [dp hd, wireToPos]
  · apply List.ext_getElem
    · simp only [List.length_map]
      exact mapM_length n2
    · intro i h1 h2
      rw [List.length_map] at h1 h2
      have h3 := mapM_getElem n2 i h2 h1
      obtain ⟨f, _, h3⟩ := Option.bind_eq_some_iff.1 h3
      obtain ⟨d, hd, h3⟩ := Option.map_eq_some_iff.1 h3
      rw [List.getElem_map, List.getElem_map, ← h3]
      simp [dp hd, wireToPos]

end

end Verif
