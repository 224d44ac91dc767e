import Verif.GateLemmas

/-!
# Lemmas about `garble`: the loop over the gates
-/

open Polynomial

namespace Verif

open CodeField (ofU32)

variable {F : Type} [CodeField F] [DecidableEq F]

/-- The key of row `r`, from the input rows of the gate. -/
noncomputable def gateKey (kind : GateKind) (k : Nat) (I : Nat → Nat → F[X]) (r b : Nat) : F[X] :=
  match kind with
  | .and => I 0 (r / 2 * k + b) + I 1 (r % 2 * k + b)
  | .xor => I 0 (r / 2 * k + b) + I 1 (r % 2 * k + b)
  | .inv => I 0 (r * k + b)

omit [DecidableEq F] in
theorem pairIn_tab (k i : Nat) (I : Nat → Nat → F[X]) (om : F) (ok : List F × List F) :
    pairIn k ((List.range 2).map fun m => (List.range (2 * k + 1)).map fun c => (I m c).eval (ofU32 i)) om ok
      = some ⟨(I 0 (2 * k)).eval (ofU32 i), (I 1 (2 * k)).eval (ofU32 i),
        (List.range 4).map fun r => (List.range k).map fun b =>
          (if r < 2 then I 0 (r * k + b) else I 1 ((r - 2) * k + b)).eval (ofU32 i), om, ok.1, ok.2⟩ := by
  unfold pairIn
  rw [getElem?_tab _ _ _ (by omega), getElem?_tab _ _ _ (by omega)]
  simp only [Option.bind_some]
  rw [popMask_tab, popMask_tab]
  simp only [Option.bind_some]
  rw [pairKeys_tab, Option.map_some, Option.some.injEq, PairIn.mk.injEq]
  refine ⟨rfl, rfl, ?_, rfl, rfl, rfl⟩
  apply List.map_congr_left
  intro r _
  apply List.map_congr_left
  intro b _
  split_ifs <;> rfl

omit [DecidableEq F] in
theorem oneIn_tab (k i : Nat) (I : Nat → Nat → F[X]) (om : F) (ok : List F × List F) :
    oneIn k ((List.range 1).map fun m => (List.range (2 * k + 1)).map fun c => (I m c).eval (ofU32 i)) om ok
      = some ⟨(I 0 (2 * k)).eval (ofU32 i),
        (List.range 2).map fun r => (List.range k).map fun b => (I 0 (r * k + b)).eval (ofU32 i), om, ok.1, ok.2⟩ := by
  unfold oneIn
  rw [getElem?_tab _ _ _ (by omega)]
  simp only [Option.bind_some]
  rw [popMask_tab]
  simp only [Option.bind_some]
  rw [toRows_tab 2 k _ rfl, Option.map_some]

omit [DecidableEq F] in
theorem tabPoly_congr {k mssgLen : Nat} {enc : Mat F} {A : Nat → Nat → Nat → F[X]} {key key' P : Nat → Nat → F[X]}
    {E : Nat → F[X]} {r a : Nat} (h : ∀ b < k, key r b = key' r b) :
    tabPoly k mssgLen enc A key P E r a = tabPoly k mssgLen enc A key' P E r a := by
  unfold tabPoly
  congr 2
  apply Finset.sum_congr rfl
  intro b hb
  rw [h b (Finset.mem_range.1 hb)]

theorem gateTables_tab {ctx : Ctx F} (h : ctx.Good) (hd : 2 * (ctx.t + ctx.l - 1) < ctx.n) {lpn : LpnParams} {enc : Mat F}
    (he : rsGenMat (lpn.keyLen + 1) lpn.mssgLen = some enc) (hm : lpn.mssgLen < CodeField.order F)
    (A : Nat → Nat → Nat → F[X]) (kind : GateKind) (tp : GateTapes F) (ht : tp.Ok kind ctx.t lpn.keyLen)
    (I : Nat → Nat → F[X]) (om : F[X]) (k0 k1 G Z E : Nat → F[X])
    (hI : ∀ m < kind.arity, ∀ c < 2 * lpn.keyLen + 1, (I m c).degree < (ctx.t + ctx.l : Nat))
    (hom : om.degree < (ctx.t + ctx.l : Nat))
    (hk0 : ∀ j < lpn.keyLen + 1, (k0 j).degree < (ctx.t + ctx.l : Nat))
    (hk1 : ∀ j < lpn.keyLen + 1, (k1 j).degree < (ctx.t + ctx.l : Nat))
    (hG : ∀ j < kind.numMult lpn.keyLen, (G j).degree < (ctx.t + ctx.l : Nat))
    (hZ : ∀ j < kind.numMult lpn.keyLen, (Z j).degree < ctx.n)
    (hZ0 : ∀ j < kind.numMult lpn.keyLen, ∀ v ∈ defaultPos ctx.n ctx.l, (Z j).eval v = 0) :
    ∃ P, PlainOk ctx lpn.keyLen kind (I 0 (2 * lpn.keyLen)) (I 1 (2 * lpn.keyLen)) om k0 k1 P ∧
      gateTables ctx lpn enc kind tp
        ((List.range ctx.n).map fun i => (List.range 4).map fun r => (List.range lpn.mssgLen).map fun a =>
          (List.range lpn.keyLen).map fun b => (A r a b).eval (ofU32 i))
        (tab2 ctx.n kind.arity (2 * lpn.keyLen + 1) I)
        ((List.range ctx.n).map fun i => om.eval (ofU32 i))
        ((List.range ctx.n).map fun i => ((List.range (lpn.keyLen + 1)).map fun j => (k0 j).eval (ofU32 i),
          (List.range (lpn.keyLen + 1)).map fun j => (k1 j).eval (ofU32 i)))
        (tabShares ctx.n (kind.numMult lpn.keyLen) G) (tabShares ctx.n (kind.numMult lpn.keyLen) Z)
        (tabShares ctx.n (kind.numRows * lpn.mssgLen) E)
      = some (tab2 ctx.n kind.numRows lpn.mssgLen
        (tabPoly lpn.keyLen lpn.mssgLen enc A (gateKey kind lpn.keyLen I) P E)) := by
  have hkey : ∀ P : Nat → Nat → F[X], tab2 ctx.n 4 lpn.mssgLen (tabPoly lpn.keyLen lpn.mssgLen enc A (fun r b =>
        (if r / 2 < 2 then I 0 (r / 2 * lpn.keyLen + b) else I 1 ((r / 2 - 2) * lpn.keyLen + b))
          + if 2 + r % 2 < 2 then I 0 ((2 + r % 2) * lpn.keyLen + b) else I 1 ((2 + r % 2 - 2) * lpn.keyLen + b)) P E)
      = tab2 ctx.n 4 lpn.mssgLen (tabPoly lpn.keyLen lpn.mssgLen enc A (fun r b =>
        I 0 (r / 2 * lpn.keyLen + b) + I 1 (r % 2 * lpn.keyLen + b)) P E) := by
    intro P
    apply tab2_congr
    intro r hr a _
    apply tabPoly_congr
    intro b _
    rw [if_pos (by omega), if_neg (by omega), Nat.add_sub_cancel_left]
  cases kind with
  | and =>
    obtain ⟨P, p1, p2⟩ := garbleAnd_tab h hd he hm A tp (I 0 (2 * lpn.keyLen)) (I 1 (2 * lpn.keyLen)) om
      (fun r b => if r < 2 then I 0 (r * lpn.keyLen + b) else I 1 ((r - 2) * lpn.keyLen + b)) k0 k1 G Z E
      (hI 0 (by decide) _ (by omega)) (hI 1 (by decide) _ (by omega)) hom hk0 hk1 ht hG hZ hZ0
    refine ⟨P, p1, ?_⟩
    unfold gateTables
    simp only []
    rw [mapM_range_some _ _ _ (by
      intro i hi
      rw [tab2_at _ _ _ _ _ hi, getElem?_tab _ _ _ hi, getElem?_tab _ _ _ hi]
      simp only [Option.bind_some]
      exact pairIn_tab _ _ _ _ _)]
    simp only [Option.bind_some]
    refine Eq.trans p2 ?_
    rw [hkey]
    rfl
  | xor =>
    obtain ⟨P, p1, p2⟩ := garbleXor_tab h hd he hm A tp (I 0 (2 * lpn.keyLen)) (I 1 (2 * lpn.keyLen)) om
      (fun r b => if r < 2 then I 0 (r * lpn.keyLen + b) else I 1 ((r - 2) * lpn.keyLen + b)) k0 k1 G Z E
      (hI 0 (by decide) _ (by omega)) (hI 1 (by decide) _ (by omega)) hom hk0 hk1 ht hG hZ hZ0
    refine ⟨P, p1, ?_⟩
    unfold gateTables
    simp only []
    rw [mapM_range_some _ _ _ (by
      intro i hi
      rw [tab2_at _ _ _ _ _ hi, getElem?_tab _ _ _ hi, getElem?_tab _ _ _ hi]
      simp only [Option.bind_some]
      exact pairIn_tab _ _ _ _ _)]
    simp only [Option.bind_some]
    refine Eq.trans p2 ?_
    rw [hkey]
    rfl
  | inv =>
    obtain ⟨P, p1, p2⟩ := garbleInv_tab h hd he hm A tp (I 0 (2 * lpn.keyLen)) (I 1 (2 * lpn.keyLen)) om
      (fun r b => I 0 (r * lpn.keyLen + b)) k0 k1 G Z E
      (hI 0 (by decide) _ (by omega)) hom hk0 hk1 ht hG hZ hZ0
    refine ⟨P, p1, ?_⟩
    unfold gateTables
    simp only []
    rw [mapM_range_some _ _ _ (by
      intro i hi
      rw [tab2_at _ _ _ _ _ hi, getElem?_tab _ _ _ hi, getElem?_tab _ _ _ hi]
      simp only [Option.bind_some]
      exact oneIn_tab _ _ _ _ _)]
    simp only [Option.bind_some]
    exact p2

/-- Offsets into the input rows, the multiplication material and the errors. -/
def offBy (f : GateKind → Nat) (kinds : List GateKind) (q : Nat) : Nat := ((kinds.take q).map f).sum

theorem offBy_zero (f : GateKind → Nat) (kinds : List GateKind) : offBy f kinds 0 = 0 := by simp [offBy]

theorem offBy_succ (f : GateKind → Nat) (k : GateKind) (kinds : List GateKind) (q : Nat) :
    offBy f (k :: kinds) (q + 1) = f k + offBy f kinds q := by simp [offBy]

omit [CodeField F] [DecidableEq F] in
theorem map_of_rows {α : Type} {pre : List (PreProc F)} {n : Nat} (hpl : pre.length = n) (f : PreProc F → List α)
    (g : Nat → List α) (h : pre.map f = (List.range n).map g) (i : Nat) (hi : i < n) :
    ∃ p, pre[i]? = some p ∧ f p = g i := by
  have hi' : i < pre.length := by omega
  refine ⟨pre[i], List.getElem?_eq_getElem hi', ?_⟩
  have := congrArg (fun x => x[i]?) h
  rw [getElem?_tab _ _ _ hi, List.getElem?_map, List.getElem?_eq_getElem hi', Option.map_some, Option.some.injEq] at this
  exact this

theorem gateStep_tab {hash : List Nat → List Nat} {rng : List Nat → Nat → F} {ctx : Ctx F} (h : ctx.Good)
    (hd : 2 * (ctx.t + ctx.l - 1) < ctx.n) {lpn : LpnParams} {c : PackedCircuit} {g : GarbleCtx F}
    {A : Nat → Nat → Nat → Nat → F[X]} (hg : CtxSpec hash rng ctx lpn c g A) (hm : lpn.mssgLen < CodeField.order F)
    (pre : List (PreProc F)) (K M : Nat → F[X]) (hpl : pre.length = ctx.n)
    (hps : ∀ p ∈ pre, p.keys.shape = (2, lpn.keyLen, c.blocks.length))
    (hpk : pre.map (·.keys.flat) = tabShares ctx.n (2 * lpn.keyLen * c.blocks.length) K)
    (hpm : pre.map (·.masks) = tabShares ctx.n c.blocks.length M)
    (hK : ∀ m < 2 * lpn.keyLen * c.blocks.length, (K m).degree < (ctx.t + ctx.l : Nat))
    (hM : ∀ m < c.blocks.length, (M m).degree < (ctx.t + ctx.l : Nat))
    (gid : Nat) (hgid : gid < c.gates.length) (kind : GateKind) (tp : GateTapes F) (ht : tp.Ok kind ctx.t lpn.keyLen)
    (N Nr Nz Ne : Nat) (I : Nat → Nat → F[X]) (G Z E : Nat → F[X])
    (hI : ∀ m < N, ∀ e < 2 * lpn.keyLen + 1, (I m e).degree < (ctx.t + ctx.l : Nat))
    (hG : ∀ m < Nr, (G m).degree < (ctx.t + ctx.l : Nat)) (hZ : ∀ m < Nz, (Z m).degree < ctx.n)
    (hZ0 : ∀ m < Nz, ∀ v ∈ defaultPos ctx.n ctx.l, (Z m).eval v = 0)
    (hN : kind.arity ≤ N) (hNr : kind.numMult lpn.keyLen ≤ Nr) (hNz : kind.numMult lpn.keyLen ≤ Nz)
    (hNe : kind.numRows * lpn.mssgLen ≤ Ne) :
    ∃ P, PlainOk ctx lpn.keyLen kind (I 0 (2 * lpn.keyLen)) (I 1 (2 * lpn.keyLen)) (M (c.inputs.length + gid))
        (outKey lpn.keyLen c.blocks.length K M (c.inputs.length + gid) 0)
        (outKey lpn.keyLen c.blocks.length K M (c.inputs.length + gid) 1) P ∧
      gateStep ctx g pre gid kind tp ⟨tab2 ctx.n N (2 * lpn.keyLen + 1) I, tabShares ctx.n Nr G, tabShares ctx.n Nz Z,
        tabShares ctx.n Ne E⟩
      = some (tab2 ctx.n kind.numRows lpn.mssgLen
        (tabPoly lpn.keyLen lpn.mssgLen g.enc (A gid) (gateKey kind lpn.keyLen I) P E),
        ⟨tab2 ctx.n (N - kind.arity) (2 * lpn.keyLen + 1) fun m => I (kind.arity + m),
          tabShares ctx.n (Nr - kind.numMult lpn.keyLen) fun m => G (kind.numMult lpn.keyLen + m),
          tabShares ctx.n (Nz - kind.numMult lpn.keyLen) fun m => Z (kind.numMult lpn.keyLen + m),
          tabShares ctx.n (Ne - kind.numRows * lpn.mssgLen) fun m => E (kind.numRows * lpn.mssgLen + m)⟩) := by
  have hl := h.posL
  have hb : c.inputs.length + gid < c.blocks.length := by
    unfold PackedCircuit.blocks
    simp only [List.length_append, List.length_map]
    omega
  obtain ⟨idx, i1, i2⟩ := hg.mats gid hgid
  obtain ⟨P, p1, p2⟩ := gateTables_tab h hd hg.enc hm (A gid) kind tp ht I (M (c.inputs.length + gid))
    (outKey lpn.keyLen c.blocks.length K M (c.inputs.length + gid) 0)
    (outKey lpn.keyLen c.blocks.length K M (c.inputs.length + gid) 1) G Z E
    (fun m hm' => hI m (by omega)) (hM _ hb) (fun j _ => outKey_degree (by omega) hK hM hb (by omega) j)
    (fun j _ => outKey_degree (by omega) hK hM hb (by omega) j) (fun j hj => hG j (by omega))
    (fun j hj => hZ j (by omega)) (fun j hj => hZ0 j (by omega))
  refine ⟨P, p1, ?_⟩
  unfold gateStep
  have hmask : (pre.mapM fun p => p.masks[g.circ.inputs.length + gid]?)
      = some ((List.range ctx.n).map fun i => (M (c.inputs.length + gid)).eval (ofU32 i)) := by
    have : pre.mapM (fun p => p.masks[g.circ.inputs.length + gid]?)
        = (pre.map (·.masks)).mapM fun x => x[g.circ.inputs.length + gid]? := by rw [List.mapM_map]; rfl
    rw [this, hpm, hg.circ]
    unfold tabShares
    apply mapM_tab
    intro i _
    exact getElem?_tab _ _ _ hb
  rw [hmask]
  simp only [Option.bind_some]
  rw [mapM_range_some _ _ (fun i => ((List.range (lpn.keyLen + 1)).map fun j =>
        (outKey lpn.keyLen c.blocks.length K M (c.inputs.length + gid) 0 j).eval (ofU32 i),
      (List.range (lpn.keyLen + 1)).map fun j =>
        (outKey lpn.keyLen c.blocks.length K M (c.inputs.length + gid) 1 j).eval (ofU32 i))) (by
    intro i hi
    obtain ⟨p, hp, hpf⟩ := map_of_rows hpl (·.keys.flat) _ hpk i hi
    rw [hp, getElem?_tab _ _ _ hi]
    simp only [Option.bind_some]
    rw [hg.circ]
    exact outKeys_tab _ _ _ _ hb K M p.keys (hps p (List.mem_of_getElem? hp)) hpf)]
  simp only [Option.bind_some, hg.lpnEq]
  rw [drainRows_tab _ _ _ _ hN]
  simp only [Option.bind_some]
  rw [drainAll_tab _ _ _ hNr]
  simp only [Option.bind_some]
  rw [drainAll_tab _ _ _ hNz]
  simp only [Option.bind_some]
  rw [drainAll_tab _ _ _ hNe]
  simp only [Option.bind_some]
  rw [i1]
  simp only [Option.bind_some]
  rw [i2]
  simp only [Option.bind_some]
  rw [p2]
  rfl

theorem gateLoop_tab {hash : List Nat → List Nat} {rng : List Nat → Nat → F} {ctx : Ctx F} (h : ctx.Good)
    (hd : 2 * (ctx.t + ctx.l - 1) < ctx.n) {lpn : LpnParams} {c : PackedCircuit} {g : GarbleCtx F}
    {A : Nat → Nat → Nat → Nat → F[X]} (hg : CtxSpec hash rng ctx lpn c g A) (hm : lpn.mssgLen < CodeField.order F)
    (pre : List (PreProc F)) (K M : Nat → F[X]) (hpl : pre.length = ctx.n)
    (hps : ∀ p ∈ pre, p.keys.shape = (2, lpn.keyLen, c.blocks.length))
    (hpk : pre.map (·.keys.flat) = tabShares ctx.n (2 * lpn.keyLen * c.blocks.length) K)
    (hpm : pre.map (·.masks) = tabShares ctx.n c.blocks.length M)
    (hK : ∀ m < 2 * lpn.keyLen * c.blocks.length, (K m).degree < (ctx.t + ctx.l : Nat))
    (hM : ∀ m < c.blocks.length, (M m).degree < (ctx.t + ctx.l : Nat))
    (gs : List (GateKind × GateTapes F)) (hts : ∀ x ∈ gs, x.2.Ok x.1 ctx.t lpn.keyLen)
    (gid : Nat) (hgid : gid + gs.length ≤ c.gates.length)
    (N Nr Nz Ne : Nat) (I : Nat → Nat → F[X]) (G Z E : Nat → F[X])
    (hI : ∀ m < N, ∀ e < 2 * lpn.keyLen + 1, (I m e).degree < (ctx.t + ctx.l : Nat))
    (hG : ∀ m < Nr, (G m).degree < (ctx.t + ctx.l : Nat)) (hZ : ∀ m < Nz, (Z m).degree < ctx.n)
    (hZ0 : ∀ m < Nz, ∀ v ∈ defaultPos ctx.n ctx.l, (Z m).eval v = 0)
    (hN : ((gs.map Prod.fst).map GateKind.arity).sum ≤ N)
    (hNr : ((gs.map Prod.fst).map (GateKind.numMult lpn.keyLen)).sum ≤ Nr)
    (hNz : ((gs.map Prod.fst).map (GateKind.numMult lpn.keyLen)).sum ≤ Nz)
    (hNe : ((gs.map Prod.fst).map fun x => x.numRows * lpn.mssgLen).sum ≤ Ne) :
    ∃ P : Nat → Nat → Nat → F[X], (∀ q kind, (gs.map Prod.fst)[q]? = some kind →
        PlainOk ctx lpn.keyLen kind (I (offBy GateKind.arity (gs.map Prod.fst) q) (2 * lpn.keyLen))
          (I (offBy GateKind.arity (gs.map Prod.fst) q + 1) (2 * lpn.keyLen)) (M (c.inputs.length + (gid + q)))
          (outKey lpn.keyLen c.blocks.length K M (c.inputs.length + (gid + q)) 0)
          (outKey lpn.keyLen c.blocks.length K M (c.inputs.length + (gid + q)) 1) (P q)) ∧
      gateLoop ctx g pre gid gs ⟨tab2 ctx.n N (2 * lpn.keyLen + 1) I, tabShares ctx.n Nr G, tabShares ctx.n Nz Z,
        tabShares ctx.n Ne E⟩
      = some ((List.range gs.length).map (fun q => tab2 ctx.n ((gs.map Prod.fst).getD q .and).numRows lpn.mssgLen
          (tabPoly lpn.keyLen lpn.mssgLen g.enc (A (gid + q)) (gateKey ((gs.map Prod.fst).getD q .and) lpn.keyLen
            fun m => I (offBy GateKind.arity (gs.map Prod.fst) q + m)) (P q)
            fun m => E (offBy (fun x => x.numRows * lpn.mssgLen) (gs.map Prod.fst) q + m))),
        ⟨tab2 ctx.n (N - ((gs.map Prod.fst).map GateKind.arity).sum) (2 * lpn.keyLen + 1)
            fun m => I (((gs.map Prod.fst).map GateKind.arity).sum + m),
          tabShares ctx.n (Nr - ((gs.map Prod.fst).map (GateKind.numMult lpn.keyLen)).sum)
            fun m => G (((gs.map Prod.fst).map (GateKind.numMult lpn.keyLen)).sum + m),
          tabShares ctx.n (Nz - ((gs.map Prod.fst).map (GateKind.numMult lpn.keyLen)).sum)
            fun m => Z (((gs.map Prod.fst).map (GateKind.numMult lpn.keyLen)).sum + m),
          tabShares ctx.n (Ne - ((gs.map Prod.fst).map fun x => x.numRows * lpn.mssgLen).sum)
            fun m => E (((gs.map Prod.fst).map fun x => x.numRows * lpn.mssgLen).sum + m)⟩) := by
  induction gs generalizing gid N Nr Nz Ne I G Z E with
  | nil =>
    refine ⟨fun _ _ _ => 0, ?_, ?_⟩
    · intro q kind hq
      simp at hq
    · simp [gateLoop]
  | cons x gs ih =>
    obtain ⟨kind, tp⟩ := x
    simp only [List.map_cons, List.sum_cons, List.length_cons] at hN hNr hNz hNe hgid ⊢
    obtain ⟨P, p1, p2⟩ := gateStep_tab h hd hg hm pre K M hpl hps hpk hpm hK hM gid (by omega) kind tp
      (hts (kind, tp) (by simp)) N Nr Nz Ne I G Z E hI hG hZ hZ0 (by omega) (by omega) (by omega) (by omega)
    obtain ⟨P', p3, p4⟩ := ih (fun x hx => hts x (by simp [hx])) (gid + 1) (by omega) (N - kind.arity)
      (Nr - kind.numMult lpn.keyLen) (Nz - kind.numMult lpn.keyLen) (Ne - kind.numRows * lpn.mssgLen)
      (fun m => I (kind.arity + m)) (fun m => G (kind.numMult lpn.keyLen + m)) (fun m => Z (kind.numMult lpn.keyLen + m))
      (fun m => E (kind.numRows * lpn.mssgLen + m)) (fun m hm' => hI _ (by omega)) (fun m hm' => hG _ (by omega))
      (fun m hm' => hZ _ (by omega)) (fun m hm' => hZ0 _ (by omega)) (by omega) (by omega) (by omega) (by omega)
    refine ⟨fun q => match q with | 0 => P | q + 1 => P' q, ?_, ?_⟩
    · intro q kind' hq
      cases q with
      | zero =>
        simp only [List.getElem?_cons_zero, Option.some.injEq] at hq
        subst hq
        simp only [offBy_zero, Nat.zero_add, Nat.add_zero]
        exact p1
      | succ q =>
        simp only [List.getElem?_cons_succ] at hq
        have := p3 q kind' hq
        simp only [offBy_succ]
        rw [show gid + (q + 1) = gid + 1 + q by omega, Nat.add_assoc kind.arity]
        exact this
    · rw [gateLoop, p2]
      simp only [Option.bind_some]
      rw [p4, Option.map_some, Option.some.injEq]
      rw [List.range_succ_eq_map, List.map_cons]
      simp only [Prod.mk.injEq, List.cons.injEq, Nat.sub_sub, Nat.add_assoc]
      refine ⟨⟨?_, ?_⟩, trivial⟩
      · simp only [offBy_zero, List.getD_cons_zero, Nat.zero_add, Nat.add_zero]
      · rw [List.map_map]
        apply List.map_congr_left
        intro q _
        simp only [Function.comp_apply, List.getD_cons_succ, offBy_succ, Nat.succ_eq_add_one, Nat.add_assoc]
        rw [show gid + (1 + q) = gid + (q + 1) by omega]

end Verif
