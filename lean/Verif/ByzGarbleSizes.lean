import Verif.ByzGarbleLink

/-!
# The inputs of the runs of `garble` have the right lengths
-/

open Polynomial

namespace Verif

open CodeField (ofU32)

variable {F : Type} [CodeField F] [DecidableEq F]

omit [CodeField F] [DecidableEq F] in
theorem list_tab [Zero F] {l : List F} {n : Nat} (h : l.length = n) : l = (List.range n).map fun i => l.getD i 0 := by
  apply List.ext_getElem (by simp [h])
  intro i h1 h2
  simp [List.getElem?_eq_getElem h1]

omit [DecidableEq F] in
theorem list_poly {l : List F} {n : Nat} (h : l.length = n) (i : Nat) :
    l = (List.range n).map fun m => ((fun m => C (l.getD m 0) : Nat → F[X]) m).eval (ofU32 i) := by
  simp only [eval_C]
  exact list_tab h

omit [DecidableEq F] in
theorem rows_poly {rows : List (List F)} {B cols : Nat} (h : rows.length = B) (hc : ∀ r ∈ rows, r.length = cols) (i : Nat) :
    rows = (List.range B).map fun b => (List.range cols).map fun c => ((fun b c => C ((rows.getD b []).getD c 0) : Nat → Nat → F[X]) b c).eval (ofU32 i) := by
  simp only [eval_C]
  apply List.ext_getElem (by simp [h])
  intro b h1 h2
  rw [List.getElem_map, List.getElem_range, ← list_tab (n := cols) (by rw [List.getD_eq_getElem _ _ h1]; exact hc _ (List.getElem_mem h1)),
    List.getD_eq_getElem _ _ h1]

/-- The results of transformations which have the right lengths. -/
theorem transformed_some {tfs : List (SharingTransform F)} {reps off : Nat} {env : Env (GOut F)}
    (h : ∀ i < tfs.length, ∃ v, env (off + i) = some (.vec v) ∧ v.length = reps) :
    ∃ rows, transformed tfs reps off env = some rows ∧ rows.length = tfs.length ∧ ∀ r ∈ rows, r.length = reps := by
  choose! v hv using h
  have h1 : vecResults env off tfs.length = some ((List.range tfs.length).map v) := by
    unfold vecResults
    refine mapM_some_map _ _ _ fun i hi => ?_
    rw [(hv i (List.mem_range.1 hi)).1]
    rfl
  have hw : ∀ r ∈ (List.range tfs.length).map v, r.length = reps := by
    intro r hr
    obtain ⟨i, hi, rfl⟩ := List.mem_map.1 hr
    exact (hv i (List.mem_range.1 hi)).2
  refine ⟨(List.range tfs.length).map v, ?_, by simp, hw⟩
  unfold transformed
  rw [h1, Option.bind_some]
  exact toRows_flatten _ (by simp) hw

section sizes
variable {hash : List Nat → List Nat} {rng : List Nat → Nat → F} {ctx : Ctx F} {lpn : LpnParams} {circ : PackedCircuit}
  {g : GarbleCtx F} {A : Nat → Nat → Nat → Nat → F[X]}

theorem selectAll_some (h : ctx.Good) (hc : circ.Ok ctx.l) (hf : WiresFit F ctx.n ctx.l circ.blocks.flatten) (hg : CtxSpec hash rng ctx lpn circ g A)
    {cols : Nat} (hcols : 0 < cols) {rows : List (List F)} (hr : rows.length = circ.blocks.length) (hw : ∀ r ∈ rows, r.length = cols) {id : Nat} (hid : id < ctx.n) :
    ∃ inp, selectAll ctx.n ctx.l id cols g rows = some inp ∧ inp.length = (circ.gates.flatMap PackedGate.inps).length ∧ ∀ r ∈ inp, r.length = cols := by
  have hinpl := inps_length hc
  have hinpd := inps_driven hc
  have sel : ∀ ws ∈ circ.gates.flatMap PackedGate.inps, ∃ v, selectInput ctx.n ctx.l id cols g.lookup rows ws = some v ∧ v.length = cols := by
    intro ws hws
    obtain ⟨S, _, _, hS⟩ := selectInput_tab h.fit h.posL (k := 1) le_rfl circ.blocks.length cols g.lookup (fun w => (wireToBlock circ w).getD 0) ws (hinpl ws hws)
      (fun w hw => hf w (hinpd ws hws w hw)) (by
        intro w hw
        obtain ⟨bs, hbs, hwm⟩ := List.mem_flatten.1 (hinpd ws hws w hw)
        obtain ⟨b, hb, rfl⟩ := List.mem_iff_getElem.1 hbs
        rw [hg.lookup, wireToBlock_some hc.nodup (List.getElem?_eq_getElem hb) hwm]
        exact ⟨rfl, hb⟩) (fun b c => C ((rows.getD b []).getD c 0)) (fun b _ c _ => lt_of_le_of_lt degree_C_le (by norm_num))
    have := hS id hid
    rw [← rows_poly hr hw id] at this
    exact ⟨_, this, by simp⟩
  choose! v hv using sel
  have hm : ∀ x ∈ (circ.gates.flatMap PackedGate.inps).map v, x.length = cols := by
    intro x hx
    obtain ⟨ws, hws, rfl⟩ := List.mem_map.1 hx
    exact (hv ws hws).2
  refine ⟨(circ.gates.flatMap PackedGate.inps).map v, ?_, by simp, hm⟩
  unfold selectAll
  rw [hg.circ, mapM_some_map _ v _ fun ws hws => (hv ws hws).1, Option.bind_some, if_neg (by omega), flatten_length _ hm, Nat.mul_div_cancel _ hcols]
  exact toRows_flatten _ rfl hm

omit [CodeField F] [DecidableEq F] in
theorem rtSlices_some (ctx : Ctx F) (reps : Nat) : ∀ (k : Nat) (r z : List F), k * ((ctx.n + ctx.t) * reps) ≤ r.length → k * (2 * ctx.n * reps) ≤ z.length →
    ∃ sl, rtSlices ctx reps k r z = some sl := by
  intro k
  induction k with
  | zero => intro r z _ _; exact ⟨_, rfl⟩
  | succ k ih =>
    intro r z h1 h2
    rw [Nat.add_mul, Nat.one_mul] at h1 h2
    unfold rtSlices
    rw [drain_some (Nat.le_trans (Nat.le_add_left _ _) h1), drain_some (Nat.le_trans (Nat.le_add_left _ _) h2)]
    simp only [Option.bind_some]
    obtain ⟨sl, hs⟩ := ih (r.drop ((ctx.n + ctx.t) * reps)) (z.drop (2 * ctx.n * reps)) (by rw [List.length_drop]; exact Nat.le_sub_of_add_le h1)
      (by rw [List.length_drop]; exact Nat.le_sub_of_add_le h2)
    rw [hs]
    exact ⟨_, rfl⟩

omit [DecidableEq F] in
theorem rtMaterial_some (hl : 0 < ctx.l) {tfs : List (SharingTransform F)} {reps : Nat} {r z : List F}
    (h1 : numGroups ctx.l tfs.length * ((ctx.n + ctx.t) * reps) ≤ r.length) (h2 : numGroups ctx.l tfs.length * (2 * ctx.n * reps) ≤ z.length) :
    ∃ sl, rtMaterial ctx tfs reps r z = some (sl, r.drop (numGroups ctx.l tfs.length * ((ctx.n + ctx.t) * reps)), z.drop (numGroups ctx.l tfs.length * (2 * ctx.n * reps))) := by
  unfold rtMaterial numBatches
  rw [if_neg (by omega)]
  simp only [Option.bind_some]
  have e : (tfs.length + ctx.l - 1) / ctx.l = numGroups ctx.l tfs.length := rfl
  rw [e]
  generalize numGroups ctx.l tfs.length = k at h1 h2 ⊢
  rw [show k * reps * (ctx.n + ctx.t) = k * ((ctx.n + ctx.t) * reps) by ring, show k * reps * 2 * ctx.n = k * (2 * ctx.n * reps) by ring,
    drain_some h1, drain_some h2]
  simp only [Option.bind_some]
  obtain ⟨sl, hs⟩ := rtSlices_some ctx reps k (r.take (k * ((ctx.n + ctx.t) * reps))) (z.take (k * (2 * ctx.n * reps))) (by rw [List.length_take]; omega)
    (by rw [List.length_take]; omega)
  rw [hs]
  exact ⟨sl, rfl⟩

omit [DecidableEq F] in
theorem gateIns_some {pr : PreProc F} {mats : List (List (List (List F)))} {B : Nat} (hB : pr.masks.length = B)
    (hs : pr.keys.shape = (2, g.lpn.keyLen, B)) (hk : pr.keys.flat.length = 2 * g.lpn.keyLen * B) : ∀ (ks : List GateKind) (gid : Nat) (rows : List (List F)) (r z e : List F),
    g.circ.inputs.length + gid + ks.length ≤ B → (∀ j, gid ≤ j → j < gid + ks.length → ∃ idx, g.gidLookup[j]? = some idx ∧ (mats[idx]?).isSome) →
    rows.length = (ks.map GateKind.arity).sum → (ks.map (GateKind.numMult g.lpn.keyLen)).sum ≤ r.length → (ks.map (GateKind.numMult g.lpn.keyLen)).sum ≤ z.length →
    (ks.map fun k => k.numRows * g.lpn.mssgLen).sum ≤ e.length →
    ∃ L, gateIns g pr mats gid ks rows r z e = some L ∧ L.length = ks.length ∧ ∀ (i : Nat) (I : GateIn F) (kind : GateKind), L[i]? = some I → ks[i]? = some kind →
      I.rows.length = kind.arity ∧ (∀ x ∈ I.rows, x ∈ rows) ∧ I.randoms.length = kind.numMult g.lpn.keyLen ∧ I.zeros.length = kind.numMult g.lpn.keyLen ∧
      I.ok.1.length = g.lpn.keyLen + 1 ∧ I.ok.2.length = g.lpn.keyLen + 1 := by
  intro ks
  induction ks with
  | nil =>
    intro gid rows r z e _ _ _ _ _ _
    exact ⟨[], rfl, rfl, by simp⟩
  | cons k ks ih =>
    intro gid rows r z e h1 h2 h3 h4 h5 h6
    simp only [List.length_cons, List.map_cons, List.sum_cons] at h1 h2 h3 h4 h5 h6
    unfold gateIns
    have hm : g.circ.inputs.length + gid < pr.masks.length := by omega
    have ok := outKeys_tab (F := F) g.lpn.keyLen B (g.circ.inputs.length + gid) 0 (by omega) (fun m => C (pr.keys.flat.getD m 0)) (fun _ => C (pr.masks[g.circ.inputs.length + gid]))
      pr.keys hs (list_poly hk 0)
    rw [eval_C] at ok
    obtain ⟨idx, hx, hmat⟩ := h2 gid le_rfl (by omega)
    obtain ⟨mat, hmat⟩ := Option.isSome_iff_exists.1 hmat
    rw [List.getElem?_eq_getElem hm, Option.bind_some, ok, Option.bind_some, drain_some (by omega), drain_some (by omega), drain_some (by omega), drain_some (by omega)]
    simp only [Option.bind_some]
    rw [hx, Option.bind_some, hmat, Option.bind_some]
    obtain ⟨L, hL, hl, hall⟩ := ih (gid + 1) (rows.drop k.arity) (r.drop (k.numMult g.lpn.keyLen)) (z.drop (k.numMult g.lpn.keyLen)) (e.drop (k.numRows * g.lpn.mssgLen))
      (by omega) (fun j hj hj' => h2 j (by omega) (by omega)) (by rw [List.length_drop]; omega) (by rw [List.length_drop]; omega)
      (by rw [List.length_drop]; omega) (by rw [List.length_drop]; omega)
    rw [hL]
    refine ⟨_, rfl, by simp [hl], ?_⟩
    intro i I kind hI hkind
    cases i with
    | zero =>
      simp only [List.getElem?_cons_zero, Option.some.injEq] at hI hkind
      subst hI hkind
      refine ⟨by simp; omega, fun x hx => List.mem_of_mem_take hx, by simp; omega, by simp; omega, by simp, by simp⟩
    | succ i =>
      rw [List.getElem?_cons_succ] at hI hkind
      obtain ⟨q1, q2, q3⟩ := hall i I kind hI hkind
      exact ⟨q1, fun x hx => List.mem_of_mem_drop (q2 x hx), q3⟩

end sizes

/-! ## The arguments of the multiplications -/

omit [DecidableEq F] in
theorem pairIn_some {K : Nat} {rows : List (List F)} (h : rows.length = 2) (hw : ∀ r ∈ rows, r.length = 2 * K + 1) (om : F) (ok : List F × List F) :
    ∃ q, pairIn K rows om ok = some q ∧ q.k0 = ok.1 ∧ q.k1 = ok.2 := by
  have := pairIn_tab (F := F) K 0 (fun b c => C ((rows.getD b []).getD c 0)) om ok
  rw [← rows_poly h hw 0] at this
  exact ⟨_, this, rfl, rfl⟩

omit [CodeField F] [DecidableEq F] in
theorem popMask_some {l : List F} (h : 0 < l.length) : ∃ r, popMask l = some r ∧ r.1.length = l.length - 1 := by
  unfold popMask
  have hne : l ≠ [] := by rintro rfl; simp at h
  rw [List.getLast?_eq_getLast_of_ne_nil hne]
  exact ⟨_, rfl, by simp⟩

omit [DecidableEq F] in
theorem oneIn_some {K : Nat} {rows : List (List F)} (h : rows.length = 1) (hw : ∀ r ∈ rows, r.length = 2 * K + 1) (om : F) (ok : List F × List F) :
    ∃ q, oneIn K rows om ok = some q ∧ q.k0 = ok.1 ∧ q.k1 = ok.2 := by
  obtain ⟨row, rfl⟩ := List.length_eq_one_iff.1 h
  have hl := hw row (by simp)
  obtain ⟨r, h1, h2⟩ := popMask_some (l := row) (by omega)
  unfold oneIn toRows
  rw [List.getElem?_cons_zero, Option.bind_some, h1, Option.bind_some, if_pos (by omega)]
  exact ⟨_, rfl, rfl, rfl⟩

omit [DecidableEq F] in
theorem multIn_some {x : List F × List F × List F × List F} (h : x.1.length = x.2.1.length) : ∃ v, multIn (some x) = some v ∧ v.length = x.1.length := by
  refine ⟨vmul x.1 x.2.1, ?_, ?_⟩
  · simp [multIn, h]
  · simp [vmul, h]

omit [DecidableEq F] in
theorem gatesRuns_index {lead : ProtocolID → Nat} {K : Nat} {deps : List Nat} {gins : Nat → Env (GOut F) → Option (List (GateIn F))} {R off mat gid : Nat}
    {gs : List (GateKind × GateTapes F)} {k : Nat} (hk : k < (gatesRuns lead K deps gins R off mat gid gs).length) :
    ∃ i a kind tpg, gs[i]? = some (kind, tpg) ∧ a < kind.numJobs ∧ k = preSum (gs.map fun x => x.1.numJobs) i + a := by
  induction gs generalizing off mat gid k with
  | nil => simp [gatesRuns] at hk
  | cons x gs ih =>
    obtain ⟨k0, t0⟩ := x
    unfold gatesRuns at hk
    rw [List.length_append, gateRuns_length] at hk
    by_cases h : k < k0.numJobs
    · exact ⟨0, k, k0, t0, rfl, h, by rw [preSum_zero]; omega⟩
    · obtain ⟨i, a, kind, tpg, h1, h2, h3⟩ := ih (off := off + k0.numJobs) (mat := mat + k0.numMult K) (gid := gid + 1) (k := k - k0.numJobs) (by omega)
      exact ⟨i + 1, a, kind, tpg, by rw [List.getElem?_cons_succ, h1], h2, by rw [List.map_cons, preSum_cons]; simp only []; omega⟩

section main
variable {hash : List Nat → List Nat} {rng : List Nat → Nat → F} {ctx : Ctx F} {lpn : LpnParams} {circ : PackedCircuit}
  {g : GarbleCtx F} {tp : GarbleTapes F} {d : PreProcCount} {lead : ProtocolID → Nat} {sec : Nat → PreProc F} {go gi : List (List (SharingTransform F))}

/-- What a gate gets has the right sizes. -/
theorem gateBlank_some (P : GarbleParams hash rng ctx lpn circ g tp d) (hG : Prepared ctx circ lpn g tp go gi) {p : Nat} (hp : p < ctx.n)
    (hfit : (sec p).Fits d) {env : Env (GOut F)} (henv : ∀ i < g.tfInp.length, ∃ v, env (go.length + gi.length + g.tfOut.length + i) = some (.vec v) ∧
      v.length = 2 * g.lpn.keyLen + 1) {gid : Nat} {kind : GateKind} (hk : (gKinds g)[gid]? = some kind) :
    ∃ I, gateBlank ctx g sec (go.length + gi.length) gid p env = some I ∧ I.rows.length = kind.arity ∧ (∀ x ∈ I.rows, x.length = 2 * g.lpn.keyLen + 1) ∧
      I.randoms.length = kind.numMult g.lpn.keyLen ∧ I.zeros.length = kind.numMult g.lpn.keyLen ∧
      I.ok.1.length = g.lpn.keyLen + 1 ∧ I.ok.2.length = g.lpn.keyLen + 1 := by
  have hl := P.good.posL
  obtain ⟨g', A, h1, hS⟩ := garbleCtx_new hash rng P.good lpn P.circ P.fit P.code
  rw [P.new, Option.some.injEq] at h1
  subst h1
  obtain ⟨d₀, hd, dm, dk, de, dr, dz⟩ := P.count
  obtain ⟨no, ni, b1, b2, e0, ek, e1, e2, e3⟩ := describe_eq hd
  have hgl := groups_length hl hG.go
  have hil := groups_length hl hG.gi
  have hne : ctx.l ≠ 0 := by omega
  have hno : no = numGroups ctx.l g.tfOut.length := by
    rw [hG.out]
    unfold numBatches at b1
    rw [if_neg hne] at b1
    rw [← Option.some.inj b1]
    simp [PackedCircuit.blocks, numGroups]
  have hni : ni = numGroups ctx.l g.tfInp.length := by
    rw [hG.inp]
    unfold numBatches at b2
    rw [if_neg hne] at b2
    rw [← Option.some.inj b2, flatMap_inps_length, numGroups]
  set S := ((circ.gates.map PackedGate.kind).map (GateKind.numMult lpn.keyLen)).sum with hSdef
  have f1 : no * ((ctx.n + ctx.t) * (2 * g.lpn.keyLen + 1)) + (ni * ((ctx.n + ctx.t) * (2 * g.lpn.keyLen + 1)) + S) ≤ (sec p).randoms.length := by
    rw [hfit.randoms]
    refine le_trans (le_of_eq ?_) dr
    rw [e1, hG.lpn]
    ring
  have f2 : no * (2 * ctx.n * (2 * g.lpn.keyLen + 1)) + (ni * (2 * ctx.n * (2 * g.lpn.keyLen + 1)) + S) ≤ (sec p).zeros.length := by
    rw [hfit.zeros]
    refine le_trans (le_of_eq ?_) dz
    rw [e2, hG.lpn]
    ring
  set pr := (sec p).blank with hpr
  have lr : pr.randoms.length = (sec p).randoms.length := by simp [hpr, PreProc.blank]
  have lz : pr.zeros.length = (sec p).zeros.length := by simp [hpr, PreProc.blank]
  rw [← lr] at f1
  rw [← lz] at f2
  obtain ⟨so, m1⟩ := rtMaterial_some (ctx := ctx) hl (tfs := g.tfOut) (reps := 2 * g.lpn.keyLen + 1) (r := pr.randoms) (z := pr.zeros)
    (by rw [← hno]; exact le_trans (Nat.le_add_right _ _) f1) (by rw [← hno]; exact le_trans (Nat.le_add_right _ _) f2)
  rw [← hno] at m1
  have g1 := Nat.le_sub_of_add_le' f1
  have g2 := Nat.le_sub_of_add_le' f2
  rw [← List.length_drop] at g1 g2
  obtain ⟨si, m2⟩ := rtMaterial_some (ctx := ctx) hl (tfs := g.tfInp) (reps := 2 * g.lpn.keyLen + 1)
    (r := pr.randoms.drop (no * ((ctx.n + ctx.t) * (2 * g.lpn.keyLen + 1)))) (z := pr.zeros.drop (no * (2 * ctx.n * (2 * g.lpn.keyLen + 1))))
    (by rw [← hni]; exact le_trans (Nat.le_add_right _ _) g1) (by rw [← hni]; exact le_trans (Nat.le_add_right _ _) g2)
  rw [← hni] at m2
  have g3 := Nat.le_sub_of_add_le' g1
  have g4 := Nat.le_sub_of_add_le' g2
  rw [← List.length_drop] at g3 g4
  rw [hSdef, ← hG.lpn] at g3 g4
  obtain ⟨rows, t1, t2, t3⟩ := transformed_some (reps := 2 * g.lpn.keyLen + 1) henv
  have hmp : p < g.mats.length := by rw [hG.mats]; exact hp
  have hkinds : gKinds g = circ.gates.map PackedGate.kind := by unfold gKinds; rw [hG.circ]
  have hbl : circ.blocks.length = circ.inputs.length + circ.gates.length := by simp [PackedCircuit.blocks]
  obtain ⟨L, l1, l2, l3⟩ := gateIns_some (g := g) (pr := pr) (mats := g.mats[p]) (B := circ.blocks.length)
    (by rw [← e0, ← dm]; exact hfit.masks)
    (by rw [hG.lpn, ← ek, ← dk]; exact hfit.keys.1)
    (by
      have := hfit.keys.2
      unfold PreProcCount.numKeys at this
      rw [dk, ek] at this
      rw [hG.lpn]
      exact this) (gKinds g) 0 rows
    ((pr.randoms.drop (no * ((ctx.n + ctx.t) * (2 * g.lpn.keyLen + 1)))).drop (ni * ((ctx.n + ctx.t) * (2 * g.lpn.keyLen + 1))))
    ((pr.zeros.drop (no * (2 * ctx.n * (2 * g.lpn.keyLen + 1)))).drop (ni * (2 * ctx.n * (2 * g.lpn.keyLen + 1)))) pr.errors
    (by rw [hkinds, hG.circ, hbl]; simp)
    (by
      intro j _ hj
      rw [hkinds, List.length_map, Nat.zero_add] at hj
      obtain ⟨idx, q1, q2⟩ := hS.mats j hj
      refine ⟨idx, q1, ?_⟩
      have := mapM_getElem q2 p hmp (by simpa using hp)
      rw [this]
      rfl)
    (by rw [t2, hG.inp, hkinds])
    (by rw [hkinds]; exact g3) (by rw [hkinds]; exact g4)
    (by
      rw [hkinds, hG.lpn, ← e3, ← de, ← hfit.errors]
      exact le_rfl)
  have hgid := (List.getElem?_eq_some_iff.1 hk).1
  refine ⟨L[gid], ?_, ?_⟩
  · unfold gateBlank gatesIn garbleMaterial
    rw [m1]
    simp only [Option.bind_some]
    rw [m2]
    simp only [Option.map_some, Option.bind_some]
    rw [t1, Option.bind_some, List.getElem?_eq_getElem hmp, Option.bind_some]
    have : gateIns g pr g.mats[p] 0 (g.circ.gates.map PackedGate.kind) rows _ _ _ = some L := l1
    rw [this, Option.bind_some, List.getElem?_eq_getElem (by omega)]
  · obtain ⟨q1, q2, q3⟩ := l3 gid L[gid] kind (List.getElem?_eq_getElem (by omega)) hk
    exact ⟨q1, fun x hx => t3 x (q2 x hx), q3⟩

/-- The input of a run has the right length. -/
theorem run_input (P : GarbleParams hash rng ctx lpn circ g tp d) (hG : Prepared ctx circ lpn g tp go gi) {p : Nat} (hp : p < ctx.n)
    (hfit : (sec p).Fits d) {k : Nat} {r : GRun F} (hr : (garbleRuns ctx g lead tp sec go gi)[k]? = some r) {env : Env (GOut F)}
    (henv : ∀ j ∈ r.deps, ∃ r' v, (garbleRuns ctx g lead tp sec go gi)[j]? = some r' ∧ env (go.length + gi.length + j) = some (.vec v) ∧ v.length = r'.num) :
    ∃ v, r.input p env = some v ∧ v.length = r.num := by
  have hl := hG.lens
  have ht := hl.out
  have ht' := hl.inp
  obtain ⟨g', A, h1, hS⟩ := garbleCtx_new hash rng P.good lpn P.circ P.fit P.code
  rw [P.new, Option.some.injEq] at h1
  subst h1
  obtain ⟨d₀, hd, dm, dk, de, dr, dz⟩ := P.count
  obtain ⟨no, ni, b1, b2, e0, ek, e1, e2, e3⟩ := describe_eq hd
  have hbl : circ.blocks.length = circ.inputs.length + circ.gates.length := by simp [PackedCircuit.blocks]
  have hob : g.tfOut.length = circ.blocks.length := by rw [hG.out, hbl, List.length_map]
  have hib : g.tfInp.length = (circ.gates.flatMap PackedGate.inps).length := by rw [hG.inp, flatMap_inps_length]
  have outw : ∀ j < g.tfOut.length, ∀ r', (garbleRuns ctx g lead tp sec go gi)[j]? = some r' → r'.num = 2 * g.lpn.keyLen + 1 := by
    intro j hj r' h'
    rw [runs_outTr hl (List.getElem?_eq_getElem hj) (List.getElem?_eq_getElem (by omega)), Option.some.injEq] at h'
    rw [← h']
  have inpw : ∀ j < g.tfInp.length, ∀ r', (garbleRuns ctx g lead tp sec go gi)[g.tfOut.length + j]? = some r' → r'.num = 2 * g.lpn.keyLen + 1 := by
    intro j hj r' h'
    rw [runs_inpTr hl (List.getElem?_eq_getElem hj) (List.getElem?_eq_getElem (by omega)), Option.some.injEq] at h'
    rw [← h']
  by_cases k1 : k < g.tfOut.length
  · rw [runs_outTr hl (List.getElem?_eq_getElem k1) (List.getElem?_eq_getElem (by omega)), Option.some.injEq] at hr
    subst hr
    have ho := outInput_tab (F := F) circ.blocks.length lpn.keyLen 0 (fun m => C ((sec p).keys.flat.getD m 0)) (fun m => C ((sec p).masks.getD m 0)) (sec p)
      (list_poly (by
        have := hfit.keys.2
        unfold PreProcCount.numKeys at this
        rw [dk, ek] at this
        exact this) 0) (list_poly (by rw [← e0, ← dm]; exact hfit.masks) 0)
    simp only []
    rw [hG.circ, hG.lpn, ho, Option.bind_some, getElem?_tab _ _ _ (by omega)]
    exact ⟨_, rfl, by simp⟩
  by_cases k2 : k < g.tfOut.length + g.tfInp.length
  · obtain ⟨i, rfl⟩ : ∃ i, k = g.tfOut.length + i := ⟨k - g.tfOut.length, by omega⟩
    have hi : i < g.tfInp.length := by omega
    rw [runs_inpTr hl (List.getElem?_eq_getElem hi) (List.getElem?_eq_getElem (by omega)), Option.some.injEq] at hr
    subst hr
    obtain ⟨out, o1, o2, o3⟩ := transformed_some (tfs := g.tfOut) (reps := 2 * g.lpn.keyLen + 1) (off := go.length + gi.length) (env := env) (by
      intro j hj
      obtain ⟨r', v, q1, q2, q3⟩ := henv j (List.mem_range.2 hj)
      exact ⟨v, q2, by rw [q3, outw j hj r' q1]⟩)
    obtain ⟨inp, i1, i2, i3⟩ := selectAll_some P.good P.circ P.fit hS (cols := 2 * g.lpn.keyLen + 1) (by omega) (o2.trans hob) o3 hp
    simp only []
    rw [o1, Option.bind_some, i1, Option.bind_some, List.getElem?_eq_getElem (by omega)]
    exact ⟨_, rfl, i3 _ (List.getElem_mem _)⟩
  · have hlen := (List.getElem?_eq_some_iff.1 hr).1
    unfold garbleRuns at hlen
    rw [List.length_append] at hlen
    simp only [List.length_append, List.length_map, List.length_zipIdx, List.length_zip] at hlen
    rw [ht, ht', Nat.min_self, Nat.min_self] at hlen
    obtain ⟨gid, a, kind, tpg, x1, x2, x3⟩ := gatesRuns_index (k := k - (g.tfOut.length + g.tfInp.length)) (Nat.sub_lt_left_of_lt_add (by omega) hlen)
    rw [List.getElem?_zip_eq_some] at x1
    rw [zip_kinds hl] at x3
    have hk : k = g.tfOut.length + g.tfInp.length + preSum ((gKinds g).map GateKind.numJobs) gid + a := by omega
    rw [hk, runs_gate hl x1.1 x1.2 x2] at hr
    have first : a = 0 ∨ kind = .and ∧ a = 1 := by
      cases kind <;> simp only [GateKind.numJobs] at x2 <;> simp <;> omega
    have hdeps : ∀ i < g.tfInp.length, g.tfOut.length + i ∈ r.deps := by
      intro i hi
      have : g.tfOut.length + i ∈ (List.range g.tfInp.length).map (g.tfOut.length + ·) := List.mem_map.2 ⟨i, List.mem_range.2 hi, rfl⟩
      rcases first with rfl | ⟨rfl, rfl⟩
      · cases kind <;> simp only [gateRuns, List.getElem?_cons_zero, Option.some.injEq] at hr <;> rw [← hr] <;> exact this
      · simp only [gateRuns, List.getElem?_cons_succ, List.getElem?_cons_zero, Option.some.injEq] at hr
        rw [← hr]
        exact List.mem_cons_of_mem _ this
    obtain ⟨I, hI, s1, s2, s3, s4, s5, s6⟩ := gateBlank_some P hG hp hfit (env := env) (by
      intro i hi
      obtain ⟨r', v, q1, q2, q3⟩ := henv _ (hdeps i hi)
      exact ⟨v, by rw [Nat.add_assoc]; exact q2, by rw [q3, inpw i hi r' q1]⟩) x1.1
    cases kind with
    | and =>
      obtain ⟨q, p1, p2, p3⟩ := pairIn_some s1 s2 I.omask I.ok
      obtain ⟨ra, r1, r2⟩ := popMask_some (l := I.randoms) (by rw [s3]; exact Nat.succ_pos _)
      obtain ⟨za, z1, z2⟩ := popMask_some (l := I.zeros) (by rw [s4]; exact Nat.succ_pos _)
      rcases first with rfl | ⟨_, rfl⟩
      · simp only [gateRuns, List.getElem?_cons_zero, Option.some.injEq] at hr
        subst hr
        simp only []
        rw [hI, Option.bind_some]
        unfold andFirst
        rw [p1, Option.bind_some, r1, Option.bind_some, z1, Option.map_some]
        obtain ⟨v, v1, v2⟩ := multIn_some (x := ([q.lmask], [q.rmask], [ra.2], [za.2])) rfl
        exact ⟨v, v1, v2⟩
      · have hfirst := runs_gate (ctx := ctx) (lead := lead) (sec := sec) (go := go) (gi := gi) hl x1.1 x1.2 (a := 0) (by simp [GateKind.numJobs])
        simp only [gateRuns, List.getElem?_cons_succ, List.getElem?_cons_zero, Option.some.injEq] at hr hfirst
        subst hr
        obtain ⟨r', w, w1, w2, w3⟩ := henv _ (List.mem_cons_self ..)
        rw [Nat.add_zero, w1, Option.some.injEq] at hfirst
        rw [hfirst] at w3
        simp only [] at w3 ⊢
        rw [hI, Option.bind_some, w2]
        obtain ⟨y, rfl⟩ := List.length_eq_one_iff.1 w3
        simp only [Option.bind_some, GOut.vec?]
        unfold andSecond andMultiplicand
        rw [p1, Option.bind_some, r1, Option.bind_some, z1, Option.bind_some, List.getElem?_cons_zero, Option.bind_some, if_pos (by rw [p2, p3]; exact ⟨s5, s6⟩),
          Option.map_some]
        obtain ⟨v, v1, v2⟩ := multIn_some (x := (andSelector g.lpn.keyLen q y, vsub q.k1 q.k0 ++ vsub q.k1 q.k0 ++ vsub q.k1 q.k0, ra.1, za.1)) (by
          simp [andSelector, vsub, p2, p3, s5, s6])
        refine ⟨v, v1, ?_⟩
        rw [v2]
        simp [andSelector]
        omega
    | xor =>
      obtain ⟨q, p1, p2, p3⟩ := pairIn_some s1 s2 I.omask I.ok
      have ha : a = 0 := by simpa using first
      subst ha
      simp only [gateRuns, List.getElem?_cons_zero, Option.some.injEq] at hr
      subst hr
      simp only []
      rw [hI, Option.bind_some]
      unfold xorArgs
      rw [p1, Option.bind_some, if_pos (by rw [p2, p3, s5, s6])]
      obtain ⟨v, v1, v2⟩ := multIn_some (x := (List.replicate (g.lpn.keyLen + 1) (q.lmask + q.rmask + q.omask), vsub q.k1 q.k0, I.randoms, I.zeros)) (by
        simp [vsub, p2, p3, s5, s6])
      exact ⟨v, v1, by rw [v2]; simp⟩
    | inv =>
      obtain ⟨q, p1, p2, p3⟩ := oneIn_some s1 s2 I.omask I.ok
      have ha : a = 0 := by simpa using first
      subst ha
      simp only [gateRuns, List.getElem?_cons_zero, Option.some.injEq] at hr
      subst hr
      simp only []
      rw [hI, Option.bind_some]
      unfold invArgs
      rw [p1, Option.bind_some, if_pos (by rw [p2, p3, s5, s6])]
      obtain ⟨v, v1, v2⟩ := multIn_some (x := (List.replicate (g.lpn.keyLen + 1) (q.mask + q.omask), vsub q.k1 q.k0, I.randoms, I.zeros)) (by
        simp [vsub, p2, p3, s5, s6])
      exact ⟨v, v1, by rw [v2]; simp⟩

end main

end Verif
