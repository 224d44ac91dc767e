import Verif.ByzGarbleLemmas

/-!
# The runs of `Verif.ByzGarble` are jobs of `garble`
-/

namespace Verif

variable {F : Type}

theorem drain_map {α β : Type} (f : α → β) (k : Nat) (l : List α) : drain k (l.map f) = (drain k l).map fun x => (x.1.map f, x.2.map f) := by
  unfold drain
  rw [List.length_map]
  split
  · simp [List.map_take, List.map_drop]
  · rfl

variable [CodeField F]

/-- All values replaced by 0. -/
abbrev wipe (l : List F) : List F := l.map fun _ => 0

theorem rtSlices_wipe (ctx : Ctx F) (reps : Nat) : ∀ (k : Nat) (r z : List F),
    rtSlices ctx reps k (wipe r) (wipe z) = (rtSlices ctx reps k r z).map fun sl => sl.map fun s => (wipe s.1, wipe s.2) := by
  intro k
  induction k with
  | zero => intro r z; rfl
  | succ k ih =>
    intro r z
    unfold rtSlices
    rw [drain_map, drain_map]
    cases drain ((ctx.n + ctx.t) * reps) r with
    | none => rfl
    | some a =>
      cases drain (2 * ctx.n * reps) z with
      | none => rfl
      | some b =>
        simp only [Option.map_some, Option.bind_some]
        rw [ih]
        cases rtSlices ctx reps k a.2 b.2 <;> simp

theorem rtMaterial_wipe (ctx : Ctx F) (tfs : List (SharingTransform F)) (reps : Nat) (r z : List F) :
    rtMaterial ctx tfs reps (wipe r) (wipe z) = (rtMaterial ctx tfs reps r z).map fun x =>
      (x.1.map fun s => (wipe s.1, wipe s.2), wipe x.2.1, wipe x.2.2) := by
  unfold rtMaterial
  cases numBatches tfs.length ctx.l with
  | none => rfl
  | some num =>
    simp only [Option.bind_some]
    rw [drain_map, drain_map]
    cases drain (num * reps * (ctx.n + ctx.t)) r with
    | none => rfl
    | some a =>
      cases drain (num * reps * 2 * ctx.n) z with
      | none => rfl
      | some b =>
        simp only [Option.map_some, Option.bind_some]
        rw [rtSlices_wipe]
        cases rtSlices ctx reps num a.1 b.1 <;> simp

theorem garbleMaterial_blank (ctx : Ctx F) (g : GarbleCtx F) (pr : PreProc F) : garbleMaterial ctx g pr.blank = (garbleMaterial ctx g pr).map fun x =>
    (x.1.map (fun s => (wipe s.1, wipe s.2)), x.2.1.map (fun s => (wipe s.1, wipe s.2)), wipe x.2.2.1, wipe x.2.2.2) := by
  unfold garbleMaterial PreProc.blank
  simp only []
  rw [rtMaterial_wipe]
  cases rtMaterial ctx g.tfOut (2 * g.lpn.keyLen + 1) pr.randoms pr.zeros with
  | none => rfl
  | some a =>
    simp only [Option.map_some, Option.bind_some]
    rw [rtMaterial_wipe]
    cases rtMaterial ctx g.tfInp (2 * g.lpn.keyLen + 1) a.2.1 a.2.2 <;> simp

/-- What a gate gets, without the values of the masks. -/
def GateIn.blank (i : GateIn F) : GateIn F := { i with randoms := wipe i.randoms, zeros := wipe i.zeros }

theorem gateIns_blank (g : GarbleCtx F) (pr : PreProc F) (mats : List (List (List (List F)))) : ∀ (ks : List GateKind) (gid : Nat) (rows : List (List F))
    (r z e : List F), gateIns g pr.blank mats gid ks rows (wipe r) (wipe z) e = (gateIns g pr mats gid ks rows r z e).map (List.map GateIn.blank) := by
  intro ks
  induction ks with
  | nil => intros; rfl
  | cons kind ks ih =>
    intro gid rows r z e
    unfold gateIns
    rw [drain_map, drain_map]
    simp only [PreProc.blank]
    cases pr.masks[g.circ.inputs.length + gid]? with
    | none => rfl
    | some om =>
      simp only [Option.bind_some]
      cases outKeys pr.keys om (g.circ.inputs.length + gid) with
      | none => rfl
      | some ok =>
        simp only [Option.bind_some]
        cases drain kind.arity rows with
        | none => rfl
        | some rw' =>
          simp only [Option.bind_some]
          cases drain (kind.numMult g.lpn.keyLen) r with
          | none => rfl
          | some ra =>
            simp only [Option.map_some, Option.bind_some]
            cases drain (kind.numMult g.lpn.keyLen) z with
            | none => rfl
            | some za =>
              simp only [Option.map_some, Option.bind_some]
              cases drain (kind.numRows * g.lpn.mssgLen) e with
              | none => rfl
              | some ea =>
                simp only [Option.bind_some]
                cases g.gidLookup[gid]? with
                | none => rfl
                | some idx =>
                  simp only [Option.bind_some]
                  cases mats[idx]? with
                  | none => rfl
                  | some mat =>
                    simp only [Option.bind_some]
                    have := ih (gid + 1) rw'.2 ra.2 za.2 ea.2
                    unfold PreProc.blank at this
                    rw [this]
                    cases gateIns g pr mats (gid + 1) ks rw'.2 ra.2 za.2 ea.2 <;> simp [GateIn.blank]

theorem gatesIn_blank (ctx : Ctx F) (g : GarbleCtx F) (p : Nat) (pr : PreProc F) (off : Nat) (env : Env (GOut F)) :
    gatesIn ctx g p pr.blank off env = (gatesIn ctx g p pr off env).map (List.map GateIn.blank) := by
  unfold gatesIn
  rw [garbleMaterial_blank]
  cases garbleMaterial ctx g pr with
  | none => rfl
  | some x =>
    simp only [Option.map_some, Option.bind_some]
    cases transformed g.tfInp (2 * g.lpn.keyLen + 1) off env with
    | none => rfl
    | some rows =>
      simp only [Option.bind_some]
      cases g.mats[p]? with
      | none => rfl
      | some mats =>
        simp only [Option.bind_some]
        exact gateIns_blank g pr mats _ 0 rows x.2.2.1 x.2.2.2 pr.errors

theorem popMask_wipe (l : List F) : popMask (wipe l) = (popMask l).map fun x => (wipe x.1, 0) := by
  unfold popMask
  rw [List.getLast?_map]
  cases l.getLast? <;> simp [List.map_dropLast]

theorem andFirst_blank {K : Nat} {i : GateIn F} {m : List F × List F × List F × List F} (h : andFirst K i = some m) :
    ∃ m', andFirst K i.blank = some m' ∧ m'.1 = m.1 ∧ m'.2.1 = m.2.1 := by
  unfold andFirst at h ⊢
  obtain ⟨q, h1, h⟩ := Option.bind_eq_some_iff.1 h
  obtain ⟨r, h2, h⟩ := Option.bind_eq_some_iff.1 h
  obtain ⟨z, h3, rfl⟩ := Option.map_eq_some_iff.1 h
  simp only [GateIn.blank]
  rw [h1, Option.bind_some, popMask_wipe, h2, popMask_wipe, h3]
  exact ⟨_, rfl, rfl, rfl⟩

theorem andSecond_blank {K : Nat} {i : GateIn F} {prod : List F} {m : List F × List F × List F × List F} (h : andSecond K i prod = some m) :
    ∃ m', andSecond K i.blank prod = some m' ∧ m'.1 = m.1 ∧ m'.2.1 = m.2.1 := by
  unfold andSecond at h ⊢
  obtain ⟨q, h1, h⟩ := Option.bind_eq_some_iff.1 h
  obtain ⟨r, h2, h⟩ := Option.bind_eq_some_iff.1 h
  obtain ⟨z, h3, h⟩ := Option.bind_eq_some_iff.1 h
  obtain ⟨v, h4, h⟩ := Option.bind_eq_some_iff.1 h
  obtain ⟨w, h5, rfl⟩ := Option.map_eq_some_iff.1 h
  simp only [GateIn.blank]
  rw [h1, Option.bind_some, popMask_wipe, h2, popMask_wipe, h3]
  simp only [Option.map_some, Option.bind_some, h4, h5]
  exact ⟨_, rfl, rfl, rfl⟩

theorem xorArgs_blank {K : Nat} {i : GateIn F} {m : List F × List F × List F × List F} (h : xorArgs K i = some m) :
    ∃ m', xorArgs K i.blank = some m' ∧ m'.1 = m.1 ∧ m'.2.1 = m.2.1 := by
  unfold xorArgs at h ⊢
  obtain ⟨q, h1, h⟩ := Option.bind_eq_some_iff.1 h
  simp only [GateIn.blank]
  rw [h1, Option.bind_some]
  split at h
  · next hq =>
    rw [if_pos hq]
    cases h
    exact ⟨_, rfl, rfl, rfl⟩
  · cases h

theorem invArgs_blank {K : Nat} {i : GateIn F} {m : List F × List F × List F × List F} (h : invArgs K i = some m) :
    ∃ m', invArgs K i.blank = some m' ∧ m'.1 = m.1 ∧ m'.2.1 = m.2.1 := by
  unfold invArgs at h ⊢
  obtain ⟨q, h1, h⟩ := Option.bind_eq_some_iff.1 h
  simp only [GateIn.blank]
  rw [h1, Option.bind_some]
  split at h
  · next hq =>
    rw [if_pos hq]
    cases h
    exact ⟨_, rfl, rfl, rfl⟩
  · cases h

/-! ## The runs depend on the material only by their inputs -/

variable [DecidableEq F]

theorem gateRuns_same (lead : ProtocolID → Nat) (K : Nat) (deps : List Nat) (gin gin' : Nat → Env (GOut F) → Option (GateIn F)) (R off mat : Nat)
    (tp : GateTapes F) (kind : GateKind) : List.Forall₂ (fun r r' => (∀ id, r.job id = r'.job id) ∧ r.pos = r'.pos)
      (gateRuns lead K deps gin R off mat tp kind) (gateRuns lead K deps gin' R off mat tp kind) := by
  cases kind <;> simp [gateRuns, GRun.job]

theorem gatesRuns_same (lead : ProtocolID → Nat) (K : Nat) (deps : List Nat) (gins gins' : Nat → Env (GOut F) → Option (List (GateIn F))) (R : Nat) :
    ∀ (gs : List (GateKind × GateTapes F)) (off mat gid : Nat), List.Forall₂ (fun r r' => (∀ id, r.job id = r'.job id) ∧ r.pos = r'.pos)
      (gatesRuns lead K deps gins R off mat gid gs) (gatesRuns lead K deps gins' R off mat gid gs) := by
  intro gs
  induction gs with
  | nil => intros; exact .nil
  | cons x gs ih =>
    obtain ⟨kind, tp⟩ := x
    intro off mat gid
    unfold gatesRuns
    exact List.rel_append (gateRuns_same ..) (ih _ _ _)

theorem runs_same (ctx : Ctx F) (g : GarbleCtx F) (lead : ProtocolID → Nat) (tp : GarbleTapes F) (sec sec' : Nat → PreProc F)
    (go gi : List (List (SharingTransform F))) : List.Forall₂ (fun r r' => (∀ id, r.job id = r'.job id) ∧ r.pos = r'.pos)
      (garbleRuns ctx g lead tp sec go gi) (garbleRuns ctx g lead tp sec' go gi) := by
  unfold garbleRuns
  refine List.rel_append (List.rel_append ?_ ?_) (gatesRuns_same ..)
  all_goals
    rw [List.forall₂_map_left_iff, List.forall₂_map_right_iff]
    exact List.forall₂_same.2 fun a _ => ⟨fun _ => rfl, rfl⟩

theorem runJobs_same (ids : List ProtocolID) {runs runs' : List (GRun F)} (h : List.Forall₂ (fun r r' => (∀ id, r.job id = r'.job id) ∧ r.pos = r'.pos) runs runs') :
    runJobs ids runs = runJobs ids runs' := by
  unfold runJobs
  induction h generalizing ids with
  | nil => rfl
  | cons h _ ih =>
    cases ids with
    | nil => rfl
    | cons id ids =>
      rw [List.zip_cons_cons, List.zip_cons_cons, List.map_cons, List.map_cons, ih, h.1]

/-! ## The runs are the jobs -/

theorem gatesRuns_get {lead : ProtocolID → Nat} {K : Nat} {deps : List Nat} {gins : Nat → Env (GOut F) → Option (List (GateIn F))} {R off mat gid : Nat}
    {gs : List (GateKind × GateTapes F)} {i a : Nat} {kind : GateKind} {tpg : GateTapes F} (hi : gs[i]? = some (kind, tpg)) (ha : a < kind.numJobs) :
    (gatesRuns lead K deps gins R off mat gid gs)[preSum (gs.map fun x => x.1.numJobs) i + a]?
      = (gateRuns lead K deps (fun p env => (gins p env).bind fun l => l[gid + i]?) R (off + preSum (gs.map fun x => x.1.numJobs) i)
          (mat + preSum (gs.map fun x => x.1.numMult K) i) tpg kind)[a]? := by
  induction gs generalizing off mat gid i with
  | nil => simp at hi
  | cons x gs ih =>
    obtain ⟨k0, t0⟩ := x
    unfold gatesRuns
    cases i with
    | zero =>
      simp only [List.getElem?_cons_zero, Option.some.injEq, Prod.mk.injEq] at hi
      obtain ⟨rfl, rfl⟩ := hi
      rw [preSum_zero, Nat.zero_add, List.getElem?_append_left (by rw [gateRuns_length]; exact ha)]
      rfl
    | succ i =>
      rw [List.getElem?_cons_succ] at hi
      rw [List.map_cons, preSum_cons, List.getElem?_append_right (by rw [gateRuns_length]; simp only []; omega), gateRuns_length, List.map_cons,
        preSum_cons]
      simp only []
      rw [show k0.numJobs + preSum (gs.map fun x => x.1.numJobs) i + a - k0.numJobs
        = preSum (gs.map fun x => x.1.numJobs) i + a by omega, ih hi,
        show gid + 1 + i = gid + (i + 1) by omega,
        show off + k0.numJobs + preSum (gs.map fun x => x.1.numJobs) i
          = off + (k0.numJobs + preSum (gs.map fun x => x.1.numJobs) i) by omega,
        show mat + k0.numMult K + preSum (gs.map fun x => x.1.numMult K) i
          = mat + (k0.numMult K + preSum (gs.map fun x => x.1.numMult K) i) by omega]

/-- A row of the results of `randtrans`. -/
theorem collected {ctx : Ctx F} (hl : 0 < ctx.l) {env : Env (GOut F)} {off num reps rem : Nat} {os : List (List (List F) × List (List F))}
    {rr : List (List F) × List (List F)} (hn : num = numGroups ctx.l rem)
    (henv : ∀ v a b, env v = some (.rt a b) → a.length = ctx.l ∧ b.length = ctx.l) (h1 : rtResults env off num = some os)
    (h2 : rtCollect ctx.l reps rem os = some rr) {i : Nat} (hi : i < rem) {x y : List F} (hx : rr.1[i]? = some x) (hy : rr.2[i]? = some y) :
    ∃ a b, env (off + i / ctx.l) = some (.rt a b) ∧ a[i % ctx.l]? = some x ∧ b[i % ctx.l]? = some y := by
  unfold rtResults at h1
  have hlen := mapM_length h1
  rw [List.length_range] at hlen
  have at_ : ∀ j < num, os[j]? = (env (off + j)).bind GOut.rt? := by
    intro j hj
    have := mapM_getElem h1 j (by simpa using hj) (by omega)
    rw [List.getElem_range] at this
    rw [List.getElem?_eq_getElem (by omega), this]
  have hos : ∀ o ∈ os, o.1.length = ctx.l ∧ o.2.length = ctx.l := by
    intro o ho
    obtain ⟨j, hj, rfl⟩ := List.mem_iff_getElem.1 ho
    have := at_ j (by omega)
    rw [List.getElem?_eq_getElem hj] at this
    obtain ⟨w, e1, e2⟩ := Option.bind_eq_some_iff.1 this.symm
    cases w with
    | vec => cases e2
    | rt a b =>
      have := henv _ _ _ e1
      simp only [GOut.rt?, Option.some.injEq] at e2
      rw [← e2]
      exact this
  obtain ⟨g1, g2⟩ := rtCollect_get hl hos (hlen.trans hn) h2 i hi
  have hgl : i / ctx.l < num := by rw [hn]; exact group_lt hl hi
  rw [hx, at_ _ hgl] at g1
  rw [hy, at_ _ hgl] at g2
  cases he : env (off + i / ctx.l) with
  | none => rw [he] at g1; cases g1
  | some w =>
    cases w with
    | vec => rw [he] at g1; cases g1
    | rt a b =>
      rw [he] at g1 g2
      exact ⟨a, b, rfl, g1.symm, g2.symm⟩

theorem filter_low {R n : Nat} (h : n ≤ R) : (List.range n).filter (R ≤ ·) = [] := by
  rw [List.filter_eq_nil_iff]
  intro j hj
  have := List.mem_range.1 hj
  simp
  omega

theorem filter_high {R : Nat} {l : List Nat} (h : ∀ j ∈ l, R ≤ j) : l.filter (R ≤ ·) = l := by
  rw [List.filter_eq_self]
  intro j hj
  simpa using h j hj

section link
variable {c : Codec F} {ctx : Ctx F} {g : GarbleCtx F} {lead : ProtocolID → Nat} {tp : GarbleTapes F} {sec : Nat → PreProc F}
  {pre : List (PreProc F)} {go gi : List (List (SharingTransform F))} (hl : TapeLens g tp)

include hl in
theorem runs_outTr {i : Nat} {tf : SharingTransform F} {tape : List (List F)} (h : g.tfOut[i]? = some tf) (ht : tp.out[i]? = some tape) :
    (garbleRuns ctx g lead tp sec go gi)[i]? = some ⟨[], fun _ => i % ctx.n, 2 * g.lpn.keyLen + 1, tape, some (i / ctx.l, i % ctx.l), 0,
      fun p _ => (outInput g.circ.blocks.length g.lpn.keyLen (sec p)).bind fun inp => inp[i]?⟩ := by
  have hu : i < g.tfOut.length := (List.getElem?_eq_some_iff.1 h).1
  have := hl.out
  unfold garbleRuns
  rw [List.append_assoc, List.getElem?_append_left (by simp; omega), List.getElem?_map, List.getElem?_zipIdx,
    show (g.tfOut.zip tp.out)[i]? = some (tf, tape) by rw [List.getElem?_zip_eq_some]; exact ⟨h, ht⟩]
  simp

include hl in
theorem runs_inpTr {i : Nat} {tf : SharingTransform F} {tape : List (List F)} (h : g.tfInp[i]? = some tf) (ht : tp.inp[i]? = some tape) :
    (garbleRuns ctx g lead tp sec go gi)[g.tfOut.length + i]? = some ⟨List.range g.tfOut.length, fun _ => i % ctx.n, 2 * g.lpn.keyLen + 1, tape,
      some (go.length + i / ctx.l, i % ctx.l), 0, fun p env => (transformed g.tfOut (2 * g.lpn.keyLen + 1) (go.length + gi.length) env).bind fun out =>
        (selectAll ctx.n ctx.l p (2 * g.lpn.keyLen + 1) g out).bind fun inp => inp[i]?⟩ := by
  have hu : i < g.tfInp.length := (List.getElem?_eq_some_iff.1 h).1
  have := hl.out
  have := hl.inp
  unfold garbleRuns
  rw [List.append_assoc, List.getElem?_append_right (by simp [hl.out]), List.getElem?_append_left (by simp; omega), List.getElem?_map,
    List.getElem?_zipIdx]
  have e : g.tfOut.length + i - (g.tfOut.zip tp.out).zipIdx.length = i := by simp [hl.out]
  simp only [List.length_map, e]
  rw [show (g.tfInp.zip tp.inp)[i]? = some (tf, tape) by rw [List.getElem?_zip_eq_some]; exact ⟨h, ht⟩]
  simp

/-- What gate `gid` gets, without the masks. -/
abbrev gateBlank (ctx : Ctx F) (g : GarbleCtx F) (sec : Nat → PreProc F) (R gid p : Nat) (env : Env (GOut F)) : Option (GateIn F) :=
  (gatesIn ctx g p (sec p).blank (R + g.tfOut.length) env).bind fun l => l[gid]?

include hl in
theorem runs_gate {gid a : Nat} {kind : GateKind} {tpg : GateTapes F} (h : (gKinds g)[gid]? = some kind)
    (ht : tp.gates[gid]? = some tpg) (ha : a < kind.numJobs) :
    (garbleRuns ctx g lead tp sec go gi)[g.tfOut.length + g.tfInp.length + preSum ((gKinds g).map GateKind.numJobs) gid + a]?
      = (gateRuns lead g.lpn.keyLen ((List.range g.tfInp.length).map (g.tfOut.length + ·)) (gateBlank ctx g sec (go.length + gi.length) gid)
          (go.length + gi.length) (g.tfOut.length + g.tfInp.length + preSum ((gKinds g).map GateKind.numJobs) gid)
          (preSum ((gKinds g).map (GateKind.numMult g.lpn.keyLen)) gid) tpg kind)[a]? := by
  have h1 := hl.out
  have h2 := hl.inp
  unfold garbleRuns
  rw [List.getElem?_append_right (by simp; omega)]
  have e : g.tfOut.length + g.tfInp.length + preSum ((gKinds g).map GateKind.numJobs) gid + a
    - ((g.tfOut.zip tp.out).zipIdx.length + (g.tfInp.zip tp.inp).zipIdx.length)
    = preSum (((gKinds g).zip tp.gates).map fun x => x.1.numJobs) gid + a := by rw [zip_kinds hl]; simp; omega
  simp only [List.length_append, List.length_map, e]
  rw [gatesRuns_get (i := gid) (kind := kind) (tpg := tpg) (by rw [List.getElem?_zip_eq_some]; exact ⟨h, ht⟩) ha, zip_kinds hl]
  have e2 : (((gKinds g).zip tp.gates).map fun x => x.1.numMult g.lpn.keyLen) = (gKinds g).map (GateKind.numMult g.lpn.keyLen) := by
    have : (((gKinds g).zip tp.gates).map fun x => x.1.numMult g.lpn.keyLen)
        = (((gKinds g).zip tp.gates).map (·.1)).map (GateKind.numMult g.lpn.keyLen) := by rw [List.map_map]; rfl
    rw [this, zip_fst (by simp [hl.gates])]
  rw [e2]
  simp only [Nat.zero_add]

theorem groups_length (h0 : 0 < ctx.l) {tfs : List (SharingTransform F)} {gs : List (List (SharingTransform F))} (h : chunks? ctx.l tfs = some gs) :
    gs.length = numGroups ctx.l tfs.length := by
  unfold chunks? at h
  rw [if_neg (by omega)] at h
  rw [← Option.some.inj h, chunks_length _ _ (by omega), numGroups]

/-- The transformation of a group. -/
theorem tfOf_chunk (h0 : 0 < ctx.l) {tfs : List (SharingTransform F)} {gs : List (List (SharingTransform F))} (h : chunks? ctx.l tfs = some gs) {i : Nat}
    {tf : SharingTransform F} (hi : tfs[i]? = some tf) {rts : List (RtRun F)} {off reps : Nat}
    (hr : ∀ v < gs.length, rts[off + v]? = (gs[v]?).map fun grp => ⟨grp, reps⟩) : tfOf rts (off + i / ctx.l) (i % ctx.l) = tf := by
  have hlen := groups_length h0 h
  have hv : i / ctx.l < gs.length := by rw [hlen]; exact group_lt h0 (List.getElem?_eq_some_iff.1 hi).1
  unfold tfOf
  rw [hr _ hv, List.getElem?_eq_getElem hv]
  simp only [Option.map_some, Option.getD_some]
  have : (gs[i / ctx.l])[i % ctx.l]? = some tf := by
    unfold chunks? at h
    rw [if_neg (by omega)] at h
    obtain rfl := Option.some.inj h
    obtain ⟨grp, e1, e2⟩ := chunks_get h0 tfs (List.getElem?_eq_some_iff.1 hi).1
    rw [List.getElem?_eq_getElem hv, Option.some.injEq] at e1
    rw [e1, e2, hi]
  rw [List.getD_eq_getElem?_getD, this]
  rfl

omit [CodeField F] [DecidableEq F] in
theorem popMask_slice {L : List F} {a k : Nat} (h : a + (k + 1) ≤ L.length) {r : List F × F} (hr : popMask ((L.drop a).take (k + 1)) = some r) :
    r.1 = (L.drop a).take k ∧ [r.2] = (L.drop (a + k)).take 1 := by
  have hk : k < (L.drop a).length := by rw [List.length_drop]; omega
  have e : (L.drop a).take (k + 1) = (L.drop a).take k ++ [(L.drop a)[k]] := by rw [List.take_succ_eq_append_getElem hk]
  unfold popMask at hr
  rw [e, List.getLast?_concat, List.dropLast_concat, Option.map_some, Option.some.injEq] at hr
  rw [← hr]
  refine ⟨rfl, ?_⟩
  simp only []
  rw [← List.drop_drop, List.drop_eq_getElem_cons hk]
  rfl

variable (hsec : ∀ p pr, pre[p]? = some pr → pr.blank = (sec p).blank) (h0 : 0 < ctx.l) (hgo : chunks? ctx.l g.tfOut = some go)
  (hgi : chunks? ctx.l g.tfInp = some gi)

include hsec h0 hgo hgi in
theorem gate_input {gid p : Nat} {kind : GateKind} (hk : (gKinds g)[gid]? = some kind) {env : Env (GOut F)} {I : GateIn F}
    (h : gateInput ctx g pre go gi gid p env = some I) :
    (∀ env' : Env (GOut F), (∀ j, go.length + gi.length ≤ j → env' j = env j) → gateBlank ctx g sec (go.length + gi.length) gid p env' = some I.blank) ∧
    ∃ pr, pre[p]? = some pr ∧
      I.randoms = (pr.randoms.drop ((go.length + gi.length) * gA ctx g + preSum ((gKinds g).map (GateKind.numMult g.lpn.keyLen)) gid)).take
        (kind.numMult g.lpn.keyLen) ∧
      (go.length + gi.length) * gA ctx g + preSum ((gKinds g).map (GateKind.numMult g.lpn.keyLen)) gid + kind.numMult g.lpn.keyLen ≤ pr.randoms.length ∧
      I.zeros = (pr.zeros.drop ((go.length + gi.length) * gB ctx g + preSum ((gKinds g).map (GateKind.numMult g.lpn.keyLen)) gid)).take
        (kind.numMult g.lpn.keyLen) ∧
      (go.length + gi.length) * gB ctx g + preSum ((gKinds g).map (GateKind.numMult g.lpn.keyLen)) gid + kind.numMult g.lpn.keyLen ≤ pr.zeros.length := by
  unfold gateInput at h
  obtain ⟨L, h1, hL⟩ := Option.bind_eq_some_iff.1 h
  obtain ⟨pr, hp, h1⟩ := Option.bind_eq_some_iff.1 h1
  refine ⟨fun env' he => ?_, pr, hp, ?_⟩
  · unfold gateBlank
    rw [← hsec p pr hp, gatesIn_blank]
    have : gatesIn ctx g p pr (go.length + gi.length + g.tfOut.length) env' = some L := by
      rw [← h1]
      unfold gatesIn
      rw [transformed_congr fun i _ => he _ (by omega)]
    rw [this]
    simp [hL]
  · unfold gatesIn at h1
    obtain ⟨⟨so, si, r, z⟩, k1, h1⟩ := Option.bind_eq_some_iff.1 h1
    obtain ⟨rows, k2, h1⟩ := Option.bind_eq_some_iff.1 h1
    obtain ⟨mats, k3, h1⟩ := Option.bind_eq_some_iff.1 h1
    obtain ⟨_, _, e1, e2, e3, e4⟩ := garbleMaterial_get k1
    rw [← groups_length h0 hgo, ← groups_length h0 hgi] at e1 e2 e3 e4
    obtain ⟨J, j1, _, _, _, j2, j3, j4, j5⟩ := gateIns_get h1 gid kind hk
    rw [hL, Option.some.injEq] at j1
    subst j1
    rw [e1, List.length_drop] at j4
    rw [e2, List.length_drop] at j5
    rw [e1, List.drop_drop] at j2
    rw [e2, List.drop_drop] at j3
    refine ⟨j2, ?_, j3, ?_⟩
    · rw [Nat.add_assoc]
      exact Nat.add_le_of_le_sub' e3 j4
    · rw [Nat.add_assoc]
      exact Nat.add_le_of_le_sub' e4 j5

omit [DecidableEq F] in
theorem multIn_of {f : Option (List F × List F × List F × List F)} {m : List F × List F × List F}
    (h : (f.bind fun i => if i.1.length = i.2.1.length then some (vmul i.1 i.2.1, i.2.2) else none) = some m) :
    ∃ x, f = some x ∧ m.2 = x.2.2 ∧ ∀ x', x'.1 = x.1 → x'.2.1 = x.2.1 → multIn (some x') = some m.1 := by
  obtain ⟨x, h1, h2⟩ := Option.bind_eq_some_iff.1 h
  refine ⟨x, h1, ?_⟩
  split at h2
  · next hx =>
    cases h2
    refine ⟨rfl, fun x' e1 e2 => ?_⟩
    simp [multIn, e1, e2, hx]
  · cases h2

theorem gatesSteps_runs {deps deps' : List Nat} {K : Nat} {gins gins' : Nat → Env (GOut F) → Option (List (GateIn F))} {R : Nat} :
    ∀ {gs : List (GateKind × GateTapes F)} {off off' mat gid gid' : Nat}, (gatesSteps c ctx lead K deps gins off gid gs).length
      = (gatesRuns lead K deps' gins' R off' mat gid' gs).length := by
  intro gs
  induction gs with
  | nil => intros; rfl
  | cons x gs ih =>
    obtain ⟨kind, tp⟩ := x
    intro off off' mat gid gid'
    unfold gatesSteps gatesRuns
    rw [List.length_append, List.length_append, gateSteps_length, gateRuns_length, ih]

theorem steps_runs : (garbleSteps c ctx g lead tp pre go gi).length = go.length + gi.length + (garbleRuns ctx g lead tp sec go gi).length := by
  unfold garbleSteps garbleRuns
  simp only [List.length_append, List.length_map, List.length_zipIdx]
  rw [gatesSteps_runs (deps' := (List.range g.tfInp.length).map (g.tfOut.length + ·))
    (gins' := fun p env => gatesIn ctx g p (sec p).blank (go.length + gi.length + g.tfOut.length) env) (R := go.length + gi.length)
    (off' := g.tfOut.length + g.tfInp.length) (mat := 0) (gid' := 0)]
  omega

include hl hsec h0 hgo hgi in
/-- Every run is the job. -/
theorem runs_are {k : Nat} {r : GRun F} (h : (garbleRuns ctx g lead tp sec go gi)[k]? = some r) :
    ∃ st, (garbleSteps c ctx g lead tp pre go gi)[go.length + gi.length + k]? = some st ∧ ∀ id,
      r.Is c ctx (garbleRts g go gi) pre (go.length + gi.length) (gA ctx g) (gB ctx g) ⟨id, st.deps, st.proto id⟩ := by
  have hgl := groups_length h0 hgo
  have hil := groups_length h0 hgi
  have hlen : go.length + gi.length + k < (garbleSteps c ctx g lead tp pre go gi).length := by
    rw [steps_runs (sec := sec)]
    exact Nat.add_lt_add_left (List.getElem?_eq_some_iff.1 h).1 _
  have ht := hl.out
  have ht' := hl.inp
  rcases steps_index (c := c) (lead := lead) (pre := pre) (ctx := ctx) hl hlen with ⟨u, grp, e, ek⟩ | ⟨u, grp, e, ek⟩ | ⟨i, tf, tape, e1, e2, ek⟩ | ⟨i, tf, tape, e1, e2, ek⟩ | ⟨gid, a, kind, tpg, e1, e2, e3, ek⟩
  · have := (List.getElem?_eq_some_iff.1 e).1
    omega
  · have := (List.getElem?_eq_some_iff.1 e).1
    omega
  · have hk : k = i := by omega
    subst hk
    have hi := (List.getElem?_eq_some_iff.1 e1).1
    rw [runs_outTr hl e1 e2, Option.some.injEq] at h
    subst h
    refine ⟨_, steps_outTr hl e1 e2, fun id => ⟨filter_low (by omega),
      fun p env => (pre[p]?).bind fun pr => outTransIn ctx g go.length pr env k, ?_, fun p env m he hm => ?_⟩⟩
    rotate_left
    · obtain ⟨pr, hp, hm⟩ := Option.bind_eq_some_iff.1 hm
      unfold outTransIn at hm
      obtain ⟨os, m1, hm⟩ := Option.bind_eq_some_iff.1 hm
      obtain ⟨rr, m2, hm⟩ := Option.bind_eq_some_iff.1 hm
      obtain ⟨inp, m3, hm⟩ := Option.bind_eq_some_iff.1 hm
      obtain ⟨x, m4, hm⟩ := Option.bind_eq_some_iff.1 hm
      obtain ⟨y, m5, hm⟩ := Option.bind_eq_some_iff.1 hm
      obtain ⟨z, m6, rfl⟩ := Option.map_eq_some_iff.1 hm
      refine ⟨fun env' _ => ?_, ?_⟩
      · have hb := hsec p pr hp
        have : outInput g.circ.blocks.length g.lpn.keyLen (sec p) = outInput g.circ.blocks.length g.lpn.keyLen pr := by
          have e1 : outInput g.circ.blocks.length g.lpn.keyLen (sec p) = outInput g.circ.blocks.length g.lpn.keyLen (sec p).blank := rfl
          rw [e1, ← hb]
          rfl
        simp only [this, m3, Option.bind_some, m4]
      · have := collected h0 hgl he m1 m2 hi m5 m6
        rw [Nat.zero_add] at this
        exact this
    · have := tfOf_chunk h0 hgo e1 (rts := garbleRts g go gi) (off := 0) (reps := 2 * g.lpn.keyLen + 1) (by
        intro v hv
        unfold garbleRts
        rw [Nat.zero_add, List.getElem?_map, List.getElem?_append_left hv])
      rw [Nat.zero_add] at this
      simp only [this]
      rfl
  · have hk : k = g.tfOut.length + i := by omega
    subst hk
    have hi := (List.getElem?_eq_some_iff.1 e1).1
    rw [runs_inpTr hl e1 e2, Option.some.injEq] at h
    subst h
    rw [← Nat.add_assoc]
    refine ⟨_, steps_inpTr hl e1 e2, fun id => ⟨?_, fun p env => inpTransIn ctx g go.length gi.length p env i, ?_,
      fun p env m he hm => ?_⟩⟩
    · show (inpDeps g go gi).filter _ = _
      unfold inpDeps
      rw [List.range_add, List.map_append, List.filter_append, List.map_map]
      have f1 : ((List.range gi.length).map (go.length + ·)).filter (go.length + gi.length ≤ ·) = [] := by
        rw [List.filter_eq_nil_iff]
        intro j hj
        obtain ⟨v, hv, rfl⟩ := List.mem_map.1 hj
        have := List.mem_range.1 hv
        simp
        omega
      rw [f1, List.nil_append, filter_high]
      · refine List.map_congr_left fun v _ => ?_
        simp only [Function.comp]
        omega
      · intro j hj
        obtain ⟨v, hv, rfl⟩ := List.mem_map.1 hj
        simp only [Function.comp]
        omega
    rotate_left
    · unfold inpTransIn at hm
      obtain ⟨out, m1, hm⟩ := Option.bind_eq_some_iff.1 hm
      obtain ⟨inp, m2, hm⟩ := Option.bind_eq_some_iff.1 hm
      obtain ⟨os, m3, hm⟩ := Option.bind_eq_some_iff.1 hm
      obtain ⟨rr, m4, hm⟩ := Option.bind_eq_some_iff.1 hm
      obtain ⟨x, m5, hm⟩ := Option.bind_eq_some_iff.1 hm
      obtain ⟨y, m6, hm⟩ := Option.bind_eq_some_iff.1 hm
      obtain ⟨z, m7, rfl⟩ := Option.map_eq_some_iff.1 hm
      refine ⟨fun env' he' => ?_, collected h0 hil he m3 m4 hi m6 m7⟩
      simp only []
      rw [transformed_congr fun i _ => he' _ (by omega), m1, Option.bind_some, m2, Option.bind_some, m5]
    · have := tfOf_chunk h0 hgi e1 (rts := garbleRts g go gi) (off := go.length) (reps := 2 * g.lpn.keyLen + 1) (by
        intro v hv
        unfold garbleRts
        rw [List.getElem?_map, List.getElem?_append_right (by omega), Nat.add_sub_cancel_left])
      simp only [this]
      rfl
  · have hk : k = g.tfOut.length + g.tfInp.length + preSum ((gKinds g).map GateKind.numJobs) gid + a := by
      unfold gateOff at ek
      omega
    rw [hk, runs_gate hl e1 e2 e3] at h
    have hst := steps_gate (c := c) (lead := lead) (pre := pre) (go := go) (gi := gi) (ctx := ctx) hl e1 e2 e3
    rw [← ek] at hst
    rw [hst]
    unfold sGate
    have fd : (gateDeps g go gi).filter (go.length + gi.length ≤ ·)
        = ((List.range g.tfInp.length).map (g.tfOut.length + ·)).map (go.length + gi.length + ·) := by
      unfold gateDeps
      rw [filter_high]
      · rw [List.map_map]
        refine List.map_congr_left fun v _ => ?_
        simp only [Function.comp]
        omega
      · intro j hj
        obtain ⟨v, hv, rfl⟩ := List.mem_map.1 hj
        omega
    have off : gateOff g go gi gid = go.length + gi.length + (g.tfOut.length + g.tfInp.length + preSum ((gKinds g).map GateKind.numJobs) gid) := by
      unfold gateOff
      omega
    cases kind with
    | and =>
      rcases a with _ | _ | a
      · simp only [gateRuns, List.getElem?_cons_zero, Option.some.injEq] at h
        subst h
        refine ⟨_, rfl, fun id => ⟨fd, _, rfl, fun p env m he hm => ?_⟩⟩
        obtain ⟨x, hx, hm2, hin⟩ := multIn_of hm
        obtain ⟨I, hI, hx⟩ := Option.bind_eq_some_iff.1 hx
        obtain ⟨hb, pr, hp, r1, r2, z1, z2⟩ := gate_input hsec h0 hgo hgi e1 hI
        obtain ⟨x', hx', q1, q2⟩ := andFirst_blank hx
        refine ⟨fun env' he' => ?_, pr, hp, ?_⟩
        · simp only []
          rw [hb env' he', Option.bind_some, hx']
          exact hin x' q1 q2
        · unfold andFirst at hx
          obtain ⟨q, _, hx⟩ := Option.bind_eq_some_iff.1 hx
          obtain ⟨r, y1, hx⟩ := Option.bind_eq_some_iff.1 hx
          obtain ⟨z, y2, rfl⟩ := Option.map_eq_some_iff.1 hx
          rw [r1] at y1
          rw [z1] at y2
          rw [hm2]
          refine ⟨?_, ?_, ?_, ?_⟩
          · rw [← Nat.add_assoc]
            exact (popMask_slice r2 y1).2
          · rw [← Nat.add_assoc]
            exact r2
          · rw [← Nat.add_assoc]
            exact (popMask_slice z2 y2).2
          · rw [← Nat.add_assoc]
            exact z2
      · simp only [gateRuns, List.getElem?_cons_succ, List.getElem?_cons_zero, Option.some.injEq] at h
        subst h
        refine ⟨_, rfl, fun id => ⟨?_, _, rfl, fun p env m he hm => ?_⟩⟩
        · simp only []
          rw [List.filter_cons, if_pos (by simp [off]), fd, List.map_cons, off]
        obtain ⟨x, hx, hm2, hin⟩ := multIn_of hm
        obtain ⟨I, hI, hx⟩ := Option.bind_eq_some_iff.1 hx
        obtain ⟨prod, hprod, hx⟩ := Option.bind_eq_some_iff.1 hx
        obtain ⟨hb, pr, hp, r1, r2, z1, z2⟩ := gate_input hsec h0 hgo hgi e1 hI
        obtain ⟨x', hx', q1, q2⟩ := andSecond_blank hx
        refine ⟨fun env' he' => ?_, pr, hp, ?_⟩
        · simp only []
          rw [hb env' he', Option.bind_some, he' _ (by omega), ← off, hprod, Option.bind_some, hx']
          exact hin x' q1 q2
        · unfold andSecond at hx
          obtain ⟨q, _, hx⟩ := Option.bind_eq_some_iff.1 hx
          obtain ⟨r, y1, hx⟩ := Option.bind_eq_some_iff.1 hx
          obtain ⟨z, y2, hx⟩ := Option.bind_eq_some_iff.1 hx
          obtain ⟨v, _, hx⟩ := Option.bind_eq_some_iff.1 hx
          obtain ⟨w, _, rfl⟩ := Option.map_eq_some_iff.1 hx
          rw [r1] at y1
          rw [z1] at y2
          rw [hm2]
          exact ⟨(popMask_slice r2 y1).1, Nat.le_of_succ_le r2, (popMask_slice z2 y2).1, Nat.le_of_succ_le z2⟩
      · simp only [GateKind.numJobs] at e3
        omega
    | xor =>
      rcases a with _ | a
      · simp only [gateRuns, List.getElem?_cons_zero, Option.some.injEq] at h
        subst h
        refine ⟨_, rfl, fun id => ⟨fd, _, rfl, fun p env m he hm => ?_⟩⟩
        obtain ⟨x, hx, hm2, hin⟩ := multIn_of hm
        obtain ⟨I, hI, hx⟩ := Option.bind_eq_some_iff.1 hx
        obtain ⟨hb, pr, hp, r1, r2, z1, z2⟩ := gate_input hsec h0 hgo hgi e1 hI
        obtain ⟨x', hx', q1, q2⟩ := xorArgs_blank hx
        refine ⟨fun env' he' => ?_, pr, hp, ?_⟩
        · simp only []
          rw [hb env' he', Option.bind_some, hx']
          exact hin x' q1 q2
        · unfold xorArgs at hx
          obtain ⟨q, _, hx⟩ := Option.bind_eq_some_iff.1 hx
          split at hx
          · cases hx
            rw [hm2]
            exact ⟨r1, r2, z1, z2⟩
          · cases hx
      · simp only [GateKind.numJobs] at e3
        omega
    | inv =>
      rcases a with _ | a
      · simp only [gateRuns, List.getElem?_cons_zero, Option.some.injEq] at h
        subst h
        refine ⟨_, rfl, fun id => ⟨fd, _, rfl, fun p env m he hm => ?_⟩⟩
        obtain ⟨x, hx, hm2, hin⟩ := multIn_of hm
        obtain ⟨I, hI, hx⟩ := Option.bind_eq_some_iff.1 hx
        obtain ⟨hb, pr, hp, r1, r2, z1, z2⟩ := gate_input hsec h0 hgo hgi e1 hI
        obtain ⟨x', hx', q1, q2⟩ := invArgs_blank hx
        refine ⟨fun env' he' => ?_, pr, hp, ?_⟩
        · simp only []
          rw [hb env' he', Option.bind_some, hx']
          exact hin x' q1 q2
        · unfold invArgs at hx
          obtain ⟨q, _, hx⟩ := Option.bind_eq_some_iff.1 hx
          split at hx
          · cases hx
            rw [hm2]
            exact ⟨r1, r2, z1, z2⟩
          · cases hx
      · simp only [GateKind.numJobs] at e3
        omega

end link

end Verif
