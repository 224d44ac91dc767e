import Verif.EndToEndSpec
import Verif.Props.Circuit
import Verif.Props.Garble
import Verif.Props.Preproc
import Verif.Props.Lpn

/-!
# Lemmas about `preproc` followed by `garble`
-/

open Polynomial

namespace Verif

open CodeField (ofU32)
open Props

theorem mapM_congr_get {α β γ : Type} {as : List α} {bs : List β} {f : α → Option γ} {g : β → Option γ}
    (hl : as.length = bs.length) (h : ∀ (i : Nat) a b, as[i]? = some a → bs[i]? = some b → f a = g b) : as.mapM f = bs.mapM g := by
  induction as generalizing bs with
  | nil =>
    cases bs with
    | nil => rfl
    | cons b bs => simp at hl
  | cons a as ih =>
    cases bs with
    | nil => simp at hl
    | cons b bs =>
      rw [List.mapM_cons, List.mapM_cons, h 0 a b rfl rfl, ih (by simpa using hl) fun i x y hx hy => h (i + 1) x y hx hy]

theorem mapM_get {α β : Type} {as : List α} {bs : List β} {f : α → Option β} (h : as.mapM f = some bs) {i : Nat} {a : α}
    (ha : as[i]? = some a) : bs[i]? = f a := by
  induction as generalizing bs i with
  | nil => simp at ha
  | cons x as ih =>
    rw [List.mapM_cons] at h
    obtain ⟨y, h1, h⟩ := Option.bind_eq_some_iff.1 h
    obtain ⟨ys, h2, h⟩ := Option.bind_eq_some_iff.1 h
    cases h
    cases i with
    | zero =>
      rw [List.getElem?_cons_zero, Option.some.injEq] at ha
      rw [List.getElem?_cons_zero, ← ha, h1]
    | succ i => exact ih h2 (by simpa using ha)

/-! ## The circuit -/

theorem parse_proper {d : BristolDesc} (hd : d.Proper) {cs : List Char} (hf : IsBristolFile d cs) :
    ∃ c, fromBristol cs = some c ∧ c.WF ∧ c.gates = d.gates ∧ c.numWires = d.numWires ∧
      c.inputs.flatten = List.range d.inpLens.sum := by
  obtain ⟨c, h1, h2, h3, _, h5, _, h7⟩ := C21_parse_partial d hd.valid cs hf
  refine ⟨c, h1, ⟨?_, ?_, ?_, ?_, ?_⟩, h2, h3, h5⟩
  · intro w hw
    rw [h5, List.mem_range] at hw
    have := hd.valid.inputs
    omega
  · intro g hg
    rw [h2] at hg
    rw [h3]
    refine hd.valid.gates g hg _ ?_
    cases g <;> simp [Gate.wires, Gate.outWire]
  · rw [h5]
    exact List.nodup_range
  · rw [h5, h2]
    exact hd.topo
  · intro w hw
    have hw' : w ∈ c.outputs.reverse.flatten := by
      obtain ⟨ws, hws, hm⟩ := List.mem_flatten.1 hw
      exact List.mem_flatten.2 ⟨ws, List.mem_reverse.2 hws, hm⟩
    rw [h7, List.mem_range'_1] at hw'
    have := hd.valid.outputs
    rw [h5, h2, List.mem_range]
    exact hd.outputs w hw'.1 (by omega)

/-- The wires of the blocks are the inputs and the outputs of gates. -/
theorem pack_wires {c : Circuit} {l : Nat} {p : PackedCircuit} (h : c.pack l = some p) (w : Nat) :
    w ∈ p.blocks.flatten ↔ w ∈ c.inputs.flatten ∨ ∃ g ∈ c.gates, g.outWire = w := by
  obtain ⟨hperm, hblk⟩ := C23_partition c l p h
  obtain ⟨hin, _⟩ := C23_io c l p h
  have houts : p.gates.flatMap PackedGate.out = (p.gates.flatMap unpack).map Gate.outWire := by
    rw [List.map_flatMap]
    apply List.flatMap_congr
    intro b hb
    exact (unpack_outs (hblk b hb).1).symm
  unfold PackedCircuit.blocks
  rw [List.flatten_append, hin, ← List.flatMap_def, houts, List.mem_append, List.mem_map]
  simp only [hperm.mem_iff]

theorem drives_of_mem {p : PackedCircuit} {w : Nat} (h : w ∈ p.blocks.flatten) : ∃ b s, p.Drives b s w := by
  obtain ⟨ws, h1, h2⟩ := List.mem_flatten.1 h
  obtain ⟨b, hb, rfl⟩ := List.mem_iff_getElem.1 h1
  obtain ⟨s, hs, rfl⟩ := List.mem_iff_getElem.1 h2
  exact ⟨b, s, _, List.getElem?_eq_getElem hb, List.getElem?_eq_getElem hs⟩

theorem places_exist {p : PackedCircuit} : ∃ place : Nat → Nat × Nat, ∀ w ∈ p.blocks.flatten, p.Drives (place w).1 (place w).2 w := by
  have : ∀ w, ∃ q : Nat × Nat, w ∈ p.blocks.flatten → p.Drives q.1 q.2 w := by
    intro w
    by_cases h : w ∈ p.blocks.flatten
    · obtain ⟨b, s, h⟩ := drives_of_mem h
      exact ⟨(b, s), fun _ => h⟩
    · exact ⟨(0, 0), fun h' => absurd h' h⟩
  choose f hf using this
  exact ⟨f, hf⟩

/-- The gate in slot `x` of a packed gate. -/
theorem unpack_get {gate : PackedGate} (h : Aligned gate) {x : Nat} {gt : Gate} (hx : (unpack gate)[x]? = some gt) :
    gt.kind = gate.kind ∧ gate.out[x]? = some gt.outWire ∧
    ∀ i < gate.kind.arity, (gate.inps.getD i [])[x]? = some (gt.inWires.getD i 0) := by
  cases gate with
  | xor g =>
    simp only [unpack, List.getElem?_zipWith_eq_some, List.zip, Prod.exists] at hx
    obtain ⟨a, b, o, ⟨u, v, h1, h2, h3⟩, h4, rfl⟩ := hx
    cases h3
    refine ⟨rfl, h4, fun i hi => ?_⟩
    simp only [PackedGate.kind, GateKind.arity] at hi
    interval_cases i <;> simp [PackedGate.inps, Gate.inWires, List.getD_eq_getElem?_getD, h1, h2]
  | and g =>
    simp only [unpack, List.getElem?_zipWith_eq_some, List.zip, Prod.exists] at hx
    obtain ⟨a, b, o, ⟨u, v, h1, h2, h3⟩, h4, rfl⟩ := hx
    cases h3
    refine ⟨rfl, h4, fun i hi => ?_⟩
    simp only [PackedGate.kind, GateKind.arity] at hi
    interval_cases i <;> simp [PackedGate.inps, Gate.inWires, List.getD_eq_getElem?_getD, h1, h2]
  | inv g =>
    simp only [unpack, List.getElem?_zipWith_eq_some] at hx
    obtain ⟨a, o, h1, h4, rfl⟩ := hx
    refine ⟨rfl, h4, fun i hi => ?_⟩
    simp only [PackedGate.kind, GateKind.arity] at hi
    interval_cases i
    simp [PackedGate.inps, Gate.inWires, List.getD_eq_getElem?_getD, h1]

variable {F : Type} [CodeField F] [DecidableEq F]

/-! ## The secrets -/

omit [DecidableEq F] in
/-- The secrets of consistent shares are determined. -/
theorem vecSharing_unique {n k : Nat} {pos : List F} (hn : n ≤ CodeField.order F) (hk : k ≤ n) (hn1 : 1 ≤ n) {a b shares : List (List F)}
    (ha : VecSharing n k pos a shares) (hb : VecSharing n k pos b shares) : a = b := by
  obtain ⟨q, q1, q2, q3⟩ := (vecSharing_iff _ _ _ _ _).1 ha
  obtain ⟨r, r1, r2, r3⟩ := (vecSharing_iff _ _ _ _ _).1 hb
  rw [q2] at r2
  have hl := tabShares_length_inj hn1 _ _ r2
  rw [q3, r3, ← hl]
  unfold tabSecrets
  refine List.map_congr_left fun j hj => ?_
  rw [List.mem_range] at hj
  have : q j = r j := by
    refine Polynomial.eq_of_degrees_lt_of_eval_index_eq (s := Finset.range n) (v := fun i => (ofU32 i : F)) ?_ ?_ ?_ ?_
    · intro x hx y hy hxy
      simp only [Finset.coe_range, Set.mem_Iio] at hx hy
      exact CodeField.ofU32_inj x y (by omega) (by omega) hxy
    · rw [Finset.card_range]
      exact (q1 j hj).trans_le (by exact_mod_cast hk)
    · rw [Finset.card_range]
      exact (r1 j (by omega)).trans_le (by exact_mod_cast hk)
    · intro i hi
      have hi := Finset.mem_range.1 hi
      have e := congrArg (fun l => (l.getD i []).getD j 0) r2
      rw [← hl] at e
      simpa [tabShares, List.getD_eq_getElem?_getD, hi, hj] using e
  rw [this]

/-- The errors of `preproc` are products of two bits and a scalar. -/
theorem preproc_errors (ctx : Ctx F) (h : ctx.Good) (hd : 2 * (ctx.t + ctx.l - 1) < ctx.n) (m mb : Mat F)
    (hm : DealMat ctx.n m) (hmb : DealMat ctx.n mb) (hbin : mb.Binary) (desc : PreProcCount) (tp : PreTapes F)
    (ht : tp.Ok ctx.n ctx.t ctx.l m mb desc) (outs : List (PreProc F)) (hrun : preproc ctx m mb desc tp = some outs)
    (errors : List (List F)) (he : VecSharing ctx.n (ctx.t + ctx.l) (defaultPos ctx.n ctx.l) errors (outs.map (·.errors))) :
    ∀ e ∈ errors, ∃ b0 b1 s : List F, (∀ x ∈ b0, x = 0 ∨ x = 1) ∧ (∀ x ∈ b1, x = 0 ∨ x = 1) ∧
      e = List.zipWith (· * ·) (List.zipWith (· * ·) b0 b1) s := by
  have hr0 : 0 < m.rows.length := List.length_pos_of_ne_nil hm.2.2
  have hb0 : 0 < mb.rows.length := List.length_pos_of_ne_nil hmb.2.2
  obtain ⟨br, hbr⟩ := numBatches_some (desc.numKeys + desc.randoms + 3 * desc.errors) hr0
  obtain ⟨bb, hbb⟩ := numBatches_some (desc.masks + 2 * desc.errors) hb0
  obtain ⟨rands, r1, s, _, r2, _⟩ := C47_rand ctx h m hm _ br hbr tp.rand (ht.rand _ hbr)
  obtain ⟨bits, bs, c1, c2, _, c3, _⟩ := C47_randbit ctx h mb hmb _ bb hbb tp.bits (ht.bits _ hbb) tp.rbit (ht.rbit _ hbb)
  obtain ⟨outs', errs, e1, e2, e3, e4⟩ := C51_errors ctx h hd m mb hm hmb desc tp ht rands bits _ bs r1 r2 c1 c2
  rw [hrun, Option.some.injEq] at e1
  subst e1
  have hfit := h.fit
  rw [vecSharing_unique (by omega) h.le h.posN he e2]
  intro e hmem
  obtain ⟨i, hi, rfl⟩ := List.mem_iff_getElem.1 hmem
  obtain ⟨a, j, ha, hj, rfl⟩ := (C51_fresh desc.errors ctx.n h.posN).1 i (by omega)
  obtain ⟨b0, b1, sc, f1, f2, _, f4⟩ := e4 a ha j hj
  rw [List.getElem?_eq_getElem hi, Option.some.injEq] at f4
  exact ⟨b0, b1, sc, c3 hbin _ (List.mem_of_getElem? f1), c3 hbin _ (List.mem_of_getElem? f2), f4⟩

omit [DecidableEq F] in
/-- Bits of masks. -/
theorem maskBits_exist {masks : List (List F)} (h : ∀ s ∈ masks, ∀ x ∈ s, x = 0 ∨ x = 1) : ∃ mb, MaskBits masks mb := by
  have : ∀ b s, ∃ k : Nat, k < 2 ∧ at2 masks b s = (k : F) := by
    intro b s
    unfold at2
    by_cases hb : b < masks.length
    · rw [List.getD_eq_getElem _ _ hb]
      by_cases hs : s < masks[b].length
      · rw [List.getD_eq_getElem _ _ hs]
        rcases h _ (List.getElem_mem hb) _ (List.getElem_mem hs) with e | e
        · exact ⟨0, by norm_num, by rw [e]; simp⟩
        · exact ⟨1, by norm_num, by rw [e]; simp⟩
      · rw [List.getD_eq_default _ _ (by omega)]
        exact ⟨0, by norm_num, by simp⟩
    · rw [List.getD_eq_default (l := masks) _ (by omega)]
      exact ⟨0, by norm_num, by simp⟩
  choose f hf using this
  exact ⟨f, fun b s => ⟨(hf b s).1, fun _ => (hf b s).2⟩⟩

/-! ## Tapes -/

omit [DecidableEq F] in
theorem preTapes_exist (n t l : Nat) (m mb : Mat F) (hm : m.rows ≠ []) (hmb : mb.rows ≠ []) (desc : PreProcCount) :
    ∃ tp : PreTapes F, tp.Ok n t l m mb desc := by
  obtain ⟨br, hbr⟩ := numBatches_some (desc.numKeys + desc.randoms + 3 * desc.errors) (List.length_pos_of_ne_nil hm)
  obtain ⟨bz, hbz⟩ := numBatches_some (desc.zeros + 2 * desc.errors) (List.length_pos_of_ne_nil hm)
  obtain ⟨bb, hbb⟩ := numBatches_some (desc.masks + 2 * desc.errors) (List.length_pos_of_ne_nil hmb)
  have key : ∀ {α : Type} (x : α) (b k : Nat), TapeShape n b k (List.replicate n (List.replicate b (List.replicate k x))) := by
    intro α x b k
    refine ⟨by simp, fun tp htp => ?_⟩
    rw [List.eq_of_mem_replicate htp]
    refine ⟨by simp, fun t' ht' => ?_⟩
    rw [List.eq_of_mem_replicate ht', List.length_replicate]
  refine ⟨⟨List.replicate n (List.replicate br (List.replicate (t + l) 0)),
    List.replicate n (List.replicate bz (List.replicate (n - l) 0)),
    List.replicate n (List.replicate bb (List.replicate l false)),
    List.replicate n (List.replicate bb (List.replicate t 0)),
    (List.range n).map fun a => ⟨List.replicate (errSize desc.errors n a) (List.replicate t 0),
      List.replicate (errSize desc.errors n a) (List.replicate t 0)⟩⟩, ?_, ?_, ?_, ?_, by simp, ?_⟩
  · intro b hb
    rw [hbr, Option.some.injEq] at hb
    subst hb
    exact key _ _ _
  · intro b hb
    rw [hbz, Option.some.injEq] at hb
    subst hb
    exact key _ _ _
  · intro b hb
    rw [hbb, Option.some.injEq] at hb
    subst hb
    exact key _ _ _
  · intro b hb
    rw [hbb, Option.some.injEq] at hb
    subst hb
    exact key _ _ _
  · intro a e he
    rw [List.getElem?_map] at he
    obtain ⟨i, hi, rfl⟩ := Option.map_eq_some_iff.1 he
    obtain ⟨_, hi⟩ := List.getElem?_eq_some_iff.1 hi
    rw [List.getElem_range] at hi
    subst hi
    refine ⟨⟨by simp, fun x hx => ?_⟩, by simp, fun x hx => ?_⟩ <;> rw [List.eq_of_mem_replicate hx, List.length_replicate]

omit [DecidableEq F] in
theorem garbleTapes_exist (ctx : Ctx F) (g : GarbleCtx F) : ∃ tp : GarbleTapes F, tp.Ok ctx g := by
  have tapes : ∀ tfs : List (SharingTransform F), TransTapes ctx tfs (2 * g.lpn.keyLen + 1) (tfs.map fun tr =>
      List.replicate (2 * g.lpn.keyLen + 1) (List.replicate (ctx.t + ctx.l - tr.newPos.length) 0)) := by
    intro tfs
    refine ⟨by simp, ?_⟩
    intro k tr tp h1 h2
    rw [List.getElem?_map, h1, Option.map_some, Option.some.injEq] at h2
    subst h2
    refine ⟨by simp, ?_⟩
    intro x hx
    rw [List.eq_of_mem_replicate hx, List.length_replicate]
  refine ⟨⟨_, _, g.circ.gates.map fun x => ⟨List.replicate 1 (List.replicate ctx.t 0), List.replicate
        (match x.kind with | .and => 3 * (g.lpn.keyLen + 1) | .xor => g.lpn.keyLen + 1 | .inv => g.lpn.keyLen + 1)
        (List.replicate ctx.t 0)⟩⟩, tapes _, tapes _, by simp, ?_⟩
  intro gid gate x h1 h2
  simp only [] at h2
  rw [List.getElem?_map, h1, Option.map_some, Option.some.injEq] at h2
  subst h2
  refine ⟨?_, ?_, ?_⟩
  · intro y hy
    rw [List.eq_of_mem_replicate hy, List.length_replicate]
  · intro y hy
    rw [List.eq_of_mem_replicate hy, List.length_replicate]
  · cases gate.kind <;> simp

/-! ## The gates -/

variable {hash : List Nat → List Nat} {rng : List Nat → Nat → F} {ctx : Ctx F} {lpn : LpnParams} {p : PackedCircuit}
  {g : GarbleCtx F} {tp : GarbleTapes F} {pre : List (PreProc F)} {masks keys errors : List (List F)} {nr nz : Nat}

theorem garbled_gate (s : Setup hash rng ctx lpn p g tp pre masks keys errors nr nz) {c : Circuit} (hc : c.WF)
    (hp : c.pack ctx.l = some p) {tables : List (List (List (List F)))} {st : GarbleState F}
    (hrun : garble ctx g tp pre = some (tables, st)) (results : List (List (List (List F))))
    (hres : results.length = ctx.n ∧ ∀ i < ctx.n, ∃ mine, results[i]? = some mine ∧ tables.mapM (fun T => T[i]?) = some mine)
    (place : Nat → Nat × Nat) (hplace : ∀ w ∈ p.blocks.flatten, p.Drives (place w).1 (place w).2 w) (mb : Nat → Nat → Nat)
    (hmb : MaskBits masks mb) (gt : Gate) (hgt : gt ∈ c.gates) :
    GarbledGate hash rng ctx lpn g.enc p masks keys errors place (fun w => mb (place w).1 (place w).2) results gt := by
  obtain ⟨hperm, hblk⟩ := C23_partition c ctx.l p hp
  have ok := pack_ok hc hp
  obtain ⟨gate, hgate, hin⟩ := List.mem_flatMap.1 (hperm.mem_iff.2 hgt)
  obtain ⟨gid, hgid, rfl⟩ := List.mem_iff_getElem.1 hgate
  obtain ⟨x, hxl, hxe⟩ := List.mem_iff_getElem.1 hin
  have hx : (unpack p.gates[gid])[x]? = some gt := by rw [List.getElem?_eq_getElem hxl, hxe]
  have hg : p.gates[gid]? = some p.gates[gid] := List.getElem?_eq_getElem hgid
  generalize p.gates[gid] = gate at *
  obtain ⟨hkind, hout, hinp⟩ := unpack_get (hblk gate hgate).1 hx
  have hblock : p.blocks[p.inputs.length + gid]? = some gate.out := by
    unfold PackedCircuit.blocks
    rw [List.getElem?_append_right (by omega), Nat.add_sub_cancel_left, List.getElem?_map, hg, Option.map_some]
  have hdrive : p.Drives (p.inputs.length + gid) x gt.outWire := ⟨_, hblock, hout⟩
  have hxw : x < gate.out.length := (List.getElem?_eq_some_iff.1 hout).1
  have hwmem : ∀ {b s' w}, p.Drives b s' w → w ∈ p.blocks.flatten := by
    rintro b s' w ⟨ws, h1, h2⟩
    exact List.mem_flatten.2 ⟨ws, List.mem_of_getElem? h1, List.mem_of_getElem? h2⟩
  have hpl : place gt.outWire = (p.inputs.length + gid, x) := by
    obtain ⟨e1, e2⟩ := drives_unique ok.nodup (hplace _ (hwmem hdrive)) hdrive
    exact Prod.ext e1 e2
  have hsrc : ∀ y < gate.out.length, p.Sources gate y (fun i => (place ((gate.inps.getD i []).getD y 0)).1)
      (fun i => (place ((gate.inps.getD i []).getD y 0)).2) := by
    intro y hy i hi
    have hmem : gate.inps.getD i [] ∈ gate.inps := by
      have : i < gate.inps.length := by cases gate <;> simpa [PackedGate.inps, PackedGate.kind, GateKind.arity] using hi
      rw [List.getD_eq_getElem _ _ this]
      exact List.getElem_mem this
    have hlen := ok.aligned gate hgate _ hmem
    have hy' : y < (gate.inps.getD i []).length := by omega
    refine ⟨(gate.inps.getD i []).getD y 0, ?_, ?_⟩
    · rw [List.getD_eq_getElem (gate.inps.getD i []) 0 hy', List.getElem?_eq_getElem hy']
    · refine hplace _ (ok.driven gate hgate _ hmem _ ?_)
      rw [List.getD_eq_getElem (gate.inps.getD i []) 0 hy']
      exact List.getElem_mem _
  obtain ⟨table, t1, t2⟩ := garble_bits s hrun hmb hg _ _ hsrc
  have hw : gate.out.length ≤ ctx.l := ok.blockLen _ (List.mem_of_getElem? hblock)
  obtain ⟨ps, hps, hrec⟩ := C62_recon s gid gate.out.length gate.kind.numRows hw _ _ table t2
  refine ⟨gid, x, gate.out.length, hpl, ⟨_, hblock, rfl⟩, fun r hr a ha => ?_⟩
  rw [hkind] at hr
  obtain ⟨shares, h1, h2⟩ := hrec r hr a ha
  have hread : ∀ i, (gate.inps.getD i []).getD x 0 = gt.inWires.getD i 0 := by
    intro i
    by_cases hi : i < gate.kind.arity
    · rw [List.getD_eq_getElem?_getD, hinp i hi, Option.getD_some]
    · have e1 : gate.inps.length ≤ i := by
        cases gate <;> simp [PackedGate.inps, PackedGate.kind, GateKind.arity] at hi ⊢ <;> omega
      have e2 : gt.inWires.length ≤ i := by
        rw [← hkind] at hi
        cases gt <;> simp [Gate.inWires, Gate.kind, GateKind.arity] at hi ⊢ <;> omega
      rw [List.getD_eq_default (l := gate.inps) _ e1, List.getD_eq_default (l := gt.inWires) _ e2]
      rfl
  refine ⟨shares, ps, _, ?_, hps, h2, ?_⟩
  · rw [← h1]
    have hlen : table.length = ctx.n := by
      obtain ⟨T, _, e, _⟩ := t2
      rw [e, List.length_map, List.length_range]
    refine mapM_congr_get (by rw [hlen, hres.1]) fun i A B hA hB => ?_
    have hi : i < ctx.n := by
      have := (List.getElem?_eq_some_iff.1 hB).1
      omega
    obtain ⟨mine, m1, m2⟩ := hres.2 i hi
    rw [m1, Option.some.injEq] at hA
    subst hA
    rw [mapM_get m2 t1, hB, Option.bind_some]
  · rw [List.getElem?_map, List.getElem?_range hxw, Option.map_some]
    simp only [hread, hkind, hpl]

end Verif
