import Verif.SelectLemmas

/-!
# Lemmas about `garble`: the context and the inputs of the gates
-/

open Polynomial

namespace Verif

open CodeField (ofU32)

variable {F : Type} [CodeField F] [DecidableEq F]

/-! ## The context -/

/-- What `GarbleContext::new` computes. -/
structure CtxSpec (hash : List Nat → List Nat) (rng : List Nat → Nat → F) (ctx : Ctx F) (lpn : LpnParams)
    (c : PackedCircuit) (g : GarbleCtx F) (A : Nat → Nat → Nat → Nat → F[X]) : Prop where
  tfOut : g.tfOut = c.blocks.map fun ws =>
    ⟨(defaultPos ctx.n ctx.l).take ws.length, wireToPos ctx.n ctx.l ws, ⟨List.range ws.length⟩⟩
  tfInp : ∃ tr : List Nat → SharingTransform F, (∀ ws ∈ c.gates.flatMap PackedGate.inps, InpTf ctx ws (tr ws)) ∧
    g.tfInp = (c.gates.flatMap PackedGate.inps).map tr
  lookup : g.lookup = wireToBlock c
  enc : rsGenMat (lpn.keyLen + 1) lpn.mssgLen = some g.enc
  circ : g.circ = c
  lpnEq : g.lpn = lpn
  degA : ∀ gid r a b, (A gid r a b).degree < ctx.l
  slotsA : ∀ gid r a b, gid < c.gates.length → (defaultPos ctx.n ctx.l).map (fun v => (A gid r a b).eval v)
    = lpnSlots rng ctx.l lpn.mssgLen lpn.keyLen (hash (c.nonceString ctx.l gid)) r a b
  mats : ∀ gid < c.gates.length, ∃ idx, g.gidLookup[gid]? = some idx ∧
    (g.mats.mapM fun m => m[idx]?) = some ((List.range ctx.n).map fun i => (List.range 4).map fun r =>
      (List.range lpn.mssgLen).map fun a => (List.range lpn.keyLen).map fun b => (A gid r a b).eval (ofU32 i))

theorem inps_length {c : PackedCircuit} {l : Nat} (h : c.Ok l) :
    ∀ ws ∈ c.gates.flatMap PackedGate.inps, ws.length ≤ l := by
  intro ws hws
  obtain ⟨g, hg, hm⟩ := List.mem_flatMap.1 hws
  rw [h.aligned g hg ws hm]
  exact h.blockLen _ (List.mem_append_right _ (List.mem_map_of_mem hg))

theorem inps_driven {c : PackedCircuit} {l : Nat} (h : c.Ok l) :
    ∀ ws ∈ c.gates.flatMap PackedGate.inps, ∀ w ∈ ws, w ∈ c.blocks.flatten := by
  intro ws hws
  obtain ⟨g, hg, hm⟩ := List.mem_flatMap.1 hws
  exact h.driven g hg ws hm

theorem garbleCtx_new (hash : List Nat → List Nat) (rng : List Nat → Nat → F) {ctx : Ctx F} (h : ctx.Good)
    (lpn : LpnParams) {c : PackedCircuit} (hc : c.Ok ctx.l) (hf : WiresFit F ctx.n ctx.l c.blocks.flatten)
    (hm : lpn.mssgLen < CodeField.order F) :
    ∃ g A, GarbleCtx.new hash rng ctx lpn c = some g ∧ CtxSpec hash rng ctx lpn c g A := by
  obtain ⟨tr, tr1, tr2⟩ := tfInp_eq h (inps_length hc) fun ws hws w hw => hf w (inps_driven hc ws hws w hw)
  obtain ⟨nonces, lk, l1, _, l3, l4, _⟩ := computeLookup_spec hash ctx.l c
  have henc := rsGenMat_eq (F := F) (k := lpn.keyLen + 1) (by omega) hm
  have := lpnShare_tab (F := F) rng h.fit lpn
  choose A a1 a2 a3 using this
  unfold GarbleCtx.new
  rw [tfOut_eq hc.blockLen, tr2, henc, l1]
  simp only [Option.bind_some]
  rw [mapM_range_some _ _ (fun id => nonces.map fun nonce => (List.range 4).map fun r => (List.range lpn.mssgLen).map
    fun a => (List.range lpn.keyLen).map fun b => (A nonce r a b).eval (ofU32 id))
    (fun id hid => mapM_some_map _ _ _ fun nonce _ => a3 nonce id hid)]
  simp only [Option.map_some]
  refine ⟨_, fun gid => A (hash (c.nonceString ctx.l gid)), rfl, rfl, ⟨tr, tr1, rfl⟩, rfl, henc, rfl, rfl,
    fun _ => a1 _, fun gid r a b _ => a2 _ r a b, ?_⟩
  intro gid hg
  have hlt : gid < lk.length := by omega
  refine ⟨lk[gid], List.getElem?_eq_getElem hlt, ?_⟩
  apply mapM_tab
  intro i _
  rw [List.getElem?_map, l4 gid hlt, Option.map_some]

/-! ## The inputs of the gates -/

/-- The array which is transformed: label entries and the mask of each block. -/
def keyCol (k : Nat) (K M : Nat → F[X]) (b c : Nat) : F[X] := if c < 2 * k then K (b * (2 * k) + c) else M b

omit [DecidableEq F] in
theorem outInput_tab (B k i : Nat) (K M : Nat → F[X]) (p : PreProc F)
    (hk : p.keys.flat = (List.range (2 * k * B)).map fun m => (K m).eval (ofU32 i))
    (hm : p.masks = (List.range B).map fun m => (M m).eval (ofU32 i)) :
    outInput B k p = some ((List.range B).map fun b => (List.range (2 * k + 1)).map fun c =>
      (keyCol k K M b c).eval (ofU32 i)) := by
  unfold outInput
  rw [hk, toRows_tab B (2 * k) _ (by ring)]
  simp only [Option.bind_some]
  rw [if_pos (by simp [hm]), hm, Option.some.injEq]
  apply List.ext_getElem (by simp)
  intro b h1 h2
  simp only [List.length_map, List.length_range] at h2
  simp only [List.getElem_zipWith, List.getElem_map, List.getElem_range]
  rw [List.range_succ, List.map_append]
  congr 1
  · apply List.map_congr_left
    intro c hc
    unfold keyCol
    rw [if_pos (List.mem_range.1 hc)]
  · simp [keyCol]

/-- The result of `garbleInputs`: families of polynomials for the input rows, whose slots are the slots of the
driving blocks. -/
theorem garbleInputs_tab {hash : List Nat → List Nat} {rng : List Nat → Nat → F} {ctx : Ctx F} (h : ctx.Good)
    (hd : ctx.t + 2 * ctx.l ≤ ctx.n) {lpn : LpnParams} {c : PackedCircuit} (hc : c.Ok ctx.l)
    (hf : WiresFit F ctx.n ctx.l c.blocks.flatten) {g : GarbleCtx F} {A : Nat → Nat → Nat → Nat → F[X]}
    (hg : CtxSpec hash rng ctx lpn c g A) (tp : GarbleTapes F)
    (hto : TransTapes ctx g.tfOut (2 * lpn.keyLen + 1) tp.out)
    (hti : TransTapes ctx g.tfInp (2 * lpn.keyLen + 1) tp.inp)
    (pre : List (PreProc F)) (K M G Z : Nat → F[X]) (Nr Nz no ni : Nat)
    (hno : numBatches c.blocks.length ctx.l = some no)
    (hni : numBatches (c.gates.flatMap PackedGate.inps).length ctx.l = some ni)
    (hpl : pre.length = ctx.n)
    (hpk : pre.map (·.keys.flat) = tabShares ctx.n (2 * lpn.keyLen * c.blocks.length) K)
    (hpm : pre.map (·.masks) = tabShares ctx.n c.blocks.length M)
    (hpr : pre.map (·.randoms) = tabShares ctx.n Nr G) (hpz : pre.map (·.zeros) = tabShares ctx.n Nz Z)
    (hK : ∀ m < 2 * lpn.keyLen * c.blocks.length, (K m).degree < (ctx.t + ctx.l : Nat))
    (hM : ∀ m < c.blocks.length, (M m).degree < (ctx.t + ctx.l : Nat))
    (hG : ∀ m < Nr, (G m).degree < (ctx.t + ctx.l : Nat)) (hZ : ∀ m < Nz, (Z m).degree < ctx.n)
    (hZ0 : ∀ m < Nz, ∀ v ∈ defaultPos ctx.n ctx.l, (Z m).eval v = 0)
    (hNr : (no + ni) * (2 * lpn.keyLen + 1) * (ctx.n + ctx.t) ≤ Nr)
    (hNz : (no + ni) * (2 * lpn.keyLen + 1) * 2 * ctx.n ≤ Nz) :
    ∃ I Y : Nat → Nat → F[X],
      (∀ m < (c.gates.flatMap PackedGate.inps).length, ∀ e < 2 * lpn.keyLen + 1,
        (I m e).degree < (ctx.t + ctx.l : Nat)) ∧
      (∀ m ws, (c.gates.flatMap PackedGate.inps)[m]? = some ws → ∀ j w b s, ws[j]? = some w → c.Drives b s w →
        ∀ e < 2 * lpn.keyLen + 1, (I m e).eval (ofU32 (ctx.n + j)) = (keyCol lpn.keyLen K M b e).eval (ofU32 (ctx.n + s))) ∧
      garbleInputs ctx g tp pre = some (tab2 ctx.n c.blocks.length (2 * lpn.keyLen + 1) Y,
        tab2 ctx.n (c.gates.flatMap PackedGate.inps).length (2 * lpn.keyLen + 1) I,
        tabShares ctx.n (Nr - (no + ni) * (2 * lpn.keyLen + 1) * (ctx.n + ctx.t))
          (fun m => G ((no + ni) * (2 * lpn.keyLen + 1) * (ctx.n + ctx.t) + m)),
        tabShares ctx.n (Nz - (no + ni) * (2 * lpn.keyLen + 1) * 2 * ctx.n)
          (fun m => Z ((no + ni) * (2 * lpn.keyLen + 1) * 2 * ctx.n + m))) := by
  have hl := h.posL
  generalize hcols : 2 * lpn.keyLen + 1 = cols at *
  set inps := c.gates.flatMap PackedGate.inps with hinps
  obtain ⟨tr, tr1, tr2⟩ := hg.tfInp
  have olen : g.tfOut.length = c.blocks.length := by rw [hg.tfOut]; simp
  have ilen : g.tfInp.length = inps.length := by rw [tr2, List.length_map]
  have hinpl := inps_length hc
  have hinpd := inps_driven hc
  have bfit : ∀ ws ∈ c.blocks, WiresFit F ctx.n ctx.l ws := fun ws hws w hw => hf w (List.mem_flatten.2 ⟨ws, hws, hw⟩)
  have bnodup : ∀ ws ∈ c.blocks, ws.Nodup := fun ws hws => (List.nodup_flatten.1 hc.nodup).1 ws hws
  have ook : ∀ tf ∈ g.tfOut, tf.Ok ctx := by
    intro tf htf
    rw [hg.tfOut] at htf
    obtain ⟨ws, hws, rfl⟩ := List.mem_map.1 htf
    exact tfOut_ok h (hc.blockLen ws hws) (bnodup ws hws) (bfit ws hws)
  have iok : ∀ tf ∈ g.tfInp, tf.Ok ctx := by
    intro tf htf
    rw [tr2] at htf
    obtain ⟨ws, hws, rfl⟩ := List.mem_map.1 htf
    exact (tr1 ws hws).ok
  have e1 : (no + ni) * cols * (ctx.n + ctx.t) = no * cols * (ctx.n + ctx.t) + ni * cols * (ctx.n + ctx.t) := by ring
  have e2 : (no + ni) * cols * 2 * ctx.n = no * cols * 2 * ctx.n + ni * cols * 2 * ctx.n := by ring
  rw [e1] at hNr ⊢
  rw [e2] at hNz ⊢
  obtain ⟨R1, RN1, r1, r2⟩ := runRtrans_tab h hd cols g.tfOut ook (by rw [olen]; exact hno) Nr Nz G Z (by omega) (by omega)
    hG hZ hZ0
  obtain ⟨R2, RN2, r3, r4⟩ := runRtrans_tab h hd cols g.tfInp iok (by rw [ilen]; exact hni)
    (Nr - no * cols * (ctx.n + ctx.t)) (Nz - no * cols * 2 * ctx.n)
    (fun m => G (no * cols * (ctx.n + ctx.t) + m)) (fun m => Z (no * cols * 2 * ctx.n + m)) (by omega) (by omega)
    (fun m hm => hG _ (by omega)) (fun m hm => hZ _ (by omega)) (fun m hm => hZ0 _ (by omega))
  have hXdeg : ∀ b < c.blocks.length, ∀ e < cols, (keyCol lpn.keyLen K M b e).degree < (ctx.t + ctx.l : Nat) := by
    intro b hb e he
    unfold keyCol
    split_ifs with hlt
    · apply hK
      calc b * (2 * lpn.keyLen) + e < b * (2 * lpn.keyLen) + 2 * lpn.keyLen := by omega
        _ = (b + 1) * (2 * lpn.keyLen) := by ring
        _ ≤ c.blocks.length * (2 * lpn.keyLen) := Nat.mul_le_mul_right _ hb
        _ = _ := by ring
    · exact hM b hb
  obtain ⟨Y, y1, y2, y3⟩ := transform_tab h g.tfOut ook cols tp.out hto (keyCol lpn.keyLen K M) R1 RN1
    (fun k hk e he => degree_lt_mono (hXdeg k (by rw [← olen]; exact hk) e he) h.le) r1
  rw [olen] at y1 y3 r2
  have hY : ∀ b s w, c.Drives b s w → ∀ e < cols,
      (Y b e).eval (wirePos ctx.n ctx.l w) = (keyCol lpn.keyLen K M b e).eval (ofU32 (ctx.n + s)) := by
    rintro b s w ⟨ws, hb, hs⟩ e he
    obtain ⟨hslt, hsw⟩ := List.getElem?_eq_some_iff.1 hs
    have hwm : ws ∈ c.blocks := List.mem_of_getElem? hb
    have := y2 b ⟨(defaultPos ctx.n ctx.l).take ws.length, wireToPos ctx.n ctx.l ws, ⟨List.range ws.length⟩⟩ (by
      rw [hg.tfOut, List.getElem?_map, hb, Option.map_some]) e he
    simp only [] at this
    rw [(defaultPos_take (F := F) h.fit (hc.blockLen ws hwm)).2.2, List.map_map,
      apply_range _ _ _ (by intro i hi; exact List.mem_range.1 hi), Option.some.injEq] at this
    have := congrArg (fun x => x[s]?) this
    simp only [] at this
    rw [getElem?_tab _ _ _ hslt, wireToPos_eq, List.map_map, List.getElem?_map, hs, Option.map_some,
      Option.some.injEq] at this
    exact this.symm
  have hbl : ∀ w ∈ c.blocks.flatten, ∃ b s, c.Drives b s w ∧ wireToBlock c w = some b := by
    intro w hw
    obtain ⟨ws, hws, hwm⟩ := List.mem_flatten.1 hw
    obtain ⟨b, hb, rfl⟩ := List.mem_iff_getElem.1 hws
    obtain ⟨s, hs, hsw⟩ := List.mem_iff_getElem.1 hwm
    exact ⟨b, s, ⟨_, List.getElem?_eq_getElem hb, by rw [List.getElem?_eq_getElem hs, hsw]⟩,
      wireToBlock_some hc.nodup (List.getElem?_eq_getElem hb) hwm⟩
  have sel : ∀ ws, ws ∈ inps → ∃ S : Nat → F[X], (∀ e < cols, (S e).degree < (ctx.t + ctx.l + ctx.l - 1 : Nat)) ∧
      (∀ w ∈ ws, ∀ e < cols, (S e).eval (wirePos ctx.n ctx.l w)
        = (Y ((wireToBlock c w).getD 0) e).eval (wirePos ctx.n ctx.l w)) ∧
      ∀ id < ctx.n, selectInput ctx.n ctx.l id cols g.lookup
          ((List.range c.blocks.length).map fun b => (List.range cols).map fun e => (Y b e).eval (ofU32 id)) ws
        = some ((List.range cols).map fun e => (S e).eval (ofU32 id)) := by
    intro ws hws
    refine selectInput_tab h.fit hl (k := ctx.t + ctx.l) (by omega) c.blocks.length cols g.lookup
      (fun w => (wireToBlock c w).getD 0) ws (hinpl ws hws) (fun w hw => hf w (hinpd ws hws w hw)) ?_ Y y1
    intro w hw
    obtain ⟨b, s, ⟨bs, hb, _⟩, h2⟩ := hbl w (hinpd ws hws w hw)
    rw [hg.lookup, h2]
    exact ⟨rfl, (List.getElem?_eq_some_iff.1 hb).1⟩
  choose! S s1 s2 s3 using sel
  have hsel : ∀ id < ctx.n, selectAll ctx.n ctx.l id cols g
      ((List.range c.blocks.length).map fun b => (List.range cols).map fun e => (Y b e).eval (ofU32 id))
      = some ((List.range inps.length).map fun m => (List.range cols).map fun e => (S (inps.getD m []) e).eval (ofU32 id)) := by
    intro id hid
    unfold selectAll
    rw [hg.circ, mapM_some_map _ (fun ws => (List.range cols).map fun e => (S ws e).eval (ofU32 id)) _
      (fun ws hws => s3 ws hws id hid)]
    simp only [Option.bind_some]
    rw [if_neg (by omega), map_tab inps []]
    have hfl : ((List.range inps.length).map fun m => (List.range cols).map fun e =>
        (S (inps.getD m []) e).eval (ofU32 id)).flatten.length / cols = inps.length := by
      rw [flatten_length (c := cols) _ (by
        intro x hx
        obtain ⟨m, _, rfl⟩ := List.mem_map.1 hx
        simp)]
      rw [List.length_map, List.length_range]
      exact Nat.mul_div_cancel _ (by omega)
    rw [hfl]
    apply toRows_flatten
    · simp
    · intro x hx
      obtain ⟨m, _, rfl⟩ := List.mem_map.1 hx
      simp
  have hmem : ∀ m < inps.length, inps.getD m [] ∈ inps := by
    intro m hm
    rw [List.getD_eq_getElem _ _ hm]
    exact List.getElem_mem hm
  obtain ⟨I, i1, i2, i3⟩ := transform_tab h g.tfInp iok cols tp.inp hti (fun m => S (inps.getD m [])) R2 RN2
    (fun m hm e he => degree_lt_mono (s1 _ (hmem m (by rw [← ilen]; exact hm)) e he) (by omega)) r3
  rw [ilen] at i1 i3 r4
  refine ⟨I, Y, i1, ?_, ?_⟩
  · intro m ws hm j w b s hj hdr e he
    obtain ⟨hmlt, hme⟩ := List.getElem?_eq_some_iff.1 hm
    have hws : ws ∈ inps := List.mem_of_getElem? hm
    have spec := tr1 ws hws
    have := i2 m (tr ws) (by rw [tr2, List.getElem?_map, hm, Option.map_some]) e he
    rw [spec.old, spec.new, wireToPos_eq, List.map_map, spec.act, Option.some.injEq,
      (defaultPos_take (F := F) h.fit (hinpl ws hws)).2.2, List.map_map] at this
    have := congrArg (fun x => x[j]?) this
    have hjlt := (List.getElem?_eq_some_iff.1 hj).1
    rw [getElem?_tab _ _ _ hjlt, List.getElem?_map, hj, Option.map_some, Option.some.injEq] at this
    simp only [Function.comp_apply] at this
    rw [← this, List.getD_eq_getElem?_getD, hm, Option.getD_some, s2 ws hws w (List.mem_of_getElem? hj) e he]
    obtain ⟨bs, hb, hs⟩ := hdr
    rw [wireToBlock_some hc.nodup hb (List.mem_of_getElem? hs), Option.getD_some]
    exact hY b s w ⟨bs, hb, hs⟩ e he
  · unfold garbleInputs
    rw [hg.lpnEq, hcols, hpr, hpz, r2]
    simp only [Option.bind_some]
    rw [r4]
    simp only [Option.bind_some]
    have hin : pre.mapM (outInput g.circ.blocks.length lpn.keyLen)
        = some (tab2 ctx.n c.blocks.length cols (keyCol lpn.keyLen K M)) := by
      have hd' : pre = (List.range pre.length).map fun i => pre.getD i ⟨[], ⟨(0, 0, 0), []⟩, [], [], []⟩ := by
        have := map_tab pre ⟨[], ⟨(0, 0, 0), []⟩, [], [], []⟩ id
        simpa using this
      rw [hd', hpl, hg.circ]
      unfold tab2
      apply mapM_tab
      intro i hi
      have hi' : i < pre.length := by omega
      rw [← hcols]
      apply outInput_tab
      · have := congrArg (fun x => x[i]?) hpk
        rw [tabShares_row _ _ _ _ hi, List.getElem?_map, List.getElem?_eq_getElem hi', Option.map_some,
          Option.some.injEq] at this
        rw [List.getD_eq_getElem _ _ hi', this]
      · have := congrArg (fun x => x[i]?) hpm
        rw [tabShares_row _ _ _ _ hi, List.getElem?_map, List.getElem?_eq_getElem hi', Option.map_some,
          Option.some.injEq] at this
        rw [List.getD_eq_getElem _ _ hi', this]
    rw [hin]
    simp only [Option.bind_some]
    have hro : ∀ (R RN : Nat → Nat → F[X]) (B : Nat), (((List.range ctx.n).map fun i =>
          (((List.range B).map fun k => (List.range cols).map fun c => (R k c).eval (ofU32 i)),
           ((List.range B).map fun k => (List.range cols).map fun c => (RN k c).eval (ofU32 i)))).map (·.1)
          = tab2 ctx.n B cols R) ∧ (((List.range ctx.n).map fun i =>
          (((List.range B).map fun k => (List.range cols).map fun c => (R k c).eval (ofU32 i)),
           ((List.range B).map fun k => (List.range cols).map fun c => (RN k c).eval (ofU32 i)))).map (·.2)
          = tab2 ctx.n B cols RN) := by
      intro R RN B
      simp only [List.map_map]
      exact ⟨rfl, rfl⟩
    rw [(hro R1 RN1 _).1, (hro R1 RN1 _).2, y3]
    simp only [Option.bind_some]
    rw [mapM_range_some _ _ (fun id => (List.range inps.length).map fun m => (List.range cols).map fun e =>
      (S (inps.getD m []) e).eval (ofU32 id)) (by
        intro id hid
        rw [tab2_at _ _ _ _ _ hid]
        exact hsel id hid)]
    simp only [Option.bind_some]
    rw [(hro R2 RN2 _).1, (hro R2 RN2 _).2]
    have i3' := i3
    unfold tab2 at i3' ⊢
    rw [i3', Option.map_some, Option.some.injEq]
    simp only [Nat.sub_sub, Nat.add_assoc]

end Verif
