import Verif.EvalSpec
import Verif.EndToEndLemmas
import Verif.Props.MathMod

/-!
# Lemmas about the evaluation of garbled circuits
-/

namespace Verif

section
variable {F : Type} [CodeField F] [DecidableEq F]
variable {hash : List Nat → List Nat} {rng : List Nat → Nat → F} {ctx : Ctx F} {lpn : LpnParams} {enc : Mat F} {p : PackedCircuit} {S : Scheme F}
  {masks keys errors : List (List F)} {place : Nat → Nat × Nat} {mask : Nat → Nat} {results : List (List (List (List F)))} {gt : Gate}

/-- The tables of the code are those of `codeScheme`. -/
theorem holds_code (h : GarbledGate hash rng ctx lpn enc p masks keys errors place mask results gt) :
    HoldsGate hash rng ctx lpn enc p (codeScheme lpn.keyLen p.blocks.length masks keys place) errors place mask results gt := by
  obtain ⟨gid, x, width, h1, ⟨ws, h2, rfl⟩, h3⟩ := h
  refine ⟨gid, x, ws, h1, h2, fun r hr a ha => ?_⟩
  obtain ⟨shares, ps, secrets, k1, k2, k3, k4⟩ := h3 r hr a ha
  refine ⟨shares, ps, secrets, k1, k2, k3, k4.trans ?_⟩
  congr 2
  · funext b
    cases gt <;> rfl
  · funext j
    simp only [codeScheme, h1]

/-- The row which an evaluator opens. -/
theorem openRow_eq {gid x width : Nat} {f : Nat → F} {r : Nat} (hne : ∃ ps : PackedSharing F, PackedSharing.new (ctx.t + 2 * ctx.l - 2) ctx.n ((defaultPos ctx.n ctx.l).take width) = some ps)
    (h : ∀ a < lpn.mssgLen, ∃ shares ps secrets,
      entryShares results gid r a = some shares ∧
      PackedSharing.new (ctx.t + 2 * ctx.l - 2) ctx.n ((defaultPos ctx.n ctx.l).take width) = some ps ∧
      ps.recon shares = some (.ok secrets) ∧ secrets[x]? = some (f a)) :
    openRow ctx lpn.mssgLen width results gid r x = some ((List.range lpn.mssgLen).map f) := by
  obtain ⟨ps, hps⟩ := hne
  unfold openRow
  rw [hps, Option.bind_some]
  refine mapM_range_some _ _ _ fun a ha => ?_
  obtain ⟨shares, ps', secrets, h1, h2, h3, h4⟩ := h a ha
  rw [hps, Option.some.injEq] at h2
  subst h2
  rw [h1, Option.bind_some, h3]
  exact h4

omit [DecidableEq F] in
theorem unmask_map {nonce : List Nat} {key : Nat → F} {r x : Nat} {f : Nat → F} :
    unmaskRow rng ctx.l lpn nonce key r x ((List.range lpn.mssgLen).map f) = (List.range lpn.mssgLen).map fun a =>
      f a - ∑ b ∈ Finset.range lpn.keyLen, rng nonce (((r * lpn.mssgLen + a) * lpn.keyLen + b) * ctx.l + x) * key b := by
  unfold unmaskRow
  apply List.ext_getElem
  · simp
  · intro i h1 h2
    simp

theorem evalRow_lt {c0 c1 : Nat} (kind : GateKind) (h0 : c0 < 2) (h1 : kind ≠ .inv → c1 < 2) : evalRow kind c0 c1 < kind.numRows := by
  cases kind
  · have := h1 (by simp)
    simp only [evalRow, GateKind.numRows]
    omega
  · have := h1 (by simp)
    simp only [evalRow, GateKind.numRows]
    omega
  · exact h0

/-- One gate: if the evaluator holds the labels which the gate uses, it gets the message of the chosen row, and no other one. -/
theorem decrypts_iff (henc : rsGenMat (lpn.keyLen + 1) lpn.mssgLen = some enc) (hcode : lpn.mssgLen < CodeField.order F)
    (hlen : lpn.keyLen + 1 ≤ lpn.mssgLen) {e : Nat} (he : 2 * e < lpn.mssgLen - lpn.keyLen)
    (h : HoldsGate hash rng ctx lpn enc p S errors place mask results gt) {gates : List Gate} (hgt : gt ∈ gates)
    (hfew : FewErrors p lpn.mssgLen errors e place gates) {colour : Nat → Nat} {lab : Nat → Nat → F}
    (hcol : ∀ w ∈ gt.inWires, colour w < 2) (hlab : ∀ w ∈ gt.inWires, ∀ j < lpn.keyLen, lab w j = S.key w (colour w) j) (m : List F) :
    Decrypts hash rng ctx lpn enc p place results e colour lab gt m ↔
      m = (List.range (lpn.keyLen + 1)).map (S.msg gt.outWire (S.row gt.kind
        (evalRow gt.kind (colour (gt.inWires.getD 0 0)) (colour (gt.inWires.getD 1 0)))
        (mask (gt.inWires.getD 0 0)) (mask (gt.inWires.getD 1 0)) (mask gt.outWire))) := by
  obtain ⟨gid, x, ws, h1, h2, h3⟩ := h
  have hm0 : gt.inWires.getD 0 0 ∈ gt.inWires := by cases gt <;> simp [Gate.inWires]
  have hm1 : gt.kind ≠ .inv → gt.inWires.getD 1 0 ∈ gt.inWires := by cases gt <;> simp [Gate.inWires, Gate.kind]
  have hr := evalRow_lt gt.kind (hcol _ hm0) fun hk => hcol _ (hm1 hk)
  set r := evalRow gt.kind (colour (gt.inWires.getD 0 0)) (colour (gt.inWires.getD 1 0)) with hrdef
  set msg := S.msg gt.outWire (S.row gt.kind r (mask (gt.inWires.getD 0 0)) (mask (gt.inWires.getD 1 0)) (mask gt.outWire)) with hmsg
  obtain ⟨_, ps, _, _, hps, _⟩ := h3 r hr 0 (by omega)
  have hopen := openRow_eq (lpn := lpn) (r := r) ⟨ps, hps⟩ fun a ha => h3 r hr a ha
  -- the key
  have hkey : ∀ b < lpn.keyLen, evalKey gt.kind (lab (gt.inWires.getD 0 0)) (lab (gt.inWires.getD 1 0)) b
      = (match gt.kind with
          | .inv => S.key (gt.inWires.getD 0 0) r
          | _ => fun b => S.key (gt.inWires.getD 0 0) (r / 2) b + S.key (gt.inWires.getD 1 0) (r % 2) b) b := by
    intro b hb
    have e0 := hlab _ hm0 b hb
    by_cases hk : gt.kind = .inv
    · rw [hrdef, hk]
      simpa [evalKey, evalRow] using e0
    · have e1 := hlab _ (hm1 hk) b hb
      have c1 := hcol _ (hm1 hk)
      have hr2 : r = 2 * colour (gt.inWires.getD 0 0) + colour (gt.inWires.getD 1 0) := by
        rw [hrdef]
        cases hkk : gt.kind
        · rfl
        · rfl
        · exact absurd hkk hk
      have d0 : r / 2 = colour (gt.inWires.getD 0 0) := by omega
      have d1 : r % 2 = colour (gt.inWires.getD 1 0) := by omega
      rw [d0, d1]
      cases hkk : gt.kind
      · simp only [evalKey, e0, e1]
      · simp only [evalKey, e0, e1]
      · exact absurd hkk hk
  -- the word
  have hword : unmaskRow rng ctx.l lpn (hash (p.nonceString ctx.l gid))
      (evalKey gt.kind (lab (gt.inWires.getD 0 0)) (lab (gt.inWires.getD 1 0))) r x
      ((List.range lpn.mssgLen).map fun a => rowSecret rng ctx.l lpn enc (hash (p.nonceString ctx.l gid))
        (match gt.kind with
          | .inv => S.key (gt.inWires.getD 0 0) r
          | _ => fun b => S.key (gt.inWires.getD 0 0) (r / 2) b + S.key (gt.inWires.getD 1 0) (r % 2) b)
        msg (at2 errors (p.errorIdx lpn.mssgLen gid r a) x) r a x)
      = (List.range lpn.mssgLen).map fun a =>
          ∑ j ∈ Finset.range (lpn.keyLen + 1), enc.entry a j * msg j + at2 errors (p.errorIdx lpn.mssgLen gid r a) x := by
    rw [unmask_map]
    refine List.map_congr_left fun a _ => ?_
    unfold rowSecret
    rw [← Finset.sum_congr rfl fun b hb => congrArg _ (hkey b (Finset.mem_range.1 hb))]
    ring
  have hmul := mulVec_entry henc hcode msg
  have hd : hdist ((List.range lpn.mssgLen).map fun a => ∑ j ∈ Finset.range (lpn.keyLen + 1), enc.entry a j * msg j)
      ((List.range lpn.mssgLen).map fun a =>
          ∑ j ∈ Finset.range (lpn.keyLen + 1), enc.entry a j * msg j + at2 errors (p.errorIdx lpn.mssgLen gid r a) x) ≤ e := by
    refine le_trans (le_of_eq ?_) (hfew gt hgt gid x h1 r hr)
    rw [hdist_tab]
    congr 1
    refine List.filter_congr fun a _ => ?_
    simp
  constructor
  · rintro ⟨gid', x', ws', row, code, d1, d2, d3, d4, d5, d6⟩
    rw [h1, Prod.mk.injEq] at d1
    obtain ⟨hgid, rfl⟩ := d1
    have hgid : gid' = gid := by omega
    subst hgid
    rw [h2, Option.some.injEq] at d2
    subst d2
    rw [hopen, Option.some.injEq] at d3
    subst d3
    replace d6 := le_of_eq_of_le (congrArg _ hword.symm) d6
    exact Props.C10_unique_decoding (lpn.keyLen + 1) lpn.mssgLen e (by omega) hlen hcode (by omega) enc henc _ _ _ _ _ (by simp) d4
      (by simp) d5 hmul d6 hd
  · rintro rfl
    refine ⟨gid, x, ws, _, _, h1, h2, hopen, by simp, hmul, ?_⟩
    exact le_of_eq_of_le (congrArg _ hword) hd

omit [CodeField F] [DecidableEq F] in
/-- The block and the slot of the output wire of a gate. -/
theorem gate_place {c : Circuit} (hc : c.WF) (hp : c.pack ctx.l = some p) (hplace : ∀ w ∈ p.blocks.flatten, p.Drives (place w).1 (place w).2 w)
    (hgt : gt ∈ c.gates) : ∃ gid x ws, place gt.outWire = (p.inputs.length + gid, x) ∧ p.blocks[p.inputs.length + gid]? = some ws ∧
      ws[x]? = some gt.outWire ∧ gid < p.gates.length := by
  obtain ⟨hperm, hblk⟩ := Props.C23_partition c ctx.l p hp
  have ok := pack_ok hc hp
  obtain ⟨gate, hgate, hin⟩ := List.mem_flatMap.1 (hperm.mem_iff.2 hgt)
  obtain ⟨gid, hgid, rfl⟩ := List.mem_iff_getElem.1 hgate
  obtain ⟨x, hxl, hxe⟩ := List.mem_iff_getElem.1 hin
  have hx : (Props.unpack p.gates[gid])[x]? = some gt := by rw [List.getElem?_eq_getElem hxl, hxe]
  have hg : p.gates[gid]? = some p.gates[gid] := List.getElem?_eq_getElem hgid
  obtain ⟨hkind, hout, hinp⟩ := unpack_get (hblk _ hgate).1 hx
  have hblock : p.blocks[p.inputs.length + gid]? = some p.gates[gid].out := by
    unfold PackedCircuit.blocks
    rw [List.getElem?_append_right (by omega), Nat.add_sub_cancel_left, List.getElem?_map, hg, Option.map_some]
  have hdrive : p.Drives (p.inputs.length + gid) x gt.outWire := ⟨_, hblock, hout⟩
  have hmem : gt.outWire ∈ p.blocks.flatten := List.mem_flatten.2 ⟨_, List.mem_of_getElem? hblock, List.mem_of_getElem? hout⟩
  obtain ⟨e1, e2⟩ := drives_unique ok.nodup (hplace _ hmem) hdrive
  exact ⟨gid, x, _, Prod.ext e1 e2, hblock, hout, hgid⟩

/-- There are tables for every scheme. -/
theorem tables_exist (good : ctx.Good) (parties : ctx.t + 2 * ctx.l ≤ ctx.n) {c : Circuit} (hc : c.WF) (hp : c.pack ctx.l = some p)
    (hplace : ∀ w ∈ p.blocks.flatten, p.Drives (place w).1 (place w).2 w) :
    ∃ results, ∀ gt ∈ c.gates, HoldsGate hash rng ctx lpn enc p S errors place mask results gt := by
  classical
  have hl := good.posL
  have ok := pack_ok hc hp
  -- the gate in a slot
  have hfun : ∀ gid x, ∃ gt : Gate, ∀ gt' ∈ c.gates, place gt'.outWire = (p.inputs.length + gid, x) → gt' = gt := by
    intro gid x
    by_cases h : ∃ gt ∈ c.gates, place gt.outWire = (p.inputs.length + gid, x)
    · obtain ⟨gt, hgt, h1⟩ := h
      refine ⟨gt, fun gt' hgt' h2 => ?_⟩
      have hnd := (topological_outs hc.topo).1
      obtain ⟨ga, xa, ws, a1, a2, a3, _⟩ := gate_place hc hp hplace hgt
      obtain ⟨gb, xb, ws', b1, b2, b3, _⟩ := gate_place hc hp hplace hgt'
      rw [h1, Prod.mk.injEq] at a1
      rw [h2, Prod.mk.injEq] at b1
      rw [← a1.1] at a2
      rw [← b1.1, a2, Option.some.injEq] at b2
      subst b2
      rw [← a1.2] at a3
      rw [← b1.2, a3, Option.some.injEq] at b3
      exact (List.inj_on_of_nodup_map hnd hgt hgt' b3).symm
    · exact ⟨.inv ⟨#v[0], 0⟩, fun gt' hgt' h2 => absurd ⟨gt', hgt', h2⟩ h⟩
  choose gateAt hgate using hfun
  set sec : Nat → Nat → Nat → Nat → F := fun gid r a x =>
    rowSecret rng ctx.l lpn enc (hash (p.nonceString ctx.l gid))
      (match (gateAt gid x).kind with
        | .inv => S.key ((gateAt gid x).inWires.getD 0 0) r
        | _ => fun b => S.key ((gateAt gid x).inWires.getD 0 0) (r / 2) b + S.key ((gateAt gid x).inWires.getD 1 0) (r % 2) b)
      (S.msg (gateAt gid x).outWire (S.row (gateAt gid x).kind r (mask ((gateAt gid x).inWires.getD 0 0)) (mask ((gateAt gid x).inWires.getD 1 0))
        (mask (gateAt gid x).outWire)))
      (at2 errors (p.errorIdx lpn.mssgLen gid r a) x) r a x with hsec
  -- shares
  have hshare : ∀ gid r a, ∃ shares : Nat → F, ∀ ws, p.blocks[p.inputs.length + gid]? = some ws → ∃ ps : PackedSharing F,
      PackedSharing.new (ctx.t + 2 * ctx.l - 2) ctx.n ((defaultPos ctx.n ctx.l).take ws.length) = some ps ∧
      ps.recon ((List.range ctx.n).map shares) = some (.ok ((List.range ws.length).map (sec gid r a))) := by
    intro gid r a
    cases hb : p.blocks[p.inputs.length + gid]? with
    | none => exact ⟨fun _ => 0, fun _ h => by cases h⟩
    | some ws =>
      have hws : ws.length ≤ ctx.l := ok.blockLen _ (List.mem_of_getElem? hb)
      have hlen : ((defaultPos ctx.n ctx.l : List F).take ws.length).length = ws.length := by
        rw [List.length_take, defaultPos_length, Nat.min_eq_left hws]
      have hgp : GoodPos ctx.n ((defaultPos ctx.n ctx.l : List F).take ws.length) := by
        have h := defaultPos_good (F := F) good.fit
        exact ⟨h.nodup.sublist (List.take_sublist _ _), fun i hi hm => h.disj i hi (List.mem_of_mem_take hm), h.small⟩
      obtain ⟨ps, hps, h⟩ := Props.C14_share_recon (ctx.t + 2 * ctx.l - 2) ctx.n _ hgp (by omega) (by omega)
      obtain ⟨shares, -, ⟨q, hq, hsh, -⟩, -, hrec⟩ := h ((List.range ws.length).map (sec gid r a))
        (List.replicate (ctx.t + 2 * ctx.l - 2 + 1 - ((defaultPos ctx.n ctx.l : List F).take ws.length).length) 0) (by simp [hlen]) (by simp)
      refine ⟨fun i => q.eval (CodeField.ofU32 i), fun ws' h' => ?_⟩
      cases h'
      refine ⟨ps, hps, ?_⟩
      rw [hsh] at hrec
      exact hrec
  choose shares hshares using hshare
  refine ⟨(List.range ctx.n).map fun i => (List.range p.gates.length).map fun gid => (List.range 4).map fun r =>
    (List.range lpn.mssgLen).map fun a => shares gid r a i, fun gt hgt => ?_⟩
  obtain ⟨gid, x, ws, h1, h2, h3, h4⟩ := gate_place hc hp hplace hgt
  have hg := hgate gid x gt hgt h1
  refine ⟨gid, x, ws, h1, h2, fun r hr a ha => ?_⟩
  obtain ⟨ps, hps, hrec⟩ := hshares gid r a ws h2
  refine ⟨_, ps, _, ?_, hps, hrec, ?_⟩
  · unfold entryShares
    rw [List.mapM_map]
    refine mapM_range_some _ _ _ fun i hi => ?_
    have hr4 : r < 4 := lt_of_lt_of_le hr (by cases gt.kind <;> simp [GateKind.numRows])
    simp [h4, hr4, ha]
  · have hx : x < ws.length := (List.getElem?_eq_some_iff.1 h3).1
    rw [List.getElem?_map, List.getElem?_range hx, Option.map_some, hsec, hg]
    rfl

end

end Verif
