import Verif.PrivacyNetJobs
import Verif.Props.AsyncComm
import Verif.Props.PrivacyPreproc

/-!
# C92: what the parties learn when `preproc` and `garble` run over the TCP network

C89, C90 and C91 are about sequential executions, in which a corrupted party sees the messages which it gets.  Here the
protocols run as concurrent tasks over the network, in an arbitrary schedule, and the corrupted parties moreover see
when messages come, in which pieces and in which order, what is left in their own queues and buffers, how many bytes are under
way between all other parties, and how far these are.  This tells them nothing more.
-/

open Verif

namespace Verif.Props

section
variable {F : Type} [CodeField F] [DecidableEq F]

/-- Two runs of `preproc` in which the parties of `Cs` see the same. -/
theorem preproc_alike {c : Codec F} {ctx : Ctx F} {m mb : Mat F} {d : PreProcCount} (P : PreParams c ctx m mb d) {B : Nat}
    (hB : 0 < B) (hw : c.Width B) (hr : B * (d.numKeys + d.randoms + 3 * d.errors) < 2 ^ 63)
    (hz : B * (d.zeros + 2 * d.errors) < 2 ^ 63) (hb : B * (d.masks + 2 * d.errors) < 2 ^ 63) {id : ProtocolID}
    (hid : id.length ≤ 250) {Cs : Finset Nat} (hC : ∀ q ∈ Cs, q < ctx.n) {tp tp' : PreTapes F}
    (ht : tp.Ok ctx.n ctx.t ctx.l m mb d) (ht' : tp'.Ok ctx.n ctx.t ctx.l m mb d)
    (hv : ∀ q ∈ Cs, ∃ v, preprocView c ctx m mb d tp id q = some v ∧ preprocView c ctx m mb d tp' id q = some v) :
    (∀ q ∈ Cs, tp.own q = tp'.own q) ∧
      ∃ jobs jobs', preprocJobs c ctx m mb d tp id = some jobs ∧ preprocJobs c ctx m mb d tp' id = some jobs' ∧
        NetAlike ctx.n Cs jobs jobs' := by
  obtain ⟨ids, br, bz, bb, H⟩ := P.hyp id
  obtain ⟨jobs, outs, a1, a2, a3, a4, a5, -⟩ := preproc_net c P.codec B hB hw ctx P.parties m mb d hr hz hb tp id hid _ (H.preproc ht)
  obtain ⟨jobs', outs', b1, b2, b3, b4, b5, -⟩ := preproc_net c P.codec B hB hw ctx P.parties m mb d hr hz hb tp' id hid _ (H.preproc ht')
  have hview : ∀ q ∈ Cs, tp.own q = tp'.own q ∧
      (jobs.map fun job => (List.range ctx.n).map fun p => job.proto.between ctx.n (seqEnv outs job.deps) p q)
        = jobs'.map fun job => (List.range ctx.n).map fun p => job.proto.between ctx.n (seqEnv outs' job.deps) p q := by
    intro q hq
    obtain ⟨v, h1, h2⟩ := hv q hq
    unfold preprocView at h1 h2
    rw [a1, Option.bind_some, a2, Option.map_some, Option.some.injEq] at h1
    rw [b1, Option.bind_some, b2, Option.map_some, Option.some.injEq, ← h1, Prod.mk.injEq] at h2
    exact ⟨h2.1.symm, h2.2.symm⟩
  have hsz : ∃ sizes, errorBatches d.errors ctx.n = some sizes := by
    unfold errorBatches
    rw [if_neg (by have := P.mult; omega)]
    exact ⟨_, rfl⟩
  obtain ⟨sizes, hsz⟩ := hsz
  have f1 := preproc_follows hw a1 a5 a2 H.br H.bz H.bb hsz
  have f2 := preproc_follows hw b1 b5 b2 H.br H.bz H.bb hsz
  have tw : SeqTwin ctx.n Cs jobs jobs' outs outs' :=
    ⟨preprocJobs_twin a1 b1 (ht.errs.1.trans ht'.errs.1.symm) fun q hq => (hview q hq).1,
      fun j job job' hj hj' p hp q hq => f1.lens f2 j job job' hj hj' p hp q hq,
      fun j job job' hj hj' p hp q _ hc => view_between (hview q hc).2 j job job' hj hj' p hp⟩
  exact ⟨fun q hq => (hview q hq).1, jobs, jobs', a1, b1, tw.net hC a2 b2 a3 b3 a4 b4⟩

/-- Two runs of `garble` in which the parties of `Cs` see the same. -/
theorem garble_alike {hash : List Nat → List Nat} {rng : List Nat → Nat → F} {ctx : Ctx F} {lpn : LpnParams}
    {circ : PackedCircuit} {g : GarbleCtx F} {tp : GarbleTapes F} {d : PreProcCount} {c : Codec F} {lead : ProtocolID → Nat}
    (P : GarbleParams hash rng ctx lpn circ g tp d) (hc : c.Ok) {B : Nat} (hB : 0 < B) (hw : c.Width B) {seahash : List Nat → Nat}
    (hlead : ∀ id, chooseLeader seahash id none ctx.n = some (lead id))
    (hb : B * (2 * ((ctx.n + ctx.t) * (2 * lpn.keyLen + 1))) < 2 ^ 63) (hK : B * (3 * (lpn.keyLen + 1)) < 2 ^ 63) {id : ProtocolID}
    (hid : id.length ≤ 239) {ids : List ProtocolID}
    (hids : garbleIdsOf id circ.inputs.length ctx.l (circ.gates.map PackedGate.kind) = some ids) {Cs : Finset Nat}
    (hC : ∀ q ∈ Cs, q < ctx.n) {M M' : GarbleSecrets F} (hM : M.Fit ctx.l d) (hM' : M'.Fit ctx.l d) (w : GarbleWorld ctx d M)
    (w' : GarbleWorld ctx d M')
    (hv : ∀ q ∈ Cs, ∃ v, garbleView c ctx g lead tp ((List.range ctx.n).map w.material) id q = some v ∧
      garbleView c ctx g lead tp ((List.range ctx.n).map w'.material) id q = some v) :
    (∀ q ∈ Cs, w.material q = w'.material q) ∧
      ∃ jobs jobs', garbleJobs c ctx g lead tp ((List.range ctx.n).map w.material) id = some jobs ∧
        garbleJobs c ctx g lead tp ((List.range ctx.n).map w'.material) id = some jobs' ∧ NetAlike ctx.n Cs jobs jobs' := by
  obtain ⟨go, gi, hG⟩ := P.prepared
  obtain ⟨tables, st, _, -, hgar, -⟩ := garble_rows (P.setup hM w)
  obtain ⟨tables', st', _, -, hgar', -⟩ := garble_rows (P.setup hM' w')
  obtain ⟨jobs, outs, a1, -, a2, a3, a4, -⟩ := garble_net c hc B hB hw ctx hash rng lpn circ g P.new seahash lead hlead tp _ (by simp)
    hb hK id hid ids hids tables st hgar
  obtain ⟨jobs', outs', b1, -, b2, b3, b4, -⟩ := garble_net c hc B hB hw ctx hash rng lpn circ g P.new seahash lead hlead tp _ (by simp)
    hb hK id hid ids hids tables' st' hgar'
  have hview : ∀ q ∈ Cs, ((List.range ctx.n).map w.material)[q]? = ((List.range ctx.n).map w'.material)[q]? ∧
      (jobs.map fun job => (List.range ctx.n).map fun p => job.proto.between ctx.n (seqEnv outs job.deps) p q)
        = jobs'.map fun job => (List.range ctx.n).map fun p => job.proto.between ctx.n (seqEnv outs' job.deps) p q := by
    intro q hq
    obtain ⟨v, h1, h2⟩ := hv q hq
    unfold garbleView at h1 h2
    rw [a1, Option.bind_some, a2, Option.map_some, Option.some.injEq] at h1
    rw [b1, Option.bind_some, b2, Option.map_some, Option.some.injEq, ← h1, Prod.mk.injEq] at h2
    exact ⟨h2.1.symm, h2.2.symm⟩
  have hids' : garbleIdsOf id g.circ.inputs.length ctx.l (g.circ.gates.map PackedGate.kind) = some ids := by
    rw [hG.circ]
    exact hids
  have f1 := garble_follows hw hgar hids' a1 a2
  have f2 := garble_follows hw hgar' hids' b1 b2
  have tw : SeqTwin ctx.n Cs jobs jobs' outs outs' :=
    ⟨garbleJobs_twin a1 b1 fun q hq => (hview q hq).1,
      fun j job job' hj hj' p hp q hq => f1.lens f2 j job job' hj hj' p hp q hq,
      fun j job job' hj hj' p hp q _ hc => view_between (hview q hc).2 j job job' hj hj' p hp⟩
  refine ⟨fun q hq => ?_, jobs, jobs', a1, b1, ?_⟩
  · have h1 := (hview q hq).1
    rw [List.getElem?_map, List.getElem?_map, List.getElem?_range (hC q hq), Option.map_some, Option.map_some, Option.some.injEq] at h1
    exact h1
  · have : Inhabited (GOut F) := ⟨.vec []⟩
    exact tw.net hC a2 b2 a3 b3 a4 b4

/-- C92, `preproc`: parties which learn nothing in sequential executions learn nothing over the network. -/
theorem C92_preproc {c : Codec F} {ctx : Ctx F} {m mb : Mat F} {d : PreProcCount} (P : PreParams c ctx m mb d) (B : Nat)
    (hB : 0 < B) (hw : c.Width B) (hr : B * (d.numKeys + d.randoms + 3 * d.errors) < 2 ^ 63)
    (hz : B * (d.zeros + 2 * d.errors) < 2 ^ 63) (hb : B * (d.masks + 2 * d.errors) < 2 ^ 63) (id : ProtocolID)
    (hid : id.length ≤ 250) (Cs : Finset Nat) (hC : ∀ q ∈ Cs, q < ctx.n) (h : PreprocPrivate c ctx m mb d id Cs) :
    PreprocNetPrivate c ctx m mb d id Cs := by
  intro S S' hS hS'
  obtain ⟨e, he⟩ := h S S' hS hS'
  exact ⟨e, fun tp => preproc_alike P hB hw hr hz hb hid hC tp.2.1 (e tp).2.1 (he tp)⟩

/-- C92, `garble`. -/
theorem C92_garble {hash : List Nat → List Nat} {rng : List Nat → Nat → F} {ctx : Ctx F} {lpn : LpnParams}
    {circ : PackedCircuit} {g : GarbleCtx F} {tp : GarbleTapes F} {d : PreProcCount} {c : Codec F} {lead : ProtocolID → Nat}
    (P : GarbleParams hash rng ctx lpn circ g tp d) (hc : c.Ok) (B : Nat) (hB : 0 < B) (hw : c.Width B) (seahash : List Nat → Nat)
    (hlead : ∀ id, chooseLeader seahash id none ctx.n = some (lead id))
    (hb : B * (2 * ((ctx.n + ctx.t) * (2 * lpn.keyLen + 1))) < 2 ^ 63) (hK : B * (3 * (lpn.keyLen + 1)) < 2 ^ 63) (id : ProtocolID)
    (hid : id.length ≤ 239) (hids : (garbleIdsOf id circ.inputs.length ctx.l (circ.gates.map PackedGate.kind)).isSome)
    (Cs : Finset Nat) (hC : ∀ q ∈ Cs, q < ctx.n) (h : GarblePrivate c ctx g lead tp d id Cs) :
    GarbleNetPrivate c ctx g lead tp d id Cs := by
  obtain ⟨ids, hids⟩ := Option.isSome_iff_exists.1 hids
  intro M M' hM hM'
  obtain ⟨e, he⟩ := h M M' hM hM'
  exact ⟨e, fun w => garble_alike P hc hB hw hlead hb hK hid hids hC hM hM' w (e w) (he w)⟩

/-- C92, `preproc` followed by `garble` with the resulting material. -/
theorem C92_run {hash : List Nat → List Nat} {rng : List Nat → Nat → F} {ctx : Ctx F} {lpn : LpnParams}
    {circ : PackedCircuit} {g : GarbleCtx F} {gtp : GarbleTapes F} {d : PreProcCount} {c : Codec F} {lead : ProtocolID → Nat}
    {m mb : Mat F} (P : PreParams c ctx m mb d) (G : GarbleParams hash rng ctx lpn circ g gtp d) (B : Nat) (hB : 0 < B)
    (hw : c.Width B) (hr : B * (d.numKeys + d.randoms + 3 * d.errors) < 2 ^ 63) (hz : B * (d.zeros + 2 * d.errors) < 2 ^ 63)
    (hb : B * (d.masks + 2 * d.errors) < 2 ^ 63) (seahash : List Nat → Nat)
    (hlead : ∀ id, chooseLeader seahash id none ctx.n = some (lead id))
    (hb' : B * (2 * ((ctx.n + ctx.t) * (2 * lpn.keyLen + 1))) < 2 ^ 63) (hK : B * (3 * (lpn.keyLen + 1)) < 2 ^ 63)
    (id gid : ProtocolID) (hid : id.length ≤ 250) (hgid : gid.length ≤ 239)
    (hids : (garbleIdsOf gid circ.inputs.length ctx.l (circ.gates.map PackedGate.kind)).isSome)
    (Cs : Finset Nat) (hC : ∀ q ∈ Cs, q < ctx.n) (h : RunPrivate c ctx m mb d id g lead gtp gid Cs) :
    RunNetPrivate c ctx m mb d id g lead gtp gid Cs := by
  obtain ⟨ids, hids⟩ := Option.isSome_iff_exists.1 hids
  obtain ⟨pids, br, bz, bb, H⟩ := P.hyp id
  have hmat : ∀ {S : PreSecrets F} (hS : S.Fit ctx.l d) (x : TapesWith ctx m mb d S),
      preproc ctx m mb d x.1 = some ((List.range ctx.n).map (H.world hS x).material) := by
    intro S hS x
    rw [H.preproc x.2.1]
    exact congrArg some (List.map_congr_left fun p _ => (H.world_material hS x p).symm)
  intro S S' hS hS'
  obtain ⟨e, he⟩ := h S S' hS hS'
  refine ⟨e, fun tp => ?_⟩
  obtain ⟨pre, pre', h1, h2, hv⟩ := he tp
  have a := preproc_alike P hB hw hr hz hb hid hC tp.2.1 (e tp).2.1 fun q hq => (hv q hq).1
  obtain rfl := Option.some.inj ((hmat hS tp).symm.trans h1)
  obtain rfl := Option.some.inj ((hmat hS' (e tp)).symm.trans h2)
  have b := garble_alike (params_grow G H) P.codec hB hw hlead hb' hK hgid hids hC (garble_fit hS) (garble_fit hS') (H.world hS tp)
    (H.world hS' (e tp)) fun q hq => (hv q hq).2
  refine ⟨a.1, _, _, h1, h2, fun q hq => ?_, a.2, b.2⟩
  rw [List.getElem?_map, List.getElem?_map, List.getElem?_range (hC q hq), Option.map_some, Option.map_some, b.1 q hq]

/-- C92: the schedule may depend on what happens.  If each next step is chosen by looking at what `Full.Alike` compares, the two
executions are in states which the parties of `Cs` cannot tell apart after any number of steps. -/
theorem C92_adaptive {O : Type} {n : Nat} {Cs : Finset Nat} {jobs jobs' : List (Job O)} (h : NetAlike n Cs jobs jobs')
    (A : Full O → FStep) (hA : ∀ f f' : Full O, f.Alike Cs f' → A f = A f') (k : Nat) :
    Option.Rel (Full.Alike Cs) ((Full.start n).adaptive n jobs A k) ((Full.start n).adaptive n jobs' A k) :=
  h.adaptive hA k

/-- C92, `preproc`, for the matrices of `C90_preproc_private_partial`. -/
theorem C92_preproc_private {c : Codec F} {ctx : Ctx F} {m mb : Mat F} {d : PreProcCount} (P : PreParams c ctx m mb d)
    (hm : m.AllOutputs ctx.t) (hmb : mb.UniformBits ctx.t) (B : Nat) (hB : 0 < B) (hw : c.Width B)
    (hr : B * (d.numKeys + d.randoms + 3 * d.errors) < 2 ^ 63) (hz : B * (d.zeros + 2 * d.errors) < 2 ^ 63)
    (hb : B * (d.masks + 2 * d.errors) < 2 ^ 63) (id : ProtocolID) (hid : id.length ≤ 250) (Cs : Finset Nat)
    (hC : Coalition ctx Cs) : PreprocNetPrivate c ctx m mb d id Cs :=
  C92_preproc P B hB hw hr hz hb id hid Cs hC.parties (C90_preproc_private_partial P hm hmb Cs hC id)

/-- C92, `preproc` and `garble`, for the matrices and circuits of `C91_run_private_partial`. -/
theorem C92_run_private {hash : List Nat → List Nat} {rng : List Nat → Nat → F} {ctx : Ctx F} {lpn : LpnParams}
    {circ : PackedCircuit} {g : GarbleCtx F} {gtp : GarbleTapes F} {d : PreProcCount} {c : Codec F} {lead : ProtocolID → Nat}
    {m mb : Mat F} (P : PreParams c ctx m mb d) (G : GarbleParams hash rng ctx lpn circ g gtp d) (hm : m.AllOutputs ctx.t)
    (hmb : mb.UniformBits ctx.t) (hD : circ.Hides ctx) (B : Nat) (hB : 0 < B) (hw : c.Width B)
    (hr : B * (d.numKeys + d.randoms + 3 * d.errors) < 2 ^ 63) (hz : B * (d.zeros + 2 * d.errors) < 2 ^ 63)
    (hb : B * (d.masks + 2 * d.errors) < 2 ^ 63) (seahash : List Nat → Nat)
    (hlead : ∀ id, chooseLeader seahash id none ctx.n = some (lead id))
    (hb' : B * (2 * ((ctx.n + ctx.t) * (2 * lpn.keyLen + 1))) < 2 ^ 63) (hK : B * (3 * (lpn.keyLen + 1)) < 2 ^ 63)
    (id gid : ProtocolID) (hid : id.length ≤ 250) (hgid : gid.length ≤ 239)
    (hids : (garbleIdsOf gid circ.inputs.length ctx.l (circ.gates.map PackedGate.kind)).isSome) (Cs : Finset Nat)
    (hC : Coalition ctx Cs) : RunNetPrivate c ctx m mb d id g lead gtp gid Cs :=
  C92_run P G B hB hw hr hz hb seahash hlead hb' hK id gid hid hgid hids Cs hC.parties
    (C91_run_private_partial P G hm hmb hD (fun id => (chooseLeader_lt hlead).2 id) Cs hC id gid hids)

end

/-- 16 parties, 4 of them corrupted, run `preproc` and `garble` for the half adder over the network. -/
example (Cs : Finset Nat) (h1 : ∀ p ∈ Cs, p < 16) (h2 : Cs.card ≤ 4) :
    ∃ (ctx : Ctx (GF 18)) (m mb : Mat (GF 18)) (g : GarbleCtx (GF 18)) (tp : GarbleTapes (GF 18)) (d : PreProcCount),
      ctx.n = 16 ∧ ctx.t = 4 ∧ ctx.l = 2 ∧ superInvMatrix 16 12 = some m ∧ binarySuperInvMatrix (binText Binsup.n16_t5) = some mb ∧
      exCirc.describe 16 4 2 ⟨1, 3⟩ = some d ∧ RunNetPrivate (gfCodec 18) ctx m mb d [1] g (fun id => id.sum % 16) tp [7] Cs := by
  have := charP_codeField (GF 18)
  have ho : CodeField.order (GF 18) = 2 ^ 18 := rfl
  obtain ⟨ctx, hg, hn, ht, hl⟩ := ctx18 16 4 2 (by norm_num) (by norm_num) (by norm_num)
  obtain ⟨m, hm⟩ : ∃ m : Mat (GF 18), superInvMatrix 16 12 = some m := by
    rw [superInvMatrix, rsGenCols_eq (by norm_num) (by rw [ho]; norm_num)]
    exact ⟨_, rfl⟩
  obtain ⟨mb, hmb, h3, h4, h5, h6⟩ := C12_n16_t5_partial (F := GF 18)
  have g1 := superInv_good (n := 16) (t := 4) (by norm_num) (by rw [ho]; norm_num) hm
  have g2 := read_good Binsup.n16_t5 (by decide +kernel) (by decide +kernel) hmb
  rw [show Binsup.n16_t5.lines.length = 16 by decide +kernel] at g2
  obtain ⟨g, tp, d, G⟩ := params_exist id (fun _ _ => (1 : GF 18)) hg (by omega) (by omega) ⟨1, 3⟩ (c := exCirc)
    (by rw [hl]; exact exCirc_ok) (by rw [hn, hl, ho]; decide) (by rw [ho]; decide) (by rw [hn, ht]; decide) (by decide)
  obtain ⟨d₀, hd₀, -⟩ := G.count
  have hc := hd₀
  rw [hn, ht, hl] at hc
  have hs : 3 * (d₀.numKeys + d₀.randoms + 3 * d₀.errors) < 2 ^ 63 ∧ 3 * (d₀.zeros + 2 * d₀.errors) < 2 ^ 63 ∧
      3 * (d₀.masks + 2 * d₀.errors) < 2 ^ 63 := by
    have : (exCirc.describe 16 4 2 ⟨1, 3⟩).all fun d => decide (3 * (d.numKeys + d.randoms + 3 * d.errors) < 2 ^ 63 ∧
        3 * (d.zeros + 2 * d.errors) < 2 ^ 63 ∧ 3 * (d.masks + 2 * d.errors) < 2 ^ 63) := by decide +kernel
    rw [hc] at this
    simpa using this
  refine ⟨ctx, m, mb, g, tp, d₀, hn, ht, hl, hm, hmb, hc, C92_run_private
    ⟨hg, by omega, by omega, by rw [hn]; exact g1.1, by rw [hn]; exact g2.1, g2.2, gfCodec_ok 18 (by norm_num), by omega, by omega,
      by omega⟩
    { G with count := ⟨d₀, hd₀, rfl, rfl, rfl, le_refl _, le_refl _⟩ } (by rw [ht]; exact g1.2) (by rw [ht]; exact h6) (by
      left
      rw [hl]
      unfold PackedCircuit.Distinct
      decide) 3 (by norm_num) (gfCodec_width 18 (by norm_num)) hs.1 hs.2.1 hs.2.2 List.sum (fun id => by
        unfold chooseLeader leaderFromProtoId
        have := Nat.mod_lt id.sum (show 16 > 0 by omega)
        simp only [hn]
        rw [if_neg (by omega), if_pos (by omega)]) (by rw [hn, ht]; decide) (by decide) [1] [7] (by decide) (by decide) (by rw [hl]; decide +kernel) Cs
    ⟨by rwa [hn], by rwa [ht]⟩⟩

end Verif.Props
