import Verif.AsyncNetBenchSum
import Verif.Props.AsyncComm

/-!
# The benchmark programs over the TCP network

All repetitions of `src/bin/preproc.rs` and `src/bin/garble.rs`, as concurrent tasks over the TCP network, and the numbers of
bytes which `src/protocol/network.rs` has counted at the end.
-/

open Verif

namespace Verif.Props

section
variable {O : Type}

/-! ### C86: the benchmark programs over the TCP network -/

/-- C86.  The loop of C79 over the TCP network: every schedule of all tasks of the parties and their networks ends, without
panics and deadlocks, each iteration has the results of its sequential execution, and the bytes counted at the end are those of
the iterations, of one `sync` for each iteration, and of the measurements. -/
theorem C86_loop (n : Nat) (hn : 0 < n) (bid : ProtocolID) (o : O) (save : Option (Nat → List Nat))
    (bodies : List (List (Job O))) (outs : List (List (List O)))
    (hseq : List.Forall₂ (fun b c => seqRun n b = some c) bodies outs) (hids : ∀ b ∈ bodies, IdsOk b)
    (hbid : ∀ b ∈ bodies, ∀ j ∈ b, j.id ≠ bid) (hfree : ∀ b ∈ bodies, ∃ j ∈ b, j.proto.leader = none)
    (hsz : List.Forall₂ (fun b c => SizesOk n b c) bodies outs) (hbid255 : bid.length ≤ 255)
    (hsave : ∀ data, save = some data → ∀ p < n, (data p).length < 2 ^ 63) :
    ∃ all, NetScheduleFree n (benchJobs bid o save bodies) all ∧
      ∀ (es : List FStep) (f : Full O), (Full.start n).run n (benchJobs bid o save bodies) es = some f →
        f.Stuck n (benchJobs bid o save bodies) →
        (∀ (r : Nat) (b : List (Job O)) (c : List (List O)), bodies[r]? = some b → outs[r]? = some c →
          ∀ p < n, ∀ j < b.length, benchEnv bodies (f.env p) r j = outsEnv c p j) ∧
        ∀ p < n, ∀ q < n, (f.stats q)[p]? = some ((∑ r ∈ Finset.range bodies.length, bodyBytes n bodies outs p q r)
          + bodies.length • (4, 4 + bid.length) + saveBytes bid.length save p q) := by
  have hseq' := bench_seq (bid := bid) (o := o) (save := save) hn outs hseq
  have hids' := bench_ids (bid := bid) (o := o) (save := save) hids hbid hfree
  have hsz' := bench_sizes (o := o) hseq hsz hbid255 hsave
  have hf := C81_tcp n _ _ hseq' hids' hsz'
  refine ⟨_, hf, fun es f hrun hst => ⟨fun r b c hb hc p hp j hj => ?_, fun p hp q hq => ?_⟩⟩
  · have hlen := seq_lengths hseq
    have hbl := (List.getElem?_eq_some_iff.1 hb).1
    have hcl : c.length = b.length := by
      have hcr := (List.getElem?_eq_some_iff.1 hc).1
      have := (List.forall₂_iff_get.1 hlen).2 r hbl hcr
      rw [List.getElem?_eq_getElem hbl, Option.some.injEq] at hb
      rw [List.getElem?_eq_getElem hcr, Option.some.injEq] at hc
      rw [← hb, ← hc]
      simpa using this
    unfold benchEnv
    rw [hf.env hrun hst hp (by
      have := benchStart_le hb hbl
      rw [benchJobs_length]
      omega)]
    unfold outsEnv
    rw [(benchAllOuts_get outs hlen hc).2 j (by omega)]
  · rw [C82_total n _ _ hseq' hids' hsz' ⟨o⟩ es f hrun hst q p hq hp, bench_bytes hseq p q hq]

end

section
variable {F : Type} [CodeField F] [DecidableEq F]

/-- C86, `src/bin/preproc.rs`.  Any number of repetitions of `preproc`, with or without `--save`: in every schedule all parties
finish all repetitions with the results of the sequential description, and at the end party `q` has counted, for the messages of
party `p`, the bytes of that many calls of `preproc` (C83), 4 bytes for each `sync`, and the measurements. -/
theorem C86_preproc (c : Codec F) (hc : c.Ok) (B : Nat) (hB : 0 < B) (hw : c.Width B) (ctx : Ctx F) (hn0 : 0 < ctx.n)
    (hn : ctx.n < 2 ^ 32) (m mb : Mat F) (desc : PreProcCount)
    (hr : B * (desc.numKeys + desc.randoms + 3 * desc.errors) < 2 ^ 63) (hz : B * (desc.zeros + 2 * desc.errors) < 2 ^ 63)
    (hb : B * (desc.masks + 2 * desc.errors) < 2 ^ 63) (save : Option (Nat → List Nat))
    (hsave : ∀ data, save = some data → ∀ p < ctx.n, (data p).length < 2 ^ 63) (tps : List (PreTapes F))
    (results : List (List (PreProc F)))
    (h : List.Forall₂ (fun tp res => preproc ctx m mb desc tp = some res) tps results) :
    ∃ bodies all, tps.mapM (fun tp => preprocJobs c ctx m mb desc tp []) = some bodies ∧
      NetScheduleFree ctx.n (benchJobs preprocBenchId [] save bodies) all ∧
      ∀ (es : List FStep) (f : Full (List F)),
        (Full.start ctx.n).run ctx.n (benchJobs preprocBenchId [] save bodies) es = some f →
        f.Stuck ctx.n (benchJobs preprocBenchId [] save bodies) →
        (∀ (r : Nat) (res : List (PreProc F)), results[r]? = some res →
          (List.range ctx.n).mapM (fun p => preprocResult desc ctx.n (benchEnv bodies (f.env p) r)) = some res) ∧
        ∀ p < ctx.n, ∀ q < ctx.n, (f.stats q)[p]? = some
          (tps.length • preprocBytes ctx.n B m.rows.length mb.rows.length 0 desc p q + tps.length • (4, 36) + saveBytes 32 save p q) := by
  have hlen := h.length_eq
  obtain ⟨bodies, outs, h1, h2, h3, h4⟩ := collect_bodies (tps.zip results)
    (fun x => preprocJobs c ctx m mb desc x.1 []) (fun x jobs outs => seqRun ctx.n jobs = some outs ∧ IdsOk jobs ∧
      SizesOk ctx.n jobs outs ∧ (∀ job ∈ jobs, job.id ≠ preprocBenchId) ∧ (∃ j ∈ jobs, j.proto.leader = none) ∧
      (∀ env : Nat → Env (List F), (∀ p < ctx.n, ∀ j < jobs.length, env p j = outsEnv outs p j) →
        (List.range ctx.n).mapM (fun p => preprocResult desc ctx.n (env p)) = some x.2) ∧
      ∀ p < ctx.n, ∀ q < ctx.n, ∑ j ∈ Finset.range jobs.length, jobBytes ctx.n jobs outs p q j
        = preprocBytes ctx.n B m.rows.length mb.rows.length 0 desc p q) (fun x hx => by
      obtain ⟨r, hrl, hrx⟩ := List.getElem_of_mem hx
      rw [List.length_zip, hlen, Nat.min_self] at hrl
      have hres := (List.forall₂_iff_get.1 h).2 r (by omega) hrl
      rw [List.getElem_zip] at hrx
      simp only [List.get_eq_getElem] at hres
      obtain ⟨jobs, outs, k1, k2, k3, k4, k5, k6, k7, k8⟩ := preproc_net c hc B hB hw ctx hn m mb desc hr hz hb _ [] (by simp) _ hres
      rw [← hrx]
      refine ⟨jobs, outs, k1, k2, k3, k4, fun job hjob he => ?_, preprocJobs_leaderless k1 ?_, k7, k8⟩
      · have := k6 job hjob
        rw [he] at this
        simp [preprocBenchId] at this
      · intro h0
        rw [h0, List.length_nil] at k5
        omega)
  have hzl : (tps.zip results).length = tps.length := by rw [List.length_zip, hlen, Nat.min_self]
  have hmem : ∀ b ∈ bodies, ∃ c x, (seqRun ctx.n b = some c ∧ IdsOk b ∧
      SizesOk ctx.n b c ∧ (∀ job ∈ b, job.id ≠ preprocBenchId) ∧ (∃ j ∈ b, j.proto.leader = none) ∧
      (∀ env : Nat → Env (List F), (∀ p < ctx.n, ∀ j < b.length, env p j = outsEnv c p j) →
        (List.range ctx.n).mapM (fun p => preprocResult desc ctx.n (env p)) = some x)) := by
    intro b hb
    obtain ⟨r, hrl, hrb⟩ := List.getElem_of_mem hb
    obtain ⟨x, _, q1, q2, q3, q4, q5, q6, _⟩ := h4 r b (outs[r]'(by omega)) (by rw [← hrb]; exact List.getElem?_eq_getElem _)
      (List.getElem?_eq_getElem _)
    exact ⟨_, x.2, q1, q2, q3, q4, q5, q6⟩
  obtain ⟨all, f1, f2⟩ := C86_loop ctx.n hn0 preprocBenchId [] save bodies outs
    (forall₂_of_get (by omega) fun r b c hb hc => by obtain ⟨_, _, q, _⟩ := h4 r b c hb hc; exact q)
    (fun b hb => by obtain ⟨_, _, _, q, _⟩ := hmem b hb; exact q)
    (fun b hb => by obtain ⟨_, _, _, _, _, q, _⟩ := hmem b hb; exact q)
    (fun b hb => by obtain ⟨_, _, _, _, _, _, q, _⟩ := hmem b hb; exact q)
    (forall₂_of_get (by omega) fun r b c hb hc => by obtain ⟨_, _, _, _, q, _⟩ := h4 r b c hb hc; exact q) (by decide) hsave
  refine ⟨bodies, all, ?_, f1, fun es f hrun hst => ?_⟩
  · rw [← h1]
    have : tps = (tps.zip results).map Prod.fst := (List.map_fst_zip (by omega)).symm
    conv_lhs => rw [this]
    rw [List.mapM_map]
    rfl
  obtain ⟨g1, g2⟩ := f2 es f hrun hst
  have hget : ∀ r < tps.length, ∃ b c, bodies[r]? = some b ∧ outs[r]? = some c :=
    fun r hr => ⟨_, _, List.getElem?_eq_getElem (by omega), List.getElem?_eq_getElem (by omega)⟩
  refine ⟨fun r res hres => ?_, fun p hp q hq => ?_⟩
  · have hrl := (List.getElem?_eq_some_iff.1 hres).1
    obtain ⟨b, c, hb, hc⟩ := hget r (by omega)
    obtain ⟨x, hx, _, _, _, _, _, q6, _⟩ := h4 r b c hb hc
    have hx2 : x.2 = res := by
      have := (List.getElem?_zip_eq_some.1 hx).2
      rw [hres, Option.some.injEq] at this
      exact this.symm
    rw [← hx2]
    exact q6 (fun p => benchEnv bodies (f.env p) r) fun p hp j hj => g1 r b c hb hc p hp j hj
  · rw [g2 p hp q hq]
    have hsum : ∑ r ∈ Finset.range bodies.length, bodyBytes ctx.n bodies outs p q r
        = tps.length • preprocBytes ctx.n B m.rows.length mb.rows.length 0 desc p q := by
      rw [show tps.length = (Finset.range bodies.length).card by rw [Finset.card_range, h2, hzl], ← Finset.sum_const]
      refine Finset.sum_congr rfl fun r hr => ?_
      obtain ⟨b, c, hb, hc⟩ := hget r (by have := Finset.mem_range.1 hr; omega)
      obtain ⟨x, hx, _, _, _, _, _, _, q7⟩ := h4 r b c hb hc
      unfold bodyBytes
      rw [hb, hc]
      exact q7 p hp q hq
    rw [hsum, h2, hzl]
    rfl

/-- C86, `src/bin/garble.rs`.  Any number of repetitions of `garble`, with or without `--save`: in every schedule all parties
finish all repetitions with the tables of the sequential description, and at the end party `q` has counted, for the messages of
party `p`, the bytes of that many calls of `garble` (C83), 4 bytes for each `sync`, and the measurements. -/
theorem C86_garble (c : Codec F) (hc : c.Ok) (B : Nat) (hB : 0 < B) (hw : c.Width B) (ctx : Ctx F)
    (hash : List Nat → List Nat) (rng : List Nat → Nat → F)
    (lpn : LpnParams) (circ : PackedCircuit) (g : GarbleCtx F) (hnew : GarbleCtx.new hash rng ctx lpn circ = some g)
    (seahash : List Nat → Nat) (lead : ProtocolID → Nat)
    (hlead : ∀ id, chooseLeader seahash id none ctx.n = some (lead id)) (hl : 0 < ctx.l)
    (hb : B * (2 * ((ctx.n + ctx.t) * (2 * lpn.keyLen + 1))) < 2 ^ 63) (hK : B * (3 * (lpn.keyLen + 1)) < 2 ^ 63)
    (hblocks : 0 < circ.inputs.length + circ.gates.length)
    (hsize : 4 + circ.inputs.length + 2 * circ.gates.length ≤ 2 ^ 56) (ids : List ProtocolID)
    (hids : garbleIdsOf [] circ.inputs.length ctx.l (circ.gates.map PackedGate.kind) = some ids)
    (save : Option (Nat → List Nat)) (hsave : ∀ data, save = some data → ∀ p < ctx.n, (data p).length < 2 ^ 63)
    (o : GOut F) (reps : List (GarbleRep F))
    (h : ∀ x ∈ reps, x.pre.length = ctx.n ∧ garble ctx g x.tapes x.pre = some (x.tables, x.state)) :
    ∃ bodies all, reps.mapM (fun x => garbleJobs c ctx g lead x.tapes x.pre []) = some bodies ∧
      NetScheduleFree ctx.n (benchJobs garbleBenchId o save bodies) all ∧
      ∀ (es : List FStep) (f : Full (GOut F)),
        (Full.start ctx.n).run ctx.n (benchJobs garbleBenchId o save bodies) es = some f →
        f.Stuck ctx.n (benchJobs garbleBenchId o save bodies) →
        (∀ (r : Nat) (x : GarbleRep F), reps[r]? = some x → ∀ p < ctx.n, ∃ pr mine, x.pre[p]? = some pr ∧
          garbleResult ctx g p pr (benchEnv bodies (f.env p) r) = some mine ∧ x.tables.mapM (fun T => T[p]?) = some mine) ∧
        (∀ p < ctx.n, ∀ q < ctx.n, (f.stats q)[p]? = some
          (reps.length • ((ids.zip (garblePatterns ctx.n ctx.l lpn.keyLen (circ.inputs.length + circ.gates.length)
            (circ.gates.flatMap PackedGate.inps).length (circ.gates.map PackedGate.kind) lead)).map
              fun x => (x.2 x.1).bytes B x.1.length p q).sum + reps.length • (4, 20) + saveBytes 16 save p q)) ∧
        ∑ p ∈ Finset.range ctx.n, ∑ q ∈ Finset.range ctx.n, ((f.stats q)[p]?).getD 0
          = reps.length • garbleBytes ctx.n ctx.l B lpn.keyLen 0 (circ.inputs.length + circ.gates.length)
              (circ.gates.flatMap PackedGate.inps).length (circ.gates.map PackedGate.kind)
            + (reps.length * ctx.n ^ 2) • (4, 20)
            + ∑ p ∈ Finset.range ctx.n, ∑ q ∈ Finset.range ctx.n, saveBytes 16 save p q := by
  obtain ⟨hn0, hlead'⟩ := chooseLeader_lt hlead
  have hshort : ∀ x ∈ ids, x ≠ garbleBenchId := by
    intro x hx he
    have h1 := garbleIds_short hids hl (by rw [List.length_map]; exact hsize) x hx
    rw [he] at h1
    simp [garbleBenchId] at h1
  have htout : g.tfOut ≠ [] := by
    have hnew := hnew
    unfold GarbleCtx.new at hnew
    obtain ⟨tout, n1, hnew⟩ := Option.bind_eq_some_iff.1 hnew
    obtain ⟨tinp, n2, hnew⟩ := Option.bind_eq_some_iff.1 hnew
    obtain ⟨enc, n3, hnew⟩ := Option.bind_eq_some_iff.1 hnew
    obtain ⟨nl, n4, hnew⟩ := Option.bind_eq_some_iff.1 hnew
    obtain ⟨mats, n5, hnew⟩ := Option.map_eq_some_iff.1 hnew
    have : g.tfOut.length = circ.inputs.length + circ.gates.length := by
      rw [← hnew]
      unfold Verif.tfOut at n1
      simp only [mapM_length n1, PackedCircuit.blocks, List.length_append, List.length_map]
    intro h0
    rw [h0, List.length_nil] at this
    omega
  have hidn : 0 < ids.length := by
    rw [garbleIdsOf_length hids]
    have : 0 < circ.inputs.length + (circ.gates.map PackedGate.kind).length := by
      rw [List.length_map]
      exact hblocks
    generalize (_ : Nat) / ctx.l = a
    generalize (_ : Nat) / ctx.l = b
    omega
  obtain ⟨bodies, outs, h1, h2, h3, h4⟩ := collect_bodies reps
    (fun x => garbleJobs c ctx g lead x.tapes x.pre []) (fun x jobs outs => seqRun ctx.n jobs = some outs ∧ IdsOk jobs ∧
      SizesOk ctx.n jobs outs ∧ (∀ job ∈ jobs, job.id ≠ garbleBenchId) ∧ (∃ j ∈ jobs, j.proto.leader = none) ∧
      (∀ p < ctx.n, ∀ env : Env (GOut F), (∀ j < jobs.length, env j = outsEnv outs p j) →
        ∃ pr mine, x.pre[p]? = some pr ∧ garbleResult ctx g p pr env = some mine ∧ x.tables.mapM (fun T => T[p]?) = some mine) ∧
      ∀ p < ctx.n, ∀ q < ctx.n, ∑ j ∈ Finset.range jobs.length, jobBytes ctx.n jobs outs p q j
        = ((ids.zip (garblePatterns ctx.n ctx.l lpn.keyLen (circ.inputs.length + circ.gates.length)
            (circ.gates.flatMap PackedGate.inps).length (circ.gates.map PackedGate.kind) lead)).map
              fun x => (x.2 x.1).bytes B x.1.length p q).sum) (fun x hx => by
      obtain ⟨x1, x2⟩ := h x hx
      obtain ⟨jobs, outs, k1, k2, k3, k4, k5, k6, k7⟩ := garble_net c hc B hB hw ctx hash rng lpn circ g hnew seahash lead hlead
        x.tapes x.pre x1 hb hK [] (by simp) ids hids x.tables x.state x2
      refine ⟨jobs, outs, k1, k3, k4, k5, fun job hjob => hshort _ (by rw [← k2]; exact List.mem_map_of_mem hjob),
        garbleJobs_leaderless k1 ?_ htout, k6, k7⟩
      intro h0
      rw [h0, List.map_nil] at k2
      rw [← k2, List.length_nil] at hidn
      omega)
  have hmem : ∀ b ∈ bodies, IdsOk b ∧ (∀ job ∈ b, job.id ≠ garbleBenchId) ∧ (∃ j ∈ b, j.proto.leader = none) := by
    intro b hb
    obtain ⟨r, hrl, hrb⟩ := List.getElem_of_mem hb
    obtain ⟨x, _, q1, q2, q3, q4, q5, q6, _⟩ := h4 r b (outs[r]'(by omega)) (by rw [← hrb]; exact List.getElem?_eq_getElem _)
      (List.getElem?_eq_getElem _)
    exact ⟨q2, q4, q5⟩
  obtain ⟨all, f1, f2⟩ := C86_loop ctx.n hn0 garbleBenchId o save bodies outs
    (forall₂_of_get (by omega) fun r b c hb hc => by obtain ⟨_, _, q, _⟩ := h4 r b c hb hc; exact q)
    (fun b hb => (hmem b hb).1) (fun b hb => (hmem b hb).2.1) (fun b hb => (hmem b hb).2.2)
    (forall₂_of_get (by omega) fun r b c hb hc => by obtain ⟨_, _, _, _, q, _⟩ := h4 r b c hb hc; exact q) (by decide) hsave
  refine ⟨bodies, all, h1, f1, fun es f hrun hst => ?_⟩
  obtain ⟨g1, g2⟩ := f2 es f hrun hst
  have hget : ∀ r < reps.length, ∃ b c, bodies[r]? = some b ∧ outs[r]? = some c :=
    fun r hr => ⟨_, _, List.getElem?_eq_getElem (by omega), List.getElem?_eq_getElem (by omega)⟩
  have hstats : ∀ p < ctx.n, ∀ q < ctx.n, (f.stats q)[p]? = some
      (reps.length • ((ids.zip (garblePatterns ctx.n ctx.l lpn.keyLen (circ.inputs.length + circ.gates.length)
        (circ.gates.flatMap PackedGate.inps).length (circ.gates.map PackedGate.kind) lead)).map
          fun x => (x.2 x.1).bytes B x.1.length p q).sum + reps.length • (4, 20) + saveBytes 16 save p q) := by
    intro p hp q hq
    rw [g2 p hp q hq]
    have hsum : ∑ r ∈ Finset.range bodies.length, bodyBytes ctx.n bodies outs p q r
        = reps.length • ((ids.zip (garblePatterns ctx.n ctx.l lpn.keyLen (circ.inputs.length + circ.gates.length)
        (circ.gates.flatMap PackedGate.inps).length (circ.gates.map PackedGate.kind) lead)).map
          fun x => (x.2 x.1).bytes B x.1.length p q).sum := by
      rw [show reps.length = (Finset.range bodies.length).card by rw [Finset.card_range, h2], ← Finset.sum_const]
      refine Finset.sum_congr rfl fun r hr => ?_
      obtain ⟨b, c, hb, hc⟩ := hget r (by have := Finset.mem_range.1 hr; omega)
      obtain ⟨x, hx, _, _, _, _, _, _, q7⟩ := h4 r b c hb hc
      unfold bodyBytes
      rw [hb, hc]
      exact q7 p hp q hq
    rw [hsum, h2]
    rfl
  refine ⟨fun r x hx p hp => ?_, hstats, ?_⟩
  · have hrl := (List.getElem?_eq_some_iff.1 hx).1
    obtain ⟨b, c, hb, hc⟩ := hget r (by omega)
    obtain ⟨x', hx', _, _, _, _, _, q6, _⟩ := h4 r b c hb hc
    rw [hx, Option.some.injEq] at hx'
    subst hx'
    exact q6 p hp _ fun j hj => g1 r b c hb hc p hp j hj
  · have hlens := garbleIdsOf_lens hids
    rw [List.length_map, ← flatMap_inps_length] at hlens
    have htot := C83_garble_total ctx.n ctx.l B lpn.keyLen 0 (circ.inputs.length + circ.gates.length)
      (circ.gates.flatMap PackedGate.inps).length (circ.gates.map PackedGate.kind) lead hn0 hlead' ids hlens
    rw [← htot]
    have : ∀ p ∈ Finset.range ctx.n, ∀ q ∈ Finset.range ctx.n, ((f.stats q)[p]?).getD 0
        = reps.length • ((ids.zip (garblePatterns ctx.n ctx.l lpn.keyLen (circ.inputs.length + circ.gates.length)
        (circ.gates.flatMap PackedGate.inps).length (circ.gates.map PackedGate.kind) lead)).map
          fun x => (x.2 x.1).bytes B x.1.length p q).sum + reps.length • (4, 20) + saveBytes 16 save p q := by
      intro p hp q hq
      rw [hstats p (Finset.mem_range.1 hp) q (Finset.mem_range.1 hq), Option.getD_some]
    rw [Finset.sum_congr rfl fun p hp => Finset.sum_congr rfl fun q hq => this p hp q hq]
    simp only [Finset.sum_add_distrib, Finset.sum_const, Finset.card_range, ← Finset.smul_sum]
    congr 2
    rw [smul_smul, smul_smul]
    congr 1
    ring

end

/-- Three repetitions of an exchange between all parties with 1 byte of ID and an exchange with party 0 of 10 bytes, and the
measurements of 3 bytes each at the end: what party 0 has counted for party 1, and what party 2 has counted for party 0. -/
example : ∃ all, NetScheduleFree 3 (benchJobs preprocBenchId () (some fun _ => [1, 2, 3])
      (List.replicate 3 [⟨[1], [], syncProto ()⟩, ⟨[2], [0], saveProto () fun _ => List.replicate 10 0⟩])) all ∧
    ∀ (es : List FStep) (f : Full Unit),
      (Full.start 3).run 3 (benchJobs preprocBenchId () (some fun _ => [1, 2, 3])
        (List.replicate 3 [⟨[1], [], syncProto ()⟩, ⟨[2], [0], saveProto () fun _ => List.replicate 10 0⟩])) es = some f →
      f.Stuck 3 (benchJobs preprocBenchId () (some fun _ => [1, 2, 3])
        (List.replicate 3 [⟨[1], [], syncProto ()⟩, ⟨[2], [0], saveProto () fun _ => List.replicate 10 0⟩])) →
      (f.stats 0)[1]? = some (57, 191) ∧ (f.stats 2)[0]? = some (40, 174) := by
  obtain ⟨all, h, h'⟩ := C86_loop 3 (by norm_num) preprocBenchId () (some fun _ => [1, 2, 3])
    (List.replicate 3 [⟨[1], [], syncProto ()⟩, ⟨[2], [0], saveProto () fun _ => List.replicate 10 0⟩])
    (List.replicate 3 [[(), (), ()], [(), (), ()]])
    (by
      have h1 : seqRun 3 [⟨[1], [], syncProto ()⟩, ⟨[2], [0], saveProto () fun _ => List.replicate 10 0⟩]
          = some [[(), (), ()], [(), (), ()]] := by decide
      exact .cons h1 (.cons h1 (.cons h1 .nil)))
    (fun b hb => idsOk_of_nodup b (by rw [List.eq_of_mem_replicate hb]; decide))
    (fun b hb j hj => by
      rw [List.eq_of_mem_replicate hb] at hj
      rcases List.mem_cons.1 hj with rfl | hj
      · decide
      · rw [List.mem_singleton] at hj
        subst hj
        decide)
    (fun b hb => by
      rw [List.eq_of_mem_replicate hb]
      exact ⟨_, List.mem_cons_self, rfl⟩)
    (by
      have h1 : SizesOk 3 [⟨[1], [], syncProto ()⟩, ⟨[2], [0], saveProto () fun _ => List.replicate 10 0⟩]
          [[(), (), ()], [(), (), ()]] := by
        intro job hjob
        simp only [List.mem_cons, List.not_mem_nil, or_false] at hjob
        rcases hjob with rfl | rfl
        · refine ⟨by decide, fun p hp q hq d hd => ?_⟩
          rw [between_sync, List.mem_singleton] at hd
          rw [hd]
          decide
        · refine ⟨by decide, fun p hp q hq d hd => ?_⟩
          rcases between_save _ _ _ _ _ d hd with rfl | rfl <;> decide
      exact .cons h1 (.cons h1 (.cons h1 .nil)))
    (by decide) (fun data hd p hp => by cases hd; simp)
  refine ⟨all, h, fun es f hrun hst => ?_⟩
  obtain ⟨_, h2⟩ := h' es f hrun hst
  rw [h2 1 (by norm_num) 0 (by norm_num), h2 0 (by norm_num) 2 (by norm_num)]
  decide +kernel

/-- Two repetitions of the preprocessing of C77, and measurements of 5 bytes at the end: party 2 has counted twice 63 bytes without
IDs (the 63 bytes of C83, see there) for party 0, two `sync`s, and the answer "done". -/
example : ∃ ctx bodies all, exCtx = some ctx ∧ bodies.length = 2 ∧
    NetScheduleFree 7 (benchJobs preprocBenchId ([] : List (GF 4)) (some fun _ => [1, 2, 3, 4, 5]) bodies) all ∧
    ∀ (es : List FStep) (f : Full (List (GF 4))),
      (Full.start 7).run 7 (benchJobs preprocBenchId [] (some fun _ => [1, 2, 3, 4, 5]) bodies) es = some f →
      f.Stuck 7 (benchJobs preprocBenchId [] (some fun _ => [1, 2, 3, 4, 5]) bodies) →
      (f.stats 2)[0]? = some (138, 248) ∧ (f.stats 0)[2]? = some (139, 249) := by
  obtain ⟨ctx, hctx, hg, hn, ht, hl⟩ := exCtx_good
  have hsome : (exCtx.bind fun ctx => preproc ctx ⟨7, [[1, 0, 1, 0, 0, 0, 1], [0, 1, 1, 1, 0, 0, 0]]⟩
      ⟨7, [[1, 0, 1, 0, 0, 0, 1], [0, 1, 1, 1, 0, 0, 0]]⟩ ⟨1, (1, 1, 1), 1, 1, 1⟩ exPreTapes).isSome = true := by
    decide +kernel
  rw [hctx, Option.bind_some, Option.isSome_iff_exists] at hsome
  obtain ⟨res, hres⟩ := hsome
  obtain ⟨bodies, all, h1, h2, h3⟩ := C86_preproc (gfCodec 4) (C45_codec 4 (by norm_num)) 1 (by norm_num)
    (gfCodec_width (W := 4) (by norm_num)) ctx (by omega) (by omega) _ _ _
    (by decide) (by decide) (by decide) (some fun _ => [1, 2, 3, 4, 5]) (fun data hd p hp => by cases hd; simp)
    [exPreTapes, exPreTapes] [res, res] (.cons hres (.cons hres .nil))
  rw [hn] at h2 h3
  refine ⟨ctx, bodies, all, hctx, mapM_length h1, h2, fun es f hrun hst => ?_⟩
  obtain ⟨_, h4⟩ := h3 es f hrun hst
  rw [h4 0 (by norm_num) 2 (by norm_num), h4 2 (by norm_num) 0 (by norm_num)]
  decide +kernel

/-- Three repetitions of the garbling of C66: the parties count three times 4130 bytes and the `sync`s. -/
example : ∃ (ctx : Ctx (GF 4)) (g : GarbleCtx (GF 4)) (tp : GarbleTapes (GF 4)) (pre : List (PreProc (GF 4)))
    (bodies : List (List (Job (GOut (GF 4))))) (all : List _), exCtx = some ctx ∧
    (List.replicate 3 ()).mapM (fun _ => garbleJobs (gfCodec 4) ctx g (fun id => id.sum % 7) tp pre []) = some bodies ∧
    NetScheduleFree 7 (benchJobs garbleBenchId (.vec []) none bodies) all ∧
    ∀ (es : List FStep) (f : Full (GOut (GF 4))),
      (Full.start 7).run 7 (benchJobs garbleBenchId (.vec []) none bodies) es = some f →
      f.Stuck 7 (benchJobs garbleBenchId (.vec []) none bodies) →
      (∑ p ∈ Finset.range 7, ∑ q ∈ Finset.range 7, ((f.stats q)[p]?).getD 0).1 = 3 * 4130 + 3 * 49 * 4 := by
  obtain ⟨ctx, g, tp, pre, nr, nz, h, hs⟩ := exSetup_ones
  obtain ⟨ctx', h', _, hn, ht, hl⟩ := exCtx_good
  rw [h', Option.some.injEq] at h
  subst h
  obtain ⟨tables, st, h1, h2, _⟩ := C66_shapes hs
  have hids : (garbleIdsOf [] exCirc.inputs.length ctx'.l (exCirc.gates.map PackedGate.kind)).isSome = true := by
    rw [hl]
    decide +kernel
  obtain ⟨ids, hids⟩ := Option.isSome_iff_exists.1 hids
  obtain ⟨bodies, all, k1, k2, k3⟩ := C86_garble (gfCodec 4) (C45_codec 4 (by norm_num)) 1 (by norm_num)
    (gfCodec_width (W := 4) (by norm_num)) ctx' id (fun _ _ => (1 : GF 4)) ⟨1, 3⟩ exCirc g hs.new List.sum (fun id => id.sum % 7)
    (fun id => by
      unfold chooseLeader leaderFromProtoId
      have := Nat.mod_lt id.sum (show 7 > 0 by omega)
      simp only [hn]
      rw [if_neg (by omega), if_pos (by omega)])
    (by omega) (by rw [hn, ht]; decide) (by decide) (by decide) (by decide) ids hids none (fun _ hd => by cases hd) (.vec [])
    (List.replicate 3 ⟨tp, pre, tables, st⟩)
    (fun x hx => by
      rw [List.eq_of_mem_replicate hx]
      exact ⟨hs.material.len, h1⟩)
  rw [hn] at k2 k3
  refine ⟨ctx', g, tp, pre, bodies, all, h', k1, k2, fun es f hrun hst => ?_⟩
  rw [(k3 es f hrun hst).2.2, hl, List.length_replicate]
  decide +kernel

end Verif.Props
