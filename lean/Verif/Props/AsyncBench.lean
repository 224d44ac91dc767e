import Verif.AsyncBenchLemmas
import Verif.Props.AsyncRun

/-!
# Properties of the benchmark programs

The loop of `src/bin/preproc.rs` and `src/bin/garble.rs` (`Verif.AsyncBench`) under arbitrary schedules.
-/

open Verif
open Verif.CodeField (ofU32)

namespace Verif.Props

section
variable {O : Type}

/-! ### C79: repeated runs with the same IDs -/

/-- C79.  A loop which calls `sync` and then runs jobs, in every iteration with the same IDs: if in each iteration the
sequential execution succeeds, the jobs do not use the ID of `sync`, and at least one of them has no leader, then all
iterations end in every schedule, without panics and deadlocks, and each has the results of its sequential execution.  The
same holds if measurements are sent to party 0 at the end. -/
theorem C79_loop (n : Nat) (hn : 0 < n) (bid : ProtocolID) (o : O) (save : Option (Nat → List Nat))
    (bodies : List (List (Job O))) (outs : List (List (List O)))
    (hseq : List.Forall₂ (fun b c => seqRun n b = some c) bodies outs) (hids : ∀ b ∈ bodies, IdsOk b)
    (hbid : ∀ b ∈ bodies, ∀ j ∈ b, j.id ≠ bid) (hfree : ∀ b ∈ bodies, ∃ j ∈ b, j.proto.leader = none) :
    ∃ all, ScheduleFree n (benchJobs bid o save bodies) all ∧
      ∀ (es : List SysStep) (s : Sys O), Sys.start.run n (benchJobs bid o save bodies) es = some s →
        s.Stuck n (benchJobs bid o save bodies) →
        ∀ (r : Nat) (b : List (Job O)) (c : List (List O)), bodies[r]? = some b → outs[r]? = some c →
          ∀ p < n, ∀ j < b.length, benchEnv bodies (s.env p) r j = outsEnv c p j := by
  have hlen : List.Forall₂ (fun (b : List (Job O)) (c : List (List O)) => c.length = b.length) bodies outs := by
    refine hseq.imp fun b c hbc => ?_
    have := (seqFrom_spec hbc).1
    simpa using this
  have hf := C45_schedules n _ _ (bench_seq (bid := bid) (o := o) (save := save) hn outs hseq) (bench_ids hids hbid hfree)
  refine ⟨_, hf, fun es s hrun hst r b c hb hc p hp j hj => ?_⟩
  have hbl := (List.getElem?_eq_some_iff.1 hb).1
  have hcl : c.length = b.length := by
    have hcr := (List.getElem?_eq_some_iff.1 hc).1
    have := (List.forall₂_iff_get.1 hlen).2 r hbl hcr
    rw [List.getElem?_eq_getElem hbl, Option.some.injEq] at hb
    rw [List.getElem?_eq_getElem hcr, Option.some.injEq] at hc
    rw [← hb, ← hc]
    simpa using this
  unfold benchEnv
  rw [hf.env hrun hst hp (by
    have := benchStart_le hb hbl
    rw [benchJobs_length]
    omega)]
  unfold outsEnv
  rw [(benchAllOuts_get outs hlen hc).2 j (by omega)]

end

section
variable {F : Type} [CodeField F] [DecidableEq F]

omit [DecidableEq F] in
/-- C79, `src/bin/preproc.rs`.  Any number of repetitions of `preproc`, with or without `--save`: in every schedule all parties
finish all repetitions, and each repetition gives each party the result of the sequential description. -/
theorem C79_preproc (c : Codec F) (hc : c.Ok) (ctx : Ctx F) (hn0 : 0 < ctx.n) (hn : ctx.n < 2 ^ 32) (m mb : Mat F)
    (desc : PreProcCount) (hr : desc.numKeys + desc.randoms + 3 * desc.errors < 2 ^ 64)
    (hz : desc.zeros + 2 * desc.errors < 2 ^ 64) (hb : desc.masks + 2 * desc.errors < 2 ^ 64)
    (save : Option (Nat → List Nat)) (tps : List (PreTapes F)) (results : List (List (PreProc F)))
    (h : List.Forall₂ (fun tp res => preproc ctx m mb desc tp = some res) tps results) :
    ∃ bodies all, tps.mapM (fun tp => preprocJobs c ctx m mb desc tp []) = some bodies ∧
      ScheduleFree ctx.n (benchJobs preprocBenchId [] save bodies) all ∧
      ∀ (es : List SysStep) (s : Sys (List F)), Sys.start.run ctx.n (benchJobs preprocBenchId [] save bodies) es = some s →
        s.Stuck ctx.n (benchJobs preprocBenchId [] save bodies) →
        ∀ (r : Nat) (res : List (PreProc F)), results[r]? = some res →
          (List.range ctx.n).mapM (fun p => preprocResult desc ctx.n (benchEnv bodies (s.env p) r)) = some res := by
  obtain ⟨ids, hids⟩ := Option.isSome_iff_exists.1 (C30_preproc [] ctx.n hn)
  obtain ⟨hnd, hlen, _⟩ := C29_preproc_distinct [] ctx.n ids hids
  have hshort : ∀ x ∈ ids, x ≠ preprocBenchId := by
    intro x hx he
    have h1 := preprocIds_short hids x hx
    have h2 := suffixLen_le (num := 4 + 2 * ctx.n) (k := 5) (by omega)
    rw [he] at h1
    simp only [preprocBenchId, List.length_cons, List.length_nil] at h1
    omega
  obtain ⟨bodies, outs, h1, h2, h3, h4, h5⟩ : ∃ (bodies : List (List (Job (List F)))) (outs : List (List (List (List F)))),
      tps.mapM (fun tp => preprocJobs c ctx m mb desc tp []) = some bodies ∧
      List.Forall₂ (fun b o => seqRun ctx.n b = some o) bodies outs ∧ (∀ b ∈ bodies, b.map (·.id) = ids) ∧
      (∀ b ∈ bodies, ∃ j ∈ b, j.proto.leader = none) ∧
      List.Forall₂ (fun o res => res.length = ctx.n ∧ ∀ p < ctx.n, preprocResult desc ctx.n (outsEnv o p) = res[p]?) outs results := by
    induction h with
    | nil => exact ⟨[], [], rfl, .nil, by simp, by simp, .nil⟩
    | @cons tp res tps results h _ ih =>
      obtain ⟨bodies, outs, i1, i2, i3, i4, i5⟩ := ih
      obtain ⟨jobs, o, k1, k2, k3, k4, k5⟩ := preproc_seq hc ctx m mb desc tp [] ids hids hlen hr hz hb res h
      have hne : jobs ≠ [] := by
        intro h0
        rw [h0] at k2
        rw [← k2] at hlen
        simp at hlen
        omega
      refine ⟨jobs :: bodies, o :: outs, ?_, .cons k3 i2, ?_, ?_, .cons ⟨k4, k5⟩ i5⟩
      · rw [List.mapM_cons, k1, i1]
        rfl
      · intro b hb
        rcases List.mem_cons.1 hb with rfl | hb
        · exact k2
        · exact i3 b hb
      · intro b hb
        rcases List.mem_cons.1 hb with rfl | hb
        · exact preprocJobs_leaderless k1 hne
        · exact i4 b hb
  obtain ⟨all, f1, f2⟩ := C79_loop ctx.n hn0 preprocBenchId [] save bodies outs h2
    (fun b hb => idsOk_of_nodup b (by rw [h3 b hb]; exact hnd))
    (fun b hb j hj => hshort _ (by rw [← h3 b hb]; exact List.mem_map_of_mem hj)) h4
  refine ⟨bodies, all, h1, f1, fun es s hrun hst r res hres => ?_⟩
  have l1 := h2.length_eq
  have l2 := h5.length_eq
  have hrl := (List.getElem?_eq_some_iff.1 hres).1
  have hb' : bodies[r]? = some (bodies[r]'(by omega)) := List.getElem?_eq_getElem _
  have ho' : outs[r]? = some (outs[r]'(by omega)) := List.getElem?_eq_getElem _
  have hbl : (bodies[r]'(by omega)).length = 3 + 2 * ctx.n := by
    rw [← hlen, ← h3 _ (List.getElem_mem (l := bodies) (n := r) (by omega)), List.length_map]
  obtain ⟨g1, g2⟩ := (List.forall₂_iff_get.1 h5).2 r (by omega) hrl
  rw [List.getElem?_eq_getElem hrl, Option.some.injEq] at hres
  simp only [List.get_eq_getElem, hres] at g1 g2
  obtain ⟨d⟩ : Nonempty (PreProc F) := ⟨res[0]'(by omega)⟩
  have hrg := range_getD res d
  rw [g1] at hrg
  rw [hrg]
  refine mapM_range_some _ _ _ fun p hp => ?_
  rw [preprocResult_congr (env' := outsEnv (outs[r]'(by omega)) p) (fun j hj => f2 es s hrun hst r _ _ hb' ho' p hp j (by omega)),
    g2 p hp, List.getElem?_eq_getElem (by omega), List.getD_eq_getElem?_getD, List.getElem?_eq_getElem (by omega),
    Option.getD_some]

/-- What one repetition of `src/bin/garble.rs` is given and gives. -/
structure GarbleRep (F : Type) where
  tapes : GarbleTapes F
  pre : List (PreProc F)
  tables : List (List (List (List F)))
  state : GarbleState F

/-- C79, `src/bin/garble.rs`.  Any number of repetitions of `garble`, with or without `--save`: in every schedule all parties
finish all repetitions, and each repetition gives each party its tables of the sequential description. -/
theorem C79_garble (c : Codec F) (hc : c.Ok) (ctx : Ctx F) (hash : List Nat → List Nat) (rng : List Nat → Nat → F)
    (lpn : LpnParams) (circ : PackedCircuit) (g : GarbleCtx F) (hnew : GarbleCtx.new hash rng ctx lpn circ = some g)
    (seahash : List Nat → Nat) (lead : ProtocolID → Nat)
    (hlead : ∀ id, chooseLeader seahash id none ctx.n = some (lead id)) (hn0 : 0 < ctx.n) (hl : 0 < ctx.l)
    (hb : 2 * ((ctx.n + ctx.t) * (2 * lpn.keyLen + 1)) < 2 ^ 64) (hK : 3 * (lpn.keyLen + 1) < 2 ^ 64)
    (hblocks : 0 < circ.inputs.length + circ.gates.length)
    (hsize : 4 + circ.inputs.length + 2 * circ.gates.length ≤ 2 ^ 56)
    (hids : (garbleIdsOf [] circ.inputs.length ctx.l (circ.gates.map PackedGate.kind)).isSome)
    (save : Option (Nat → List Nat)) (o : GOut F) (reps : List (GarbleRep F))
    (h : ∀ x ∈ reps, x.pre.length = ctx.n ∧ garble ctx g x.tapes x.pre = some (x.tables, x.state)) :
    ∃ bodies all, reps.mapM (fun x => garbleJobs c ctx g lead x.tapes x.pre []) = some bodies ∧
      ScheduleFree ctx.n (benchJobs garbleBenchId o save bodies) all ∧
      ∀ (es : List SysStep) (s : Sys (GOut F)), Sys.start.run ctx.n (benchJobs garbleBenchId o save bodies) es = some s →
        s.Stuck ctx.n (benchJobs garbleBenchId o save bodies) →
        ∀ (r : Nat) (x : GarbleRep F), reps[r]? = some x → ∀ p < ctx.n, ∃ pr mine, x.pre[p]? = some pr ∧
          garbleResult ctx g p pr (benchEnv bodies (s.env p) r) = some mine ∧ x.tables.mapM (fun T => T[p]?) = some mine := by
  obtain ⟨ids, hids⟩ := Option.isSome_iff_exists.1 hids
  have hnd := (C29_garble_distinct [] _ _ _ ids hids).1
  have hshort : ∀ x ∈ ids, x ≠ garbleBenchId := by
    intro x hx he
    have h1 := garbleIds_short hids hl (by rw [List.length_map]; exact hsize) x hx
    rw [he] at h1
    simp [garbleBenchId] at h1
  have htout : g.tfOut ≠ [] := by
    unfold GarbleCtx.new at hnew
    obtain ⟨tout, n1, hnew⟩ := Option.bind_eq_some_iff.1 hnew
    obtain ⟨tinp, n2, hnew⟩ := Option.bind_eq_some_iff.1 hnew
    obtain ⟨enc, n3, hnew⟩ := Option.bind_eq_some_iff.1 hnew
    obtain ⟨nl, n4, hnew⟩ := Option.bind_eq_some_iff.1 hnew
    obtain ⟨mats, n5, hnew⟩ := Option.map_eq_some_iff.1 hnew
    have : g.tfOut.length = circ.inputs.length + circ.gates.length := by
      rw [← hnew]
      unfold Verif.tfOut at n1
      simp only [mapM_length n1, PackedCircuit.blocks, List.length_append, List.length_map]
    intro h0
    rw [h0, List.length_nil] at this
    omega
  have hidn : 0 < ids.length := by
    rw [garbleIdsOf_length hids]
    have : 0 < circ.inputs.length + (circ.gates.map PackedGate.kind).length := by
      rw [List.length_map]
      exact hblocks
    generalize (_ : Nat) / ctx.l = a
    generalize (_ : Nat) / ctx.l = b
    omega
  obtain ⟨bodies, outs, h1, h2, h3, h4, h5⟩ : ∃ (bodies : List (List (Job (GOut F)))) (outs : List (List (List (GOut F)))),
      reps.mapM (fun x => garbleJobs c ctx g lead x.tapes x.pre []) = some bodies ∧
      List.Forall₂ (fun b o => seqRun ctx.n b = some o) bodies outs ∧ (∀ b ∈ bodies, b.map (·.id) = ids) ∧
      (∀ b ∈ bodies, ∃ j ∈ b, j.proto.leader = none) ∧
      List.Forall₂ (fun (o : List (List (GOut F))) (x : GarbleRep F) => ∀ p < ctx.n, ∀ env : Env (GOut F),
        (∀ j < ids.length, env j = outsEnv o p j) → ∃ pr mine, x.pre[p]? = some pr ∧
          garbleResult ctx g p pr env = some mine ∧ x.tables.mapM (fun T => T[p]?) = some mine) outs reps := by
    induction reps with
    | nil => exact ⟨[], [], rfl, .nil, by simp, by simp, .nil⟩
    | cons x reps ih =>
      obtain ⟨bodies, outs, i1, i2, i3, i4, i5⟩ := ih fun y hy => h y (by simp [hy])
      obtain ⟨x1, x2⟩ := h x (by simp)
      obtain ⟨jobs, o, k1, k2, k3, k4⟩ := garble_jobs_seq c hc ctx hash rng lpn circ g hnew seahash lead hlead x.tapes x.pre x1 hb
        hK [] ids hids x.tables x.state x2
      have hjl : jobs.length = ids.length := by rw [← k2, List.length_map]
      have hne : jobs ≠ [] := by
        intro h0
        rw [h0, List.length_nil] at hjl
        omega
      refine ⟨jobs :: bodies, o :: outs, ?_, .cons k3 i2, ?_, ?_, .cons (by rw [← hjl]; exact k4) i5⟩
      · rw [List.mapM_cons, k1, i1]
        rfl
      · intro b hb
        rcases List.mem_cons.1 hb with rfl | hb
        · exact k2
        · exact i3 b hb
      · intro b hb
        rcases List.mem_cons.1 hb with rfl | hb
        · exact garbleJobs_leaderless k1 hne htout
        · exact i4 b hb
  obtain ⟨all, f1, f2⟩ := C79_loop ctx.n hn0 garbleBenchId o save bodies outs h2
    (fun b hb => idsOk_of_nodup b (by rw [h3 b hb]; exact hnd))
    (fun b hb j hj => hshort _ (by rw [← h3 b hb]; exact List.mem_map_of_mem hj)) h4
  refine ⟨bodies, all, h1, f1, fun es s hrun hst r x hx p hp => ?_⟩
  have l1 := h2.length_eq
  have l2 := h5.length_eq
  have hrl := (List.getElem?_eq_some_iff.1 hx).1
  have hb' : bodies[r]? = some (bodies[r]'(by omega)) := List.getElem?_eq_getElem _
  have ho' : outs[r]? = some (outs[r]'(by omega)) := List.getElem?_eq_getElem _
  have hbl : (bodies[r]'(by omega)).length = ids.length := by
    rw [← h3 _ (List.getElem_mem (l := bodies) (n := r) (by omega)), List.length_map]
  have g1 := (List.forall₂_iff_get.1 h5).2 r (by omega) hrl
  rw [List.getElem?_eq_getElem hrl, Option.some.injEq] at hx
  simp only [List.get_eq_getElem, hx] at g1
  exact g1 p hp _ fun j hj => f2 es s hrun hst r _ _ hb' ho' p hp j (by omega)

end

/-- Three repetitions of a `sync`, a message exchange between all parties and a degree-reduction-like exchange with a leader, all
with the same IDs, and the measurements at the end: 10 jobs. -/
example (n : Nat) (hn : 0 < n) : ∃ all, (benchJobs preprocBenchId () (some fun p => [p])
      (List.replicate 3 [⟨[1], [], syncProto ()⟩, ⟨[2], [0], saveProto () fun p => [p]⟩])).length = 10 ∧
    ScheduleFree n (benchJobs preprocBenchId () (some fun p => [p])
      (List.replicate 3 [⟨[1], [], syncProto ()⟩, ⟨[2], [0], saveProto () fun p => [p]⟩])) all := by
  obtain ⟨all, h, _⟩ := C79_loop n hn preprocBenchId () (some fun p => [p])
    (List.replicate 3 [⟨[1], [], syncProto ()⟩, ⟨[2], [0], saveProto () fun p => [p]⟩])
    (List.replicate 3 [(List.range n).map fun _ => (), (List.range n).map fun _ => ()])
    (by
      have h1 : seqRun n [⟨[1], [], syncProto ()⟩, ⟨[2], [0], saveProto () fun p => [p]⟩]
          = some [(List.range n).map fun _ => (), (List.range n).map fun _ => ()] := by
        refine seqRun_of _ _ rfl fun i job hi => ?_
        match i with
        | 0 =>
          cases hi
          exact ⟨by simp, sync_round _ _⟩
        | 1 =>
          cases hi
          exact ⟨by simp, save_round _ _ hn _⟩
        | i + 2 => simp at hi
      exact .cons h1 (.cons h1 (.cons h1 .nil)))
    (fun b hb => idsOk_of_nodup b (by rw [List.eq_of_mem_replicate hb]; decide))
    (fun b hb j hj => by
      rw [List.eq_of_mem_replicate hb] at hj
      rcases List.mem_cons.1 hj with rfl | hj
      · decide
      · rw [List.mem_singleton] at hj
        subst hj
        decide)
    (fun b hb => by
      rw [List.eq_of_mem_replicate hb]
      exact ⟨_, List.mem_cons_self, rfl⟩)
  exact ⟨all, rfl, h⟩

/-- Without a job in the loop, `sync` would be called again and again with the same ID; this is the deadlock of C74. -/
example : benchJobs [7] () none [[], []] = c74Jobs := rfl

/-- Two repetitions of the preprocessing of C77, and the measurements at the end: 37 jobs. -/
example : ∃ ctx res bodies all, exCtx = some ctx ∧ bodies.length = 2 ∧
    (benchJobs preprocBenchId [] (some fun p => [p]) bodies).length = 37 ∧
    ScheduleFree 7 (benchJobs preprocBenchId ([] : List (GF 4)) (some fun p => [p]) bodies) all ∧
    ∀ (es : List SysStep) (s : Sys (List (GF 4))),
      Sys.start.run 7 (benchJobs preprocBenchId [] (some fun p => [p]) bodies) es = some s →
      s.Stuck 7 (benchJobs preprocBenchId [] (some fun p => [p]) bodies) → ∀ r < 2,
      (List.range 7).mapM (fun p => preprocResult ⟨1, (1, 1, 1), 1, 1, 1⟩ 7 (benchEnv bodies (s.env p) r)) = some res := by
  obtain ⟨ctx, hctx, hg, hn, ht, hl⟩ := exCtx_good
  have hsome : (exCtx.bind fun ctx => preproc ctx ⟨7, [[1, 0, 1, 0, 0, 0, 1], [0, 1, 1, 1, 0, 0, 0]]⟩
      ⟨7, [[1, 0, 1, 0, 0, 0, 1], [0, 1, 1, 1, 0, 0, 0]]⟩ ⟨1, (1, 1, 1), 1, 1, 1⟩ exPreTapes).isSome = true := by
    decide +kernel
  have hjl : (exCtx.bind fun ctx => (preprocJobs (gfCodec 4) ctx ⟨7, [[1, 0, 1, 0, 0, 0, 1], [0, 1, 1, 1, 0, 0, 0]]⟩
      ⟨7, [[1, 0, 1, 0, 0, 0, 1], [0, 1, 1, 1, 0, 0, 0]]⟩ ⟨1, (1, 1, 1), 1, 1, 1⟩ exPreTapes []).map List.length)
      = some 17 := by
    decide +kernel
  rw [hctx, Option.bind_some, Option.isSome_iff_exists] at hsome
  obtain ⟨res, hres⟩ := hsome
  rw [hctx, Option.bind_some, Option.map_eq_some_iff] at hjl
  obtain ⟨jobs, hj, hjl⟩ := hjl
  obtain ⟨bodies, all, h1, h2, h3⟩ := C79_preproc (gfCodec 4) (C45_codec 4 (by norm_num)) ctx (by omega) (by omega) _ _ _
    (by decide) (by decide) (by decide) (some fun p => [p]) [exPreTapes, exPreTapes] [res, res] (.cons hres (.cons hres .nil))
  have hb : bodies = [jobs, jobs] := by
    rw [List.mapM_cons, List.mapM_cons, List.mapM_nil, hj] at h1
    exact (Option.some.inj h1).symm
  rw [hn] at h2 h3
  refine ⟨ctx, res, bodies, all, hctx, by rw [hb]; rfl, ?_, h2, fun es s hrun hst r hr => h3 es s hrun hst r res ?_⟩
  · rw [benchJobs_length, hb]
    simp [benchStart, hjl]
  · interval_cases r <;> rfl

/-- Three repetitions of the garbling of C66. -/
example : ∃ (ctx : Ctx (GF 4)) (g : GarbleCtx (GF 4)) (tp : GarbleTapes (GF 4)) (pre : List (PreProc (GF 4)))
    (tables : List (List (List (List (GF 4))))) (st : GarbleState (GF 4)) (bodies : List (List (Job (GOut (GF 4)))))
    (all : List _), exCtx = some ctx ∧ garble ctx g tp pre = some (tables, st) ∧ tables.length = 2 ∧ bodies.length = 3 ∧
    ScheduleFree 7 (benchJobs garbleBenchId (.vec []) none bodies) all ∧
    ∀ (es : List SysStep) (s : Sys (GOut (GF 4))), Sys.start.run 7 (benchJobs garbleBenchId (.vec []) none bodies) es = some s →
      s.Stuck 7 (benchJobs garbleBenchId (.vec []) none bodies) →
      ∀ r < 3, ∀ p < 7, ∃ pr mine, pre[p]? = some pr ∧ garbleResult ctx g p pr (benchEnv bodies (s.env p) r) = some mine ∧
        tables.mapM (fun T => T[p]?) = some mine := by
  obtain ⟨ctx, g, tp, pre, nr, nz, h, hs⟩ := exSetup_ones
  obtain ⟨ctx', h', _, hn, ht, hl⟩ := exCtx_good
  rw [h', Option.some.injEq] at h
  subst h
  obtain ⟨tables, st, h1, h2, _⟩ := C66_shapes hs
  have hids : (garbleIdsOf [] exCirc.inputs.length ctx'.l (exCirc.gates.map PackedGate.kind)).isSome = true := by
    rw [hl]
    decide +kernel
  obtain ⟨bodies, all, k1, k2, k3⟩ := C79_garble (gfCodec 4) (C45_codec 4 (by norm_num)) ctx' id (fun _ _ => (1 : GF 4)) ⟨1, 3⟩
    exCirc g hs.new List.sum (fun id => id.sum % 7)
    (fun id => by
      unfold chooseLeader leaderFromProtoId
      have := Nat.mod_lt id.sum (show 7 > 0 by omega)
      simp only [hn]
      rw [if_neg (by omega), if_pos (by omega)])
    (by omega) (by omega) (by rw [hn, ht]; decide) (by decide) (by decide) (by decide) hids none (.vec [])
    (List.replicate 3 ⟨tp, pre, tables, st⟩)
    (fun x hx => by
      rw [List.eq_of_mem_replicate hx]
      exact ⟨hs.material.len, h1⟩)
  rw [hn] at k2 k3
  refine ⟨ctx', g, tp, pre, tables, st, bodies, all, h', h1, h2, by rw [mapM_length k1, List.length_replicate], k2,
    fun es s hrun hst r hr p hp => k3 es s hrun hst r ⟨tp, pre, tables, st⟩ ?_ p hp⟩
  rw [List.getElem?_replicate, if_pos hr]

end Verif.Props
