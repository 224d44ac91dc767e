import Verif.AsyncPreprocLemmas
import Verif.Props.Async
import Verif.Props.Preproc
import Verif.Props.ProtoId
import Verif.Props.Garble
import Verif.AsyncGarbleLemmas

/-!
# Properties of the asynchronous executions of `preproc` and `garble`

`preproc` and `garble` as the tasks which the code spawns (`Verif.AsyncPreproc`, `Verif.AsyncGarble`), under arbitrary
schedules.
-/

open Verif
open Verif.CodeField (ofU32)

namespace Verif.Props

section
variable {F : Type} [CodeField F] [DecidableEq F]

/-! ### C77: `preproc` under every schedule -/

omit [DecidableEq F] in
/-- C77.  If the sequential description of `preproc` succeeds, then the tasks which `preproc` spawns (with the IDs it draws)
end in every schedule, without panics and deadlocks, and each party gets the result of the sequential description. -/
theorem C77_preproc (c : Codec F) (hc : c.Ok) (ctx : Ctx F) (hn : ctx.n < 2 ^ 32) (m mb : Mat F) (desc : PreProcCount)
    (hr : desc.numKeys + desc.randoms + 3 * desc.errors < 2 ^ 64) (hz : desc.zeros + 2 * desc.errors < 2 ^ 64)
    (hb : desc.masks + 2 * desc.errors < 2 ^ 64) (tp : PreTapes F) (id : ProtocolID) (res : List (PreProc F))
    (h : preproc ctx m mb desc tp = some res) :
    ∃ jobs outs, preprocJobs c ctx m mb desc tp id = some jobs ∧ ScheduleFree ctx.n jobs outs ∧
      ∀ (es : List SysStep) (s : Sys (List F)), Sys.start.run ctx.n jobs es = some s → s.Stuck ctx.n jobs →
        (List.range ctx.n).mapM (fun p => preprocResult desc ctx.n (s.env p)) = some res := by
  obtain ⟨ids, hids⟩ := Option.isSome_iff_exists.1 (C30_preproc id ctx.n hn)
  obtain ⟨hnd, hlen, _⟩ := C29_preproc_distinct id ctx.n ids hids
  obtain ⟨jobs, outs, h1, h2, h3, h4, h5⟩ := preproc_seq hc ctx m mb desc tp id ids hids hlen hr hz hb res h
  have hfree := C45_schedules ctx.n jobs outs h3 (idsOk_of_nodup jobs (by rw [h2]; exact hnd))
  refine ⟨jobs, outs, h1, hfree, fun es s hrun hst => ?_⟩
  have hjl : jobs.length = 3 + 2 * ctx.n := by rw [← hlen, ← h2, List.length_map]
  by_cases hn0 : ctx.n = 0
  · rw [hn0] at h4 ⊢
    rw [List.length_eq_zero_iff] at h4
    rw [h4]
    rfl
  obtain ⟨d⟩ : Nonempty (PreProc F) := ⟨res[0]'(by omega)⟩
  have hres := range_getD res d
  rw [h4] at hres
  rw [hres]
  refine mapM_range_some _ _ _ fun p hp => ?_
  have henv : preprocResult desc ctx.n (s.env p) = preprocResult desc ctx.n (outsEnv outs p) := by
    unfold preprocResult
    rw [hfree.env hrun hst hp (show 0 < jobs.length by omega), hfree.env hrun hst hp (show 1 < jobs.length by omega),
      hfree.env hrun hst hp (show 2 < jobs.length by omega)]
    have : (List.range ctx.n).mapM (fun a => s.env p (4 + 2 * a))
        = (List.range ctx.n).mapM fun a => outsEnv outs p (4 + 2 * a) := by
      refine mapM_congr_mem fun a ha => ?_
      have := List.mem_range.1 ha
      exact hfree.env hrun hst hp (by omega)
    rw [this]
  rw [henv, h5 p hp, List.getElem?_eq_getElem (by omega), List.getD_eq_getElem?_getD, List.getElem?_eq_getElem (by omega),
    Option.getD_some]

/-- C77.  With good parameters and any tapes, in every schedule the parties end up with the material which `preproc`
promises (C50). -/
theorem C77_material (c : Codec F) (hc : c.Ok) (ctx : Ctx F) (h : ctx.Good) (hd : 2 * (ctx.t + ctx.l - 1) < ctx.n)
    (hn : ctx.n < 2 ^ 32) (m mb : Mat F) (hm : DealMat ctx.n m) (hmb : DealMat ctx.n mb) (hbin : mb.Binary)
    (desc : PreProcCount) (hr : desc.numKeys + desc.randoms + 3 * desc.errors < 2 ^ 64)
    (hz : desc.zeros + 2 * desc.errors < 2 ^ 64) (hb : desc.masks + 2 * desc.errors < 2 ^ 64) (tp : PreTapes F)
    (ht : tp.Ok ctx.n ctx.t ctx.l m mb desc) (id : ProtocolID) :
    ∃ jobs outs, preprocJobs c ctx m mb desc tp id = some jobs ∧ ScheduleFree ctx.n jobs outs ∧
      ∀ (es : List SysStep) (s : Sys (List F)), Sys.start.run ctx.n jobs es = some s → s.Stuck ctx.n jobs →
        ∃ res masks keys randoms errors : List _, ∃ nz,
          (List.range ctx.n).mapM (fun p => preprocResult desc ctx.n (s.env p)) = some res ∧
          VecSharing ctx.n (ctx.t + ctx.l) (defaultPos ctx.n ctx.l) masks (res.map (·.masks)) ∧
          masks.length = desc.masks ∧ (∀ s ∈ masks, ∀ x ∈ s, x = 0 ∨ x = 1) ∧
          VecSharing ctx.n (ctx.t + ctx.l) (defaultPos ctx.n ctx.l) keys (res.map (·.keys.flat)) ∧
          (∀ o ∈ res, o.keys.shape = desc.keys) ∧ keys.length = desc.keys.1 * desc.keys.2.1 * desc.keys.2.2 ∧
          VecSharing ctx.n (ctx.t + ctx.l) (defaultPos ctx.n ctx.l) randoms (res.map (·.randoms)) ∧
          desc.randoms ≤ randoms.length ∧
          VecZero ctx.n ctx.n (defaultPos ctx.n ctx.l) nz (res.map (·.zeros)) ∧ desc.zeros ≤ nz ∧
          VecSharing ctx.n (ctx.t + ctx.l) (defaultPos ctx.n ctx.l) errors (res.map (·.errors)) ∧
          errors.length = desc.errors := by
  obtain ⟨res, masks, keys, randoms, errors, nz, h1, h2, h3⟩ := C50_preproc ctx h hd m mb hm hmb hbin desc tp ht
  obtain ⟨jobs, outs, k1, k2, k3⟩ := C77_preproc c hc ctx hn m mb desc hr hz hb tp id res h1
  exact ⟨jobs, outs, k1, k2, fun es s hrun hst => ⟨res, masks, keys, randoms, errors, nz, k3 es s hrun hst, h3⟩⟩

end

/-- Tapes of 7 parties. -/
noncomputable def exPreTapes : PreTapes (GF 4) where
  rand := (List.range 7).map fun p => (List.range 3).map fun b => (List.range 4).map fun i => ofU32 (p + b + i)
  zero := (List.range 7).map fun p => (List.range 2).map fun b => (List.range 5).map fun i => ofU32 (3 * p + b + i)
  bits := (List.range 7).map fun p => (List.range 2).map fun b => [p = b, p ≤ 4]
  rbit := (List.range 7).map fun p => (List.range 2).map fun b => (List.range 2).map fun i => ofU32 (5 + p + b + i)
  errs := (List.range 7).map fun p => ⟨if p = 6 then [[ofU32 3, ofU32 11]] else [], if p = 6 then [[ofU32 1, ofU32 7]] else []⟩

/-- Seven parties over GF(16): 17 jobs. -/
example : ∃ ctx res jobs outs, exCtx = some ctx ∧
    preproc ctx ⟨7, [[1, 0, 1, 0, 0, 0, 1], [0, 1, 1, 1, 0, 0, 0]]⟩ ⟨7, [[1, 0, 1, 0, 0, 0, 1], [0, 1, 1, 1, 0, 0, 0]]⟩
      ⟨1, (1, 1, 1), 1, 1, 1⟩ (exPreTapes) = some res ∧
    preprocJobs (gfCodec 4) ctx ⟨7, [[1, 0, 1, 0, 0, 0, 1], [0, 1, 1, 1, 0, 0, 0]]⟩
      ⟨7, [[1, 0, 1, 0, 0, 0, 1], [0, 1, 1, 1, 0, 0, 0]]⟩ ⟨1, (1, 1, 1), 1, 1, 1⟩ exPreTapes [9] = some jobs ∧
    jobs.length = 17 ∧ ScheduleFree 7 jobs outs ∧
    ∀ (es : List SysStep) (s : Sys (List (GF 4))), Sys.start.run 7 jobs es = some s → s.Stuck 7 jobs →
      (List.range 7).mapM (fun p => preprocResult ⟨1, (1, 1, 1), 1, 1, 1⟩ 7 (s.env p)) = some res := by
  obtain ⟨ctx, hctx, hg, hn, ht, hl⟩ := exCtx_good
  have hsome : (exCtx.bind fun ctx => preproc ctx ⟨7, [[1, 0, 1, 0, 0, 0, 1], [0, 1, 1, 1, 0, 0, 0]]⟩
      ⟨7, [[1, 0, 1, 0, 0, 0, 1], [0, 1, 1, 1, 0, 0, 0]]⟩ ⟨1, (1, 1, 1), 1, 1, 1⟩ exPreTapes).isSome = true := by
    decide +kernel
  have hjl : (exCtx.bind fun ctx => (preprocJobs (gfCodec 4) ctx ⟨7, [[1, 0, 1, 0, 0, 0, 1], [0, 1, 1, 1, 0, 0, 0]]⟩
      ⟨7, [[1, 0, 1, 0, 0, 0, 1], [0, 1, 1, 1, 0, 0, 0]]⟩ ⟨1, (1, 1, 1), 1, 1, 1⟩ exPreTapes [9]).map List.length)
      = some 17 := by
    decide +kernel
  rw [hctx, Option.bind_some, Option.isSome_iff_exists] at hsome
  obtain ⟨res, hres⟩ := hsome
  obtain ⟨jobs, outs, h1, h2, h3⟩ := C77_preproc (gfCodec 4) (C45_codec 4 (by norm_num)) ctx (by omega) _ _ _ (by decide)
    (by decide) (by decide) _ [9] res hres
  rw [hctx, Option.bind_some, h1, Option.map_some, Option.some.injEq] at hjl
  rw [hn] at h2 h3
  exact ⟨ctx, res, jobs, outs, hctx, hres, h1, hjl, h2, h3⟩

/-! ### C78: `garble` under every schedule -/

section
variable {F : Type} [CodeField F] [DecidableEq F]

/-- The jobs of `garble`, executed one after the other. -/
theorem garble_jobs_seq (c : Codec F) (hc : c.Ok) (ctx : Ctx F) (hash : List Nat → List Nat) (rng : List Nat → Nat → F)
    (lpn : LpnParams) (circ : PackedCircuit) (g : GarbleCtx F) (hnew : GarbleCtx.new hash rng ctx lpn circ = some g)
    (seahash : List Nat → Nat) (lead : ProtocolID → Nat)
    (hlead : ∀ id, chooseLeader seahash id none ctx.n = some (lead id)) (tp : GarbleTapes F) (pre : List (PreProc F))
    (hpre : pre.length = ctx.n) (hb : 2 * ((ctx.n + ctx.t) * (2 * lpn.keyLen + 1)) < 2 ^ 64)
    (hK : 3 * (lpn.keyLen + 1) < 2 ^ 64) (id : ProtocolID) (ids : List ProtocolID)
    (hids : garbleIdsOf id circ.inputs.length ctx.l (circ.gates.map PackedGate.kind) = some ids)
    (tables : List (List (List (List F)))) (st : GarbleState F) (h : garble ctx g tp pre = some (tables, st)) :
    ∃ jobs outs, garbleJobs c ctx g lead tp pre id = some jobs ∧ jobs.map (·.id) = ids ∧ seqRun ctx.n jobs = some outs ∧
      ∀ p < ctx.n, ∀ env : Env (GOut F), (∀ j < jobs.length, env j = outsEnv outs p j) →
        ∃ pr mine, pre[p]? = some pr ∧ garbleResult ctx g p pr env = some mine ∧
          tables.mapM (fun T => T[p]?) = some mine := by
  have hlead' : 0 < ctx.n ∧ ∀ id, lead id < ctx.n := by
    have hn : 0 < ctx.n := by
      by_contra hn
      have := hlead []
      unfold chooseLeader leaderFromProtoId at this
      simp only [] at this
      rw [if_pos (by omega)] at this
      cases this
    refine ⟨hn, fun id => ?_⟩
    have := hlead id
    unfold chooseLeader leaderFromProtoId at this
    simp only [] at this
    rw [if_neg (by omega)] at this
    split at this
    · rw [Option.some.injEq] at this
      rw [← this]
      exact Nat.mod_lt _ hn
    · cases this
  unfold GarbleCtx.new at hnew
  obtain ⟨tout, n1, hnew⟩ := Option.bind_eq_some_iff.1 hnew
  obtain ⟨tinp, n2, hnew⟩ := Option.bind_eq_some_iff.1 hnew
  obtain ⟨enc, n3, hnew⟩ := Option.bind_eq_some_iff.1 hnew
  obtain ⟨nl, n4, hnew⟩ := Option.bind_eq_some_iff.1 hnew
  obtain ⟨mats, n5, hnew⟩ := Option.map_eq_some_iff.1 hnew
  have m1 : g.circ = circ := by rw [← hnew]
  have m2 : g.lpn = lpn := by rw [← hnew]
  have m3 : g.tfOut.length = circ.inputs.length + (circ.gates.map PackedGate.kind).length := by
    rw [← hnew]
    unfold Verif.tfOut at n1
    simp only [mapM_length n1, PackedCircuit.blocks, List.length_append, List.length_map]
  have m4 : g.tfInp.length = ((circ.gates.map PackedGate.kind).map GateKind.arity).sum := by
    rw [← hnew]
    unfold Verif.tfInp at n2
    simp only [mapM_length n2, flatMap_inps_length]
  have m5 : g.mats.length = ctx.n := by
    rw [← hnew]
    simp only [mapM_length n5, List.length_range]
  have hlen := garbleIdsOf_length hids
  obtain ⟨go, gi, outs, k1, k2, k3, k4, k5, k6⟩ := garble_seq hc ctx hlead'.1 g m5 lead hlead'.2 tp pre hpre
    (by rw [m2]; exact hb) (by rw [m2]; exact hK) tables st h
  have hil : ids.length = outs.length := by rw [hlen, k4, m1, m3, m4]
  have hseq := k5.seq k3 ids (by rw [hil, k3])
  have hmap : ((ids.zip (garbleSteps c ctx g lead tp pre go gi)).map fun s =>
      (⟨s.1, s.2.deps, s.2.proto s.1⟩ : Job (GOut F))).map (·.id) = ids := by
    rw [List.map_map]
    show (ids.zip (garbleSteps c ctx g lead tp pre go gi)).map Prod.fst = ids
    exact List.map_fst_zip (by omega)
  refine ⟨_, outs, ?_, hmap, hseq, ?_⟩
  · unfold garbleJobs
    rw [m1, hids, Option.bind_some, k1, Option.bind_some, k2, Option.map_some]
  · intro p hp env henv
    obtain ⟨pr, e1, e2, e3⟩ := k6 p hp
    refine ⟨pr, _, e1, ?_, e3⟩
    rw [← e2]
    refine garbleResult_congr (N := outs.length) ?_ k1 k2 ?_
    · intro j hj
      exact henv j (by simp; omega)
    · rw [k4]
      unfold chunks? at k1 k2
      have hl0 : ctx.l ≠ 0 := by
        intro h0
        rw [if_pos h0] at k1
        cases k1
      rw [if_neg hl0, Option.some.injEq] at k1 k2
      rw [← k1, ← k2, chunks_length _ _ hl0, chunks_length _ _ hl0]

/-- C78.  If the sequential description of `garble` succeeds and the protocol IDs can be drawn, then the tasks which `garble`
spawns end in every schedule, without panics and deadlocks, and each party gets its tables of the sequential description. -/
theorem C78_garble (c : Codec F) (hc : c.Ok) (ctx : Ctx F) (hash : List Nat → List Nat) (rng : List Nat → Nat → F)
    (lpn : LpnParams) (circ : PackedCircuit) (g : GarbleCtx F) (hnew : GarbleCtx.new hash rng ctx lpn circ = some g)
    (seahash : List Nat → Nat) (lead : ProtocolID → Nat)
    (hlead : ∀ id, chooseLeader seahash id none ctx.n = some (lead id)) (tp : GarbleTapes F) (pre : List (PreProc F))
    (hpre : pre.length = ctx.n) (hb : 2 * ((ctx.n + ctx.t) * (2 * lpn.keyLen + 1)) < 2 ^ 64)
    (hK : 3 * (lpn.keyLen + 1) < 2 ^ 64) (id : ProtocolID) (ids : List ProtocolID)
    (hids : garbleIdsOf id circ.inputs.length ctx.l (circ.gates.map PackedGate.kind) = some ids)
    (tables : List (List (List (List F)))) (st : GarbleState F) (h : garble ctx g tp pre = some (tables, st)) :
    ∃ jobs outs, garbleJobs c ctx g lead tp pre id = some jobs ∧ jobs.map (·.id) = ids ∧ ScheduleFree ctx.n jobs outs ∧
      ∀ (es : List SysStep) (s : Sys (GOut F)), Sys.start.run ctx.n jobs es = some s → s.Stuck ctx.n jobs →
        ∀ p < ctx.n, ∃ pr mine, pre[p]? = some pr ∧ garbleResult ctx g p pr (s.env p) = some mine ∧
          tables.mapM (fun T => T[p]?) = some mine := by
  obtain ⟨jobs, outs, h1, h2, h3, h4⟩ := garble_jobs_seq c hc ctx hash rng lpn circ g hnew seahash lead hlead tp pre hpre hb hK id
    ids hids tables st h
  have hfree := C45_schedules ctx.n jobs outs h3 (idsOk_of_nodup _ (by
    rw [h2]
    exact (C29_garble_distinct id _ _ _ ids hids).1))
  exact ⟨jobs, outs, h1, h2, hfree, fun es s hrun hst p hp => h4 p hp _ fun j hj => hfree.env hrun hst hp hj⟩

/-- C78.  With good parameters and material, in every schedule the parties end up with the tables which `garble` promises (C62):
for each gate their results are sharings of the encrypted labels. -/
theorem C78_rows {hash : List Nat → List Nat} {rng : List Nat → Nat → F} {ctx : Ctx F} {lpn : LpnParams} {c : PackedCircuit}
    {g : GarbleCtx F} {tp : GarbleTapes F} {pre : List (PreProc F)} {masks keys errors : List (List F)} {nr nz : Nat}
    (s : Setup hash rng ctx lpn c g tp pre masks keys errors nr nz) (cd : Codec F) (hcd : cd.Ok)
    (seahash : List Nat → Nat) (lead : ProtocolID → Nat)
    (hlead : ∀ id, chooseLeader seahash id none ctx.n = some (lead id))
    (hb : 2 * ((ctx.n + ctx.t) * (2 * lpn.keyLen + 1)) < 2 ^ 64) (hK : 3 * (lpn.keyLen + 1) < 2 ^ 64) (id : ProtocolID)
    (hids : (garbleIdsOf id c.inputs.length ctx.l (c.gates.map PackedGate.kind)).isSome)
    (mb : Nat → Nat → Nat) (hmb : MaskBits masks mb) :
    ∃ jobs outs, garbleJobs cd ctx g lead tp pre id = some jobs ∧ ScheduleFree ctx.n jobs outs ∧
      ∀ (es : List SysStep) (st : Sys (GOut F)), Sys.start.run ctx.n jobs es = some st → st.Stuck ctx.n jobs →
        ∃ results, ((List.range ctx.n).mapM fun p => (pre[p]?).bind fun pr => garbleResult ctx g p pr (st.env p))
            = some results ∧
          ∀ (gid : Nat) (gate : PackedGate), c.gates[gid]? = some gate → ∀ db ds : Nat → Nat → Nat,
            (∀ x < gate.out.length, c.Sources gate x (db x) (ds x)) →
            ∃ table, results.mapM (fun r => r[gid]?) = some table ∧
              Encrypts hash rng ctx lpn g.enc c errors gid gate.out.length
                (match gate with | .and _ => 4 | .xor _ => 4 | .inv _ => 2)
                (fun r x b => match gate with
                  | .and _ => readLabel lpn.keyLen keys (db x 0) (r / 2) b (ds x 0) +
                      readLabel lpn.keyLen keys (db x 1) (r % 2) b (ds x 1)
                  | .xor _ => readLabel lpn.keyLen keys (db x 0) (r / 2) b (ds x 0) +
                      readLabel lpn.keyLen keys (db x 1) (r % 2) b (ds x 1)
                  | .inv _ => readLabel lpn.keyLen keys (db x 0) r b (ds x 0))
                (fun r x j => labelMsg lpn.keyLen c.blocks.length masks keys (c.inputs.length + gid)
                  (rowBit gate.kind r (mb (db x 0) (ds x 0)) (mb (db x 1) (ds x 1)) (mb (c.inputs.length + gid) x)) j x)
                table := by
  obtain ⟨tables, gst, t1, t2, t3⟩ := C66_shapes s
  obtain ⟨ids, hids⟩ := Option.isSome_iff_exists.1 hids
  obtain ⟨jobs, outs, k1, _, k2, k3⟩ := C78_garble cd hcd ctx hash rng lpn c g s.new seahash lead hlead tp pre s.material.len hb hK
    id ids hids tables gst t1
  refine ⟨jobs, outs, k1, k2, fun es st hrun hst => ?_⟩
  refine ⟨(List.range ctx.n).map fun p => tables.map fun T => T.getD p [], ?_, ?_⟩
  · refine mapM_range_some _ _ _ fun p hp => ?_
    obtain ⟨pr, mine, e1, e2, e3⟩ := k3 es st hrun hst p hp
    rw [e1, Option.bind_some, e2, ← e3]
    refine mapM_some_map _ _ _ fun T hT => getD_get [] ?_
    obtain ⟨i, hi, rfl⟩ := List.getElem_of_mem hT
    obtain ⟨table, a1, a2, _⟩ := t3 i _ (List.getElem?_eq_getElem (by omega))
    rw [List.getElem?_eq_getElem hi, Option.some.injEq] at a1
    rw [a1, a2]
    exact hp
  · intro gid gate hg db ds hsrc
    obtain ⟨table, a1, a2⟩ := C62_rows s t1 mb hmb gid gate hg db ds hsrc
    obtain ⟨table', b1, b2, _⟩ := t3 gid gate hg
    rw [a1, Option.some.injEq] at b1
    subst b1
    refine ⟨table, ?_, by cases gate <;> exact a2⟩
    have := range_getD table []
    rw [b2] at this
    rw [this]
    refine mapM_tab _ _ _ _ fun p hp => ?_
    rw [List.getElem?_map, a1]
    rfl

end

/-- The example of C66: 13 jobs of 7 parties. -/
example : ∃ (ctx : Ctx (GF 4)) (g : GarbleCtx (GF 4)) (tp : GarbleTapes (GF 4)) (pre : List (PreProc (GF 4)))
    (tables : List (List (List (List (GF 4))))) (st : GarbleState (GF 4)) (jobs : List (Job (GOut (GF 4)))) (outs : List _),
    exCtx = some ctx ∧ garble ctx g tp pre = some (tables, st) ∧ tables.length = 2 ∧
    garbleJobs (gfCodec 4) ctx g (fun id => id.sum % 7) tp pre [9] = some jobs ∧ jobs.length = 13 ∧ ScheduleFree 7 jobs outs ∧
    ∀ (es : List SysStep) (s : Sys (GOut (GF 4))), Sys.start.run 7 jobs es = some s → s.Stuck 7 jobs →
      ∀ p < 7, ∃ pr mine, pre[p]? = some pr ∧ garbleResult ctx g p pr (s.env p) = some mine ∧
        tables.mapM (fun T => T[p]?) = some mine := by
  obtain ⟨ctx, g, tp, pre, nr, nz, h, hs⟩ := exSetup_ones
  obtain ⟨ctx', h', _, hn, ht, hl⟩ := exCtx_good
  rw [h', Option.some.injEq] at h
  subst h
  obtain ⟨tables, st, h1, h2, _⟩ := C66_shapes hs
  have hids : (garbleIdsOf [9] exCirc.inputs.length ctx'.l (exCirc.gates.map PackedGate.kind)).map List.length = some 13 := by
    rw [hl]
    decide +kernel
  obtain ⟨ids, hids, hidl⟩ := Option.map_eq_some_iff.1 hids
  obtain ⟨jobs, outs, k1, k0, k2, k3⟩ := C78_garble (gfCodec 4) (C45_codec 4 (by norm_num)) ctx' id (fun _ _ => (1 : GF 4)) ⟨1, 3⟩
    exCirc g hs.new List.sum (fun id => id.sum % 7)
    (fun id => by
      unfold chooseLeader leaderFromProtoId
      have := Nat.mod_lt id.sum (show 7 > 0 by omega)
      simp only [hn]
      rw [if_neg (by omega), if_pos (by omega)])
    tp pre hs.material.len (by rw [hn, ht]; decide) (by decide) [9] ids hids tables st h1
  have hjl : jobs.length = 13 := by rw [← hidl, ← k0, List.length_map]
  rw [hn] at k2 k3
  exact ⟨ctx', g, tp, pre, tables, st, jobs, outs, h', h1, h2, k1, hjl, k2, k3⟩

end Verif.Props
