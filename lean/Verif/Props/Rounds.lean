import Verif.AsyncRoundLevels
import Verif.Props.AsyncRun

/-!
# Properties of the number of communication rounds

If every message takes at most one unit of time and local computations take none, `preproc` ends after five units of time and `garble` after
nine, whatever the circuit is; and no earlier if all messages take that long.
-/

open Verif
open Verif.CodeField (ofU32)

namespace Verif.Props

section
variable {F : Type} [CodeField F] [DecidableEq F]

theorem AllFinished.env {O : Type} {n : Nat} {jobs : List (Job O)} {outs : List (List O)} (hfree : ScheduleFree n jobs outs) {es : List SysStep}
    {s : Sys O} (hrun : Sys.start.run n jobs es = some s) (hf : s.AllFinished n jobs) {p : Nat} (hp : p < n) {j : Nat} (hj : j < jobs.length) :
    s.env p j = outsEnv outs p j := by
  obtain ⟨o, ho⟩ := hf j hj p hp
  unfold Sys.env
  rw [ho]
  exact ((hfree.2 es s hrun j hj p hp).2.1 o ho).symm

/-! ### C104: constant number of rounds -/

omit [DecidableEq F] in
/-- C104.  If the sequential description of `preproc` succeeds, then the tasks which it spawns take five rounds, in which every party gets its
result: whatever the numbers of parties, wires, keys, and errors are. -/
theorem C104_preproc (c : Codec F) (hc : c.Ok) (ctx : Ctx F) (hn0 : 0 < ctx.n) (hn : ctx.n < 2 ^ 32) (m mb : Mat F) (desc : PreProcCount)
    (hr : desc.numKeys + desc.randoms + 3 * desc.errors < 2 ^ 64) (hz : desc.zeros + 2 * desc.errors < 2 ^ 64)
    (hb : desc.masks + 2 * desc.errors < 2 ^ 64) (tp : PreTapes F) (id : ProtocolID) (res : List (PreProc F))
    (h : preproc ctx m mb desc tp = some res) :
    ∃ jobs, preprocJobs c ctx m mb desc tp id = some jobs ∧ TakesRounds ctx.n jobs 5 ∧
      ∀ s, AfterRounds ctx.n jobs 5 s → (List.range ctx.n).mapM (fun p => preprocResult desc ctx.n (s.env p)) = some res := by
  obtain ⟨ids, hids⟩ := Option.isSome_iff_exists.1 (C30_preproc id ctx.n hn)
  obtain ⟨hnd, hlen, _⟩ := C29_preproc_distinct id ctx.n ids hids
  obtain ⟨jobs, outs, h1, h2, h3, h4, h5⟩ := preproc_seq hc ctx m mb desc tp id ids hids hlen hr hz hb res h
  have hidok := idsOk_of_nodup jobs (by rw [h2]; exact hnd)
  have hfree := C45_schedules ctx.n jobs outs h3 hidok
  have hjl : jobs.length = 3 + 2 * ctx.n := by rw [← hlen, ← h2, List.length_map]
  obtain ⟨hlv, hlow⟩ := preprocJobs_levels h1
  have : Inhabited (List F) := ⟨[]⟩
  have htk : TakesRounds ctx.n jobs 5 := by
    refine takesRounds_of_levels h3 hidok hlv hlow (fun j _ => ?_) (Or.inr ⟨hn0, 4, by omega, by decide⟩)
    unfold preprocLevel
    split
    · decide
    · split <;> decide
  refine ⟨jobs, h1, htk, fun s hs => ?_⟩
  obtain ⟨es, hrun⟩ := hs.reach
  have hfin := htk.1 s hs
  obtain ⟨d⟩ : Nonempty (PreProc F) := ⟨res[0]'(by omega)⟩
  have hres := range_getD res d
  rw [h4] at hres
  rw [hres]
  refine mapM_range_some _ _ _ fun p hp => ?_
  have henv : preprocResult desc ctx.n (s.env p) = preprocResult desc ctx.n (outsEnv outs p) := by
    unfold preprocResult
    rw [AllFinished.env hfree hrun hfin hp (show 0 < jobs.length by omega), AllFinished.env hfree hrun hfin hp (show 1 < jobs.length by omega),
      AllFinished.env hfree hrun hfin hp (show 2 < jobs.length by omega)]
    have : (List.range ctx.n).mapM (fun a => s.env p (4 + 2 * a))
        = (List.range ctx.n).mapM fun a => outsEnv outs p (4 + 2 * a) := by
      refine mapM_congr_mem fun a ha => ?_
      have := List.mem_range.1 ha
      exact AllFinished.env hfree hrun hfin hp (by omega)
    rw [this]
  rw [henv, h5 p hp, List.getElem?_eq_getElem (by omega), List.getD_eq_getElem?_getD, List.getElem?_eq_getElem (by omega),
    Option.getD_some]

/-- C104.  If the sequential description of `garble` succeeds and the protocol IDs can be drawn, then the tasks which `garble` spawns take nine
rounds if there is an `AND` gate and seven if there are other gates only, in which every party gets its tables: whatever the size and
the depth of the circuit and the number of parties are. -/
theorem C104_garble (c : Codec F) (hc : c.Ok) (ctx : Ctx F) (hash : List Nat → List Nat) (rng : List Nat → Nat → F)
    (lpn : LpnParams) (circ : PackedCircuit) (g : GarbleCtx F) (hnew : GarbleCtx.new hash rng ctx lpn circ = some g)
    (seahash : List Nat → Nat) (lead : ProtocolID → Nat)
    (hlead : ∀ id, chooseLeader seahash id none ctx.n = some (lead id)) (tp : GarbleTapes F) (pre : List (PreProc F))
    (hpre : pre.length = ctx.n) (hb : 2 * ((ctx.n + ctx.t) * (2 * lpn.keyLen + 1)) < 2 ^ 64)
    (hK : 3 * (lpn.keyLen + 1) < 2 ^ 64) (id : ProtocolID) (ids : List ProtocolID)
    (hids : garbleIdsOf id circ.inputs.length ctx.l (circ.gates.map PackedGate.kind) = some ids)
    (tables : List (List (List (List F)))) (st : GarbleState F) (h : garble ctx g tp pre = some (tables, st)) :
    ∃ jobs, garbleJobs c ctx g lead tp pre id = some jobs ∧
      TakesRounds ctx.n jobs (garbleRoundsOf circ.inputs.length (circ.gates.map PackedGate.kind)) ∧
      ∀ s, AfterRounds ctx.n jobs (garbleRoundsOf circ.inputs.length (circ.gates.map PackedGate.kind)) s →
        ∀ p < ctx.n, ∃ pr mine, pre[p]? = some pr ∧ garbleResult ctx g p pr (s.env p) = some mine ∧
          tables.mapM (fun T => T[p]?) = some mine := by
  obtain ⟨jobs, outs, h1, h2, h3, h4⟩ := garble_jobs_seq c hc ctx hash rng lpn circ g hnew seahash lead hlead tp pre hpre hb hK id
    ids hids tables st h
  have hidok := idsOk_of_nodup _ (show (jobs.map (·.id)).Nodup by
    rw [h2]
    exact (C29_garble_distinct id _ _ _ ids hids).1)
  have hfree := C45_schedules ctx.n jobs outs h3 hidok
  have hn0 : 0 < ctx.n := by
    by_contra hn
    have := hlead []
    unfold chooseLeader leaderFromProtoId at this
    simp only [] at this
    rw [if_pos (by omega)] at this
    cases this
  unfold GarbleCtx.new at hnew
  obtain ⟨tout, n1, hnew⟩ := Option.bind_eq_some_iff.1 hnew
  obtain ⟨tinp, n2, hnew⟩ := Option.bind_eq_some_iff.1 hnew
  obtain ⟨enc, n3, hnew⟩ := Option.bind_eq_some_iff.1 hnew
  obtain ⟨nl, n4, hnew⟩ := Option.bind_eq_some_iff.1 hnew
  obtain ⟨mats, n5, hnew⟩ := Option.map_eq_some_iff.1 hnew
  have m1 : g.circ = circ := by rw [← hnew]
  have m3 : g.tfOut.length = circ.inputs.length + (circ.gates.map PackedGate.kind).length := by
    rw [← hnew]
    unfold Verif.tfOut at n1
    simp only [mapM_length n1, PackedCircuit.blocks, List.length_append, List.length_map]
  have m4 : g.tfInp.length = ((circ.gates.map PackedGate.kind).map GateKind.arity).sum := by
    rw [← hnew]
    unfold Verif.tfInp at n2
    simp only [mapM_length n2, flatMap_inps_length]
  obtain ⟨a, ha, hjl, hlv, hlow⟩ := garbleJobs_levels (by rw [m1]; exact hids) h1 h2 (by rw [m1]; exact m3) (by rw [m1]; exact m4)
  rw [m1] at hjl hlv hlow
  obtain ⟨hmax, hmem⟩ := garbleLevels_max a g.tfInp.length circ.inputs.length (circ.gates.map PackedGate.kind)
    (by rw [ha, ← m3, List.length_eq_zero_iff]) m4
  rw [← m3] at hmax hmem
  have : Inhabited (GOut F) := ⟨.vec []⟩
  have htk : TakesRounds ctx.n jobs (garbleRoundsOf circ.inputs.length (circ.gates.map PackedGate.kind)) := by
    refine takesRounds_of_levels h3 hidok hlv hlow (fun j hj => ?_) ?_
    · refine hmax _ ?_
      rw [List.getD_eq_getElem?_getD, List.getElem?_eq_getElem (by omega)]
      exact List.getElem_mem _
    · rcases hmem with h0 | h0
      · exact Or.inl h0
      · obtain ⟨j, hj, hjv⟩ := List.getElem_of_mem h0
        refine Or.inr ⟨hn0, j, by omega, ?_⟩
        rw [List.getD_eq_getElem?_getD, List.getElem?_eq_getElem hj]
        exact hjv
  refine ⟨jobs, h1, htk, fun s hs p hp => ?_⟩
  obtain ⟨es, hrun⟩ := hs.reach
  exact h4 p hp _ fun j hj => AllFinished.env hfree hrun (htk.1 s hs) hp hj

end

/-- Seven parties over GF(16): 17 jobs, five rounds. -/
example : ∃ ctx res jobs, exCtx = some ctx ∧
    preproc ctx ⟨7, [[1, 0, 1, 0, 0, 0, 1], [0, 1, 1, 1, 0, 0, 0]]⟩ ⟨7, [[1, 0, 1, 0, 0, 0, 1], [0, 1, 1, 1, 0, 0, 0]]⟩
      ⟨1, (1, 1, 1), 1, 1, 1⟩ (exPreTapes) = some res ∧
    preprocJobs (gfCodec 4) ctx ⟨7, [[1, 0, 1, 0, 0, 0, 1], [0, 1, 1, 1, 0, 0, 0]]⟩
      ⟨7, [[1, 0, 1, 0, 0, 0, 1], [0, 1, 1, 1, 0, 0, 0]]⟩ ⟨1, (1, 1, 1), 1, 1, 1⟩ exPreTapes [9] = some jobs ∧
    TakesRounds 7 jobs 5 ∧ ¬ ∃ s, LockStep 7 jobs 4 s ∧ s.AllFinished 7 jobs := by
  obtain ⟨ctx, hctx, hg, hn, ht, hl⟩ := exCtx_good
  have hsome : (exCtx.bind fun ctx => preproc ctx ⟨7, [[1, 0, 1, 0, 0, 0, 1], [0, 1, 1, 1, 0, 0, 0]]⟩
      ⟨7, [[1, 0, 1, 0, 0, 0, 1], [0, 1, 1, 1, 0, 0, 0]]⟩ ⟨1, (1, 1, 1), 1, 1, 1⟩ exPreTapes).isSome = true := by
    decide +kernel
  rw [hctx, Option.bind_some, Option.isSome_iff_exists] at hsome
  obtain ⟨res, hres⟩ := hsome
  obtain ⟨jobs, h1, h2, _⟩ := C104_preproc (gfCodec 4) (C45_codec 4 (by norm_num)) ctx (by omega) (by omega) _ _ _ (by decide)
    (by decide) (by decide) _ [9] res hres
  rw [hn] at h2
  exact ⟨ctx, res, jobs, hctx, hres, h1, h2, fun ⟨s, h3, h4⟩ => h2.2.2 4 s (by decide) h3 h4⟩

/-- The example of C66. -/
example : ∃ (ctx : Ctx (GF 4)) (g : GarbleCtx (GF 4)) (tp : GarbleTapes (GF 4)) (pre : List (PreProc (GF 4)))
    (tables : List (List (List (List (GF 4))))) (st : GarbleState (GF 4)) (jobs : List (Job (GOut (GF 4)))),
    exCtx = some ctx ∧ garble ctx g tp pre = some (tables, st) ∧ tables.length = 2 ∧
    garbleJobs (gfCodec 4) ctx g (fun id => id.sum % 7) tp pre [9] = some jobs ∧ TakesRounds 7 jobs 9 := by
  obtain ⟨ctx, g, tp, pre, nr, nz, h, hs⟩ := exSetup_ones
  obtain ⟨ctx', h', _, hn, ht, hl⟩ := exCtx_good
  rw [h', Option.some.injEq] at h
  subst h
  obtain ⟨tables, st, h1, h2, _⟩ := C66_shapes hs
  have hids : (garbleIdsOf [9] exCirc.inputs.length ctx'.l (exCirc.gates.map PackedGate.kind)).isSome = true := by
    rw [hl]
    decide +kernel
  obtain ⟨ids, hids⟩ := Option.isSome_iff_exists.1 hids
  obtain ⟨jobs, k1, k2, _⟩ := C104_garble (gfCodec 4) (C45_codec 4 (by norm_num)) ctx' id (fun _ _ => (1 : GF 4)) ⟨1, 3⟩
    exCirc g hs.new List.sum (fun id => id.sum % 7)
    (fun id => by
      unfold chooseLeader leaderFromProtoId
      have := Nat.mod_lt id.sum (show 7 > 0 by omega)
      simp only [hn]
      rw [if_neg (by omega), if_pos (by omega)])
    tp pre hs.material.len (by rw [hn, ht]; decide) (by decide) [9] ids hids tables st h1
  rw [hn] at k2
  exact ⟨ctx', g, tp, pre, tables, st, jobs, h', h1, h2, k1, k2⟩

end Verif.Props
