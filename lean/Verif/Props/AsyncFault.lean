import Verif.AsyncFaultLemmas
import Verif.Props.AsyncRun
import Verif.Props.AsyncExit
import Verif.Props.AsyncNet

/-!
# Properties of executions with failures
-/

open Verif
open Verif.CodeField (ofU32)

namespace Verif.Props

/-! ### C109: crashes and broken connections -/

section
variable {O : Type}

/-- C109.  Whatever tasks end and whatever connections break, at any time: no other task panics because of what it receives, every job which a
party finishes has the result of the execution without failures, and the parties do not go on forever. -/
theorem C109_safe (n : Nat) (jobs : List (Job O)) (outs : List (List O)) (hseq : seqRun n jobs = some outs) (hids : IdsOk jobs) :
    ∃ B, ∀ (es : List FailStep) (y : FailSys O), FailSys.start.run n jobs es = some y → progress es ≤ B ∧
      ∀ j < jobs.length, ∀ p < n, y.sys.loc p j ≠ .fail ∧ ∀ o, y.sys.loc p j = .done o → (outs[j]?).bind (fun l => l[p]?) = some o := by
  obtain ⟨⟨B, hB⟩, hfin⟩ := C45_schedules n jobs outs hseq hids
  refine ⟨B, fun es y hrun => ?_⟩
  obtain ⟨es1, s, h1, h2, h3⟩ := slow_run hrun (es0 := []) rfl slow_start
  refine ⟨?_, fun j hj p hp => ?_⟩
  · have := hB es1 s h1
    rw [h3] at this
    simpa using this
  · obtain ⟨i1, i2, _⟩ := hfin es1 s h1 j hj p hp
    rw [h2.loc] at i1 i2
    exact ⟨i1, i2⟩

/-- C109.  A job of which one party's task ends before it has started is not finished by any party: the others are not told about the failure, and
there are no time limits. -/
theorem C109_waits (n : Nat) (jobs : List (Job O)) (outs : List (List O)) (hseq : seqRun n jobs = some outs) (hids : IdsOk jobs)
    (es es' : List FailStep) (y y' : FailSys O) (hrun : FailSys.start.run n jobs es = some y) (hrun' : y.run n jobs es' = some y') (p j : Nat) (hp : p < n)
    (hj : j < jobs.length) (hd : y.dead p j = true) (hidle : ¬ y.sys.Started p j) : ∀ q < n, ¬ y'.sys.Finished q j := by
  intro q hq hf
  obtain ⟨o, ho⟩ := id hf
  have : Inhabited O := ⟨o⟩
  obtain ⟨x, hplan, _⟩ := exists_plan hseq hids
  have hall : FailSys.start.run n jobs (es ++ es') = some y' := by rw [FailSys.run_append, hrun, Option.bind_some, hrun']
  obtain ⟨es1, s, h1, h2, _⟩ := slow_run hall (es0 := []) rfl slow_start
  have hinv := hplan.inv h1
  have hs := hinv.all_started hplan (List.getElem?_eq_getElem hj) hq (by unfold Sys.Finished at hf ⊢; rwa [h2.loc]) hp
  unfold Sys.Started at hs hidle
  rw [h2.loc, (FailSys.dead_run hrun' hd).2] at hs
  exact hidle hs

/-- C109.  Once the connection from `p` to `q` is broken, with only some of the messages which were under way being kept, no more than these are
delivered, whatever happens afterwards and however much `p` sends. -/
theorem C109_lost (n : Nat) (jobs : List (Job O)) (p q : Nat) (es : List FailStep) (y y' : FailSys O) (hrun : y.run n jobs es = some y')
    (hb : y.broken p q = true) :
    (es.countP fun e => match e with | .sys (.deliver a b) => a = p ∧ b = q | _ => false) ≤ (y.sys.chan p q).length := by
  induction es generalizing y with
  | nil => simp
  | cons e es ih =>
    obtain ⟨x, hx, hrun⟩ := Option.bind_eq_some_iff.1 hrun
    have step : ∀ {k : Nat}, x.broken p q = true → (x.sys.chan p q).length + k ≤ (y.sys.chan p q).length →
        (es.countP fun e => match e with | .sys (.deliver a b) => a = p ∧ b = q | _ => false) + k ≤ (y.sys.chan p q).length :=
      fun h1 h2 => (Nat.add_le_add_right (ih x hrun h1) _).trans h2
    rw [List.countP_cons]
    match e with
    | .kill a j =>
      cases hx
      exact step hb (by simp)
    | .cut a b keep =>
      cases hx
      refine step ?_ ?_
      · show (if p = a ∧ q = b then true else y.broken p q) = true
        rw [hb]
        exact ite_self _
      · show (if p = a ∧ q = b then (y.sys.chan p q).take keep else y.sys.chan p q).length + _ ≤ _
        split <;> simp
    | .sys (.act a j) =>
      change (if y.dead a j = true then none else (y.sys.step n jobs (.act a j)).map fun s => { y with sys := y.lose s }) = some x at hx
      split at hx
      · cases hx
      · obtain ⟨s, _, rfl⟩ := Option.map_eq_some_iff.1 hx
        refine step hb ?_
        show (if y.broken p q = true then y.sys.chan p q else s.chan p q).length + _ ≤ _
        rw [if_pos hb]
        simp
    | .sys (.deliver a b) =>
      obtain ⟨s, hs, rfl⟩ := Option.map_eq_some_iff.1 hx
      refine step hb ?_
      show (s.chan p q).length + _ ≤ _
      unfold Sys.step at hs
      simp only [] at hs
      split at hs
      · cases hc : y.sys.chan a b with
        | nil =>
          rw [hc] at hs
          cases hs
        | cons m rest =>
          rw [hc] at hs
          cases hs
          show (if p = a ∧ q = b then rest else y.sys.chan p q).length + _ ≤ _
          by_cases hab : p = a ∧ q = b
          · obtain ⟨rfl, rfl⟩ := hab
            simp [hc]
          · have : ¬ (a = p ∧ b = q) := fun h => hab ⟨h.1.symm, h.2.symm⟩
            simp [hab, this]
      · cases hs

/-- C109.  If one party crashes in the beginning, the other parties never finish any job, no task of theirs panics, and after finitely many steps
nothing happens any more. -/
theorem C109_crash (n : Nat) (jobs : List (Job O)) (outs : List (List O)) (hseq : seqRun n jobs = some outs) (hids : IdsOk jobs) (p : Nat) (hp : p < n) :
    ∃ B, ∀ (es : List FailStep) (y : FailSys O), FailSys.start.run n jobs (crashAtStart p jobs.length ++ es) = some y → progress es ≤ B ∧
      ∀ q < n, ∀ j < jobs.length, y.sys.loc q j ≠ .fail ∧ ¬ y.sys.Finished q j := by
  obtain ⟨B, hB⟩ := C109_safe n jobs outs hseq hids
  refine ⟨B, fun es y hrun => ?_⟩
  obtain ⟨i1, i2⟩ := hB _ y hrun
  refine ⟨?_, fun q hq j hj => ⟨(i2 j hj q hq).1, ?_⟩⟩
  · unfold progress at i1 ⊢
    rw [List.countP_append] at i1
    omega
  · obtain ⟨y1, k1, k2, _, k4⟩ := run_crash (n := n) (jobs := jobs) FailSys.start p jobs.length
    rw [FailSys.run_append, k1, Option.bind_some] at hrun
    refine C109_waits n jobs outs hseq hids _ es y1 y k1 hrun p j hp hj (k4 j hj) ?_ q hq
    rw [k2]
    exact fun h => h rfl

/-- C109, over the TCP network.  Whatever tasks of the parties and of their networks end and whatever connections break, in the middle of a
message or not: no other task panics because of what it receives, and every job which a party finishes has the result of the execution without
failures. -/
theorem C109_net (n : Nat) (jobs : List (Job O)) (outs : List (List O)) (hseq : seqRun n jobs = some outs) (hids : IdsOk jobs)
    (hsz : SizesOk n jobs outs) (es : List NetFail) (y : FailNet O) (hrun : (FailNet.start n).run n jobs es = some y) :
    ∀ j < jobs.length, ∀ p < n, y.full.loc p j ≠ .fail ∧ ∀ o, y.full.loc p j = .done o → (outs[j]?).bind (fun l => l[p]?) = some o := by
  intro j hj p hp
  obtain ⟨es', s, h1, h2, -⟩ := C81_refines n jobs outs hseq hids hsz _ _ (FailNet.run_full hrun)
  obtain ⟨i1, i2, -⟩ := (C45_schedules n jobs outs hseq hids).2 es' s h1 j hj p hp
  rw [h2] at i1 i2
  exact ⟨i1, i2⟩

/-- C109, over the TCP network.  A party crashes before it has started a job: no party ever finishes this job, whatever else happens. -/
theorem C109_net_crash (n : Nat) (jobs : List (Job O)) (outs : List (List O)) (hseq : seqRun n jobs = some outs) (hids : IdsOk jobs)
    (hsz : SizesOk n jobs outs) (es es' : List NetFail) (y y' : FailNet O) (p : Nat) (hp : p < n) (hrun : (FailNet.start n).run n jobs es = some y)
    (hrun' : y.run n jobs (.fail (crashSteps p) :: es') = some y') (j : Nat) (hj : j < jobs.length) (hidle : y.full.loc p j = .idle) :
    ∀ q < n, ∀ o, y'.full.loc q j ≠ .done o := by
  intro q hq o ho
  have : Inhabited O := ⟨o⟩
  obtain ⟨x, hplan, _⟩ := exists_plan hseq hids
  have hall : (FailNet.start n).run n jobs (es ++ .fail (crashSteps p) :: es') = some y' := by rw [FailNet.run_append, hrun, Option.bind_some, hrun']
  obtain ⟨es1, s, h1, h2, -⟩ := C81_refines n jobs outs hseq hids hsz _ _ (FailNet.run_full hall)
  have hs := (hplan.inv h1).all_started hplan (List.getElem?_eq_getElem hj) hq (show s.Finished q j from ⟨o, by rw [h2]; exact ho⟩) hp
  unfold Sys.Started at hs
  obtain ⟨y1, k1, k2⟩ := Option.bind_eq_some_iff.1 hrun'
  cases k1
  have h3 := FailNet.loc_run k2 (p := p) (j := j) (by simp [crashSteps]) (by simp [crashSteps])
  rw [h2, h3] at hs
  exact hs hidle

/-- C109, over the TCP network.  Once the connection from `p` to `q` is broken, `q` gets nothing more from it than the messages which have arrived
completely: the bytes which have arrived only become fewer. -/
theorem C109_net_cut (n : Nat) (jobs : List (Job O)) (p q : Nat) (es : List NetFail) (y y' : FailNet O)
    (hrun : y.run n jobs (.fail (cutSteps p q) :: es) = some y') : y'.full.inBuf p q <:+ y.full.inBuf p q := by
  obtain ⟨y1, k1, k2⟩ := Option.bind_eq_some_iff.1 hrun
  cases k1
  have := FailNet.inBuf_run k2 (p := p) (q := q) fun k => by simp [cutSteps]
  exact this

end

section
variable {F : Type} [CodeField F] [DecidableEq F]

/-- Party `p` has finished all jobs. -/
def EndsAll {O : Type} (y : FailSys O) (jobs : List (Job O)) (p : Nat) : Prop := ∀ j < jobs.length, y.sys.Finished p j

theorem EndsAll.env {O : Type} {n : Nat} {jobs : List (Job O)} {outs : List (List O)} {y : FailSys O} {p : Nat} (h : EndsAll y jobs p) (hp : p < n)
    (hy : ∀ j < jobs.length, ∀ p < n, y.sys.loc p j ≠ .fail ∧ ∀ o, y.sys.loc p j = .done o → (outs[j]?).bind (fun l => l[p]?) = some o) {j : Nat}
    (hj : j < jobs.length) : y.sys.env p j = outsEnv outs p j := by
  obtain ⟨o, ho⟩ := h j hj
  unfold Sys.env
  rw [ho]
  exact ((hy j hj p hp).2 o ho).symm

omit [DecidableEq F] in
/-- C109, `preproc`.  A party which finishes, in an execution with any failures, has its part of the material which all parties get without failures. -/
theorem C109_preproc (c : Codec F) (hc : c.Ok) (ctx : Ctx F) (hn : ctx.n < 2 ^ 32) (m mb : Mat F) (desc : PreProcCount)
    (hr : desc.numKeys + desc.randoms + 3 * desc.errors < 2 ^ 64) (hz : desc.zeros + 2 * desc.errors < 2 ^ 64)
    (hb : desc.masks + 2 * desc.errors < 2 ^ 64) (tp : PreTapes F) (id : ProtocolID) (res : List (PreProc F))
    (h : preproc ctx m mb desc tp = some res) :
    ∃ jobs, preprocJobs c ctx m mb desc tp id = some jobs ∧
      ∀ (es : List FailStep) (y : FailSys (List F)), FailSys.start.run ctx.n jobs es = some y → ∀ p < ctx.n,
        (∀ j < jobs.length, y.sys.loc p j ≠ .fail) ∧
        (EndsAll y jobs p → ∃ mine, res[p]? = some mine ∧ preprocResult desc ctx.n (y.sys.env p) = some mine) := by
  obtain ⟨ids, hids⟩ := Option.isSome_iff_exists.1 (C30_preproc id ctx.n hn)
  obtain ⟨hnd, hlen, _⟩ := C29_preproc_distinct id ctx.n ids hids
  obtain ⟨jobs, outs, h1, h2, h3, h4, h5⟩ := preproc_seq hc ctx m mb desc tp id ids hids hlen hr hz hb res h
  have hjl : jobs.length = 3 + 2 * ctx.n := by rw [← hlen, ← h2, List.length_map]
  obtain ⟨B, hB⟩ := C109_safe ctx.n jobs outs h3 (idsOk_of_nodup jobs (by rw [h2]; exact hnd))
  refine ⟨jobs, h1, fun es y hrun p hp => ⟨fun j hj => ((hB es y hrun).2 j hj p hp).1, fun hend => ?_⟩⟩
  refine ⟨res[p]'(by omega), List.getElem?_eq_getElem _, ?_⟩
  rw [← List.getElem?_eq_getElem, ← h5 p hp]
  have henv : ∀ {j : Nat}, j < jobs.length → y.sys.env p j = outsEnv outs p j := fun hj => hend.env hp (hB es y hrun).2 hj
  unfold preprocResult
  rw [henv (show 0 < jobs.length by omega), henv (show 1 < jobs.length by omega), henv (show 2 < jobs.length by omega)]
  have : (List.range ctx.n).mapM (fun a => y.sys.env p (4 + 2 * a)) = (List.range ctx.n).mapM fun a => outsEnv outs p (4 + 2 * a) := by
    refine mapM_congr_mem fun a ha => ?_
    have := List.mem_range.1 ha
    exact henv (by omega)
  rw [this]

/-- C109, `garble`.  A party which finishes, in an execution with any failures, has its tables of the execution without failures. -/
theorem C109_garble (c : Codec F) (hc : c.Ok) (ctx : Ctx F) (hash : List Nat → List Nat) (rng : List Nat → Nat → F)
    (lpn : LpnParams) (circ : PackedCircuit) (g : GarbleCtx F) (hnew : GarbleCtx.new hash rng ctx lpn circ = some g)
    (seahash : List Nat → Nat) (lead : ProtocolID → Nat)
    (hlead : ∀ id, chooseLeader seahash id none ctx.n = some (lead id)) (tp : GarbleTapes F) (pre : List (PreProc F))
    (hpre : pre.length = ctx.n) (hb : 2 * ((ctx.n + ctx.t) * (2 * lpn.keyLen + 1)) < 2 ^ 64)
    (hK : 3 * (lpn.keyLen + 1) < 2 ^ 64) (id : ProtocolID) (ids : List ProtocolID)
    (hids : garbleIdsOf id circ.inputs.length ctx.l (circ.gates.map PackedGate.kind) = some ids)
    (tables : List (List (List (List F)))) (st : GarbleState F) (h : garble ctx g tp pre = some (tables, st)) :
    ∃ jobs, garbleJobs c ctx g lead tp pre id = some jobs ∧
      ∀ (es : List FailStep) (y : FailSys (GOut F)), FailSys.start.run ctx.n jobs es = some y → ∀ p < ctx.n,
        (∀ j < jobs.length, y.sys.loc p j ≠ .fail) ∧
        (EndsAll y jobs p → ∃ pr mine, pre[p]? = some pr ∧ garbleResult ctx g p pr (y.sys.env p) = some mine ∧
          tables.mapM (fun T => T[p]?) = some mine) := by
  obtain ⟨jobs, outs, h1, h2, h3, h4⟩ := garble_jobs_seq c hc ctx hash rng lpn circ g hnew seahash lead hlead tp pre hpre hb hK id
    ids hids tables st h
  obtain ⟨B, hB⟩ := C109_safe ctx.n jobs outs h3 (idsOk_of_nodup _ (by
    rw [h2]
    exact (C29_garble_distinct id _ _ _ ids hids).1))
  exact ⟨jobs, h1, fun es y hrun p hp => ⟨fun j hj => ((hB es y hrun).2 j hj p hp).1, fun hend =>
    h4 p hp _ fun j hj => hend.env hp (hB es y hrun).2 hj⟩⟩

end

theorem c80_idsOk : IdsOk c80Jobs := by
  refine idsOk_of_nodup _ ?_
  have hlen : c80Jobs.length = 1 := by decide +kernel
  match hj : c80Jobs.map (·.id) with
  | [] => rw [hj]; exact List.nodup_nil
  | [_] => rw [hj]; exact List.nodup_singleton _
  | a :: b :: l =>
    have := congrArg List.length hj
    rw [List.length_map, hlen] at this
    simp at this

/-- A degree reduction with 7 parties and leader 3 over GF(16) (the example of C80): the connection from the leader to party 5 breaks with nothing
delivered, and party 6 crashes after it has sent its message. -/
def c109Steps : List FailStep :=
  ((List.range 7).flatMap fun p => List.replicate 3 (.sys (.act p 0))) ++ [.kill 6 0, .cut 3 5 0] ++
  ((List.range 7).map fun p => .sys (.deliver p 3)) ++
  List.replicate 16 (.sys (.act 3 0)) ++ ((List.range 5).map fun p => .sys (.deliver 3 p)) ++ ((List.range 5).map fun p => .sys (.act p 0))

theorem c109_isSome : (FailSys.start.run 7 c80Jobs c109Steps).isSome = true := by decide +kernel

/-- The state after these steps. -/
noncomputable def c109State : FailSys (List (GF 4)) := (FailSys.start.run 7 c80Jobs c109Steps).get c109_isSome

/-- Parties 0 to 4 have their results, which are those of the execution without failures; parties 5 and 6 have none. -/
example : ∃ outs, seqRun 7 c80Jobs = some outs ∧ (∀ p < 5, (c109State.sys.env p 0).isSome = true ∧ c109State.sys.env p 0 = outsEnv outs p 0) ∧
    ∀ p < 7, 5 ≤ p → c109State.sys.env p 0 = none := by
  have hsome : (seqRun 7 c80Jobs).isSome = true := by decide +kernel
  obtain ⟨outs, houts⟩ := Option.isSome_iff_exists.1 hsome
  have hlen : c80Jobs.length = 1 := by decide +kernel
  have h1 : ∀ p < 5, (c109State.sys.env p 0).isSome = true := by decide +kernel
  have h2 : ∀ p < 7, 5 ≤ p → (c109State.sys.env p 0).isNone = true := by decide +kernel
  have hids : IdsOk c80Jobs := c80_idsOk
  obtain ⟨B, hB⟩ := C109_safe 7 c80Jobs outs houts hids
  obtain ⟨_, hB⟩ := hB c109Steps c109State (by simp [c109State])
  refine ⟨outs, houts, fun p hp => ⟨h1 p hp, ?_⟩, fun p hp h5 => Option.isNone_iff_eq_none.1 (h2 p hp h5)⟩
  refine EndsAll.env (n := 7) (fun j hj => ?_) (by omega) hB (by omega)
  obtain rfl : j = 0 := by omega
  have h3 := h1 p hp
  unfold Sys.env at h3
  unfold Sys.Finished
  cases hl : c109State.sys.loc p 0 <;> rw [hl] at h3 <;> simp at h3 ⊢

/-- The degree reduction, with a crash of party 2 in the beginning: no party ever gets a result. -/
example : ∃ B, ∀ (es : List FailStep) (y : FailSys (List (GF 4))), FailSys.start.run 7 c80Jobs (crashAtStart 2 1 ++ es) = some y →
    progress es ≤ B ∧ ∀ q < 7, y.sys.loc q 0 ≠ .fail ∧ ¬ y.sys.Finished q 0 := by
  have hsome : (seqRun 7 c80Jobs).isSome = true := by decide +kernel
  obtain ⟨outs, houts⟩ := Option.isSome_iff_exists.1 hsome
  have hlen : c80Jobs.length = 1 := by decide +kernel
  obtain ⟨B, hB⟩ := C109_crash 7 c80Jobs outs houts c80_idsOk 2 (by omega)
  rw [hlen] at hB
  exact ⟨B, fun es y h => ⟨(hB es y h).1, fun q hq => (hB es y h).2 q hq 0 (by omega)⟩⟩

end Verif.Props
