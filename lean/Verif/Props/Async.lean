import Verif.AsyncRounds
import Verif.AsyncBarrier
import Verif.Props.Core

/-!
# Properties of asynchronous executions

`Sys.run` is an arbitrary interleaving of the parties' steps and of message deliveries (`Verif.Async`), `seqRun` the
sequential execution (`Verif.AsyncSpec`).
-/

open Verif
open Verif.CodeField (ofU32)

namespace Verif.Props

variable {O : Type}

/-! ### C45: schedules -/

/-- C45. Jobs of the form of the code's protocols, any number of them running concurrently and depending on each other's
results: if the sequential execution succeeds and IDs are not reused carelessly, then every schedule ends, no task panics,
no schedule gets stuck, and all results are those of the sequential execution. -/
theorem C45_schedules (n : Nat) (jobs : List (Job O)) (outs : List (List O)) (hseq : seqRun n jobs = some outs)
    (hids : IdsOk jobs) : ScheduleFree n jobs outs :=
  scheduleFree_of_seq hseq hids

/-- C45. Under the same conditions a message is only received by the job (protocol instance) which it was sent for, and
each job gets the messages of a party in the order in which they were sent: what job `j` of `q` has received from `p` is an
initial part of what job `j` of `p` has sent to `q`. -/
theorem C45_own_messages (n : Nat) (jobs : List (Job O)) (outs : List (List O)) (hseq : seqRun n jobs = some outs)
    (hids : IdsOk jobs) (hO : Nonempty O) (es : List SysStep) (s : Sys O) (hrun : Sys.start.run n jobs es = some s) :
    (∀ q, ∀ y ∈ s.got q, y.1 = y.2.tag) ∧
    ∀ j p q, (((s.got q).filter fun y => y.1 = j ∧ y.2.msg.sender = p).map fun y => y.2.msg.data) <+: s.sent j p q := by
  obtain ⟨o0⟩ := hO
  have : Inhabited O := ⟨o0⟩
  obtain ⟨x, hplan, _⟩ := exists_plan hseq hids
  have h := hplan.inv hrun
  refine ⟨h.tags, fun j p q => ?_⟩
  have h1 := h.got_prefix j p q
  unfold dataFrom Sys.gotBy at h1
  rw [List.filter_map, List.map_map, List.filter_filter] at h1
  have h2 : (s.got q).filter (fun y => decide (y.1 = j ∧ y.2.msg.sender = p))
      = (s.got q).filter fun a => ((fun m : RMsg => decide (m.sender = p)) ∘ fun y : Nat × TMsg => y.2.msg) a && decide (a.1 = j) := by
    refine List.filter_congr fun y _ => ?_
    simp only [Function.comp, Bool.decide_and, Bool.and_comm]
  rw [h2]
  exact h1

/-- One job is executed as its protocol is. -/
theorem seqRun_single (n : Nat) (id : ProtocolID) (P : Proto O) (outs : List O)
    (h : P.round n (fun _ _ => none) = some outs) : seqRun n [⟨id, [], P⟩] = some [outs] := by
  unfold seqRun seqFrom
  have : seqEnv ([] : List (List O)) [] = fun _ _ => none := by
    funext p d
    simp [seqEnv]
  simp only [List.all_nil, if_true]
  rw [this, h]
  rfl

theorem idsOk_single (job : Job O) : IdsOk [job] := by
  intro i j a b hi hj hij
  have h1 := (List.getElem?_eq_some_iff.1 hi).1
  have h2 := (List.getElem?_eq_some_iff.1 hj).1
  simp at h1 h2
  omega

section
variable {F : Type} [CodeField F] [DecidableEq F]

omit [DecidableEq F] in
/-- C45, `reduce_degree`. In every schedule the parties get the results of the sequential description (which C40 is about),
for every leader and every encoding of messages which can be decoded. -/
theorem C45_reduce_degree (c : Codec F) (hc : c.Ok) (ctx : Ctx F) (id : ProtocolID) (L : Nat) (hL : L < ctx.n)
    (tapes vxs randoms zeros outs : List (List F)) (num : Nat) (hnum : num < 2 ^ 64) (hlen : ∀ v ∈ vxs, v.length = num)
    (h : reduceDegree ctx num tapes vxs randoms zeros = some outs) :
    ScheduleFree ctx.n [⟨id, [], rdProto c ctx L tapes (fun p _ =>
      (vxs[p]?).bind fun x => (randoms[p]?).bind fun r => (zeros[p]?).map fun z => (x, r, z)) (fun o => o)⟩] [outs] := by
  refine C45_schedules _ _ _ (seqRun_single _ _ _ _ ?_) (idsOk_single _)
  have := rd_round (O := List F) hc ctx hL tapes (fun p _ => (vxs[p]?).bind fun x => (randoms[p]?).bind fun r =>
    (zeros[p]?).map fun z => (x, r, z)) (fun o => o) (fun _ _ => none) num hnum vxs randoms zeros outs hlen
    (fun _ _ => rfl) h
  rwa [List.map_id'] at this

omit [DecidableEq F] in
/-- C45, `mult`. -/
theorem C45_mult (c : Codec F) (hc : c.Ok) (ctx : Ctx F) (id : ProtocolID) (L : Nat) (hL : L < ctx.n)
    (tapes vxs vys randoms zeros outs : List (List F)) (num : Nat) (hnum : num < 2 ^ 64) (hlen : ∀ v ∈ vxs, v.length = num)
    (h : mult ctx num tapes vxs vys randoms zeros = some outs) :
    ScheduleFree ctx.n [⟨id, [], multProto c ctx L tapes (fun p _ =>
      (vxs[p]?).bind fun x => (vys[p]?).bind fun y => (randoms[p]?).bind fun r => (zeros[p]?).map fun z => (x, y, r, z))
      (fun o => o)⟩] [outs] := by
  refine C45_schedules _ _ _ (seqRun_single _ _ _ _ ?_) (idsOk_single _)
  have := mult_round (O := List F) hc ctx hL tapes (fun p _ => (vxs[p]?).bind fun x => (vys[p]?).bind fun y =>
    (randoms[p]?).bind fun r => (zeros[p]?).map fun z => (x, y, r, z)) (fun o => o) (fun _ _ => none) num hnum vxs vys
    randoms zeros outs hlen (fun _ _ => rfl) h
  rwa [List.map_id'] at this

/-- C45, `trans`. -/
theorem C45_trans (c : Codec F) (hc : c.Ok) (ctx : Ctx F) (tr : SharingTransform F) (id : ProtocolID) (L : Nat)
    (hL : L < ctx.n) (tapes vxs randoms randomsN outs : List (List F)) (num : Nat) (hnum : num < 2 ^ 64)
    (hlen : ∀ v ∈ vxs, v.length = num) (h : trans ctx tr num tapes vxs randoms randomsN = some outs) :
    ScheduleFree ctx.n [⟨id, [], transProto c ctx tr L tapes (fun p _ =>
      (vxs[p]?).bind fun x => (randoms[p]?).bind fun r => (randomsN[p]?).map fun z => (x, r, z)) (fun o => o)⟩] [outs] := by
  refine C45_schedules _ _ _ (seqRun_single _ _ _ _ ?_) (idsOk_single _)
  have := trans_round (O := List F) hc ctx tr hL tapes (fun p _ => (vxs[p]?).bind fun x => (randoms[p]?).bind fun r =>
    (randomsN[p]?).map fun z => (x, r, z)) (fun o => o) (fun _ _ => none) num hnum vxs randoms randomsN outs hlen
    (fun _ _ => rfl) h
  rwa [List.map_id'] at this

/-- C45, `randtrans`. -/
theorem C45_randtrans (c : Codec F) (hc : c.Ok) (ctx : Ctx F) (tfs : List (SharingTransform F)) (id : ProtocolID)
    (randoms zeros : List (List F)) (outs : List (List (List F) × List (List F)))
    (hlen : ∀ r ∈ randoms, 2 * r.length < 2 ^ 64) (h : randtrans ctx tfs randoms zeros = some outs) :
    ScheduleFree ctx.n [⟨id, [], rtProto c ctx tfs (fun p _ =>
      (randoms[p]?).bind fun r => (zeros[p]?).map fun z => (r, z)) (fun o => o)⟩] [outs] := by
  refine C45_schedules _ _ _ (seqRun_single _ _ _ _ ?_) (idsOk_single _)
  have := rt_round (O := List (List F) × List (List F)) hc ctx tfs (fun p _ => (randoms[p]?).bind fun r =>
    (zeros[p]?).map fun z => (r, z)) (fun o => o) (fun _ _ => none) randoms zeros hlen (fun _ _ => rfl) outs h
  rwa [List.map_id'] at this

omit [DecidableEq F] in
/-- C45, `rand`. -/
theorem C45_rand (c : Codec F) (hc : c.Ok) (ctx : Ctx F) (superInv : Mat F) (id : ProtocolID) (num batches : Nat)
    (hb : numBatches num superInv.rows.length = some batches) (hlt : batches < 2 ^ 64) (tapes : List (List (List F)))
    (outs : List (List F)) (h : rand ctx superInv num tapes = some outs) :
    ScheduleFree ctx.n [⟨id, [], dealProto c ctx.n batches superInv (randSharings ctx batches tapes) (fun o => o)⟩]
      [outs] := by
  refine C45_schedules _ _ _ (seqRun_single _ _ _ _ ?_) (idsOk_single _)
  unfold rand at h
  rw [hb, Option.bind_some] at h
  obtain ⟨shs, h1, h2⟩ := Option.bind_eq_some_iff.1 h
  have := deal_round (O := List F) hc batches hlt superInv (randSharings ctx batches tapes) shs h1 (fun o => o)
    (fun _ _ => none) outs h2
  rwa [List.map_id'] at this

omit [DecidableEq F] in
/-- C45, `zero`. -/
theorem C45_zero (c : Codec F) (hc : c.Ok) (ctx : Ctx F) (superInv : Mat F) (id : ProtocolID) (num batches : Nat)
    (hb : numBatches num superInv.rows.length = some batches) (hlt : batches < 2 ^ 64) (tapes : List (List (List F)))
    (outs : List (List F)) (h : zero ctx superInv num tapes = some outs) :
    ScheduleFree ctx.n [⟨id, [], dealProto c ctx.n batches superInv (zeroSharings ctx batches tapes) (fun o => o)⟩]
      [outs] := by
  refine C45_schedules _ _ _ (seqRun_single _ _ _ _ ?_) (idsOk_single _)
  unfold zero at h
  rw [hb, Option.bind_some] at h
  obtain ⟨shs, h1, h2⟩ := Option.bind_eq_some_iff.1 h
  have := deal_round (O := List F) hc batches hlt superInv (zeroSharings ctx batches tapes) shs h1 (fun o => o)
    (fun _ _ => none) outs h2
  rwa [List.map_id'] at this

omit [DecidableEq F] in
/-- C45, `randbit`. -/
theorem C45_randbit (c : Codec F) (hc : c.Ok) (ctx : Ctx F) (superInv : Mat F) (id : ProtocolID) (num batches : Nat)
    (hb : numBatches num superInv.rows.length = some batches) (hlt : batches < 2 ^ 64) (bits : List (List (List Bool)))
    (tapes : List (List (List F))) (outs : List (List F)) (h : randbit ctx superInv num bits tapes = some outs) :
    ScheduleFree ctx.n [⟨id, [], dealProto c ctx.n batches superInv (randbitSharings ctx batches bits tapes)
      (fun o => o)⟩] [outs] := by
  refine C45_schedules _ _ _ (seqRun_single _ _ _ _ ?_) (idsOk_single _)
  unfold randbit at h
  rw [hb, Option.bind_some] at h
  obtain ⟨shs, h1, h2⟩ := Option.bind_eq_some_iff.1 h
  have := deal_round (O := List F) hc batches hlt superInv (randbitSharings ctx batches bits tapes) shs h1 (fun o => o)
    (fun _ _ => none) outs h2
  rwa [List.map_id'] at this

end

/-- C45. The encoding used by the code can be decoded. -/
theorem C45_codec (W : Nat) (hW : W ≤ 32) : (gfCodec W).Ok := gfCodec_ok W hW

/-- A degree reduction with 7 parties and party 3 as leader, over GF(16): all schedules give what the sequential
description gives. -/
example : ∃ ctx outs, exCtx = some ctx ∧
    reduceDegree ctx 1 [[ofU32 3, ofU32 11]] ((List.range 7).map fun i => [(ofU32 i : GF 4) ^ 6])
      ((List.range 7).map fun i => [(ofU32 i) ^ 3]) ((List.range 7).map fun _ => [0]) = some outs ∧
    ScheduleFree 7 [⟨[1, 2], [], rdProto (gfCodec 4) ctx 3 [[ofU32 3, ofU32 11]] (fun p _ =>
      (((List.range 7).map fun i => [(ofU32 i : GF 4) ^ 6])[p]?).bind fun x =>
      (((List.range 7).map fun i => [(ofU32 i : GF 4) ^ 3])[p]?).bind fun r =>
      (((List.range 7).map fun _ => [(0 : GF 4)])[p]?).map fun z => (x, r, z)) (fun o => o)⟩] [outs] := by
  obtain ⟨ctx, hctx, hg, hn, ht, hl⟩ := exCtx_good
  have hsome : (exCtx.bind fun ctx =>
      reduceDegree ctx 1 [[ofU32 3, ofU32 11]] ((List.range 7).map fun i => [(ofU32 i : GF 4) ^ 6])
      ((List.range 7).map fun i => [(ofU32 i) ^ 3]) ((List.range 7).map fun _ => [0])).isSome = true := by
    decide +kernel
  rw [hctx, Option.bind_some, Option.isSome_iff_exists] at hsome
  obtain ⟨outs, hout⟩ := hsome
  refine ⟨ctx, outs, hctx, hout, ?_⟩
  have := C45_reduce_degree (gfCodec 4) (C45_codec 4 (by norm_num)) ctx [1, 2] 3 (by omega) _ _ _ _ _ 1 (by norm_num)
    (by simp) hout
  rw [hn] at this
  exact this

/-! ### C37: `sync` -/

/-- C37. In every execution, if a party's call of `sync` returns then all parties have called it.  Nothing is assumed about
jobs with other IDs.  The ID may be used for several calls (one after the other): the call with a given number returns only
when all parties have made their call with this number. -/
theorem C37_barrier (n : Nat) (jobs : List (Job O)) (id : ProtocolID)
    (hsync : ∀ (j : Nat) (job : Job O), jobs[j]? = some job → job.id = id → ∃ o, job.proto = syncProto o)
    (hseq : ∀ (i j : Nat) (a b : Job O), jobs[i]? = some a → jobs[j]? = some b → i < j → a.id = id → b.id = id →
      Before jobs i j)
    (es : List SysStep) (s : Sys O) (hrun : Sys.start.run n jobs es = some s) (j : Nat) (job : Job O)
    (hj : jobs[j]? = some job) (hid : job.id = id) (p q : Nat) (hp : p < n) (hq : q < n) (hf : s.Finished p j) :
    s.Started q j := by
  refine (Sys.weak_run hrun).barrier (id := id) (fun j job hj hid => ?_) hseq hj hid hp hq hf
  obtain ⟨o, ho⟩ := hsync j job hj hid
  unfold Job.IsSync
  rw [ho]
  refine ⟨rfl, fun p env l h => ?_⟩
  cases h
  simp

/-- Two parties: the steps after which both have returned. -/
example : ∃ s, (Sys.start : Sys Unit).run 2 [⟨[7], [], syncProto ()⟩]
      ([.act 0 0, .act 0 0, .act 0 0, .deliver 0 1, .act 1 0, .act 1 0, .act 1 0, .deliver 0 0, .act 0 0, .deliver 1 0,
        .act 0 0, .act 0 0, .act 1 0, .deliver 1 1, .act 1 0, .act 1 0]) = some s ∧ s.Finished 0 0 ∧ s.Finished 1 0 :=
  ⟨_, rfl, ⟨(), rfl⟩, ⟨(), rfl⟩⟩

/-! ### C74: repeated `sync` -/

/-- Two calls with the same ID. -/
def c74Jobs : List (Job Unit) := [⟨[7], [], syncProto ()⟩, ⟨[7], [0], syncProto ()⟩]

/-- Three parties; the message of party 2 for party 1 is slow, and the message of the second call of party 0 overtakes
it. -/
def c74Steps : List SysStep :=
  List.replicate 3 (.act 0 0) ++ List.replicate 3 (.act 1 0) ++ List.replicate 3 (.act 2 0) ++
  [.deliver 0 0, .deliver 1 0, .deliver 2 0] ++ List.replicate 4 (.act 0 0) ++ List.replicate 3 (.act 0 1) ++
  [.deliver 0 1, .deliver 0 1, .deliver 1 1] ++ List.replicate 3 (.act 1 0) ++ [.deliver 2 1] ++
  List.replicate 2 (.act 1 0) ++ List.replicate 3 (.act 1 1) ++
  [.deliver 0 2, .deliver 1 2, .deliver 2 2] ++ List.replicate 4 (.act 2 0) ++ List.replicate 3 (.act 2 1) ++
  [.deliver 0 2, .deliver 1 2, .deliver 2 2] ++ List.replicate 4 (.act 2 1) ++
  [.deliver 0 0, .deliver 1 0, .deliver 2 0] ++ List.replicate 4 (.act 0 1) ++
  [.deliver 1 1, .deliver 2 1] ++ List.replicate 2 (.act 1 1)

theorem c74_isSome : ((Sys.start : Sys Unit).run 3 c74Jobs c74Steps).isSome = true := by decide +kernel

/-- The state after these steps. -/
def c74State : Sys Unit := ((Sys.start : Sys Unit).run 3 c74Jobs c74Steps).get c74_isSome

/-- C74 is false: after some schedule nothing is possible any more, and the second call of party 1 has not returned. -/
theorem C74_repeat_false : ∃ (es : List SysStep) (s : Sys Unit), Sys.start.run 3 c74Jobs es = some s ∧
    s.Stuck 3 c74Jobs ∧ ¬ s.Finished 1 1 := by
  refine ⟨c74Steps, c74State, by simp [c74State], ?_, ?_⟩
  · intro e
    rw [← Option.isNone_iff_eq_none]
    cases e with
    | act p j =>
      by_cases hp : p < 3
      · by_cases hj : j < 2
        · interval_cases p <;> interval_cases j <;> decide +kernel
        · have : c74Jobs[j]? = none := List.getElem?_eq_none (by simp [c74Jobs]; omega)
          simp [Sys.step, this]
      · simp [Sys.step, hp]
    | deliver p q =>
      by_cases hp : p < 3
      · by_cases hq : q < 3
        · interval_cases p <;> interval_cases q <;> decide +kernel
        · simp [Sys.step, hq]
      · simp [Sys.step, hp]
  · have : (match c74State.loc 1 1 with
        | .done _ => true
        | _ => false) = false := by decide +kernel
    rintro ⟨o, ho⟩
    rw [ho] at this
    cases this

/-- The calls of `sync` with the given IDs, one after the other. -/
def syncJobs (ids : List ProtocolID) : List (Job Unit) :=
  ids.zipIdx.map fun a => ⟨a.1, if a.2 = 0 then [] else [a.2 - 1], syncProto ()⟩

theorem syncJobs_getElem? (ids : List ProtocolID) (j : Nat) :
    (syncJobs ids)[j]? = (ids[j]?).map fun id => ⟨id, if j = 0 then [] else [j - 1], syncProto ()⟩ := by
  unfold syncJobs
  rw [List.getElem?_map, List.getElem?_zipIdx, Option.map_map]
  cases ids[j]? with
  | none => rfl
  | some id => simp

theorem seqFrom_syncs (n : Nat) (js : List (Job Unit)) (outs : List (List Unit))
    (hdeps : ∀ (i : Nat) (job : Job Unit), js[i]? = some job → (∀ d ∈ job.deps, d < outs.length + i) ∧ job.proto = syncProto ()) :
    ∃ res, seqFrom n js outs = some res := by
  induction js generalizing outs with
  | nil => exact ⟨outs, rfl⟩
  | cons j js ih =>
    unfold seqFrom
    obtain ⟨h1, h2⟩ := hdeps 0 j rfl
    rw [if_pos, h2, sync_round, Option.bind_some]
    · refine ih _ fun i job hi => ?_
      obtain ⟨h3, h4⟩ := hdeps (i + 1) job (by simpa using hi)
      refine ⟨fun d hd => ?_, h4⟩
      have := h3 d hd
      simp
      omega
    · rw [List.all_eq_true]
      intro d hd
      simpa using h1 d hd

theorem before_syncs (ids : List ProtocolID) (i k : Nat) (hk : i + k + 1 < ids.length) :
    Before (syncJobs ids) i (i + k + 1) := by
  have hstep : ∀ j, j + 1 < ids.length → ∃ job, (syncJobs ids)[j + 1]? = some job ∧ j ∈ job.deps := by
    intro j hj
    rw [syncJobs_getElem?, List.getElem?_eq_getElem hj]
    exact ⟨_, rfl, by simp⟩
  induction k with
  | zero => exact Relation.TransGen.single (hstep i (by omega))
  | succ k ih => exact Relation.TransGen.tail (ih (by omega)) (hstep (i + k + 1) (by omega))

/-- C74, as far as it is true: if no two consecutive calls use the same ID then all calls of all parties return, in every
schedule.  Missing: consecutive calls with the same ID. -/
theorem C74_repeat_partial (n : Nat) (ids : List ProtocolID)
    (hne : ∀ i, i + 1 < ids.length → ids[i]? ≠ ids[i + 1]?) :
    ∃ outs, ScheduleFree n (syncJobs ids) outs := by
  obtain ⟨outs, h⟩ := seqFrom_syncs n (syncJobs ids) [] (by
    intro i job hi
    rw [syncJobs_getElem?] at hi
    obtain ⟨id, _, rfl⟩ := Option.map_eq_some_iff.1 hi
    refine ⟨fun d hd => ?_, rfl⟩
    simp only [] at hd
    split at hd
    · cases hd
    · rw [List.mem_singleton] at hd
      simp
      omega)
  refine ⟨outs, C45_schedules n _ outs h ?_⟩
  intro i j a b hi hj hij hab
  rw [syncJobs_getElem?] at hi hj
  obtain ⟨ida, h1, rfl⟩ := Option.map_eq_some_iff.1 hi
  obtain ⟨idb, h2, rfl⟩ := Option.map_eq_some_iff.1 hj
  have hjl := (List.getElem?_eq_some_iff.1 h2).1
  simp only [] at hab
  subst hab
  have hgap : i + 1 < j := by
    rcases Nat.lt_or_eq_of_le (Nat.succ_le_of_lt hij) with h | h
    · exact h
    · exact absurd (by rw [h1, ← h2, ← h]) (hne i (by omega))
  obtain ⟨k, hk⟩ := Nat.exists_eq_add_of_lt hgap
  refine ⟨i + 1, ⟨ids[i + 1], [i], syncProto ()⟩, ?_, rfl, before_syncs ids i 0 (by omega), ?_⟩
  · rw [syncJobs_getElem?, List.getElem?_eq_getElem (by omega)]
    simp
  · rw [hk]
    exact before_syncs ids (i + 1) k (by omega)

/-- Two alternating IDs are enough. -/
example (n : Nat) : ∃ outs, ScheduleFree n (syncJobs [[1], [2], [1], [2], [1]]) outs := by
  refine C74_repeat_partial n _ fun i hi => ?_
  have : i < 4 := by
    simp at hi
    omega
  interval_cases i <;> decide

end Verif.Props
