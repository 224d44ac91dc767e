import Verif.AsyncNetBench
import Verif.Props.AsyncBench

/-!
# Properties of executions over the TCP network

`Full.run` is an arbitrary interleaving of all tasks of all parties, including those of `src/protocol/network.rs`, in which
arbitrary portions of bytes are written and arrive (`Verif.AsyncNet`).
-/

open Verif

namespace Verif.Props

section
variable {O : Type}

/-! ### C81: the parties over the TCP network -/

/-- C81.  If the sequential execution succeeds, IDs are not reused carelessly, and every message of the sequential execution
has an ID of at most 255 bytes and fits the length field, then every schedule of the parties' tasks and of all tasks of
their networks ends, no task panics, no schedule gets stuck before all jobs are finished, and all results are those of the
sequential execution. -/
theorem C81_tcp (n : Nat) (jobs : List (Job O)) (outs : List (List O)) (hseq : seqRun n jobs = some outs)
    (hids : IdsOk jobs) (hsz : SizesOk n jobs outs) : NetScheduleFree n jobs outs :=
  netScheduleFree_of_seq hseq hids hsz

/-- C81.  Under the same conditions the parties cannot tell the network from per-pair channels with an inbox at their end: to
every execution over the TCP network belongs an execution of `Verif.Async` which brings the parties into the same states,
and which has come to an end if the one over the network has. -/
theorem C81_refines (n : Nat) (jobs : List (Job O)) (outs : List (List O)) (hseq : seqRun n jobs = some outs)
    (hids : IdsOk jobs) (hsz : SizesOk n jobs outs) (es : List FStep) (f : Full O)
    (hrun : (Full.start n).run n jobs es = some f) :
    ∃ es' s, Sys.start.run n jobs es' = some s ∧ s.loc = f.loc ∧ (f.Stuck n jobs → s.Stuck n jobs) := by
  by_cases hO : Nonempty O
  · obtain ⟨o0⟩ := hO
    have : Inhabited O := ⟨o0⟩
    obtain ⟨x, hplan, hout⟩ := exists_plan hseq hids
    have hsz' := sizes_of_seq hplan hout hsz
    obtain ⟨s, fr, un, h⟩ := NRel.start.run hplan hsz' hrun
    obtain ⟨es', hes'⟩ := h.reach
    exact ⟨es', s, hes', h.loc.symm, h.stuck hplan hsz'⟩
  · have hempty := empty_case hO hseq
    cases es with
    | nil =>
      simp only [Full.run, Option.some.injEq] at hrun
      subst hrun
      refine ⟨[], Sys.start, rfl, rfl, fun _ e => ?_⟩
      rcases hempty with rfl | rfl
      · cases e <;> simp [Sys.step, Sys.start]
      · cases e <;> simp [Sys.step]
    | cons e es =>
      simp only [Full.run] at hrun
      rw [empty_stuck hempty e] at hrun
      cases hrun

/-- C81.  When nothing is possible any more, nothing is left in the network: all messages have reached a router. -/
theorem C81_quiet (n : Nat) (jobs : List (Job O)) (outs : List (List O)) (hseq : seqRun n jobs = some outs)
    (hids : IdsOk jobs) (hsz : SizesOk n jobs outs) (hO : Nonempty O) (es : List FStep) (f : Full O)
    (hrun : (Full.start n).run n jobs es = some f) (hst : f.Stuck n jobs) :
    (∀ p < n, f.netInp p = [] ∧ f.partyOut p = [] ∧ f.netOut p = []) ∧
    ∀ p < n, ∀ q < n, p ≠ q → f.partyInp p q = [] ∧ f.outBuf p q = [] ∧ f.wire p q = [] ∧ f.inBuf p q = [] := by
  obtain ⟨o0⟩ := hO
  have : Inhabited O := ⟨o0⟩
  obtain ⟨x, hplan, hout⟩ := exists_plan hseq hids
  have hsz' := sizes_of_seq hplan hout hsz
  obtain ⟨s, fr, un, h⟩ := NRel.start.run hplan hsz' hrun
  obtain ⟨hq, _⟩ := h.quiet hplan hsz' hst
  exact ⟨fun p hp => ⟨hq.netInp p hp, hq.partyOut p hp, hq.netOut p hp⟩, fun p hp q hq' hpq =>
    ⟨hq.partyInp p hp q hq' hpq, hq.outBuf p hp q hq' hpq, hq.wire p hp q hq' hpq, hq.inBuf p hp q hq' hpq⟩⟩

/-! ### C82: the statistics -/

/-- C82.  At any time the statistics which party `q` keeps about the messages of party `r` (bytes without and with IDs) lie
between the bytes which the jobs that `q` has finished exchange and the bytes of the jobs that `r` has started: every message
of a finished job has been counted, and nothing has been counted twice. -/
theorem C82_bounds (n : Nat) (jobs : List (Job O)) (outs : List (List O)) (hseq : seqRun n jobs = some outs)
    (hids : IdsOk jobs) (hsz : SizesOk n jobs outs) (hO : Nonempty O) (es : List FStep) (f : Full O)
    (hrun : (Full.start n).run n jobs es = some f) (q r : Nat) (hq : q < n) (hr : r < n) (fin started : Finset Nat)
    (hfin : ∀ j ∈ fin, j < jobs.length ∧ ∃ o, f.loc q j = .done o)
    (hstarted : ∀ j < jobs.length, j ∉ started → f.loc r j = .idle) :
    ∃ a, (f.stats q)[r]? = some a ∧
      ∑ j ∈ fin, jobBytes n jobs outs r q j ≤ a ∧ a ≤ ∑ j ∈ started, jobBytes n jobs outs r q j := by
  obtain ⟨o0⟩ := hO
  have : Inhabited O := ⟨o0⟩
  obtain ⟨x, hplan, hout⟩ := exists_plan hseq hids
  have hsz' := sizes_of_seq hplan hout hsz
  obtain ⟨s, fr, un, h⟩ := NRel.start.run hplan hsz' hrun
  obtain ⟨a, h1, h2⟩ := h.stats q hq r hr
  have hlo := arrived_lower hplan hout (h.inv hplan) hr hq fin (fun j hj => by rw [Sys.Finished, ← h.loc]; exact hfin j hj)
  have hup := arrived_upper hplan hout (h.inv hplan) hr hq started (fun j hj hn => by rw [← h.loc]; exact hstarted j hj hn)
  have hle := h.partyOut_le hq r
  refine ⟨a, h1, hlo.trans ?_, le_trans ?_ hup⟩
  · have e1 := congrArg Prod.fst h2
    have e2 := congrArg Prod.snd h2
    simp only [Prod.fst_add, Prod.snd_add] at e1 e2
    have l1 := hle.1
    have l2 := hle.2
    exact ⟨by omega, by omega⟩
  · rw [← h2]
    exact ⟨Nat.le_add_right _ _, Nat.le_add_right _ _⟩

/-- C82.  At the end the statistics are exactly the bytes of the sequential execution, whatever the schedule. -/
theorem C82_total (n : Nat) (jobs : List (Job O)) (outs : List (List O)) (hseq : seqRun n jobs = some outs)
    (hids : IdsOk jobs) (hsz : SizesOk n jobs outs) (hO : Nonempty O) (es : List FStep) (f : Full O)
    (hrun : (Full.start n).run n jobs es = some f) (hst : f.Stuck n jobs) (q r : Nat) (hq : q < n) (hr : r < n) :
    (f.stats q)[r]? = some (∑ j ∈ Finset.range jobs.length, jobBytes n jobs outs r q j) := by
  obtain ⟨a, h1, h2, h3⟩ := C82_bounds n jobs outs hseq hids hsz hO es f hrun q r hq hr (Finset.range jobs.length)
    (Finset.range jobs.length) (fun j hj => ⟨Finset.mem_range.1 hj,
      ((C81_tcp n jobs outs hseq hids hsz).2 es f hrun j (Finset.mem_range.1 hj) q hq).2.2 hst⟩)
    (fun j hj hn => absurd (Finset.mem_range.2 hj) hn)
  rw [h1, le_antisymm h3 h2]

/-- C82, the communication which the benchmark programs report for a repetition, i.e. the difference of the statistics after
and before the repetition.  It is at most the number of bytes of the repetition and of the message which follows (of the
next `sync`, or the measurements).  Missing: it is not at least the number of bytes of the repetition
(`C82_repetition_false`). -/
theorem C82_repetition_partial (n : Nat) (hn : 0 < n) (bid : ProtocolID) (o : O) (save : Option (Nat → List Nat))
    (bodies : List (List (Job O))) (outs : List (List (List O)))
    (hseq : List.Forall₂ (fun b c => seqRun n b = some c) bodies outs) (hids : ∀ b ∈ bodies, IdsOk b)
    (hbid : ∀ b ∈ bodies, ∀ j ∈ b, j.id ≠ bid) (hfree : ∀ b ∈ bodies, ∃ j ∈ b, j.proto.leader = none)
    (hsz : List.Forall₂ (fun b c => SizesOk n b c) bodies outs) (hbid255 : bid.length ≤ 255)
    (hsave : ∀ data, save = some data → ∀ p < n, (data p).length < 2 ^ 63)
    (r : Nat) (b : List (Job O)) (c : List (List O)) (hb : bodies[r]? = some b) (hc : outs[r]? = some c)
    (es es' : List FStep) (f f' : Full O)
    (hrun : (Full.start n).run n (benchJobs bid o save bodies) es = some f)
    (hrun' : (Full.start n).run n (benchJobs bid o save bodies) es' = some f') (p q : Nat) (hp : p < n) (hq : q < n)
    (hnow : ∃ o, f.loc p (benchStart bodies r) = .done o)
    (hend : ∀ j, benchStart bodies r + 1 + b.length ≤ j → f'.loc p j = .idle) :
    ∃ all a a', seqRun n (benchJobs bid o save bodies) = some all ∧ (f.stats p)[q]? = some a ∧ (f'.stats p)[q]? = some a' ∧
      a' ≤ a + ∑ i ∈ Finset.range b.length, jobBytes n b c q p i
        + jobBytes n (benchJobs bid o save bodies) all q p (benchStart bodies r + 1 + b.length) := by
  have hseq' := bench_seq (bid := bid) (o := o) (save := save) hn outs hseq
  have hids' := bench_ids (bid := bid) (o := o) (save := save) hids hbid hfree
  have hsz' := bench_sizes (o := o) hseq hsz hbid255 hsave
  have : Inhabited O := ⟨o⟩
  have hO : Nonempty O := ⟨o⟩
  have hrl := (List.getElem?_eq_some_iff.1 hb).1
  have hle := benchStart_le hb (show r < bodies.length from hrl)
  have hlen := benchJobs_length (bid := bid) (o := o) (save := save) (bodies := bodies)
  obtain ⟨x, hplan, hout⟩ := exists_plan hseq' hids'
  have hsys := sizes_of_seq hplan hout hsz'
  refine ⟨benchAllOuts n o save outs, ?_⟩
  -- everything up to the `sync` has been counted
  have hlo : ∀ j ∈ Finset.range (benchStart bodies r + 1), j < (benchJobs bid o save bodies).length ∧
      ∃ o, f.loc p j = .done o := by
    intro j hj
    rw [Finset.mem_range] at hj
    refine ⟨by omega, ?_⟩
    by_cases hjs : j = benchStart bodies r
    · rw [hjs]
      exact hnow
    · obtain ⟨s, fr, un, h⟩ := NRel.start.run hplan hsys hrun
      obtain ⟨o1, ho1⟩ := hnow
      have hbef : Before (benchJobs bid o save bodies) j (benchStart bodies r) :=
        .single ⟨_, benchJobs_sync hb, List.mem_range.2 (by omega)⟩
      obtain ⟨o2, ho2⟩ := (h.inv hplan).started_before hbef hp (by
        intro h0
        rw [h.loc, h0] at ho1
        cases ho1)
      exact ⟨o2, by rw [h.loc]; exact ho2⟩
  -- nothing behind the next `sync` has been started
  have hup : ∀ j < (benchJobs bid o save bodies).length, j ∉ Finset.range (benchStart bodies r + 1 + b.length + 1) →
      f'.loc q j = .idle := by
    intro j hj hjn
    rw [Finset.mem_range] at hjn
    obtain ⟨s, fr, un, h⟩ := NRel.start.run hplan hsys hrun'
    by_contra hne
    have hnext : benchStart bodies (r + 1) = benchStart bodies r + 1 + b.length := by
      unfold benchStart
      rw [List.take_add_one, hb]
      simp
      omega
    by_cases hr1 : r + 1 < bodies.length
    · have hb1 : bodies[r + 1]? = some bodies[r + 1] := List.getElem?_eq_getElem hr1
      have hbef := before_sync (bid := bid) (o := o) (save := save) hb1 (List.getElem?_eq_getElem hj) (by omega)
      have hfin := (h.inv hplan).started_before hbef hq (by
        intro h0
        rw [h.loc] at hne
        exact hne h0)
      have hst := (h.inv hplan).barrier (benchJobs_sync hb1) rfl hq hfin hp
      refine hst ?_
      rw [← h.loc]
      exact hend _ (by omega)
    · have : bodies.length = r + 1 := by omega
      rw [this, hnext] at hlen
      split at hlen <;> omega
  obtain ⟨a, a1, a2, _⟩ := C82_bounds n _ _ hseq' hids' hsz' hO es f hrun p q hp hq _
    (Finset.range (benchJobs bid o save bodies).length) hlo (fun j hj hn => absurd (Finset.mem_range.2 hj) hn)
  obtain ⟨a', a1', _, a3'⟩ := C82_bounds n _ _ hseq' hids' hsz' hO es' f' hrun' p q hp hq ∅ _ (by simp) hup
  refine ⟨a, a', hseq', a1, a1', ?_⟩
  refine a3'.trans ?_
  rw [Finset.sum_range_succ, Finset.sum_range_add]
  have hbody : ∑ i ∈ Finset.range b.length, jobBytes n (benchJobs bid o save bodies) (benchAllOuts n o save outs) q p
      (benchStart bodies r + 1 + i) = ∑ i ∈ Finset.range b.length, jobBytes n b c q p i :=
    Finset.sum_congr rfl fun i hi => bench_jobBytes hseq hb hc (Finset.mem_range.1 hi) q p
  rw [hbody]
  exact ⟨Nat.add_le_add_right (Nat.add_le_add_right a2.1 _) _, Nat.add_le_add_right (Nat.add_le_add_right a2.2 _) _⟩

end

/-- The program of two parties with one repetition, in which they exchange one message. -/
def c82Jobs : List (Job Nat) := benchJobs [9] 0 none [[⟨[7], [], syncProto 0⟩]]

/-- Party `p` sends one message in job `j`; it reaches both routers. -/
def c82Send (p j : Nat) : List FStep :=
  [.act p j, .act p j, .route p, .take p (1 - p), .push p (1 - p) 7, .pull p (1 - p) 3, .pull p (1 - p) 4, .parse p (1 - p),
    .arrive 0, .arrive 1]

/-- Party `p` receives two messages in job `j`. -/
def c82Recv (p j : Nat) : List FStep :=
  [.act p j, .act p j, .request p, .resume p j, .act p j, .request p, .resume p j, .act p j]

/-- Both parties have sent the message of `sync`; party 1 receives them, goes on and sends the message of the repetition;
then `sync` of party 0 returns. -/
def c82Before : List FStep := c82Send 0 0 ++ c82Send 1 0 ++ c82Recv 1 0 ++ c82Send 1 1 ++ c82Recv 0 0

/-- The rest of the repetition. -/
def c82After : List FStep := c82Send 0 1 ++ c82Recv 0 1 ++ c82Recv 1 1

theorem c82_isSome : ((Full.start 2).run 2 c82Jobs c82Before).isSome = true := by decide +kernel

/-- The state in which party 0 calls `Stats::now`. -/
def c82Now : Full Nat := ((Full.start 2).run 2 c82Jobs c82Before).get c82_isSome

theorem c82_isSome' : (c82Now.run 2 c82Jobs c82After).isSome = true := by decide +kernel

/-- The state at the end. -/
def c82End : Full Nat := (c82Now.run 2 c82Jobs c82After).get c82_isSome'

/-- C82 is false for the communication of a repetition: party 0 reports that it has received nothing from party 1 in the
repetition, although it received a message of 4 bytes (5 with the ID). -/
theorem C82_repetition_false : ∃ (es es' : List FStep) (f f' : Full Nat) (all : List (List Nat)),
    seqRun 2 c82Jobs = some all ∧ jobBytes 2 c82Jobs all 1 0 1 = (4, 5) ∧
    (Full.start 2).run 2 c82Jobs es = some f ∧ f.loc 0 0 = .done 0 ∧ f.loc 0 1 = .idle ∧
    f.run 2 c82Jobs es' = some f' ∧ (∀ p < 2, ∀ j < 2, f'.loc p j = .done 0) ∧
    (f'.stats 0)[1]? = (f.stats 0)[1]? := by
  have h : c82Now.env 0 0 = some 0 ∧ (match c82Now.loc 0 1 with | .idle => true | _ => false) = true ∧
      (∀ p < 2, ∀ j < 2, c82End.env p j = some 0) ∧ (c82End.stats 0)[1]? = (c82Now.stats 0)[1]? := by decide +kernel
  obtain ⟨h1, h2, h3, h4⟩ := h
  refine ⟨c82Before, c82After, c82Now, c82End, [[0, 0], [0, 0]], by decide +kernel, by decide +kernel, by simp [c82Now], ?_, ?_,
    by simp [c82End], ?_, h4⟩
  · unfold Full.env at h1
    split at h1
    · rename_i o ho
      rw [ho, Option.some.inj h1]
    · cases h1
  · split at h2
    · assumption
    · cases h2
  · intro p hp j hj
    have := h3 p hp j hj
    unfold Full.env at this
    split at this
    · rename_i o ho
      rw [ho, Option.some.inj this]
    · cases this

/-- The program of two parties satisfies the hypotheses of C81 and C82. -/
theorem c82_hyps : seqRun 2 c82Jobs = some [[0, 0], [0, 0]] ∧ IdsOk c82Jobs ∧ SizesOk 2 c82Jobs [[0, 0], [0, 0]] := by
  refine ⟨by decide +kernel, idsOk_of_nodup _ (by decide +kernel), ?_⟩
  unfold SizesOk
  decide +kernel

/-- Every schedule of the two parties and their networks gives the results of the sequential execution. -/
example : NetScheduleFree 2 c82Jobs [[0, 0], [0, 0]] := C81_tcp 2 _ _ c82_hyps.1 c82_hyps.2.1 c82_hyps.2.2

/-- The state at the end of the schedule above is one which the parties reach over per-pair channels, too. -/
example : ∃ es' s, Sys.start.run 2 c82Jobs es' = some s ∧ s.loc = c82End.loc ∧ (c82End.Stuck 2 c82Jobs → s.Stuck 2 c82Jobs) := by
  refine C81_refines 2 _ _ c82_hyps.1 c82_hyps.2.1 c82_hyps.2.2 (c82Before ++ c82After) c82End ?_
  have happ : ∀ (es es' : List FStep) (f g : Full Nat), f.run 2 c82Jobs es = some g →
      f.run 2 c82Jobs (es ++ es') = g.run 2 c82Jobs es' := by
    intro es es'
    induction es with
    | nil =>
      intro f g h
      simp only [Full.run, Option.some.injEq] at h
      rw [h, List.nil_append]
    | cons e es ih =>
      intro f g h
      simp only [Full.run, List.cons_append] at h ⊢
      obtain ⟨f', h1, h2⟩ := Option.bind_eq_some_iff.1 h
      rw [h1, Option.bind_some, ih f' g h2]
  rw [happ c82Before c82After _ c82Now (by simp [c82Now])]
  simp [c82End]

/-- In every schedule which has come to an end, each of the two parties has counted 8 bytes (10 with IDs) from the other. -/
example (es : List FStep) (f : Full Nat) (hrun : (Full.start 2).run 2 c82Jobs es = some f) (hst : f.Stuck 2 c82Jobs) :
    (f.stats 0)[1]? = some (8, 10) := by
  rw [C82_total 2 _ _ c82_hyps.1 c82_hyps.2.1 c82_hyps.2.2 ⟨0⟩ es f hrun hst 0 1 (by norm_num) (by norm_num)]
  decide +kernel

/-- When `sync` of party 0 has returned, it has counted the message of party 1 for `sync`, and at most the one of the
repetition: `c82Now` attains the upper bound. -/
example : ∃ a, (c82Now.stats 0)[1]? = some a ∧ (4, 5) ≤ a ∧ a ≤ (8, 10) ∧ a = (8, 10) :=
  ⟨(8, 10), by decide +kernel⟩

/-- The bound of `C82_repetition_partial` for the program of two parties: no next message, so at most the 4 bytes of the
repetition. -/
example (es es' : List FStep) (f f' : Full Nat) (hrun : (Full.start 2).run 2 c82Jobs es = some f)
    (hrun' : (Full.start 2).run 2 c82Jobs es' = some f') (hnow : ∃ o, f.loc 0 0 = .done o)
    (hend : ∀ j, 2 ≤ j → f'.loc 0 j = .idle) :
    ∃ a a', (f.stats 0)[1]? = some a ∧ (f'.stats 0)[1]? = some a' ∧ a' ≤ a + (4, 5) := by
  obtain ⟨all, a, a', h1, h2, h3, h4⟩ := C82_repetition_partial 2 (by norm_num) [9] 0 none [[⟨[7], [], syncProto 0⟩]] [[[0, 0]]]
    (.cons (by decide +kernel) .nil) (fun b hb => idsOk_of_nodup b (by rw [List.mem_singleton.1 hb]; decide))
    (fun b hb j hj => by
      rw [List.mem_singleton.1 hb] at hj
      rw [List.mem_singleton.1 hj]
      decide)
    (fun b hb => ⟨⟨[7], [], syncProto 0⟩, by rw [List.mem_singleton.1 hb]; exact List.mem_singleton_self _, rfl⟩)
    (.cons (by unfold SizesOk; decide +kernel) .nil) (by decide) (by simp) 0 _ _ rfl rfl es es' f f' hrun hrun' 0 1 (by norm_num)
    (by norm_num) hnow (fun j hj => hend j hj)
  have hall : all = [[0, 0], [0, 0]] := by
    have := c82_hyps.1
    unfold c82Jobs at this
    rw [h1, Option.some.injEq] at this
    exact this
  subst hall
  have h5 : ∑ i ∈ Finset.range [(⟨[7], [], syncProto 0⟩ : Job Nat)].length, jobBytes 2 [⟨[7], [], syncProto 0⟩] [[0, 0]] 1 0 i
      = (4, 5) := by decide +kernel
  have h6 : jobBytes 2 (benchJobs [9] 0 none [[⟨[7], [], syncProto 0⟩]]) [[0, 0], [0, 0]] 1 0
      (benchStart [[(⟨[7], [], syncProto 0⟩ : Job Nat)]] 0 + 1 + [(⟨[7], [], syncProto 0⟩ : Job Nat)].length) = (0, 0) := by
    decide +kernel
  rw [h5, h6] at h4
  exact ⟨a, a', h2, h3, h4⟩

end Verif.Props
