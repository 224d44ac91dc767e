import Verif.AsyncExitLemmas
import Verif.Props.AsyncBench

/-!
# Properties of processes which end
-/

open Verif
open Verif.CodeField (ofU32)

namespace Verif.Props

variable {O : Type}

/-! ### C80: the end of the programs -/

/-- C80 is false for `--save`: whatever the iterations do, in every schedule the program of party 0 ends, and no other party
ever gets past the last exchange. -/
theorem C80_save_false (n : Nat) (hn : 0 < n) (bid : ProtocolID) (o : O) (data : Nat → List Nat)
    (bodies : List (List (Job O))) (outs : List (List (List O)))
    (hseq : List.Forall₂ (fun b c => seqRun n b = some c) bodies outs) (hids : ∀ b ∈ bodies, IdsOk b)
    (hbid : ∀ b ∈ bodies, ∀ j ∈ b, j.id ≠ bid) (hfree : ∀ b ∈ bodies, ∃ j ∈ b, j.proto.leader = none) :
    ∃ jobs last B, jobs = benchJobs bid o (some data) bodies ∧ jobs.length = last + 1 ∧
      ∀ (es : List SStep) (x : XSys O), saveRun n jobs last XSys.start es = some x →
        es.length ≤ B ∧ (∀ p < n, p ≠ 0 → ¬ x.sys.Finished p last) ∧
        ((∀ e, saveStep n jobs last x e = none) → x.gone 0 = true) := by
  have hlast : (benchJobs bid o (some data) bodies)[benchStart bodies bodies.length]?
      = some ⟨bid, List.range (benchStart bodies bodies.length), saveProto o data⟩ := by
    unfold benchJobs
    rw [List.getElem?_append_right (by rw [benchLoop_length]), benchLoop_length, Nat.sub_self]
    rfl
  have hseq' := bench_seq (bid := bid) (o := o) (save := some data) hn outs hseq
  have hids' := bench_ids (o := o) (save := some data) hids hbid hfree
  obtain ⟨⟨B, hB⟩, hfin⟩ := C45_schedules n _ _ hseq' hids'
  have : Inhabited O := ⟨o⟩
  obtain ⟨y, hplan, _⟩ := exists_plan hseq' hids'
  refine ⟨_, benchStart bodies bodies.length, B + 1, rfl, by rw [benchJobs_length]; rfl, fun es x hrun => ?_⟩
  obtain ⟨es1, i1, i2, i3, i4⟩ := save_run hplan hn hlast rfl hrun (es0 := []) rfl rfl (by simp [XSys.start]) (k := 0)
    (by simp [XSys.start])
  have hinv := hplan.inv i1
  refine ⟨?_, fun p hp hp0 => early_unfinished hplan hinv hlast rfl i2 hp hp0, fun hst => ?_⟩
  · have := hB es1 _ i1
    simp only [List.length_nil, Nat.zero_add] at i4
    split at i4 <;> omega
  · by_contra hg
    rw [Bool.not_eq_true] at hg
    have hfs := hst .finish
    unfold saveStep at hfs
    simp only [] at hfs
    have hcol : x.sys.collected n (benchStart bodies bodies.length) = false := by
      by_contra hc
      rw [Bool.not_eq_false] at hc
      rw [if_pos ⟨hg, hc⟩] at hfs
      cases hfs
    have hstuck : x.sys.Stuck n (benchJobs bid o (some data) bodies) := by
      intro e
      have hse := hst (.sys e)
      unfold saveStep at hse
      simp only [] at hse
      rw [if_neg] at hse
      · exact Option.map_eq_none_iff.1 hse
      · rintro (he | ⟨_, he⟩)
        · cases e with
          | deliver p q => cases he
          | act p j =>
            have he' : x.gone p = true := he
            rw [i3 p he', hg] at he'
            cases he'
        · rw [hcol] at he
          cases he
    obtain ⟨o', ho⟩ := (hfin es1 _ i1 (benchStart bodies bodies.length) (List.getElem?_eq_some_iff.1 hlast).1 0 hn).2.2 hstuck
    rw [ho] at i2
    cases i2

/-- A degree reduction with 7 parties and leader 3 over GF(16) (the example of C45). -/
noncomputable def c80Jobs : List (Job (List (GF 4))) :=
  match exCtx with
  | none => []
  | some ctx => [⟨[1, 2], [], rdProto (gfCodec 4) ctx 3 [[ofU32 3, ofU32 11]] (fun p _ =>
      (((List.range 7).map fun i => [(ofU32 i : GF 4) ^ 6])[p]?).bind fun x =>
      (((List.range 7).map fun i => [(ofU32 i : GF 4) ^ 3])[p]?).bind fun r =>
      (((List.range 7).map fun _ => [(0 : GF 4)])[p]?).map fun z => (x, r, z)) (fun o => o)⟩]

/-- All parties send their message to the leader, the leader answers, receives its own answer, and ends before any other answer
has been written. -/
def c80Steps : List XStep :=
  ((List.range 7).flatMap fun p => List.replicate 3 (.sys (.act p 0))) ++
  ((List.range 7).map fun p => .sys (.deliver p 3)) ++
  List.replicate 16 (.sys (.act 3 0)) ++ [.sys (.deliver 3 3), .sys (.act 3 0), .exit 3 fun _ => 0]

theorem c80_isSome : (XSys.start.run 7 c80Jobs c80Steps).isSome = true := by decide +kernel

/-- The state after these steps. -/
noncomputable def c80State : XSys (List (GF 4)) := (XSys.start.run 7 c80Jobs c80Steps).get c80_isSome

/-- What is left in this state. -/
theorem c80_left : (∀ p < 7, c80State.ended (.act p 0) = true ∨ (c80State.sys.step 7 c80Jobs (.act p 0)).isNone = true) ∧
    (∀ p < 7, ∀ q < 7, (c80State.sys.chan p q).isEmpty = true) ∧
    (∀ p < 7, c80State.gone p = true ∨ c80State.sys.allDone c80Jobs p = false) ∧ c80State.gone 3 = true ∧
    (c80State.sys.env 0 0).isSome = false ∧ c80Jobs.length = 1 := by
  decide +kernel

/-- C80 is false without `--save`, too: the leader of the last protocol may end before its answers have left, and then the
other parties wait forever, although the execution one after the other succeeds. -/
theorem C80_exit_false : (seqRun 7 c80Jobs).isSome = true ∧ IdsOk c80Jobs ∧ ∃ (es : List XStep) (x : XSys (List (GF 4))), XSys.start.run 7 c80Jobs es = some x ∧
    x.Stuck 7 c80Jobs ∧ x.gone 3 = true ∧ ¬ x.sys.Finished 0 0 := by
  obtain ⟨h1, h2, h3, h4, h5, h6⟩ := c80_left
  refine ⟨by decide +kernel, idsOk_of_nodup _ ?_, c80Steps, c80State, by simp [c80State], ?_, h4, ?_⟩
  · match hj : c80Jobs.map (·.id) with
    | [] => rw [hj]; exact List.nodup_nil
    | [_] => rw [hj]; exact List.nodup_singleton _
    | a :: b :: l =>
      have := congrArg List.length hj
      rw [List.length_map, h6] at this
      simp at this
  · intro e
    cases e with
    | exit p keep =>
      unfold XSys.step
      simp only []
      rw [if_neg]
      rintro ⟨hp, hg, hd⟩
      rcases h3 p hp with h | h
      · rw [h] at hg
        cases hg
      · rw [h] at hd
        cases hd
    | sys e =>
      unfold XSys.step
      simp only []
      split
      · rfl
      · rename_i he
        rw [Option.map_eq_none_iff]
        cases e with
        | act p j =>
          by_cases hp : p < 7
          · by_cases hj : j = 0
            · subst hj
              exact Option.isNone_iff_eq_none.1 ((h1 p hp).resolve_left he)
            · have : c80Jobs[j]? = none := List.getElem?_eq_none (by omega)
              simp [Sys.step, this]
          · simp [Sys.step, hp]
        | deliver p q =>
          by_cases hp : p < 7
          · by_cases hq : q < 7
            · have := List.isEmpty_iff.1 (h2 p hp q hq)
              simp [Sys.step, this]
            · simp [Sys.step, hq]
          · simp [Sys.step, hp]
  · rintro ⟨o, ho⟩
    unfold Sys.env at h5
    rw [ho] at h5
    cases h5

/-- C80, as far as it is true: if a process only ends when its messages have been written to the connections, then processes
which end as soon as their own jobs are finished do no harm: every schedule ends, no task panics, finished jobs have the
results of the sequential execution, and in the end all jobs of all parties are finished.  Missing: the programs do not wait
for this. -/
theorem C80_exit_partial (n : Nat) (jobs : List (Job O)) (outs : List (List O)) (hseq : seqRun n jobs = some outs)
    (hids : IdsOk jobs) :
    ∃ B, ∀ (es : List XStep) (x : XSys O), XSys.start.run n jobs es = some x → Lossless n jobs XSys.start es →
      es.length ≤ B ∧ ∀ j < jobs.length, ∀ p < n,
        x.sys.loc p j ≠ .fail ∧ (∀ o, x.sys.loc p j = .done o → (outs[j]?).bind (fun l => l[p]?) = some o) ∧
        (x.Stuck n jobs → x.sys.Finished p j) := by
  obtain ⟨⟨B, hB⟩, hfin⟩ := C45_schedules n jobs outs hseq hids
  refine ⟨B + n, fun es x hrun hl => ?_⟩
  have hz : ((List.range n).filter fun p => (XSys.start : XSys O).gone p).length = 0 := by
    simp [XSys.start]
  obtain ⟨es1, i1, i2, i3⟩ := lossless_run hrun hl (es0 := []) rfl (by simp [XSys.start]) hz
  have h1 := hB es1 _ i1
  refine ⟨?_, fun j hj p hp => ?_⟩
  · have h2 := List.length_filter_le (fun p => x.gone p) (List.range n)
    rw [List.length_range] at h2
    simp only [List.length_nil, Nat.zero_add] at i3
    omega
  · obtain ⟨a1, a2, a3⟩ := hfin es1 _ i1 j hj p hp
    refine ⟨a1, a2, fun hst => a3 fun e => ?_⟩
    by_cases he : x.ended e = true
    · cases e with
      | deliver a b => cases he
      | act a b => exact Sys.allDone_step (i2 a he).2 b
    · have := hst (.sys e)
      unfold XSys.step at this
      simp only [] at this
      rw [if_neg he] at this
      exact Option.map_eq_none_iff.1 this

/-- The hypotheses of `C80_save_false` hold for one repetition of an exchange between 3 parties. -/
example : ∃ jobs last B, jobs = benchJobs preprocBenchId () (some fun p => [p]) [[⟨[1], [], syncProto ()⟩]] ∧ jobs.length = last + 1 ∧
    ∀ (es : List SStep) (x : XSys Unit), saveRun 3 jobs last XSys.start es = some x →
      es.length ≤ B ∧ (∀ p < 3, p ≠ 0 → ¬ x.sys.Finished p last) ∧
      ((∀ e, saveStep 3 jobs last x e = none) → x.gone 0 = true) :=
  C80_save_false 3 (by norm_num) _ _ _ _ [[[(), (), ()]]]
    (.cons (seqRun_of _ _ rfl fun i job hi => by
      match i with
      | 0 =>
        cases hi
        exact ⟨by simp, sync_round _ _⟩
      | i + 1 => simp at hi) .nil)
    (fun b hb => idsOk_of_nodup b (by rw [List.mem_singleton.1 hb]; decide))
    (fun b hb j hj => by
      rw [List.mem_singleton.1 hb] at hj
      rw [List.mem_singleton.1 hj]
      decide)
    (fun b hb => ⟨⟨[1], [], syncProto ()⟩, by rw [List.mem_singleton.1 hb]; exact List.mem_singleton_self _, rfl⟩)

/-- The steps of two parties which only exchange measurements: party 0 ends, party 1 is left waiting. -/
example : ∃ x, saveRun 2 (benchJobs preprocBenchId () (some fun p => [p]) []) 0 XSys.start
      ((List.replicate 3 (.sys (.act 0 0))) ++ (List.replicate 3 (.sys (.act 1 0))) ++
        [.sys (.deliver 0 0), .sys (.deliver 1 0), .sys (.act 0 0), .sys (.act 0 0), .finish]) = some x ∧
    x.gone 0 = true ∧ x.gone 1 = false ∧ (x.sys.env 1 0).isSome = false := by
  have h : (match saveRun 2 (benchJobs preprocBenchId () (some fun p => [p]) []) 0 XSys.start
      ((List.replicate 3 (.sys (.act 0 0))) ++ (List.replicate 3 (.sys (.act 1 0))) ++
        [.sys (.deliver 0 0), .sys (.deliver 1 0), .sys (.act 0 0), .sys (.act 0 0), .finish]) with
    | some x => x.gone 0 && !x.gone 1 && !(x.sys.env 1 0).isSome
    | none => false) = true := by decide +kernel
  split at h
  · rename_i x hx
    refine ⟨x, hx, ?_⟩
    simpa [and_assoc] using h
  · cases h

/-- Two parties which synchronise and end: the hypothesis of `C80_exit_partial` holds if both wait until their messages have
been delivered. -/
example : ∃ x, (XSys.start : XSys Unit).run 2 [⟨[1], [], syncProto ()⟩] ((List.range 2).flatMap (fun p =>
        List.replicate 3 (.sys (.act p 0))) ++ ((List.range 2).flatMap fun p => (List.range 2).map fun q => .sys (.deliver p q)) ++
        List.replicate 3 (.sys (.act 0 0)) ++ [.exit 0 fun _ => 0] ++ List.replicate 3 (.sys (.act 1 0)) ++ [.exit 1 fun _ => 0])
      = some x ∧ x.gone 0 = true ∧ x.gone 1 = true := by
  have h : (match (XSys.start : XSys Unit).run 2 [⟨[1], [], syncProto ()⟩] ((List.range 2).flatMap (fun p =>
        List.replicate 3 (.sys (.act p 0))) ++ ((List.range 2).flatMap fun p => (List.range 2).map fun q => .sys (.deliver p q)) ++
        List.replicate 3 (.sys (.act 0 0)) ++ [.exit 0 fun _ => 0] ++ List.replicate 3 (.sys (.act 1 0)) ++ [.exit 1 fun _ => 0]) with
    | some x => x.gone 0 && x.gone 1
    | none => false) = true := by decide +kernel
  split at h
  · rename_i x hx
    exact ⟨x, hx, by simpa using h⟩
  · cases h

end Verif.Props
