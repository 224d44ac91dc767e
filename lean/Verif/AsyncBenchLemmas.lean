import Verif.AsyncBench
import Verif.AsyncPreprocLemmas
import Verif.AsyncRounds
import Verif.AsyncGarbleLemmas
import Verif.ProtoIdLemmas

/-!
# Lemmas on the loop of the benchmark programs
-/

namespace Verif

variable {O : Type} {n : Nat}

theorem benchStart_cons (b : List (Job O)) (bodies : List (List (Job O))) (r : Nat) :
    benchStart (b :: bodies) (r + 1) = b.length + 1 + benchStart bodies r := by
  simp [benchStart]

theorem benchStart_zero (bodies : List (List (Job O))) : benchStart bodies 0 = 0 := by simp [benchStart]

theorem benchStart_le {bodies : List (List (Job O))} {r : Nat} {b : List (Job O)} (h : bodies[r]? = some b) {r' : Nat}
    (hr : r < r') : benchStart bodies r + 1 + b.length ≤ benchStart bodies r' := by
  induction bodies generalizing r r' with
  | nil => simp at h
  | cons c bodies ih =>
    cases r' with
    | zero => omega
    | succ r' =>
      cases r with
      | zero =>
        rw [List.getElem?_cons_zero, Option.some.injEq] at h
        subst h
        rw [benchStart_cons, benchStart_zero]
        omega
      | succ r =>
        rw [List.getElem?_cons_succ] at h
        have := ih h (show r < r' by omega)
        rw [benchStart_cons, benchStart_cons]
        omega

theorem benchLoop_length (bid : ProtocolID) (o : O) (off : Nat) (bodies : List (List (Job O))) :
    (benchLoop bid o off bodies).length = benchStart bodies bodies.length := by
  induction bodies generalizing off with
  | nil => rfl
  | cons b bodies ih =>
    unfold benchLoop
    rw [List.length_cons, benchStart_cons, List.length_append, ih, List.length_cons, List.length_map]

theorem benchLoop_sync (bid : ProtocolID) (o : O) (off : Nat) {bodies : List (List (Job O))} {r : Nat}
    (h : r < bodies.length) : (benchLoop bid o off bodies)[benchStart bodies r]?
      = some ⟨bid, List.range (off + benchStart bodies r), syncProto o⟩ := by
  induction bodies generalizing off r with
  | nil => simp at h
  | cons b bodies ih =>
    unfold benchLoop
    cases r with
    | zero => simp [benchStart_zero]
    | succ r =>
      rw [benchStart_cons, List.getElem?_append_right (by simp)]
      have : b.length + 1 + benchStart bodies r
          - ((⟨bid, List.range off, syncProto o⟩ : Job O) :: b.map (Job.shift (off + 1) [off])).length = benchStart bodies r := by
        simp
      rw [this, ih _ (by simp at h; omega)]
      congr 3
      omega

theorem benchLoop_body (bid : ProtocolID) (o : O) (off : Nat) {bodies : List (List (Job O))} {r : Nat} {b : List (Job O)}
    (h : bodies[r]? = some b) {i : Nat} {job : Job O} (hi : b[i]? = some job) :
    (benchLoop bid o off bodies)[benchStart bodies r + 1 + i]?
      = some (job.shift (off + benchStart bodies r + 1) [off + benchStart bodies r]) := by
  induction bodies generalizing off r with
  | nil => simp at h
  | cons c bodies ih =>
    unfold benchLoop
    have hil := (List.getElem?_eq_some_iff.1 hi).1
    cases r with
    | zero =>
      rw [List.getElem?_cons_zero, Option.some.injEq] at h
      subst h
      rw [benchStart_zero, List.getElem?_append_left (by simp; omega), show 0 + 1 + i = i + 1 by omega,
        List.getElem?_cons_succ, List.getElem?_map, hi]
      rfl
    | succ r =>
      rw [List.getElem?_cons_succ] at h
      rw [benchStart_cons, List.getElem?_append_right (by simp; omega)]
      have : c.length + 1 + benchStart bodies r + 1 + i
          - ((⟨bid, List.range off, syncProto o⟩ : Job O) :: c.map (Job.shift (off + 1) [off])).length
          = benchStart bodies r + 1 + i := by
        simp
        omega
      rw [this, ih _ h]
      congr 2
      · omega
      · congr 1
        omega

/-- Every job is the `sync` or belongs to the body of an iteration. -/
theorem benchStart_cases {bodies : List (List (Job O))} {j : Nat} (h : j < benchStart bodies bodies.length) :
    ∃ (r : Nat) (b : List (Job O)), bodies[r]? = some b ∧ (j = benchStart bodies r ∨
      ∃ (i : Nat) (job : Job O), b[i]? = some job ∧ j = benchStart bodies r + 1 + i) := by
  induction bodies generalizing j with
  | nil => simp [benchStart] at h
  | cons c bodies ih =>
    rw [List.length_cons, benchStart_cons] at h
    by_cases h0 : j = 0
    · exact ⟨0, c, rfl, Or.inl (by rw [h0, benchStart_zero])⟩
    by_cases h1 : j < c.length + 1
    · refine ⟨0, c, rfl, Or.inr ⟨j - 1, c[j - 1]'(by omega), List.getElem?_eq_getElem _, ?_⟩⟩
      rw [benchStart_zero]
      omega
    · obtain ⟨r, b, h2, h3⟩ := ih (j := j - (c.length + 1)) (by omega)
      refine ⟨r + 1, b, h2, ?_⟩
      rw [benchStart_cons]
      rcases h3 with h3 | ⟨i, job, h3, h4⟩
      · exact Or.inl (by omega)
      · exact Or.inr ⟨i, job, h3, by omega⟩

theorem Proto.shift_round (off : Nat) (P : Proto O) (envs : Nat → Env O) :
    (P.shift off).round n envs = P.round n fun p d => envs p (off + d) := rfl

/-- The results of the iterations, one after the other. -/
def benchOuts (n : Nat) (o : O) (outs : List (List (List O))) : List (List O) :=
  outs.flatMap fun b => (List.range n).map (fun _ => o) :: b

theorem benchOuts_get (o : O) (bodies : List (List (Job O))) (outs : List (List (List O)))
    (hlen : List.Forall₂ (fun b c => c.length = b.length) bodies outs) :
    (benchOuts n o outs).length = benchStart bodies bodies.length ∧
    ∀ (r : Nat) (c : List (List O)), outs[r]? = some c →
      (benchOuts n o outs)[benchStart bodies r]? = some ((List.range n).map fun _ => o) ∧
      ∀ i < c.length, (benchOuts n o outs)[benchStart bodies r + 1 + i]? = c[i]? := by
  induction hlen with
  | nil => exact ⟨rfl, by simp⟩
  | @cons b c bodies outs hbc _ ih =>
    obtain ⟨ih1, ih2⟩ := ih
    have hsplit : benchOuts n o (c :: outs) = ((List.range n).map (fun _ => o) :: c) ++ benchOuts n o outs := by
      simp [benchOuts]
    rw [hsplit]
    refine ⟨?_, ?_⟩
    · rw [List.length_append, ih1, List.length_cons, List.length_cons, benchStart_cons, hbc]
    · intro r d hd
      cases r with
      | zero =>
        rw [List.getElem?_cons_zero, Option.some.injEq] at hd
        subst hd
        rw [benchStart_zero]
        refine ⟨by simp, fun i hi => ?_⟩
        rw [List.getElem?_append_left (by simp; omega), show 0 + 1 + i = i + 1 by omega, List.getElem?_cons_succ]
      | succ r =>
        rw [List.getElem?_cons_succ] at hd
        obtain ⟨h1, h2⟩ := ih2 r d hd
        rw [benchStart_cons]
        refine ⟨?_, fun i hi => ?_⟩
        · rw [List.getElem?_append_right (by simp; omega), ← h1]
          congr 1
          simp
          omega
        · rw [List.getElem?_append_right (by simp; omega), ← h2 i hi]
          congr 1
          simp
          omega

theorem save_round (o : O) (data : Nat → List Nat) (hn : 0 < n) (envs : Nat → Env O) :
    (saveProto o data).round n envs = some ((List.range n).map fun _ => o) := by
  unfold Proto.round saveProto
  simp only []
  rw [mapM_range_some n _ (fun p => [(Recipient.one 0, data p)]) (fun _ _ => rfl), Option.bind_some, if_pos, if_pos]
  · have : ((List.range n).map fun p => [(Recipient.one 0, data p)]).mapM (theMessage 0) = some ((List.range n).map data) := by
      refine mapM_tab _ _ _ _ fun p hp => ?_
      simp [theMessage, Recipient.includes]
    rw [this, Option.bind_some, Option.bind_some, if_pos (by simp)]
    refine mapM_range_some n _ _ fun p hp => ?_
    rw [List.getElem?_map, List.getElem?_map, List.getElem?_range hp]
    rfl
  · refine ⟨hn, ?_⟩
    simp
  · simp [Recipient.known, hn]

section
variable {bid : ProtocolID} {o : O} {save : Option (Nat → List Nat)} {bodies : List (List (Job O))}

theorem benchJobs_left {j : Nat} (h : j < benchStart bodies bodies.length) :
    (benchJobs bid o save bodies)[j]? = (benchLoop bid o 0 bodies)[j]? := by
  unfold benchJobs
  rw [List.getElem?_append_left (by rw [benchLoop_length]; exact h)]

theorem benchJobs_sync {r : Nat} {b : List (Job O)} (h : bodies[r]? = some b) :
    (benchJobs bid o save bodies)[benchStart bodies r]? = some ⟨bid, List.range (benchStart bodies r), syncProto o⟩ := by
  have hr := (List.getElem?_eq_some_iff.1 h).1
  have := benchStart_le h hr
  rw [benchJobs_left (by omega), benchLoop_sync bid o 0 hr, Nat.zero_add]

theorem benchJobs_body {r : Nat} {b : List (Job O)} (h : bodies[r]? = some b) {i : Nat} {job : Job O}
    (hi : b[i]? = some job) : (benchJobs bid o save bodies)[benchStart bodies r + 1 + i]?
      = some (job.shift (benchStart bodies r + 1) [benchStart bodies r]) := by
  have hr := (List.getElem?_eq_some_iff.1 h).1
  have hil := (List.getElem?_eq_some_iff.1 hi).1
  have := benchStart_le h hr
  rw [benchJobs_left (by omega), benchLoop_body bid o 0 h hi, Nat.zero_add]

/-- Every job is the `sync` of an iteration, belongs to the body of an iteration, or is the last exchange. -/
theorem benchJobs_cases {j : Nat} {job : Job O} (hj : (benchJobs bid o save bodies)[j]? = some job) :
    (∃ r b, bodies[r]? = some b ∧ j = benchStart bodies r ∧ job = ⟨bid, List.range (benchStart bodies r), syncProto o⟩) ∨
    (∃ r b i c, bodies[r]? = some b ∧ b[i]? = some c ∧ j = benchStart bodies r + 1 + i ∧
      job = c.shift (benchStart bodies r + 1) [benchStart bodies r]) ∨
    (∃ data, save = some data ∧ j = benchStart bodies bodies.length ∧
      job = ⟨bid, List.range (benchStart bodies bodies.length), saveProto o data⟩) := by
  by_cases h : j < benchStart bodies bodies.length
  · obtain ⟨r, b, hr, h1 | ⟨i, c, h2, h3⟩⟩ := benchStart_cases h
    · subst h1
      rw [benchJobs_sync hr, Option.some.injEq] at hj
      exact Or.inl ⟨r, b, hr, rfl, hj.symm⟩
    · subst h3
      rw [benchJobs_body hr h2, Option.some.injEq] at hj
      exact Or.inr (Or.inl ⟨r, b, i, c, hr, h2, rfl, hj.symm⟩)
  · refine Or.inr (Or.inr ?_)
    unfold benchJobs at hj
    rw [List.getElem?_append_right (by rw [benchLoop_length]; omega), benchLoop_length] at hj
    cases save with
    | none => simp at hj
    | some data =>
      simp only [] at hj
      have hlt := (List.getElem?_eq_some_iff.1 hj).1
      rw [List.length_singleton] at hlt
      have hje : j = benchStart bodies bodies.length := by omega
      rw [hje, Nat.sub_self, List.getElem?_cons_zero, Option.some.injEq] at hj
      exact ⟨data, rfl, hje, hj.symm⟩

theorem benchJobs_length : (benchJobs bid o save bodies).length
    = benchStart bodies bodies.length + if save.isSome then 1 else 0 := by
  unfold benchJobs
  rw [List.length_append, benchLoop_length]
  cases save <;> rfl

/-- The results of the whole program. -/
def benchAllOuts (n : Nat) (o : O) (save : Option (Nat → List Nat)) (outs : List (List (List O))) : List (List O) :=
  benchOuts n o outs ++ if save.isSome then [(List.range n).map fun _ => o] else []

theorem benchAllOuts_get (outs : List (List (List O))) (hlen : List.Forall₂ (fun b c => c.length = b.length) bodies outs)
    {r : Nat} {c : List (List O)} (hr : outs[r]? = some c) :
    (benchAllOuts n o save outs)[benchStart bodies r]? = some ((List.range n).map fun _ => o) ∧
      ∀ i < c.length, (benchAllOuts n o save outs)[benchStart bodies r + 1 + i]? = c[i]? := by
  obtain ⟨h1, h2⟩ := benchOuts_get (n := n) o bodies outs hlen
  obtain ⟨h3, h4⟩ := h2 r c hr
  have hro := (List.getElem?_eq_some_iff.1 hr).1
  have hl := hlen.length_eq
  have hb : bodies[r]? = some (bodies[r]'(by omega)) := List.getElem?_eq_getElem _
  have hcl : c.length = (bodies[r]'(by omega)).length := by
    have := (List.forall₂_iff_get.1 hlen).2 r (by omega) hro
    rw [List.getElem?_eq_getElem hro, Option.some.injEq] at hr
    rw [← hr]
    simpa using this
  have hle := benchStart_le hb (show r < bodies.length by omega)
  unfold benchAllOuts
  refine ⟨?_, fun i hi => ?_⟩
  · rw [List.getElem?_append_left (by omega), h3]
  · rw [List.getElem?_append_left (by omega), h4 i hi]

theorem bench_seq (hn : 0 < n) (outs : List (List (List O)))
    (h : List.Forall₂ (fun b c => seqRun n b = some c) bodies outs) :
    seqRun n (benchJobs bid o save bodies) = some (benchAllOuts n o save outs) := by
  have hlen : List.Forall₂ (fun (b : List (Job O)) (c : List (List O)) => c.length = b.length) bodies outs := by
    refine h.imp fun b c hbc => ?_
    have := (seqFrom_spec hbc).1
    simpa using this
  have hol := (benchOuts_get (n := n) o bodies outs hlen).1
  refine seqRun_of _ _ ?_ ?_
  · rw [benchJobs_length]
    unfold benchAllOuts
    rw [List.length_append, hol]
    cases save <;> simp
  · intro j job hj
    rcases benchJobs_cases hj with ⟨r, b, hr, rfl, rfl⟩ | ⟨r, b, i, c, hr, hi, rfl, rfl⟩ | ⟨data, hs, rfl, rfl⟩
    · have hrl := (List.getElem?_eq_some_iff.1 hr).1
      have hl := hlen.length_eq
      refine ⟨fun d hd => List.mem_range.1 hd, ?_⟩
      rw [(benchAllOuts_get outs hlen (List.getElem?_eq_getElem (show r < outs.length by omega))).1]
      exact sync_round o _
    · have hrl := (List.getElem?_eq_some_iff.1 hr).1
      have hil := (List.getElem?_eq_some_iff.1 hi).1
      have hl := hlen.length_eq
      have hro : outs[r]? = some (outs[r]'(by omega)) := List.getElem?_eq_getElem _
      have hrun : seqRun n b = some (outs[r]'(by omega)) := by
        have := (List.forall₂_iff_get.1 h).2 r hrl (by omega)
        rw [List.getElem?_eq_getElem hrl, Option.some.injEq] at hr
        rw [← hr]
        simpa using this
      obtain ⟨s1, _, s3⟩ := seqFrom_spec hrun
      simp only [List.length_nil, Nat.zero_add] at s1 s3
      obtain ⟨d1, d2⟩ := s3 i c hi
      obtain ⟨g1, g2⟩ := benchAllOuts_get (n := n) (o := o) (save := save) outs hlen hro
      refine ⟨?_, ?_⟩
      · intro d hd
        simp only [Job.shift, List.mem_append, List.mem_singleton, List.mem_map] at hd
        rcases hd with rfl | ⟨e, he, rfl⟩
        · omega
        · have := d1 e he
          omega
      · rw [g2 i (by omega), ← d2]
        simp only [Job.shift]
        rw [Proto.shift_round]
        congr 1
        funext p d
        unfold Env.only seqEnv outsEnv
        have hmem : benchStart bodies r + 1 + d ∈ [benchStart bodies r] ++ c.deps.map (benchStart bodies r + 1 + ·)
            ↔ d ∈ c.deps := by
          simp only [List.mem_append, List.mem_singleton, List.mem_map]
          constructor
          · rintro (h | ⟨e, he, h⟩)
            · omega
            · rw [show d = e by omega]
              exact he
          · intro h
            exact Or.inr ⟨d, h, rfl⟩
        by_cases hd : d ∈ c.deps
        · rw [if_pos (hmem.2 hd), if_pos hd, g2 d (by have := d1 d hd; omega)]
        · rw [if_neg (fun h => hd (hmem.1 h)), if_neg hd]
    · refine ⟨fun d hd => List.mem_range.1 hd, ?_⟩
      rw [save_round o data hn]
      unfold benchAllOuts
      rw [List.getElem?_append_right (by omega), hol, Nat.sub_self, hs]
      rfl

theorem before_shift {r : Nat} {b : List (Job O)} (hr : bodies[r]? = some b) {i j : Nat} (h : Before b i j) :
    Before (benchJobs bid o save bodies) (benchStart bodies r + 1 + i) (benchStart bodies r + 1 + j) := by
  have hstep : ∀ {i j}, (∃ job, b[j]? = some job ∧ i ∈ job.deps) →
      ∃ job, (benchJobs bid o save bodies)[benchStart bodies r + 1 + j]? = some job ∧
        benchStart bodies r + 1 + i ∈ job.deps := by
    rintro i j ⟨job, h1, h2⟩
    refine ⟨_, benchJobs_body hr h1, ?_⟩
    simp only [Job.shift, List.mem_append, List.mem_map]
    exact Or.inr ⟨i, h2, rfl⟩
  induction h with
  | single h => exact Relation.TransGen.single (hstep h)
  | tail _ h ih => exact Relation.TransGen.tail ih (hstep h)

theorem bench_ids (hids : ∀ b ∈ bodies, IdsOk b) (hbid : ∀ b ∈ bodies, ∀ j ∈ b, j.id ≠ bid)
    (hfree : ∀ b ∈ bodies, ∃ j ∈ b, j.proto.leader = none) : IdsOk (benchJobs bid o save bodies) := by
  -- a leaderless job of the body lies between the `sync` and what comes later
  have hmid : ∀ (r : Nat) (b : List (Job O)), bodies[r]? = some b → ∃ (k : Nat) (c : Job O),
      (benchJobs bid o save bodies)[k]? = some c ∧ c.proto.leader = none ∧ k < benchStart bodies (r + 1) ∧
        Before (benchJobs bid o save bodies) (benchStart bodies r) k := by
    intro r b hr
    obtain ⟨c, hc, hl⟩ := hfree b (List.mem_of_getElem? hr)
    obtain ⟨i, hi, rfl⟩ := List.getElem_of_mem hc
    have hle := benchStart_le hr (show r < r + 1 by omega)
    refine ⟨_, _, benchJobs_body hr (List.getElem?_eq_getElem hi), hl, by omega, Relation.TransGen.single
      ⟨_, benchJobs_body hr (List.getElem?_eq_getElem hi), ?_⟩⟩
    simp [Job.shift]
  have hmono : ∀ (r : Nat) (b : List (Job O)) (r' : Nat), bodies[r]? = some b → r < r' →
      benchStart bodies (r + 1) ≤ benchStart bodies r' := by
    intro r b r' hr hrr
    rcases Nat.lt_or_eq_of_le (Nat.succ_le_of_lt hrr) with h | h
    · by_cases hl : r + 1 < bodies.length
      · have := benchStart_le (List.getElem?_eq_getElem hl) h
        omega
      · have h1 := (List.getElem?_eq_some_iff.1 hr).1
        unfold benchStart
        rw [List.take_of_length_le (by omega), List.take_of_length_le (by omega)]
    · rw [← h]
  have horder : ∀ (r r' : Nat) (b b' : List (Job O)), bodies[r]? = some b → bodies[r']? = some b' →
      benchStart bodies r < benchStart bodies r' → r < r' := by
    intro r r' b b' hr hr' h
    by_contra hlt
    rcases Nat.lt_or_eq_of_le (Nat.le_of_not_lt hlt) with h1 | h1
    · have := benchStart_le hr' h1
      omega
    · rw [h1] at h
      omega
  intro i j a c hi hj hij hid
  rcases benchJobs_cases hi with ⟨r, b, hr, rfl, rfl⟩ | ⟨r, b, x, ca, hr, hx, rfl, rfl⟩ | ⟨data, hs, rfl, rfl⟩
  · rcases benchJobs_cases hj with ⟨r', b', hr', rfl, rfl⟩ | ⟨r', b', y, cb, hr', hy, rfl, rfl⟩ | ⟨data, hs, rfl, rfl⟩
    · obtain ⟨k, d, h1, h2, h3, h4⟩ := hmid r b hr
      have := hmono r b r' hr (horder r r' b b' hr hr' hij)
      exact ⟨k, d, h1, h2, h4, Relation.TransGen.single ⟨_, benchJobs_sync hr', List.mem_range.2 (by omega)⟩⟩
    · exact absurd hid.symm (hbid b' (List.mem_of_getElem? hr') cb (List.mem_of_getElem? hy))
    · obtain ⟨k, d, h1, h2, h3, h4⟩ := hmid r b hr
      have := hmono r b bodies.length hr (List.getElem?_eq_some_iff.1 hr).1
      exact ⟨k, d, h1, h2, h4, Relation.TransGen.single ⟨_, hj, List.mem_range.2 (by omega)⟩⟩
  · rcases benchJobs_cases hj with ⟨r', b', hr', rfl, rfl⟩ | ⟨r', b', y, cb, hr', hy, rfl, rfl⟩ | ⟨data, hs, rfl, rfl⟩
    · exact absurd hid (hbid b (List.mem_of_getElem? hr) ca (List.mem_of_getElem? hx))
    · have hxl := (List.getElem?_eq_some_iff.1 hx).1
      have hyl := (List.getElem?_eq_some_iff.1 hy).1
      by_cases hrr : r = r'
      · subst hrr
        rw [hr, Option.some.injEq] at hr'
        subst hr'
        obtain ⟨k, d, h1, h2, h3, h4⟩ := hids b (List.mem_of_getElem? hr) x y ca cb hx hy (by omega) hid
        exact ⟨_, _, benchJobs_body hr h1, h2, before_shift hr h3, before_shift hr h4⟩
      · have hlt : r < r' := by
          by_contra hge
          have := benchStart_le hr' (show r' < r by omega)
          omega
        have hrl' := (List.getElem?_eq_some_iff.1 hr').1
        have hb1 : bodies[r + 1]? = some (bodies[r + 1]'(by omega)) := List.getElem?_eq_getElem _
        have hle := benchStart_le hr (show r < r + 1 by omega)
        have hbody : ∃ job, (benchJobs bid o save bodies)[benchStart bodies r' + 1 + y]? = some job ∧
            benchStart bodies r' ∈ job.deps := ⟨_, benchJobs_body hr' hy, by simp [Job.shift]⟩
        refine ⟨_, _, benchJobs_sync hb1, rfl, Relation.TransGen.single ⟨_, benchJobs_sync hb1, List.mem_range.2 (by omega)⟩, ?_⟩
        rcases Nat.lt_or_eq_of_le (Nat.succ_le_of_lt hlt) with h | h
        · have := benchStart_le hb1 h
          exact Relation.TransGen.tail (Relation.TransGen.single ⟨_, benchJobs_sync hr', List.mem_range.2 (by omega)⟩) hbody
        · have h' : r + 1 = r' := h
          subst h'
          exact Relation.TransGen.single hbody
    · exact absurd hid (hbid b (List.mem_of_getElem? hr) ca (List.mem_of_getElem? hx))
  · have h1 := (List.getElem?_eq_some_iff.1 hj).1
    rw [benchJobs_length] at h1
    split at h1 <;> omega

end

/-! ## Bodies -/

section
variable {F : Type} [CodeField F] [DecidableEq F]

omit [CodeField F] [DecidableEq F] in
theorem preprocResult_congr {desc : PreProcCount} {env env' : Env (List F)} (h : ∀ j < 3 + 2 * n, env j = env' j) :
    preprocResult desc n env = preprocResult desc n env' := by
  unfold preprocResult
  rw [h 0 (by omega), h 1 (by omega), h 2 (by omega)]
  have : (List.range n).mapM (fun a => env (4 + 2 * a)) = (List.range n).mapM fun a => env' (4 + 2 * a) := by
    refine mapM_congr_mem fun a ha => ?_
    have := List.mem_range.1 ha
    exact h _ (by omega)
  rw [this]

omit [DecidableEq F] in
theorem preprocJobs_leaderless {c : Codec F} {ctx : Ctx F} {m mb : Mat F} {desc : PreProcCount} {tp : PreTapes F}
    {id : ProtocolID} {jobs : List (Job (List F))} (h : preprocJobs c ctx m mb desc tp id = some jobs)
    (hne : jobs ≠ []) : ∃ j ∈ jobs, j.proto.leader = none := by
  unfold preprocJobs at h
  obtain ⟨ids, _, h⟩ := Option.bind_eq_some_iff.1 h
  obtain ⟨br, _, h⟩ := Option.bind_eq_some_iff.1 h
  obtain ⟨bz, _, h⟩ := Option.bind_eq_some_iff.1 h
  obtain ⟨bb, _, h⟩ := Option.map_eq_some_iff.1 h
  cases ids with
  | nil => exact absurd (by simpa using h.symm) hne
  | cons i ids =>
    rw [List.cons_append, List.zip_cons_cons, List.map_cons] at h
    rw [← h]
    exact ⟨_, List.mem_cons_self, rfl⟩

theorem garbleJobs_leaderless {c : Codec F} {ctx : Ctx F} {g : GarbleCtx F} {lead : ProtocolID → Nat} {tp : GarbleTapes F}
    {pre : List (PreProc F)} {id : ProtocolID} {jobs : List (Job (GOut F))} (h : garbleJobs c ctx g lead tp pre id = some jobs)
    (hne : jobs ≠ []) (hout : g.tfOut ≠ []) : ∃ j ∈ jobs, j.proto.leader = none := by
  unfold garbleJobs at h
  obtain ⟨ids, _, h⟩ := Option.bind_eq_some_iff.1 h
  obtain ⟨go, hgo, h⟩ := Option.bind_eq_some_iff.1 h
  obtain ⟨gi, _, h⟩ := Option.map_eq_some_iff.1 h
  have hgo' : go ≠ [] := by
    unfold chunks? at hgo
    split at hgo
    · cases hgo
    · next hl =>
      rw [Option.some.injEq] at hgo
      intro h0
      have := chunks_length ctx.l g.tfOut hl
      rw [hgo, h0, List.length_nil] at this
      have hp := List.length_pos_iff.2 hout
      have := (Nat.div_eq_zero_iff).1 this.symm
      omega
  cases ids with
  | nil => exact absurd (by simpa using h.symm) hne
  | cons i ids =>
    cases go with
    | nil => exact absurd rfl hgo'
    | cons a go =>
      unfold garbleSteps at h
      rw [List.zipIdx_cons, List.map_cons, List.cons_append, List.cons_append, List.cons_append, List.cons_append,
        List.zip_cons_cons, List.map_cons] at h
      rw [← h]
      exact ⟨_, List.mem_cons_self, rfl⟩

end

/-! ## Lengths of IDs -/

theorem suffixLen_le {num k : Nat} (h : num ≤ 2 ^ (8 * k)) : suffixLen num ≤ k := by
  unfold suffixLen
  have : Nat.clog 2 num ≤ 8 * k := Nat.clog_le_of_le_pow h
  omega

theorem childIds_short {parent : ProtocolID} {num : Nat} {l : List ProtocolID} (h : childIds parent num = some l) :
    ∀ x ∈ l, x.length = parent.length + suffixLen num := by
  rw [childIds_eq] at h
  split at h
  · rw [Option.some.injEq] at h
    subst h
    intro x hx
    obtain ⟨i, _, rfl⟩ := List.mem_map.1 hx
    rw [List.length_append, leDigits_length]
  · cases h

theorem preprocIds_short {id : ProtocolID} {ids : List ProtocolID} (h : preprocIds id n = some ids) :
    ∀ x ∈ ids, x.length = id.length + suffixLen (4 + 2 * n) := by
  unfold preprocIds at h
  obtain ⟨b, hb, h⟩ := Option.bind_eq_some_iff.1 h
  obtain ⟨_, h2, h3⟩ := new_some hb
  rw [take_eq _ b h2 0 h3 (by positivity)] at h
  split at h
  · simp only [Option.map_some, Option.some.injEq] at h
    subst h
    intro x hx
    simp only [List.mem_map] at hx
    obtain ⟨i, _, rfl⟩ := hx
    rw [List.length_append, leDigits_length]
  · simp at h

theorem arity_sum_le (gates : List GateKind) : (gates.map GateKind.arity).sum ≤ 2 * gates.length := by
  induction gates with
  | nil => simp
  | cons g gs ih =>
    rw [List.map_cons, List.sum_cons, List.length_cons]
    cases g <;> simp only [GateKind.arity] <;> omega

/-- The IDs of `garble` extend its ID by at most 14 bytes if the circuit is not too large. -/
theorem garbleIds_short {id : ProtocolID} {inpBlocks l : Nat} {gates : List GateKind} {ids : List ProtocolID}
    (h : garbleIdsOf id inpBlocks l gates = some ids) (hl : 0 < l) (hsize : 4 + inpBlocks + 2 * gates.length ≤ 2 ^ 56) :
    ∀ x ∈ ids, x.length ≤ id.length + 14 := by
  unfold garbleIdsOf at h
  simp only at h
  have har := arity_sum_le gates
  have hdiv : ∀ a, a ≤ 2 ^ 56 → (a + l - 1) / l ≤ 2 ^ 56 := by
    intro a ha
    rw [Nat.div_le_iff_le_mul_add_pred hl]
    have := Nat.le_mul_of_pos_left (2 ^ 56) hl
    omega
  have hr1 := hdiv (inpBlocks + gates.length) (by omega)
  have hr2 := hdiv (gates.map GateKind.arity).sum (by omega)
  generalize (inpBlocks + gates.length + l - 1) / l = rOut at h hr1
  generalize ((gates.map GateKind.arity).sum + l - 1) / l = rInp at h hr2
  have htO : inpBlocks + gates.length ≤ 2 ^ 56 := by omega
  have htI : (gates.map GateKind.arity).sum ≤ 2 ^ 56 := by omega
  generalize inpBlocks + gates.length = tOut at h htO
  generalize (gates.map GateKind.arity).sum = tInp at h htI
  have hs := (garbleIds_isSome id rOut rInp tOut tInp gates).1 (by rw [h]; rfl)
  obtain ⟨h1, h2⟩ := hs (4 + gates.length) (by simp)
  rw [garbleIds_eq id _ _ _ _ gates h1 h2] at h
  simp only at h
  obtain ⟨l0, e0, h⟩ := Option.bind_eq_some_iff.1 h
  obtain ⟨l1, e1, h⟩ := Option.bind_eq_some_iff.1 h
  obtain ⟨l2, e2, h⟩ := Option.bind_eq_some_iff.1 h
  obtain ⟨l3, e3, h⟩ := Option.bind_eq_some_iff.1 h
  rw [Option.some.injEq] at h
  have hk : suffixLen (4 + gates.length) ≤ 7 := suffixLen_le (by omega)
  have hchild : ∀ (i m : Nat) (l : List ProtocolID), m ≤ 2 ^ 56 →
      childIds (id ++ leDigits (suffixLen (4 + gates.length)) i) m = some l → ∀ x ∈ l, x.length ≤ id.length + 14 := by
    intro i m l hm hc x hx
    have := childIds_short hc x hx
    rw [List.length_append, leDigits_length] at this
    have := suffixLen_le (k := 7) hm
    omega
  intro x hx
  rw [← h] at hx
  simp only [List.mem_append, List.mem_flatten, List.mem_map] at hx
  rcases hx with (((hx | hx) | hx) | hx) | ⟨_, ⟨⟨p, g⟩, hp, rfl⟩, hx⟩
  · exact hchild _ _ _ hr1 e0 x hx
  · exact hchild _ _ _ hr2 e1 x hx
  · exact hchild _ _ _ htO e2 x hx
  · exact hchild _ _ _ htI e3 x hx
  · have hp' := (List.of_mem_zip hp).1
    obtain ⟨i, _, rfl⟩ := List.mem_map.1 hp'
    cases g <;> simp only [gateIdsSpec, List.mem_cons, List.not_mem_nil, or_false] at hx
    · rcases hx with rfl | rfl <;> simp only [List.length_append, leDigits_length, List.length_cons, List.length_nil] <;> omega
    · rw [hx]
      simp only [List.length_append, leDigits_length]
      omega
    · rw [hx]
      simp only [List.length_append, leDigits_length]
      omega

end Verif
