import Verif.AsyncNetBench
import Verif.AsyncNetBenchSpec

/-!
# Helper lemmas: the bytes of the benchmark programs
-/

namespace Verif

variable {O : Type} {n : Nat} {bid : ProtocolID} {o : O} {save : Option (Nat → List Nat)} {bodies : List (List (Job O))}

theorem benchStart_succ {r : Nat} {b : List (Job O)} (h : bodies[r]? = some b) :
    benchStart bodies (r + 1) = benchStart bodies r + (1 + b.length) := by
  have hr := (List.getElem?_eq_some_iff.1 h).1
  unfold benchStart
  rw [List.take_add_one, h]
  simp
  omega

theorem sync_bytes {r : Nat} {b : List (Job O)} (h : bodies[r]? = some b) (all : List (List O)) (p q : Nat) :
    jobBytes n (benchJobs bid o save bodies) all p q (benchStart bodies r) = (4, 4 + bid.length) := by
  unfold jobBytes
  rw [benchJobs_sync h]
  simp only []
  rw [between_sync]
  rfl

theorem loop_bytes {outs : List (List (List O))} (h : List.Forall₂ (fun b c => seqRun n b = some c) bodies outs) (p q r : Nat)
    (hr : r ≤ bodies.length) :
    ∑ j ∈ Finset.range (benchStart bodies r), jobBytes n (benchJobs bid o save bodies) (benchAllOuts n o save outs) p q j
      = (∑ i ∈ Finset.range r, bodyBytes n bodies outs p q i) + r • (4, 4 + bid.length) := by
  induction r with
  | zero => simp [benchStart_zero]
  | succ r ih =>
    have hl := h.length_eq
    have hb : bodies[r]? = some (bodies[r]'(by omega)) := List.getElem?_eq_getElem _
    have hc : outs[r]? = some (outs[r]'(by omega)) := List.getElem?_eq_getElem _
    rw [benchStart_succ hb, Finset.sum_range_add, Finset.sum_range_add, ih (by omega), Finset.sum_range_one,
      Finset.sum_range_succ (bodyBytes n bodies outs p q), Nat.add_zero, sync_bytes hb, succ_nsmul]
    have : ∑ i ∈ Finset.range (bodies[r]'(by omega)).length, jobBytes n (benchJobs bid o save bodies) (benchAllOuts n o save outs) p q
        (benchStart bodies r + (1 + i)) = bodyBytes n bodies outs p q r := by
      unfold bodyBytes
      rw [hb, hc, Option.getD_some, Option.getD_some]
      refine Finset.sum_congr rfl fun i hi => ?_
      rw [← Nat.add_assoc, bench_jobBytes h hb hc (Finset.mem_range.1 hi)]
    rw [this]
    abel

theorem save_between (o : O) (data : Nat → List Nat) (envs : Nat → Env O) (p q : Nat) (hq : q < n) :
    (saveProto o data).between n envs p q = (if q = 0 then [data p] else []) ++ if p = 0 then [doneData] else [] := by
  have hm : ((List.range n).mapM fun r => ((saveProto o data).sends r (envs r)).bind (theMessage 0)) = some ((List.range n).map data) :=
    mapM_range_some n _ _ fun r _ => by simp [saveProto, theMessage, Recipient.includes]
  unfold Proto.between
  congr 1
  · by_cases h : q = 0
    · subst h
      simp [saveProto, Recipient.includes]
    · have h' : ¬ 0 = q := fun e => h e.symm
      simp [saveProto, Recipient.includes, h, h']
  · by_cases h : p = 0
    · subst h
      rw [if_pos rfl, if_pos (show (saveProto o data).leader = some 0 from rfl), hm]
      simp [saveProto, hq]
    · have h' : ¬ 0 = p := fun e => h e.symm
      simp [saveProto, h, h']

/-- The bytes of the whole program. -/
theorem bench_bytes {outs : List (List (List O))} (h : List.Forall₂ (fun b c => seqRun n b = some c) bodies outs) (p q : Nat)
    (hq : q < n) :
    ∑ j ∈ Finset.range (benchJobs bid o save bodies).length,
        jobBytes n (benchJobs bid o save bodies) (benchAllOuts n o save outs) p q j
      = (∑ i ∈ Finset.range bodies.length, bodyBytes n bodies outs p q i) + bodies.length • (4, 4 + bid.length)
        + saveBytes bid.length save p q := by
  rw [benchJobs_length]
  cases save with
  | none => simpa [saveBytes] using loop_bytes (bid := bid) (o := o) (save := none) h p q bodies.length le_rfl
  | some data =>
    rw [show benchStart bodies bodies.length + (if (some data).isSome then 1 else 0) = benchStart bodies bodies.length + 1 from rfl,
      Finset.sum_range_succ, loop_bytes h p q bodies.length le_rfl]
    congr 1
    unfold jobBytes
    have hs : (benchJobs bid o (some data) bodies)[benchStart bodies bodies.length]?
        = some ⟨bid, List.range (benchStart bodies bodies.length), saveProto o data⟩ := by
      unfold benchJobs
      rw [List.getElem?_append_right (by rw [benchLoop_length]), benchLoop_length]
      simp
    rw [hs]
    simp only []
    rw [save_between _ _ _ _ _ hq]
    unfold saveBytes
    by_cases h1 : q = 0 <;> by_cases h2 : p = 0 <;> simp [h1, h2, doneData]

/-- Collecting the jobs of the repetitions. -/
theorem collect_bodies {X : Type} (xs : List X) (mk : X → Option (List (Job O)))
    (P : X → List (Job O) → List (List O) → Prop) (h : ∀ x ∈ xs, ∃ b c, mk x = some b ∧ P x b c) :
    ∃ (bodies : List (List (Job O))) (outs : List (List (List O))), xs.mapM mk = some bodies ∧ bodies.length = xs.length ∧ outs.length = xs.length ∧
      ∀ (r : Nat) (b : List (Job O)) (c : List (List O)), bodies[r]? = some b → outs[r]? = some c →
        ∃ x, xs[r]? = some x ∧ P x b c := by
  induction xs with
  | nil => exact ⟨[], [], rfl, rfl, rfl, by simp⟩
  | cons x xs ih =>
    obtain ⟨bodies, outs, i1, i2, i3, i4⟩ := ih fun y hy => h y (by simp [hy])
    obtain ⟨b, c, k1, k2⟩ := h x (by simp)
    refine ⟨b :: bodies, c :: outs, ?_, by simp [i2], by simp [i3], fun r b' c' hb hc => ?_⟩
    · rw [List.mapM_cons, k1, i1]
      rfl
    · cases r with
      | zero =>
        rw [List.getElem?_cons_zero, Option.some.injEq] at hb hc
        subst hb hc
        exact ⟨x, rfl, k2⟩
      | succ r => exact i4 r b' c' hb hc

theorem forall₂_of_get {A B : Type} {R : A → B → Prop} {l : List A} {m : List B} (hl : l.length = m.length)
    (h : ∀ (r : Nat) (a : A) (b : B), l[r]? = some a → m[r]? = some b → R a b) : List.Forall₂ R l m :=
  List.forall₂_iff_get.2 ⟨hl, fun r h1 h2 => h r _ _ (List.getElem?_eq_getElem h1) (List.getElem?_eq_getElem h2)⟩

end Verif
