import Verif.AsyncNetSeq
import Verif.AsyncBenchLemmas

/-!
# Helper lemmas: the benchmark programs over the TCP network
-/

namespace Verif

variable {O : Type} {n : Nat} {bid : ProtocolID} {o : O} {save : Option (Nat → List Nat)} {bodies : List (List (Job O))}

theorem seq_lengths {outs : List (List (List O))} (h : List.Forall₂ (fun b c => seqRun n b = some c) bodies outs) :
    List.Forall₂ (fun (b : List (Job O)) (c : List (List O)) => c.length = b.length) bodies outs := by
  refine h.imp fun b c hbc => ?_
  have := (seqFrom_spec hbc).1
  simpa using this

/-- What the jobs of an iteration are given. -/
theorem bench_env {outs : List (List (List O))} (hlen : List.Forall₂ (fun b c => c.length = b.length) bodies outs)
    {r : Nat} {b : List (Job O)} {c : List (List O)} (hr : bodies[r]? = some b) (hc : outs[r]? = some c) {i : Nat} {job : Job O}
    (hd : ∀ d ∈ job.deps, d < i) (hi : i < b.length) (p d : Nat) :
    seqEnv (benchAllOuts n o save outs) (job.shift (benchStart bodies r + 1) [benchStart bodies r]).deps p
      (benchStart bodies r + 1 + d) = seqEnv c job.deps p d := by
  obtain ⟨g1, g2⟩ := benchAllOuts_get (n := n) (o := o) (save := save) outs hlen hc
  have hcl : c.length = b.length := by
    have hbl := (List.getElem?_eq_some_iff.1 hr).1
    have hcr := (List.getElem?_eq_some_iff.1 hc).1
    have := (List.forall₂_iff_get.1 hlen).2 r hbl hcr
    rw [List.getElem?_eq_getElem hbl, Option.some.injEq] at hr
    rw [List.getElem?_eq_getElem hcr, Option.some.injEq] at hc
    rw [← hr, ← hc]
    simpa using this
  have hmem : benchStart bodies r + 1 + d ∈ [benchStart bodies r] ++ job.deps.map (benchStart bodies r + 1 + ·)
      ↔ d ∈ job.deps := by
    simp only [List.mem_append, List.mem_singleton, List.mem_map]
    constructor
    · rintro (h | ⟨e, he, h⟩)
      · omega
      · rw [show d = e by omega]
        exact he
    · intro h
      exact Or.inr ⟨d, h, rfl⟩
  unfold seqEnv Job.shift
  simp only []
  by_cases hdd : d ∈ job.deps
  · rw [if_pos (hmem.2 hdd), if_pos hdd, g2 d (by have := hd d hdd; omega)]
  · rw [if_neg (fun h => hdd (hmem.1 h)), if_neg hdd]

theorem between_shift (off : Nat) (P : Proto O) (envs : Nat → Env O) (p q : Nat) :
    (P.shift off).between n envs p q = P.between n (fun r d => envs r (off + d)) p q := rfl

theorem bench_between {outs : List (List (List O))} (h : List.Forall₂ (fun b c => seqRun n b = some c) bodies outs)
    {r : Nat} {b : List (Job O)} {c : List (List O)} (hr : bodies[r]? = some b) (hc : outs[r]? = some c) {i : Nat} {job : Job O}
    (hi : b[i]? = some job) (p q : Nat) :
    (job.shift (benchStart bodies r + 1) [benchStart bodies r]).proto.between n (seqEnv (benchAllOuts n o save outs)
      (job.shift (benchStart bodies r + 1) [benchStart bodies r]).deps) p q = job.proto.between n (seqEnv c job.deps) p q := by
  have hbc : seqRun n b = some c := by
    have hbl := (List.getElem?_eq_some_iff.1 hr).1
    have hcr := (List.getElem?_eq_some_iff.1 hc).1
    have := (List.forall₂_iff_get.1 h).2 r hbl hcr
    rw [List.getElem?_eq_getElem hbl, Option.some.injEq] at hr
    rw [List.getElem?_eq_getElem hcr, Option.some.injEq] at hc
    rw [← hr, ← hc]
    simpa using this
  obtain ⟨_, _, s3⟩ := seqFrom_spec hbc
  simp only [List.length_nil, Nat.zero_add] at s3
  have hil := (List.getElem?_eq_some_iff.1 hi).1
  have e1 : (job.shift (benchStart bodies r + 1) [benchStart bodies r]).proto = job.proto.shift (benchStart bodies r + 1) := rfl
  rw [e1, between_shift]
  congr 1
  funext p' d
  exact bench_env (seq_lengths h) hr hc (s3 i job hi).1 hil p' d

/-- The bytes of the jobs of an iteration. -/
theorem bench_jobBytes {outs : List (List (List O))} (h : List.Forall₂ (fun b c => seqRun n b = some c) bodies outs)
    {r : Nat} {b : List (Job O)} {c : List (List O)} (hr : bodies[r]? = some b) (hc : outs[r]? = some c) {i : Nat}
    (hi : i < b.length) (p q : Nat) :
    jobBytes n (benchJobs bid o save bodies) (benchAllOuts n o save outs) p q (benchStart bodies r + 1 + i)
      = jobBytes n b c p q i := by
  unfold jobBytes
  rw [benchJobs_body hr (List.getElem?_eq_getElem hi), List.getElem?_eq_getElem hi]
  simp only []
  rw [bench_between h hr hc (List.getElem?_eq_getElem hi)]
  rfl

theorem between_sync (o : O) (envs : Nat → Env O) (p q : Nat) : (syncProto o).between n envs p q = [syncData] := by
  simp [Proto.between, syncProto, Recipient.includes]

theorem between_save (o : O) (data : Nat → List Nat) (envs : Nat → Env O) (p q : Nat) :
    ∀ d ∈ (saveProto o data).between n envs p q, d = data p ∨ d = doneData := by
  intro d hd
  unfold Proto.between saveProto at hd
  simp only [Option.getD_some] at hd
  rcases List.mem_append.1 hd with hd | hd
  · obtain ⟨a, ha, rfl⟩ := List.mem_map.1 hd
    have := List.mem_singleton.1 (List.mem_filter.1 ha).1
    rw [this]
    exact Or.inl rfl
  · right
    split at hd
    · rw [Option.mem_toList] at hd
      obtain ⟨ms, _, hd⟩ := Option.bind_eq_some_iff.1 hd
      rw [Option.bind_some] at hd
      obtain ⟨hl, hd⟩ := List.getElem?_eq_some_iff.1 hd
      rw [← hd]
      simp
    · cases hd

/-- Sizes of the messages of the programs. -/
theorem bench_sizes {outs : List (List (List O))} (h : List.Forall₂ (fun b c => seqRun n b = some c) bodies outs)
    (hsz : List.Forall₂ (fun b c => SizesOk n b c) bodies outs) (hbid : bid.length ≤ 255)
    (hsave : ∀ data, save = some data → ∀ p < n, (data p).length < 2 ^ 63) :
    SizesOk n (benchJobs bid o save bodies) (benchAllOuts n o save outs) := by
  intro job hjob
  obtain ⟨j, hj⟩ := List.getElem?_of_mem hjob
  rcases benchJobs_cases hj with ⟨r, b, hr, rfl, rfl⟩ | ⟨r, b, i, c, hr, hi, rfl, rfl⟩ | ⟨data, hs, rfl, rfl⟩
  · refine ⟨hbid, fun p _ q _ d hd => ?_⟩
    simp only [] at hd ⊢
    rw [between_sync, List.mem_singleton] at hd
    rw [hd]
    have : syncData.length ≤ 255 := by decide
    omega
  · have hrl := (List.getElem?_eq_some_iff.1 hr).1
    have hl := h.length_eq
    have hc : outs[r]? = some (outs[r]'(by omega)) := List.getElem?_eq_getElem _
    have hok : SizesOk n b (outs[r]'(by omega)) := by
      have := (List.forall₂_iff_get.1 hsz).2 r hrl (by omega)
      rw [List.getElem?_eq_getElem hrl, Option.some.injEq] at hr
      rw [← hr]
      simpa using this
    obtain ⟨h1, h2⟩ := hok c (List.mem_of_getElem? hi)
    refine ⟨h1, fun p hp q hq d hd => ?_⟩
    rw [bench_between h hr hc hi] at hd
    exact h2 p hp q hq d hd
  · refine ⟨hbid, fun p hp q _ d hd => ?_⟩
    simp only [] at hd ⊢
    rcases between_save _ _ _ _ _ d hd with rfl | rfl
    · have := hsave data hs p hp
      omega
    · have : doneData.length ≤ 255 := by decide
      omega

/-- Everything after a `sync` waits for it. -/
theorem before_sync {r : Nat} {b : List (Job O)} (hr : bodies[r]? = some b) {j : Nat} {job : Job O}
    (hj : (benchJobs bid o save bodies)[j]? = some job) (hlt : benchStart bodies r < j) :
    Before (benchJobs bid o save bodies) (benchStart bodies r) j := by
  have hrl := (List.getElem?_eq_some_iff.1 hr).1
  rcases benchJobs_cases hj with ⟨r', b', hr', rfl, rfl⟩ | ⟨r', b', i, c, hr', hi, rfl, rfl⟩ | ⟨data, hs, rfl, rfl⟩
  · exact .single ⟨_, hj, List.mem_range.2 hlt⟩
  · have hs : Before (benchJobs bid o save bodies) (benchStart bodies r') (benchStart bodies r' + 1 + i) :=
      .single ⟨_, hj, by simp [Job.shift]⟩
    by_cases he : benchStart bodies r = benchStart bodies r'
    · rw [he]
      exact hs
    · have hil := (List.getElem?_eq_some_iff.1 hi).1
      have hrr : r < r' := by
        by_contra hrr
        have : r' < r := by
          rcases Nat.lt_trichotomy r r' with h | h | h
          · exact absurd h hrr
          · exact absurd (by rw [h]) he
          · exact h
        have := benchStart_le hr' this
        omega
      have := benchStart_le hr hrr
      exact .trans (.single ⟨_, benchJobs_sync hr', List.mem_range.2 (by omega)⟩) hs
  · exact .single ⟨_, hj, List.mem_range.2 hlt⟩

end Verif
