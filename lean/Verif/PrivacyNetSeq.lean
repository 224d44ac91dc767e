import Verif.PrivacyNetRun
import Verif.AsyncProto

/-!
# Helper lemmas: from sequential executions with equal views to executions over the network
-/

namespace Verif

variable {O : Type} {n : Nat} {Cs : Finset Nat} {jobs jobs' : List (Job O)} {x x' : Expected O} {outs outs' : List (List O)}

/-- Who gets the first messages: everyone one, or the leader one. -/
def Proto.Regular (P : Proto O) : Prop := ∀ p env l, P.sends p env = some l →
  match P.leader with
  | none => ∃ ms, l = toEach ms
  | some L => ∃ d, l = [(.one L, d)]

/-- Protocols in which corrupted parties compute the same. -/
structure ProtoTwin (Cs : Finset Nat) (P P' : Proto O) : Prop where
  leader : P.leader = P'.leader
  reg : P.Regular
  reg' : P'.Regular
  own : ∀ q ∈ Cs, P.sends q = P'.sends q ∧ P.finish q = P'.finish q ∧ (P.leader = some q → P.answer = P'.answer)

/-- Jobs with such protocols. -/
def JobTwin (Cs : Finset Nat) (job job' : Job O) : Prop := job.id = job'.id ∧ job.deps = job'.deps ∧ ProtoTwin Cs job.proto job'.proto

/-- Two lists of jobs whose sequential executions look the same for the corrupted parties: they have the same shape and messages
of the same lengths, corrupted parties compute the same, and get the same messages. -/
structure SeqTwin (n : Nat) (Cs : Finset Nat) (jobs jobs' : List (Job O)) (outs outs' : List (List O)) : Prop where
  twin : List.Forall₂ (JobTwin Cs) jobs jobs'
  lens : ∀ (j : Nat) (job job' : Job O), jobs[j]? = some job → jobs'[j]? = some job' → ∀ p < n, ∀ q < n,
    (job.proto.between n (seqEnv outs job.deps) p q).map List.length =
      (job'.proto.between n (seqEnv outs' job'.deps) p q).map List.length
  view : ∀ (j : Nat) (job job' : Job O), jobs[j]? = some job → jobs'[j]? = some job' → ∀ p < n, ∀ q < n, q ∈ Cs →
    job.proto.between n (seqEnv outs job.deps) p q = job'.proto.between n (seqEnv outs' job'.deps) p q

theorem forall₂_getElem? {α : Type} {R : α → α → Prop} {l l' : List α} (h : List.Forall₂ R l l') (i : Nat) :
    Option.Rel R l[i]? l'[i]? := by
  induction h generalizing i with
  | nil => exact .none
  | cons h1 _ ih =>
    cases i with
    | zero => exact .some h1
    | succ i => simpa using ih i

/-- The recipients of the first messages. -/
theorem Plan.dests (hplan : Plan n jobs x) {j : Nat} {job : Job O} (hj : jobs[j]? = some job) (hreg : job.proto.Regular) {p : Nat}
    (hp : p < n) : (x.snd j p).map (·.1) = match job.proto.leader with
      | none => (List.range n).map Recipient.one
      | some L => [Recipient.one L] := by
  have h := hreg p _ _ (hplan.sends j job hj p hp)
  have hknown := hplan.known j job hj p hp
  have haddr := hplan.addressed j job hj p hp
  cases hL : job.proto.leader with
  | some L =>
    rw [hL] at h
    obtain ⟨d, hd⟩ := h
    rw [hd]
    rfl
  | none =>
    rw [hL] at h
    obtain ⟨ms, hms⟩ := h
    have hlen : ms.length = n := by
      rw [hms] at hknown haddr
      apply Nat.le_antisymm
      · by_contra hc
        have hmem : (Recipient.one n, ms[n]'(by omega)) ∈ toEach ms := by
          unfold toEach
          refine List.mem_map.2 ⟨(ms[n]'(by omega), n), ?_, rfl⟩
          rw [List.mem_zipIdx_iff_getElem?]
          exact List.getElem?_eq_getElem (by omega)
        have := hknown _ hmem
        simp [Recipient.known] at this
      · by_contra hc
        have h1 := haddr ms.length (by omega)
        have hg : job.proto.gathers ms.length = true := by
          unfold Proto.gathers
          rw [hL]
        rw [if_pos hg] at h1
        have h2 : (toEach ms).filter (fun a => a.1.includes ms.length) = [] := by
          rw [List.filter_eq_nil_iff]
          intro a ha
          unfold toEach at ha
          obtain ⟨b, hb, rfl⟩ := List.mem_map.1 ha
          have := (List.getElem?_eq_some_iff.1 (List.mem_zipIdx_iff_getElem?.1 hb)).1
          simp only [Recipient.includes, decide_eq_true_eq]
          omega
        rw [h2] at h1
        cases h1
    rw [hms]
    unfold toEach
    rw [← hlen]
    apply List.ext_getElem
    · simp
    · intro i h1 h2
      simp

/-- Messages in a list where each recipient gets one. -/
theorem Plan.addressed_mem (hplan : Plan n jobs x) {j : Nat} {job : Job O} (hj : jobs[j]? = some job) {p q : Nat} (hp : p < n)
    (hq : q < n) {a : Recipient × List Nat} (ha : a ∈ x.snd j p) (hi : a.1.includes q = true) :
    job.proto.gathers q = true ∧ a.2 = x.msg j p q := by
  have h := hplan.addressed j job hj p hp q hq
  have hmem : a.2 ∈ ((x.snd j p).filter fun a => a.1.includes q).map (·.2) :=
    List.mem_map.2 ⟨a, List.mem_filter.2 ⟨ha, hi⟩, rfl⟩
  rw [h] at hmem
  split at hmem
  · rename_i hg
    exact ⟨hg, List.mem_singleton.1 hmem⟩
  · cases hmem

theorem SeqTwin.jobsTwin (h : SeqTwin n Cs jobs jobs' outs outs') (hCs : ∀ q ∈ Cs, q < n) (hplan : Plan n jobs x) (hplan' : Plan n jobs' x')
    (hout : ∀ j < jobs.length, ∀ p < n, (outs[j]?).bind (fun o => o[p]?) = some (x.out j p))
    (hout' : ∀ j < jobs'.length, ∀ p < n, (outs'[j]?).bind (fun o => o[p]?) = some (x'.out j p)) :
    JobsTwin n Cs jobs jobs' x x' := by
  have hskel : ∀ j : Nat, (jobs[j]?).map (fun job => (job.id, job.deps, job.proto.leader)) =
      (jobs'[j]?).map fun job => (job.id, job.deps, job.proto.leader) := by
    intro j
    have := forall₂_getElem? h.twin j
    revert this
    generalize jobs[j]? = a
    generalize jobs'[j]? = b
    intro h
    cases h with
    | none => rfl
    | some h =>
      simp only [Option.map_some]
      rw [h.1, h.2.1, h.2.2.leader]
  have hown : ∀ (j : Nat) (job job' : Job O), jobs[j]? = some job → jobs'[j]? = some job' → ProtoTwin Cs job.proto job'.proto := by
    intro j job job' hj hj'
    have := forall₂_getElem? h.twin j
    rw [hj, hj'] at this
    cases this with
    | some h => exact h.2.2
  have hjob : ∀ (j : Nat) (job : Job O), jobs[j]? = some job → ∃ job', jobs'[j]? = some job' ∧ job'.id = job.id ∧ job'.deps = job.deps ∧
      job'.proto.leader = job.proto.leader := by
    intro j job hj
    have := hskel j
    rw [hj, Option.map_some] at this
    obtain ⟨job', h1, h2⟩ := Option.map_eq_some_iff.1 this.symm
    simp only [Prod.mk.injEq] at h2
    exact ⟨job', h1, h2⟩
  -- messages, in terms of what is expected
  have hlen : ∀ (j : Nat) (job job' : Job O), jobs[j]? = some job → jobs'[j]? = some job' → ∀ p < n, ∀ q < n,
      (x.full j job p q).map List.length = (x'.full j job' p q).map List.length := by
    intro j job job' hj hj' p hp q hq
    rw [full_eq_between hplan hout hj hp hq, full_eq_between hplan' hout' hj' hp hq]
    exact h.lens j job job' hj hj' p hp q hq
  have hview : ∀ (j : Nat) (job job' : Job O), jobs[j]? = some job → jobs'[j]? = some job' → ∀ p < n, ∀ q < n, q ∈ Cs →
      x.full j job p q = x'.full j job' p q := by
    intro j job job' hj hj' p hp q hq hc
    rw [full_eq_between hplan hout hj hp hq, full_eq_between hplan' hout' hj' hp hq]
    exact h.view j job job' hj hj' p hp q hq hc
  have hmsg : ∀ (j : Nat) (job : Job O), jobs[j]? = some job → ∀ p < n, ∀ q < n, job.proto.gathers q = true →
      Sim (q ∈ Cs) (x.msg j p q) (x'.msg j p q) := by
    intro j job hj p hp q hq hg
    obtain ⟨job', hj', _, _, hL⟩ := hjob j job hj
    have hg' : job'.proto.gathers q = true := by
      unfold Proto.gathers at hg ⊢
      rw [hL]
      exact hg
    have h1 := hlen j job job' hj hj' p hp q hq
    have h2 := hview j job job' hj hj' p hp q hq
    unfold Expected.full Expected.first at h1 h2
    rw [if_pos hg, if_pos hg'] at h1 h2
    simp only [List.singleton_append, List.map_cons, List.cons.injEq] at h1 h2
    exact ⟨h1.1, fun hc => (h2 hc).1⟩
  have hans : ∀ (j : Nat) (job : Job O), jobs[j]? = some job → ∀ L, job.proto.leader = some L → ∀ q < n,
      Sim (q ∈ Cs) (x.ans j q) (x'.ans j q) := by
    intro j job hj L hl q hq
    obtain ⟨job', hj', _, _, hL⟩ := hjob j job hj
    have hLn := hplan.leader j job hj L hl
    have h1 := hlen j job job' hj hj' L hLn q hq
    have h2 := hview j job job' hj hj' L hLn q hq
    unfold Expected.full at h1 h2
    rw [if_pos hl, if_pos (hL.trans hl)] at h1 h2
    rw [List.map_append, List.map_append] at h1
    have h3 := (List.append_inj' h1 rfl).2
    refine ⟨by simpa using h3, fun hc => ?_⟩
    have h4 := (List.append_inj' (h2 hc) rfl).2
    simpa using h4
  -- results and messages of corrupted parties
  have hresult : ∀ (j : Nat) (job : Job O), jobs[j]? = some job → ∀ p < n, p ∈ Cs → x.out j p = x'.out j p := by
    intro j
    induction j using Nat.strong_induction_on with
    | _ j ih =>
      intro job hj p hp hc
      obtain ⟨job', hj', _, hd, hL⟩ := hjob j job hj
      have hjl : j < jobs.length := (List.getElem?_eq_some_iff.1 hj).1
      have henv : x.env job p = x'.env job' p := by
        funext d
        unfold Expected.env
        rw [hd]
        split
        · rename_i hdm
          have hdj := hplan.deps j job hj d hdm
          rw [ih d hdj jobs[d] (List.getElem?_eq_getElem (by omega)) p hp hc]
        · rfl
      have hown := (hown j job job' hj hj').own p hc
      cases hl : job.proto.leader with
      | none =>
        have h1 := hplan.finishAll j job hj hl p hp
        have h2 := hplan'.finishAll j job' hj' (hL.trans hl) p hp
        have h3 : ((List.range n).map fun q => x.msg j q p) = (List.range n).map fun q => x'.msg j q p := by
          refine List.map_congr_left fun q hq => (hmsg j job hj q (List.mem_range.1 hq) p hp ?_).2 hc
          unfold Proto.gathers
          rw [hl]
        rw [hown.2.1, henv, h3, h2, Option.some.injEq] at h1
        exact h1.symm
      | some L =>
        have h1 := hplan.finishOne j job hj L hl p hp
        have h2 := hplan'.finishOne j job' hj' L (hL.trans hl) p hp
        rw [hown.2.1, henv, (hans j job hj L hl p hp).2 hc, h2, Option.some.injEq] at h1
        exact h1.symm
  have henv : ∀ (j : Nat) (job job' : Job O), jobs[j]? = some job → jobs'[j]? = some job' → job'.deps = job.deps → ∀ p < n, p ∈ Cs →
      x.env job p = x'.env job' p := by
    intro j job job' hj hj' hd p hp hc
    have hjl : j < jobs.length := (List.getElem?_eq_some_iff.1 hj).1
    funext d
    unfold Expected.env
    rw [hd]
    split
    · rename_i hdm
      have hdj := hplan.deps j job hj d hdm
      rw [hresult d jobs[d] (List.getElem?_eq_getElem (by omega)) p hp hc]
    · rfl
  refine ⟨hskel, fun j job hj p hp => ?_, fun j job hj L hl q hq => ?_, hresult⟩
  · obtain ⟨job', hj', _, hd, hL⟩ := hjob j job hj
    have s1 := hplan.sends j job hj p hp
    have s2 := hplan'.sends j job' hj' p hp
    by_cases hc : p ∈ Cs
    · rw [((hown j job job' hj hj').own p hc).1, henv j job job' hj hj' hd p hp hc, s2, Option.some.injEq] at s1
      rw [s1, List.forall₂_same]
      exact fun a _ => ⟨rfl, Sim.refl _ _⟩
    · have hdst : (x.snd j p).map (·.1) = (x'.snd j p).map (·.1) := by
        rw [hplan.dests hj (hown j job job' hj hj').reg hp, hplan'.dests hj' (hown j job job' hj hj').reg' hp, hL]
      rw [List.forall₂_iff_get]
      have hll : (x.snd j p).length = (x'.snd j p).length := by simpa using congrArg List.length hdst
      refine ⟨hll, fun i h1 h2 => ?_⟩
      have ha : (x.snd j p).get ⟨i, h1⟩ ∈ x.snd j p := List.get_mem _ _
      have hb : (x'.snd j p).get ⟨i, h2⟩ ∈ x'.snd j p := List.get_mem _ _
      have hab : ((x.snd j p).get ⟨i, h1⟩).1 = ((x'.snd j p).get ⟨i, h2⟩).1 := by
        have := congrArg (fun l => l[i]?) hdst
        simpa [List.getElem?_map, h1, h2] using this
      revert ha hb hab
      generalize (x.snd j p).get ⟨i, h1⟩ = a
      generalize (x'.snd j p).get ⟨i, h2⟩ = b
      intro ha hb hab
      have key : ∀ q < n, a.1.includes q = true → Sim (q ∈ Cs) a.2 b.2 := by
        intro q hq hi
        obtain ⟨hg, e1⟩ := hplan.addressed_mem hj hp hq ha hi
        obtain ⟨_, e2⟩ := hplan'.addressed_mem hj' hp hq hb (hab ▸ hi)
        rw [e1, e2]
        exact hmsg j job hj p hp q hq hg
      refine ⟨hab, ?_, ?_⟩
      · have hk := hplan.known j job hj p hp a ha
        cases hd : a.1 with
        | one q =>
          rw [hd] at hk
          simp only [Recipient.known, decide_eq_true_eq] at hk
          exact (key q hk (by rw [hd]; simp [Recipient.includes])).1
        | all => exact (key p hp (by rw [hd]; rfl)).1
      · rintro (hc' | ⟨q, hq, hi⟩)
        · exact absurd hc' hc
        · exact (key q (hCs q hq) hi).2 hq
  · obtain ⟨job', hj', _, hd, hL⟩ := hjob j job hj
    have hLn := hplan.leader j job hj L hl
    refine ⟨(hans j job hj L hl q hq).1, ?_⟩
    rintro (hc | hc)
    · have a1 := hplan.answer j job hj L hl
      have a2 := hplan'.answer j job' hj' L (hL.trans hl)
      have h3 : ((List.range n).map fun q => x.msg j q L) = (List.range n).map fun q => x'.msg j q L := by
        refine List.map_congr_left fun q hq => (hmsg j job hj q (List.mem_range.1 hq) L hLn ?_).2 hc
        unfold Proto.gathers
        rw [hl]
        simp
      rw [((hown j job job' hj hj').own L hc).2.2 hl, henv j job job' hj hj' hd L hLn hc, h3, a2, Option.some.injEq] at a1
      have := congrArg (fun l => l[q]?) a1
      simp only [List.getElem?_map, List.getElem?_range hq, Option.map_some, Option.some.injEq] at this
      exact this.symm
    · exact (hans j job hj L hl q hq).2 hc

theorem SeqTwin.net [Inhabited O] (h : SeqTwin n Cs jobs jobs' outs outs') (hCs : ∀ q ∈ Cs, q < n) (hseq : seqRun n jobs = some outs)
    (hseq' : seqRun n jobs' = some outs') (hids : IdsOk jobs) (hids' : IdsOk jobs') (hsz : SizesOk n jobs outs)
    (hsz' : SizesOk n jobs' outs') : NetAlike n Cs jobs jobs' := by
  obtain ⟨x, hplan, hout⟩ := exists_plan hseq hids
  obtain ⟨x', hplan', hout'⟩ := exists_plan hseq' hids'
  exact netAlike_of_twin (h.jobsTwin hCs hplan hplan' hout hout') hplan hplan' (sizes_of_seq hplan hout hsz) (sizes_of_seq hplan' hout' hsz')

end Verif
