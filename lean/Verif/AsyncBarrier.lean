import Verif.AsyncLemmas

/-!
# Barriers

What finishing a job without a leader says about the other parties, with nothing assumed about the other jobs.
-/

namespace Verif

variable {O : Type} {n : Nat} {jobs : List (Job O)} {s : Sys O}

/-- A job in which every party sends at most one message (to all parties) and waits for a message of each party. -/
def Job.IsSync (job : Job O) : Prop :=
  job.proto.leader = none ∧ ∀ p env l, job.proto.sends p env = some l → l.length ≤ 1

/-- What is known about a job: `D` says that the jobs it depends on are finished. -/
def WInv (n : Nat) (job : Job O) (D : Prop) (sent : Nat → List (List Nat)) (gb : List RMsg) : TState O → Prop
  | .idle => (∀ q, sent q = []) ∧ gb = []
  | .sending rest => D ∧ (job.IsSync → gb = [] ∧ ∀ q, (sent q).length + rest.length ≤ 1)
  | .gather g => D ∧ (job.IsSync → g.Inv n gb ∧ ∀ q, (sent q).length ≤ 1)
  | .reply _ => D ∧ ¬ job.IsSync
  | .wait => D ∧ ¬ job.IsSync
  | .done _ => D ∧ (job.IsSync → (∀ r < n, HasMsg r gb) ∧ ∀ q, (sent q).length ≤ 1)
  | .fail => D ∧ (job.IsSync → ∀ q, (sent q).length ≤ 1)

/-- The jobs which `job` depends on are finished at `p`. -/
def Sys.DepsFin (s : Sys O) (job : Job O) (p : Nat) : Prop := ∀ d ∈ job.deps, s.Finished p d

/-- What holds in every execution. -/
structure Sys.Weak (n : Nat) (jobs : List (Job O)) (s : Sys O) : Prop where
  base : s.Base n jobs
  loc : ∀ (j : Nat) (job : Job O), jobs[j]? = some job → ∀ p < n,
    WInv n job (s.DepsFin job p) (s.sent j p) (s.gotBy j p) (s.loc p j)

theorem WInv.mono {job : Job O} {D D' : Prop} {sent : Nat → List (List Nat)} {gb : List RMsg}
    {t : TState O} (hD : D → D') (h : WInv n job D sent gb t) : WInv n job D' sent gb t := by
  cases t with
  | idle => exact h
  | sending rest => exact ⟨hD h.1, h.2⟩
  | gather g => exact ⟨hD h.1, h.2⟩
  | reply rest => exact ⟨hD h.1, h.2⟩
  | wait => exact ⟨hD h.1, h.2⟩
  | done o => exact ⟨hD h.1, h.2⟩
  | fail => exact ⟨hD h.1, h.2⟩

theorem Sys.weak_start : (Sys.start : Sys O).Weak n jobs :=
  ⟨Sys.base_start n jobs, fun j job _ p _ => by simp [Sys.start, WInv, Sys.gotBy]⟩

theorem Sys.Weak.of_act (h : s.Weak n jobs) {s' : Sys O} {j : Nat} {job : Job O} (hj : jobs[j]? = some job) {p : Nat}
    {t : TState O} (hloc : s'.loc = setLoc s.loc p j t) (hnd : ∀ o, s.loc p j ≠ .done o) (hbase : s'.Base n jobs)
    (hsent : ∀ i a, ¬ (a = p ∧ i = j) → s'.sent i a = s.sent i a)
    (hgot : ∀ i a, ¬ (a = p ∧ i = j) → s'.gotBy i a = s.gotBy i a)
    (ht : WInv n job (s.DepsFin job p) (s'.sent j p) (s'.gotBy j p) t) : s'.Weak n jobs := by
  have hD : ∀ jb a, s.DepsFin jb a → s'.DepsFin jb a := by
    intro jb a hd d hdm
    obtain ⟨o, ho⟩ := hd d hdm
    refine ⟨o, ?_⟩
    rw [hloc]
    unfold setLoc
    rw [if_neg, ho]
    rintro ⟨rfl, rfl⟩
    exact hnd _ ho
  refine ⟨hbase, fun i ji hi a ha => ?_⟩
  by_cases hai : a = p ∧ i = j
  · obtain ⟨rfl, rfl⟩ := hai
    rw [hj] at hi
    cases hi
    have : s'.loc a i = t := by rw [hloc]; unfold setLoc; rw [if_pos ⟨rfl, rfl⟩]
    rw [this]
    exact ht.mono (hD _ _)
  · have : s'.loc a i = s.loc a i := by rw [hloc]; unfold setLoc; rw [if_neg hai]
    rw [this, hsent i a hai, hgot i a hai]
    exact (h.loc i ji hi a ha).mono (hD _ _)

theorem ready_fin {job : Job O} {p : Nat} (hr : job.ready (s.env p) = true) : s.DepsFin job p := by
  intro d hd
  unfold Job.ready at hr
  rw [List.all_eq_true] at hr
  have h1 := hr d hd
  unfold Sys.env at h1
  cases ht : s.loc p d with
  | done o => exact ⟨o, ht⟩
  | _ => rw [ht] at h1; simp at h1

theorem orFail_winv {α : Type} {job : Job O} {D : Prop} {sent : Nat → List (List Nat)} {gb : List RMsg}
    (a : Option α) (k : α → TState O) (hf : WInv n job D sent gb .fail)
    (hk : ∀ y, a = some y → WInv n job D sent gb (k y)) : WInv n job D sent gb (orFail a k) := by
  cases a with
  | none => exact hf
  | some y => exact hk y rfl

theorem Sys.Weak.tau (h : s.Weak n jobs) {j : Nat} {job : Job O} (hj : jobs[j]? = some job)
    {p : Nat} (hp : p < n) (hr : job.ready (s.env p) = true) {t : TState O}
    (ht : job.proto.act n p ((s.env p).only job.deps) (s.loc p j) = .tau t) :
    WInv n job (s.DepsFin job p) (s.sent j p) (s.gotBy j p) t := by
  have hl := h.loc j job hj p hp
  have hD := ready_fin hr
  cases hs : s.loc p j with
  | idle =>
    rw [hs] at hl ht
    cases ht
    refine orFail_winv _ _ ⟨hD, fun _ q => by rw [hl.1 q]; simp⟩ fun y hy => ⟨hD, fun hsy => ⟨hl.2, fun q => ?_⟩⟩
    rw [hl.1 q]
    simpa using hsy.2 _ _ _ hy
  | sending rest =>
    rw [hs] at hl ht
    cases rest with
    | cons _ _ => cases ht
    | nil =>
      cases ht
      split
      · refine ⟨hD, fun hsy => ?_⟩
        obtain ⟨h1, h2⟩ := hl.2 hsy
        rw [h1]
        exact ⟨Gather.inv_init n, fun q => by simpa using h2 q⟩
      · next hg =>
        refine ⟨hD, fun hsy => hg ?_⟩
        unfold Proto.gathers
        rw [hsy.1]
  | gather g =>
    rw [hs] at ht
    unfold Proto.act at ht
    simp only [] at ht
    rw [hs] at hl
    split at ht
    · next hc =>
      split at ht
      · next hlead =>
        cases ht
        refine orFail_winv _ _ ⟨hD, fun hsy => (hl.2 hsy).2⟩ fun y hy => ⟨hD, fun hsy => ⟨?_, (hl.2 hsy).2⟩⟩
        exact (Gather.count_eq (hl.2 hsy).1).1 hc
      · next L hlead =>
        cases ht
        refine orFail_winv _ _ ⟨hD, fun hsy => (hl.2 hsy).2⟩ fun y hy => ⟨hD, fun hsy => ?_⟩
        rw [hsy.1] at hlead
        cases hlead
    · cases ht
  | reply rest =>
    rw [hs] at hl ht
    cases rest with
    | cons _ _ => cases ht
    | nil =>
      cases ht
      exact ⟨hD, hl.2⟩
  | wait => rw [hs] at ht; cases ht
  | done o => rw [hs] at ht; cases ht
  | fail => rw [hs] at ht; cases ht

theorem Sys.Weak.send (h : s.Weak n jobs) {j : Nat} {job : Job O} (hj : jobs[j]? = some job)
    {p : Nat} (hp : p < n) (hr : job.ready (s.env p) = true) {dest : Recipient} {data : List Nat} {t : TState O}
    (ht : job.proto.act n p ((s.env p).only job.deps) (s.loc p j) = .send dest data t) :
    WInv n job (s.DepsFin job p)
      (fun q => if dest.includes q then s.sent j p q ++ [data] else s.sent j p q) (s.gotBy j p) t := by
  have hl := h.loc j job hj p hp
  have hD := ready_fin hr
  cases hs : s.loc p j with
  | idle => rw [hs] at ht; cases ht
  | sending rest =>
    rw [hs] at hl ht
    cases rest with
    | nil => cases ht
    | cons a rest =>
      cases ht
      refine ⟨hD, fun hsy => ⟨(hl.2 hsy).1, fun q => ?_⟩⟩
      have := (hl.2 hsy).2 q
      rw [List.length_cons] at this
      simp only []
      split
      · rw [List.length_append, List.length_singleton]
        omega
      · omega
  | gather g =>
    rw [hs] at ht
    unfold Proto.act at ht
    simp only [] at ht
    split at ht
    · split at ht <;> cases ht
    · cases ht
  | reply rest =>
    rw [hs] at hl ht
    cases rest with
    | nil => cases ht
    | cons a rest =>
      cases ht
      exact ⟨hD, hl.2⟩
  | wait => rw [hs] at ht; cases ht
  | done o => rw [hs] at ht; cases ht
  | fail => rw [hs] at ht; cases ht

theorem Sys.Weak.recv (h : s.Weak n jobs) {j : Nat} {job : Job O} (hj : jobs[j]? = some job)
    {p : Nat} (hp : p < n) (hr : job.ready (s.env p) = true) {f : RMsg → TState O}
    (ht : job.proto.act n p ((s.env p).only job.deps) (s.loc p j) = .recv f) {m : TMsg} (hm : m ∈ s.inbox p) :
    WInv n job (s.DepsFin job p) (s.sent j p) (s.gotBy j p ++ [m.msg]) (f m.msg) := by
  have hl := h.loc j job hj p hp
  have hD := ready_fin hr
  have hsend := (h.base.inbox p m hm).1
  cases hs : s.loc p j with
  | idle => rw [hs] at ht; cases ht
  | sending rest => rw [hs] at ht; cases rest <;> cases ht
  | gather g =>
    rw [hs] at hl ht
    unfold Proto.act at ht
    simp only [] at ht
    split at ht
    · split at ht <;> cases ht
    · cases ht
      refine orFail_winv _ _ ⟨hD, fun hsy => (hl.2 hsy).2⟩ fun y hy => ⟨hD, fun hsy => ⟨?_, (hl.2 hsy).2⟩⟩
      obtain ⟨g', h1, h2⟩ := Gather.inv_step (hl.2 hsy).1 m.msg hsend
      rw [h1] at hy
      cases hy
      exact h2
  | reply rest => rw [hs] at ht; cases rest <;> cases ht
  | wait =>
    rw [hs] at hl ht
    cases ht
    exact orFail_winv _ _ ⟨hD, fun hsy => absurd hsy hl.2⟩ fun y hy => ⟨hD, fun hsy => absurd hsy hl.2⟩
  | done o => rw [hs] at ht; cases ht
  | fail => rw [hs] at ht; cases ht

theorem Sys.weak_step (h : s.Weak n jobs) {e : SysStep} {s' : Sys O} (hstep : s.step n jobs e = some s') :
    s'.Weak n jobs := by
  have hb := Sys.base_step h.base hstep
  cases e with
  | deliver p q =>
    unfold Sys.step at hstep
    simp only [] at hstep
    split at hstep
    · split at hstep
      · cases hstep
      · cases hstep
        exact ⟨hb, h.loc⟩
    · cases hstep
  | act p j =>
    unfold Sys.step at hstep
    simp only [] at hstep
    split at hstep
    · next hp =>
      split at hstep
      · cases hstep
      · next job hj =>
        unfold Sys.actStep at hstep
        split at hstep
        · next hr =>
          split at hstep
          · next dest data t ht =>
            split at hstep
            · cases hstep
              have h2 := h.send hj hp hr ht
              refine h.of_act hj (p := p) (t := t) rfl (act_not_done (by rw [ht]; simp)) hb ?_ ?_ ?_
              · intro i a hia
                funext b
                simp only []
                rw [if_neg]
                rintro ⟨rfl, rfl, _⟩
                exact hia ⟨rfl, rfl⟩
              · intro i a _
                rfl
              · have h3 : (fun b => if j = j ∧ p = p ∧ dest.includes b = true then s.sent j p b ++ [data] else s.sent j p b)
                    = fun q => if dest.includes q then s.sent j p q ++ [data] else s.sent j p q := by
                  funext b
                  simp
                rw [← h3] at h2
                exact h2
            · cases hstep
          · next f ht =>
            split at hstep
            · cases hstep
            · next m rest htake =>
              cases hstep
              obtain ⟨hm, hid⟩ : m ∈ s.inbox p ∧ m.msg.protoId = job.id := by
                obtain ⟨pre, post, h1, _, h3, _⟩ := takeFirst_some htake
                exact ⟨by rw [h1]; simp, h3⟩
              have hgotj : ∀ i a, ¬ (a = p ∧ i = j) →
                  List.map (fun y : Nat × TMsg => y.2.msg) (List.filter (fun y => decide (y.1 = i))
                    (Function.update s.got p (s.got p ++ [(j, m)]) a)) = s.gotBy i a := by
                intro i a hia
                by_cases hap : a = p
                · subst hap
                  have hij : ¬ j = i := fun h => hia ⟨rfl, h.symm⟩
                  simp [Sys.gotBy, hij]
                · rw [Function.update_of_ne hap]
                  rfl
              have hgotp : List.map (fun y : Nat × TMsg => y.2.msg) (List.filter (fun y => decide (y.1 = j))
                    (Function.update s.got p (s.got p ++ [(j, m)]) p)) = s.gotBy j p ++ [m.msg] := by
                simp [Sys.gotBy]
              refine h.of_act hj (p := p) (t := f m.msg) rfl (act_not_done (by rw [ht]; simp)) hb (fun _ _ _ => rfl)
                hgotj ?_
              have := h.recv hj hp hr ht hm
              unfold Sys.gotBy at this hgotp ⊢
              simp only [] at this hgotp ⊢
              rw [hgotp]
              exact this
          · next t ht =>
            cases hstep
            exact h.of_act hj (p := p) (t := t) rfl (act_not_done (by rw [ht]; simp)) hb (fun _ _ _ => rfl)
              (fun _ _ _ => rfl) (h.tau hj hp hr ht)
          · cases hstep
        · cases hstep
    · cases hstep

theorem Sys.weak_run {es : List SysStep} (hrun : Sys.start.run n jobs es = some s) : s.Weak n jobs :=
  Sys.run_inv (Q := fun s => s.Weak n jobs) (fun _ _ _ h hs => Sys.weak_step h hs) Sys.weak_start hrun

theorem Sys.Weak.started_before (h : s.Weak n jobs) {i j : Nat} (hb : Before jobs i j) {p : Nat} (hp : p < n)
    (hs : s.Started p j) : s.Finished p i := by
  have step : ∀ a b, (∃ job, jobs[b]? = some job ∧ a ∈ job.deps) → s.Started p b → s.Finished p a := by
    intro a b ⟨job, hj, ha⟩ hb
    have hl := h.loc b job hj p hp
    unfold Sys.Started at hb
    cases ht : s.loc p b with
    | idle => exact absurd ht hb
    | sending rest => rw [ht] at hl; exact hl.1 a ha
    | gather g => rw [ht] at hl; exact hl.1 a ha
    | reply rest => rw [ht] at hl; exact hl.1 a ha
    | wait => rw [ht] at hl; exact hl.1 a ha
    | done o => rw [ht] at hl; exact hl.1 a ha
    | fail => rw [ht] at hl; exact hl.1 a ha
  unfold Before at hb
  induction hb with
  | single hr => exact step _ _ hr hs
  | tail _ hr ih =>
    obtain ⟨o, ho⟩ := step _ _ hr hs
    exact ih (by unfold Sys.Started; rw [ho]; simp)

theorem finished_started {p j : Nat} (h : s.Finished p j) : s.Started p j := by
  obtain ⟨o, ho⟩ := h
  unfold Sys.Started
  rw [ho]
  simp

/-- Counting by classes. -/
theorem sum_countP {α : Type} (S : Finset Nat) (f : α → Nat) (P : α → Bool) (l : List α) :
    (∑ i ∈ S, l.countP fun y => P y && decide (f y = i)) = l.countP fun y => P y && decide (f y ∈ S) := by
  induction l with
  | nil => simp
  | cons a l ih =>
    simp only [List.countP_cons]
    rw [Finset.sum_add_distrib, ih]
    congr 1
    by_cases hP : P a = true
    · by_cases hm : f a ∈ S
      · simp [hP, hm]
      · simp [hP, hm]
    · simp [hP]

theorem Sys.Weak.sent_le (h : s.Weak n jobs) {j : Nat} {job : Job O} (hj : jobs[j]? = some job) (hsy : job.IsSync)
    {p : Nat} (hp : p < n) (q : Nat) : (s.sent j p q).length ≤ 1 ∧ (¬ s.Started p j → s.sent j p q = []) := by
  have hl := h.loc j job hj p hp
  unfold Sys.Started
  cases ht : s.loc p j with
  | idle =>
    rw [ht] at hl
    rw [hl.1 q]
    simp
  | sending rest =>
    rw [ht] at hl
    have := (hl.2 hsy).2 q
    exact ⟨by omega, by simp⟩
  | gather g => rw [ht] at hl; exact ⟨(hl.2 hsy).2 q, by simp⟩
  | reply rest => rw [ht] at hl; exact absurd hsy hl.2
  | wait => rw [ht] at hl; exact absurd hsy hl.2
  | done o => rw [ht] at hl; exact ⟨(hl.2 hsy).2 q, by simp⟩
  | fail => rw [ht] at hl; exact ⟨hl.2 hsy q, by simp⟩

/-- If all jobs with an ID are synchronizations, one after the other, then each of them is a barrier. -/
theorem Sys.Weak.barrier (h : s.Weak n jobs) {id : ProtocolID}
    (hsy : ∀ (j : Nat) (job : Job O), jobs[j]? = some job → job.id = id → job.IsSync)
    (hch : ∀ (i j : Nat) (a b : Job O), jobs[i]? = some a → jobs[j]? = some b → i < j → a.id = id → b.id = id →
      Before jobs i j)
    {j : Nat} {job : Job O} (hj : jobs[j]? = some job) (hid : job.id = id) {p q : Nat} (hp : p < n) (hq : q < n)
    (hf : s.Finished p j) : s.Started q j := by
  classical
  by_contra hns
  have hjl : j < jobs.length := (List.getElem?_eq_some_iff.1 hj).1
  -- the jobs with this ID
  obtain ⟨T, hT⟩ : ∃ T : Finset Nat, ∀ i, i ∈ T ↔ ∃ a, jobs[i]? = some a ∧ a.id = id := by
    refine ⟨(Finset.range jobs.length).filter fun i => ∃ a, jobs[i]? = some a ∧ a.id = id, fun i => ?_⟩
    rw [Finset.mem_filter, Finset.mem_range]
    refine ⟨fun h => h.2, fun h => ⟨?_, h⟩⟩
    obtain ⟨a, ha, _⟩ := h
    exact (List.getElem?_eq_some_iff.1 ha).1
  -- what `p` has received
  have h1 : (T.filter (· ≤ j)).card ≤ (s.got p).countP fun y => decide (y.2.msg.sender = q) && decide (y.2.msg.protoId = id) := by
    have e1 : (T.filter (· ≤ j)).card
        ≤ ∑ i ∈ T.filter (· ≤ j), (s.got p).countP fun y => decide (y.2.msg.sender = q) && decide (y.1 = i) := by
      rw [Finset.card_eq_sum_ones]
      refine Finset.sum_le_sum fun i hi => ?_
      rw [Finset.mem_filter, hT] at hi
      obtain ⟨⟨a, ha, hai⟩, hij⟩ := hi
      have hfi : s.Finished p i := by
        rcases Nat.lt_or_eq_of_le hij with hlt | rfl
        · exact h.started_before (hch i j a job ha hj hlt hai hid) hp (finished_started hf)
        · exact hf
      obtain ⟨o, ho⟩ := hfi
      have hl := h.loc i a ha p hp
      rw [ho] at hl
      obtain ⟨m, hm, hms⟩ := (hl.2 (hsy i a ha hai)).1 q hq
      unfold Sys.gotBy at hm
      rw [List.mem_map] at hm
      obtain ⟨y, hy, rfl⟩ := hm
      rw [List.mem_filter] at hy
      rw [Nat.one_le_iff_ne_zero, ne_eq, List.countP_eq_zero]
      push Not
      exact ⟨y, hy.1, by simpa [hms] using hy.2⟩
    refine e1.trans ?_
    rw [sum_countP]
    refine List.countP_mono_left fun y hy hc => ?_
    rw [Bool.and_eq_true, decide_eq_true_eq, decide_eq_true_eq, Finset.mem_filter, hT] at hc
    obtain ⟨hc1, ⟨a, ha, hai⟩, _⟩ := hc
    obtain ⟨_, b, hb, hbi⟩ := h.base.got p y hy
    rw [ha] at hb
    cases hb
    simp [hc1, hbi, hai]
  -- what `q` has sent
  have h2 : ((s.got p).countP fun y => decide (y.2.msg.sender = q) && decide (y.2.msg.protoId = id))
      ≤ (T.filter (· < j)).card := by
    have e1 : ((s.got p).countP fun y => decide (y.2.msg.sender = q) && decide (y.2.msg.protoId = id))
        ≤ ∑ i ∈ T, (s.got p).countP fun y => decide (y.2.msg.sender = q) && decide (y.2.tag = i) := by
      rw [sum_countP]
      refine List.countP_mono_left fun y hy hc => ?_
      rw [Bool.and_eq_true, decide_eq_true_eq, decide_eq_true_eq] at hc
      obtain ⟨⟨_, b, hb, hbi⟩, _⟩ := h.base.got p y hy
      rw [Bool.and_eq_true, decide_eq_true_eq, decide_eq_true_eq, hT]
      exact ⟨hc.1, b, hb, hbi.symm.trans hc.2⟩
    have e2 : ∀ i ∈ T, ((s.got p).countP fun y => decide (y.2.msg.sender = q) && decide (y.2.tag = i))
        ≤ if i < j then 1 else 0 := by
      intro i hi
      obtain ⟨a, ha, hai⟩ := (hT i).1 hi
      have e3 : ((s.got p).countP fun y => decide (y.2.msg.sender = q) && decide (y.2.tag = i))
          = (fromTag i q ((s.got p).map (·.2))).length := by
        unfold fromTag
        rw [List.length_map, ← List.countP_eq_length_filter, List.countP_map]
        refine List.countP_congr fun y _ => ?_
        simp only [Function.comp, Bool.and_comm]
      have e4 : (fromTag i q ((s.got p).map (·.2))).length ≤ (s.sent i q p).length := by
        rw [h.base.cons i q p]
        simp only [List.length_append]
        omega
      obtain ⟨e5, e6⟩ := h.sent_le ha (hsy i a ha hai) hq p
      rw [e3]
      split
      · omega
      · next hij =>
        have : ¬ s.Started q i := by
          intro hst
          rcases Nat.lt_or_eq_of_le (Nat.le_of_not_lt hij) with hlt | rfl
          · exact hns (finished_started (h.started_before (hch j i job a hj ha hlt hid hai) hq hst))
          · exact hns hst
        rw [e6 this] at e4
        simpa using e4
    refine e1.trans ((Finset.sum_le_sum e2).trans ?_)
    rw [Finset.sum_ite, Finset.sum_const_zero, ← Finset.card_eq_sum_ones, Nat.add_zero]
  have h3 : (T.filter (· < j)).card < (T.filter (· ≤ j)).card := by
    refine Finset.card_lt_card ?_
    rw [Finset.ssubset_iff_of_subset (fun i hi => ?_)]
    · exact ⟨j, by rw [Finset.mem_filter, hT]; exact ⟨⟨job, hj, hid⟩, le_refl j⟩, by simp⟩
    · rw [Finset.mem_filter] at hi ⊢
      exact ⟨hi.1, hi.2.le⟩
  omega

end Verif
