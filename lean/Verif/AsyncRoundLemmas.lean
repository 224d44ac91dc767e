import Verif.AsyncRoundSpec
import Verif.AsyncProgress
import Verif.AsyncSeq

/-!
# Upper bounds on the number of rounds
-/

namespace Verif

variable {O : Type} {n : Nat} {jobs : List (Job O)} {x : Expected O} {s s' : Sys O}

theorem AfterRounds.reach {k : Nat} (h : AfterRounds n jobs k s) : ∃ es, Sys.start.run n jobs es = some s := by
  induction h with
  | start run _ => exact ⟨_, run⟩
  | @round _ _ _ es' _ run _ _ ih =>
    obtain ⟨es, h⟩ := ih
    refine ⟨es ++ es', ?_⟩
    rw [Sys.run_append, h]
    exact run

theorem AfterRounds.blocked {k : Nat} (h : AfterRounds n jobs k s) : s.Blocked n jobs := by
  cases h <;> assumption

/-- Lock step is a special case. -/
theorem LockStep.after {k : Nat} (h : LockStep n jobs k s) : AfterRounds n jobs k s := by
  induction h with
  | start run _ b => exact .start run b
  | round _ run d b ih => exact .round ih run (fun p hp q hq => (d p hp q hq).le) b

/-- What a party whose jobs before are finished does when it is blocked. -/
theorem Sys.Inv.blocked_cases (h : s.Inv n jobs x) (hplan : Plan n jobs x) (hb : s.Blocked n jobs) {j : Nat} {job : Job O}
    (hj : jobs[j]? = some job) {p : Nat} (hp : p < n) (hready : job.ready (s.env p) = true) :
    (∃ g, s.loc p j = .gather g ∧ g.counter ≠ n ∧ takeFirst job.id (s.inbox p) = none) ∨
      (s.loc p j = .wait ∧ takeFirst job.id (s.inbox p) = none) ∨ s.Finished p j := by
  have h0 := hb p j
  unfold Sys.step at h0
  simp only [] at h0
  rw [if_pos hp, hj] at h0
  unfold Sys.actStep at h0
  simp only [] at h0
  rw [if_pos hready] at h0
  have hsend := fun dest data t => h.send hplan hj hp hready (dest := dest) (data := data) (t := t)
  have hl := h.loc j job hj p hp
  cases ht : s.loc p j with
  | idle =>
    rw [ht] at h0
    cases h0
  | sending rest =>
    rw [ht] at h0 hsend
    cases rest with
    | nil => cases h0
    | cons a rest =>
      have e1 := (hsend _ _ _ rfl).1
      unfold Proto.act at h0
      simp only [] at h0
      rw [if_pos e1] at h0
      cases h0
  | gather g =>
    rw [ht] at h0
    unfold Proto.act at h0
    simp only [] at h0
    by_cases hc : g.counter = n
    · rw [if_pos hc] at h0
      split at h0 <;> simp_all
      all_goals (split at * <;> simp_all)
    · rw [if_neg hc] at h0
      simp only [] at h0
      split at h0
      · exact Or.inl ⟨g, rfl, hc, by assumption⟩
      · cases h0
  | reply rest =>
    rw [ht] at h0 hsend
    cases rest with
    | nil => cases h0
    | cons a rest =>
      have e1 := (hsend _ _ _ rfl).1
      unfold Proto.act at h0
      simp only [] at h0
      rw [if_pos e1] at h0
      cases h0
  | wait =>
    rw [ht] at h0
    unfold Proto.act at h0
    simp only [] at h0
    split at h0
    · exact Or.inr (Or.inl ⟨rfl, by assumption⟩)
    · cases h0
  | done o => exact Or.inr (Or.inr ⟨o, ht⟩)
  | fail =>
    rw [ht] at hl
    exact hl.elim

/-- What has arrived at `q` from job `j` of `p`. -/
def Sys.arrived (s : Sys O) (j p q : Nat) : List (List Nat) := fromTag j p ((s.got q).map (·.2)) ++ fromTag j p (s.inbox q)

theorem Sys.Base.arrived (h : s.Base n jobs) (j p q : Nat) : s.sent j p q = s.arrived j p q ++ fromTag j p (s.chan p q) := h.cons j p q

/-- The effect of a step on what has arrived, and on the channel. -/
theorem Sys.Base.step_arrived (h : s.Base n jobs) {e : SysStep} (hs : s.step n jobs e = some s') (j p q : Nat) :
    (e ≠ .deliver p q ∧ s'.arrived j p q = s.arrived j p q ∧ ∃ ms, s'.chan p q = s.chan p q ++ ms) ∨
      e = .deliver p q ∧ ∃ m, s.chan p q = m :: s'.chan p q ∧ s'.arrived j p q = s.arrived j p q ++ fromTag j p [m] := by
  have h' := Sys.base_step h hs
  cases e with
  | act a i =>
    left
    refine ⟨by simp, ?_⟩
    unfold Sys.step at hs
    simp only [] at hs
    split at hs
    · split at hs
      · cases hs
      · next job hjob =>
        unfold Sys.actStep at hs
        split at hs
        · split at hs
          · next dest data next hact =>
            split at hs
            · obtain rfl := Option.some.inj hs
              refine ⟨rfl, if a = p ∧ dest.includes q = true then [⟨i, ⟨job.id, a, data⟩⟩] else [], ?_⟩
              simp only []
              by_cases hc : p = a ∧ dest.includes q = true
              · rw [if_pos hc, if_pos ⟨hc.1.symm, hc.2⟩, hc.1]
              · rw [if_neg hc, if_neg (fun h => hc ⟨h.1.symm, h.2⟩), List.append_nil]
            · cases hs
          · split at hs
            · cases hs
            · obtain rfl := Option.some.inj hs
              refine ⟨?_, [], by simp⟩
              have e1 := h.arrived j p q
              have e2 := h'.arrived j p q
              exact List.append_cancel_right (e2.symm.trans e1)
          · obtain rfl := Option.some.inj hs
            exact ⟨rfl, [], by simp⟩
          · cases hs
        · cases hs
    · cases hs
  | deliver a b =>
    unfold Sys.step at hs
    simp only [] at hs
    split at hs
    · split at hs
      · cases hs
      · next m rest hm =>
        obtain rfl := Option.some.inj hs
        by_cases hab : a = p ∧ b = q
        · right
          obtain ⟨rfl, rfl⟩ := hab
          refine ⟨rfl, m, ?_, ?_⟩
          · simp [hm]
          · unfold Sys.arrived
            simp only [Function.update_self, fromTag_append, List.append_assoc]
        · left
          refine ⟨fun e => hab (by cases e; exact ⟨rfl, rfl⟩), ?_, [], ?_⟩
          · unfold Sys.arrived
            simp only []
            by_cases hb : q = b
            · subst hb
              rw [Function.update_self, fromTag_append]
              have : fromTag j p [m] = [] := by
                apply fromTag_nil
                intro m' hm' _ h2
                rw [List.mem_singleton.1 hm'] at h2
                have := (h.chan a q m (by rw [hm]; exact List.mem_cons_self)).1
                exact hab ⟨this.symm.trans h2, rfl⟩
              rw [this, List.append_nil]
            · rw [Function.update_of_ne hb]
          · simp only [List.append_nil]
            rw [if_neg (fun hh => hab ⟨hh.1.symm, hh.2.symm⟩)]
    · cases hs

/-- Messages in front of the channel arrive, if there are so many deliveries. -/
theorem Sys.Base.run_arrived (j p q : Nat) (X : List (List Nat)) {es : List SysStep} : ∀ {s : Sys O} (k : Nat), s.Base n jobs →
    s.run n jobs es = some s' → X <+: s.arrived j p q ++ fromTag j p ((s.chan p q).take k) → k ≤ es.count (.deliver p q) →
    X <+: s'.arrived j p q := by
  induction es with
  | nil =>
    intro s k _ hrun hX hk
    obtain rfl := Option.some.inj hrun
    simp only [List.count_nil, Nat.le_zero] at hk
    simpa [hk, fromTag] using hX
  | cons e es ih =>
    intro s k hb hrun hX hk
    unfold Sys.run at hrun
    obtain ⟨s1, hs, hrun1⟩ := Option.bind_eq_some_iff.1 hrun
    have hb1 := Sys.base_step hb hs
    rcases hb.step_arrived hs j p q with ⟨hne, h1, ms, h2⟩ | ⟨rfl, m, h1, h2⟩
    · refine ih k hb1 hrun1 ?_ (by rwa [List.count_cons_of_ne hne] at hk)
      rw [h1, h2]
      refine hX.trans ?_
      rw [List.take_append, fromTag_append, ← List.append_assoc]
      exact List.prefix_append _ _
    · cases k with
      | zero =>
        refine ih 0 hb1 hrun1 ?_ (Nat.zero_le _)
        rw [h2, List.append_assoc]
        simp only [List.take_zero] at hX ⊢
        refine hX.trans ?_
        simp [fromTag]
      | succ k =>
        refine ih k hb1 hrun1 ?_ (by rw [List.count_cons_self] at hk; omega)
        rw [h2, List.append_assoc, ← fromTag_append]
        rw [h1, List.take_succ_cons] at hX
        exact hX

/-- Everything sent before a round has arrived after it. -/
theorem Sys.Base.round_arrived (hb : s.Base n jobs) {es : List SysStep} (hrun : s.run n jobs es = some s') {p q : Nat}
    (hd : (s.chan p q).length ≤ es.count (.deliver p q)) (j : Nat) : s.sent j p q <+: s'.arrived j p q := by
  refine Sys.Base.run_arrived j p q _ (s.chan p q).length hb hrun ?_ hd
  rw [List.take_length, ← hb.arrived]

/-- A party which waits for a message of its job has received all of them which have arrived. -/
theorem Sys.Inv.arrived_got (h : s.Inv n jobs x) {j : Nat} {job : Job O} (hj : jobs[j]? = some job) {p : Nat}
    (htake : takeFirst job.id (s.inbox p) = none) (r : Nat) : s.arrived j r p = dataFrom r (s.gotBy j p) := by
  unfold Sys.arrived
  rw [fromTag_gotBy h.tags]
  have h2 : fromTag j r (s.inbox p) = [] := by
    unfold fromTag
    rw [List.map_eq_nil_iff, List.filter_eq_nil_iff]
    intro m hm hc
    simp only [Bool.and_eq_true, decide_eq_true_eq] at hc
    obtain ⟨_, jm, hjm, hid⟩ := h.base.inbox p m hm
    rw [hc.1, hj] at hjm
    cases hjm
    exact takeFirst_none htake m hm hid
  rw [h2, List.append_nil]

/-- The number of rounds of a job. -/
def Job.cost (job : Job O) : Nat := if job.proto.leader = none then 1 else 2

/-- `lvl` bounds the number of rounds until a job is finished. -/
def Levels (jobs : List (Job O)) (lvl : Nat → Nat) : Prop :=
  ∀ (j : Nat) (job : Job O), jobs[j]? = some job → job.cost ≤ lvl j ∧ ∀ d ∈ job.deps, lvl d + job.cost ≤ lvl j

theorem Job.cost_pos (job : Job O) : 1 ≤ job.cost := by unfold Job.cost; split <;> omega

theorem Job.cost_le (job : Job O) : job.cost ≤ 2 := by unfold Job.cost; split <;> omega

/-- First messages have been sent by a party which is not before them. -/
theorem Sys.Inv.sent_first (h : s.Inv n jobs x) {j : Nat} {job : Job O} (hj : jobs[j]? = some job) {r : Nat} (hr : r < n)
    (hc : (∃ g, s.loc r j = .gather g ∧ g.counter ≠ n ∧ takeFirst job.id (s.inbox r) = none) ∨
      (s.loc r j = .wait ∧ takeFirst job.id (s.inbox r) = none) ∨ s.Finished r j) {q : Nat} (hq : q < n) :
    x.first j job r q <+: s.sent j r q := by
  have hl := h.loc j job hj r hr
  rcases hc with ⟨g, hg, _⟩ | ⟨hw, _⟩ | ⟨o, ho⟩
  · rw [hg] at hl
    rw [hl.2.2.1 q hq]
  · rw [hw] at hl
    rw [hl.2.2.1 q hq]
    exact List.prefix_append _ _
  · rw [ho] at hl
    rw [hl.2.2.1 q hq]
    exact List.prefix_append _ _

/-- What is known after `k` rounds: parties have sent their first messages, the leader its answers, and have finished. -/
theorem AfterRounds.progress (hplan : Plan n jobs x) {lvl : Nat → Nat} (hlvl : Levels jobs lvl) {k : Nat} (h : AfterRounds n jobs k s) :
    ∀ (j : Nat) (job : Job O), jobs[j]? = some job →
      (lvl j ≤ k + job.cost → ∀ p < n, (∃ g, s.loc p j = .gather g ∧ g.counter ≠ n ∧ takeFirst job.id (s.inbox p) = none) ∨
        (s.loc p j = .wait ∧ takeFirst job.id (s.inbox p) = none) ∨ s.Finished p j) ∧
      (lvl j + 1 ≤ k + job.cost → ∀ p < n, ∀ g, s.loc p j ≠ .gather g) ∧
      (lvl j ≤ k → ∀ p < n, s.Finished p j) := by
  -- what holds before the round
  have step : ∀ (k : Nat) (s : Sys O), AfterRounds n jobs k s →
      (∀ (j : Nat) (job : Job O), jobs[j]? = some job →
        (lvl j + 1 ≤ k + job.cost → ∀ p < n, job.proto.gathers p = true → takeFirst job.id (s.inbox p) = none →
          ∀ r < n, x.first j job r p <+: dataFrom r (s.gotBy j p)) ∧
        (lvl j ≤ k → ∀ L, job.proto.leader = some L → ∀ p < n, takeFirst job.id (s.inbox p) = none →
          x.full j job L p <+: dataFrom L (s.gotBy j p))) →
      ∀ (j : Nat) (job : Job O), jobs[j]? = some job →
      (lvl j ≤ k + job.cost → ∀ p < n, (∃ g, s.loc p j = .gather g ∧ g.counter ≠ n ∧ takeFirst job.id (s.inbox p) = none) ∨
        (s.loc p j = .wait ∧ takeFirst job.id (s.inbox p) = none) ∨ s.Finished p j) ∧
      (lvl j + 1 ≤ k + job.cost → ∀ p < n, ∀ g, s.loc p j ≠ .gather g) ∧
      (lvl j ≤ k → ∀ p < n, s.Finished p j) := by
    intro k s hk hprev j
    obtain ⟨es, hes⟩ := hk.reach
    have hinv := hplan.inv hes
    have hbl := hk.blocked
    induction j using Nat.strong_induction_on with
    | _ j ih =>
    intro job hj
    have c1 := job.cost_pos
    obtain ⟨p1, p2⟩ := hprev j job hj
    have hc : lvl j ≤ k + job.cost → ∀ p < n, (∃ g, s.loc p j = .gather g ∧ g.counter ≠ n ∧ takeFirst job.id (s.inbox p) = none) ∨
        (s.loc p j = .wait ∧ takeFirst job.id (s.inbox p) = none) ∨ s.Finished p j := by
      intro hl p hp
      refine hinv.blocked_cases hplan hbl hj hp ?_
      unfold Job.ready
      rw [List.all_eq_true]
      intro d hd
      have hdj := hplan.deps j job hj d hd
      have hjl := (List.getElem?_eq_some_iff.1 hj).1
      have hld := (hlvl j job hj).2 d hd
      obtain ⟨o, ho⟩ := (ih d hdj _ (List.getElem?_eq_getElem (by omega))).2.2 (by omega) p hp
      unfold Sys.env
      rw [ho]
      rfl
    have hg : lvl j + 1 ≤ k + job.cost → ∀ p < n, ∀ g, s.loc p j ≠ .gather g := by
      intro hl p hp g hg
      rcases hc (by omega) p hp with ⟨g', hg', hcnt, htake⟩ | ⟨hw, _⟩ | ⟨o, ho⟩
      · have hloc := hinv.loc j job hj p hp
        rw [hg'] at hloc
        obtain ⟨_, hgg, _, hi⟩ := hloc
        apply hcnt
        rw [Gather.count_eq hi]
        intro r hr
        rw [hasMsg_dataFrom]
        intro h0
        have := p1 hl p hp hgg htake r hr
        rw [h0, List.prefix_nil] at this
        unfold Expected.first at this
        rw [if_pos hgg] at this
        cases this
      · rw [hw] at hg
        cases hg
      · rw [ho] at hg
        cases hg
    refine ⟨hc, hg, fun hl p hp => ?_⟩
    rcases hc (by omega) p hp with ⟨g', hg', _⟩ | ⟨hw, htake⟩ | hf
    · exact absurd hg' (hg (by omega) p hp g')
    · exfalso
      have hloc := hinv.loc j job hj p hp
      rw [hw] at hloc
      obtain ⟨_, hlead, _, hgot⟩ := hloc
      obtain ⟨L, hL⟩ := Option.ne_none_iff_exists'.1 hlead
      have h1 := (p2 hl L hL p hp htake).length_le
      rw [hgot L (hplan.leader j job hj L hL)] at h1
      unfold Expected.full at h1
      rw [if_pos hL] at h1
      simp at h1
    · exact hf
  induction h with
  | start run b =>
    refine step 0 _ (.start run b) fun j job hj => ⟨fun hl => ?_, fun hl => ?_⟩
    · have := (hlvl j job hj).1
      omega
    · have := (hlvl j job hj).1
      have := job.cost_pos
      omega
  | @round k s s' es before run hd b ih =>
    obtain ⟨es0, hes0⟩ := before.reach
    have hinv := hplan.inv hes0
    have hinv' := Sys.run_inv (Q := fun s => s.Inv n jobs x) (fun _ _ _ h hs => Sys.inv_step h hplan hs) hinv run
    refine step (k + 1) s' (.round before run hd b) fun j job hj => ⟨fun hl p hp _ htake r hr => ?_, fun hl L hL p hp htake => ?_⟩
    · have hc := (ih j job hj).1 (by omega) r hr
      have h1 := hinv.base.round_arrived run (hd r hr p hp) j
      rw [hinv'.arrived_got hj htake] at h1
      exact (hinv.sent_first hj hr hc hp).trans h1
    · have hLn := hplan.leader j job hj L hL
      have hcost : job.cost = 2 := by
        unfold Job.cost
        rw [hL]
        rfl
      have h1 := hinv.base.round_arrived run (hd L hLn p hp) j
      rw [hinv'.arrived_got hj htake] at h1
      have hc := (ih j job hj).1 (by omega) L hLn
      have hng := (ih j job hj).2.1 (by omega) L hLn
      have hfull : s.sent j L p = x.full j job L p := by
        have hl := hinv.loc j job hj L hLn
        rcases hc with ⟨g, hg, _⟩ | ⟨hw, _⟩ | ⟨o, ho⟩
        · exact absurd hg (hng g)
        · rw [hw] at hl
          exact hl.2.2.1 p hp
        · rw [ho] at hl
          exact hl.2.2.1 p hp
      rw [← hfull]
      exact h1

/-- After as many rounds as the highest level, everything is finished. -/
theorem AfterRounds.finished (hplan : Plan n jobs x) {lvl : Nat → Nat} (hlvl : Levels jobs lvl) {k : Nat} (h : AfterRounds n jobs k s)
    (hk : ∀ j < jobs.length, lvl j ≤ k) : s.AllFinished n jobs := fun j hj p hp =>
  (h.progress hplan hlvl j _ (List.getElem?_eq_getElem hj)).2.2 (hk j hj) p hp

/-! ### Lower bounds in lock step -/

theorem Sys.Base.run_arrived_le (j p q : Nat) {es : List SysStep} : ∀ {s : Sys O} (k : Nat), s.Base n jobs →
    s.run n jobs es = some s' → es.count (.deliver p q) ≤ k → k ≤ (s.chan p q).length →
    s'.arrived j p q <+: s.arrived j p q ++ fromTag j p ((s.chan p q).take k) := by
  induction es with
  | nil =>
    intro s k _ hrun _ _
    obtain rfl := Option.some.inj hrun
    exact List.prefix_append _ _
  | cons e es ih =>
    intro s k hb hrun hk hkl
    unfold Sys.run at hrun
    obtain ⟨s1, hs, hrun1⟩ := Option.bind_eq_some_iff.1 hrun
    have hb1 := Sys.base_step hb hs
    rcases hb.step_arrived hs j p q with ⟨hne, h1, ms, h2⟩ | ⟨rfl, m, h1, h2⟩
    · have := ih k hb1 hrun1 (by rwa [List.count_cons_of_ne hne] at hk) (by rw [h2, List.length_append]; omega)
      rwa [h1, h2, List.take_append_of_le_length hkl] at this
    · rw [List.count_cons_self] at hk
      rw [h1, List.length_cons] at hkl
      cases k with
      | zero => omega
      | succ k =>
        have := ih k hb1 hrun1 (by omega) (by omega)
        rw [h2, List.append_assoc, ← fromTag_append] at this
        rw [h1, List.take_succ_cons]
        exact this

/-- What is new at the end of the round had been sent before it. -/
theorem Sys.Base.round_arrived_le (hb : s.Base n jobs) {es : List SysStep} (hrun : s.run n jobs es = some s') {p q : Nat}
    (hd : es.count (.deliver p q) ≤ (s.chan p q).length) (j : Nat) : s'.arrived j p q <+: s.sent j p q := by
  have := Sys.Base.run_arrived_le j p q (s.chan p q).length hb hrun hd (Nat.le_refl _)
  rwa [List.take_length, ← hb.arrived] at this

/-- `lvl` is a lower bound for the number of rounds until a job is finished. -/
def LowLevels (jobs : List (Job O)) (lvl : Nat → Nat) : Prop :=
  ∀ (j : Nat) (job : Job O), jobs[j]? = some job → lvl j ≤ job.cost ∨ ∃ d ∈ job.deps, lvl j ≤ lvl d + job.cost

/-- What can have arrived after `k` rounds. -/
def Sys.Early (n : Nat) (jobs : List (Job O)) (x : Expected O) (lvl : Nat → Nat) (k : Nat) (s : Sys O) : Prop :=
  ∀ (j : Nat) (job : Job O), jobs[j]? = some job → ∀ p < n, ∀ q < n,
    (s.arrived j p q ≠ [] → lvl j + 1 ≤ k + job.cost) ∧
    (job.proto.leader = some p → s.arrived j p q = x.full j job p q → lvl j ≤ k)

theorem Sys.Inv.arrived_eq (h : s.Inv n jobs x) (j p q : Nat) :
    s.arrived j p q = dataFrom p (s.gotBy j q) ++ fromTag j p (s.inbox q) := by
  unfold Sys.arrived
  rw [fromTag_gotBy h.tags]

theorem Expected.first_ne {j : Nat} {job : Job O} {p q : Nat} (h : job.proto.gathers q = true) : x.first j job p q ≠ [] := by
  unfold Expected.first
  rw [if_pos h]
  simp

theorem Proto.gathers_leader {P : Proto O} {L : Nat} (h : P.leader = some L) : P.gathers L = true := by
  unfold Proto.gathers
  rw [h]
  simp

/-- Arrived messages are a prefix of the expected ones. -/
theorem Sys.Inv.arrived_prefix (h : s.Inv n jobs x) (hplan : Plan n jobs x) {j : Nat} {job : Job O} (hj : jobs[j]? = some job)
    {p q : Nat} (hp : p < n) (hq : q < n) : s.arrived j p q <+: x.full j job p q := by
  refine List.IsPrefix.trans ?_ (h.sent_prefix hplan hj hp hq)
  rw [h.base.arrived]
  exact List.prefix_append _ _

/-- Who has finished a job has not done so early. -/
theorem Sys.Early.done (he : s.Early n jobs x lvl k) (h : s.Inv n jobs x) (hplan : Plan n jobs x) {j : Nat} {job : Job O}
    (hj : jobs[j]? = some job) {p : Nat} (hp : p < n) (hf : s.Finished p j) : lvl j ≤ k := by
  obtain ⟨o, ho⟩ := hf
  have hl := h.loc j job hj p hp
  rw [ho] at hl
  obtain ⟨_, _, _, hgot⟩ := hl
  cases hL : job.proto.leader with
  | none =>
    have hg : job.proto.gathers p = true := by
      unfold Proto.gathers
      rw [hL]
    have h1 := (he j job hj p hp p hp).1 (by
      rw [h.arrived_eq, hgot p hp]
      unfold Expected.full
      intro h0
      exact Expected.first_ne hg (List.append_eq_nil_iff.1 (List.append_eq_nil_iff.1 h0).1).1)
    unfold Job.cost at h1
    rw [if_pos hL] at h1
    omega
  | some L =>
    have hLn := hplan.leader j job hj L hL
    refine (he j job hj L hLn p hp).2 hL ?_
    refine (h.arrived_prefix hplan hj hLn hp).eq_of_length_le ?_
    rw [h.arrived_eq, hgot L hLn, List.length_append]
    omega

/-- Who has sent something has not done so early. -/
theorem Sys.Early.sent (he : s.Early n jobs x lvl k) (h : s.Inv n jobs x) (hplan : Plan n jobs x) (hlow : LowLevels jobs lvl) {j : Nat}
    {job : Job O} (hj : jobs[j]? = some job) {p q : Nat} (hp : p < n) (hq : q < n) (hs : s.sent j p q ≠ []) : lvl j ≤ k + job.cost := by
  have hD : s.DepsDone x job p := by
    have hl := h.loc j job hj p hp
    cases ht : s.loc p j with
    | idle =>
      rw [ht] at hl
      exact absurd (hl.1 q hq) hs
    | fail =>
      rw [ht] at hl
      exact hl.elim
    | _ =>
      rw [ht] at hl
      exact hl.1
  rcases hlow j job hj with h1 | ⟨d, hd, h1⟩
  · omega
  · have hjl := (List.getElem?_eq_some_iff.1 hj).1
    have hdj := hplan.deps j job hj d hd
    have := he.done h hplan (List.getElem?_eq_getElem (show d < jobs.length by omega)) hp ⟨_, hD d hd⟩
    omega

/-- A leader which has answered has not done so early. -/
theorem Sys.Early.answered (he : s.Early n jobs x lvl k) (h : s.Inv n jobs x) {j : Nat}
    {job : Job O} (hj : jobs[j]? = some job) {L q : Nat} (hLn : L < n) (hq : q < n) (hL : job.proto.leader = some L)
    (hplan : Plan n jobs x) (hs : s.sent j L q = x.full j job L q) : lvl j ≤ k + 1 := by
  have hcost : job.cost = 2 := by
    unfold Job.cost
    rw [hL]
    rfl
  have hg := Proto.gathers_leader hL
  have key : (∀ r < n, x.first j job r L <+: dataFrom r (s.gotBy j L)) → lvl j ≤ k + 1 := by
    intro hgot
    have := (he j job hj L hLn L hLn).1 (by
      rw [h.arrived_eq]
      intro h0
      have h2 := hgot L hLn
      rw [(List.append_eq_nil_iff.1 h0).1, List.prefix_nil] at h2
      exact Expected.first_ne hg h2)
    omega
  have hshort : ¬ s.sent j L q <+: x.first j job L q := by
    intro h1
    have h1 := h1.length_le
    rw [hs] at h1
    unfold Expected.full at h1
    rw [if_pos hL] at h1
    simp at h1
  have hl := h.loc j job hj L hLn
  cases ht : s.loc L j with
  | idle =>
    rw [ht] at hl
    refine absurd ?_ hshort
    rw [hl.1 q hq]
    exact List.nil_prefix
  | sending rest =>
    rw [ht] at hl
    obtain ⟨_, ⟨pre, h1, h2⟩, _⟩ := hl
    refine absurd ?_ hshort
    rw [h2 q hq]
    have := hplan.addressed j job hj L hLn q hq
    unfold Expected.first
    rw [← this, h1, List.filter_append, List.map_append]
    exact List.prefix_append _ _
  | gather g =>
    rw [ht] at hl
    refine absurd ?_ hshort
    rw [hl.2.2.1 q hq]
  | reply rest =>
    rw [ht] at hl
    exact key fun r hr => by rw [hl.2.2.2 r hr]
  | wait =>
    rw [ht] at hl
    exact key fun r hr => by rw [hl.2.2.2 r hr]
  | done o =>
    rw [ht] at hl
    exact key fun r hr => by
      rw [hl.2.2.2 r hr]
      exact List.prefix_append _ _
  | fail =>
    rw [ht] at hl
    exact hl.elim

/-- In lock step nothing is early. -/
theorem LockStep.early (hplan : Plan n jobs x) {lvl : Nat → Nat} (hlow : LowLevels jobs lvl) {k : Nat} (h : LockStep n jobs k s) :
    s.Early n jobs x lvl k := by
  induction h with
  | @start es s run hnone b =>
    have harr : ∀ j p q, s.arrived j p q = [] := by
      intro j p q
      have h1 := (Sys.base_start n jobs).round_arrived_le run (p := p) (q := q)
        (by rw [List.count_eq_zero.2 (hnone p q)]; exact Nat.zero_le _) j
      exact List.prefix_nil.1 h1
    intro j job hj p hp q hq
    refine ⟨fun h0 => absurd (harr j p q) h0, fun hL h0 => ?_⟩
    rw [harr] at h0
    unfold Expected.full at h0
    rw [if_pos hL] at h0
    simp at h0
  | @round k s s' es before run hd b ih =>
    obtain ⟨es0, hes0⟩ := before.after.reach
    have hinv := hplan.inv hes0
    have hinv' := Sys.run_inv (Q := fun s => s.Inv n jobs x) (fun _ _ _ h hs => Sys.inv_step h hplan hs) hinv run
    intro j job hj p hp q hq
    have h1 := hinv.base.round_arrived_le run (hd p hp q hq).ge j
    refine ⟨fun h0 => ?_, fun hL h0 => ?_⟩
    · have := ih.sent hinv hplan hlow hj hp hq (fun h2 => h0 (by rwa [h2, List.prefix_nil] at h1))
      omega
    · refine ih.answered hinv hj hp hq hL hplan ?_
      refine (hinv.sent_prefix hplan hj hp hq).eq_of_length_le ?_
      rw [← h0]
      exact h1.length_le

/-! ### Executions in lock step exist -/

/-- From every state the tasks can go on until all of them wait. -/
theorem exists_blocked {B : Nat} (hB : ∀ (es : List SysStep) (s : Sys O), Sys.start.run n jobs es = some s → es.length ≤ B)
    {es : List SysStep} (hs : Sys.start.run n jobs es = some s) :
    ∃ es' s', (∀ p q, SysStep.deliver p q ∉ es') ∧ s.run n jobs es' = some s' ∧ s'.Blocked n jobs := by
  generalize hm : B - es.length = m
  induction m generalizing s es with
  | zero =>
    refine ⟨[], s, by simp, rfl, fun p j => ?_⟩
    cases h1 : s.step n jobs (.act p j) with
    | none => rfl
    | some s1 =>
      have h2 := hB (es ++ [.act p j]) s1 (by rw [Sys.run_append, hs]; simp [Sys.run, h1])
      rw [List.length_append, List.length_singleton] at h2
      omega
  | succ m ih =>
    by_cases hb : s.Blocked n jobs
    · exact ⟨[], s, by simp, rfl, hb⟩
    · unfold Sys.Blocked at hb
      rw [not_forall] at hb
      obtain ⟨p, hb⟩ := hb
      rw [not_forall] at hb
      obtain ⟨j, hb⟩ := hb
      obtain ⟨s1, h1⟩ := Option.ne_none_iff_exists'.1 hb
      have h2 : Sys.start.run n jobs (es ++ [.act p j]) = some s1 := by rw [Sys.run_append, hs]; simp [Sys.run, h1]
      obtain ⟨es', s', h3, h4, h5⟩ := ih h2 (by rw [List.length_append, List.length_singleton]; omega)
      refine ⟨.act p j :: es', s', ?_, ?_, h5⟩
      · intro a b hab
        rcases List.mem_cons.1 hab with hab | hab
        · cases hab
        · exact h3 a b hab
      · unfold Sys.run
        rw [h1]
        exact h4

/-- All messages from `p` to `q` can be delivered. -/
theorem exists_flush_one {p q : Nat} (hp : p < n) (hq : q < n) (s : Sys O) :
    ∃ s', s.run n jobs (List.replicate (s.chan p q).length (.deliver p q)) = some s' ∧
      ∀ a b, (a, b) ≠ (p, q) → s'.chan a b = s.chan a b := by
  generalize hm : s.chan p q = l
  induction l generalizing s with
  | nil => exact ⟨s, rfl, fun _ _ _ => rfl⟩
  | cons m l ih =>
    obtain ⟨s1, h1, h2, h3⟩ : ∃ s1, s.step n jobs (.deliver p q) = some s1 ∧ s1.chan p q = l ∧
        ∀ a b, (a, b) ≠ (p, q) → s1.chan a b = s.chan a b := by
      refine ⟨{ s with
          chan := fun a b => if a = p ∧ b = q then l else s.chan a b
          inbox := Function.update s.inbox q (s.inbox q ++ [m]) }, by simp only [Sys.step, if_pos (And.intro hp hq), hm], by simp,
        fun a b hab => if_neg ?_⟩
      rintro ⟨rfl, rfl⟩
      exact hab rfl
    obtain ⟨s', h4, h5⟩ := ih s1 h2
    refine ⟨s', ?_, fun a b hab => (h5 a b hab).trans (h3 a b hab)⟩
    rw [List.length_cons, List.replicate_succ]
    unfold Sys.run
    rw [h1]
    exact h4

/-- All messages under way can be delivered. -/
theorem exists_flush (L : List (Nat × Nat)) (hL : L.Nodup) (hn : ∀ a ∈ L, a.1 < n ∧ a.2 < n) (s : Sys O) :
    ∃ es s', s.run n jobs es = some s' ∧ (∀ a ∈ L, es.count (.deliver a.1 a.2) = (s.chan a.1 a.2).length) ∧
      ∀ a b, (a, b) ∉ L → es.count (.deliver a b) = 0 ∧ s'.chan a b = s.chan a b := by
  induction L generalizing s with
  | nil => exact ⟨[], s, rfl, by simp, fun _ _ _ => ⟨rfl, rfl⟩⟩
  | cons x L ih =>
    obtain ⟨p, q⟩ := x
    rw [List.nodup_cons] at hL
    obtain ⟨hp, hq⟩ := hn _ List.mem_cons_self
    obtain ⟨s1, h1, h2⟩ := exists_flush_one (jobs := jobs) hp hq s
    obtain ⟨es, s', h3, h4, h5⟩ := ih hL.2 (fun a ha => hn a (List.mem_cons_of_mem _ ha)) s1
    refine ⟨List.replicate (s.chan p q).length (.deliver p q) ++ es, s', ?_, fun a ha => ?_, fun a b hab => ?_⟩
    · rw [Sys.run_append, h1]
      exact h3
    · rw [List.count_append, List.count_replicate]
      rcases List.mem_cons.1 ha with rfl | ha
      · rw [(h5 p q hL.1).1]
        simp
      · have hne : (a.1, a.2) ≠ (p, q) := fun h => hL.1 (h ▸ ha)
        rw [h4 a ha, h2 a.1 a.2 hne, if_neg, Nat.zero_add]
        intro h
        rw [beq_iff_eq] at h
        cases h
        exact hne rfl
    · rw [List.mem_cons, not_or] at hab
      rw [List.count_append, List.count_replicate, (h5 a b hab.2).1, (h5 a b hab.2).2, h2 a b hab.1]
      refine ⟨?_, rfl⟩
      rw [if_neg]
      intro h
      rw [beq_iff_eq] at h
      cases h
      exact hab.1 rfl

theorem exists_lockStep {B : Nat} (hB : ∀ (es : List SysStep) (s : Sys O), Sys.start.run n jobs es = some s → es.length ≤ B) (k : Nat) :
    ∃ s : Sys O, LockStep n jobs k s := by
  induction k with
  | zero =>
    obtain ⟨es, s, h1, h2, h3⟩ := exists_blocked hB (s := Sys.start) (es := []) rfl
    exact ⟨s, .start h2 h1 h3⟩
  | succ k ih =>
    obtain ⟨s, hs⟩ := ih
    obtain ⟨es0, h0⟩ := hs.after.reach
    obtain ⟨es1, s1, h1, h2, _⟩ := exists_flush (jobs := jobs) (n := n) ((List.range n).product (List.range n))
      (List.nodup_range.product List.nodup_range)
      (fun a ha => by
        have := List.pair_mem_product.1 (show (a.1, a.2) ∈ _ from ha)
        exact ⟨List.mem_range.1 this.1, List.mem_range.1 this.2⟩) s
    have h3 : Sys.start.run n jobs (es0 ++ es1) = some s1 := by
      rw [Sys.run_append, h0]
      exact h1
    obtain ⟨es2, s2, h4, h5, h6⟩ := exists_blocked hB h3
    refine ⟨s2, .round (es := es1 ++ es2) hs ?_ (fun p hp q hq => ?_) h6⟩
    · rw [Sys.run_append, h1]
      exact h5
    · rw [List.count_append, List.count_eq_zero.2 (h4 p q), Nat.add_zero,
        h2 (p, q) (List.pair_mem_product.2 ⟨List.mem_range.2 hp, List.mem_range.2 hq⟩)]

/-- The number of rounds is the highest level. -/
theorem takesRounds_of_levels {outs : List (List O)} [Inhabited O] (hseq : seqRun n jobs = some outs) (hids : IdsOk jobs) {lvl : Nat → Nat}
    (hlvl : Levels jobs lvl) (hlow : LowLevels jobs lvl) {k : Nat} (hk : ∀ j < jobs.length, lvl j ≤ k)
    (hmax : k = 0 ∨ 0 < n ∧ ∃ j < jobs.length, lvl j = k) : TakesRounds n jobs k := by
  obtain ⟨x, hplan, _⟩ := exists_plan hseq hids
  obtain ⟨⟨B, hB⟩, _⟩ := scheduleFree_of_seq hseq hids
  refine ⟨fun s hs => hs.finished hplan hlvl hk, exists_lockStep hB k, fun i s hi hs hf => ?_⟩
  rcases hmax with rfl | ⟨hn, j, hj, hjk⟩
  · omega
  · obtain ⟨es, hes⟩ := hs.after.reach
    have := (hs.early hplan hlow).done (hplan.inv hes) hplan (List.getElem?_eq_getElem hj) hn (hf j hj 0 hn)
    omega

end Verif
