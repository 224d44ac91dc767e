import Verif.AsyncLemmas
import Mathlib.Algebra.BigOperators.Group.Finset.Basic
import Mathlib.Algebra.Order.BigOperators.Group.Finset

/-!
# Planned executions make progress and end
-/

namespace Verif

variable {O : Type} {n : Nat} {jobs : List (Job O)} {x : Expected O} {s : Sys O}

/-- In a state without possible steps, a party which has got to its job is gathering, waiting, or finished. -/
theorem stuck_act (hst : s.Stuck n jobs) {j : Nat} {job : Job O} (hj : jobs[j]? = some job) {p : Nat} (hp : p < n)
    (hr : job.ready (s.env p) = true) :
    (∀ t, job.proto.act n p ((s.env p).only job.deps) (s.loc p j) ≠ .tau t) ∧
    (∀ dest data t, job.proto.act n p ((s.env p).only job.deps) (s.loc p j) = .send dest data t → dest.known n = false) ∧
    (∀ f, job.proto.act n p ((s.env p).only job.deps) (s.loc p j) = .recv f → takeFirst job.id (s.inbox p) = none) := by
  have h := hst (.act p j)
  unfold Sys.step at h
  simp only [] at h
  rw [if_pos hp, hj] at h
  unfold Sys.actStep at h
  simp only [] at h
  rw [if_pos hr] at h
  refine ⟨fun t ht => ?_, fun dest data t ht => ?_, fun f hf => ?_⟩
  · rw [ht] at h
    cases h
  · rw [ht] at h
    simp only [] at h
    split at h
    · cases h
    · next hk => simpa using hk
  · rw [hf] at h
    simp only [] at h
    split at h
    · assumption
    · cases h

theorem stuck_chan (hst : s.Stuck n jobs) {p q : Nat} (hp : p < n) (hq : q < n) : s.chan p q = [] := by
  have h := hst (.deliver p q)
  unfold Sys.step at h
  simp only [] at h
  rw [if_pos ⟨hp, hq⟩] at h
  split at h
  · assumption
  · cases h

/-- What a stuck party has received is everything that was sent to it. -/
theorem stuck_got (h : s.Inv n jobs x) (hst : s.Stuck n jobs) {j : Nat} {job : Job O} (hj : jobs[j]? = some job)
    {p : Nat} (hp : p < n) (htake : takeFirst job.id (s.inbox p) = none) {r : Nat} (hr : r < n) :
    dataFrom r (s.gotBy j p) = s.sent j r p := by
  have h1 := h.base.cons j r p
  rw [fromTag_gotBy h.tags, stuck_chan hst hr hp] at h1
  have h2 : fromTag j r (s.inbox p) = [] := by
    unfold fromTag
    rw [List.map_eq_nil_iff, List.filter_eq_nil_iff]
    intro m hm hc
    simp only [Bool.and_eq_true, decide_eq_true_eq] at hc
    obtain ⟨_, jm, hjm, hid⟩ := h.base.inbox p m hm
    rw [hc.1, hj] at hjm
    cases hjm
    exact takeFirst_none htake m hm hid
  rw [h2] at h1
  simpa [fromTag] using h1.symm

/-- If no step is possible then everything is finished. -/
theorem Sys.Inv.stuck_finished (h : s.Inv n jobs x) (hplan : Plan n jobs x) (hst : s.Stuck n jobs) :
    ∀ j < jobs.length, ∀ p < n, s.Finished p j := by
  intro j
  induction j using Nat.strong_induction_on with
  | _ j ih =>
  intro hjl
  have hj : jobs[j]? = some jobs[j] := List.getElem?_eq_getElem hjl
  generalize jobs[j] = job at hj
  have hready : ∀ p < n, job.ready (s.env p) = true := by
    intro p hp
    unfold Job.ready
    rw [List.all_eq_true]
    intro d hd
    have hdj := hplan.deps j job hj d hd
    obtain ⟨o, ho⟩ := ih d hdj (by omega) p hp
    unfold Sys.env
    rw [ho]
    rfl
  have hcases : ∀ p < n, (∃ g, s.loc p j = .gather g ∧ g.counter ≠ n ∧ takeFirst job.id (s.inbox p) = none) ∨
      (s.loc p j = .wait ∧ takeFirst job.id (s.inbox p) = none) ∨ s.Finished p j := by
    intro p hp
    obtain ⟨h1, h2, h3⟩ := stuck_act hst hj hp (hready p hp)
    have hsend := fun dest data t => h.send hplan hj hp (hready p hp) (dest := dest) (data := data) (t := t)
    have hl := h.loc j job hj p hp
    cases ht : s.loc p j with
    | idle =>
      rw [ht] at h1
      exact absurd rfl (h1 _)
    | sending rest =>
      rw [ht] at h1 h2 hsend
      cases rest with
      | nil => exact absurd rfl (h1 _)
      | cons a rest =>
        have e1 := h2 _ _ _ rfl
        rw [(hsend _ _ _ rfl).1] at e1
        cases e1
    | gather g =>
      rw [ht] at h1 h3
      unfold Proto.act at h1 h3
      simp only [] at h1 h3
      split at h1
      · split at h1
        · exact absurd rfl (h1 _)
        · exact absurd rfl (h1 _)
      · next hc =>
        rw [if_neg hc] at h3
        exact Or.inl ⟨g, rfl, hc, h3 _ rfl⟩
    | reply rest =>
      rw [ht] at h1 h2 hsend
      cases rest with
      | nil => exact absurd rfl (h1 _)
      | cons a rest =>
        have e1 := h2 _ _ _ rfl
        rw [(hsend _ _ _ rfl).1] at e1
        cases e1
    | wait =>
      rw [ht] at h3
      exact Or.inr (Or.inl ⟨rfl, h3 _ rfl⟩)
    | done o => exact Or.inr (Or.inr ⟨o, ht⟩)
    | fail =>
      rw [ht] at hl
      exact hl.elim
  have hfirst : ∀ r < n, ∀ q < n, x.first j job r q <+: s.sent j r q := by
    intro r hr q hq
    have hl := h.loc j job hj r hr
    rcases hcases r hr with ⟨g, hg, _⟩ | ⟨hw, _⟩ | ⟨o, ho⟩
    · rw [hg] at hl
      rw [hl.2.2.1 q hq]
    · rw [hw] at hl
      rw [hl.2.2.1 q hq]
      exact List.prefix_append _ _
    · rw [ho] at hl
      rw [hl.2.2.1 q hq]
      exact List.prefix_append _ _
  have hnog : ∀ p < n, ∀ g, s.loc p j = .gather g → g.counter ≠ n → takeFirst job.id (s.inbox p) = none → False := by
    intro p hp g hg hc htake
    have hl := h.loc j job hj p hp
    rw [hg] at hl
    obtain ⟨_, hgg, _, hinv⟩ := hl
    apply hc
    rw [Gather.count_eq hinv]
    intro r hr
    rw [hasMsg_dataFrom, stuck_got h hst hj hp htake hr]
    intro h0
    have := hfirst r hr p hp
    rw [h0, List.prefix_nil] at this
    unfold Expected.first at this
    rw [if_pos hgg] at this
    cases this
  intro p hp
  rcases hcases p hp with ⟨g, hg, hc, htake⟩ | ⟨hw, htake⟩ | hf
  · exact (hnog p hp g hg hc htake).elim
  · exfalso
    have hl := h.loc j job hj p hp
    rw [hw] at hl
    obtain ⟨_, hlead, _, hgot⟩ := hl
    obtain ⟨L, hL⟩ := Option.ne_none_iff_exists'.1 hlead
    have hLn := hplan.leader j job hj L hL
    have hfull : s.sent j L p = x.full j job L p := by
      have hlL := h.loc j job hj L hLn
      rcases hcases L hLn with ⟨g, hg, hc, htake⟩ | ⟨hw, _⟩ | ⟨o, ho⟩
      · exact (hnog L hLn g hg hc htake).elim
      · rw [hw] at hlL
        exact hlL.2.2.1 p hp
      · rw [ho] at hlL
        exact hlL.2.2.1 p hp
    have h1 := stuck_got h hst hj hp htake hLn
    rw [hgot L hLn, hfull] at h1
    unfold Expected.full at h1
    rw [if_pos hL] at h1
    have := congrArg List.length h1
    simp at this
  · exact hf

/-! ### A bound on the number of steps -/

/-- An upper bound on the remaining steps of a task, with `2 * n + 1` for a message. -/
def TState.rank (n sends : Nat) : TState O → Nat
  | .idle => 4 + n * (2 * n + 1) + sends * (2 * n + 1)
  | .sending rest => 3 + n * (2 * n + 1) + rest.length * (2 * n + 1)
  | .gather _ => 2 + n * (2 * n + 1)
  | .reply rest => 1 + rest.length * (2 * n + 1)
  | _ => 0

/-- An upper bound on the remaining steps. -/
def Sys.measure (n J : Nat) (x : Expected O) (s : Sys O) : Nat :=
  (∑ a ∈ Finset.range n ×ˢ Finset.range J, (s.loc a.1 a.2).rank n (x.snd a.2 a.1).length)
    + 2 * (∑ a ∈ Finset.range n ×ˢ Finset.range n, (s.chan a.1 a.2).length)
    + ∑ q ∈ Finset.range n, (s.inbox q).length

theorem sum_change {ι : Type} [DecidableEq ι] (S : Finset ι) (f g : ι → Nat) {a : ι} (ha : a ∈ S)
    (hfg : ∀ b ∈ S, b ≠ a → g b = f b) : (∑ b ∈ S, g b) + f a = (∑ b ∈ S, f b) + g a := by
  rw [← Finset.add_sum_erase S f ha, ← Finset.add_sum_erase S g ha]
  have : ∑ b ∈ S.erase a, g b = ∑ b ∈ S.erase a, f b :=
    Finset.sum_congr rfl fun b hb => hfg b (Finset.mem_of_mem_erase hb) (Finset.ne_of_mem_erase hb)
  rw [this]
  omega

theorem sum_setLoc {J p j : Nat} (hp : p < n) (hj : j < J) (t : TState O) :
    (∑ a ∈ Finset.range n ×ˢ Finset.range J, (setLoc s.loc p j t a.1 a.2).rank n (x.snd a.2 a.1).length)
      + (s.loc p j).rank n (x.snd j p).length
    = (∑ a ∈ Finset.range n ×ˢ Finset.range J, (s.loc a.1 a.2).rank n (x.snd a.2 a.1).length)
      + t.rank n (x.snd j p).length := by
  have h := sum_change (Finset.range n ×ˢ Finset.range J) (fun a => (s.loc a.1 a.2).rank n (x.snd a.2 a.1).length)
    (fun a => (setLoc s.loc p j t a.1 a.2).rank n (x.snd a.2 a.1).length) (a := (p, j))
    (by simp [hp, hj]) (fun b _ hb => by
      simp only [setLoc]
      rw [if_neg]
      rintro ⟨h1, h2⟩
      exact hb (Prod.ext h1 h2))
  simpa [setLoc] using h

theorem sum_send (p : Nat) (chan : Nat → Nat → List TMsg) (c : Nat → Bool) (m : TMsg) :
    (∑ a ∈ Finset.range n ×ˢ Finset.range n, (if a.1 = p ∧ c a.2 then chan a.1 a.2 ++ [m] else chan a.1 a.2).length)
      ≤ (∑ a ∈ Finset.range n ×ˢ Finset.range n, (chan a.1 a.2).length) + n := by
  have h : ∀ a ∈ Finset.range n ×ˢ Finset.range n,
      (if a.1 = p ∧ c a.2 then chan a.1 a.2 ++ [m] else chan a.1 a.2).length
        ≤ (chan a.1 a.2).length + if a.1 = p then 1 else 0 := by
    intro a _
    by_cases h1 : a.1 = p
    · by_cases h2 : c a.2 = true
      · simp [h1, h2]
      · simp [h1, h2]
    · simp [h1]
  refine (Finset.sum_le_sum h).trans ?_
  rw [Finset.sum_add_distrib]
  refine Nat.add_le_add_left ?_ _
  rw [Finset.sum_product]
  have h2 : ∀ a ∈ Finset.range n, (∑ _b ∈ Finset.range n, if a = p then 1 else 0) = if a = p then n else 0 := by
    intro a _
    split <;> simp
  simp only []
  rw [Finset.sum_congr rfl h2, Finset.sum_ite_eq' (Finset.range n) p (fun _ => n)]
  split <;> omega

theorem Sys.measure_step (h : s.Inv n jobs x) (hplan : Plan n jobs x) {e : SysStep} {s' : Sys O}
    (hstep : s.step n jobs e = some s') : s'.measure n jobs.length x < s.measure n jobs.length x := by
  have h' := Sys.inv_step h hplan hstep
  cases e with
  | deliver p q =>
    unfold Sys.step at hstep
    simp only [] at hstep
    split at hstep
    · next hpq =>
      split at hstep
      · cases hstep
      · next m rest hch =>
        cases hstep
        unfold Sys.measure
        simp only []
        have h1 := sum_change (Finset.range n ×ˢ Finset.range n) (fun a => (s.chan a.1 a.2).length)
          (fun a => (if a.1 = p ∧ a.2 = q then rest else s.chan a.1 a.2).length) (a := (p, q))
          (by simp [hpq]) (fun b _ hb => by
            rw [if_neg]
            rintro ⟨h1, h2⟩
            exact hb (Prod.ext h1 h2))
        have h2 := sum_change (Finset.range n) (fun a => (s.inbox a).length)
          (fun a => (Function.update s.inbox q (s.inbox q ++ [m]) a).length) (a := q)
          (by simp [hpq.2]) (fun b _ hb => by rw [Function.update_of_ne hb])
        simp only [hch, and_self, if_true, Function.update_self, List.length_append, List.length_cons,
          List.length_nil] at h1 h2
        omega
    · cases hstep
  | act p j =>
    unfold Sys.step at hstep
    simp only [] at hstep
    split at hstep
    · next hp =>
      split at hstep
      · cases hstep
      · next job hj =>
        have hjl : j < jobs.length := (List.getElem?_eq_some_iff.1 hj).1
        unfold Sys.actStep at hstep
        split at hstep
        · next hr =>
          split at hstep
          · next dest data t ht =>
            split at hstep
            · cases hstep
              have h1 := sum_setLoc (s := s) (x := x) hp hjl t
              have h2 := sum_send (n := n) p s.chan (fun b => dest.includes b) ⟨j, ⟨job.id, p, data⟩⟩
              have h3 : t.rank n (x.snd j p).length + (2 * n + 1) = (s.loc p j).rank n (x.snd j p).length := by
                cases hs : s.loc p j with
                | sending rest =>
                  rw [hs] at ht
                  cases rest with
                  | nil => cases ht
                  | cons a rest =>
                    cases ht
                    simp only [TState.rank, List.length_cons]
                    ring
                | reply rest =>
                  rw [hs] at ht
                  cases rest with
                  | nil => cases ht
                  | cons a rest =>
                    cases ht
                    simp only [TState.rank, List.length_cons]
                    ring
                | gather g =>
                  rw [hs] at ht
                  unfold Proto.act at ht
                  simp only [] at ht
                  split at ht
                  · split at ht <;> cases ht
                  · cases ht
                | idle => rw [hs] at ht; cases ht
                | wait => rw [hs] at ht; cases ht
                | done o => rw [hs] at ht; cases ht
                | fail => rw [hs] at ht; cases ht
              unfold Sys.measure
              simp only []
              omega
            · cases hstep
          · next f ht =>
            split at hstep
            · cases hstep
            · next m rest htake =>
              cases hstep
              have h1 := sum_setLoc (s := s) (x := x) hp hjl (f m.msg)
              obtain ⟨a, b, e1, e2, _⟩ := takeFirst_some htake
              have h2 := sum_change (Finset.range n) (fun a => (s.inbox a).length)
                (fun a => (Function.update s.inbox p rest a).length) (a := p)
                (by simp [hp]) (fun b _ hb => by rw [Function.update_of_ne hb])
              simp only [Function.update_self] at h2
              have h4 : (s.inbox p).length = rest.length + 1 := by
                rw [e1, e2]
                simp
                omega
              have h3 : (f m.msg).rank n (x.snd j p).length ≤ (s.loc p j).rank n (x.snd j p).length := by
                have horF : ∀ {α : Type} (a : Option α) (k : α → TState O) (b : Nat),
                    (∀ y, (k y).rank n (x.snd j p).length ≤ b) → (orFail a k).rank n (x.snd j p).length ≤ b := by
                  intro α a k b hk
                  cases a with
                  | none => exact Nat.zero_le _
                  | some y => exact hk y
                cases hs : s.loc p j with
                | sending rest =>
                  rw [hs] at ht
                  cases rest <;> cases ht
                | reply rest =>
                  rw [hs] at ht
                  cases rest <;> cases ht
                | gather g =>
                  rw [hs] at ht
                  unfold Proto.act at ht
                  simp only [] at ht
                  split at ht
                  · split at ht <;> cases ht
                  · cases ht
                    exact horF _ _ _ fun y => Nat.le_refl _
                | idle => rw [hs] at ht; cases ht
                | wait =>
                  rw [hs] at ht
                  cases ht
                  exact horF _ _ _ fun y => Nat.le_refl _
                | done o => rw [hs] at ht; cases ht
                | fail => rw [hs] at ht; cases ht
              unfold Sys.measure
              simp only []
              omega
          · next t ht =>
            cases hstep
            have h1 := sum_setLoc (s := s) (x := x) hp hjl t
            have hD := h.ready_deps hplan hj hp hr
            have hl := h.loc j job hj p hp
            have h3 : t.rank n (x.snd j p).length < (s.loc p j).rank n (x.snd j p).length := by
              cases hs : s.loc p j with
              | idle =>
                rw [hs] at ht
                unfold Proto.act at ht
                rw [hD.has, hplan.sends j job hj p hp] at ht
                cases ht
                simp only [orFail, TState.rank]
                omega
              | sending rest =>
                rw [hs] at ht
                cases rest with
                | cons _ _ => cases ht
                | nil =>
                  cases ht
                  split
                  · simp only [TState.rank]
                    omega
                  · simp only [TState.rank]
                    omega
              | gather g =>
                rw [hs] at ht
                unfold Proto.act at ht
                simp only [] at ht
                split at ht
                · next hc =>
                  obtain ⟨_, h2⟩ := gather_full h hplan hj hp hs hc
                  rw [hs] at hl
                  obtain ⟨_, hg, hsent, hinv⟩ := hl
                  split at ht
                  · next hlead =>
                    rw [h2, hD.has, hplan.finishAll j job hj hlead p hp] at ht
                    cases ht
                    simp only [orFail, TState.rank]
                    omega
                  · next L hlead =>
                    have hLp : L = p := by
                      unfold Proto.gathers at hg
                      rw [hlead] at hg
                      exact (by simpa using hg : p = L).symm
                    subst hLp
                    rw [h2, hD.has, hplan.answer j job hj L hlead] at ht
                    cases ht
                    simp only [orFail, TState.rank, List.length_map, List.length_zipIdx, List.length_range]
                    omega
                · cases ht
              | reply rest =>
                rw [hs] at ht
                cases rest with
                | cons _ _ => cases ht
                | nil =>
                  cases ht
                  simp only [TState.rank]
                  omega
              | wait => rw [hs] at ht; cases ht
              | done o => rw [hs] at ht; cases ht
              | fail => rw [hs] at ht; cases ht
            unfold Sys.measure
            simp only []
            omega
          · cases hstep
        · cases hstep
    · cases hstep

theorem Sys.measure_run (hplan : Plan n jobs x) {es : List SysStep} {s' : Sys O} (h : s.Inv n jobs x)
    (hrun : s.run n jobs es = some s') : es.length + s'.measure n jobs.length x ≤ s.measure n jobs.length x := by
  induction es generalizing s with
  | nil =>
    simp only [Sys.run, Option.some.injEq] at hrun
    subst hrun
    simp
  | cons e es ih =>
    unfold Sys.run at hrun
    obtain ⟨s1, h1, h2⟩ := Option.bind_eq_some_iff.1 hrun
    have h3 := ih (Sys.inv_step h hplan h1) h2
    have h4 := Sys.measure_step h hplan h1
    simp only [List.length_cons]
    omega

theorem Sys.measure_start :
    (Sys.start : Sys O).measure n jobs.length x
      = ∑ p ∈ Finset.range n, ∑ j ∈ Finset.range jobs.length, (4 + (n + (x.snd j p).length) * (2 * n + 1)) := by
  unfold Sys.measure Sys.start
  rw [Finset.sum_product]
  simp only [List.length_nil, Finset.sum_const_zero, Nat.mul_zero, Nat.add_zero, TState.rank]
  refine Finset.sum_congr rfl fun p _ => Finset.sum_congr rfl fun j _ => ?_
  ring

end Verif
