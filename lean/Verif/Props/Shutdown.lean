import Verif.ShutdownLemmas

/-!
# Property C122: the end of the network's tasks (`src/protocol/network.rs`)
-/

open Verif

namespace Verif.Props

variable {n : Nat} {es : List DownStep} {s : Down}

/-- C122. In every execution, whatever the parties send and ask for and whenever they drop their handles: no task panics. -/
theorem C122_sound (h : Down.start.run n es = some s) : s.Sound n := by
  have hi := downInv_run (downInv_start n) h
  intro p hp
  refine ⟨?_, ?_, fun q hq hqp => ⟨?_, ?_⟩⟩
  · rcases hi.sr p hp with r | ⟨r, -⟩ <;> rw [r] <;> simp
  · rcases hi.rr p hp with r | ⟨r | r, -⟩ <;> rw [r] <;> simp
  · rcases hi.sn p hp q hq (Ne.symm hqp) with r | ⟨r, -⟩ <;> rw [r] <;> simp
  · rcases hi.rc p hp q hq (Ne.symm hqp) with r | ⟨r, -⟩ <;> rw [r] <;> simp

/-- C122. The second loop of the receive router never gets a request, so that it never panics because of an "illegal protocol ID" (and messages which nobody
has asked for are dropped). -/
theorem C122_cleanup (h : Down.start.run n es = some s) (p : Nat) (s' : Down) (hs : s.step n (.clean p) = some s') :
    s' = { s with recvRouter := Function.update s.recvRouter p .ended } := by
  have hi := downInv_run (downInv_start n) h
  by_cases hc : p < n ∧ s.recvRouter p = .cleanup
  · have := downInv_clean hi hc.1 hc.2
    simp only [Down.step] at hs
    rw [this] at hs
    exact (Option.some.inj hs).symm
  · simp only [Down.step, Down.cleanStep] at hs
    rw [if_neg hc] at hs
    cases hs

/-- C122. The receive router of a party does not end before all parties have dropped their handles. -/
theorem C122_waits (h : Down.start.run n es = some s) (p : Nat) (hp : p < n) (he : s.recvRouter p ≠ .loop) : ∀ q < n, s.held q = false := by
  have hi := downInv_run (downInv_start n) h
  intro q hq
  rcases hi.rr p hp with r | ⟨-, r1, -, -, -, r2⟩
  · exact absurd r he
  · by_cases hqp : q = p
    · rw [hqp]; exact r1
    · rcases hi.rc q hq p hp hqp with r | ⟨-, r, -⟩
      · rw [r2 q hq hqp] at r; cases r
      · rcases hi.sn q hq p hp hqp with r' | ⟨-, r', -⟩
        · rw [r] at r'; cases r'
        · rcases hi.sr q hq with r'' | ⟨-, r'', -⟩
          · rw [r'] at r''; cases r''
          · exact r''

/-- C122. From any state the tasks can take only finitely many steps by themselves. -/
theorem C122_terminates (n : Nat) (s : Down) : ∃ k, ∀ es s', (∀ e ∈ es, e.internal = true) → s.run n es = some s' → es.length ≤ k := by
  refine ⟨s.work n, fun es => ?_⟩
  induction es generalizing s with
  | nil => intro s' _ _; simp
  | cons e es ih =>
    intro s' hi hr
    rw [Down.run, Option.bind_eq_some_iff] at hr
    obtain ⟨t, h1, h2⟩ := hr
    have := work_lt (hi e (by simp)) h1
    have := ih t s' (fun x hx => hi x (by simp [hx])) h2
    simp only [List.length_cons]
    omega

/-- In a state in which no task can go on all queues are empty. -/
theorem quiet_empty (hi : DownInv n s) (hq : s.Quiet n) :
    (∀ p < n, s.netInp p = []) ∧ (∀ p < n, ∀ q < n, p ≠ q → s.partyInp p q = [] ∧ s.stream p q = []) ∧ ∀ p < n, s.partyOut p = [] ∧ s.netOut p = [] := by
  refine ⟨fun p hp => ?_, fun p hp q hq' hpq => ⟨?_, ?_⟩, fun p hp => ⟨?_, ?_⟩⟩
  · rcases hi.sr p hp with r | ⟨-, -, r⟩
    · have := hq (.route p) rfl
      simp only [Down.step, Down.routeStep, hp, r, and_self, if_true] at this
      cases hn : s.netInp p with
      | nil => rfl
      | cons m rest =>
        rw [hn] at this
        simp only at this
        split_ifs at this
    · exact r
  · rcases hi.sn p hp q hq' hpq with r | ⟨-, -, r⟩
    · have := hq (.write p q) rfl
      simp only [Down.step, Down.writeStep, hp, hq', r, ne_eq, hpq, not_false_eq_true, and_self, if_true] at this
      cases hn : s.partyInp p q with
      | nil => rfl
      | cons m rest =>
        rw [hn] at this
        simp only at this
        split_ifs at this
    · exact r
  · rcases hi.rc p hp q hq' hpq with r | ⟨-, -, r⟩
    · have := hq (.read p q) rfl
      simp only [Down.step, Down.readStep, hp, hq', r, ne_eq, hpq, not_false_eq_true, and_self, if_true] at this
      cases hn : s.stream p q with
      | nil => rfl
      | cons m rest =>
        rw [hn] at this
        simp only at this
        split_ifs at this
    · exact r
  · rcases hi.rr p hp with r | ⟨-, -, -, -, r, -⟩
    · have := hq (.arrive p) rfl
      simp only [Down.step, hp, r, and_self, if_true] at this
      cases hn : s.partyOut p with
      | nil => rfl
      | cons m rest =>
        rw [hn] at this
        simp only at this
        cases hs : (s.router p).step (.arrive m) <;> rw [hs] at this <;> cases this
    · exact r
  · rcases hi.rr p hp with r | ⟨-, -, r, -⟩
    · have := hq (.answer p) rfl
      simp only [Down.step, hp, r, and_self, if_true] at this
      cases hn : s.netOut p with
      | nil => rfl
      | cons x rest =>
        rw [hn] at this
        simp only at this
        cases hs : (s.router p).step (.request x.1 x.2) <;> rw [hs] at this <;> cases this
    · exact r

/-- C122. When no task can go on, everything which has been sent has arrived, in the order in which it was sent; dropping the handles loses nothing. -/
theorem C122_delivered (h : Down.start.run n es = some s) (hq : s.Quiet n) : ∀ p < n, ∀ q < n, s.arrivedFrom p q = s.sent p q := by
  have hi := downInv_run (downInv_start n) h
  obtain ⟨h1, h2, h3⟩ := quiet_empty hi hq
  intro p hp q hq'
  rw [hi.flow p hp q hq', h1 p hp, (h3 q hq').1]
  by_cases hpq : p = q
  · simp [hpq, fromParty, forParty, Down.arrivedFrom]
  · simp [hpq, (h2 p hp q hq' hpq).1, (h2 p hp q hq' hpq).2, fromParty, forParty, Down.arrivedFrom]

/-- C122. When no task can go on, all tasks of all parties have ended by themselves if and only if all parties have dropped their handles. -/
theorem C122_ends (hn : 0 < n) (h : Down.start.run n es = some s) (hq : s.Quiet n) : s.AllEnded n ↔ ∀ p < n, s.held p = false := by
  have hi := downInv_run (downInv_start n) h
  obtain ⟨h1, h2, h3⟩ := quiet_empty hi hq
  constructor
  · intro ha
    exact C122_waits h 0 hn (by rw [(ha 0 hn).2.1]; simp)
  · intro hheld
    have a1 : ∀ p < n, s.sendRouter p = .ended := fun p hp => by
      rcases hi.sr p hp with r | ⟨r, -⟩
      · have := hq (.route p) rfl
        simp [Down.step, Down.routeStep, hp, r, h1 p hp, hheld p hp] at this
      · exact r
    have a2 : ∀ p < n, ∀ q < n, p ≠ q → s.sender p q = .ended := fun p hp q hq' hpq => by
      rcases hi.sn p hp q hq' hpq with r | ⟨r, -⟩
      · have := hq (.write p q) rfl
        simp [Down.step, Down.writeStep, hp, hq', r, hpq, (h2 p hp q hq' hpq).1, a1 p hp] at this
      · exact r
    have a3 : ∀ p < n, ∀ q < n, p ≠ q → s.receiver p q = .ended := fun p hp q hq' hpq => by
      rcases hi.rc p hp q hq' hpq with r | ⟨r, -⟩
      · have := hq (.read p q) rfl
        simp [Down.step, Down.readStep, hp, hq', r, hpq, (h2 p hp q hq' hpq).2, a2 p hp q hq' hpq] at this
      · exact r
    intro p hp
    refine ⟨a1 p hp, ?_, fun q hq' hqp => ⟨a2 p hp q hq' (Ne.symm hqp), a3 p hp q hq' (Ne.symm hqp)⟩⟩
    rcases hi.rr p hp with r | ⟨r | r, -⟩
    · have := hq (.leave p) rfl
      simp only [Down.step] at this
      rw [if_pos ⟨hp, r, (h3 p hp).1, ⟨by rw [a1 p hp]; simp, fun q hq' hqp => by rw [a3 q hq' p hp hqp]; simp⟩, (h3 p hp).2, hheld p hp⟩] at this
      cases this
    · have := hq (.clean p) rfl
      simp only [Down.step] at this
      rw [downInv_clean hi hp r] at this
      cases this
    · exact r

/-- The tasks can always be run until none can go on. -/
theorem exists_quiet (n : Nat) (s : Down) : ∃ es s', (∀ e ∈ es, e.internal = true) ∧ s.run n es = some s' ∧ s'.Quiet n := by
  induction hw : s.work n using Nat.strong_induction_on generalizing s with
  | _ w ih =>
    by_cases hq : s.Quiet n
    · exact ⟨[], s, by simp, rfl, hq⟩
    · unfold Down.Quiet at hq
      push Not at hq
      obtain ⟨e, he, hs⟩ := hq
      obtain ⟨t, ht⟩ := Option.ne_none_iff_exists'.1 hs
      obtain ⟨es, s', h1, h2, h3⟩ := ih (t.work n) (by rw [← hw]; exact work_lt he ht) t rfl
      refine ⟨e :: es, s', ?_, by rw [Down.run, ht]; exact h2, h3⟩
      intro x hx
      rcases List.mem_cons.1 hx with rfl | hx
      · exact he
      · exact h1 x hx

theorem down_run_append (n : Nat) (s : Down) (a b : List DownStep) : s.run n (a ++ b) = (s.run n a).bind fun t => t.run n b := by
  induction a generalizing s with
  | nil => rfl
  | cons e a ih =>
    simp only [List.cons_append, Down.run]
    cases s.step n e with
    | none => rfl
    | some t => exact ih t

theorem held_of_internal {n : Nat} {s s' : Down} {es : List DownStep} (hi : ∀ e ∈ es, e.internal = true) (h : s.run n es = some s') :
    s'.held = s.held ∧ s'.sent = s.sent := by
  induction es generalizing s with
  | nil => cases h; exact ⟨rfl, rfl⟩
  | cons e es ih =>
    rw [Down.run, Option.bind_eq_some_iff] at h
    obtain ⟨t, h1, h2⟩ := h
    obtain ⟨i1, i2⟩ := ih (fun x hx => hi x (by simp [hx])) h2
    have : t.held = s.held ∧ t.sent = s.sent := by
      have hx := hi e (by simp)
      cases e <;> first | cases hx | skip
      all_goals simp only [Down.step, Down.routeStep, Down.writeStep, Down.readStep, Down.cleanStep] at h1
      all_goals (repeat' split at h1) <;> first | cases h1 | skip
      all_goals exact ⟨rfl, rfl⟩
    exact ⟨i1.trans this.1, i2.trans this.2⟩

/-- Two parties: party 0 sends a message which party 1 never asks for, and both drop their handles at once.  The tasks can run to their end, all of them
end, and the message has arrived before. -/
example : ∃ es s, Down.start.run 2 es = some s ∧ s.AllEnded 2 ∧ s.arrivedFrom 0 1 = [⟨[1], [7]⟩] := by
  have h0 : ∃ t, Down.start.run 2 [.send 0 ⟨[1], .one 1, [7]⟩, .drop 0, .drop 1] = some t ∧ (∀ p < 2, t.held p = false) ∧ t.sent 0 1 = [⟨[1], [7]⟩] := by
    refine ⟨_, by simp [Down.run, Down.step, Down.sendStep, Down.start, Router.init, Recipient.known]; rfl, ?_, ?_⟩
    · intro p hp
      rcases p with _ | _ | p
      · simp
      · simp
      · omega
    · simp [Recipient.includes]
  obtain ⟨t, h1, h2, h3⟩ := h0
  obtain ⟨es, s, g1, g2, g3⟩ := exists_quiet 2 t
  have hr : Down.start.run 2 ([.send 0 ⟨[1], .one 1, [7]⟩, .drop 0, .drop 1] ++ es) = some s := by
    rw [down_run_append, h1]
    exact g2
  obtain ⟨k1, k2⟩ := held_of_internal g1 g2
  refine ⟨_, s, hr, (C122_ends (by omega) hr g3).2 (by rw [k1]; exact h2), ?_⟩
  rw [C122_delivered hr g3 0 (by omega) 1 (by omega), k2, h3]

end Verif.Props
