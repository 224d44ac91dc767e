import Verif.LocalShutdownLemmas

/-!
# Property C126: the tasks of the local network (`src/protocol/network.rs:122-173`), their end, and messages to parties which do not exist
-/

open Verif

namespace Verif.Props

variable {n : Nat} {es : List LocalStep} {s : LocalDown}

theorem notBad_run (h : LocalDown.start.run n es = some s) (hk : ¬ SendsUnknown n es) : ¬ s.Bad n := by
  rw [bad_run (localInv_start n) h]
  rintro (r | r)
  · simp [LocalDown.Bad, LocalDown.start] at r
  · exact hk r

/-- C126. In every execution in which all messages are for parties which exist, whatever the parties send and ask for and whenever they drop their handles:
no task panics. -/
theorem C126_sound (h : LocalDown.start.run n es = some s) (hk : ¬ SendsUnknown n es) : s.Sound n := by
  have hi := localInv_run (localInv_start n) h
  have hb : s.central ≠ .panicked := fun r => notBad_run h hk (.inl r)
  refine ⟨hb, fun p hp => ⟨?_, ?_⟩⟩
  · rcases hi.fw p hp with r | ⟨r, -⟩ | ⟨-, r⟩
    · rw [r]; simp
    · rw [r]; simp
    · exact absurd r hb
  · rcases hi.rr p hp with r | ⟨r | r, -⟩ <;> rw [r] <;> simp

/-- C126. Then the receive router of a party does not end before all parties have dropped their handles. -/
theorem C126_waits (h : LocalDown.start.run n es = some s) (hk : ¬ SendsUnknown n es) (p : Nat) (hp : p < n) (he : s.recvRouter p ≠ .loop) :
    ∀ q < n, s.held q = false := by
  have hi := localInv_run (localInv_start n) h
  have hb : s.central ≠ .panicked := fun r => notBad_run h hk (.inl r)
  intro q hq
  rcases hi.rr p hp with r | ⟨-, -, -, -, r⟩
  · exact absurd r he
  · rcases hi.ce with c | ⟨-, -, c⟩ | c
    · exact absurd c r
    · rcases hi.fw q hq with f | ⟨-, f, -⟩ | ⟨-, f⟩
      · rw [c q hq] at f; cases f
      · exact f
      · exact absurd f hb
    · exact absurd c hb

/-- C126. From any state the tasks can take only finitely many steps by themselves. -/
theorem C126_terminates (n : Nat) (s : LocalDown) : ∃ k, ∀ es s', (∀ e ∈ es, e.internal = true) → s.run n es = some s' → es.length ≤ k := by
  refine ⟨s.work n, fun es => ?_⟩
  induction es generalizing s with
  | nil => intro s' _ _; simp
  | cons e es ih =>
    intro s' hi hr
    rw [LocalDown.run, Option.bind_eq_some_iff] at hr
    obtain ⟨t, h1, h2⟩ := hr
    have := localWork_lt (hi e (by simp)) h1
    have := ih t s' (fun x hx => hi x (by simp [hx])) h2
    simp only [List.length_cons]
    omega

/-- In a state in which no task can go on, and the routing task has not panicked, all queues are empty. -/
theorem localQuiet_empty (hi : LocalInv n s) (hq : s.Quiet n) (hb : s.central ≠ .panicked) :
    (∀ p < n, s.netInp p = []) ∧ s.queue = [] ∧ ∀ p < n, s.partyOut p = [] ∧ s.netOut p = [] := by
  have hqu : s.queue = [] := by
    rcases hi.ce with r | ⟨-, r, -⟩ | r
    · have := hq .route rfl
      simp only [LocalDown.step, LocalDown.routeStep, r, if_true] at this
      cases hn : s.queue with
      | nil => rfl
      | cons x rest =>
        obtain ⟨a, m⟩ := x
        rw [hn] at this
        simp only at this
        split_ifs at this
    · exact r
    · exact absurd r hb
  refine ⟨fun p hp => ?_, hqu, fun p hp => ⟨?_, ?_⟩⟩
  · rcases hi.fw p hp with r | ⟨-, -, r⟩ | ⟨-, r⟩
    · have := hq (.pass p) rfl
      simp only [LocalDown.step, LocalDown.passStep, hp, r, and_self, if_true] at this
      cases hn : s.netInp p with
      | nil => rfl
      | cons m rest =>
        rw [hn] at this
        simp only at this
        split_ifs at this
    · exact r
    · exact absurd r hb
  · rcases hi.rr p hp with r | ⟨-, -, -, r, -⟩
    · have := hq (.arrive p) rfl
      simp only [LocalDown.step, hp, r, and_self, if_true] at this
      cases hn : s.partyOut p with
      | nil => rfl
      | cons m rest =>
        rw [hn] at this
        simp only at this
        cases hs : (s.router p).step (.arrive m) <;> rw [hs] at this <;> cases this
    · exact r
  · rcases hi.rr p hp with r | ⟨-, -, r, -⟩
    · have := hq (.answer p) rfl
      simp only [LocalDown.step, hp, r, and_self, if_true] at this
      cases hn : s.netOut p with
      | nil => rfl
      | cons x rest =>
        rw [hn] at this
        simp only at this
        cases hs : (s.router p).step (.request x.1 x.2) <;> rw [hs] at this <;> cases this
    · exact r

/-- C126. When no task can go on, everything which has been sent has arrived, in the order in which it was sent, if all messages were for parties which
exist. -/
theorem C126_delivered_partial (h : LocalDown.start.run n es = some s) (hq : s.Quiet n) (hk : ¬ SendsUnknown n es) :
    ∀ p < n, ∀ q < n, s.arrivedFrom p q = s.sent p q := by
  have hi := localInv_run (localInv_start n) h
  have hb : s.central ≠ .panicked := fun r => notBad_run h hk (.inl r)
  obtain ⟨h1, h2, h3⟩ := localQuiet_empty hi hq hb
  intro p hp q hq'
  rw [hi.flow hb p hp q hq', h1 p hp, (h3 q hq').1, h2]
  simp [fromParty, forParty, between, LocalDown.arrivedFrom]

/-- C126. Then, when no task can go on, all tasks have ended by themselves if and only if all parties have dropped their handles. -/
theorem C126_ends (hn : 0 < n) (h : LocalDown.start.run n es = some s) (hq : s.Quiet n) (hk : ¬ SendsUnknown n es) :
    s.AllEnded n ↔ ∀ p < n, s.held p = false := by
  have hi := localInv_run (localInv_start n) h
  have hb : s.central ≠ .panicked := fun r => notBad_run h hk (.inl r)
  obtain ⟨h1, h2, h3⟩ := localQuiet_empty hi hq hb
  constructor
  · intro ha
    exact C126_waits h hk 0 hn (by rw [(ha.2 0 hn).2]; simp)
  · intro hheld
    have a1 : ∀ p < n, s.forward p = .ended := fun p hp => by
      rcases hi.fw p hp with r | ⟨r, -⟩ | ⟨-, r⟩
      · have := hq (.pass p) rfl
        simp [LocalDown.step, LocalDown.passStep, hp, r, h1 p hp, hheld p hp] at this
      · exact r
      · exact absurd r hb
    have a2 : s.central = .ended := by
      rcases hi.ce with r | ⟨r, -⟩ | r
      · have := hq .route rfl
        simp only [LocalDown.step, LocalDown.routeStep, r, if_true, h2] at this
        rw [if_pos (fun p hp => by rw [a1 p hp]; simp)] at this
        cases this
      · exact r
      · exact absurd r hb
    refine ⟨a2, fun p hp => ⟨a1 p hp, ?_⟩⟩
    rcases hi.rr p hp with r | ⟨r | r, -⟩
    · have := hq (.leave p) rfl
      simp only [LocalDown.step] at this
      rw [if_pos ⟨hp, r, (h3 p hp).1, by rw [a2]; simp, (h3 p hp).2, hheld p hp⟩] at this
      cases this
    · have := hq (.clean p) rfl
      simp only [LocalDown.step] at this
      rw [localInv_clean hi hp r] at this
      cases this
    · exact r

/-- C126. In every execution: when no task can go on, the routing task of all parties has panicked if and only if some party has sent a message to a party
which does not exist. -/
theorem C126_unknown (h : LocalDown.start.run n es = some s) (hq : s.Quiet n) : s.central = .panicked ↔ SendsUnknown n es := by
  have hi := localInv_run (localInv_start n) h
  have hbad := bad_run (localInv_start n) h
  constructor
  · intro r
    rcases hbad.1 (.inl r) with b | b
    · simp [LocalDown.Bad, LocalDown.start] at b
    · exact b
  · intro hk
    by_contra hb
    obtain ⟨h1, h2, -⟩ := localQuiet_empty hi hq hb
    rcases hbad.2 (.inr hk) with b | ⟨x, hx, -⟩ | ⟨p, hp, m, hm, -⟩
    · exact hb b
    · rw [h2] at hx; cases hx
    · rw [h1 p hp] at hm; cases hm

/-- C126. Once the routing task has panicked no message of any party reaches any party, whatever happens: what the receive router of `q` has taken and
what is waiting for it stays the same. -/
theorem C126_stopped {s' : LocalDown} {more : List LocalStep} (hc : s.central = .panicked) (h : s.run n more = some s') (q : Nat) :
    s'.central = .panicked ∧ s'.arrived q ++ s'.partyOut q = s.arrived q ++ s.partyOut q := by
  induction more generalizing s with
  | nil => cases h; exact ⟨hc, rfl⟩
  | cons e es ih =>
    rw [LocalDown.run, Option.bind_eq_some_iff] at h
    obtain ⟨t, h1, h2⟩ := h
    suffices ht : t.central = .panicked ∧ t.arrived q ++ t.partyOut q = s.arrived q ++ s.partyOut q by
      have := ih ht.1 h2
      exact ⟨this.1, this.2.trans ht.2⟩
    cases e with
    | route =>
      simp only [LocalDown.step, LocalDown.routeStep] at h1
      rw [if_neg (by rw [hc]; simp)] at h1
      cases h1
    | arrive p =>
      simp only [LocalDown.step] at h1
      by_cases c : p < n ∧ s.recvRouter p = .loop
      swap
      · rw [if_neg c] at h1; cases h1
      rw [if_pos c] at h1
      cases hq : s.partyOut p with
      | nil => rw [hq] at h1; cases h1
      | cons m rest =>
        rw [hq] at h1
        cases hs : (s.router p).step (.arrive m) with
        | none =>
          simp only [hs] at h1
          cases h1
          exact ⟨hc, rfl⟩
        | some r =>
          simp only [hs] at h1
          cases h1
          refine ⟨hc, ?_⟩
          simp only [Function.update_apply]
          split_ifs with hqp
          · subst hqp; simp [hq]
          · rfl
    | _ =>
      simp only [LocalDown.step, LocalDown.sendStep, LocalDown.passStep, LocalDown.cleanStep] at h1
      (repeat' split at h1) <;> cases h1
      all_goals exact ⟨hc, rfl⟩

/-- C126. A party which waits for a message when the routing task has panicked, and for which nothing is waiting, waits forever: it never gets to
dropping its handles, whatever the other parties do. -/
theorem C126_hang {s' : LocalDown} {more : List LocalStep} {q : Nat} {id : ProtocolID} (hc : s.central = .panicked) (ho : s.partyOut q = [])
    (hh : s.held q = true) (hw : (s.router q).mssgPool id = none ∧ (s.router q).handlePool id ≠ none) (h : s.run n more = some s') :
    s'.held q = true ∧ (s'.router q).handlePool id ≠ none := by
  suffices hx : s'.held q = true ∧ (s'.router q).mssgPool id = none ∧ (s'.router q).handlePool id ≠ none from ⟨hx.1, hx.2.2⟩
  induction more generalizing s with
  | nil => cases h; exact ⟨hh, hw⟩
  | cons e es ih =>
    rw [LocalDown.run, Option.bind_eq_some_iff] at h
    obtain ⟨t, h1, h2⟩ := h
    have hreq : ∀ id' k r, (s.router q).step (.request id' k) = some r → r.mssgPool id = none ∧ r.handlePool id ≠ none := by
      intro id' k r hr
      simp only [Router.step] at hr
      cases hm : (s.router q).mssgPool id' with
      | none =>
        simp only [hm] at hr
        cases hr
        refine ⟨hw.1, ?_⟩
        simp only [Function.update_apply]
        split_ifs
        · simp
        · exact hw.2
      | some buf =>
        have hne : id ≠ id' := by rintro rfl; rw [hw.1] at hm; cases hm
        cases buf with
        | nil => simp only [hm] at hr; cases hr
        | cons m buf =>
          simp only [hm] at hr
          split_ifs at hr <;> cases hr
          all_goals exact ⟨by simp only [Function.update_of_ne hne]; exact hw.1, hw.2⟩
    suffices ht : t.central = .panicked ∧ t.partyOut q = [] ∧ t.held q = true ∧ (t.router q).mssgPool id = none ∧ (t.router q).handlePool id ≠ none from
      ih ht.1 ht.2.1 ht.2.2.1 ht.2.2.2 h2
    have hupd : ∀ p r, (p = q → r.mssgPool id = none ∧ r.handlePool id ≠ none) →
        ((Function.update s.router p r) q).mssgPool id = none ∧ ((Function.update s.router p r) q).handlePool id ≠ none := by
      intro p r hr
      by_cases hp : p = q
      · subst hp; simpa using hr rfl
      · rw [Function.update_of_ne (Ne.symm hp)]; exact hw
    cases e with
    | route =>
      simp only [LocalDown.step, LocalDown.routeStep] at h1
      rw [if_neg (by rw [hc]; simp)] at h1
      cases h1
    | drop p =>
      simp only [LocalDown.step] at h1
      split_ifs at h1 with c
      cases h1
      refine ⟨hc, ho, ?_, hw⟩
      have hne : q ≠ p := by rintro rfl; exact hw.2 (c.2.2.2 id)
      simp only [Function.update_of_ne hne]
      exact hh
    | arrive p =>
      simp only [LocalDown.step] at h1
      by_cases c : p < n ∧ s.recvRouter p = .loop
      swap
      · rw [if_neg c] at h1; cases h1
      rw [if_pos c] at h1
      cases hq : s.partyOut p with
      | nil => rw [hq] at h1; cases h1
      | cons m rest =>
        have hne : q ≠ p := by rintro rfl; rw [ho] at hq; cases hq
        rw [hq] at h1
        cases hs : (s.router p).step (.arrive m) with
        | none =>
          simp only [hs] at h1
          cases h1
          exact ⟨hc, ho, hh, hw⟩
        | some r =>
          simp only [hs] at h1
          cases h1
          exact ⟨hc, by simpa only [Function.update_of_ne hne] using ho, hh, hupd p r fun e => absurd e.symm hne⟩
    | answer p =>
      simp only [LocalDown.step] at h1
      by_cases c : p < n ∧ s.recvRouter p = .loop
      swap
      · rw [if_neg c] at h1; cases h1
      rw [if_pos c] at h1
      cases hq : s.netOut p with
      | nil => rw [hq] at h1; cases h1
      | cons x rest =>
        rw [hq] at h1
        cases hs : (s.router p).step (.request x.1 x.2) with
        | none =>
          simp only [hs] at h1
          cases h1
          exact ⟨hc, ho, hh, hw⟩
        | some r =>
          simp only [hs] at h1
          cases h1
          exact ⟨hc, ho, hh, hupd p r fun e => hreq _ _ _ (e ▸ hs)⟩
    | clean p =>
      simp only [LocalDown.step, LocalDown.cleanStep] at h1
      by_cases c : p < n ∧ s.recvRouter p = .cleanup
      swap
      · rw [if_neg c] at h1; cases h1
      rw [if_pos c] at h1
      by_cases hpool : ∀ id, (s.router p).mssgPool id = none
      · rw [if_pos hpool] at h1
        cases h1
        exact ⟨hc, ho, hh, hw⟩
      · rw [if_neg hpool] at h1
        cases hq : s.netOut p with
        | nil =>
          rw [hq] at h1
          simp only at h1
          split_ifs at h1
          cases h1
          exact ⟨hc, ho, hh, hw⟩
        | cons x rest =>
          rw [hq] at h1
          cases hm : (s.router p).mssgPool x.1 with
          | none =>
            simp only [hm] at h1
            cases h1
            exact ⟨hc, ho, hh, hw⟩
          | some buf =>
            simp only [hm] at h1
            cases hs : (s.router p).step (.request x.1 x.2) with
            | none =>
              simp only [hs] at h1
              cases h1
              exact ⟨hc, ho, hh, hw⟩
            | some r =>
              simp only [hs] at h1
              cases h1
              exact ⟨hc, ho, hh, hupd p r fun e => hreq _ _ _ (e ▸ hs)⟩
    | _ =>
      simp only [LocalDown.step, LocalDown.sendStep, LocalDown.passStep] at h1
      (repeat' split at h1) <;> cases h1
      all_goals exact ⟨hc, ho, hh, hw⟩

/-- The tasks can always be run until none can go on. -/
theorem localExists_quiet (n : Nat) (s : LocalDown) : ∃ es s', (∀ e ∈ es, e.internal = true) ∧ s.run n es = some s' ∧ s'.Quiet n := by
  induction hw : s.work n using Nat.strong_induction_on generalizing s with
  | _ w ih =>
    by_cases hq : s.Quiet n
    · exact ⟨[], s, by simp, rfl, hq⟩
    · unfold LocalDown.Quiet at hq
      push Not at hq
      obtain ⟨e, he, hs⟩ := hq
      obtain ⟨t, ht⟩ := Option.ne_none_iff_exists'.1 hs
      obtain ⟨es, s', h1, h2, h3⟩ := ih (t.work n) (by rw [← hw]; exact localWork_lt he ht) t rfl
      refine ⟨e :: es, s', ?_, by rw [LocalDown.run, ht]; exact h2, h3⟩
      intro x hx
      rcases List.mem_cons.1 hx with rfl | hx
      · exact he
      · exact h1 x hx

theorem local_run_append (n : Nat) (s : LocalDown) (a b : List LocalStep) : s.run n (a ++ b) = (s.run n a).bind fun t => t.run n b := by
  induction a generalizing s with
  | nil => rfl
  | cons e a ih =>
    simp only [List.cons_append, LocalDown.run]
    cases s.step n e with
    | none => rfl
    | some t => exact ih t

theorem local_held_of_internal {n : Nat} {s s' : LocalDown} {es : List LocalStep} (hi : ∀ e ∈ es, e.internal = true) (h : s.run n es = some s') :
    s'.held = s.held ∧ s'.sent = s.sent := by
  induction es generalizing s with
  | nil => cases h; exact ⟨rfl, rfl⟩
  | cons e es ih =>
    rw [LocalDown.run, Option.bind_eq_some_iff] at h
    obtain ⟨t, h1, h2⟩ := h
    obtain ⟨i1, i2⟩ := ih (fun x hx => hi x (by simp [hx])) h2
    have : t.held = s.held ∧ t.sent = s.sent := by
      have hx := hi e (by simp)
      cases e <;> cases hx
      all_goals simp only [LocalDown.step, LocalDown.routeStep, LocalDown.passStep, LocalDown.cleanStep] at h1
      all_goals (repeat' split at h1) <;> cases h1
      all_goals exact ⟨rfl, rfl⟩
    exact ⟨i1.trans this.1, i2.trans this.2⟩

/-- C126. The claim without the condition, that everything which has been sent arrives: false.  Two parties; party 0 sends a message to a party 2, which is
routed first, then party 1 sends a message to party 0.  However the tasks go on until none can, the message of party 1 never arrives, though its
sender and its recipient exist and have done nothing wrong. -/
theorem C126_delivered_false : ∃ es, SendsUnknown 2 es ∧ (∃ s, LocalDown.start.run 2 es = some s) ∧
    ∀ more s, (∀ e ∈ more, e.internal = true) → LocalDown.start.run 2 (es ++ more) = some s → s.sent 1 0 = [⟨[5], [7]⟩] ∧ s.arrivedFrom 1 0 = [] := by
  refine ⟨[.send 0 ⟨[4], .one 2, []⟩, .pass 0, .route, .send 1 ⟨[5], .one 0, [7]⟩], ⟨0, ⟨[4], .one 2, []⟩, by simp, rfl⟩, ?_, ?_⟩
  · exact ⟨_, by simp [LocalDown.run, LocalDown.step, LocalDown.sendStep, LocalDown.passStep, LocalDown.routeStep, LocalDown.start, Recipient.known]; rfl⟩
  · intro more s hm hr
    rw [local_run_append, Option.bind_eq_some_iff] at hr
    obtain ⟨t, h1, h2⟩ := hr
    have ht : t.central = .panicked ∧ t.arrived 0 ++ t.partyOut 0 = [] ∧ t.sent 1 0 = [⟨[5], [7]⟩] := by
      simp [LocalDown.run, LocalDown.step, LocalDown.sendStep, LocalDown.passStep, LocalDown.routeStep, LocalDown.start, Recipient.known] at h1
      subst h1
      simp [Recipient.includes]
    obtain ⟨-, hs⟩ := C126_stopped ht.1 h2 0
    rw [ht.2.1] at hs
    refine ⟨by rw [(local_held_of_internal hm h2).2]; exact ht.2.2, ?_⟩
    simp [LocalDown.arrivedFrom, (List.append_eq_nil_iff.1 hs).1]

/-- Two parties: party 0 sends a message to everybody which nobody asks for, and both drop their handles at once.  The tasks can run to their end, all of
them end, and the message has arrived at both parties before. -/
example : ∃ es s, LocalDown.start.run 2 es = some s ∧ s.AllEnded 2 ∧ s.arrivedFrom 0 0 = [⟨[1], [7]⟩] ∧ s.arrivedFrom 0 1 = [⟨[1], [7]⟩] := by
  have h0 : ∃ t, LocalDown.start.run 2 [.send 0 ⟨[1], .all, [7]⟩, .drop 0, .drop 1] = some t ∧ (∀ p < 2, t.held p = false) ∧
      t.sent 0 0 = [⟨[1], [7]⟩] ∧ t.sent 0 1 = [⟨[1], [7]⟩] := by
    refine ⟨_, by simp [LocalDown.run, LocalDown.step, LocalDown.sendStep, LocalDown.start, Router.init]; rfl, ?_, ?_⟩
    · intro p hp
      rcases p with _ | _ | p
      · simp
      · simp
      · omega
    · simp [Recipient.includes]
  obtain ⟨t, h1, h2, h3⟩ := h0
  obtain ⟨es, s, g1, g2, g3⟩ := localExists_quiet 2 t
  have hr : LocalDown.start.run 2 ([.send 0 ⟨[1], .all, [7]⟩, .drop 0, .drop 1] ++ es) = some s := by
    rw [local_run_append, h1]
    exact g2
  have hk : ¬ SendsUnknown 2 ([.send 0 ⟨[1], .all, [7]⟩, .drop 0, .drop 1] ++ es) := by
    rintro ⟨p, m, hm, hk⟩
    simp only [List.cons_append, List.nil_append, List.mem_cons, LocalStep.send.injEq, reduceCtorEq, false_or] at hm
    rcases hm with ⟨-, rfl⟩ | hm
    · simp [Recipient.known] at hk
    · have := g1 _ hm
      simp [LocalStep.internal] at this
  obtain ⟨k1, k2⟩ := local_held_of_internal g1 g2
  refine ⟨_, s, hr, (C126_ends (by omega) hr g3 hk).2 (by rw [k1]; exact h2), ?_, ?_⟩
  · rw [C126_delivered_partial hr g3 hk 0 (by omega) 0 (by omega), k2, h3.1]
  · rw [C126_delivered_partial hr g3 hk 0 (by omega) 1 (by omega), k2, h3.2]

end Verif.Props
