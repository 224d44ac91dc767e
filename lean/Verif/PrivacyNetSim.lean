import Verif.PrivacyNetLemmas

/-!
# Helper lemmas: steps of two executions which corrupted parties cannot tell apart
-/

namespace Verif

variable {O : Type} {n : Nat} {Cs : Finset Nat} {f f' g : Full O}

/-! ### Changing one entry -/

theorem upd2_rel {α β : Type} {R : Nat → Nat → α → β → Prop} {u : Nat → Nat → α} {u' : Nat → Nat → β} {p q : Nat} {v : α} {v' : β}
    (h : ∀ a b, R a b (u a b) (u' a b)) (hv : R p q v v') : ∀ a b, R a b (upd2 u p q v a b) (upd2 u' p q v' a b) := by
  intro a b
  unfold upd2
  by_cases hab : a = p ∧ b = q
  · rw [if_pos hab, if_pos hab, hab.1, hab.2]
    exact hv
  · rw [if_neg hab, if_neg hab]
    exact h a b

theorem setLoc_rel {R : Nat → Nat → TState O → TState O → Prop} {u u' : Nat → Nat → TState O} {p q : Nat} {v v' : TState O}
    (h : ∀ a b, R a b (u a b) (u' a b)) (hv : R p q v v') : ∀ a b, R a b (setLoc u p q v a b) (setLoc u' p q v' a b) :=
  upd2_rel h hv

theorem update_rel {α β : Type} {R : Nat → α → β → Prop} {u : Nat → α} {u' : Nat → β} {p : Nat} {v : α} {v' : β}
    (h : ∀ a, R a (u a) (u' a)) (hv : R p v v') : ∀ a, R a (Function.update u p v a) (Function.update u' p v' a) := by
  intro a
  by_cases hab : a = p
  · subst hab
    rw [Function.update_self, Function.update_self]
    exact hv
  · rw [Function.update_of_ne hab, Function.update_of_ne hab]
    exact h a

/-! ### Steps of the network -/

theorem Full.Twin.take (h : f.Twin Cs f') {p q : Nat} {m : NetMsg} {rest : List NetMsg} {bytes : List Nat}
    (hpq : p < n ∧ q < n ∧ p ≠ q ∧ f.outBuf p q = []) (hi : f.partyInp p q = m :: rest) (hm : m.Ok)
    (hb : encodeFrame m = some bytes) {jobs' : List (Job O)} :
    ∃ g', f'.step n jobs' (.take p q) = some g' ∧
      Full.Twin Cs { f with partyInp := upd2 f.partyInp p q rest, outBuf := upd2 f.outBuf p q bytes } g' := by
  have ho : f'.outBuf p q = [] := by
    have := (h.outBuf p q).1
    rw [hpq.2.2.2] at this
    exact List.length_eq_zero_iff.1 this.symm
  have h1 := h.partyInp p q
  rw [hi] at h1
  obtain ⟨m', rest', hm', hrest, hi'⟩ := List.forall₂_cons_left_iff.1 h1
  obtain ⟨b', hb', hsim⟩ := encodeFrame_sim hm' hb
  refine ⟨{ f' with partyInp := upd2 f'.partyInp p q rest', outBuf := upd2 f'.outBuf p q b' }, ?_, ?_⟩
  · simp only [Full.step]
    rw [if_pos ⟨hpq.1, hpq.2.1, hpq.2.2.1, ho⟩]
    simp only [hi', hb', Option.map_some]
  · refine ⟨h.loc, h.waits, h.calls, h.netOut, h.stats, h.netInp,
      upd2_rel (R := fun a b u v => List.Forall₂ (NTwin Cs a b) u v) h.partyInp hrest,
      upd2_rel (R := fun a b u v => Sim (a ∈ Cs ∨ b ∈ Cs) u v) h.outBuf hsim, h.wire, h.inBuf, fun a b => ?_, h.partyOut, h.router⟩
    obtain ⟨ms, ms', k1, k2, k3, k4⟩ := h.frames a b
    by_cases hab : a = p ∧ b = q
    · obtain ⟨rfl, rfl⟩ := hab
      refine ⟨ms ++ [m], ms' ++ [m'], forall₂_snoc k1 hm', ?_, ?_, ?_⟩
      · intro y hy
        rcases List.mem_append.1 hy with hy | hy
        · exact k2 y hy
        · rw [List.mem_singleton] at hy
          exact hy ▸ hm
      · rw [encodeFrames_snoc k3 hb, hpq.2.2.2]
        simp [upd2]
      · rw [encodeFrames_snoc k4 hb', ho]
        simp [upd2]
    · refine ⟨ms, ms', k1, k2, ?_, ?_⟩
      · simp only [upd2, if_neg hab]
        exact k3
      · simp only [upd2, if_neg hab]
        exact k4

theorem Full.Twin.push (h : f.Twin Cs f') {p q k : Nat} {jobs jobs' : List (Job O)} (hs : f.step n jobs (.push p q k) = some g) :
    ∃ g', f'.step n jobs' (.push p q k) = some g' ∧ Full.Twin Cs g g' := by
  simp only [Full.step] at hs ⊢
  split at hs
  swap
  · cases hs
  rename_i hc
  rw [Option.some.injEq] at hs
  subst hs
  rw [if_pos (by rw [← (h.outBuf p q).1]; exact hc)]
  refine ⟨_, rfl, h.loc, h.waits, h.calls, h.netOut, h.stats, h.netInp, h.partyInp,
      upd2_rel (R := fun a b u v => Sim (a ∈ Cs ∨ b ∈ Cs) u v) h.outBuf ((h.outBuf p q).drop k),
      upd2_rel (R := fun a b u v => Sim (a ∈ Cs ∨ b ∈ Cs) u v) h.wire ((h.wire p q).append ((h.outBuf p q).take k)), h.inBuf,
      fun a b => ?_, h.partyOut, h.router⟩
  obtain ⟨ms, ms', k1, k2, k3, k4⟩ := h.frames a b
  refine ⟨ms, ms', k1, k2, ?_, ?_⟩
  · by_cases hab : a = p ∧ b = q
    · obtain ⟨rfl, rfl⟩ := hab
      simp [k3, upd2]
    · simp only [upd2, if_neg hab]
      exact k3
  · by_cases hab : a = p ∧ b = q
    · obtain ⟨rfl, rfl⟩ := hab
      simp [k4, upd2]
    · simp only [upd2, if_neg hab]
      exact k4

theorem Full.Twin.pull (h : f.Twin Cs f') {p q k : Nat} {jobs jobs' : List (Job O)} (hs : f.step n jobs (.pull p q k) = some g) :
    ∃ g', f'.step n jobs' (.pull p q k) = some g' ∧ Full.Twin Cs g g' := by
  simp only [Full.step] at hs ⊢
  split at hs
  swap
  · cases hs
  rename_i hc
  rw [Option.some.injEq] at hs
  subst hs
  rw [if_pos (by rw [← (h.wire p q).1]; exact hc)]
  refine ⟨_, rfl, h.loc, h.waits, h.calls, h.netOut, h.stats, h.netInp, h.partyInp, h.outBuf,
      upd2_rel (R := fun a b u v => Sim (a ∈ Cs ∨ b ∈ Cs) u v) h.wire ((h.wire p q).drop k),
      upd2_rel (R := fun a b u v => Sim (a ∈ Cs ∨ b ∈ Cs) u v) h.inBuf ((h.inBuf p q).append ((h.wire p q).take k)),
      fun a b => ?_, h.partyOut, h.router⟩
  obtain ⟨ms, ms', k1, k2, k3, k4⟩ := h.frames a b
  refine ⟨ms, ms', k1, k2, ?_, ?_⟩
  · by_cases hab : a = p ∧ b = q
    · obtain ⟨rfl, rfl⟩ := hab
      simp only [upd2, and_self, if_true]
      rw [k3, List.append_assoc, ← List.append_assoc ((f.wire a b).take k), List.take_append_drop]
    · simp only [upd2, if_neg hab]
      exact k3
  · by_cases hab : a = p ∧ b = q
    · obtain ⟨rfl, rfl⟩ := hab
      simp only [upd2, and_self, if_true]
      rw [k4, List.append_assoc, ← List.append_assoc ((f'.wire a b).take k), List.take_append_drop]
    · simp only [upd2, if_neg hab]
      exact k4

theorem Full.Twin.parse (h : f.Twin Cs f') {p q : Nat} {jobs jobs' : List (Job O)} (hs : f.step n jobs (.parse p q) = some g) :
    ∃ g', f'.step n jobs' (.parse p q) = some g' ∧ Full.Twin Cs g g' := by
  simp only [Full.step] at hs ⊢
  split at hs
  swap
  · cases hs
  rename_i hc
  rw [if_pos hc]
  cases hr : recvFrame (f.inBuf p q) with
  | wait => rw [hr] at hs; cases hs
  | panic => rw [hr] at hs; cases hs
  | message m rest =>
    rw [hr] at hs
    simp only [Option.some.injEq] at hs
    subst hs
    obtain ⟨ms, ms', k1, k2, k3, k4⟩ := h.frames p q
    obtain ⟨m', rest', e1, e2, e3, ns, ns', e4, e5, e6, e7⟩ := recvFrame_sim k1 k2 k3 k4 (h.inBuf p q) hr
    rw [e1]
    refine ⟨_, rfl, h.loc, h.waits, h.calls, h.netOut, h.stats, h.netInp, h.partyInp, h.outBuf, h.wire,
      upd2_rel (R := fun a b u v => Sim (a ∈ Cs ∨ b ∈ Cs) u v) h.inBuf e3, fun a b => ?_,
      update_rel (R := fun a u v => List.Forall₂ (RTwin Cs a) u v) h.partyOut (forall₂_snoc (h.partyOut q) ⟨e2.1, rfl, e2.2⟩),
      h.router⟩
    by_cases hab : a = p ∧ b = q
    · obtain ⟨rfl, rfl⟩ := hab
      refine ⟨ns, ns', e4, e5, ?_, ?_⟩
      · simpa [upd2] using e6
      · simpa [upd2] using e7
    · obtain ⟨ms, ms', k1, k2, k3, k4⟩ := h.frames a b
      refine ⟨ms, ms', k1, k2, ?_, ?_⟩
      · simp only [upd2, if_neg hab]
        exact k3
      · simp only [upd2, if_neg hab]
        exact k4

theorem RouterTwin.arrive {p : Nat} {r r' s : Router} {m m' : RMsg} (h : RouterTwin Cs p r r') (hm : RTwin Cs p m m')
    (hs : r.step (.arrive m) = some s) : ∃ s', r'.step (.arrive m') = some s' ∧ RouterTwin Cs p s s' := by
  simp only [Router.step] at hs ⊢
  rw [← hm.1, ← h.handles, ← h.cancelled]
  cases hh : r.handlePool m.protoId with
  | some k =>
    rw [hh] at hs
    simp only at hs ⊢
    split at hs
    · cases hs
    rename_i hk
    rw [Option.some.injEq] at hs
    subst hs
    rw [if_neg hk]
    exact ⟨_, rfl, h.pool, rfl, rfl, forall₂_snoc h.answered ⟨rfl, hm⟩, h.dropped⟩
  | none =>
    rw [hh] at hs
    simp only [Option.some.injEq] at hs ⊢
    subst hs
    refine ⟨_, rfl, fun id => ?_, rfl, rfl, h.answered, h.dropped⟩
    by_cases hid : id = m.protoId
    · subst hid
      simp only [Function.update_self]
      refine .some ?_
      have := h.pool m.protoId
      revert this
      generalize r.mssgPool m.protoId = u
      generalize r'.mssgPool m.protoId = v
      intro h
      cases h with
      | none => exact .cons hm .nil
      | some h => exact forall₂_snoc h hm
    · simp only [Function.update_of_ne hid]
      exact h.pool id

theorem RouterTwin.request {p : Nat} {r r' s : Router} {id : ProtocolID} {k : Nat} (h : RouterTwin Cs p r r')
    (hs : r.step (.request id k) = some s) : ∃ s', r'.step (.request id k) = some s' ∧ RouterTwin Cs p s s' := by
  simp only [Router.step] at hs ⊢
  rw [← h.handles, ← h.cancelled]
  have hp := h.pool id
  revert hp hs
  generalize hu : r.mssgPool id = u
  generalize hv : r'.mssgPool id = v
  intro hs hp
  cases hp with
  | none =>
    simp only [Option.some.injEq] at hs ⊢
    subst hs
    exact ⟨_, rfl, h.pool, rfl, rfl, h.answered, by rw [h.dropped]⟩
  | some hp =>
    cases hp with
    | nil => cases hs
    | cons h1 h2 =>
      simp only at hs ⊢
      split at hs
      · cases hs
      rename_i hk
      rw [Option.some.injEq] at hs
      subst hs
      rw [if_neg hk]
      refine ⟨_, rfl, fun id' => ?_, rfl, rfl, forall₂_snoc h.answered ⟨rfl, h1⟩, h.dropped⟩
      by_cases hid : id' = id
      · subst hid
        simp only [Function.update_self]
        cases h2 with
        | nil => exact .none
        | cons h3 h4 => exact .some (.cons h3 h4)
      · simp only [Function.update_of_ne hid]
        exact h.pool id'

theorem Full.Twin.arrive (h : f.Twin Cs f') {p : Nat} {jobs jobs' : List (Job O)} (hs : f.step n jobs (.arrive p) = some g) :
    ∃ g', f'.step n jobs' (.arrive p) = some g' ∧ Full.Twin Cs g g' := by
  simp only [Full.step] at hs ⊢
  split at hs
  swap
  · cases hs
  rename_i hc
  rw [if_pos hc]
  have ho := h.partyOut p
  revert ho hs
  generalize hu : f.partyOut p = u
  generalize hv : f'.partyOut p = v
  intro hs ho
  cases ho with
  | nil => cases hs
  | cons hm hrest =>
    simp only at hs ⊢
    obtain ⟨st, hst, hs⟩ := Option.bind_eq_some_iff.1 hs
    obtain ⟨r, hr, hs⟩ := Option.map_eq_some_iff.1 hs
    subst hs
    obtain ⟨r', hr', hrt⟩ := (h.router p).arrive hm hr
    rw [← h.stats, ← hm.2.1, ← hm.2.2.1, ← hm.1, hst, Option.bind_some, hr', Option.map_some]
    exact ⟨_, rfl, h.loc, h.waits, h.calls, h.netOut, rfl, h.netInp, h.partyInp, h.outBuf, h.wire, h.inBuf, h.frames,
      update_rel (R := fun a u v => List.Forall₂ (RTwin Cs a) u v) h.partyOut hrest,
      update_rel (R := fun a u v => RouterTwin Cs a u v) h.router hrt⟩

theorem Full.Twin.request (h : f.Twin Cs f') {p : Nat} {jobs jobs' : List (Job O)} (hs : f.step n jobs (.request p) = some g) :
    ∃ g', f'.step n jobs' (.request p) = some g' ∧ Full.Twin Cs g g' := by
  simp only [Full.step] at hs ⊢
  split at hs
  swap
  · cases hs
  rename_i hc
  rw [if_pos hc, ← h.netOut]
  cases ho : f.netOut p with
  | nil => rw [ho] at hs; cases hs
  | cons a rest =>
    rw [ho] at hs
    simp only at hs ⊢
    obtain ⟨r, hr, hs⟩ := Option.map_eq_some_iff.1 hs
    subst hs
    obtain ⟨r', hr', hrt⟩ := (h.router p).request hr
    rw [hr', Option.map_some]
    exact ⟨_, rfl, h.loc, h.waits, h.calls, rfl, h.stats, h.netInp, h.partyInp, h.outBuf, h.wire, h.inBuf, h.frames, h.partyOut,
      update_rel (R := fun a u v => RouterTwin Cs a u v) h.router hrt⟩

theorem Full.Twin.route (h : f.Twin Cs f') {p : Nat} {jobs jobs' : List (Job O)} (hs : f.step n jobs (.route p) = some g) :
    ∃ g', f'.step n jobs' (.route p) = some g' ∧ Full.Twin Cs g g' := by
  simp only [Full.step] at hs ⊢
  split at hs
  swap
  · cases hs
  rename_i hc
  rw [if_pos hc]
  have ho := h.netInp p
  revert ho hs
  generalize hu : f.netInp p = u
  generalize hv : f'.netInp p = v
  intro hs ho
  cases ho with
  | nil => cases hs
  | cons hm hrest =>
    simp only [Full.routeStep] at hs ⊢
    split at hs
    swap
    · cases hs
    rename_i hk
    rw [Option.some.injEq] at hs
    subst hs
    rw [← hm.2.1, ← hm.1, if_pos hk]
    refine ⟨_, rfl, h.loc, h.waits, h.calls, h.netOut, h.stats,
      update_rel (R := fun a u v => List.Forall₂ (STwin Cs a) u v) h.netInp hrest, fun a b => ?_, h.outBuf, h.wire, h.inBuf, h.frames,
      fun a => ?_, h.router⟩
    · simp only []
      split
      · rename_i hab
        refine forall₂_snoc (h.partyInp a b) ⟨rfl, hm.2.2.mono ?_⟩
        rintro (ha | hb)
        · exact Or.inl (hab.1 ▸ ha)
        · exact Or.inr ⟨b, hb, hab.2.2.2⟩
      · exact h.partyInp a b
    · simp only []
      split
      · rename_i hi
        refine update_rel (R := fun a u v => List.Forall₂ (RTwin Cs a) u v) h.partyOut ?_ a
        refine forall₂_snoc (h.partyOut p) ⟨rfl, rfl, ?_⟩
        exact hm.2.2.mono fun h => Or.inl (by tauto)
      · exact h.partyOut a

end Verif
