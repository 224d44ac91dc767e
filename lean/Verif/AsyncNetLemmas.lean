import Verif.AsyncNet
import Verif.AsyncSeq

/-!
# Helper lemmas about executions over the TCP network
-/

namespace Verif

variable {O : Type} {n : Nat} {jobs : List (Job O)} {x : Expected O}

/-! ### Messages by protocol ID -/

/-- The messages with an ID. -/
def ofId (id : ProtocolID) (l : List RMsg) : List RMsg := l.filter fun m => m.protoId = id

theorem ofId_append (id : ProtocolID) (a b : List RMsg) : ofId id (a ++ b) = ofId id a ++ ofId id b := by
  simp [ofId]

theorem ofId_cons (id : ProtocolID) (m : RMsg) (l : List RMsg) :
    ofId id (m :: l) = (if m.protoId = id then [m] else []) ++ ofId id l := by
  unfold ofId
  rw [List.filter_cons]
  by_cases h : m.protoId = id <;> simp [h]

theorem takeFirst_ofId {id : ProtocolID} {l : List TMsg} {m0 : RMsg} {tl : List RMsg}
    (h : ofId id (l.map (·.msg)) = m0 :: tl) :
    ∃ m rest, takeFirst id l = some (m, rest) ∧ m.msg = m0 ∧
      (∀ id', ofId id' (rest.map (·.msg)) = if id' = id then tl else ofId id' (l.map (·.msg))) ∧ l.Perm (m :: rest) := by
  cases ht : takeFirst id l with
  | none =>
    have := takeFirst_none ht
    have h0 : ofId id (l.map (·.msg)) = [] := by
      unfold ofId
      rw [List.filter_eq_nil_iff]
      intro m hm
      obtain ⟨y, hy, rfl⟩ := List.mem_map.1 hm
      simpa using this y hy
    rw [h0] at h
    cases h
  | some r =>
    obtain ⟨m, rest⟩ := r
    obtain ⟨a, b, h1, h2, h3, h4⟩ := takeFirst_some ht
    have ha : ofId id (a.map (·.msg)) = [] := by
      unfold ofId
      rw [List.filter_eq_nil_iff]
      intro m hm
      obtain ⟨y, hy, rfl⟩ := List.mem_map.1 hm
      simpa using h4 y hy
    rw [h1, List.map_append, List.map_cons, ofId_append, ofId_cons, if_pos h3, ha] at h
    simp only [List.nil_append, List.cons_append, List.cons.injEq] at h
    refine ⟨m, rest, rfl, h.1, fun id' => ?_, ?_⟩
    · rw [h2, List.map_append, ofId_append]
      split
      · rename_i he
        rw [he, ha, h.2]
        rfl
      · rename_i he
        rw [h1, List.map_append, List.map_cons, ofId_append, ofId_cons, if_neg (fun h => he (h.symm.trans h3))]
        rfl
    · rw [h1, h2]
      exact List.perm_middle

/-! ### Waiting jobs -/

/-- The job's next action is `recv`. -/
def TState.receiving (n : Nat) : TState O → Bool
  | .gather g => g.counter ≠ n
  | .wait => true
  | _ => false

theorem act_recv {P : Proto O} {p : Nat} {env : Env O} {t : TState O} {next : RMsg → TState O}
    (h : P.act n p env t = .recv next) : t.receiving n = true := by
  unfold Proto.act at h
  split at h <;> try cases h
  · rename_i g
    split at h
    · split at h <;> cases h
    · rename_i hg
      simp [TState.receiving, hg]
  · rfl

theorem receiving_act {P : Proto O} {p : Nat} {env : Env O} {t : TState O} (h : t.receiving n = true) :
    ∃ next, P.act n p env t = .recv next := by
  cases t with
  | gather g =>
    have hg : ¬ g.counter = n := by simpa [TState.receiving] using h
    exact ⟨fun m => orFail (g.step m) fun g => .gather g, by simp only [Proto.act, if_neg hg]⟩
  | wait => exact ⟨_, rfl⟩
  | idle => cases h
  | sending rest => cases h
  | reply rest => cases h
  | done o => cases h
  | fail => cases h

/-- No two jobs of a party wait for messages with the same ID. -/
theorem receiving_unique {s : Sys O} (hplan : Plan n jobs x) (hinv : s.Inv n jobs x) {p : Nat} (hp : p < n) {i j : Nat}
    {a b : Job O} (hi : jobs[i]? = some a) (hj : jobs[j]? = some b) (hid : a.id = b.id)
    (hri : (s.loc p i).receiving n = true) (hrj : (s.loc p j).receiving n = true) : i = j := by
  have key : ∀ {i j : Nat} {a b : Job O}, jobs[i]? = some a → jobs[j]? = some b → a.id = b.id →
      (s.loc p i).receiving n = true → (s.loc p j).receiving n = true → ¬ i < j := by
    intro i j a b hi hj hid hri hrj hlt
    obtain ⟨k, c, _, _, b1, b2⟩ := hplan.ids i j a b hi hj hlt hid
    obtain ⟨o, ho⟩ := hinv.started_before (b1.trans b2) hp (i := i) (j := j) (by
      intro h0
      rw [h0] at hrj
      cases hrj)
    rw [ho] at hri
    cases hri
  rcases Nat.lt_trichotomy i j with h | h | h
  · exact absurd h (key hi hj hid hri hrj)
  · exact h
  · exact absurd h (key hj hi hid.symm hrj hri)

/-- Where a waiting job's request is: on the way to the router, in the router, or answered. -/
def Placed (netOut : List (ProtocolID × Nat)) (r : Router) (un : ProtocolID → List RMsg) (id : ProtocolID) (h : Nat) : Prop :=
  (un id = [] ∧ (id, h) ∈ netOut ∧ r.handlePool id = none ∧ ∀ a ∈ r.answered, a.1 ≠ h) ∨
  (un id = [] ∧ (id, h) ∉ netOut ∧ r.handlePool id = some h ∧ ∀ a ∈ r.answered, a.1 ≠ h) ∨
  (∃ m, un id = [m] ∧ (id, h) ∉ netOut ∧ r.handlePool id = none ∧ r.answered.find? (fun a => a.1 = h) = some (h, m))

/-- The router of a party and the party's requests; `un` are the messages which have been answered but not taken. -/
structure RReq (n : Nat) (jobs : List (Job O)) (loc : Nat → TState O) (waits : Nat → Option Nat) (calls : Nat)
    (netOut : List (ProtocolID × Nat)) (r : Router) (un : ProtocolID → List RMsg) : Prop where
  waitsOk : ∀ j h, waits j = some h → h < calls ∧ (loc j).receiving n = true ∧ ∃ job, jobs[j]? = some job
  place : ∀ j job h, jobs[j]? = some job → waits j = some h → Placed netOut r un job.id h
  unOk : ∀ id, un id ≠ [] → ∃ j job h, jobs[j]? = some job ∧ job.id = id ∧ waits j = some h
  outOk : ∀ a ∈ netOut, ∃ j job, jobs[j]? = some job ∧ job.id = a.1 ∧ waits j = some a.2
  poolOk : ∀ id h, r.handlePool id = some h → ∃ j job, jobs[j]? = some job ∧ job.id = id ∧ waits j = some h
  nodup : netOut.Nodup
  inj : ∀ i j h, waits i = some h → waits j = some h → i = j
  fresh : ∀ a ∈ r.answered, a.1 < calls
  excl : ∀ id h, r.handlePool id = some h → r.mssgPool id = none
  nonempty : ∀ id, r.mssgPool id ≠ some []
  canc : r.cancelled = []

variable {loc : Nat → TState O} {waits : Nat → Option Nat} {calls : Nat} {netOut : List (ProtocolID × Nat)} {r : Router}
  {un : ProtocolID → List RMsg}

/-- No two waiting jobs have the same ID. -/
def UniqueIds (n : Nat) (jobs : List (Job O)) (loc : Nat → TState O) : Prop :=
  ∀ i j a b, jobs[i]? = some a → jobs[j]? = some b → a.id = b.id → (loc i).receiving n = true → (loc j).receiving n = true → i = j

/-- A call of `recv`. -/
theorem RReq.call (h : RReq n jobs loc waits calls netOut r un) (hu : UniqueIds n jobs loc) {j : Nat} {job : Job O}
    (hj : jobs[j]? = some job) (hr : (loc j).receiving n = true) (hw : waits j = none) :
    RReq n jobs loc (Function.update waits j (some calls)) (calls + 1) (netOut ++ [(job.id, calls)]) r un := by
  have hother : ∀ i a k, jobs[i]? = some a → a.id = job.id → waits i = some k → False := by
    intro i a k hi hid hk
    have := hu i j a job hi hj hid (h.waitsOk i k hk).2.1 hr
    rw [this, hw] at hk
    cases hk
  refine ⟨?_, ?_, ?_, ?_, ?_, ?_, ?_, ?_, h.excl, h.nonempty, h.canc⟩
  · intro i k hk
    by_cases hi : i = j
    · subst hi
      rw [Function.update_self, Option.some.injEq] at hk
      exact ⟨by omega, hr, job, hj⟩
    · rw [Function.update_of_ne hi] at hk
      obtain ⟨h1, h2, h3⟩ := h.waitsOk i k hk
      exact ⟨by omega, h2, h3⟩
  · intro i a k hi hk
    by_cases hij : i = j
    · subst hij
      rw [Function.update_self, Option.some.injEq] at hk
      rw [hj, Option.some.injEq] at hi
      subst hi hk
      refine Or.inl ⟨?_, by simp, ?_, fun a ha => by have := h.fresh a ha; omega⟩
      · by_contra hne
        obtain ⟨i', a', k', e1, e2, e3⟩ := h.unOk _ hne
        exact hother i' a' k' e1 e2 e3
      · cases hp : r.handlePool job.id with
        | none => rfl
        | some k =>
          obtain ⟨i', a', e1, e2, e3⟩ := h.poolOk _ _ hp
          exact (hother i' a' k e1 e2 e3).elim
    · rw [Function.update_of_ne hij] at hk
      have hlt := (h.waitsOk i k hk).1
      have hmem : ∀ id, (id, k) ∈ netOut ++ [(job.id, calls)] ↔ (id, k) ∈ netOut := by
        intro id
        rw [List.mem_append, List.mem_singleton, Prod.mk.injEq]
        constructor
        · rintro (h | ⟨_, h⟩)
          · exact h
          · omega
        · exact Or.inl
      unfold Placed
      rw [hmem]
      exact h.place i a k hi hk
  · intro id hid
    obtain ⟨i, a, k, e1, e2, e3⟩ := h.unOk id hid
    have : i ≠ j := by
      intro h0
      rw [h0, hw] at e3
      cases e3
    exact ⟨i, a, k, e1, e2, by rw [Function.update_of_ne this]; exact e3⟩
  · intro a ha
    rcases List.mem_append.1 ha with ha | ha
    · obtain ⟨i, b, e1, e2, e3⟩ := h.outOk a ha
      have : i ≠ j := by
        intro h0
        rw [h0, hw] at e3
        cases e3
      exact ⟨i, b, e1, e2, by rw [Function.update_of_ne this]; exact e3⟩
    · rw [List.mem_singleton] at ha
      subst ha
      exact ⟨j, job, hj, rfl, by rw [Function.update_self]⟩
  · intro id k hk
    obtain ⟨i, a, e1, e2, e3⟩ := h.poolOk id k hk
    have : i ≠ j := by
      intro h0
      rw [h0, hw] at e3
      cases e3
    exact ⟨i, a, e1, e2, by rw [Function.update_of_ne this]; exact e3⟩
  · rw [List.nodup_append]
    refine ⟨h.nodup, List.nodup_singleton _, ?_⟩
    intro a ha b hb hab
    rw [List.mem_singleton] at hb
    obtain ⟨i, c, e1, e2, e3⟩ := h.outOk a ha
    have := (h.waitsOk i _ e3).1
    rw [hab, hb] at this
    simp at this
  · intro i i' k hk hk'
    by_cases hi : i = j
    · by_cases hi' : i' = j
      · rw [hi, hi']
      · rw [hi, Function.update_self, Option.some.injEq] at hk
        rw [Function.update_of_ne hi'] at hk'
        have := (h.waitsOk _ _ hk').1
        omega
    · by_cases hi' : i' = j
      · rw [hi', Function.update_self, Option.some.injEq] at hk'
        rw [Function.update_of_ne hi] at hk
        have := (h.waitsOk _ _ hk).1
        omega
      · rw [Function.update_of_ne hi] at hk
        rw [Function.update_of_ne hi'] at hk'
        exact h.inj i i' k hk hk'
  · intro a ha
    have := h.fresh a ha
    omega

/-- A step of a job which does not wait. -/
theorem RReq.move (h : RReq n jobs loc waits calls netOut r un) {j : Nat} (hw : waits j = none) (t : TState O) :
    RReq n jobs (Function.update loc j t) waits calls netOut r un := by
  refine ⟨?_, h.place, h.unOk, h.outOk, h.poolOk, h.nodup, h.inj, h.fresh, h.excl, h.nonempty, h.canc⟩
  intro i k hk
  have : i ≠ j := by
    intro h0
    rw [h0, hw] at hk
    cases hk
  rw [Function.update_of_ne this]
  exact h.waitsOk i k hk

/-- A job gets its message. -/
theorem RReq.resume (h : RReq n jobs loc waits calls netOut r un) (hu : UniqueIds n jobs loc) {j : Nat} {job : Job O}
    (hj : jobs[j]? = some job) {k : Nat} (hw : waits j = some k) {b : Nat × RMsg}
    (hf : r.answered.find? (fun a => a.1 = k) = some b) (t : TState O) :
    un job.id = [b.2] ∧
    RReq n jobs (Function.update loc j t) (Function.update waits j none) calls netOut r (Function.update un job.id []) := by
  have hb : b.1 = k := by simpa using List.find?_some hf
  have hbm : b ∈ r.answered := List.mem_of_find?_eq_some hf
  have hr := (h.waitsOk j k hw).2.1
  rcases h.place j job k hj hw with ⟨_, _, _, c4⟩ | ⟨_, _, _, c4⟩ | ⟨m, c1, c2, c3, c4⟩
  · exact absurd hb (c4 b hbm)
  · exact absurd hb (c4 b hbm)
  rw [hf, Option.some.injEq] at c4
  have hne : ∀ i a l, jobs[i]? = some a → waits i = some l → i ≠ j → a.id ≠ job.id := by
    intro i a l hi hl hij hid
    exact hij (hu i j a job hi hj hid (h.waitsOk i l hl).2.1 hr)
  refine ⟨by rw [c1, c4], ?_, ?_, ?_, ?_, ?_, h.nodup, ?_, h.fresh, h.excl, h.nonempty, h.canc⟩
  · intro i l hl
    have hij : i ≠ j := by
      rintro rfl
      rw [Function.update_self] at hl
      cases hl
    rw [Function.update_of_ne hij] at hl ⊢
    exact h.waitsOk i l hl
  · intro i a l hi hl
    have hij : i ≠ j := by
      rintro rfl
      rw [Function.update_self] at hl
      cases hl
    rw [Function.update_of_ne hij] at hl
    have := h.place i a l hi hl
    unfold Placed at this ⊢
    rw [Function.update_of_ne (hne i a l hi hl hij)]
    exact this
  · intro id hid
    have hidj : id ≠ job.id := by
      rintro rfl
      rw [Function.update_self] at hid
      exact hid rfl
    rw [Function.update_of_ne hidj] at hid
    obtain ⟨i, a, l, e1, e2, e3⟩ := h.unOk id hid
    have hij : i ≠ j := by
      rintro rfl
      rw [hj, Option.some.injEq] at e1
      rw [e1] at hidj
      exact hidj e2.symm
    exact ⟨i, a, l, e1, e2, by rw [Function.update_of_ne hij]; exact e3⟩
  · intro a ha
    obtain ⟨i, c, e1, e2, e3⟩ := h.outOk a ha
    have hij : i ≠ j := by
      rintro rfl
      rw [hj, Option.some.injEq] at e1
      rw [hw, Option.some.injEq] at e3
      subst e1
      exact c2 (by rw [e2, e3]; exact ha)
    exact ⟨i, c, e1, e2, by rw [Function.update_of_ne hij]; exact e3⟩
  · intro id l hl
    obtain ⟨i, c, e1, e2, e3⟩ := h.poolOk id l hl
    have hij : i ≠ j := by
      rintro rfl
      rw [hj, Option.some.injEq] at e1
      subst e1
      rw [e2, hl] at c3
      cases c3
    exact ⟨i, c, e1, e2, by rw [Function.update_of_ne hij]; exact e3⟩

  · intro i i' l hl hl'
    have hij : i ≠ j := by
      rintro rfl
      rw [Function.update_self] at hl
      cases hl
    have hij' : i' ≠ j := by
      rintro rfl
      rw [Function.update_self] at hl'
      cases hl'
    rw [Function.update_of_ne hij] at hl
    rw [Function.update_of_ne hij'] at hl'
    exact h.inj i i' l hl hl'

/-- An answer to another job. -/
theorem Placed.other {netOut' : List (ProtocolID × Nat)} {r' : Router} {un' : ProtocolID → List RMsg} {id : ProtocolID}
    {l k : Nat} {m : RMsg} (h : Placed netOut r un id l) (ha : r'.answered = r.answered ++ [(k, m)]) (hl : l ≠ k)
    (hp : r'.handlePool id = r.handlePool id) (hun : un' id = un id) (ho : (id, l) ∈ netOut' ↔ (id, l) ∈ netOut) :
    Placed netOut' r' un' id l := by
  have hm : (∀ a ∈ r.answered, a.1 ≠ l) → ∀ a ∈ r'.answered, a.1 ≠ l := by
    intro h a h'
    rw [ha, List.mem_append, List.mem_singleton] at h'
    rcases h' with h' | rfl
    · exact h a h'
    · exact hl.symm
  unfold Placed at h ⊢
  rw [hp, hun, ho]
  rcases h with ⟨d1, d2, d3, d4⟩ | ⟨d1, d2, d3, d4⟩ | ⟨m', d1, d2, d3, d4⟩
  · exact Or.inl ⟨d1, d2, d3, hm d4⟩
  · exact Or.inr (Or.inl ⟨d1, d2, d3, hm d4⟩)
  · exact Or.inr (Or.inr ⟨m', d1, d2, d3, by rw [ha, List.find?_append, d4]; rfl⟩)

/-- The router takes a message. -/
theorem RReq.arrive (h : RReq n jobs loc waits calls netOut r un) (hu : UniqueIds n jobs loc) (m : RMsg) : ∃ r' un',
    r.step (.arrive m) = some r' ∧
    RReq n jobs loc waits calls netOut r' un' ∧
    ∀ id, un' id ++ r'.queueOf id = un id ++ r.queueOf id ++ if m.protoId = id then [m] else [] := by
  cases hp : r.handlePool m.protoId with
  | some k =>
    obtain ⟨j, job, hj, hid, hw⟩ := h.poolOk _ _ hp
    have hex := h.excl _ _ hp
    obtain ⟨c1, c2, c4⟩ : un job.id = [] ∧ (job.id, k) ∉ netOut ∧ ∀ a ∈ r.answered, a.1 ≠ k := by
      rcases h.place j job k hj hw with ⟨_, _, c3, _⟩ | ⟨c1, c2, c3, c4⟩ | ⟨_, _, _, c3, _⟩
      · rw [hid, hp] at c3
        cases c3
      · exact ⟨c1, c2, c4⟩
      · rw [hid, hp] at c3
        cases c3
    refine ⟨{ r with handlePool := Function.update r.handlePool m.protoId none, answered := r.answered ++ [(k, m)] },
      Function.update un m.protoId [m], by unfold Router.step; simp only []; rw [hp, h.canc]; simp, ?_, ?_⟩
    · refine ⟨h.waitsOk, ?_, ?_, h.outOk, ?_, h.nodup, h.inj, ?_, ?_, h.nonempty, h.canc⟩
      · intro i a l hi hl
        by_cases hij : i = j
        · subst hij
          rw [hj, Option.some.injEq] at hi
          rw [hw, Option.some.injEq] at hl
          subst hi hl
          refine Or.inr (Or.inr ⟨m, ?_, c2, ?_, ?_⟩)
          · rw [hid, Function.update_self]
          · simp only [hid, Function.update_self]
          · simp only []
            rw [List.find?_append, List.find?_eq_none.2 (fun a ha => by simpa using c4 a ha)]
            simp
        · have hne : a.id ≠ m.protoId := by
            intro h0
            exact hij (hu i j a job hi hj (h0.trans hid.symm) (h.waitsOk i l hl).2.1 (h.waitsOk j k hw).2.1)
          refine (h.place i a l hi hl).other (k := k) (m := m) rfl ?_ ?_ ?_ Iff.rfl
          · rintro rfl
            exact hij (h.inj i j l hl hw)
          · simp only [Function.update_of_ne hne]
          · rw [Function.update_of_ne hne]
      · intro id hne
        by_cases hi : id = m.protoId
        · exact ⟨j, job, k, hj, hid.trans hi.symm, hw⟩
        · rw [Function.update_of_ne hi] at hne
          exact h.unOk id hne
      · intro id l hl
        have hi : id ≠ m.protoId := by
          rintro rfl
          simp only [Function.update_self] at hl
          cases hl
        simp only [Function.update_of_ne hi] at hl
        exact h.poolOk id l hl
      · intro a ha
        simp only [List.mem_append, List.mem_singleton] at ha
        rcases ha with ha | rfl
        · exact h.fresh a ha
        · exact (h.waitsOk j k hw).1
      · intro id l hl
        have hi : id ≠ m.protoId := by
          rintro rfl
          simp only [Function.update_self] at hl
          cases hl
        simp only [Function.update_of_ne hi] at hl
        exact h.excl id l hl
    · intro id
      unfold Router.queueOf
      by_cases hi : m.protoId = id
      · subst hi
        rw [Function.update_self, ← hid, c1, hid, hex]
        simp
      · rw [Function.update_of_ne (Ne.symm hi), if_neg hi, List.append_nil]
  | none =>
    refine ⟨{ r with mssgPool := Function.update r.mssgPool m.protoId (some ((r.mssgPool m.protoId).getD [] ++ [m])) }, un,
      by unfold Router.step; simp only []; rw [hp], ?_, ?_⟩
    · refine ⟨h.waitsOk, ?_, h.unOk, h.outOk, h.poolOk, h.nodup, h.inj, h.fresh, ?_, ?_, h.canc⟩
      · intro i a l hi hl
        exact h.place i a l hi hl
      · intro id l hl
        have hi : id ≠ m.protoId := by
          rintro rfl
          rw [hp] at hl
          cases hl
        simp only [Function.update_of_ne hi]
        exact h.excl id l hl
      · intro id
        by_cases hi : id = m.protoId
        · subst hi
          simp
        · simp only [Function.update_of_ne hi]
          exact h.nonempty id
    · intro id
      unfold Router.queueOf
      by_cases hi : m.protoId = id
      · subst hi
        simp
      · simp only [Function.update_of_ne (Ne.symm hi), if_neg hi, List.append_nil]

/-- The router takes a request. -/
theorem RReq.request (h : RReq n jobs loc waits calls netOut r un) {id : ProtocolID} {k : Nat} {rest : List (ProtocolID × Nat)}
    (hu : UniqueIds n jobs loc) (ho : netOut = (id, k) :: rest) : ∃ r' un', r.step (.request id k) = some r' ∧
    RReq n jobs loc waits calls rest r' un' ∧ ∀ id', un' id' ++ r'.queueOf id' = un id' ++ r.queueOf id' := by
  subst ho
  obtain ⟨j, job, hj, hid, hw⟩ := h.outOk (id, k) (List.mem_cons_self)
  simp only [] at hid hw
  subst hid
  have hnd := List.nodup_cons.1 h.nodup
  obtain ⟨c1, c3, c4⟩ : un job.id = [] ∧ r.handlePool job.id = none ∧ ∀ a ∈ r.answered, a.1 ≠ k := by
    rcases h.place j job k hj hw with ⟨c1, _, c3, c4⟩ | ⟨_, c2, _, _⟩ | ⟨_, _, c2, _, _⟩
    · exact ⟨c1, c3, c4⟩
    · exact absurd List.mem_cons_self c2
    · exact absurd List.mem_cons_self c2
  have hne : ∀ {i a l}, jobs[i]? = some a → waits i = some l → i ≠ j → a.id ≠ job.id ∧ l ≠ k := by
    intro i a l hi hl hij
    exact ⟨fun h0 => hij (hu i j a job hi hj h0 (h.waitsOk i l hl).2.1 (h.waitsOk j k hw).2.1),
      fun h0 => hij (h.inj i j l hl (h0 ▸ hw))⟩
  have hmem : ∀ {i a l}, jobs[i]? = some a → waits i = some l → i ≠ j → ((a.id, l) ∈ rest ↔ (a.id, l) ∈ (job.id, k) :: rest) := by
    intro i a l hi hl hij
    rw [List.mem_cons, Prod.mk.injEq]
    exact ⟨Or.inr, fun h' => h'.resolve_left fun h'' => (hne hi hl hij).2 h''.2⟩
  cases hm : r.mssgPool job.id with
  | none =>
    refine ⟨{ r with handlePool := Function.update r.handlePool job.id (some k), dropped := r.dropped ++ (r.handlePool job.id).toList.map fun h' => (job.id, h') },
      un, by unfold Router.step; simp only []; rw [hm], ?_, fun _ => rfl⟩
    refine ⟨h.waitsOk, ?_, h.unOk, fun a ha => h.outOk a (List.mem_cons_of_mem _ ha), ?_, hnd.2, h.inj, h.fresh, ?_, h.nonempty, h.canc⟩
    · intro i a l hi hl
      by_cases hij : i = j
      · subst hij
        rw [hj, Option.some.injEq] at hi
        rw [hw, Option.some.injEq] at hl
        subst hi hl
        exact Or.inr (Or.inl ⟨c1, hnd.1, by simp only [Function.update_self], c4⟩)
      · have := h.place i a l hi hl
        unfold Placed at this ⊢
        rw [hmem hi hl hij]
        simp only [Function.update_of_ne (hne hi hl hij).1]
        exact this
    · intro id' l hl
      by_cases hi : id' = job.id
      · subst hi
        simp only [Function.update_self, Option.some.injEq] at hl
        subst hl
        exact ⟨j, job, hj, rfl, hw⟩
      · simp only [Function.update_of_ne hi] at hl
        exact h.poolOk id' l hl
    · intro id' l hl
      by_cases hi : id' = job.id
      · subst hi
        exact hm
      · simp only [Function.update_of_ne hi] at hl
        exact h.excl id' l hl
  | some buf =>
    cases buf with
    | nil => exact absurd hm (h.nonempty _)
    | cons m buf =>
      refine ⟨{ r with mssgPool := Function.update r.mssgPool job.id (if buf = [] then none else some buf), answered := r.answered ++ [(k, m)] },
        Function.update un job.id [m], by unfold Router.step; simp only []; rw [hm, h.canc]; simp, ?_, ?_⟩
      · refine ⟨h.waitsOk, ?_, ?_, fun a ha => h.outOk a (List.mem_cons_of_mem _ ha), h.poolOk, hnd.2, h.inj, ?_, ?_, ?_, h.canc⟩
        · intro i a l hi hl
          by_cases hij : i = j
          · subst hij
            rw [hj, Option.some.injEq] at hi
            rw [hw, Option.some.injEq] at hl
            subst hi hl
            refine Or.inr (Or.inr ⟨m, by rw [Function.update_self], hnd.1, c3, ?_⟩)
            simp only []
            rw [List.find?_append, List.find?_eq_none.2 (fun a ha => by simpa using c4 a ha)]
            simp
          · exact (h.place i a l hi hl).other (k := k) (m := m) rfl (hne hi hl hij).2 rfl
              (by rw [Function.update_of_ne (hne hi hl hij).1]) (hmem hi hl hij)
        · intro id' hne'
          by_cases hi : id' = job.id
          · exact ⟨j, job, k, hj, hi.symm, hw⟩
          · rw [Function.update_of_ne hi] at hne'
            exact h.unOk id' hne'
        · intro a ha
          simp only [List.mem_append, List.mem_singleton] at ha
          rcases ha with ha | rfl
          · exact h.fresh a ha
          · exact (h.waitsOk j k hw).1
        · intro id' l hl
          have hi : id' ≠ job.id := by
            rintro rfl
            simp only [] at hl
            rw [c3] at hl
            cases hl
          simp only [Function.update_of_ne hi]
          exact h.excl id' l hl
        · intro id'
          by_cases hi : id' = job.id
          · subst hi
            simp only [Function.update_self]
            split
            · intro h0
              cases h0
            · rename_i hb
              rw [ne_eq, Option.some.injEq]
              exact hb
          · simp only [Function.update_of_ne hi]
            exact h.nonempty id'
      · intro id'
        unfold Router.queueOf
        by_cases hi : id' = job.id
        · subst hi
          simp only [Function.update_self]
          rw [c1, hm]
          by_cases hb : buf = [] <;> simp [hb]
        · simp only [Function.update_of_ne hi]

end Verif
