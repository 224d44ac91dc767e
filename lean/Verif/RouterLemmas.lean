import Verif.NetworkLemmas

/-!
# Helper lemmas about the receive router and `message_from_each_party`
-/

namespace Verif

theorem Router.run_append (s : Router) (a b : List REvent) : s.run (a ++ b) = (s.run a).bind fun s => s.run b := by
  induction a generalizing s with
  | nil => rfl
  | cons e a ih =>
    simp only [List.cons_append, Router.run]
    cases s.step e with
    | none => rfl
    | some s' => simpa using ih s'

theorem Router.run_snoc (s : Router) (a : List REvent) (e : REvent) : s.run (a ++ [e]) = (s.run a).bind fun s => s.step e := by
  rw [Router.run_append]
  congr 1
  funext s
  simp only [Router.run]
  cases s.step e <;> rfl

theorem reqsOf_snoc (id : ProtocolID) (a : List REvent) (e : REvent) : reqsOf id (a ++ [e]) = reqsOf id a ++ reqsOf id [e] := by
  simp [reqsOf, List.filterMap_append]

theorem msgsOf_snoc (id : ProtocolID) (a : List REvent) (e : REvent) : msgsOf id (a ++ [e]) = msgsOf id a ++ msgsOf id [e] := by
  simp [msgsOf, List.filterMap_append]

/-- What holds after every run which did not panic. -/
structure Router.Inv (s : Router) (evs : List REvent) : Prop where
  msgs : ∀ id, msgsOf id evs = (s.answersOf id).map (·.2) ++ s.queueOf id
  nonempty : ∀ id, s.mssgPool id ≠ some []
  excl : ∀ id h, s.handlePool id = some h → s.mssgPool id = none
  reqs : ∀ id, (reqsOf id evs).Perm ((s.answersOf id).map (·.1) ++ s.droppedOf id ++ (s.handlePool id).toList)
  queueId : ∀ id m, m ∈ s.queueOf id → m.protoId = id

theorem Router.inv_init : Router.init.Inv [] := by
  refine ⟨?_, ?_, ?_, ?_, ?_⟩ <;> intros <;> simp_all [Router.init, Router.answersOf, Router.droppedOf, Router.queueOf, msgsOf, reqsOf]

theorem Router.inv_step {s s' : Router} {evs : List REvent} {e : REvent} (hs : s.Inv evs) (h : s.step e = some s') :
    s'.Inv (evs ++ [e]) := by
  cases e with
  | cancel c =>
    simp only [Router.step, Option.some.injEq] at h
    subst h
    have h1 : ∀ id, reqsOf id (evs ++ [.cancel c]) = reqsOf id evs := by intro id; simp [reqsOf]
    have h2 : ∀ id, msgsOf id (evs ++ [.cancel c]) = msgsOf id evs := by intro id; simp [msgsOf]
    exact ⟨fun id => by rw [h2]; exact hs.msgs id, hs.nonempty, hs.excl, fun id => by rw [h1]; exact hs.reqs id, hs.queueId⟩
  | arrive m =>
    have h1 : ∀ id, reqsOf id (evs ++ [.arrive m]) = reqsOf id evs := by intro id; simp [reqsOf]
    have h2 : ∀ id, msgsOf id (evs ++ [.arrive m]) = msgsOf id evs ++ if m.protoId = id then [m] else [] := by
      intro id; by_cases hid : m.protoId = id <;> simp [msgsOf, hid]
    rw [Router.step] at h
    cases hp : s.handlePool m.protoId with
    | some c =>
      rw [hp] at h
      simp only at h
      split at h
      · cases h
      rw [Option.some.injEq] at h
      subst h
      have hq : s.mssgPool m.protoId = none := hs.excl _ _ hp
      refine ⟨?_, hs.nonempty, ?_, ?_, hs.queueId⟩
      · intro id
        rw [h2, hs.msgs]
        by_cases hid : m.protoId = id
        · subst hid
          simp [Router.answersOf, Router.queueOf, hq]
        · simp [Router.answersOf, Router.queueOf, hid]
      · intro id c' hc'
        by_cases hid : id = m.protoId
        · subst hid; exact hq
        · simp only [Function.update_of_ne hid] at hc'
          exact hs.excl _ _ hc'
      · intro id
        rw [h1]
        refine (hs.reqs id).trans ?_
        by_cases hid : m.protoId = id
        · subst hid
          simp only [Router.answersOf, Router.droppedOf, List.filter_append, List.map_append, hp, Function.update_self]
          simp only [Option.toList_some, Option.toList_none, List.append_nil]
          rw [show List.filter (fun a : Nat × RMsg => decide (a.2.protoId = m.protoId)) [(c, m)] = [(c, m)] by simp]
          rw [List.append_assoc, List.append_assoc]
          exact List.Perm.append_left _ List.perm_append_comm
        · have hid' : id ≠ m.protoId := fun h => hid h.symm
          simp [Router.answersOf, Router.droppedOf, hid, Function.update_of_ne hid']
    | none =>
      rw [hp] at h
      simp only [Option.some.injEq] at h
      subst h
      refine ⟨?_, ?_, ?_, ?_, ?_⟩
      · intro id
        rw [h2, hs.msgs]
        by_cases hid : m.protoId = id
        · subst hid
          simp [Router.answersOf, Router.queueOf]
        · have hid' : id ≠ m.protoId := fun h => hid h.symm
          simp [Router.answersOf, Router.queueOf, hid, Function.update_of_ne hid']
      · intro id
        by_cases hid : id = m.protoId
        · subst hid; simp
        · simp only [Function.update_of_ne hid]; exact hs.nonempty id
      · intro id c hc
        by_cases hid : id = m.protoId
        · subst hid; simp only at hc; rw [hp] at hc; cases hc
        · simp only [Function.update_of_ne hid]; exact hs.excl id c hc
      · intro id
        rw [h1]
        exact hs.reqs id
      · intro id m' hm'
        by_cases hid : id = m.protoId
        · subst hid
          simp only [Router.queueOf, Function.update_self, Option.getD_some, List.mem_append, List.mem_singleton] at hm'
          rcases hm' with hm' | rfl
          · exact hs.queueId _ _ hm'
          · rfl
        · simp only [Router.queueOf, Function.update_of_ne hid] at hm'
          exact hs.queueId id m' hm'
  | request rid c =>
    have h1 : ∀ id, reqsOf id (evs ++ [.request rid c]) = reqsOf id evs ++ if rid = id then [c] else [] := by
      intro id; by_cases hid : rid = id <;> simp [reqsOf, hid]
    have h2 : ∀ id, msgsOf id (evs ++ [.request rid c]) = msgsOf id evs := by
      intro id; simp [msgsOf]
    rw [Router.step] at h
    cases hp : s.mssgPool rid with
    | some buf =>
      rw [hp] at h
      cases buf with
      | nil => cases h
      | cons m buf =>
        simp only at h
        split at h
        · cases h
        rw [Option.some.injEq] at h
        subst h
        have hmid : m.protoId = rid := hs.queueId rid m (by simp [Router.queueOf, hp])
        have hhp : s.handlePool rid = none := by
          cases hh : s.handlePool rid with
          | none => rfl
          | some c' => rw [hs.excl _ _ hh] at hp; cases hp
        refine ⟨?_, ?_, ?_, ?_, ?_⟩
        · intro id
          rw [h2, hs.msgs]
          by_cases hid : rid = id
          · subst hid
            simp only [Router.answersOf, Router.queueOf, hp, List.filter_append, List.map_append, Function.update_self, Option.getD_some]
            rw [show List.filter (fun a : Nat × RMsg => decide (a.2.protoId = rid)) [(c, m)] = [(c, m)] by simp [hmid]]
            cases buf <;> simp
          · have hid' : id ≠ rid := fun h => hid h.symm
            have hmid' : m.protoId ≠ id := by rw [hmid]; exact hid
            simp [Router.answersOf, Router.queueOf, hmid', Function.update_of_ne hid']
        · intro id
          by_cases hid : id = rid
          · subst hid
            cases buf <;> simp
          · simp only [Function.update_of_ne hid]; exact hs.nonempty id
        · intro id c' hc'
          by_cases hid : id = rid
          · subst hid; simp only at hc'; rw [hhp] at hc'; cases hc'
          · simp only [Function.update_of_ne hid]; exact hs.excl id c' hc'
        · intro id
          rw [h1]
          by_cases hid : rid = id
          · subst hid
            simp only [Router.answersOf, Router.droppedOf, hhp, List.filter_append, List.map_append, if_true]
            rw [show List.filter (fun a : Nat × RMsg => decide (a.2.protoId = rid)) [(c, m)] = [(c, m)] by simp [hmid]]
            have hr := hs.reqs rid
            rw [hhp] at hr
            simp only [Option.toList_none, List.append_nil, Router.answersOf, Router.droppedOf] at hr ⊢
            refine (hr.append_right [c]).trans ?_
            rw [List.append_assoc, List.append_assoc]
            exact List.Perm.append_left _ List.perm_append_comm
          · have hmid' : m.protoId ≠ id := by rw [hmid]; exact hid
            simpa [Router.answersOf, Router.droppedOf, hmid', hid] using hs.reqs id
        · intro id m' hm'
          by_cases hid : id = rid
          · subst hid
            apply hs.queueId id m'
            simp only [Router.queueOf, Function.update_self] at hm'
            simp only [Router.queueOf, hp, Option.getD_some]
            cases buf with
            | nil => simp at hm'
            | cons b buf => simp at hm' ⊢; right; exact hm'
          · simp only [Router.queueOf, Function.update_of_ne hid] at hm'
            exact hs.queueId id m' hm'
    | none =>
      rw [hp] at h
      simp only [Option.some.injEq] at h
      subst h
      refine ⟨fun id => by rw [h2]; exact hs.msgs id, hs.nonempty, ?_, ?_, hs.queueId⟩
      · intro id c' hc'
        by_cases hid : id = rid
        · subst hid; exact hp
        · simp only [Function.update_of_ne hid] at hc'; exact hs.excl id c' hc'
      · intro id
        rw [h1]
        by_cases hid : rid = id
        · subst hid
          simp only [Router.answersOf, Router.droppedOf, List.filter_append, List.map_append, Function.update_self, if_true,
            Option.toList_some]
          have hr := (hs.reqs rid).append_right [c]
          refine hr.trans ?_
          simp only [Router.answersOf, Router.droppedOf]
          have : (List.map (·.2) (List.filter (fun a : ProtocolID × Nat => decide (a.1 = rid)) ((s.handlePool rid).toList.map fun h' => (rid, h'))))
              = (s.handlePool rid).toList := by
            cases s.handlePool rid <;> simp
          rw [this]
          simp only [List.append_assoc]
          exact List.Perm.refl _
        · have hid' : id ≠ rid := fun h => hid h.symm
          have : (List.filter (fun a : ProtocolID × Nat => decide (a.1 = id)) ((s.handlePool rid).toList.map fun h' => (rid, h'))) = [] := by
            cases s.handlePool rid <;> simp [hid]
          simp only [Router.answersOf, Router.droppedOf, List.filter_append, Function.update_of_ne hid', this, if_neg hid,
            List.append_nil]
          exact hs.reqs id

theorem Router.inv_run {evs : List REvent} {s : Router} (h : Router.init.run evs = some s) : s.Inv evs := by
  induction evs using List.reverseRecOn generalizing s with
  | nil => simp only [Router.run, Option.some.injEq] at h; subst h; exact Router.inv_init
  | append_singleton evs e ih =>
    rw [Router.run_snoc] at h
    obtain ⟨s₁, h1, h2⟩ := Option.bind_eq_some_iff.1 h
    exact Router.inv_step (ih h1) h2

theorem Sequential.init {evs : List REvent} {e : REvent} (h : Sequential (evs ++ [e])) : Sequential evs := by
  refine ⟨fun c hc => h.1 c (by simp [hc]), ?_⟩
  intro pre id c post he
  exact h.2 pre id c (post ++ [e]) (by rw [he]; simp)

/-- What holds after every sequential run. -/
structure Router.SeqInv (s : Router) (evs : List REvent) : Prop where
  answers : ∀ id, s.answersOf id = (reqsOf id evs).zip (msgsOf id evs)
  pend : ∀ id, (s.handlePool id).toList = (reqsOf id evs).drop (msgsOf id evs).length
  queue : ∀ id, s.queueOf id = (msgsOf id evs).drop (reqsOf id evs).length
  nonempty : ∀ id, s.mssgPool id ≠ some []
  bound : ∀ id, (reqsOf id evs).length ≤ (msgsOf id evs).length + 1
  cancelled : s.cancelled = []
  dropped : s.dropped = []
  queueId : ∀ id m, m ∈ msgsOf id evs → m.protoId = id

theorem Router.seq_run {evs : List REvent} (h : Sequential evs) :
    ∃ s, Router.init.run evs = some s ∧ s.SeqInv evs := by
  induction evs using List.reverseRecOn with
  | nil =>
    refine ⟨Router.init, rfl, ?_⟩
    refine ⟨?_, ?_, ?_, ?_, ?_, rfl, rfl, ?_⟩ <;> intros <;>
      simp_all [Router.init, Router.answersOf, Router.queueOf, msgsOf, reqsOf]
  | append_singleton evs e ih =>
    obtain ⟨s, hrun, hs⟩ := ih h.init
    rw [Router.run_snoc, hrun, Option.bind_some]
    cases e with
    | cancel c => exact absurd (h.1 c) (by simp)
    | arrive m =>
      have h1 : ∀ id, reqsOf id (evs ++ [.arrive m]) = reqsOf id evs := by intro id; simp [reqsOf]
      have h2 : ∀ id, msgsOf id (evs ++ [.arrive m]) = msgsOf id evs ++ if m.protoId = id then [m] else [] := by
        intro id; by_cases hid : m.protoId = id <;> simp [msgsOf, hid]
      have hqid : ∀ id m', m' ∈ msgsOf id (evs ++ [.arrive m]) → m'.protoId = id := by
        intro id m' hm'
        rw [h2] at hm'
        rcases List.mem_append.1 hm' with hm' | hm'
        · exact hs.queueId id m' hm'
        · by_cases hid : m.protoId = id
          · rw [if_pos hid, List.mem_singleton] at hm'; rw [hm']; exact hid
          · rw [if_neg hid] at hm'; cases hm'
      cases hp : s.handlePool m.protoId with
      | some c =>
        have hpend := hs.pend m.protoId
        rw [hp] at hpend
        simp only [Option.toList_some] at hpend
        have hb := hs.bound m.protoId
        have hlen : (reqsOf m.protoId evs).length = (msgsOf m.protoId evs).length + 1 := by
          have := congrArg List.length hpend
          simp at this
          omega
        have hreq : reqsOf m.protoId evs = (reqsOf m.protoId evs).take (msgsOf m.protoId evs).length ++ [c] := by
          rw [hpend, List.take_append_drop]
        refine ⟨_, by simp only [Router.step, hp, hs.cancelled]; rw [if_neg (by simp)], ?_⟩
        refine ⟨?_, ?_, ?_, hs.nonempty, ?_, rfl, hs.dropped, hqid⟩
        · intro id
          rw [h1, h2]
          by_cases hid : m.protoId = id
          · subst hid
            have ha := hs.answers m.protoId
            simp only [Router.answersOf] at ha ⊢
            rw [List.filter_append, ha]
            rw [show List.filter (fun a : Nat × RMsg => decide (a.2.protoId = m.protoId)) [(c, m)] = [(c, m)] by simp]
            rw [if_pos trivial]
            conv_rhs => rw [hreq, List.zip_append (by simp; omega)]
            conv_lhs => rw [hreq]
            congr 1
            rw [List.zip_eq_zip_take_min]
            conv_rhs => rw [List.zip_eq_zip_take_min]
            congr 1
            · simp [hlen]
            · simp [hlen]
          · have ha := hs.answers id
            simp only [Router.answersOf] at ha ⊢
            simp [hid, ha]
        · intro id
          rw [h1, h2]
          by_cases hid : m.protoId = id
          · subst hid
            simp
            omega
          · have hid' : id ≠ m.protoId := fun h => hid h.symm
            simp only [Function.update_of_ne hid', if_neg hid, List.append_nil]
            exact hs.pend id
        · intro id
          rw [h1, h2]
          by_cases hid : m.protoId = id
          · subst hid
            have := hs.queue m.protoId
            simp only [Router.queueOf] at this ⊢
            rw [this, if_pos trivial, List.drop_append, List.drop_eq_nil_of_le (by omega), hlen]
            simp
          · rw [if_neg hid, List.append_nil]
            exact hs.queue id
        · intro id
          rw [h1, h2]
          have := hs.bound id
          simp only [List.length_append]
          omega
      | none =>
        have hpend := hs.pend m.protoId
        rw [hp] at hpend
        simp only [Option.toList_none] at hpend
        have hlen : (reqsOf m.protoId evs).length ≤ (msgsOf m.protoId evs).length := by
          have := congrArg List.length hpend
          simp at this
          omega
        refine ⟨_, by simp only [Router.step, hp]; rfl, ?_⟩
        refine ⟨?_, ?_, ?_, ?_, ?_, hs.cancelled, hs.dropped, hqid⟩
        · intro id
          rw [h1, h2]
          by_cases hid : m.protoId = id
          · subst hid
            have ha := hs.answers m.protoId
            simp only [Router.answersOf] at ha ⊢
            rw [ha, if_pos trivial]
            rw [List.zip_eq_zip_take_min]
            conv_rhs => rw [List.zip_eq_zip_take_min]
            rw [min_eq_left hlen, min_eq_left (by simp; omega), List.take_append_of_le_length hlen]
          · rw [if_neg hid, List.append_nil]; exact hs.answers id
        · intro id
          rw [h1, h2]
          by_cases hid : m.protoId = id
          · subst hid
            simp only [hp, Option.toList_none]
            rw [List.drop_eq_nil_of_le (by simp; omega)]
          · rw [if_neg hid, List.append_nil]; exact hs.pend id
        · intro id
          rw [h1, h2]
          by_cases hid : m.protoId = id
          · subst hid
            have := hs.queue m.protoId
            simp only [Router.queueOf] at this ⊢
            rw [Function.update_self, if_pos trivial, Option.getD_some, this, List.drop_append_of_le_length hlen]
          · have hid' : id ≠ m.protoId := fun h => hid h.symm
            simp only [Router.queueOf, Function.update_of_ne hid', if_neg hid, List.append_nil]
            exact hs.queue id
        · intro id
          by_cases hid : id = m.protoId
          · subst hid; simp
          · simp only [Function.update_of_ne hid]; exact hs.nonempty id
        · intro id
          rw [h1, h2]
          have := hs.bound id
          simp only [List.length_append]
          omega
    | request rid c =>
      have h1 : ∀ id, reqsOf id (evs ++ [.request rid c]) = reqsOf id evs ++ if rid = id then [c] else [] := by
        intro id; by_cases hid : rid = id <;> simp [reqsOf, hid]
      have h2 : ∀ id, msgsOf id (evs ++ [.request rid c]) = msgsOf id evs := by
        intro id; simp [msgsOf]
      have hlen : (reqsOf rid evs).length ≤ (msgsOf rid evs).length := h.2 evs rid c [] (by simp)
      have hqid : ∀ id m', m' ∈ msgsOf id (evs ++ [.request rid c]) → m'.protoId = id := by
        intro id m' hm'
        rw [h2] at hm'
        exact hs.queueId id m' hm'
      have hhp : s.handlePool rid = none := by
        have := hs.pend rid
        rw [List.drop_eq_nil_of_le hlen] at this
        simpa using this
      have hqueue := hs.queue rid
      cases hp : s.mssgPool rid with
      | some buf =>
        cases buf with
        | nil => exact absurd hp (hs.nonempty rid)
        | cons m buf =>
          simp only [Router.queueOf, hp, Option.getD_some] at hqueue
          have hmid : m.protoId = rid := by
            apply hs.queueId rid m
            have : m ∈ (msgsOf rid evs).drop (reqsOf rid evs).length := by rw [← hqueue]; simp
            exact List.mem_of_mem_drop this
          have hlt : (reqsOf rid evs).length < (msgsOf rid evs).length := by
            have := congrArg List.length hqueue
            simp at this
            omega
          have hmsgs : msgsOf rid evs = (msgsOf rid evs).take (reqsOf rid evs).length ++ m :: buf := by
            rw [hqueue, List.take_append_drop]
          refine ⟨_, by simp only [Router.step, hp, hs.cancelled]; rw [if_neg (by simp)], ?_⟩
          refine ⟨?_, ?_, ?_, ?_, ?_, rfl, hs.dropped, hqid⟩
          · intro id
            rw [h1, h2]
            by_cases hid : rid = id
            · subst hid
              have ha := hs.answers rid
              simp only [Router.answersOf] at ha ⊢
              rw [List.filter_append, ha, if_pos trivial]
              rw [show List.filter (fun a : Nat × RMsg => decide (a.2.protoId = rid)) [(c, m)] = [(c, m)] by simp [hmid]]
              conv_rhs => rw [hmsgs, List.zip_append (by simp; omega)]
              simp only [List.zip_cons_cons, List.zip_nil_left]
              congr 1
              rw [List.zip_eq_zip_take_min]
              rw [min_eq_left (by omega), List.take_length]
            · have hmid' : m.protoId ≠ id := by rw [hmid]; exact hid
              have ha := hs.answers id
              simp only [Router.answersOf] at ha ⊢
              simp [hid, hmid', ha]
          · intro id
            rw [h1, h2]
            by_cases hid : rid = id
            · subst hid
              simp only [hhp, Option.toList_none]
              rw [List.drop_eq_nil_of_le (by simp; omega)]
            · rw [if_neg hid, List.append_nil]; exact hs.pend id
          · intro id
            rw [h1, h2]
            by_cases hid : rid = id
            · subst hid
              simp only [Router.queueOf, Function.update_self, if_true]
              rw [List.length_append, ← List.drop_drop, ← hqueue]
              cases buf <;> simp
            · have hid' : id ≠ rid := fun h => hid h.symm
              simp only [Router.queueOf, Function.update_of_ne hid', if_neg hid, List.append_nil]
              exact hs.queue id
          · intro id
            by_cases hid : id = rid
            · subst hid
              cases buf <;> simp
            · simp only [Function.update_of_ne hid]; exact hs.nonempty id
          · intro id
            rw [h1, h2]
            by_cases hid : rid = id
            · subst hid; simp; omega
            · rw [if_neg hid, List.append_nil]; exact hs.bound id
      | none =>
        simp only [Router.queueOf, hp, Option.getD_none] at hqueue
        have hle : (msgsOf rid evs).length ≤ (reqsOf rid evs).length := by
          have := congrArg List.length hqueue
          simp at this
          omega
        refine ⟨_, by simp only [Router.step, hp]; rfl, ?_⟩
        refine ⟨?_, ?_, ?_, hs.nonempty, ?_, hs.cancelled, by simp [hhp, hs.dropped], hqid⟩
        · intro id
          rw [h1, h2]
          by_cases hid : rid = id
          · subst hid
            have ha := hs.answers rid
            simp only [Router.answersOf] at ha ⊢
            rw [ha, if_pos trivial]
            rw [List.zip_eq_zip_take_min]
            conv_rhs => rw [List.zip_eq_zip_take_min]
            rw [min_eq_right hle, min_eq_right (by simp; omega), List.take_append_of_le_length hle]
          · rw [if_neg hid, List.append_nil]; exact hs.answers id
        · intro id
          rw [h1, h2]
          by_cases hid : rid = id
          · subst hid
            simp only [Function.update_self, Option.toList_some, if_true]
            rw [List.drop_append, List.drop_eq_nil_of_le hlen]
            simp [show (msgsOf rid evs).length - (reqsOf rid evs).length = 0 by omega]
          · have hid' : id ≠ rid := fun h => hid h.symm
            simp only [Function.update_of_ne hid', if_neg hid, List.append_nil]
            exact hs.pend id
        · intro id
          rw [h1, h2]
          by_cases hid : rid = id
          · subst hid
            simp only [Router.queueOf, hp, Option.getD_none]
            rw [List.drop_eq_nil_of_le (by simp; omega)]
          · rw [if_neg hid, List.append_nil]; exact hs.queue id
        · intro id
          rw [h1, h2]
          by_cases hid : rid = id
          · subst hid; simp; omega
          · rw [if_neg hid, List.append_nil]; exact hs.bound id

end Verif
