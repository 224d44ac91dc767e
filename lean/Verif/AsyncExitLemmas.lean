import Verif.AsyncExit
import Verif.AsyncSeq
import Verif.AsyncBenchLemmas

/-!
# Lemmas on processes which end
-/

namespace Verif

variable {O : Type} {n : Nat} {jobs : List (Job O)}

theorem Sys.run_snoc {s s1 s2 : Sys O} {es : List SysStep} (h1 : s.run n jobs es = some s1) {e : SysStep}
    (h2 : s1.step n jobs e = some s2) : s.run n jobs (es ++ [e]) = some s2 := by
  rw [Sys.run_append, h1, Option.bind_some]
  simp [Sys.run, h2]

/-- A party which has finished everything has no step left. -/
theorem Sys.allDone_step {s : Sys O} {p : Nat} (h : s.allDone jobs p = true) (j : Nat) : s.step n jobs (.act p j) = none := by
  unfold Sys.step
  simp only []
  split
  · cases hj : jobs[j]? with
    | none => rfl
    | some job =>
      have hjl := (List.getElem?_eq_some_iff.1 hj).1
      unfold Sys.allDone at h
      rw [List.all_eq_true] at h
      have := h j (List.mem_range.2 hjl)
      unfold Sys.env at this
      split at this
      · next o ho =>
        simp only [Sys.actStep]
        rw [ho]
        simp [Proto.act]
      · simp at this
  · rfl

/-- Finished jobs stay finished. -/
theorem Sys.finished_step {s s' : Sys O} {e : SysStep} (h : s.step n jobs e = some s') {p j : Nat} {o : O}
    (hd : s.loc p j = .done o) : s'.loc p j = .done o := by
  cases e with
  | deliver a b =>
    unfold Sys.step at h
    simp only [] at h
    split at h
    · split at h
      · cases h
      · cases h
        exact hd
    · cases h
  | act a b =>
    by_cases hab : p = a ∧ j = b
    · obtain ⟨rfl, rfl⟩ := hab
      unfold Sys.step at h
      simp only [] at h
      split at h
      · split at h
        · cases h
        · unfold Sys.actStep at h
          split at h
          · rw [hd] at h
            simp [Proto.act] at h
          · cases h
      · cases h
    · have hset : ∀ t, setLoc s.loc a b t p j = s.loc p j := fun t => by
        unfold setLoc
        rw [if_neg hab]
      unfold Sys.step at h
      simp only [] at h
      split at h
      · split at h
        · cases h
        · unfold Sys.actStep at h
          split at h
          · split at h
            · split at h
              · cases h
                simp only [hset, hd]
              · cases h
            · split at h
              · cases h
              · cases h
                simp only [hset, hd]
            · cases h
              simp only [hset, hd]
            · cases h
          · cases h
      · cases h

theorem Sys.allDone_mono {s s' : Sys O} {e : SysStep} (h : s.step n jobs e = some s') {p : Nat}
    (hd : s.allDone jobs p = true) : s'.allDone jobs p = true := by
  unfold Sys.allDone at hd ⊢
  rw [List.all_eq_true] at hd ⊢
  intro j hj
  have := hd j hj
  unfold Sys.env at this ⊢
  split at this
  · next o ho =>
    rw [Sys.finished_step h ho]
    rfl
  · simp at this

/-! ## Exits which lose nothing -/

/-- Executions without losses are executions of the parties. -/
theorem lossless_run {x x' : XSys O} {es : List XStep} (h : x.run n jobs es = some x') (hl : Lossless n jobs x es)
    {es0 : List SysStep} (h0 : Sys.start.run n jobs es0 = some x.sys) {k : Nat}
    (hgone : ∀ p, x.gone p = true → p < n ∧ x.sys.allDone jobs p = true)
    (hk : ((List.range n).filter fun p => x.gone p).length = k) :
    ∃ es1, Sys.start.run n jobs es1 = some x'.sys ∧ (∀ p, x'.gone p = true → p < n ∧ x'.sys.allDone jobs p = true) ∧
      es0.length + k + es.length = es1.length + ((List.range n).filter fun p => x'.gone p).length := by
  induction es generalizing x es0 k with
  | nil =>
    cases h
    exact ⟨es0, h0, hgone, by simp [hk]⟩
  | cons e es ih =>
    unfold XSys.run at h
    obtain ⟨x1, h1, h2⟩ := Option.bind_eq_some_iff.1 h
    cases e with
    | sys e =>
      have hl' := hl x1 h1
      unfold XSys.step at h1
      simp only [] at h1
      split at h1
      · cases h1
      · obtain ⟨s1, h3, h4⟩ := Option.map_eq_some_iff.1 h1
        rw [← h4] at h2 hl'
        obtain ⟨es1, i1, i2, i3⟩ := ih (k := k) h2 hl' (Sys.run_snoc h0 h3)
          (fun p hp => ⟨(hgone p hp).1, Sys.allDone_mono h3 (hgone p hp).2⟩) hk
        refine ⟨es1, i1, i2, ?_⟩
        rw [← i3]
        simp
        omega
    | exit p keep =>
      have hl' := hl.2 x1 h1
      have hkeep := hl.1
      unfold XSys.step at h1
      simp only [] at h1
      split at h1
      · next hc =>
        rw [Option.some.injEq] at h1
        have hsys : x1.sys = x.sys := by
          rw [← h1]
          simp only []
          have : (fun a b => if a = p ∧ b ≠ p then (x.sys.chan a b).take (keep b) else x.sys.chan a b) = x.sys.chan := by
            funext a b
            split
            · next hab =>
              obtain ⟨rfl, _⟩ := hab
              rw [List.take_of_length_le (hkeep b)]
            · rfl
          rw [this]
        have hg : x1.gone = fun q => if q = p then true else x.gone q := by rw [← h1]
        have hk1 : ((List.range n).filter fun q => x1.gone q).length = k + 1 := by
          rw [← hk, hg]
          have hperm : ∀ l : List Nat, l.Nodup → p ∈ l →
              (l.filter fun q => if q = p then true else x.gone q).length = (l.filter fun q => x.gone q).length + 1 := by
            intro l
            induction l with
            | nil => simp
            | cons a l ih =>
              intro hnd hm
              rw [List.nodup_cons] at hnd
              by_cases hap : a = p
              · subst hap
                have hsame : (l.filter fun q => if q = a then true else x.gone q) = l.filter fun q => x.gone q := by
                  refine List.filter_congr fun q hq => ?_
                  rw [if_neg (fun h : q = a => hnd.1 (h ▸ hq))]
                rw [List.filter_cons, List.filter_cons, hsame, hc.2.1]
                simp
              · have := ih hnd.2 (by
                  rcases List.mem_cons.1 hm with h | h
                  · exact absurd h.symm hap
                  · exact h)
                rw [List.filter_cons, List.filter_cons, if_neg hap]
                split
                · simp only [List.length_cons]
                  omega
                · exact this
          exact hperm _ List.nodup_range (List.mem_range.2 hc.1)
        obtain ⟨es1, i1, i2, i3⟩ := ih (k := k + 1) h2 hl' (by rw [hsys]; exact h0) (fun q hq => by
          rw [hsys]
          rw [hg] at hq
          simp only [] at hq
          split at hq
          · next hqp =>
            rw [hqp]
            exact ⟨hc.1, hc.2.2⟩
          · exact hgone q hq) hk1
        refine ⟨es1, i1, i2, ?_⟩
        rw [← i3]
        simp
        omega
      · cases h1

/-! ## `--save` -/

/-- Party 0 has not answered. -/
def TState.early : TState O → Bool
  | .idle => true
  | .sending _ => true
  | .gather _ => true
  | _ => false

/-- Other jobs do not change the state of a job. -/
theorem Sys.step_loc {s s' : Sys O} {e : SysStep} (h : s.step n jobs e = some s') {p j : Nat} (hne : e ≠ .act p j) :
    s'.loc p j = s.loc p j := by
  cases e with
  | deliver a b =>
    unfold Sys.step at h
    simp only [] at h
    split at h
    · split at h
      · cases h
      · cases h
        rfl
    · cases h
  | act a b =>
    have hset : ∀ t, setLoc s.loc a b t p j = s.loc p j := fun t => by
      unfold setLoc
      rw [if_neg]
      rintro ⟨rfl, rfl⟩
      exact hne rfl
    unfold Sys.step at h
    simp only [] at h
    split at h
    · split at h
      · cases h
      · unfold Sys.actStep at h
        split at h
        · split at h
          · split at h
            · cases h
              simp only [hset]
            · cases h
          · split at h
            · cases h
            · cases h
              simp only [hset]
          · cases h
            simp only [hset]
          · cases h
        · cases h
    · cases h

/-- An own step leads to one of the states given by `act`. -/
theorem Sys.step_own {s s' : Sys O} {p j : Nat} {job : Job O} (hj : jobs[j]? = some job)
    (h : s.step n jobs (.act p j) = some s') :
    (∃ dest data next, job.proto.act n p ((s.env p).only job.deps) (s.loc p j) = .send dest data next ∧ s'.loc p j = next) ∨
    (∃ next m, job.proto.act n p ((s.env p).only job.deps) (s.loc p j) = .recv next ∧ s'.loc p j = next m) ∨
    (∃ next, job.proto.act n p ((s.env p).only job.deps) (s.loc p j) = .tau next ∧ s'.loc p j = next) := by
  have hset : ∀ t, setLoc s.loc p j t p j = t := fun t => by
    unfold setLoc
    rw [if_pos ⟨rfl, rfl⟩]
  unfold Sys.step at h
  simp only [hj] at h
  split at h
  · unfold Sys.actStep at h
    split at h
    · split at h
      · next dest data next ha =>
        split at h
        · cases h
          exact Or.inl ⟨dest, data, next, ha, by simp only [hset]⟩
        · cases h
      · next next ha =>
        split at h
        · cases h
        · next m rest _ =>
          cases h
          exact Or.inr (Or.inl ⟨next, m.msg, ha, by simp only [hset]⟩)
      · next next ha =>
        cases h
        exact Or.inr (Or.inr ⟨next, ha, by simp only [hset]⟩)
      · cases h
    · cases h
  · cases h

theorem early_step {s s' : Sys O} {last : Nat} {job : Job O} {o : O} {data : Nat → List Nat}
    (hj : jobs[last]? = some job) (hp : job.proto = saveProto o data)
    (h : s.step n jobs (.act 0 last) = some s') (he : (s.loc 0 last).early = true) (hc : s.collected n last = false)
    (hf : s'.loc 0 last ≠ .fail) : (s'.loc 0 last).early = true := by
  have key := Sys.step_own hj h
  rw [hp] at key
  unfold Sys.collected at hc
  cases hloc : s.loc 0 last with
  | idle =>
    rw [hloc] at key
    simp only [Proto.act, saveProto, orFail, reduceCtorEq, false_and, exists_false, false_or, Act.tau.injEq] at key
    obtain ⟨next, k1, k2⟩ := key
    rw [k2, ← k1]
    rfl
  | sending rest =>
    rw [hloc] at key
    cases rest with
    | nil =>
      simp only [Proto.act, reduceCtorEq, false_and, exists_false, false_or, Act.tau.injEq] at key
      obtain ⟨next, k1, k2⟩ := key
      rw [k2, ← k1]
      simp [Proto.gathers, saveProto, TState.early]
    | cons a rest =>
      simp only [Proto.act, reduceCtorEq, false_and, exists_false, or_false, Act.send.injEq] at key
      obtain ⟨_, _, next, ⟨_, _, k1⟩, k2⟩ := key
      rw [k2, ← k1]
      rfl
  | gather g =>
    rw [hloc] at key hc
    simp only [decide_eq_false_iff_not] at hc
    simp only [Proto.act] at key
    rw [if_neg hc] at key
    simp only [reduceCtorEq, false_and, exists_false, false_or, or_false, Act.recv.injEq] at key
    obtain ⟨next, m, k1, k2⟩ := key
    rw [← k1] at k2
    simp only [] at k2
    rw [k2] at hf ⊢
    cases hg : g.step m with
    | none =>
      rw [hg] at hf
      exact absurd rfl hf
    | some g' =>
      rw [orFail]
      rfl
  | reply rest =>
    rw [hloc] at he
    simp [TState.early] at he
  | wait =>
    rw [hloc] at he
    simp [TState.early] at he
  | done o =>
    rw [hloc] at he
    simp [TState.early] at he
  | fail =>
    rw [hloc] at he
    simp [TState.early] at he

/-- As long as party 0 has not answered, no other party is finished. -/
theorem early_unfinished {s : Sys O} {x : Expected O} (hplan : Plan n jobs x) (hi : s.Inv n jobs x) {last : Nat} {job : Job O}
    {o : O} {data : Nat → List Nat} (hj : jobs[last]? = some job) (hproto : job.proto = saveProto o data)
    (he : (s.loc 0 last).early = true) {p : Nat} (hp : p < n) (hp0 : p ≠ 0) : ¬ s.Finished p last := by
  rintro ⟨o', ho⟩
  have hl := hi.loc last job hj p hp
  rw [ho] at hl
  have h1 := hl.2.2.2 0 (by omega)
  have h2 := hi.got_prefix last 0 p
  have hg : job.proto.gathers p = false := by
    rw [hproto]
    simp [Proto.gathers, saveProto, hp0]
  have hfull : x.full last job 0 p = [x.ans last p] := by
    unfold Expected.full Expected.first
    rw [hg, hproto]
    simp [saveProto]
  rw [h1, hfull] at h2
  have h0 := hi.loc last job hj 0 (by omega)
  have hsent : s.sent last 0 p = [] := by
    cases hloc : s.loc 0 last with
    | idle =>
      rw [hloc] at h0
      exact h0.1 p hp
    | sending rest =>
      rw [hloc] at h0
      obtain ⟨pre, e1, e2⟩ := h0.2.1
      have hs := hplan.sends last job hj 0 (by omega)
      rw [hproto] at hs
      simp only [saveProto, Option.some.injEq] at hs
      rw [e2 p hp]
      have hsub : ∀ a ∈ pre, a = (Recipient.one 0, data 0) := by
        intro a ha
        have : a ∈ x.snd last 0 := by
          rw [e1]
          simp [ha]
        rw [← hs] at this
        simpa using this
      unfold addressedTo
      rw [List.map_eq_nil_iff, List.filter_eq_nil_iff]
      intro a ha
      rw [hsub a ha]
      simp only [Recipient.includes, decide_eq_true_eq]
      exact fun h => hp0 h.symm
    | gather g =>
      rw [hloc] at h0
      rw [h0.2.2.1 p hp]
      unfold Expected.first
      rw [hg]
      rfl
    | reply rest =>
      rw [hloc] at he
      simp [TState.early] at he
    | wait =>
      rw [hloc] at he
      simp [TState.early] at he
    | done o =>
      rw [hloc] at he
      simp [TState.early] at he
    | fail =>
      rw [hloc] at he
      simp [TState.early] at he
  rw [hsent, List.prefix_nil] at h2
  cases h2

/-- Executions with `--save` are executions of the parties in which party 0 does not answer. -/
theorem save_run {x x' : XSys O} {es : List SStep} {y : Expected O} (hplan : Plan n jobs y) {last : Nat} {job : Job O} {o : O}
    {data : Nat → List Nat} (hn : 0 < n) (hj : jobs[last]? = some job) (hproto : job.proto = saveProto o data)
    (h : saveRun n jobs last x es = some x') {es0 : List SysStep} (h0 : Sys.start.run n jobs es0 = some x.sys)
    (he : (x.sys.loc 0 last).early = true) (hgone : ∀ p, x.gone p = true → p = 0) {k : Nat} (hk : k = if x.gone 0 then 1 else 0) :
    ∃ es1, Sys.start.run n jobs es1 = some x'.sys ∧ (x'.sys.loc 0 last).early = true ∧ (∀ p, x'.gone p = true → p = 0) ∧
      es0.length + k + es.length = es1.length + if x'.gone 0 then 1 else 0 := by
  induction es generalizing x es0 k with
  | nil =>
    cases h
    exact ⟨es0, h0, he, hgone, by simp [hk]⟩
  | cons e es ih =>
    unfold saveRun at h
    obtain ⟨x1, h1, h2⟩ := Option.bind_eq_some_iff.1 h
    cases e with
    | sys e =>
      unfold saveStep at h1
      simp only [] at h1
      split at h1
      · cases h1
      · next hc =>
        obtain ⟨s1, h3, h4⟩ := Option.map_eq_some_iff.1 h1
        rw [← h4] at h2
        have hrun := Sys.run_snoc h0 h3
        have he1 : (s1.loc 0 last).early = true := by
          by_cases hact : e = .act 0 last
          · subst hact
            refine early_step hj hproto h3 he ?_ ?_
            · rw [not_or] at hc
              have := hc.2
              simpa using this
            · have hl := (hplan.inv hrun).loc last job hj 0 hn
              intro hf
              rw [hf] at hl
              exact hl
          · rw [Sys.step_loc h3 hact]
            exact he
        obtain ⟨es1, i1, i2, i3, i4⟩ := ih (k := k) h2 hrun he1 hgone hk
        refine ⟨es1, i1, i2, i3, ?_⟩
        rw [← i4]
        simp
        omega
    | finish =>
      unfold saveStep at h1
      simp only [] at h1
      split at h1
      · next hc =>
        rw [Option.some.injEq] at h1
        rw [← h1] at h2
        obtain ⟨es1, i1, i2, i3, i4⟩ := ih (k := 1) h2 h0 he (fun p hp => by
          simp only [] at hp
          split at hp
          · assumption
          · exact hgone p hp) rfl
        refine ⟨es1, i1, i2, i3, ?_⟩
        rw [← i4, hk, hc.1]
        simp
        omega
      · cases h1

end Verif
