import Verif.AsyncProgress
import Verif.ArrayLemmas

/-!
# Schedules against sequential executions

The plan which a sequential execution gives, and what follows for all schedules.
-/

namespace Verif

variable {O : Type} {n : Nat} {jobs : List (Job O)}

theorem mapM_range_get {β : Type} {m : Nat} {f : Nat → Option β} {w : List β} (d : β)
    (h : (List.range m).mapM f = some w) :
    w.length = m ∧ (∀ i < m, f i = some (w.getD i d)) ∧ w = (List.range m).map fun i => w.getD i d := by
  have h1 : w.length = m := by rw [mapM_length h, List.length_range]
  refine ⟨h1, fun i hi => ?_, ?_⟩
  · have h2 := mapM_getElem h i (by simpa using hi) (by omega)
    rw [List.getElem_range] at h2
    rw [h2, List.getD_eq_getElem?_getD, List.getElem?_eq_getElem (by omega)]
    rfl
  · apply List.ext_getElem
    · simp [h1]
    · intro i h2 h3
      simp [h2]

theorem theMessage_filter {q : Nat} {l : List (Recipient × List Nat)} {m : List Nat} (h : theMessage q l = some m) :
    (l.filter fun a => a.1.includes q).map (·.2) = [m] := by
  unfold theMessage at h
  split at h
  · next a ha =>
    rw [ha]
    cases h
    rfl
  · cases h

/-- The messages in a sequential execution of a protocol. -/
structure Proto.Parts (n : Nat) (P : Proto O) (envs : Nat → Env O) (o : List O)
    (snd : Nat → List (Recipient × List Nat)) (msg : Nat → Nat → List Nat) (ans : Nat → List Nat) : Prop where
  len : o.length = n
  leader : ∀ L, P.leader = some L → L < n
  sends : ∀ p < n, P.sends p (envs p) = some (snd p)
  known : ∀ p < n, ∀ a ∈ snd p, a.1.known n = true
  addressed : ∀ p < n, ∀ q < n,
    ((snd p).filter fun a => a.1.includes q).map (·.2) = if P.gathers q then [msg p q] else []
  answer : ∀ L, P.leader = some L → P.answer (envs L) ((List.range n).map fun p => msg p L) = some ((List.range n).map ans)
  finishOne : ∀ L, P.leader = some L → ∀ p < n, P.finish p (envs p) [ans p] = o[p]?
  finishAll : P.leader = none → ∀ p < n, P.finish p (envs p) ((List.range n).map fun q => msg q p) = o[p]?

theorem Proto.round_parts {P : Proto O} {envs : Nat → Env O} {o : List O} (h : P.round n envs = some o) :
    ∃ snd msg ans, P.Parts n envs o snd msg ans := by
  unfold Proto.round at h
  obtain ⟨sent, h1, h2⟩ := Option.bind_eq_some_iff.1 h
  obtain ⟨s1, s2, s3⟩ := mapM_range_get [] h1
  split at h2
  · next hk =>
    have hknown : ∀ p < n, ∀ a ∈ sent.getD p [], a.1.known n = true := by
      intro p hp a ha
      rw [List.all_eq_true] at hk
      have hm : sent.getD p [] ∈ sent := by
        rw [List.getD_eq_getElem?_getD, List.getElem?_eq_getElem (by omega)]
        exact List.getElem_mem _
      have := hk _ hm
      rw [List.all_eq_true] at this
      exact this a ha
    have hmsgs : ∀ (q : Nat) (ms : List (List Nat)), sent.mapM (theMessage q) = some ms →
        ms = (List.range n).map (fun p => (theMessage q (sent.getD p [])).getD []) ∧
        ∀ p < n, theMessage q (sent.getD p []) = some ((theMessage q (sent.getD p [])).getD []) := by
      intro q ms hms
      have hl : ms.length = n := by rw [mapM_length hms, s1]
      have hp : ∀ p, ∀ hp : p < n, theMessage q (sent.getD p []) = some (ms[p]) := by
        intro p hp
        have := mapM_getElem hms p (by omega) (by omega)
        rw [List.getD_eq_getElem?_getD, List.getElem?_eq_getElem (by omega)]
        exact this
      constructor
      · apply List.ext_getElem
        · simp [hl]
        · intro p h3 h4
          have hpn : p < n := by omega
          have h5 := hp p hpn
          simp only [List.getElem_map, List.getElem_range]
          rw [h5]
          rfl
      · intro p hpn
        rw [hp p hpn]
        rfl
    cases hL : P.leader with
    | none =>
      rw [hL] at h2
      simp only [] at h2
      have hlen : o.length = n := by rw [mapM_length h2, List.length_range]
      refine ⟨fun p => sent.getD p [], fun p q => (theMessage q (sent.getD p [])).getD [], fun _ => [], ?_⟩
      have hq : ∀ q (hq : q < n), (∀ p < n, theMessage q (sent.getD p []) = some ((theMessage q (sent.getD p [])).getD [])) ∧
          P.finish q (envs q) ((List.range n).map fun p => (theMessage q (sent.getD p [])).getD []) = o[q]? := by
        intro q hq
        have h3 := mapM_getElem h2 q (by simpa using hq) (by omega)
        rw [List.getElem_range] at h3
        obtain ⟨ms, h4, h5⟩ := Option.bind_eq_some_iff.1 h3
        obtain ⟨h6, h7⟩ := hmsgs q ms h4
        refine ⟨h7, ?_⟩
        rw [← h6, h5, List.getElem?_eq_getElem]
      refine ⟨hlen, by simp [hL], s2, hknown, ?_, by simp [hL], by simp [hL], fun _ p hp => (hq p hp).2⟩
      intro p hp q hqn
      rw [theMessage_filter ((hq q hqn).1 p hp), if_pos]
      unfold Proto.gathers
      rw [hL]
    | some L =>
      rw [hL] at h2
      simp only [] at h2
      split at h2
      · next hLn =>
        obtain ⟨ms, h4, h5⟩ := Option.bind_eq_some_iff.1 h2
        obtain ⟨rs, h6, h7⟩ := Option.bind_eq_some_iff.1 h5
        split at h7
        · next hrl =>
          obtain ⟨m1, m2⟩ := hmsgs L ms h4
          have hlen : o.length = n := by rw [mapM_length h7, List.length_range]
          refine ⟨fun p => sent.getD p [], fun p q => (theMessage q (sent.getD p [])).getD [], fun q => rs.getD q [], ?_⟩
          refine ⟨hlen, ?_, s2, hknown, ?_, ?_, ?_, by simp [hL]⟩
          · intro L' hL'
            rw [hL] at hL'
            cases hL'
            exact hLn.1
          · intro p hp q hq
            unfold Proto.gathers
            rw [hL]
            by_cases hqL : q = L
            · subst hqL
              simp only [decide_true, if_true]
              exact theMessage_filter (m2 p hp)
            · simp only [hqL, decide_false, Bool.false_eq_true, if_false, List.map_eq_nil_iff, List.filter_eq_nil_iff]
              intro a ha
              have h8 := hLn.2
              rw [List.all_eq_true] at h8
              have hm : sent.getD p [] ∈ sent := by
                rw [List.getD_eq_getElem?_getD, List.getElem?_eq_getElem (by omega)]
                exact List.getElem_mem _
              have h9 := h8 _ hm
              rw [List.all_eq_true] at h9
              have h10 := h9 a ha
              rw [decide_eq_true_eq] at h10
              rw [h10]
              unfold Recipient.includes
              simp
              exact fun h => hqL h.symm
          · intro L' hL'
            rw [hL] at hL'
            cases hL'
            rw [← m1, h6]
            congr 1
            apply List.ext_getElem
            · simp [hrl]
            · intro i h8 h9
              simp [h8]
          · intro L' _ p hp
            have h3 := mapM_getElem h7 p (by simpa using hp) (by omega)
            rw [List.getElem_range, List.getElem?_eq_getElem (by omega)] at h3
            rw [List.getD_eq_getElem?_getD, List.getElem?_eq_getElem (by omega),
              List.getElem?_eq_getElem (by omega)]
            exact h3
        · cases h7
      · cases h2
  · cases h2

theorem seqFrom_spec {js : List (Job O)} {outs res : List (List O)} (h : seqFrom n js outs = some res) :
    res.length = outs.length + js.length ∧ outs <+: res ∧
      ∀ (i : Nat) (job : Job O), js[i]? = some job → (∀ d ∈ job.deps, d < outs.length + i) ∧
        job.proto.round n (seqEnv res job.deps) = res[outs.length + i]? := by
  induction js generalizing outs with
  | nil =>
    simp only [seqFrom, Option.some.injEq] at h
    subst h
    exact ⟨rfl, List.prefix_rfl, by simp⟩
  | cons j js ih =>
    unfold seqFrom at h
    split at h
    · next hd =>
      obtain ⟨o, h1, h2⟩ := Option.bind_eq_some_iff.1 h
      obtain ⟨i1, i2, i3⟩ := ih h2
      have hpre : outs <+: res := (List.prefix_append _ _).trans i2
      refine ⟨by rw [i1]; simp; omega, hpre, ?_⟩
      intro i job hi
      cases i with
      | zero =>
        simp only [List.getElem?_cons_zero, Option.some.injEq] at hi
        subst hi
        have hdl : ∀ d ∈ j.deps, d < outs.length := by
          intro d hdm
          rw [List.all_eq_true] at hd
          simpa using hd d hdm
        refine ⟨by simpa using hdl, ?_⟩
        have henv : seqEnv res j.deps = seqEnv outs j.deps := by
          funext p d
          unfold seqEnv
          by_cases hdm : d ∈ j.deps
          · simp only [hdm, if_true]
            rw [List.prefix_iff_getElem?.1 hpre d (hdl d hdm), List.getElem?_eq_getElem (hdl d hdm)]
          · simp only [hdm, if_false]
        rw [henv, h1, Nat.add_zero]
        have := i2.getElem (i := outs.length) (by simp)
        rw [List.getElem?_eq_getElem (by rw [i1]; simp; omega), ← this]
        simp
      | succ i =>
        simp only [List.getElem?_cons_succ] at hi
        obtain ⟨e1, e2⟩ := i3 i job hi
        rw [List.length_append, List.length_singleton] at e1 e2
        refine ⟨fun d hd => by have := e1 d hd; omega, ?_⟩
        rw [e2]
        congr 1
        omega
    · cases h

/-- The plan given by a sequential execution. -/
theorem exists_plan [Inhabited O] {outs : List (List O)} (h : seqRun n jobs = some outs) (hids : IdsOk jobs) :
    ∃ x : Expected O, Plan n jobs x ∧ ∀ j < jobs.length, ∀ p < n, (outs[j]?).bind (fun o => o[p]?) = some (x.out j p) := by
  classical
  obtain ⟨h1, _, h3⟩ := seqFrom_spec h
  simp only [List.length_nil, Nat.zero_add] at h1 h3
  have hparts : ∀ j, ∃ (snd : Nat → List (Recipient × List Nat)) (msg : Nat → Nat → List Nat) (ans : Nat → List Nat),
      ∀ job : Job O, jobs[j]? = some job → job.proto.Parts n (seqEnv outs job.deps) (outs.getD j []) snd msg ans := by
    intro j
    by_cases hj : j < jobs.length
    · have hjj : jobs[j]? = some jobs[j] := List.getElem?_eq_getElem hj
      obtain ⟨_, h4⟩ := h3 j _ hjj
      rw [List.getElem?_eq_getElem (by omega)] at h4
      obtain ⟨snd, msg, ans, h5⟩ := Proto.round_parts h4
      refine ⟨snd, msg, ans, fun job hjob => ?_⟩
      rw [hjj] at hjob
      cases hjob
      rw [List.getD_eq_getElem?_getD, List.getElem?_eq_getElem (by omega)]
      exact h5
    · refine ⟨fun _ => [], fun _ _ => [], fun _ => [], fun job hjob => ?_⟩
      rw [List.getElem?_eq_none (by omega)] at hjob
      cases hjob
  choose snd msg ans hp using hparts
  have hout : ∀ j < jobs.length, ∀ p < n, (outs[j]?).bind (fun o => o[p]?) = some ((outs.getD j []).getD p default) := by
    intro j hj p hpn
    have hlen := (hp j jobs[j] (List.getElem?_eq_getElem hj)).len
    have hoj : outs[j]? = some (outs.getD j []) := by
      rw [List.getD_eq_getElem?_getD, List.getElem?_eq_getElem (by omega), Option.getD_some]
    rw [hoj, Option.bind_some, List.getD_eq_getElem?_getD (l := outs.getD j []), List.getElem?_eq_getElem (by omega),
      Option.getD_some]
  refine ⟨⟨snd, msg, ans, fun j p => (outs.getD j []).getD p default⟩, ?_, hout⟩
  have henv : ∀ (j : Nat) (job : Job O), jobs[j]? = some job → ∀ p < n,
      (⟨snd, msg, ans, fun j p => (outs.getD j []).getD p default⟩ : Expected O).env job p = seqEnv outs job.deps p := by
    intro j job hj p hpn
    funext d
    unfold Expected.env seqEnv
    by_cases hd : d ∈ job.deps
    · simp only [hd, if_true]
      have hjl : j < jobs.length := (List.getElem?_eq_some_iff.1 hj).1
      have := (h3 j job hj).1 d hd
      rw [hout d (by omega) p hpn]
    · simp only [hd, if_false]
  have hget : ∀ (j : Nat) (job : Job O), jobs[j]? = some job → ∀ p < n,
      (outs.getD j [])[p]? = some ((outs.getD j []).getD p default) := by
    intro j job hj p hpn
    have hlen := (hp j job hj).len
    rw [List.getD_eq_getElem?_getD (l := outs.getD j []), List.getElem?_eq_getElem (by omega), Option.getD_some]
  refine ⟨fun j job hj => (h3 j job hj).1, fun j job hj => (hp j job hj).leader, ?_, fun j job hj => (hp j job hj).known,
    fun j job hj => (hp j job hj).addressed, ?_, ?_, ?_, hids⟩
  · intro j job hj p hpn
    rw [henv j job hj p hpn]
    exact (hp j job hj).sends p hpn
  · intro j job hj L hL
    rw [henv j job hj L ((hp j job hj).leader L hL)]
    exact (hp j job hj).answer L hL
  · intro j job hj L hL p hpn
    rw [henv j job hj p hpn, (hp j job hj).finishOne L hL p hpn]
    exact hget j job hj p hpn
  · intro j job hj hL p hpn
    rw [henv j job hj p hpn, (hp j job hj).finishAll hL p hpn]
    exact hget j job hj p hpn

theorem Plan.inv {x : Expected O} (hplan : Plan n jobs x) {es : List SysStep} {s : Sys O}
    (hrun : Sys.start.run n jobs es = some s) : s.Inv n jobs x :=
  Sys.run_inv (Q := fun s => s.Inv n jobs x) (fun _ _ _ h hs => Sys.inv_step h hplan hs) Sys.inv_start hrun

/-- All schedules lead to the results of the sequential execution. -/
theorem scheduleFree_of_seq {outs : List (List O)} (hseq : seqRun n jobs = some outs) (hids : IdsOk jobs) :
    ScheduleFree n jobs outs := by
  by_cases hO : Nonempty O
  · obtain ⟨o0⟩ := hO
    have : Inhabited O := ⟨o0⟩
    obtain ⟨x, hplan, hout⟩ := exists_plan hseq hids
    refine ⟨⟨(Sys.start : Sys O).measure n jobs.length x, fun es s hrun => ?_⟩, fun es s hrun j hj p hp => ?_⟩
    · exact (Nat.le_add_right _ _).trans (Sys.measure_run hplan Sys.inv_start hrun)
    · have hinv := hplan.inv hrun
      have hl := hinv.loc j _ (List.getElem?_eq_getElem hj) p hp
      refine ⟨fun hf => ?_, fun o ho => ?_, fun hst => hinv.stuck_finished hplan hst j hj p hp⟩
      · rw [hf] at hl
        exact hl
      · rw [ho] at hl
        rw [hl.2.1]
        exact hout j hj p hp
  · have hempty : jobs = [] ∨ n = 0 := by
      by_contra hne
      rw [not_or] at hne
      have hj : 0 < jobs.length := List.length_pos_iff.2 hne.1
      obtain ⟨h1, _, h3⟩ := seqFrom_spec hseq
      simp only [List.length_nil, Nat.zero_add] at h1 h3
      have h4 := (h3 0 _ (List.getElem?_eq_getElem hj)).2
      rw [List.getElem?_eq_getElem (by omega)] at h4
      obtain ⟨_, _, _, hparts⟩ := Proto.round_parts h4
      have hlen := hparts.len
      exact hO ⟨(outs[0])[0]'(by omega)⟩
    have hnone : ∀ e, (Sys.start : Sys O).step n jobs e = none := by
      intro e
      rcases hempty with rfl | rfl
      · cases e <;> simp [Sys.step, Sys.start]
      · cases e <;> simp [Sys.step]
    refine ⟨⟨0, fun es s hrun => ?_⟩, fun es s hrun j hj p hp => ?_⟩
    · cases es with
      | nil => simp
      | cons e es =>
        unfold Sys.run at hrun
        rw [hnone e] at hrun
        cases hrun
    · rcases hempty with rfl | rfl
      · simp at hj
      · omega

end Verif
