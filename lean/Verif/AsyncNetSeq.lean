import Verif.AsyncNetSim
import Verif.AsyncNetSpec
import Mathlib.Algebra.Order.Monoid.Prod

/-!
# Helper lemmas: executions over the TCP network and sequential execution
-/

namespace Verif

variable {O : Type} {n : Nat} {jobs : List (Job O)} {x : Expected O} {outs : List (List O)} {s : Sys O}

/-- The messages of a plan are those of the sequential execution. -/
theorem full_eq_between (hplan : Plan n jobs x)
    (hout : ∀ j < jobs.length, ∀ p < n, (outs[j]?).bind (fun o => o[p]?) = some (x.out j p)) {j : Nat} {job : Job O}
    (hj : jobs[j]? = some job) {p q : Nat} (hp : p < n) (hq : q < n) :
    x.full j job p q = job.proto.between n (seqEnv outs job.deps) p q := by
  have hjl : j < jobs.length := (List.getElem?_eq_some_iff.1 hj).1
  have henv : ∀ r < n, x.env job r = seqEnv outs job.deps r := by
    intro r hr
    funext d
    unfold Expected.env seqEnv
    split
    · rename_i hd
      have := hplan.deps j job hj d hd
      rw [hout d (by omega) r hr]
    · rfl
  unfold Expected.full Proto.between
  congr 1
  · rw [← henv p hp, hplan.sends j job hj p hp, Option.getD_some, hplan.addressed j job hj p hp q hq]
    rfl
  · split
    · rename_i hL
      have hm : ((List.range n).mapM fun r => (job.proto.sends r (seqEnv outs job.deps r)).bind (theMessage p)) =
          some ((List.range n).map fun r => x.msg j r p) := by
        refine mapM_some_map _ _ _ ?_
        intro r hr
        rw [List.mem_range] at hr
        rw [← henv r hr, hplan.sends j job hj r hr, Option.bind_some]
        have ha := hplan.addressed j job hj r hr p hp
        have hg : job.proto.gathers p = true := by
          unfold Proto.gathers
          rw [hL]
          simp
        rw [if_pos hg] at ha
        unfold theMessage
        cases hf : (x.snd j r).filter fun a => a.1.includes p with
        | nil =>
          rw [hf] at ha
          cases ha
        | cons a l =>
          rw [hf, List.map_cons, List.cons.injEq, List.map_eq_nil_iff] at ha
          rw [ha.2]
          simp only [ha.1]
      rw [hm, Option.bind_some, ← henv p hp, hplan.answer j job hj p hL, Option.bind_some]
      simp [hq]
    · rfl

theorem fromTag_mem_data {j p : Nat} {l : List TMsg} {m : TMsg} (hm : m ∈ l) (h1 : m.tag = j) (h2 : m.msg.sender = p) :
    m.msg.data ∈ fromTag j p l := by
  unfold fromTag
  refine List.mem_map.2 ⟨m, List.mem_filter.2 ⟨hm, ?_⟩, rfl⟩
  simp [h1, h2]

theorem sizes_of_seq (hplan : Plan n jobs x)
    (hout : ∀ j < jobs.length, ∀ p < n, (outs[j]?).bind (fun o => o[p]?) = some (x.out j p)) (hsz : SizesOk n jobs outs) :
    Sizes n jobs := by
  intro es s hrun p hp q hq m hm
  have hinv := hplan.inv hrun
  obtain ⟨hs, _, job, hj, hid⟩ := hinv.base.chan p q m hm
  have hd := fromTag_mem_data hm rfl hs
  have hd' : m.msg.data ∈ s.sent m.tag p q := by
    rw [hinv.base.cons]
    exact List.mem_append_right _ hd
  have hfull := (hinv.sent_prefix hplan hj hp hq).subset hd'
  rw [full_eq_between hplan hout hj hp hq] at hfull
  obtain ⟨h1, h2⟩ := hsz job (List.mem_of_getElem? hj)
  have h3 := h2 p hp q hq _ hfull
  unfold NetMsg.Ok toNet
  simp only [hid]
  exact ⟨h1, h3⟩

/-! ### Sums -/

/-- Bytes of messages with an ID of length `k`. -/
def dataBytes (k : Nat) (l : List (List Nat)) : Nat × Nat := ((l.map fun d => d.length).sum, (l.map fun d => d.length + k).sum)

theorem dataBytes_append (k : Nat) (a b : List (List Nat)) : dataBytes k (a ++ b) = dataBytes k a + dataBytes k b := by
  simp [dataBytes]

theorem sum_range_add (J t : Nat) (g : Nat → Nat × Nat) (c : Nat × Nat) (ht : t < J) :
    ((List.range J).map fun j => g j + if j = t then c else 0).sum = ((List.range J).map g).sum + c := by
  induction J with
  | zero => omega
  | succ J ih =>
    rw [List.range_succ, List.map_append, List.map_append, List.sum_append, List.sum_append, List.map_singleton, List.map_singleton,
      List.sum_singleton, List.sum_singleton]
    by_cases h : t = J
    · subst h
      have : ((List.range t).map fun j => g j + if j = t then c else 0) = (List.range t).map g := by
        refine List.map_congr_left fun j hj => ?_
        rw [List.mem_range] at hj
        rw [if_neg (by omega), add_zero]
      rw [this, if_pos rfl, add_assoc]
    · rw [ih (by omega), if_neg (fun h' => h h'.symm), add_zero, add_assoc, add_assoc, add_comm c]

/-- Bytes of messages, by job. -/
theorem bytes_by_job {L : List TMsg} (hL : ∀ m ∈ L, MsgOk n jobs m) (r : Nat) :
    bytesFrom r (L.map (·.msg)) =
      ((List.range jobs.length).map fun j => dataBytes ((jobs[j]?).elim 0 fun job => job.id.length) (fromTag j r L)).sum := by
  induction L with
  | nil =>
    have : ∀ J, ((List.range J).map fun j => dataBytes ((jobs[j]?).elim 0 fun job => job.id.length) (fromTag j r [])).sum = 0 := by
      intro J
      induction J with
      | zero => rfl
      | succ J ih =>
        rw [List.range_succ, List.map_append, List.sum_append, ih]
        simp [fromTag, dataBytes]
    rw [this]
    rfl
  | cons m L ih =>
    obtain ⟨_, job, hj, hid⟩ := hL m (by simp)
    have htl : m.tag < jobs.length := (List.getElem?_eq_some_iff.1 hj).1
    rw [List.map_cons, bytesFrom_cons, ih (fun y hy => hL y (by simp [hy])), add_comm,
      ← sum_range_add jobs.length m.tag _ _ htl]
    congr 1
    refine List.map_congr_left fun j hjm => ?_
    have hc : fromTag j r (m :: L) = fromTag j r [m] ++ fromTag j r L := fromTag_append j r [m] L
    rw [hc, dataBytes_append, add_comm]
    congr 1
    rw [bytesFrom_single]
    by_cases hjt : j = m.tag
    · subst hjt
      rw [if_pos rfl, hj]
      by_cases hr : m.msg.sender = r
      · rw [if_pos hr]
        simp [fromTag, hr, dataBytes, hid]
      · rw [if_neg hr]
        simp [fromTag, hr, dataBytes]
        rfl
    · rw [if_neg hjt]
      simp [fromTag, Ne.symm hjt, dataBytes]
      rfl

/-- Bytes of job `j`, for a plan. -/
theorem jobBytes_eq (hplan : Plan n jobs x)
    (hout : ∀ j < jobs.length, ∀ p < n, (outs[j]?).bind (fun o => o[p]?) = some (x.out j p)) {j : Nat} (hj : j < jobs.length)
    {p q : Nat} (hp : p < n) (hq : q < n) :
    jobBytes n jobs outs p q j = dataBytes jobs[j].id.length (x.full j jobs[j] p q) := by
  unfold jobBytes
  rw [List.getElem?_eq_getElem hj, full_eq_between hplan hout (List.getElem?_eq_getElem hj) hp hq]
  rfl

theorem range_sum (J : Nat) (g : Nat → Nat × Nat) : ((List.range J).map g).sum = ∑ j ∈ Finset.range J, g j := by
  rw [← List.sum_toFinset g List.nodup_range, List.toFinset_range]

/-- Everything which has reached party `q` comes from jobs which have been started. -/
theorem arrived_upper (hplan : Plan n jobs x)
    (hout : ∀ j < jobs.length, ∀ p < n, (outs[j]?).bind (fun o => o[p]?) = some (x.out j p)) (hinv : s.Inv n jobs x)
    {r q : Nat} (hr : r < n) (hq : q < n) (js : Finset Nat) (hjs : ∀ j < jobs.length, j ∉ js → s.loc r j = .idle) :
    bytesFrom r ((s.got q).map (·.2.msg)) + bytesFrom r ((s.inbox q).map (·.msg)) ≤ ∑ j ∈ js, jobBytes n jobs outs r q j := by
  have hall : ∀ m ∈ (s.got q).map (·.2) ++ s.inbox q, MsgOk n jobs m := by
    intro m hm
    rcases List.mem_append.1 hm with hm | hm
    · obtain ⟨y, hy, rfl⟩ := List.mem_map.1 hm
      exact (hinv.base.got q y hy).1
    · exact hinv.base.inbox q m hm
  have h1 : bytesFrom r ((s.got q).map (·.2.msg)) + bytesFrom r ((s.inbox q).map (·.msg))
      = ∑ j ∈ Finset.range jobs.length, dataBytes ((jobs[j]?).elim 0 fun job => job.id.length)
          (fromTag j r ((s.got q).map (·.2) ++ s.inbox q)) := by
    rw [← range_sum, ← bytes_by_job hall r, List.map_append, bytesFrom_append, List.map_map]
    rfl
  rw [h1]
  have h2 : ∀ j ∈ Finset.range jobs.length, dataBytes ((jobs[j]?).elim 0 fun job => job.id.length)
      (fromTag j r ((s.got q).map (·.2) ++ s.inbox q)) ≤ if j ∈ js then jobBytes n jobs outs r q j else 0 := by
    intro j hj
    rw [Finset.mem_range] at hj
    have hc := hinv.base.cons j r q
    split
    · rw [List.getElem?_eq_getElem hj, Option.elim_some, jobBytes_eq hplan hout hj hr hq]
      obtain ⟨t, ht⟩ := hinv.sent_prefix hplan (List.getElem?_eq_getElem hj) hr hq
      rw [← ht, hc, dataBytes_append, dataBytes_append, fromTag_append, add_assoc]
      exact ⟨Nat.le_add_right _ _, Nat.le_add_right _ _⟩
    · rename_i hnj
      have hl := hinv.loc j _ (List.getElem?_eq_getElem hj) r hr
      rw [hjs j hj hnj] at hl
      rw [hl.1 q hq] at hc
      have := (List.append_eq_nil_iff.1 hc.symm).1
      rw [fromTag_append, this]
      exact le_refl _
  refine (Finset.sum_le_sum h2).trans ?_
  rw [← Finset.sum_filter]
  exact Finset.sum_le_sum_of_subset (fun j hj => (Finset.mem_filter.1 hj).2)

/-- All messages of finished jobs have reached the party. -/
theorem arrived_lower (hplan : Plan n jobs x)
    (hout : ∀ j < jobs.length, ∀ p < n, (outs[j]?).bind (fun o => o[p]?) = some (x.out j p)) (hinv : s.Inv n jobs x)
    {r q : Nat} (hr : r < n) (hq : q < n) (js : Finset Nat) (hjs : ∀ j ∈ js, j < jobs.length ∧ s.Finished q j) :
    ∑ j ∈ js, jobBytes n jobs outs r q j ≤ bytesFrom r ((s.got q).map (·.2.msg)) := by
  have hall : ∀ m ∈ (s.got q).map (·.2), MsgOk n jobs m := by
    intro m hm
    obtain ⟨y, hy, rfl⟩ := List.mem_map.1 hm
    exact (hinv.base.got q y hy).1
  have h1 : bytesFrom r ((s.got q).map (·.2.msg)) = ∑ j ∈ Finset.range jobs.length,
      dataBytes ((jobs[j]?).elim 0 fun job => job.id.length) (fromTag j r ((s.got q).map (·.2))) := by
    rw [← range_sum, ← bytes_by_job hall r, List.map_map]
    rfl
  rw [h1]
  refine le_trans (Finset.sum_le_sum fun j hj => ?_)
    (Finset.sum_le_sum_of_subset (fun j hj => Finset.mem_range.2 (hjs j hj).1))
  obtain ⟨hjl, o, ho⟩ := hjs j hj
  have hl := hinv.loc j _ (List.getElem?_eq_getElem hjl) q hq
  rw [ho] at hl
  rw [jobBytes_eq hplan hout hjl hr hq, List.getElem?_eq_getElem hjl, Option.elim_some, fromTag_gotBy hinv.tags, hl.2.2.2 r hr]

/-- What is on the way to the router has reached the party. -/
theorem NRel.partyOut_le {f : Full O} {fr : Nat → Nat → List NetMsg} {un : Nat → ProtocolID → List RMsg}
    (h : NRel n jobs f s fr un) {q : Nat} (hq : q < n) (r : Nat) :
    bytesFrom r (f.partyOut q) ≤ bytesFrom r ((s.inbox q).map (·.msg)) := by
  have hsub : (f.partyOut q).Subperm ((s.inbox q).map (·.msg)) := by
    rw [List.subperm_ext_iff]
    intro m _
    have hc : ∀ l : List RMsg, l.count m = (ofId m.protoId l).count m := by
      intro l
      unfold ofId
      rw [List.count_filter (by simp)]
    rw [hc, hc ((s.inbox q).map (·.msg)), h.inbox q hq m.protoId, List.count_append]
    exact Nat.le_add_left _ _
  obtain ⟨l, hl1, hl2⟩ := hsub
  rw [← bytesFrom_perm hl1]
  obtain ⟨l', hl'⟩ := hl2.exists_perm_append
  rw [bytesFrom_perm hl', bytesFrom_append]
  exact ⟨Nat.le_add_right _ _, Nat.le_add_right _ _⟩

/-! ### All schedules -/

theorem empty_case (hO : ¬ Nonempty O) (hseq : seqRun n jobs = some outs) : jobs = [] ∨ n = 0 := by
  by_contra hne
  rw [not_or] at hne
  have hj : 0 < jobs.length := List.length_pos_iff.2 hne.1
  obtain ⟨h1, _, h3⟩ := seqFrom_spec hseq
  simp only [List.length_nil, Nat.zero_add] at h1 h3
  have h4 := (h3 0 _ (List.getElem?_eq_getElem hj)).2
  rw [List.getElem?_eq_getElem (by omega)] at h4
  obtain ⟨_, _, _, hparts⟩ := Proto.round_parts h4
  have hlen := hparts.len
  exact hO ⟨(outs[0])[0]'(by omega)⟩

theorem empty_stuck (h : jobs = [] ∨ n = 0) (e : FStep) : (Full.start n : Full O).step n jobs e = none := by
  rcases h with rfl | rfl
  · cases e with
    | parse p q =>
      simp only [Full.step]
      split
      · rfl
      · rfl
    | push p q k =>
      simp only [Full.step]
      refine if_neg fun h => ?_
      have h5 : k ≤ 0 := h.2.2.2.2
      omega
    | pull p q k =>
      simp only [Full.step]
      refine if_neg fun h => ?_
      have h5 : k ≤ 0 := h.2.2.2.2
      omega
    | _ => simp [Full.step, Full.start]
  · cases e <;> simp [Full.step]

theorem netScheduleFree_of_seq (hseq : seqRun n jobs = some outs) (hids : IdsOk jobs) (hsz : SizesOk n jobs outs) :
    NetScheduleFree n jobs outs := by
  by_cases hO : Nonempty O
  · obtain ⟨o0⟩ := hO
    have : Inhabited O := ⟨o0⟩
    obtain ⟨x, hplan, hout⟩ := exists_plan hseq hids
    have hsz' := sizes_of_seq hplan hout hsz
    refine ⟨?_, fun es f hrun j hj p hp => ?_⟩
    · rintro ⟨g, hg0, hg⟩
      exact NRel.noLoop hplan hsz' g hg _ 0 Sys.start _ _ (hg0 ▸ NRel.start) rfl
    · obtain ⟨s, fr, un, h⟩ := NRel.start.run hplan hsz' hrun
      have hinv := h.inv hplan
      have hl := hinv.loc j _ (List.getElem?_eq_getElem hj) p hp
      rw [h.loc]
      refine ⟨fun hf => ?_, fun o ho => ?_, fun hst => ?_⟩
      · rw [hf] at hl
        exact hl
      · rw [ho] at hl
        rw [hl.2.1]
        exact hout j hj p hp
      · exact hinv.stuck_finished hplan (h.stuck hplan hsz' hst) j hj p hp
  · have hempty := empty_case hO hseq
    refine ⟨?_, fun es f hrun j hj p hp => ?_⟩
    · rintro ⟨g, hg0, hg⟩
      obtain ⟨e, he⟩ := hg 0
      rw [hg0, empty_stuck hempty e] at he
      cases he
    · rcases hempty with rfl | rfl
      · simp at hj
      · omega

end Verif
