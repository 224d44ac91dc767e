import Verif.PrivacyNetSim

/-!
# Helper lemmas: the tasks of the parties in two executions which corrupted parties cannot tell apart
-/

namespace Verif

variable {O : Type} {n : Nat} {Cs : Finset Nat} {f f' g : Full O} {jobs jobs' : List (Job O)} {x x' : Expected O}
  {s s' : Sys O} {fr fr' : Nat → Nat → List NetMsg} {un un' : Nat → ProtocolID → List RMsg}

/-- The jobs have the same shape, the messages have the same lengths, and what corrupted parties send, get and compute is the
same. -/
structure JobsTwin (n : Nat) (Cs : Finset Nat) (jobs jobs' : List (Job O)) (x x' : Expected O) : Prop where
  skel : ∀ j : Nat, (jobs[j]?).map (fun job => (job.id, job.deps, job.proto.leader)) =
    (jobs'[j]?).map fun job => (job.id, job.deps, job.proto.leader)
  snd : ∀ (j : Nat) (job : Job O), jobs[j]? = some job → ∀ p < n, List.Forall₂ (SndTwin Cs p) (x.snd j p) (x'.snd j p)
  ans : ∀ (j : Nat) (job : Job O), jobs[j]? = some job → ∀ L, job.proto.leader = some L → ∀ q < n,
    Sim (L ∈ Cs ∨ q ∈ Cs) (x.ans j q) (x'.ans j q)
  out : ∀ (j : Nat) (job : Job O), jobs[j]? = some job → ∀ p < n, p ∈ Cs → x.out j p = x'.out j p

theorem JobsTwin.job (h : JobsTwin n Cs jobs jobs' x x') {j : Nat} {job : Job O} (hj : jobs[j]? = some job) :
    ∃ job', jobs'[j]? = some job' ∧ job'.id = job.id ∧ job'.deps = job.deps ∧ job'.proto.leader = job.proto.leader := by
  have := h.skel j
  rw [hj, Option.map_some] at this
  obtain ⟨job', h1, h2⟩ := Option.map_eq_some_iff.1 this.symm
  simp only [Prod.mk.injEq] at h2
  exact ⟨job', h1, h2⟩

theorem JobsTwin.symm (h : JobsTwin n Cs jobs jobs' x x') : JobsTwin n Cs jobs' jobs x' x := by
  have key : ∀ (j : Nat) (job' : Job O), jobs'[j]? = some job' → ∃ job, jobs[j]? = some job ∧ job'.proto.leader = job.proto.leader := by
    intro j job' hj
    have := h.skel j
    rw [hj, Option.map_some] at this
    obtain ⟨job, h1, h2⟩ := Option.map_eq_some_iff.1 this
    simp only [Prod.mk.injEq] at h2
    exact ⟨job, h1, h2.2.2.symm⟩
  refine ⟨fun j => (h.skel j).symm, fun j job' hj p hp => ?_, fun j job' hj L hL q hq => ?_, fun j job' hj p hp hc => ?_⟩
  · obtain ⟨job, h1, _⟩ := key j job' hj
    exact forall₂_symm (fun _ _ h => h.symm) (h.snd j job h1 p hp)
  · obtain ⟨job, h1, h2⟩ := key j job' hj
    exact (h.ans j job h1 L (h2 ▸ hL) q hq).symm
  · obtain ⟨job, h1, _⟩ := key j job' hj
    exact (h.out j job h1 p hp hc).symm

theorem Full.Twin.ready (h : f.Twin Cs f') {job job' : Job O} (hd : job'.deps = job.deps) (p : Nat) :
    job'.ready (f'.env p) = job.ready (f.env p) := by
  unfold Job.ready
  rw [hd]
  refine congrArg (fun u => List.all job.deps u) ?_
  funext d
  unfold Full.env
  have := h.loc p d
  revert this
  generalize f.loc p d = a
  generalize f'.loc p d = b
  intro h
  cases h <;> rfl

/-- Where a job of a party goes, in terms of what is expected. -/
theorem NRel.next (hn : NRel n jobs f s fr un) (hplan : Plan n jobs x) {p j : Nat} {job : Job O} (hp : p < n)
    (hj : jobs[j]? = some job) (hr : job.ready (f.env p) = true) :
    (f.env p).only job.deps = x.env job p := by
  rw [Full.env_eq hn.loc] at hr ⊢
  exact ((hn.inv hplan).ready_deps hplan hj hp hr).has

theorem NRel.gathered (hn : NRel n jobs f s fr un) (hplan : Plan n jobs x) {p j : Nat} {job : Job O} (hp : p < n)
    (hj : jobs[j]? = some job) (hr : job.ready (f.env p) = true) {G : Gather} (hl : f.loc p j = .gather G) (hG : G.counter = n) :
    (∀ L, job.proto.leader = some L → L = p) ∧
    job.proto.act n p ((f.env p).only job.deps) (f.loc p j) = .tau (match job.proto.leader with
      | none => .done (x.out j p)
      | some _ => .reply ((List.range n).map fun i => (Recipient.one i, x.ans j i))) := by
  have hl' := hl
  rw [hn.loc] at hl'
  obtain ⟨_, hm⟩ := gather_full (hn.inv hplan) hplan hj hp hl' hG
  have hinv := (hn.inv hplan).loc j job hj p hp
  rw [hl'] at hinv
  have hg := hinv.2.1
  rw [hn.next hplan hp hj hr, hl]
  simp only [Proto.act, if_pos hG]
  unfold Proto.gathers at hg
  cases hL : job.proto.leader with
  | none =>
    refine ⟨fun L h => (Option.some_ne_none _ h.symm).elim, ?_⟩
    simp only
    rw [hm, hplan.finishAll j job hj hL p hp]
    rfl
  | some L =>
    rw [hL] at hg
    simp only [decide_eq_true_eq] at hg
    subst hg
    refine ⟨fun L h => (Option.some.inj h).symm, ?_⟩
    simp only
    rw [hm, hplan.answer j job hj p hL]
    simp only [orFail]
    rw [zipIdx_answers]

theorem answers_twin {L : Nat} {u u' : Nat → List Nat} (h : ∀ q < n, Sim (L ∈ Cs ∨ q ∈ Cs) (u q) (u' q)) :
    List.Forall₂ (SndTwin Cs L) ((List.range n).map fun i => (Recipient.one i, u i))
      ((List.range n).map fun i => (Recipient.one i, u' i)) := by
  rw [List.forall₂_map_left_iff, List.forall₂_map_right_iff, List.forall₂_same]
  intro q hq
  rw [List.mem_range] at hq
  refine ⟨rfl, (h q hq).mono ?_⟩
  rintro (hc | ⟨r, hr, hi⟩)
  · exact Or.inl hc
  · simp only [Recipient.includes, decide_eq_true_eq] at hi
    exact Or.inr (hi ▸ hr)

/-- A step without communication. -/
theorem Full.Twin.setLoc (h : f.Twin Cs f') {p j : Nat} {t t' : TState O} (ht : TTwin Cs p t t') :
    Full.Twin Cs { f with loc := setLoc f.loc p j t } { f' with loc := Verif.setLoc f'.loc p j t' } :=
  ⟨setLoc_rel (R := fun a _ u v => TTwin Cs a u v) h.loc ht, h.waits, h.calls, h.netOut, h.stats, h.netInp, h.partyInp, h.outBuf,
    h.wire, h.inBuf, h.frames, h.partyOut, h.router⟩

/-- Actions of corresponding tasks. -/
inductive ActTwin (Cs : Finset Nat) (p : Nat) : Act (TState O) → Act (TState O) → Prop
  | send {dest : Recipient} {d d' : List Nat} {t t' : TState O} : Sim (Touches Cs p dest) d d' → TTwin Cs p t t' →
    ActTwin Cs p (.send dest d t) (.send dest d' t')
  | recv {k k' : RMsg → TState O} : ActTwin Cs p (.recv k) (.recv k')
  | tau {t t' : TState O} : TTwin Cs p t t' → ActTwin Cs p (.tau t) (.tau t')
  | stop : ActTwin Cs p .stop .stop

theorem Full.Twin.actions (h : f.Twin Cs f') (hT : JobsTwin n Cs jobs jobs' x x') (hplan : Plan n jobs x) (hplan' : Plan n jobs' x')
    (hn : NRel n jobs f s fr un) (hn' : NRel n jobs' f' s' fr' un') {p j : Nat} (hp : p < n) {job job' : Job O}
    (hj : jobs[j]? = some job) (hj' : jobs'[j]? = some job') (hd : job'.deps = job.deps) (hL : job'.proto.leader = job.proto.leader)
    (hr : job.ready (f.env p) = true) :
    ActTwin Cs p (job.proto.act n p ((f.env p).only job.deps) (f.loc p j))
      (job'.proto.act n p ((f'.env p).only job'.deps) (f'.loc p j)) := by
  have hr' : job'.ready (f'.env p) = true := by rw [h.ready hd, hr]
  have e1 := hn.next hplan hp hj hr
  have e2 := hn'.next hplan' hp hj' hr'
  have hl := h.loc p j
  have hg1 := fun G => hn.gathered hplan hp hj hr (G := G)
  have hg2 := fun G => hn'.gathered hplan' hp hj' hr' (G := G)
  revert hl hg1 hg2
  generalize f.loc p j = a
  generalize f'.loc p j = b
  intro hl hg1 hg2
  cases hl with
  | idle =>
    simp only [Proto.act]
    rw [e1, e2, hplan.sends j job hj p hp, hplan'.sends j job' hj' p hp]
    exact .tau (.sending (hT.snd j job hj p hp))
  | sending hl =>
    cases hl with
    | nil =>
      simp only [Proto.act]
      have : job'.proto.gathers p = job.proto.gathers p := by unfold Proto.gathers; rw [hL]
      rw [this]
      refine .tau ?_
      split
      · exact .gather rfl rfl fun _ => rfl
      · exact .wait
    | cons h1 h2 =>
      simp only [Proto.act]
      rw [← h1.1]
      exact .send h1.2 (.sending h2)
  | gather k1 k2 k3 =>
    rename_i G G'
    by_cases hG : G.counter = n
    · rw [(hg1 G rfl hG).2, (hg2 G' rfl (k2 ▸ hG)).2, hL]
      refine .tau ?_
      cases hl : job.proto.leader with
      | none => exact .done fun hc => hT.out j job hj p hp hc
      | some L =>
        obtain rfl := (hg1 G rfl hG).1 L hl
        exact .reply (answers_twin (hT.ans j job hj L hl))
    · simp only [Proto.act]
      rw [if_neg hG, if_neg (by rw [← k2]; exact hG)]
      exact .recv
  | reply hl =>
    cases hl with
    | nil => exact .tau .wait
    | cons h1 h2 =>
      simp only [Proto.act]
      rw [← h1.1]
      exact .send h1.2 (.reply h2)
  | wait => exact .recv
  | done _ => exact .stop
  | fail => exact .stop

theorem Full.Twin.act (h : f.Twin Cs f') (hT : JobsTwin n Cs jobs jobs' x x') (hplan : Plan n jobs x) (hplan' : Plan n jobs' x')
    (hn : NRel n jobs f s fr un) (hn' : NRel n jobs' f' s' fr' un') {p j : Nat} (hs : f.step n jobs (.act p j) = some g) :
    ∃ g', f'.step n jobs' (.act p j) = some g' ∧ Full.Twin Cs g g' := by
  simp only [Full.step] at hs ⊢
  split at hs
  swap
  · cases hs
  rename_i hp
  rw [if_pos hp]
  split at hs
  · cases hs
  rename_i job hj
  obtain ⟨job', hj', hid, hd, hL⟩ := hT.job hj
  simp only [hj']
  unfold Full.actStep at hs ⊢
  split at hs
  swap
  · cases hs
  rename_i hc
  rw [if_pos ⟨by rw [h.ready hd, hc.1], by rw [← h.waits]; exact hc.2⟩]
  have ha := h.actions hT hplan hplan' hn hn' hp hj hj' hd hL hc.1
  revert ha hs
  generalize job.proto.act n p ((f.env p).only job.deps) (f.loc p j) = a
  generalize job'.proto.act n p ((f'.env p).only job'.deps) (f'.loc p j) = b
  intro hs ha
  cases ha with
  | send h1 h2 =>
    simp only [Option.some.injEq] at hs ⊢
    subst hs
    refine ⟨_, rfl, setLoc_rel (R := fun a _ u v => TTwin Cs a u v) h.loc h2, h.waits, h.calls, h.netOut, h.stats,
      update_rel (R := fun a u v => List.Forall₂ (STwin Cs a) u v) h.netInp ?_, h.partyInp, h.outBuf, h.wire, h.inBuf, h.frames,
      h.partyOut, h.router⟩
    exact forall₂_snoc (h.netInp p) ⟨hid.symm, rfl, h1⟩
  | recv =>
    simp only [Option.some.injEq] at hs ⊢
    subst hs
    rw [← h.waits, ← h.calls, ← h.netOut, hid]
    exact ⟨_, rfl, h.loc, rfl, rfl, rfl, h.stats, h.netInp, h.partyInp, h.outBuf, h.wire, h.inBuf, h.frames, h.partyOut, h.router⟩
  | tau h1 =>
    simp only [Option.some.injEq] at hs ⊢
    subst hs
    exact ⟨_, rfl, h.setLoc h1⟩
  | stop => cases hs

/-- Messages which wait for the same channel. -/
theorem answered_twin {p h : Nat} {l l' : List (Nat × RMsg)} (hl : List.Forall₂ (fun a b => a.1 = b.1 ∧ RTwin Cs p a.2 b.2) l l')
    {a : Nat × RMsg} (ha : l.find? (fun a => a.1 = h) = some a) :
    ∃ b, l'.find? (fun a => a.1 = h) = some b ∧ RTwin Cs p a.2 b.2 := by
  induction hl with
  | nil => cases ha
  | cons h1 _ ih =>
    rename_i u v l l' _
    by_cases hu : u.1 = h
    · rw [List.find?_cons_of_pos (by simpa using hu), Option.some.injEq] at ha
      subst ha
      rw [List.find?_cons_of_pos (by rw [← h1.1]; simpa using hu)]
      exact ⟨v, rfl, h1.2⟩
    · rw [List.find?_cons_of_neg (by simpa using hu)] at ha
      rw [List.find?_cons_of_neg (by rw [← h1.1]; simpa using hu)]
      exact ih ha

theorem Gather.step_twin {p : Nat} {G G' : Gather} {m m' : RMsg} (h1 : G.hasSent = G'.hasSent) (h2 : G.counter = G'.counter)
    (h3 : p ∈ Cs → G = G') (hm : RTwin Cs p m m') :
    TTwin (O := O) Cs p (orFail (G.step m) fun g => .gather g) (orFail (G'.step m') fun g => .gather g) := by
  unfold Gather.step
  rw [← h1, ← hm.2.1, ← h2]
  cases G.hasSent[m.sender]? with
  | none => exact .fail
  | some b =>
    cases b with
    | true => exact .gather h1 h2 h3
    | false =>
      refine .gather rfl rfl fun hp => ?_
      rw [h3 hp, hm.2.2.2 (Or.inr hp)]

/-- The tasks which wait for a message get corresponding ones. -/
theorem Full.Twin.resumed (h : f.Twin Cs f') (hT : JobsTwin n Cs jobs jobs' x x') (hplan : Plan n jobs x) (hplan' : Plan n jobs' x')
    (hn : NRel n jobs g s fr un) (hn' : NRel n jobs' g' s' fr' un') {p j : Nat} (hp : p < n) {job job' : Job O}
    (hj : jobs[j]? = some job) (hj' : jobs'[j]? = some job') {env env' : Env O} {m m' : RMsg} (hm : RTwin Cs p m m')
    {k k' : RMsg → TState O} (hk : job.proto.act n p env (f.loc p j) = .recv k) (hk' : job'.proto.act n p env' (f'.loc p j) = .recv k')
    (hg : g.loc p j = k m) (hg' : g'.loc p j = k' m') : TTwin Cs p (k m) (k' m') := by
  have hl := h.loc p j
  have i1 := (hn.inv hplan).loc j job hj p hp
  have i2 := (hn'.inv hplan').loc j job' hj' p hp
  rw [← hn.loc, hg] at i1
  rw [← hn'.loc, hg'] at i2
  revert hl hk hk'
  generalize f.loc p j = a
  generalize f'.loc p j = b
  intro hk hk' hl
  cases hl with
  | idle => cases hk
  | sending hl =>
    cases hl with
    | nil => simp only [Proto.act] at hk; cases hk
    | cons h1 h2 => cases hk
  | gather k1 k2 k3 =>
    simp only [Proto.act] at hk hk'
    split at hk
    · split at hk <;> cases hk
    split at hk'
    · split at hk' <;> cases hk'
    cases hk
    cases hk'
    exact Gather.step_twin k1 k2 k3 hm
  | reply hl =>
    cases hl with
    | nil => cases hk
    | cons h1 h2 => cases hk
  | wait =>
    simp only [Proto.act] at hk hk'
    cases hk
    cases hk'
    simp only at i1 i2 ⊢
    revert i1 i2
    cases job.proto.finish p env [m.data] with
    | none => intro i1; exact i1.elim
    | some o =>
      cases job'.proto.finish p env' [m'.data] with
      | none => intro _ i2; exact i2.elim
      | some o' =>
        intro i1 i2
        refine .done fun hc => ?_
        rw [i1.2.1, i2.2.1]
        exact hT.out j job hj p hp hc
  | done _ => cases hk
  | fail => cases hk

theorem Full.Twin.resume (h : f.Twin Cs f') (hT : JobsTwin n Cs jobs jobs' x x') (hplan : Plan n jobs x) (hplan' : Plan n jobs' x')
    (hsz : Sizes n jobs) (hsz' : Sizes n jobs')
    (hn : NRel n jobs f s fr un) (hn' : NRel n jobs' f' s' fr' un') {p j : Nat} (hs : f.step n jobs (.resume p j) = some g) :
    ∃ g', f'.step n jobs' (.resume p j) = some g' ∧ Full.Twin Cs g g' := by
  obtain ⟨s1, fr1, un1, hn1, _⟩ := hn.step hplan hsz hs
  have key : ∀ g', f'.step n jobs' (.resume p j) = some g' → ∃ s1 fr1 un1, NRel n jobs' g' s1 fr1 un1 := by
    intro g' hg'
    obtain ⟨s1, fr1, un1, hn1, _⟩ := hn'.step hplan' hsz' hg'
    exact ⟨s1, fr1, un1, hn1⟩
  revert key
  simp only [Full.step] at hs ⊢
  intro key
  split at hs
  swap
  · cases hs
  rename_i hp
  rw [if_pos hp] at key ⊢
  split at hs
  swap
  · cases hs
  rename_i job w hj hw
  obtain ⟨job', hj', hid, hd, hL⟩ := hT.job hj
  rw [hj', ← h.waits, hw] at key ⊢
  simp only [Full.resumeStep] at hs key ⊢
  cases hf : (f.router p).answered.find? fun a => a.1 = w with
  | none => rw [hf] at hs; cases hs
  | some a =>
    rw [hf] at hs
    obtain ⟨b, hb, hab⟩ := answered_twin (h.router p).answered hf
    rw [hb] at key ⊢
    simp only at hs key ⊢
    cases ha : job.proto.act n p ((f.env p).only job.deps) (f.loc p j) with
    | send _ _ _ => rw [ha] at hs; cases hs
    | tau _ => rw [ha] at hs; cases hs
    | stop => rw [ha] at hs; cases hs
    | recv k =>
      rw [ha] at hs
      simp only [Option.some.injEq] at hs
      have hr : job.ready (f.env p) = true := by
        rw [Full.env_eq hn.loc]
        refine ready_of_receiving (hn.inv hplan) hp hj ?_
        rw [← hn.loc]
        exact act_recv ha
      have hact := h.actions hT hplan hplan' hn hn' hp hj hj' hd hL hr
      rw [ha] at hact
      cases ha' : job'.proto.act n p ((f'.env p).only job'.deps) (f'.loc p j) with
      | send _ _ _ => rw [ha'] at hact; cases hact
      | tau _ => rw [ha'] at hact; cases hact
      | stop => rw [ha'] at hact; cases hact
      | recv k' =>
        rw [ha'] at key
        simp only [Option.some.injEq] at key ⊢
        refine ⟨_, rfl, ?_⟩
        obtain ⟨s2, fr2, un2, hn2⟩ := key _ rfl
        subst hs
        have ht : TTwin Cs p (k a.2) (k' b.2) :=
          h.resumed hT hplan hplan' hn1 hn2 hp hj hj' hab ha ha' (by simp [Verif.setLoc]) (by simp [Verif.setLoc])
        refine ⟨setLoc_rel (R := fun a _ u v => TTwin Cs a u v) h.loc ht, ?_, h.calls, h.netOut, h.stats, h.netInp, h.partyInp,
          h.outBuf, h.wire, h.inBuf, h.frames, h.partyOut, h.router⟩
        simp only [h.waits]

theorem Full.Twin.step (h : f.Twin Cs f') (hT : JobsTwin n Cs jobs jobs' x x') (hplan : Plan n jobs x) (hplan' : Plan n jobs' x')
    (hsz : Sizes n jobs) (hsz' : Sizes n jobs') (hn : NRel n jobs f s fr un) (hn' : NRel n jobs' f' s' fr' un') {e : FStep}
    (hs : f.step n jobs e = some g) : ∃ g', f'.step n jobs' e = some g' ∧ Full.Twin Cs g g' := by
  cases e with
  | act p j => exact h.act hT hplan hplan' hn hn' hs
  | resume p j => exact h.resume hT hplan hplan' hsz hsz' hn hn' hs
  | route p => exact h.route hs
  | take p q =>
    simp only [Full.step] at hs
    split at hs
    swap
    · cases hs
    rename_i hpq
    split at hs
    · cases hs
    rename_i m rest hi
    obtain ⟨bytes, hb, hs⟩ := Option.map_eq_some_iff.1 hs
    subst hs
    refine h.take hpq hi ?_ hb
    obtain ⟨es, hes⟩ := hn.reach
    have hmem : m ∈ (s.chan p q).map toNet := by
      rw [hn.chan p hpq.1 q hpq.2.1 hpq.2.2.1, hi]
      simp
    obtain ⟨t, ht, rfl⟩ := List.mem_map.1 hmem
    exact hsz es s hes p hpq.1 q hpq.2.1 t ht
  | push p q k => exact h.push hs
  | pull p q k => exact h.pull hs
  | parse p q => exact h.parse hs
  | arrive p => exact h.arrive hs
  | request p => exact h.request hs

theorem Full.Twin.run (h : f.Twin Cs f') (hT : JobsTwin n Cs jobs jobs' x x') (hplan : Plan n jobs x) (hplan' : Plan n jobs' x')
    (hsz : Sizes n jobs) (hsz' : Sizes n jobs') (hn : NRel n jobs f s fr un) (hn' : NRel n jobs' f' s' fr' un') (es : List FStep) :
    Option.Rel (Full.Twin Cs) (f.run n jobs es) (f'.run n jobs' es) := by
  induction es generalizing f f' s s' fr fr' un un' with
  | nil => exact .some h
  | cons e es ih =>
    simp only [Full.run]
    cases hs : f.step n jobs e with
    | some g =>
      obtain ⟨g', hs', hg⟩ := h.step hT hplan hplan' hsz hsz' hn hn' hs
      obtain ⟨s1, fr1, un1, hn1, _⟩ := hn.step hplan hsz hs
      obtain ⟨s2, fr2, un2, hn2, _⟩ := hn'.step hplan' hsz' hs'
      rw [hs', Option.bind_some, Option.bind_some]
      exact ih hg hn1 hn2
    | none =>
      cases hs' : f'.step n jobs' e with
      | some g' =>
        obtain ⟨g, hs1, _⟩ := h.symm.step hT.symm hplan' hplan hsz' hsz hn' hn hs'
        rw [hs] at hs1
        cases hs1
      | none => exact .none

theorem netAlike_of_twin (hT : JobsTwin n Cs jobs jobs' x x') (hplan : Plan n jobs x) (hplan' : Plan n jobs' x') (hsz : Sizes n jobs)
    (hsz' : Sizes n jobs') : NetAlike n Cs jobs jobs' := by
  intro es
  have := Full.Twin.start.run hT hplan hplan' hsz hsz' NRel.start NRel.start es
  revert this
  generalize (Full.start n).run n jobs es = a
  generalize (Full.start n).run n jobs' es = b
  intro h
  cases h with
  | none => exact .none
  | some h => exact .some h.alike

theorem Full.run_append (f : Full O) (a b : List FStep) :
    f.run n jobs (a ++ b) = (f.run n jobs a).bind fun f => f.run n jobs b := by
  induction a generalizing f with
  | nil => rfl
  | cons e a ih =>
    simp only [List.cons_append, Full.run]
    cases f.step n jobs e with
    | none => rfl
    | some f' => exact ih f'

/-- Adaptive schedules. -/
theorem NetAlike.adaptive (h : NetAlike n Cs jobs jobs') {A : Full O → FStep} (hA : ∀ f f' : Full O, f.Alike Cs f' → A f = A f') (k : Nat) :
    Option.Rel (Full.Alike Cs) ((Full.start n).adaptive n jobs A k) ((Full.start n).adaptive n jobs' A k) := by
  have key : ∀ (k : Nat) (es : List FStep) (f f' : Full O), (Full.start n).run n jobs es = some f →
      (Full.start n).run n jobs' es = some f' → Option.Rel (Full.Alike Cs) (f.adaptive n jobs A k) (f'.adaptive n jobs' A k) := by
    intro k
    induction k with
    | zero =>
      intro es f f' h1 h2
      have := h es
      rw [h1, h2] at this
      exact this
    | succ k ih =>
      intro es f f' h1 h2
      have hal := h es
      rw [h1, h2] at hal
      cases hal with
      | some hal =>
        have hstep := h (es ++ [A f])
        rw [Full.run_append, Full.run_append, h1, h2, Option.bind_some, Option.bind_some] at hstep
        simp only [Full.run, Full.adaptive] at hstep ⊢
        rw [← hA f f' hal]
        cases hs : f.step n jobs (A f) with
        | none =>
          rw [hs] at hstep
          cases hs' : f'.step n jobs' (A f) with
          | none => exact .none
          | some g' =>
            rw [hs'] at hstep
            cases hstep
        | some g =>
          rw [hs] at hstep
          cases hs' : f'.step n jobs' (A f) with
          | none =>
            rw [hs'] at hstep
            cases hstep
          | some g' =>
            rw [Option.bind_some, Option.bind_some]
            refine ih (es ++ [A f]) g g' ?_ ?_
            · rw [Full.run_append, h1, Option.bind_some]
              simp [Full.run, hs]
            · rw [Full.run_append, h2, Option.bind_some]
              simp [Full.run, hs']
  exact key k [] _ _ rfl rfl

end Verif
