import Verif.AsyncSpec
import Verif.DeliveryLemmas
import Mathlib.Algebra.BigOperators.Group.Finset.Basic
import Mathlib.Algebra.Order.BigOperators.Group.Finset

/-!
# Helper lemmas about asynchronous executions
-/

namespace Verif

variable {O : Type}

/-! ### The network -/

/-- What the messages sent by job `j` of `p` contain. -/
def fromTag (j p : Nat) (l : List TMsg) : List (List Nat) :=
  (l.filter fun m => m.tag = j && m.msg.sender = p).map (·.msg.data)

theorem fromTag_append (j p : Nat) (a b : List TMsg) : fromTag j p (a ++ b) = fromTag j p a ++ fromTag j p b := by
  simp [fromTag]

theorem fromTag_nil {j p : Nat} {l : List TMsg} (h : ∀ m ∈ l, m.tag = j → m.msg.sender = p → False) :
    fromTag j p l = [] := by
  unfold fromTag
  rw [List.map_eq_nil_iff, List.filter_eq_nil_iff]
  intro m hm
  simp only [Bool.and_eq_true, decide_eq_true_eq, not_and]
  exact fun h1 h2 => h m hm h1 h2

theorem fromTag_mem {j p : Nat} {l : List TMsg} {m : TMsg} (hm : m ∈ l) (h1 : m.tag = j) (h2 : m.msg.sender = p) :
    fromTag j p l ≠ [] := by
  unfold fromTag
  rw [ne_eq, List.map_eq_nil_iff, List.filter_eq_nil_iff]
  intro h
  exact h m hm (by simp [h1, h2])

/-- What is known about a message of the system. -/
def MsgOk (n : Nat) (jobs : List (Job O)) (m : TMsg) : Prop :=
  m.msg.sender < n ∧ ∃ job, jobs[m.tag]? = some job ∧ m.msg.protoId = job.id

/-- Everything which has been sent is received, in an inbox, or under way, in this order. -/
structure Sys.Base (n : Nat) (jobs : List (Job O)) (s : Sys O) : Prop where
  chan : ∀ p q, ∀ m ∈ s.chan p q, m.msg.sender = p ∧ MsgOk n jobs m
  inbox : ∀ q, ∀ m ∈ s.inbox q, MsgOk n jobs m
  got : ∀ q, ∀ x ∈ s.got q, MsgOk n jobs x.2 ∧ ∃ job, jobs[x.1]? = some job ∧ x.2.msg.protoId = job.id
  cons : ∀ j p q, s.sent j p q =
    fromTag j p ((s.got q).map (·.2)) ++ fromTag j p (s.inbox q) ++ fromTag j p (s.chan p q)

theorem takeFirst_some {id : ProtocolID} {l rest : List TMsg} {m : TMsg} (h : takeFirst id l = some (m, rest)) :
    ∃ a b, l = a ++ m :: b ∧ rest = a ++ b ∧ m.msg.protoId = id ∧ ∀ y ∈ a, y.msg.protoId ≠ id := by
  induction l generalizing rest with
  | nil => simp [takeFirst] at h
  | cons y l ih =>
    unfold takeFirst at h
    split at h
    · rename_i hy
      simp only [Option.some.injEq, Prod.mk.injEq] at h
      obtain ⟨rfl, rfl⟩ := h
      exact ⟨[], l, rfl, rfl, hy, by simp⟩
    · rename_i hy
      rw [Option.map_eq_some_iff] at h
      obtain ⟨r, h1, h2⟩ := h
      obtain ⟨r1, r2⟩ := r
      simp only [Prod.mk.injEq] at h2
      obtain ⟨rfl, rfl⟩ := h2
      obtain ⟨a, b, e1, e2, e3, e4⟩ := ih h1
      refine ⟨y :: a, b, by rw [e1]; rfl, by rw [e2]; rfl, e3, ?_⟩
      intro z hz
      rcases List.mem_cons.1 hz with rfl | hz
      · exact hy
      · exact e4 z hz

theorem takeFirst_none {id : ProtocolID} {l : List TMsg} (h : takeFirst id l = none) :
    ∀ m ∈ l, m.msg.protoId ≠ id := by
  induction l with
  | nil => simp
  | cons y l ih =>
    unfold takeFirst at h
    split at h
    · simp at h
    · rename_i hy
      rw [Option.map_eq_none_iff] at h
      intro z hz
      rcases List.mem_cons.1 hz with rfl | hz
      · exact hy
      · exact ih h z hz

theorem Sys.base_start (n : Nat) (jobs : List (Job O)) : (Sys.start : Sys O).Base n jobs :=
  ⟨by simp [Sys.start], by simp [Sys.start], by simp [Sys.start], by simp [Sys.start, fromTag]⟩

theorem Sys.base_step {n : Nat} {jobs : List (Job O)} {s s' : Sys O} (hb : s.Base n jobs) {e : SysStep}
    (h : s.step n jobs e = some s') : s'.Base n jobs := by
  cases e with
  | act p j =>
    simp only [Sys.step] at h
    split at h
    swap
    · cases h
    rename_i hp
    split at h
    · cases h
    rename_i job hjob
    unfold Sys.actStep at h
    split at h
    swap
    · cases h
    split at h
    · rename_i dest data next hact
      split at h
      swap
      · cases h
      rw [Option.some.injEq] at h
      subst h
      refine ⟨?_, hb.inbox, hb.got, ?_⟩
      · intro a b m hm
        simp only [] at hm
        split at hm
        · rename_i hc
          rcases List.mem_append.1 hm with hm | hm
          · exact hb.chan a b m hm
          · rw [List.mem_singleton] at hm
            subst hm
            exact ⟨hc.1.symm, hp, job, hjob, rfl⟩
        · exact hb.chan a b m hm
      · intro i a b
        simp only []
        by_cases hab : a = p ∧ dest.includes b = true
        · rw [if_pos hab, fromTag_append, ← List.append_assoc, ← hb.cons i a b]
          by_cases hi : i = j
          · rw [if_pos ⟨hi, hab⟩]
            congr 1
            simp [fromTag, hi, hab.1]
          · rw [if_neg (fun h => hi h.1)]
            rw [fromTag_nil (l := [_]), List.append_nil]
            intro m hm h1
            rw [List.mem_singleton] at hm
            subst hm
            exact fun _ => hi h1.symm
        · rw [if_neg hab, if_neg (fun h => hab h.2)]
          exact hb.cons i a b
    · rename_i next hact
      split at h
      · cases h
      rename_i m rest htake
      rw [Option.some.injEq] at h
      subst h
      obtain ⟨a, b, e1, e2, e3, e4⟩ := takeFirst_some htake
      have hmem : m ∈ s.inbox p := by rw [e1]; simp
      refine ⟨hb.chan, ?_, ?_, ?_⟩
      · intro q y hy
        by_cases hq : q = p
        · subst hq
          simp only [Function.update_self] at hy
          refine hb.inbox q y ?_
          rw [e1]
          rw [e2] at hy
          rcases List.mem_append.1 hy with hy | hy
          · simp [hy]
          · simp [hy]
        · simp only [Function.update_of_ne hq] at hy
          exact hb.inbox q y hy
      · intro q y hy
        by_cases hq : q = p
        · subst hq
          simp only [Function.update_self] at hy
          rcases List.mem_append.1 hy with hy | hy
          · exact hb.got q y hy
          · rw [List.mem_singleton] at hy
            subst hy
            exact ⟨hb.inbox q m hmem, job, hjob, e3⟩
        · simp only [Function.update_of_ne hq] at hy
          exact hb.got q y hy
      · intro i r q
        simp only []
        by_cases hq : q = p
        · subst hq
          rw [Function.update_self, Function.update_self, hb.cons i r q, e1, e2]
          rw [List.map_append, fromTag_append, fromTag_append, fromTag_append]
          have : fromTag i r (m :: b) = fromTag i r [m] ++ fromTag i r b := fromTag_append i r [m] b
          rw [this]
          simp only [List.map_cons, List.map_nil]
          by_cases hm : m.tag = i
          · have ha : fromTag i r a = [] := by
              apply fromTag_nil
              intro y hy h1 _
              obtain ⟨_, jy, h3, h4⟩ := hb.inbox q y (by rw [e1]; simp [hy])
              obtain ⟨_, jm, h5, h6⟩ := hb.inbox q m hmem
              rw [h1, ← hm, h5, Option.some.injEq] at h3
              exact e4 y hy (by rw [h4, ← h3, ← h6, e3])
            rw [ha]
            simp
          · have : fromTag i r [m] = [] := by
              apply fromTag_nil
              intro y hy h1 _
              rw [List.mem_singleton] at hy
              subst hy
              exact hm h1
            rw [this]
            simp
        · rw [Function.update_of_ne hq, Function.update_of_ne hq]
          exact hb.cons i r q
    · rw [Option.some.injEq] at h
      subst h
      exact ⟨hb.chan, hb.inbox, hb.got, hb.cons⟩
    · cases h
  | deliver p q =>
    simp only [Sys.step] at h
    split at h
    swap
    · cases h
    split at h
    · cases h
    rename_i m rest hch
    rw [Option.some.injEq] at h
    subst h
    have hm := hb.chan p q m (by rw [hch]; simp)
    refine ⟨?_, ?_, hb.got, ?_⟩
    · intro a b y hy
      simp only [] at hy
      split at hy
      · rename_i hab
        rw [hab.1]
        exact hb.chan p q y (by rw [hch]; simp [hy])
      · exact hb.chan a b y hy
    · intro b y hy
      by_cases hbq : b = q
      · subst hbq
        simp only [Function.update_self] at hy
        rcases List.mem_append.1 hy with hy | hy
        · exact hb.inbox b y hy
        · rw [List.mem_singleton] at hy
          subst hy
          exact hm.2
      · simp only [Function.update_of_ne hbq] at hy
        exact hb.inbox b y hy
    · intro i a b
      simp only []
      rw [hb.cons i a b]
      by_cases hbq : b = q
      · subst hbq
        rw [Function.update_self, fromTag_append]
        by_cases hap : a = p
        · subst hap
          rw [if_pos ⟨rfl, rfl⟩, hch]
          have : fromTag i a (m :: rest) = fromTag i a [m] ++ fromTag i a rest := fromTag_append i a [m] rest
          rw [this]
          simp
        · rw [if_neg (fun h => hap h.1)]
          have : fromTag i a [m] = [] := by
            apply fromTag_nil
            intro y hy _ h2
            rw [List.mem_singleton] at hy
            subst hy
            exact hap (h2.symm.trans hm.1)
          rw [this]
          simp
      · rw [Function.update_of_ne hbq, if_neg (fun h => hbq h.2)]

theorem Sys.run_append {n : Nat} {jobs : List (Job O)} (s : Sys O) (a b : List SysStep) :
    s.run n jobs (a ++ b) = (s.run n jobs a).bind fun s => s.run n jobs b := by
  induction a generalizing s with
  | nil => rfl
  | cons e a ih =>
    simp only [List.cons_append, Sys.run]
    cases s.step n jobs e with
    | none => rfl
    | some s' => exact ih s'

/-- Invariants are kept by runs. -/
theorem Sys.run_inv {n : Nat} {jobs : List (Job O)} (Q : Sys O → Prop)
    (hstep : ∀ s e s', Q s → s.step n jobs e = some s' → Q s') {s s' : Sys O} {es : List SysStep} (hs : Q s)
    (h : s.run n jobs es = some s') : Q s' := by
  induction es generalizing s with
  | nil =>
    simp only [Sys.run, Option.some.injEq] at h
    exact h ▸ hs
  | cons e es ih =>
    simp only [Sys.run] at h
    rw [Option.bind_eq_some_iff] at h
    obtain ⟨s1, h1, h2⟩ := h
    exact ih (hstep s e s1 hs h1) h2

/-! ### The parties -/

/-- What the parties are expected to exchange and to compute: `snd j p` are the first messages of party `p` in job `j`,
`msg j p q` is the one meant for `q`, `ans j q` is the leader's answer to `q`, and `out j p` is the result of `p`. -/
structure Expected (O : Type) where
  snd : Nat → Nat → List (Recipient × List Nat)
  msg : Nat → Nat → Nat → List Nat
  ans : Nat → Nat → List Nat
  out : Nat → Nat → O

/-- What the job of party `p` is given. -/
def Expected.env (x : Expected O) (job : Job O) (p : Nat) : Env O :=
  fun d => if d ∈ job.deps then some (x.out d p) else none

/-- The local computations of the jobs, done one after the other with every message delivered at once, give what is
expected. -/
structure Plan (n : Nat) (jobs : List (Job O)) (x : Expected O) : Prop where
  deps : ∀ (j : Nat) (job : Job O), jobs[j]? = some job → ∀ d ∈ job.deps, d < j
  leader : ∀ (j : Nat) (job : Job O), jobs[j]? = some job → ∀ L, job.proto.leader = some L → L < n
  sends : ∀ (j : Nat) (job : Job O), jobs[j]? = some job → ∀ p < n,
    job.proto.sends p (x.env job p) = some (x.snd j p)
  known : ∀ (j : Nat) (job : Job O), jobs[j]? = some job → ∀ p < n, ∀ a ∈ x.snd j p, a.1.known n = true
  addressed : ∀ (j : Nat) (job : Job O), jobs[j]? = some job → ∀ p < n, ∀ q < n,
    ((x.snd j p).filter fun a => a.1.includes q).map (·.2) = if job.proto.gathers q then [x.msg j p q] else []
  answer : ∀ (j : Nat) (job : Job O), jobs[j]? = some job → ∀ L, job.proto.leader = some L →
    job.proto.answer (x.env job L) ((List.range n).map fun p => x.msg j p L) = some ((List.range n).map (x.ans j))
  finishOne : ∀ (j : Nat) (job : Job O), jobs[j]? = some job → ∀ L, job.proto.leader = some L → ∀ p < n,
    job.proto.finish p (x.env job p) [x.ans j p] = some (x.out j p)
  finishAll : ∀ (j : Nat) (job : Job O), jobs[j]? = some job → job.proto.leader = none → ∀ p < n,
    job.proto.finish p (x.env job p) ((List.range n).map fun q => x.msg j q p) = some (x.out j p)
  ids : IdsOk jobs

/-- The data of the messages of `p`. -/
def dataFrom (p : Nat) (ms : List RMsg) : List (List Nat) := (ms.filter fun m => m.sender = p).map (·.data)

/-- What job `j` of `q` has received. -/
def Sys.gotBy (s : Sys O) (j q : Nat) : List RMsg := ((s.got q).filter fun y => y.1 = j).map (·.2.msg)

/-- What is sent to `q`. -/
def addressedTo (q : Nat) (l : List (Recipient × List Nat)) : List (List Nat) :=
  (l.filter fun a => a.1.includes q).map (·.2)

/-- First messages from `p` to `q`. -/
def Expected.first (x : Expected O) (j : Nat) (job : Job O) (p q : Nat) : List (List Nat) :=
  if job.proto.gathers q then [x.msg j p q] else []

/-- All messages from `p` to `q`. -/
def Expected.full (x : Expected O) (j : Nat) (job : Job O) (p q : Nat) : List (List Nat) :=
  x.first j job p q ++ if job.proto.leader = some p then [x.ans j q] else []

/-- What is known about job `j` of party `p`: `D` says that the jobs it depends on are finished. -/
def LInv (n : Nat) (x : Expected O) (j : Nat) (job : Job O) (p : Nat) (D : Prop) (sent : Nat → List (List Nat))
    (gb : List RMsg) : TState O → Prop
  | .idle => (∀ q < n, sent q = []) ∧ gb = []
  | .sending rest => D ∧ (∃ pre, x.snd j p = pre ++ rest ∧ ∀ q < n, sent q = addressedTo q pre) ∧ gb = []
  | .gather g => D ∧ job.proto.gathers p = true ∧ (∀ q < n, sent q = x.first j job p q) ∧ g.Inv n gb
  | .reply rest => D ∧ job.proto.leader = some p ∧
      (∃ k, k ≤ n ∧ rest = ((List.range n).drop k).map (fun i => (Recipient.one i, x.ans j i)) ∧
        ∀ q < n, sent q = x.first j job p q ++ if q < k then [x.ans j q] else []) ∧
      ∀ r < n, dataFrom r gb = x.first j job r p
  | .wait => D ∧ job.proto.leader ≠ none ∧ (∀ q < n, sent q = x.full j job p q) ∧
      ∀ r < n, dataFrom r gb = x.first j job r p
  | .done o => D ∧ o = x.out j p ∧ (∀ q < n, sent q = x.full j job p q) ∧ ∀ r < n, dataFrom r gb = x.full j job r p
  | .fail => False

/-- The jobs which `job` depends on are finished at `p`. -/
def Sys.DepsDone (s : Sys O) (x : Expected O) (job : Job O) (p : Nat) : Prop :=
  ∀ d ∈ job.deps, s.loc p d = .done (x.out d p)

/-- The invariant of executions of a plan. -/
structure Sys.Inv (n : Nat) (jobs : List (Job O)) (x : Expected O) (s : Sys O) : Prop where
  base : s.Base n jobs
  tags : ∀ q, ∀ y ∈ s.got q, y.1 = y.2.tag
  loc : ∀ (j : Nat) (job : Job O), jobs[j]? = some job → ∀ p < n,
    LInv n x j job p (s.DepsDone x job p) (s.sent j p) (s.gotBy j p) (s.loc p j)

variable {n : Nat} {jobs : List (Job O)} {x : Expected O} {s : Sys O}

theorem LInv.mono {j : Nat} {job : Job O} {p : Nat} {D D' : Prop} {sent : Nat → List (List Nat)} {gb : List RMsg}
    {t : TState O} (hD : D → D') (h : LInv n x j job p D sent gb t) : LInv n x j job p D' sent gb t := by
  cases t with
  | idle => exact h
  | sending rest => exact ⟨hD h.1, h.2⟩
  | gather g => exact ⟨hD h.1, h.2⟩
  | reply rest => exact ⟨hD h.1, h.2⟩
  | wait => exact ⟨hD h.1, h.2⟩
  | done o => exact ⟨hD h.1, h.2⟩
  | fail => exact h

theorem prefix_append_if {α : Type} (a b : List α) (c : Prop) [Decidable c] : a ++ (if c then b else []) <+: a ++ b := by
  split
  · exact List.prefix_rfl
  · simp

/-- Every party sends what it is expected to send, in the expected order. -/
theorem Sys.Inv.sent_prefix (h : s.Inv n jobs x) (hplan : Plan n jobs x) {j : Nat} {job : Job O} (hj : jobs[j]? = some job)
    {p q : Nat} (hp : p < n) (hq : q < n) : s.sent j p q <+: x.full j job p q := by
  have hl := h.loc j job hj p hp
  have hfirst : x.first j job p q <+: x.full j job p q := List.prefix_append _ _
  cases hs : s.loc p j with
  | idle =>
    rw [hs] at hl
    rw [hl.1 q hq]
    exact List.nil_prefix
  | sending rest =>
    rw [hs] at hl
    obtain ⟨_, ⟨pre, h1, h2⟩, _⟩ := hl
    rw [h2 q hq]
    refine List.IsPrefix.trans ?_ hfirst
    have := hplan.addressed j job hj p hp q hq
    unfold Expected.first
    rw [← this, h1, List.filter_append, List.map_append]
    exact List.prefix_append _ _
  | gather g =>
    rw [hs] at hl
    rw [hl.2.2.1 q hq]
    exact hfirst
  | reply rest =>
    rw [hs] at hl
    obtain ⟨_, hL, ⟨k, _, _, h2⟩, _⟩ := hl
    rw [h2 q hq]
    unfold Expected.full
    rw [if_pos hL]
    exact prefix_append_if _ _ _
  | wait =>
    rw [hs] at hl
    rw [hl.2.2.1 q hq]
  | done o =>
    rw [hs] at hl
    rw [hl.2.2.1 q hq]
  | fail =>
    rw [hs] at hl
    exact hl.elim

theorem fromTag_gotBy (htags : ∀ q, ∀ y ∈ s.got q, y.1 = y.2.tag) (j r q : Nat) :
    fromTag j r ((s.got q).map (·.2)) = dataFrom r (s.gotBy j q) := by
  unfold fromTag dataFrom Sys.gotBy
  have : ∀ l : List (Nat × TMsg), (∀ y ∈ l, y.1 = y.2.tag) →
      List.map (fun m => m.msg.data) (List.filter (fun m => decide (m.tag = j) && decide (m.msg.sender = r)) (l.map (·.2)))
        = List.map (fun m => m.data) (List.filter (fun m => decide (m.sender = r))
            (List.map (fun y => y.2.msg) (List.filter (fun y => decide (y.1 = j)) l))) := by
    intro l hl
    induction l with
    | nil => rfl
    | cons y l ih =>
      have ih := ih (fun z hz => hl z (by simp [hz]))
      have hy := hl y (by simp)
      by_cases h1 : y.1 = j
      · have h1' : y.2.tag = j := hy ▸ h1
        by_cases h2 : y.2.msg.sender = r
        · simp [h1, h1', h2, ih]
        · simp [h1, h1', h2, ih]
      · have h1' : ¬ y.2.tag = j := fun h => h1 (hy.trans h)
        simp [h1, h1', ih]
  exact this _ (htags q)

/-- What a job has received from a party is part of what that party has sent. -/
theorem Sys.Inv.got_prefix (h : s.Inv n jobs x) (j r q : Nat) : dataFrom r (s.gotBy j q) <+: s.sent j r q := by
  rw [h.base.cons j r q, fromTag_gotBy h.tags, List.append_assoc]
  exact List.prefix_append _ _

/-- A started job has everything it depends on. -/
theorem Sys.Inv.started_deps (h : s.Inv n jobs x) {j : Nat} {job : Job O} (hj : jobs[j]? = some job) {p : Nat} (hp : p < n)
    (hs : s.Started p j) : s.DepsDone x job p := by
  have hl := h.loc j job hj p hp
  unfold Sys.Started at hs
  cases ht : s.loc p j with
  | idle => exact absurd ht hs
  | sending rest => rw [ht] at hl; exact hl.1
  | gather g => rw [ht] at hl; exact hl.1
  | reply rest => rw [ht] at hl; exact hl.1
  | wait => rw [ht] at hl; exact hl.1
  | done o => rw [ht] at hl; exact hl.1
  | fail => rw [ht] at hl; exact hl.elim

theorem Sys.Inv.started_before (h : s.Inv n jobs x) {i j : Nat} (hb : Before jobs i j) {p : Nat} (hp : p < n)
    (hs : s.Started p j) : s.Finished p i := by
  unfold Before at hb
  have step : ∀ a b, (∃ job, jobs[b]? = some job ∧ a ∈ job.deps) → s.Started p b → s.Finished p a := by
    intro a b ⟨job, hj, ha⟩ hb
    exact ⟨_, h.started_deps hj hp hb a ha⟩
  induction hb with
  | single hr => exact step _ _ hr hs
  | tail _ hr ih =>
    obtain ⟨o, ho⟩ := step _ _ hr hs
    exact ih (by unfold Sys.Started; rw [ho]; simp)

theorem sent_started (h : s.Inv n jobs x) {j : Nat} {job : Job O} (hj : jobs[j]? = some job) {p q : Nat} (hp : p < n)
    (hq : q < n) (hs : s.sent j p q ≠ []) : s.Started p j := by
  intro ht
  have hl := h.loc j job hj p hp
  rw [ht] at hl
  exact hs (hl.1 q hq)

/-- A job without a leader is finished only when all parties have started it. -/
theorem Sys.Inv.barrier (h : s.Inv n jobs x) {j : Nat} {job : Job O} (hj : jobs[j]? = some job)
    (hlead : job.proto.leader = none) {p : Nat} (hp : p < n) (hs : s.Finished p j) {q : Nat} (hq : q < n) :
    s.Started q j := by
  obtain ⟨o, ho⟩ := hs
  have hl := h.loc j job hj p hp
  rw [ho] at hl
  have h1 := hl.2.2.2 q hq
  refine sent_started h hj hq hp (fun h0 => ?_)
  have h2 := h.got_prefix j q p
  rw [h0, List.prefix_nil, h1] at h2
  unfold Expected.full Expected.first Proto.gathers at h2
  rw [hlead] at h2
  simp at h2

/-- When a job is finished, nothing that was sent to it is left over. -/
theorem Sys.Inv.finished_clean (h : s.Inv n jobs x) (hplan : Plan n jobs x) {j : Nat} {job : Job O}
    (hj : jobs[j]? = some job) {q : Nat} (hq : q < n) (hs : s.Finished q j) {m : TMsg} (hm : m ∈ s.inbox q)
    (ht : m.tag = j) : False := by
  obtain ⟨o, ho⟩ := hs
  have hl := h.loc j job hj q hq
  rw [ho] at hl
  have hr := (h.base.inbox q m hm).1
  have h1 := hl.2.2.2 m.msg.sender hr
  have h2 := h.sent_prefix hplan hj hr hq
  rw [h.base.cons j m.msg.sender q, fromTag_gotBy h.tags, h1] at h2
  have h3 := h2.length_le
  have h4 : 0 < (fromTag j m.msg.sender (s.inbox q)).length := List.length_pos_iff.2 (fromTag_mem hm ht rfl)
  simp only [List.length_append] at h3
  omega

/-- The messages which a job receives are its own. -/
theorem Sys.Inv.own_tag (h : s.Inv n jobs x) (hplan : Plan n jobs x) {j : Nat} {job : Job O} (hj : jobs[j]? = some job)
    {p : Nat} (hp : p < n) (hs : s.Started p j) (hf : ¬ s.Finished p j) {m : TMsg} (hm : m ∈ s.inbox p)
    (hid : m.msg.protoId = job.id) : m.tag = j := by
  obtain ⟨hr, jm, hjm, hidm⟩ := h.base.inbox p m hm
  by_contra hne
  have hsent : s.sent m.tag m.msg.sender p ≠ [] := by
    rw [h.base.cons]
    intro h0
    rw [List.append_eq_nil_iff, List.append_eq_nil_iff] at h0
    exact fromTag_mem hm rfl rfl h0.1.2
  have hst : s.Started m.msg.sender m.tag := sent_started h hjm hr hp hsent
  rcases Nat.lt_or_gt_of_ne hne with hlt | hlt
  · obtain ⟨k, c, hk, hc, b1, b2⟩ := hplan.ids m.tag j jm job hjm hj hlt (hidm.symm.trans hid)
    have f1 := h.started_before b2 hp hs
    have f2 := h.barrier hk hc hp f1 hp
    have f3 := h.started_before b1 hp f2
    exact h.finished_clean hplan hjm hp f3 hm rfl
  · obtain ⟨k, c, hk, hc, b1, b2⟩ := hplan.ids j m.tag job jm hj hjm hlt (hid.symm.trans hidm)
    have f1 := h.started_before b2 hr hst
    have f2 := h.barrier hk hc hr f1 hp
    exact hf (h.started_before b1 hp f2)

theorem firstOf_dataFrom (r : Nat) (ms : List RMsg) : firstOf r ms = (dataFrom r ms).head? := by
  unfold firstOf dataFrom
  rw [List.head?_map, List.head?_filter]

theorem hasMsg_dataFrom (r : Nat) (ms : List RMsg) : HasMsg r ms ↔ dataFrom r ms ≠ [] := by
  unfold HasMsg dataFrom
  rw [ne_eq, List.map_eq_nil_iff, List.filter_eq_nil_iff]
  push Not
  simp

/-- What the gathering party has when all messages are there. -/
theorem gather_full (h : s.Inv n jobs x) (hplan : Plan n jobs x) {j : Nat} {job : Job O} (hj : jobs[j]? = some job)
    {p : Nat} (hp : p < n) {g : Gather} (hst : s.loc p j = .gather g) (hc : g.counter = n) :
    (∀ r < n, dataFrom r (s.gotBy j p) = x.first j job r p) ∧ g.mssgs = (List.range n).map fun r => x.msg j r p := by
  have hl := h.loc j job hj p hp
  rw [hst] at hl
  obtain ⟨_, hg, hsent, hinv⟩ := hl
  have hall := (Gather.count_eq hinv).1 hc
  have key : ∀ r < n, dataFrom r (s.gotBy j p) = [x.msg j r p] := by
    intro r hr
    have h1 := h.got_prefix j r p
    have h2 : s.sent j r p <+: [x.msg j r p] := by
      by_cases hrp : r = p
      · subst hrp
        rw [hsent r hr]
        unfold Expected.first
        rw [hg]
        exact List.prefix_rfl
      · have h3 := h.sent_prefix hplan hj hr hp
        unfold Expected.full Expected.first at h3
        rw [hg, if_pos rfl, if_neg] at h3
        · simpa using h3
        · intro hl
          unfold Proto.gathers at hg
          rw [hl] at hg
          exact hrp (by simpa using hg : p = r).symm
    have h3 := h1.trans h2
    rcases List.prefix_cons_iff.1 h3 with h4 | ⟨l, h4, h5⟩
    · exact absurd h4 ((hasMsg_dataFrom r _).1 (hall r hr))
    · rw [List.prefix_nil] at h5
      rw [h4, h5]
  refine ⟨fun r hr => by unfold Expected.first; rw [hg, key r hr]; rfl, ?_⟩
  apply List.ext_getElem?
  intro r
  by_cases hr : r < n
  · rw [hinv.vals r hr (hall r hr), firstOf_dataFrom, key r hr]
    simp [hr]
  · rw [List.getElem?_eq_none (by rw [hinv.lenM]; omega), List.getElem?_eq_none (by simp; omega)]

theorem Sys.inv_start : (Sys.start : Sys O).Inv n jobs x :=
  ⟨Sys.base_start n jobs, by simp [Sys.start], fun j job _ p _ => by simp [Sys.start, LInv, Sys.gotBy]⟩

theorem Sys.Inv.of_act (h : s.Inv n jobs x) {s' : Sys O} {j : Nat} {job : Job O} (hj : jobs[j]? = some job) {p : Nat}
    {t : TState O} (hloc : s'.loc = setLoc s.loc p j t) (hnd : ∀ o, s.loc p j ≠ .done o) (hbase : s'.Base n jobs)
    (htags : ∀ q, ∀ y ∈ s'.got q, y.1 = y.2.tag)
    (hsent : ∀ i a, ¬ (a = p ∧ i = j) → s'.sent i a = s.sent i a)
    (hgot : ∀ i a, ¬ (a = p ∧ i = j) → s'.gotBy i a = s.gotBy i a)
    (ht : LInv n x j job p (s.DepsDone x job p) (s'.sent j p) (s'.gotBy j p) t) : s'.Inv n jobs x := by
  have hD : ∀ jb a, s.DepsDone x jb a → s'.DepsDone x jb a := by
    intro jb a hd d hdm
    rw [hloc]
    unfold setLoc
    rw [if_neg, hd d hdm]
    rintro ⟨rfl, rfl⟩
    exact hnd _ (hd d hdm)
  refine ⟨hbase, htags, fun i ji hi a ha => ?_⟩
  by_cases hai : a = p ∧ i = j
  · obtain ⟨rfl, rfl⟩ := hai
    rw [hj] at hi
    cases hi
    have : s'.loc a i = t := by rw [hloc]; unfold setLoc; rw [if_pos ⟨rfl, rfl⟩]
    rw [this]
    exact ht.mono (hD _ _)
  · have : s'.loc a i = s.loc a i := by rw [hloc]; unfold setLoc; rw [if_neg hai]
    rw [this, hsent i a hai, hgot i a hai]
    exact (h.loc i ji hi a ha).mono (hD _ _)

/-- The results a party needs are there. -/
theorem Sys.Inv.ready_deps (h : s.Inv n jobs x) (hplan : Plan n jobs x) {j : Nat} {job : Job O} (hj : jobs[j]? = some job)
    {p : Nat} (hp : p < n) (hr : job.ready (s.env p) = true) : s.DepsDone x job p := by
  intro d hd
  unfold Job.ready at hr
  rw [List.all_eq_true] at hr
  have h1 := hr d hd
  unfold Sys.env at h1
  have hdj := hplan.deps j job hj d hd
  have hjl : j < jobs.length := (List.getElem?_eq_some_iff.1 hj).1
  have hdd : jobs[d]? = some jobs[d] := List.getElem?_eq_getElem (by omega)
  have hl := h.loc d _ hdd p hp
  cases ht : s.loc p d with
  | done o =>
    rw [ht] at hl
    rw [hl.2.1]
  | _ => rw [ht] at h1; simp at h1

theorem Sys.DepsDone.has {job : Job O} {p : Nat} (h : s.DepsDone x job p) :
    (s.env p).only job.deps = x.env job p := by
  funext d
  unfold Env.only Expected.env Sys.env
  by_cases hd : d ∈ job.deps
  · simp only [hd, if_true]
    rw [h d hd]
  · simp only [hd, if_false]

theorem dataFrom_append (r : Nat) (a b : List RMsg) : dataFrom r (a ++ b) = dataFrom r a ++ dataFrom r b := by
  unfold dataFrom
  rw [List.filter_append, List.map_append]

theorem addressedTo_append (q : Nat) (a b : List (Recipient × List Nat)) :
    addressedTo q (a ++ b) = addressedTo q a ++ addressedTo q b := by
  unfold addressedTo
  rw [List.filter_append, List.map_append]

theorem zipIdx_answers (f : Nat → List Nat) (n : Nat) :
    ((List.range n).map f).zipIdx.map (fun r => (Recipient.one r.2, r.1))
      = (List.range n).map fun i => (Recipient.one i, f i) := by
  apply List.ext_getElem
  · simp
  · intro i h1 h2
    simp

/-- The state after a step without communication. -/
theorem Sys.Inv.tau (h : s.Inv n jobs x) (hplan : Plan n jobs x) {j : Nat} {job : Job O} (hj : jobs[j]? = some job)
    {p : Nat} (hp : p < n) (hr : job.ready (s.env p) = true) {t : TState O}
    (ht : job.proto.act n p ((s.env p).only job.deps) (s.loc p j) = .tau t) :
    LInv n x j job p (s.DepsDone x job p) (s.sent j p) (s.gotBy j p) t := by
  have hl := h.loc j job hj p hp
  have hD := h.ready_deps hplan hj hp hr
  cases hs : s.loc p j with
  | idle =>
    rw [hs] at hl ht
    unfold Proto.act at ht
    rw [hD.has, hplan.sends j job hj p hp] at ht
    cases ht
    exact ⟨hD, ⟨[], rfl, fun q hq => by rw [hl.1 q hq]; rfl⟩, hl.2⟩
  | sending rest =>
    rw [hs] at hl ht
    obtain ⟨_, ⟨pre, h1, h2⟩, h3⟩ := hl
    cases rest with
    | cons _ _ => cases ht
    | nil =>
      have h4 : ∀ q < n, s.sent j p q = x.first j job p q := by
        intro q hq
        rw [h2 q hq]
        have := hplan.addressed j job hj p hp q hq
        rw [h1, List.append_nil] at this
        exact this
      unfold Proto.act at ht
      cases ht
      split
      · next hg =>
        refine ⟨hD, hg, h4, ?_⟩
        rw [h3]
        exact Gather.inv_init n
      · next hg =>
        have hlead : job.proto.leader ≠ none ∧ job.proto.leader ≠ some p := by
          unfold Proto.gathers at hg
          constructor
          · intro h0
            rw [h0] at hg
            exact hg rfl
          · intro h0
            rw [h0] at hg
            exact hg (by simp)
        refine ⟨hD, hlead.1, fun q hq => ?_, fun r hr => ?_⟩
        · rw [h4 q hq]
          unfold Expected.full
          rw [if_neg hlead.2, List.append_nil]
        · rw [h3]
          unfold Expected.first
          rw [if_neg hg]
          rfl
  | gather g =>
    rw [hs] at ht
    unfold Proto.act at ht
    simp only [] at ht
    split at ht
    · next hc =>
      obtain ⟨h1, h2⟩ := gather_full h hplan hj hp hs hc
      rw [hs] at hl
      obtain ⟨_, hg, hsent, hinv⟩ := hl
      split at ht
      · next hlead =>
        rw [h2, hD.has, hplan.finishAll j job hj hlead p hp] at ht
        cases ht
        refine ⟨hD, rfl, fun q hq => ?_, fun r hr => ?_⟩
        · rw [hsent q hq]
          unfold Expected.full
          rw [hlead]
          simp
        · rw [h1 r hr]
          unfold Expected.full
          rw [hlead]
          simp
      · next L hlead =>
        have hLp : L = p := by
          unfold Proto.gathers at hg
          rw [hlead] at hg
          exact (by simpa using hg : p = L).symm
        subst hLp
        rw [h2, hD.has, hplan.answer j job hj L hlead] at ht
        cases ht
        refine ⟨hD, hlead, ⟨0, Nat.zero_le _, ?_, fun q hq => ?_⟩, h1⟩
        · rw [zipIdx_answers]
          rfl
        · rw [hsent q hq]
          simp
    · cases ht
  | reply rest =>
    rw [hs] at hl ht
    obtain ⟨_, hL, ⟨k, hk, h1, h2⟩, h3⟩ := hl
    cases rest with
    | cons _ _ => cases ht
    | nil =>
      cases ht
      have hkn : k = n := by
        have := congrArg List.length h1
        simp at this
        omega
      subst hkn
      refine ⟨hD, by rw [hL]; simp, fun q hq => ?_, h3⟩
      rw [h2 q hq, if_pos hq]
      unfold Expected.full
      rw [if_pos hL]
  | wait =>
    rw [hs] at ht
    cases ht
  | done o =>
    rw [hs] at ht
    cases ht
  | fail =>
    rw [hs] at ht
    cases ht

/-- The state after sending. -/
theorem Sys.Inv.send (h : s.Inv n jobs x) (hplan : Plan n jobs x) {j : Nat} {job : Job O} (hj : jobs[j]? = some job)
    {p : Nat} (hp : p < n) (hr : job.ready (s.env p) = true) {dest : Recipient} {data : List Nat} {t : TState O}
    (ht : job.proto.act n p ((s.env p).only job.deps) (s.loc p j) = .send dest data t) :
    dest.known n = true ∧ LInv n x j job p (s.DepsDone x job p)
      (fun q => if dest.includes q then s.sent j p q ++ [data] else s.sent j p q) (s.gotBy j p) t := by
  have hl := h.loc j job hj p hp
  have hD := h.ready_deps hplan hj hp hr
  cases hs : s.loc p j with
  | idle =>
    rw [hs] at ht
    cases ht
  | sending rest =>
    rw [hs] at hl ht
    obtain ⟨_, ⟨pre, h1, h2⟩, h3⟩ := hl
    cases rest with
    | nil => cases ht
    | cons a rest =>
      cases ht
      refine ⟨hplan.known j job hj p hp a (by rw [h1]; simp), hD, ⟨pre ++ [a], by rw [h1]; simp, fun q hq => ?_⟩, h3⟩
      simp only []
      rw [h2 q hq, addressedTo_append]
      unfold addressedTo
      by_cases hi : a.1.includes q = true
      · simp [hi]
      · simp [hi]
  | gather g =>
    rw [hs] at ht
    unfold Proto.act at ht
    simp only [] at ht
    split at ht
    · split at ht <;> cases ht
    · cases ht
  | reply rest =>
    rw [hs] at hl ht
    obtain ⟨_, hL, ⟨k, hk, h1, h2⟩, h3⟩ := hl
    cases rest with
    | nil => cases ht
    | cons a rest =>
      cases ht
      have hkn : k < n := by
        have := congrArg List.length h1
        simp at this
        omega
      have hdrop : (List.range n).drop k = k :: (List.range n).drop (k + 1) := by
        rw [List.drop_eq_getElem_cons (by simpa using hkn)]
        simp
      rw [hdrop, List.map_cons, List.cons.injEq] at h1
      obtain ⟨rfl, rfl⟩ := h1
      refine ⟨by simpa [Recipient.known] using hkn, hD, hL, ⟨k + 1, hkn, rfl, fun q hq => ?_⟩, h3⟩
      simp only []
      rw [h2 q hq]
      unfold Recipient.includes
      by_cases hqk : q = k
      · subst hqk
        simp
      · have h4 : ¬ (k = q) := fun h => hqk h.symm
        have h5 : q < k + 1 ↔ q < k := by omega
        simp [h4, h5]
  | wait =>
    rw [hs] at ht
    cases ht
  | done o =>
    rw [hs] at ht
    cases ht
  | fail =>
    rw [hs] at ht
    cases ht

/-- The state after receiving. -/
theorem Sys.Inv.recv (h : s.Inv n jobs x) (hplan : Plan n jobs x) {j : Nat} {job : Job O} (hj : jobs[j]? = some job)
    {p : Nat} (hp : p < n) (hr : job.ready (s.env p) = true) {f : RMsg → TState O}
    (ht : job.proto.act n p ((s.env p).only job.deps) (s.loc p j) = .recv f) {m : TMsg} (hm : m ∈ s.inbox p)
    (hpre : dataFrom m.msg.sender (s.gotBy j p ++ [m.msg]) <+: s.sent j m.msg.sender p) :
    LInv n x j job p (s.DepsDone x job p) (s.sent j p) (s.gotBy j p ++ [m.msg]) (f m.msg) := by
  have hl := h.loc j job hj p hp
  have hD := h.ready_deps hplan hj hp hr
  have hsend := (h.base.inbox p m hm).1
  cases hs : s.loc p j with
  | idle =>
    rw [hs] at ht
    cases ht
  | sending rest =>
    rw [hs] at ht
    cases rest <;> cases ht
  | gather g =>
    rw [hs] at hl ht
    unfold Proto.act at ht
    simp only [] at ht
    split at ht
    · split at ht <;> cases ht
    · cases ht
      obtain ⟨_, hg, hsent, hinv⟩ := hl
      obtain ⟨g', h1, h2⟩ := Gather.inv_step hinv m.msg hsend
      simp only []
      rw [h1]
      exact ⟨hD, hg, hsent, h2⟩
  | reply rest =>
    rw [hs] at ht
    cases rest <;> cases ht
  | wait =>
    rw [hs] at hl ht
    cases ht
    obtain ⟨_, hlead, hsent, hgot⟩ := hl
    obtain ⟨L, hL⟩ := Option.ne_none_iff_exists'.1 hlead
    have hfull := hpre.trans (h.sent_prefix hplan hj hsend hp)
    have hself : dataFrom m.msg.sender [m.msg] = [m.msg.data] := by simp [dataFrom]
    rw [dataFrom_append, hgot _ hsend, hself] at hfull
    unfold Expected.full at hfull
    rw [List.prefix_append_right_inj] at hfull
    have hLs : job.proto.leader = some m.msg.sender := by
      by_contra h0
      rw [if_neg h0] at hfull
      simp at hfull
    rw [if_pos hLs] at hfull
    have hdata : m.msg.data = x.ans j p := by
      simpa using hfull
    simp only []
    rw [hdata, hD.has, hplan.finishOne j job hj _ hLs p hp]
    refine ⟨hD, rfl, hsent, fun r hr => ?_⟩
    rw [dataFrom_append, hgot r hr]
    unfold Expected.full dataFrom
    by_cases hrs : m.msg.sender = r
    · subst hrs
      simp [hLs, hdata]
    · have h4 : ¬ job.proto.leader = some r := by
        rw [hLs]
        simpa using hrs
      simp [hrs, h4]
  | done o =>
    rw [hs] at ht
    cases ht
  | fail =>
    rw [hs] at ht
    cases ht

theorem act_not_done {P : Proto O} {p : Nat} {env : Env O} {t : TState O} (h : P.act n p env t ≠ .stop) (o : O) :
    t ≠ .done o := by
  rintro rfl
  exact h rfl

/-- The invariant holds in every reachable state. -/
theorem Sys.inv_step (h : s.Inv n jobs x) (hplan : Plan n jobs x) {e : SysStep} {s' : Sys O}
    (hstep : s.step n jobs e = some s') : s'.Inv n jobs x := by
  have hb := Sys.base_step h.base hstep
  cases e with
  | deliver p q =>
    unfold Sys.step at hstep
    simp only [] at hstep
    split at hstep
    · split at hstep
      · cases hstep
      · cases hstep
        exact ⟨hb, h.tags, h.loc⟩
    · cases hstep
  | act p j =>
    unfold Sys.step at hstep
    simp only [] at hstep
    split at hstep
    · next hp =>
      split at hstep
      · cases hstep
      · next job hj =>
        unfold Sys.actStep at hstep
        split at hstep
        · next hr =>
          split at hstep
          · next dest data t ht =>
            split at hstep
            · cases hstep
              obtain ⟨_, h2⟩ := h.send hplan hj hp hr ht
              refine h.of_act hj (p := p) (t := t) rfl (act_not_done (by rw [ht]; simp)) hb h.tags ?_ ?_ ?_
              · intro i a hia
                funext b
                simp only []
                rw [if_neg]
                rintro ⟨rfl, rfl, _⟩
                exact hia ⟨rfl, rfl⟩
              · intro i a _
                rfl
              · have h3 : (fun b => if j = j ∧ p = p ∧ dest.includes b = true then s.sent j p b ++ [data] else s.sent j p b)
                    = fun q => if dest.includes q then s.sent j p q ++ [data] else s.sent j p q := by
                  funext b
                  simp
                rw [← h3] at h2
                exact h2
            · cases hstep
          · next f ht =>
            split at hstep
            · cases hstep
            · next m rest htake =>
              cases hstep
              obtain ⟨hm, hid⟩ : m ∈ s.inbox p ∧ m.msg.protoId = job.id := by
                obtain ⟨pre, post, h1, _, h3, _⟩ := takeFirst_some htake
                exact ⟨by rw [h1]; simp, h3⟩
              have hnf : ¬ s.Finished p j := by
                rintro ⟨o, ho⟩
                exact act_not_done (o := o) (by rw [ht]; simp) ho
              have hst : s.Started p j := by
                intro h0
                rw [h0] at ht
                cases ht
              have htag := h.own_tag hplan hj hp hst hnf hm hid
              have hgotj : ∀ i a, ¬ (a = p ∧ i = j) →
                  List.map (fun y : Nat × TMsg => y.2.msg) (List.filter (fun y => decide (y.1 = i))
                    (Function.update s.got p (s.got p ++ [(j, m)]) a)) = s.gotBy i a := by
                intro i a hia
                by_cases hap : a = p
                · subst hap
                  have hij : ¬ j = i := fun h => hia ⟨rfl, h.symm⟩
                  simp [Sys.gotBy, hij]
                · rw [Function.update_of_ne hap]
                  rfl
              have hgotp : List.map (fun y : Nat × TMsg => y.2.msg) (List.filter (fun y => decide (y.1 = j))
                    (Function.update s.got p (s.got p ++ [(j, m)]) p)) = s.gotBy j p ++ [m.msg] := by
                simp [Sys.gotBy]
              have htags : ∀ q, ∀ y ∈ Function.update s.got p (s.got p ++ [(j, m)]) q, y.1 = y.2.tag := by
                intro q y hy
                by_cases hqp : q = p
                · subst hqp
                  rw [Function.update_self, List.mem_append] at hy
                  rcases hy with hy | hy
                  · exact h.tags q y hy
                  · rw [List.mem_singleton] at hy
                    subst hy
                    exact htag.symm
                · rw [Function.update_of_ne hqp] at hy
                  exact h.tags q y hy
              refine h.of_act hj (p := p) (t := f m.msg) rfl (act_not_done (by rw [ht]; simp)) hb htags (fun _ _ _ => rfl)
                hgotj ?_
              have hpre : dataFrom m.msg.sender (s.gotBy j p ++ [m.msg]) <+: s.sent j m.msg.sender p := by
                have h1 := hb.cons j m.msg.sender p
                rw [fromTag_gotBy htags, List.append_assoc] at h1
                have h2 : s.sent j m.msg.sender p = _ := h1
                rw [h2]
                unfold Sys.gotBy at hgotp ⊢
                simp only [] at hgotp ⊢
                rw [hgotp]
                exact List.prefix_append _ _
              have := h.recv hplan hj hp hr ht hm hpre
              unfold Sys.gotBy at this hgotp ⊢
              simp only [] at this hgotp ⊢
              rw [hgotp]
              exact this
          · next t ht =>
            cases hstep
            exact h.of_act hj (p := p) (t := t) rfl (act_not_done (by rw [ht]; simp)) hb h.tags (fun _ _ _ => rfl)
              (fun _ _ _ => rfl) (h.tau hplan hj hp hr ht)
          · cases hstep
        · cases hstep
    · cases hstep

end Verif
