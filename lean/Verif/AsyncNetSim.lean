import Verif.AsyncNetLemmas
import Verif.AsyncExitLemmas
import Mathlib.Data.Prod.Lex
import Mathlib.Algebra.Group.Prod

/-!
# Executions over the TCP network and executions of `Verif.Async`

Every execution over the TCP network is, if one looks at the parties only, an execution of `Verif.Async`.
-/

namespace Verif

variable {O : Type} {n : Nat} {jobs : List (Job O)} {x : Expected O}

/-- What is put on the network. -/
def toNet (m : TMsg) : NetMsg := ⟨m.msg.protoId, m.msg.data⟩

/-! ### Statistics -/

theorem bytesFrom_append (p : Nat) (a b : List RMsg) : bytesFrom p (a ++ b) = bytesFrom p a + bytesFrom p b := by
  simp [bytesFrom]

theorem bytesFrom_perm {p : Nat} {a b : List RMsg} (h : a.Perm b) : bytesFrom p a = bytesFrom p b := by
  unfold bytesFrom
  rw [((h.filter _).map _).sum_eq, ((h.filter _).map _).sum_eq]

theorem bytesFrom_single (p : Nat) (m : RMsg) : bytesFrom p [m] =
    if m.sender = p then (m.data.length, m.data.length + m.protoId.length) else 0 := by
  by_cases h : m.sender = p <;> simp [bytesFrom, h]

theorem bytesFrom_cons (p : Nat) (m : RMsg) (l : List RMsg) : bytesFrom p (m :: l) = bytesFrom p [m] + bytesFrom p l :=
  bytesFrom_append p [m] l

theorem statsIncrement_ok {st : List (Nat × Nat)} {m : RMsg} (hst : st.length = n) (hm : m.sender < n) :
    ∃ st', statsIncrement st m.sender m.data.length (m.data.length + m.protoId.length) = some st' ∧ st'.length = n ∧
      ∀ r < n, ∀ a, st[r]? = some a → st'[r]? = some (a + bytesFrom r [m]) := by
  unfold statsIncrement
  rw [List.getElem?_eq_getElem (by omega), Option.map_some]
  refine ⟨_, rfl, by simp [hst], ?_⟩
  intro r hr a ha
  rw [bytesFrom_single]
  by_cases h : m.sender = r
  · subst h
    rw [List.getElem?_set_self (by omega), if_pos rfl]
    rw [List.getElem?_eq_getElem (by omega), Option.some.injEq] at ha
    rw [ha]
    rfl
  · rw [List.getElem?_set_ne h, if_neg h, ha]
    simp

/-! ### The relation -/

/-- State `s` of `Verif.Async` describes state `f`; `fr p q` are the messages under way as bytes, and `un p id` are those
which have been given to a job of `p` that has not taken them. -/
structure NRel (n : Nat) (jobs : List (Job O)) (f : Full O) (s : Sys O) (fr : Nat → Nat → List NetMsg)
    (un : Nat → ProtocolID → List RMsg) : Prop where
  reach : ∃ es, Sys.start.run n jobs es = some s
  loc : f.loc = s.loc
  chan : ∀ p < n, ∀ q < n, p ≠ q → (s.chan p q).map toNet = fr p q ++ f.partyInp p q ++ queuedFor p q (f.netInp p)
  self : ∀ p < n, (s.chan p p).map toNet = queuedFor p p (f.netInp p)
  bytes : ∀ p < n, ∀ q < n, p ≠ q → encodeFrames (fr p q) = some (f.inBuf p q ++ f.wire p q ++ f.outBuf p q)
  known : ∀ p < n, ∀ m ∈ f.netInp p, m.dest.known n = true
  inbox : ∀ p < n, ∀ id, ofId id ((s.inbox p).map (·.msg)) = un p id ++ (f.router p).queueOf id ++ ofId id (f.partyOut p)
  out : ∀ p < n, ∀ m ∈ f.partyOut p, m.sender < n
  len : ∀ p < n, (f.stats p).length = n
  stats : ∀ p < n, ∀ r < n, ∃ a, (f.stats p)[r]? = some a ∧
    a + bytesFrom r (f.partyOut p) = bytesFrom r ((s.got p).map (·.2.msg)) + bytesFrom r ((s.inbox p).map (·.msg))
  reqs : ∀ p < n, RReq n jobs (f.loc p) (f.waits p) (f.calls p) (f.netOut p) (f.router p) (un p)

theorem NRel.start : NRel n jobs (Full.start n) Sys.start (fun _ _ => []) (fun _ _ => []) := by
  refine ⟨⟨[], rfl⟩, rfl, ?_, ?_, ?_, ?_, ?_, ?_, ?_, ?_, ?_⟩
  · intros; rfl
  · intros; rfl
  · intros; rfl
  · intro p _ m hm
    cases hm
  · intros; rfl
  · intro p _ m hm
    cases hm
  · intros
    simp [Full.start, statsNew]
  · intro p _ r hr
    refine ⟨(0, 0), by simp [Full.start, statsNew, hr], ?_⟩
    simp [Full.start, Sys.start, bytesFrom]
  · intro p _
    refine ⟨?_, ?_, ?_, ?_, ?_, ?_, ?_, ?_, ?_, ?_, ?_⟩
    · intro j h hh; cases hh
    · intro j job h _ hh; cases hh
    · intro id h; exact absurd rfl h
    · intro a ha; cases ha
    · intro id h hh; cases hh
    · exact List.nodup_nil
    · intro i j h hh; cases hh
    · intro a ha; cases ha
    · intro id h hh; cases hh
    · intro id hh; cases hh
    · rfl

/-- All messages can be put on the network. -/
def Sizes (n : Nat) (jobs : List (Job O)) : Prop :=
  ∀ (es : List SysStep) (s : Sys O), Sys.start.run n jobs es = some s → ∀ p < n, ∀ q < n, ∀ m ∈ s.chan p q, (toNet m).Ok

variable {f f' : Full O} {s : Sys O} {fr : Nat → Nat → List NetMsg} {un : Nat → ProtocolID → List RMsg}

theorem setLoc_self (loc : Nat → Nat → TState O) (p j : Nat) (t : TState O) :
    setLoc loc p j t p = Function.update (loc p) j t := by
  funext b
  unfold setLoc
  by_cases h : b = j
  · subst h
    simp
  · simp [h]

theorem setLoc_ne (loc : Nat → Nat → TState O) {p a : Nat} (j : Nat) (t : TState O) (h : a ≠ p) :
    setLoc loc p j t a = loc a := by
  funext b
  simp [setLoc, h]

theorem upd2_self {α : Type} (g : Nat → Nat → α) (p q : Nat) (v : α) : upd2 g p q v p = Function.update (g p) q v := by
  funext b
  unfold upd2
  by_cases h : b = q
  · subst h
    simp
  · simp [h]

theorem upd2_ne {α : Type} (g : Nat → Nat → α) {p a : Nat} (q : Nat) (v : α) (h : a ≠ p) : upd2 g p q v a = g a := by
  funext b
  simp [upd2, h]

theorem NRel.inv (h : NRel n jobs f s fr un) (hplan : Plan n jobs x) : s.Inv n jobs x := by
  obtain ⟨es, hes⟩ := h.reach
  exact hplan.inv hes

theorem NRel.unique (h : NRel n jobs f s fr un) (hplan : Plan n jobs x) {p : Nat} (hp : p < n) :
    UniqueIds n jobs (f.loc p) := by
  intro i j a b hi hj hid hri hrj
  rw [h.loc] at hri hrj
  exact receiving_unique hplan (h.inv hplan) hp hi hj hid hri hrj

theorem reach_step {s s' : Sys O} (h : ∃ es, Sys.start.run n jobs es = some s) {e : SysStep} (hs : s.step n jobs e = some s') :
    ∃ es, Sys.start.run n jobs es = some s' := by
  obtain ⟨es, hes⟩ := h
  refine ⟨es ++ [e], ?_⟩
  rw [Sys.run_append, hes, Option.bind_some]
  unfold Sys.run
  rw [hs]
  rfl

/-! ### Ranks -/

/-- What goes down when the parties do nothing that other parties can see. -/
def Full.rank (n J : Nat) (f : Full O) : Nat ×ₗ Nat ×ₗ Nat ×ₗ Nat ×ₗ Nat ×ₗ Nat ×ₗ Nat :=
  toLex (∑ a ∈ Finset.range n ×ˢ Finset.range J, (if f.waits a.1 a.2 = none then 1 else 0),
  toLex (∑ p ∈ Finset.range n, (f.netInp p).length,
  toLex (∑ p ∈ Finset.range n, (f.partyOut p).length,
  toLex (∑ p ∈ Finset.range n, (f.netOut p).length,
  toLex (∑ a ∈ Finset.range n ×ˢ Finset.range n, (f.partyInp a.1 a.2).length,
  toLex (∑ a ∈ Finset.range n ×ˢ Finset.range n, (f.outBuf a.1 a.2).length,
    ∑ a ∈ Finset.range n ×ˢ Finset.range n, (f.wire a.1 a.2).length))))))

theorem lex_here {A B : Type} [LT A] [LT B] {a a' : A} {b b' : B} (h : a < a') : toLex (a, b) < toLex (a', b') :=
  Prod.Lex.left _ _ h

theorem lex_next {A B : Type} [LT A] [LT B] {a : A} {b b' : B} (h : b < b') : toLex (a, b) < toLex (a, b') :=
  Prod.Lex.right _ h

theorem sum_update_lt {α : Type} (g : Nat → List α) {p : Nat} (hp : p < n) {l : List α} (hl : l.length < (g p).length) :
    ∑ q ∈ Finset.range n, (Function.update g p l q).length < ∑ q ∈ Finset.range n, (g q).length := by
  have := sum_change (Finset.range n) (fun q => (g q).length) (fun q => (Function.update g p l q).length)
    (a := p) (Finset.mem_range.2 hp) (fun b _ hb => by simp only [Function.update_of_ne hb])
  simp only [Function.update_self] at this
  omega

theorem sum_upd2_lt {α : Type} (g : Nat → Nat → List α) {p q : Nat} (hp : p < n) (hq : q < n) {l : List α}
    (hl : l.length < (g p q).length) :
    ∑ a ∈ Finset.range n ×ˢ Finset.range n, (upd2 g p q l a.1 a.2).length < ∑ a ∈ Finset.range n ×ˢ Finset.range n, (g a.1 a.2).length := by
  have := sum_change (Finset.range n ×ˢ Finset.range n) (fun a => (g a.1 a.2).length) (fun a => (upd2 g p q l a.1 a.2).length)
    (a := (p, q)) (Finset.mem_product.2 ⟨Finset.mem_range.2 hp, Finset.mem_range.2 hq⟩) (fun b _ hb => by
      have : ¬ (b.1 = p ∧ b.2 = q) := fun h => hb (Prod.ext h.1 h.2)
      simp only [upd2, if_neg this])
  simp only [upd2, and_self, if_true] at this
  simp only [upd2]
  omega

theorem sum_waits_lt {J : Nat} (g : Nat → Nat → Option Nat) {p j k : Nat} (hp : p < n) (hj : j < J) (hl : g p j = none) :
    ∑ a ∈ Finset.range n ×ˢ Finset.range J, (if upd2 g p j (some k) a.1 a.2 = none then 1 else 0) <
      ∑ a ∈ Finset.range n ×ˢ Finset.range J, (if g a.1 a.2 = none then 1 else 0) := by
  have := sum_change (Finset.range n ×ˢ Finset.range J) (fun a => if g a.1 a.2 = none then 1 else 0)
    (fun a => if upd2 g p j (some k) a.1 a.2 = none then 1 else 0)
    (a := (p, j)) (Finset.mem_product.2 ⟨Finset.mem_range.2 hp, Finset.mem_range.2 hj⟩) (fun b _ hb => by
      have : ¬ (b.1 = p ∧ b.2 = j) := fun h => hb (Prod.ext h.1 h.2)
      simp only [upd2, if_neg this])
  simp only [upd2, and_self, if_true, hl, reduceCtorEq, if_false] at this
  simp only [upd2]
  omega

/-! ### Simulation -/

/-- What a step does: nothing for `Verif.Async`, or a step there. -/
def Simulates (n : Nat) (jobs : List (Job O)) (f f' : Full O) (s : Sys O) : Prop :=
  ∃ s' fr' un', NRel n jobs f' s' fr' un' ∧
    ((s' = s ∧ f'.rank n jobs.length < f.rank n jobs.length) ∨ ∃ e, s.step n jobs e = some s')

theorem NRel.takeStep (h : NRel n jobs f s fr un) {p q : Nat} {m : NetMsg} {rest : List NetMsg} {bytes : List Nat}
    (hp : p < n) (hq : q < n) (ho : f.outBuf p q = []) (hi : f.partyInp p q = m :: rest) (hb : encodeFrame m = some bytes) :
    Simulates n jobs f { f with partyInp := upd2 f.partyInp p q rest, outBuf := upd2 f.outBuf p q bytes } s := by
  refine ⟨s, upd2 fr p q (fr p q ++ [m]), un, ⟨h.reach, h.loc, ?_, h.self, ?_, h.known, h.inbox, h.out, h.len, h.stats, h.reqs⟩,
    Or.inl ⟨rfl, ?_⟩⟩
  · intro a ha b hb' hab
    have := h.chan a ha b hb' hab
    simp only [upd2]
    split
    · rename_i hc
      obtain ⟨rfl, rfl⟩ := hc
      rw [this, hi]
      simp
    · exact this
  · intro a ha b hb' hab
    have := h.bytes a ha b hb' hab
    simp only [upd2]
    split
    · rename_i hc
      obtain ⟨rfl, rfl⟩ := hc
      rw [ho, List.append_nil] at this
      exact encodeFrames_snoc this hb
    · exact this
  · refine lex_next (lex_next (lex_next (lex_next (lex_here ?_))))
    exact sum_upd2_lt _ hp hq (by rw [hi]; simp)

theorem NRel.pushStep (h : NRel n jobs f s fr un) {p q k : Nat} (hp : p < n) (hq : q < n) (hk : 0 < k)
    (hl : k ≤ (f.outBuf p q).length) : Simulates n jobs f { f with
      outBuf := upd2 f.outBuf p q ((f.outBuf p q).drop k)
      wire := upd2 f.wire p q (f.wire p q ++ (f.outBuf p q).take k) } s := by
  refine ⟨s, fr, un, ⟨h.reach, h.loc, h.chan, h.self, ?_, h.known, h.inbox, h.out, h.len, h.stats, h.reqs⟩,
    Or.inl ⟨rfl, ?_⟩⟩
  · intro a ha b hb' hab
    have := h.bytes a ha b hb' hab
    simp only [upd2]
    split
    · rename_i hc
      obtain ⟨rfl, rfl⟩ := hc
      rw [this]
      simp
    · exact this
  · refine lex_next (lex_next (lex_next (lex_next (lex_next (lex_here ?_)))))
    exact sum_upd2_lt _ hp hq (by rw [List.length_drop]; omega)

theorem NRel.pullStep (h : NRel n jobs f s fr un) {p q k : Nat} (hp : p < n) (hq : q < n) (hk : 0 < k)
    (hl : k ≤ (f.wire p q).length) : Simulates n jobs f { f with
      wire := upd2 f.wire p q ((f.wire p q).drop k)
      inBuf := upd2 f.inBuf p q (f.inBuf p q ++ (f.wire p q).take k) } s := by
  refine ⟨s, fr, un, ⟨h.reach, h.loc, h.chan, h.self, ?_, h.known, h.inbox, h.out, h.len, h.stats, h.reqs⟩,
    Or.inl ⟨rfl, ?_⟩⟩
  · intro a ha b hb' hab
    have := h.bytes a ha b hb' hab
    simp only [upd2]
    split
    · rename_i hc
      obtain ⟨rfl, rfl⟩ := hc
      rw [this]
      congr 1
      rw [List.append_assoc (f.inBuf a b) (List.take k _), List.take_append_drop]
    · exact this
  · refine lex_next (lex_next (lex_next (lex_next (lex_next (lex_next ?_)))))
    exact sum_upd2_lt _ hp hq (by rw [List.length_drop]; omega)

theorem NRel.requestStep (h : NRel n jobs f s fr un) (hplan : Plan n jobs x) {p : Nat} {a : ProtocolID × Nat}
    {rest : List (ProtocolID × Nat)} {r : Router} (hp : p < n) (ho : f.netOut p = a :: rest)
    (hr : (f.router p).step (.request a.1 a.2) = some r) : Simulates n jobs f { f with
      netOut := Function.update f.netOut p rest
      router := Function.update f.router p r } s := by
  obtain ⟨r', un', h1, h2, h3⟩ := (h.reqs p hp).request (h.unique hplan hp) (id := a.1) (k := a.2) (rest := rest) ho
  rw [hr, Option.some.injEq] at h1
  subst h1
  refine ⟨s, fr, Function.update un p un', ⟨h.reach, h.loc, h.chan, h.self, h.bytes, h.known, ?_, h.out, h.len, h.stats, ?_⟩,
    Or.inl ⟨rfl, ?_⟩⟩
  · intro b hb id
    have := h.inbox b hb id
    by_cases hbp : b = p
    · subst hbp
      simp only [Function.update_self]
      rw [h3, this]
    · simp only [Function.update_of_ne hbp]
      exact this
  · intro b hb
    by_cases hbp : b = p
    · subst hbp
      simp only [Function.update_self]
      exact h2
    · simp only [Function.update_of_ne hbp]
      exact h.reqs b hb
  · refine lex_next (lex_next (lex_next (lex_here ?_)))
    exact sum_update_lt _ hp (by rw [ho]; simp)

theorem NRel.arriveStep (h : NRel n jobs f s fr un) (hplan : Plan n jobs x) {p : Nat} {m : RMsg} {rest : List RMsg}
    {r : Router} {st : List (Nat × Nat)} (hp : p < n) (ho : f.partyOut p = m :: rest)
    (hst : statsIncrement (f.stats p) m.sender m.data.length (m.data.length + m.protoId.length) = some st)
    (hr : (f.router p).step (.arrive m) = some r) : Simulates n jobs f { f with
      partyOut := Function.update f.partyOut p rest
      router := Function.update f.router p r
      stats := Function.update f.stats p st } s := by
  obtain ⟨r', un', h1, h2, h3⟩ := (h.reqs p hp).arrive (h.unique hplan hp) m
  rw [hr, Option.some.injEq] at h1
  subst h1
  have hm := h.out p hp m (by rw [ho]; simp)
  obtain ⟨st', s1, s2, s3⟩ := statsIncrement_ok (h.len p hp) hm
  rw [hst, Option.some.injEq] at s1
  subst s1
  refine ⟨s, fr, Function.update un p un', ⟨h.reach, h.loc, h.chan, h.self, h.bytes, h.known, ?_, ?_, ?_, ?_, ?_⟩,
    Or.inl ⟨rfl, ?_⟩⟩
  · intro b hb id
    have := h.inbox b hb id
    by_cases hbp : b = p
    · subst hbp
      simp only [Function.update_self]
      rw [h3, this, ho, ofId_cons]
      simp
    · simp only [Function.update_of_ne hbp]
      exact this
  · intro b hb y hy
    by_cases hbp : b = p
    · subst hbp
      simp only [Function.update_self] at hy
      exact h.out b hb y (by rw [ho]; simp [hy])
    · simp only [Function.update_of_ne hbp] at hy
      exact h.out b hb y hy
  · intro b hb
    by_cases hbp : b = p
    · subst hbp
      simp only [Function.update_self]
      exact s2
    · simp only [Function.update_of_ne hbp]
      exact h.len b hb
  · intro b hb q hq
    obtain ⟨a, e1, e2⟩ := h.stats b hb q hq
    by_cases hbp : b = p
    · subst hbp
      simp only [Function.update_self]
      refine ⟨_, s3 q hq a e1, ?_⟩
      rw [← e2, ho, bytesFrom_cons q m rest, add_assoc]
    · simp only [Function.update_of_ne hbp]
      exact ⟨a, e1, e2⟩
  · intro b hb
    by_cases hbp : b = p
    · subst hbp
      simp only [Function.update_self]
      exact h2
    · simp only [Function.update_of_ne hbp]
      exact h.reqs b hb
  · refine lex_next (lex_next (lex_here ?_))
    exact sum_update_lt _ hp (by rw [ho]; simp)

/-- The first message of bytes which are there. -/
theorem first_frame {ms : List NetMsg} {inb post rest : List Nat} {m : NetMsg} (hok : ∀ m ∈ ms, m.Ok)
    (hb : encodeFrames ms = some (inb ++ post)) (hr : recvFrame inb = .message m rest) :
    ∃ ms', ms = m :: ms' ∧ encodeFrames ms' = some (rest ++ post) := by
  cases ms with
  | nil =>
    simp only [encodeFrames, Option.some.injEq] at hb
    have : inb = [] := (List.append_eq_nil_iff.1 hb.symm).1
    rw [this] at hr
    cases hr
  | cons m0 ms =>
    have hm0 := hok m0 (by simp)
    rw [encodeFrames] at hb
    obtain ⟨f, hf, hb⟩ := Option.bind_eq_some_iff.1 hb
    obtain ⟨b, hb1, hb2⟩ := Option.map_eq_some_iff.1 hb
    rcases List.append_eq_append_iff.1 hb2 with ⟨c, h1, h2⟩ | ⟨c, h1, h2⟩
    · rw [h1, recvFrame_encode m0 hm0 f c hf] at hr
      cases hr
      exact ⟨ms, rfl, by rw [hb1, h2]⟩
    · by_cases hc : c = []
      · subst hc
        rw [List.append_nil] at h1
        rw [← h1, ← List.append_nil f, recvFrame_encode m0 hm0 f [] hf] at hr
        cases hr
        exact ⟨ms, rfl, by rw [hb1, ← List.nil_append b, h2]; rfl⟩
      · rw [recvFrame_prefix m0 hm0 f inb c hf h1 hc] at hr
        cases hr

/-- A message from `p` reaches the inbox of `q`. -/
theorem NRel.deliver (h : NRel n jobs f s fr un) (hplan : Plan n jobs x) {p q : Nat} {m : NetMsg} {rest : List NetMsg}
    (hp : p < n) (hq : q < n) (hc : (s.chan p q).map toNet = m :: rest) : ∃ tm tl, s.chan p q = tm :: tl ∧
      tl.map toNet = rest ∧ tm.msg = ⟨m.protoId, p, m.data⟩ ∧ s.step n jobs (.deliver p q) = some { s with
          chan := fun a b => if a = p ∧ b = q then tl else s.chan a b
          inbox := Function.update s.inbox q (s.inbox q ++ [tm]) } := by
  cases hch : s.chan p q with
  | nil =>
    rw [hch] at hc
    cases hc
  | cons tm tl =>
    rw [hch, List.map_cons, List.cons.injEq] at hc
    have hs := ((h.inv hplan).base.chan p q tm (by rw [hch]; simp)).1
    refine ⟨tm, tl, rfl, hc.2, ?_, ?_⟩
    · obtain ⟨t, i, a, d⟩ := tm
      simp only [] at hs
      rw [← hc.1, hs]
      rfl
    · unfold Sys.step
      simp only []
      rw [if_pos ⟨hp, hq⟩, hch]

theorem NRel.parseStep (h : NRel n jobs f s fr un) (hplan : Plan n jobs x) (hsz : Sizes n jobs) {p q : Nat} {m : NetMsg}
    {rest : List Nat} (hp : p < n) (hq : q < n) (hpq : p ≠ q) (hr : recvFrame (f.inBuf p q) = .message m rest) :
    Simulates n jobs f { f with
      inBuf := upd2 f.inBuf p q rest
      partyOut := Function.update f.partyOut q (f.partyOut q ++ [⟨m.protoId, p, m.data⟩]) } s := by
  have hch := h.chan p hp q hq hpq
  have hok : ∀ m ∈ fr p q, m.Ok := by
    intro y hy
    have : y ∈ (s.chan p q).map toNet := by
      rw [hch]
      simp [hy]
    obtain ⟨z, hz, rfl⟩ := List.mem_map.1 this
    obtain ⟨es, hes⟩ := h.reach
    exact hsz es s hes p hp q hq z hz
  have hby := h.bytes p hp q hq hpq
  rw [List.append_assoc] at hby
  obtain ⟨fr', e1, e2⟩ := first_frame hok hby hr
  rw [e1, List.cons_append, List.cons_append] at hch
  obtain ⟨tm, tl, c1, c2, c3, c4⟩ := h.deliver hplan hp hq hch
  refine ⟨_, upd2 fr p q fr', un, ⟨reach_step h.reach c4, h.loc, ?_, ?_, ?_, h.known, ?_, ?_, h.len, ?_, h.reqs⟩, Or.inr ⟨_, c4⟩⟩
  · intro a ha b hb' hab
    have := h.chan a ha b hb' hab
    simp only [upd2]
    split
    · rename_i hc
      obtain ⟨rfl, rfl⟩ := hc
      exact c2
    · exact this
  · intro a ha
    simp only []
    rw [if_neg (fun hc => hpq (hc.1.symm.trans hc.2))]
    exact h.self a ha
  · intro a ha b hb' hab
    have := h.bytes a ha b hb' hab
    simp only [upd2]
    split
    · rename_i hc
      obtain ⟨rfl, rfl⟩ := hc
      rw [e2, List.append_assoc]
    · exact this
  · intro b hb id
    have := h.inbox b hb id
    by_cases hbp : b = q
    · subst hbp
      simp only [Function.update_self]
      rw [List.map_append, ofId_append, this, ofId_append, List.map_singleton, c3]
      simp
    · simp only [Function.update_of_ne hbp]
      exact this
  · intro b hb y hy
    by_cases hbp : b = q
    · subst hbp
      simp only [Function.update_self] at hy
      rcases List.mem_append.1 hy with hy | hy
      · exact h.out b hb y hy
      · rw [List.mem_singleton] at hy
        subst hy
        exact hp
    · simp only [Function.update_of_ne hbp] at hy
      exact h.out b hb y hy
  · intro b hb r hr'
    obtain ⟨a, s1, s2⟩ := h.stats b hb r hr'
    refine ⟨a, s1, ?_⟩
    by_cases hbp : b = q
    · subst hbp
      simp only [Function.update_self]
      rw [List.map_append, bytesFrom_append, ← add_assoc, s2, bytesFrom_append, List.map_singleton, c3, add_assoc]
    · simp only [Function.update_of_ne hbp]
      exact s2

theorem NRel.routeStep (h : NRel n jobs f s fr un) (hplan : Plan n jobs x) {p : Nat} {m : SMsg} {rest : List SMsg}
    (hp : p < n) (hi : f.netInp p = m :: rest) (hstep : f.routeStep n p m rest = some f') : Simulates n jobs f f' s := by
  unfold Full.routeStep at hstep
  split at hstep
  swap
  · cases hstep
  rw [Option.some.injEq] at hstep
  subst hstep
  have hchan : ∀ a < n, ∀ b < n, a ≠ b → (s.chan a b).map toNet = fr a b ++
      (if a = p ∧ b ≠ p ∧ b < n ∧ m.dest.includes b = true then f.partyInp a b ++ [⟨m.protoId, m.data⟩] else f.partyInp a b) ++
      queuedFor a b (Function.update f.netInp p rest a) := by
    intro a ha b hb hab
    rw [h.chan a ha b hb hab]
    by_cases hap : a = p
    · subst hap
      rw [Function.update_self, hi, queuedFor_cons, queuedFor_single]
      by_cases hinc : m.dest.includes b = true
      · rw [if_pos hinc, if_pos ⟨rfl, Ne.symm hab, hb, hinc⟩]
        simp
      · rw [if_neg hinc, if_neg (fun hc => hinc hc.2.2.2)]
        simp
    · rw [Function.update_of_ne hap, if_neg (fun hc => hap hc.1)]
  have hknown : ∀ a < n, ∀ y ∈ Function.update f.netInp p rest a, y.dest.known n = true := by
    intro a ha y hy
    by_cases hap : a = p
    · subst hap
      rw [Function.update_self] at hy
      exact h.known a ha y (by rw [hi]; simp [hy])
    · rw [Function.update_of_ne hap] at hy
      exact h.known a ha y hy
  by_cases hinc : m.dest.includes p = true
  · have hc := h.self p hp
    rw [hi, queuedFor_cons, queuedFor_single, if_pos hinc] at hc
    obtain ⟨tm, tl, c1, c2, c3, c4⟩ := h.deliver hplan hp hp hc
    simp only [] at c3
    refine ⟨_, fr, un, ⟨reach_step h.reach c4, h.loc, ?_, ?_, h.bytes, hknown, ?_, ?_, h.len, ?_, h.reqs⟩, Or.inr ⟨_, c4⟩⟩
    · intro a ha b hb hab
      simp only []
      rw [if_neg (fun hc => hab (hc.1.trans hc.2.symm))]
      exact hchan a ha b hb hab
    · intro a ha
      simp only []
      by_cases hap : a = p
      · subst hap
        rw [if_pos ⟨rfl, rfl⟩, Function.update_self]
        exact c2
      · rw [if_neg (fun hc => hap hc.1), Function.update_of_ne hap]
        exact h.self a ha
    · intro b hb id
      have := h.inbox b hb id
      simp only [if_pos hinc]
      by_cases hbp : b = p
      · subst hbp
        simp only [Function.update_self]
        rw [List.map_append, ofId_append, this, ofId_append, List.map_singleton, c3]
        simp
      · simp only [Function.update_of_ne hbp]
        exact this
    · intro b hb y hy
      simp only [if_pos hinc] at hy
      by_cases hbp : b = p
      · subst hbp
        simp only [Function.update_self] at hy
        rcases List.mem_append.1 hy with hy | hy
        · exact h.out b hb y hy
        · rw [List.mem_singleton] at hy
          subst hy
          exact hp
      · simp only [Function.update_of_ne hbp] at hy
        exact h.out b hb y hy
    · intro b hb r hr'
      obtain ⟨a, s1, s2⟩ := h.stats b hb r hr'
      refine ⟨a, s1, ?_⟩
      simp only [if_pos hinc]
      by_cases hbp : b = p
      · subst hbp
        simp only [Function.update_self]
        rw [List.map_append, bytesFrom_append, ← add_assoc, s2, bytesFrom_append, List.map_singleton, c3, add_assoc]
      · simp only [Function.update_of_ne hbp]
        exact s2
  · refine ⟨s, fr, un, ⟨h.reach, h.loc, hchan, ?_, h.bytes, hknown, ?_, ?_, h.len, ?_, h.reqs⟩, Or.inl ⟨rfl, ?_⟩⟩
    · intro a ha
      have := h.self a ha
      simp only []
      by_cases hap : a = p
      · subst hap
        rw [hi, queuedFor_cons, queuedFor_single, if_neg hinc] at this
        rw [Function.update_self]
        exact this
      · rw [Function.update_of_ne hap]
        exact this
    · intro b hb id
      simp only [if_neg hinc]
      exact h.inbox b hb id
    · intro b hb y hy
      simp only [if_neg hinc] at hy
      exact h.out b hb y hy
    · intro b hb r hr'
      simp only [if_neg hinc]
      exact h.stats b hb r hr'
    · refine lex_next (lex_here ?_)
      exact sum_update_lt _ hp (by rw [hi]; simp)

theorem Full.env_eq (h : f.loc = s.loc) (p : Nat) : f.env p = s.env p := by
  funext j
  unfold Full.env Sys.env
  rw [h]
  cases s.loc p j <;> rfl

/-- Messages are sent to parties which exist. -/
theorem send_known (hplan : Plan n jobs x) (hinv : s.Inv n jobs x) {p j : Nat} {job : Job O} (hp : p < n)
    (hj : jobs[j]? = some job) {env : Env O} {dest : Recipient} {data : List Nat} {next : TState O}
    (ha : job.proto.act n p env (s.loc p j) = .send dest data next) : dest.known n = true := by
  have hl := hinv.loc j job hj p hp
  cases ht : s.loc p j with
  | idle =>
    rw [ht] at ha
    cases ha
  | sending rest =>
    rw [ht] at ha hl
    cases rest with
    | nil => cases ha
    | cons y rest =>
      simp only [Proto.act, Act.send.injEq] at ha
      obtain ⟨_, ⟨pre, h1, _⟩, _⟩ := hl
      rw [← ha.1]
      exact hplan.known j job hj p hp y (by rw [h1]; simp)
  | gather g =>
    rw [ht] at ha
    unfold Proto.act at ha
    simp only [] at ha
    split at ha
    · split at ha <;> cases ha
    · cases ha
  | reply rest =>
    rw [ht] at ha hl
    cases rest with
    | nil => cases ha
    | cons y rest =>
      simp only [Proto.act, Act.send.injEq] at ha
      obtain ⟨_, _, ⟨k, _, h1, _⟩, _⟩ := hl
      have : y ∈ ((List.range n).drop k).map (fun i => (Recipient.one i, x.ans j i)) := by rw [← h1]; simp
      obtain ⟨i, hi, rfl⟩ := List.mem_map.1 this
      rw [← ha.1]
      have := List.mem_range.1 (List.mem_of_mem_drop hi)
      simp [Recipient.known, this]
  | wait =>
    rw [ht] at ha
    cases ha
  | done o =>
    rw [ht] at ha
    cases ha
  | fail =>
    rw [ht] at ha
    cases ha

theorem NRel.actStep (h : NRel n jobs f s fr un) (hplan : Plan n jobs x) {p j : Nat} {job : Job O} (hp : p < n)
    (hj : jobs[j]? = some job) (hstep : f.actStep n p j job = some f') : Simulates n jobs f f' s := by
  unfold Full.actStep at hstep
  split at hstep
  swap
  · cases hstep
  rename_i hg
  obtain ⟨hready, hw⟩ := hg
  rw [Full.env_eq h.loc] at hready hstep
  have hjl : j < jobs.length := (List.getElem?_eq_some_iff.1 hj).1
  have hmove : ∀ t, ∀ q < n, RReq n jobs (setLoc f.loc p j t q) (f.waits q) (f.calls q) (f.netOut q) (f.router q) (un q) := by
    intro t q hq
    by_cases hqp : q = p
    · subst hqp
      rw [setLoc_self]
      exact (h.reqs q hq).move hw t
    · rw [setLoc_ne _ _ _ hqp]
      exact h.reqs q hq
  split at hstep
  · rename_i dest data next hact
    rw [Option.some.injEq] at hstep
    subst hstep
    have hk := send_known hplan (h.inv hplan) hp hj (h.loc ▸ hact)
    have hs : s.step n jobs (.act p j) = some { s with
          loc := setLoc s.loc p j next
          chan := fun a b => if a = p ∧ dest.includes b then s.chan a b ++ [⟨j, ⟨job.id, p, data⟩⟩] else s.chan a b
          sent := fun i a b => if i = j ∧ a = p ∧ dest.includes b then s.sent i a b ++ [data] else s.sent i a b } := by
      unfold Sys.step Sys.actStep
      simp only []
      rw [if_pos hp, hj]
      simp only []
      rw [if_pos hready, ← h.loc, hact]
      simp only []
      rw [if_pos hk]
    have hq : ∀ a b, queuedFor a b (Function.update f.netInp p (f.netInp p ++ [⟨job.id, dest, data⟩]) a) =
        queuedFor a b (f.netInp a) ++ if a = p ∧ dest.includes b = true then [⟨job.id, data⟩] else [] := by
      intro a b
      by_cases hap : a = p
      · subst hap
        rw [Function.update_self, queuedFor_append, queuedFor_single]
        simp
      · rw [Function.update_of_ne hap, if_neg (fun hc => hap hc.1), List.append_nil]
    refine ⟨_, fr, un, ⟨reach_step h.reach hs, ?_, ?_, ?_, h.bytes, ?_, h.inbox, h.out, h.len, h.stats, hmove next⟩,
      Or.inr ⟨_, hs⟩⟩
    · simp only []
      rw [h.loc]
    · intro a ha b hb hab
      simp only []
      rw [hq, ← List.append_assoc, ← h.chan a ha b hb hab]
      split <;> simp [toNet]
    · intro a ha
      simp only []
      rw [hq, ← h.self a ha]
      split <;> simp [toNet]
    · intro a ha m hm
      simp only [] at hm
      by_cases hap : a = p
      · subst hap
        rw [Function.update_self] at hm
        rcases List.mem_append.1 hm with hm | hm
        · exact h.known a ha m hm
        · rw [List.mem_singleton] at hm
          subst hm
          exact hk
      · rw [Function.update_of_ne hap] at hm
        exact h.known a ha m hm
  · rename_i next hact
    rw [Option.some.injEq] at hstep
    subst hstep
    refine ⟨s, fr, un, ⟨h.reach, h.loc, h.chan, h.self, h.bytes, h.known, h.inbox, h.out, h.len, h.stats, ?_⟩,
      Or.inl ⟨rfl, ?_⟩⟩
    · intro q hq
      by_cases hqp : q = p
      · subst hqp
        simp only [upd2_self, Function.update_self]
        exact (h.reqs q hq).call (h.unique hplan hq) hj (act_recv hact) hw
      · simp only [upd2_ne _ _ _ hqp, Function.update_of_ne hqp]
        exact h.reqs q hq
    · exact lex_here (sum_waits_lt _ hp hjl hw)
  · rename_i next hact
    rw [Option.some.injEq] at hstep
    subst hstep
    have hs : s.step n jobs (.act p j) = some { s with loc := setLoc s.loc p j next } := by
      unfold Sys.step Sys.actStep
      simp only []
      rw [if_pos hp, hj]
      simp only []
      rw [if_pos hready, ← h.loc, hact]
    refine ⟨_, fr, un, ⟨reach_step h.reach hs, ?_, h.chan, h.self, h.bytes, h.known, h.inbox, h.out, h.len, h.stats, hmove next⟩,
      Or.inr ⟨_, hs⟩⟩
    simp only []
    rw [h.loc]
  · cases hstep

/-- A job which waits has what it depends on. -/
theorem ready_of_receiving (hinv : s.Inv n jobs x) {p j : Nat} {job : Job O} (hp : p < n) (hj : jobs[j]? = some job)
    (hr : (s.loc p j).receiving n = true) : job.ready (s.env p) = true := by
  have hd := hinv.started_deps hj hp (by
    intro h0
    rw [h0] at hr
    cases hr)
  unfold Job.ready
  rw [List.all_eq_true]
  intro d hdm
  unfold Sys.env
  rw [hd d hdm]
  rfl

theorem NRel.resumeStep (h : NRel n jobs f s fr un) (hplan : Plan n jobs x) {p j k : Nat} {job : Job O} (hp : p < n)
    (hj : jobs[j]? = some job) (hw : f.waits p j = some k) (hstep : f.resumeStep n p j job k = some f') :
    Simulates n jobs f f' s := by
  unfold Full.resumeStep at hstep
  split at hstep
  · cases hstep
  rename_i b hb
  split at hstep
  swap
  · cases hstep
  rename_i next hact
  rw [Option.some.injEq] at hstep
  subst hstep
  rw [Full.env_eq h.loc] at hact
  obtain ⟨hun, hreq⟩ := (h.reqs p hp).resume (h.unique hplan hp) hj hw hb (next b.2)
  have hinb := h.inbox p hp job.id
  rw [hun, List.append_assoc, List.singleton_append] at hinb
  obtain ⟨m, rest, t1, t2, t3, t4⟩ := takeFirst_ofId hinb
  have hready := ready_of_receiving (h.inv hplan) hp hj (h.loc ▸ act_recv hact)
  have hs : s.step n jobs (.act p j) = some { s with
          loc := setLoc s.loc p j (next m.msg)
          inbox := Function.update s.inbox p rest
          got := Function.update s.got p (s.got p ++ [(j, m)]) } := by
    unfold Sys.step Sys.actStep
    simp only []
    rw [if_pos hp, hj]
    simp only []
    rw [if_pos hready, ← h.loc, hact]
    simp only []
    rw [t1]
  refine ⟨_, fr, Function.update un p (Function.update (un p) job.id []), ⟨reach_step h.reach hs, ?_, h.chan, h.self, h.bytes,
    h.known, ?_, h.out, h.len, ?_, ?_⟩, Or.inr ⟨_, hs⟩⟩
  · simp only []
    rw [h.loc, t2]
  · intro q hq id
    by_cases hqp : q = p
    · subst hqp
      simp only [Function.update_self]
      rw [t3]
      by_cases hid : id = job.id
      · subst hid
        rw [if_pos rfl, Function.update_self, List.nil_append]
      · rw [if_neg hid, Function.update_of_ne hid, h.inbox q hq id]
    · simp only [Function.update_of_ne hqp]
      exact h.inbox q hq id
  · intro q hq r hr
    obtain ⟨a, e1, e2⟩ := h.stats q hq r hr
    refine ⟨a, e1, ?_⟩
    by_cases hqp : q = p
    · subst hqp
      simp only [Function.update_self]
      rw [e2, List.map_append, bytesFrom_append, bytesFrom_perm (t4.map (·.msg)), List.map_cons, bytesFrom_cons r m.msg, add_assoc]
      rfl
    · simp only [Function.update_of_ne hqp]
      exact e2
  · intro q hq
    by_cases hqp : q = p
    · subst hqp
      simp only [Function.update_self, setLoc_self, upd2_self]
      exact hreq
    · simp only [Function.update_of_ne hqp, setLoc_ne _ _ _ hqp, upd2_ne _ _ _ hqp]
      exact h.reqs q hq

/-- Every step over the network is a step of `Verif.Async`, or cannot be seen there. -/
theorem NRel.step (h : NRel n jobs f s fr un) (hplan : Plan n jobs x) (hsz : Sizes n jobs) {e : FStep}
    (hstep : f.step n jobs e = some f') : Simulates n jobs f f' s := by
  cases e with
  | act p j =>
    simp only [Full.step] at hstep
    split at hstep
    swap
    · cases hstep
    rename_i hp
    split at hstep
    · cases hstep
    rename_i job hj
    exact h.actStep hplan hp hj hstep
  | resume p j =>
    simp only [Full.step] at hstep
    split at hstep
    swap
    · cases hstep
    rename_i hp
    split at hstep
    · rename_i job k hj hw
      exact h.resumeStep hplan hp hj hw hstep
    · cases hstep
  | route p =>
    simp only [Full.step] at hstep
    split at hstep
    swap
    · cases hstep
    rename_i hp
    split at hstep
    · cases hstep
    rename_i m rest hi
    exact h.routeStep hplan hp hi hstep
  | take p q =>
    simp only [Full.step] at hstep
    split at hstep
    swap
    · cases hstep
    rename_i hp
    split at hstep
    · cases hstep
    rename_i m rest hi
    obtain ⟨bytes, hb, rfl⟩ := Option.map_eq_some_iff.1 hstep
    exact h.takeStep hp.1 hp.2.1 hp.2.2.2 hi hb
  | push p q k =>
    simp only [Full.step] at hstep
    split at hstep
    swap
    · cases hstep
    rename_i hp
    rw [Option.some.injEq] at hstep
    subst hstep
    exact h.pushStep hp.1 hp.2.1 hp.2.2.2.1 hp.2.2.2.2
  | pull p q k =>
    simp only [Full.step] at hstep
    split at hstep
    swap
    · cases hstep
    rename_i hp
    rw [Option.some.injEq] at hstep
    subst hstep
    exact h.pullStep hp.1 hp.2.1 hp.2.2.2.1 hp.2.2.2.2
  | parse p q =>
    simp only [Full.step] at hstep
    split at hstep
    swap
    · cases hstep
    rename_i hp
    split at hstep
    · rename_i m rest hr
      rw [Option.some.injEq] at hstep
      subst hstep
      exact h.parseStep hplan hsz hp.1 hp.2.1 hp.2.2 hr
    · cases hstep
  | arrive p =>
    simp only [Full.step] at hstep
    split at hstep
    swap
    · cases hstep
    rename_i hp
    split at hstep
    · cases hstep
    rename_i m rest ho
    obtain ⟨st, hst, hstep⟩ := Option.bind_eq_some_iff.1 hstep
    obtain ⟨r, hr, rfl⟩ := Option.map_eq_some_iff.1 hstep
    exact h.arriveStep hplan hp ho hst hr
  | request p =>
    simp only [Full.step] at hstep
    split at hstep
    swap
    · cases hstep
    rename_i hp
    split at hstep
    · cases hstep
    rename_i a rest ho
    obtain ⟨r, hr, rfl⟩ := Option.map_eq_some_iff.1 hstep
    exact h.requestStep hplan hp ho hr

/-- Every execution over the network. -/
theorem NRel.run (h : NRel n jobs f s fr un) (hplan : Plan n jobs x) (hsz : Sizes n jobs) {es : List FStep}
    (hrun : f.run n jobs es = some f') : ∃ s' fr' un', NRel n jobs f' s' fr' un' := by
  induction es generalizing f s fr un with
  | nil =>
    simp only [Full.run, Option.some.injEq] at hrun
    subst hrun
    exact ⟨s, fr, un, h⟩
  | cons e es ih =>
    simp only [Full.run] at hrun
    obtain ⟨f1, h1, h2⟩ := Option.bind_eq_some_iff.1 hrun
    obtain ⟨s1, fr1, un1, h3, _⟩ := h.step hplan hsz h1
    exact ih h3 h2

/-- No execution over the network goes on forever. -/
theorem NRel.noLoop (hplan : Plan n jobs x) (hsz : Sizes n jobs) (g : Nat → Full O)
    (hg : ∀ i, ∃ e, (g i).step n jobs e = some (g (i + 1))) :
    ∀ (v : Nat ×ₗ Nat ×ₗ Nat ×ₗ Nat ×ₗ Nat ×ₗ Nat ×ₗ Nat ×ₗ Nat) (i : Nat) (s : Sys O) (fr : Nat → Nat → List NetMsg)
      (un : Nat → ProtocolID → List RMsg), NRel n jobs (g i) s fr un →
      v = toLex (s.measure n jobs.length x, (g i).rank n jobs.length) → False := by
  intro v
  induction v using WellFoundedLT.induction with
  | _ v ih =>
  intro i s fr un h hv
  obtain ⟨e, he⟩ := hg i
  obtain ⟨s', fr', un', h', hor⟩ := h.step hplan hsz he
  refine ih _ ?_ (i + 1) s' fr' un' h' rfl
  rw [hv]
  rcases hor with ⟨rfl, hlt⟩ | ⟨e', he'⟩
  · exact lex_next hlt
  · exact lex_here (Sys.measure_step (h.inv hplan) hplan he')

/-! ### Executions which have come to an end -/

/-- When no step is possible, the network is empty. -/
structure Full.Quiet (n : Nat) (f : Full O) : Prop where
  netInp : ∀ p < n, f.netInp p = []
  partyOut : ∀ p < n, f.partyOut p = []
  netOut : ∀ p < n, f.netOut p = []
  partyInp : ∀ p < n, ∀ q < n, p ≠ q → f.partyInp p q = []
  outBuf : ∀ p < n, ∀ q < n, p ≠ q → f.outBuf p q = []
  wire : ∀ p < n, ∀ q < n, p ≠ q → f.wire p q = []
  inBuf : ∀ p < n, ∀ q < n, p ≠ q → f.inBuf p q = []

theorem NRel.quiet (h : NRel n jobs f s fr un) (hplan : Plan n jobs x) (hsz : Sizes n jobs) (hst : f.Stuck n jobs) :
    f.Quiet n ∧ (∀ p < n, ∀ q < n, s.chan p q = []) := by
  have hinp : ∀ p < n, f.netInp p = [] := by
    intro p hp
    cases hi : f.netInp p with
    | nil => rfl
    | cons m rest =>
      have := hst (.route p)
      simp only [Full.step] at this
      rw [if_pos hp, hi] at this
      simp only [Full.routeStep] at this
      rw [if_pos (h.known p hp m (by rw [hi]; simp))] at this
      cases this
  have hout : ∀ p < n, f.partyOut p = [] := by
    intro p hp
    cases hi : f.partyOut p with
    | nil => rfl
    | cons m rest =>
      have := hst (.arrive p)
      obtain ⟨st, s1, _, _⟩ := statsIncrement_ok (h.len p hp) (h.out p hp m (by rw [hi]; simp))
      obtain ⟨r, _, r1, _, _⟩ := (h.reqs p hp).arrive (h.unique hplan hp) m
      simp only [Full.step] at this
      rw [if_pos hp, hi] at this
      simp only [] at this
      rw [s1, Option.bind_some, r1] at this
      cases this
  have hno : ∀ p < n, f.netOut p = [] := by
    intro p hp
    cases hi : f.netOut p with
    | nil => rfl
    | cons a rest =>
      have := hst (.request p)
      obtain ⟨r, _, r1, _, _⟩ := (h.reqs p hp).request (h.unique hplan hp) hi
      simp only [Full.step] at this
      rw [if_pos hp, hi] at this
      simp only [] at this
      rw [r1] at this
      cases this
  have hob : ∀ p < n, ∀ q < n, p ≠ q → f.outBuf p q = [] := by
    intro p hp q hq hpq
    by_contra hne
    have := hst (.push p q (f.outBuf p q).length)
    simp only [Full.step] at this
    rw [if_pos ⟨hp, hq, hpq, List.length_pos_iff.2 hne, Nat.le_refl _⟩] at this
    cases this
  have hwi : ∀ p < n, ∀ q < n, p ≠ q → f.wire p q = [] := by
    intro p hp q hq hpq
    by_contra hne
    have := hst (.pull p q (f.wire p q).length)
    simp only [Full.step] at this
    rw [if_pos ⟨hp, hq, hpq, List.length_pos_iff.2 hne, Nat.le_refl _⟩] at this
    cases this
  have hok : ∀ p < n, ∀ q < n, p ≠ q → ∀ y ∈ fr p q ++ f.partyInp p q, y.Ok := by
    intro p hp q hq hpq y hy
    have : y ∈ (s.chan p q).map toNet := by
      rw [h.chan p hp q hq hpq]
      exact List.mem_append_left _ hy
    obtain ⟨z, hz, rfl⟩ := List.mem_map.1 this
    obtain ⟨es, hes⟩ := h.reach
    exact hsz es s hes p hp q hq z hz
  have hpi : ∀ p < n, ∀ q < n, p ≠ q → f.partyInp p q = [] := by
    intro p hp q hq hpq
    cases hi : f.partyInp p q with
    | nil => rfl
    | cons m rest =>
      have := hst (.take p q)
      obtain ⟨b, hb, _⟩ := encodeFrame_ok (hok p hp q hq hpq m (by rw [hi]; simp))
      simp only [Full.step] at this
      rw [if_pos ⟨hp, hq, hpq, hob p hp q hq hpq⟩, hi] at this
      simp only [] at this
      rw [hb] at this
      cases this
  have hfr : ∀ p < n, ∀ q < n, p ≠ q → fr p q = [] := by
    intro p hp q hq hpq
    have hb := h.bytes p hp q hq hpq
    rw [hob p hp q hq hpq, hwi p hp q hq hpq, List.append_nil, List.append_nil] at hb
    cases hi : fr p q with
    | nil => rfl
    | cons m ms =>
      have hm := hok p hp q hq hpq m (by rw [hi]; simp)
      rw [hi, encodeFrames] at hb
      obtain ⟨a, ha, hb⟩ := Option.bind_eq_some_iff.1 hb
      obtain ⟨b, _, hb⟩ := Option.map_eq_some_iff.1 hb
      have := hst (.parse p q)
      simp only [Full.step] at this
      rw [if_pos ⟨hp, hq, hpq⟩, ← hb, recvFrame_encode m hm a b ha] at this
      cases this
  refine ⟨⟨hinp, hout, hno, hpi, hob, hwi, ?_⟩, ?_⟩
  · intro p hp q hq hpq
    have hb := h.bytes p hp q hq hpq
    rw [hfr p hp q hq hpq, hob p hp q hq hpq, hwi p hp q hq hpq, List.append_nil, List.append_nil] at hb
    simpa [encodeFrames] using hb.symm
  · intro p hp q hq
    by_cases hpq : p = q
    · subst hpq
      have := h.self p hp
      rw [hinp p hp] at this
      exact List.map_eq_nil_iff.1 this
    · have := h.chan p hp q hq hpq
      rw [hfr p hp q hq hpq, hpi p hp q hq hpq, hinp p hp] at this
      exact List.map_eq_nil_iff.1 this

theorem NRel.stuck (h : NRel n jobs f s fr un) (hplan : Plan n jobs x) (hsz : Sizes n jobs) (hst : f.Stuck n jobs) :
    s.Stuck n jobs := by
  obtain ⟨hq, hch⟩ := h.quiet hplan hsz hst
  intro e
  cases e with
  | deliver p q =>
    unfold Sys.step
    simp only []
    split
    · rename_i hp
      rw [hch p hp.1 q hp.2]
    · rfl
  | act p j =>
    unfold Sys.step
    simp only []
    split
    swap
    · rfl
    rename_i hp
    cases hj : jobs[j]? with
    | none => rfl
    | some job =>
      simp only []
      unfold Sys.actStep
      split
      swap
      · rfl
      rename_i hready
      have hactf : f.waits p j = none → f.actStep n p j job = none := by
        intro _
        have := hst (.act p j)
        simp only [Full.step] at this
        rw [if_pos hp, hj] at this
        exact this
      have hno : f.waits p j = none → job.proto.act n p ((s.env p).only job.deps) (s.loc p j) = .stop := by
        intro hw
        have := hactf hw
        unfold Full.actStep at this
        rw [Full.env_eq h.loc, if_pos ⟨hready, hw⟩, h.loc] at this
        cases ha : job.proto.act n p ((s.env p).only job.deps) (s.loc p j) with
        | stop => rfl
        | send _ _ _ =>
          rw [ha] at this
          cases this
        | recv _ =>
          rw [ha] at this
          cases this
        | tau _ =>
          rw [ha] at this
          cases this
      cases hw : f.waits p j with
      | none => rw [hno hw]
      | some k =>
        obtain ⟨_, hrec, _⟩ := (h.reqs p hp).waitsOk j k hw
        obtain ⟨next, hact⟩ := receiving_act (P := job.proto) (p := p) (env := (s.env p).only job.deps) hrec
        rw [h.loc] at hact
        rw [hact]
        simp only []
        have hnone : takeFirst job.id (s.inbox p) = none := by
          rcases (h.reqs p hp).place j job k hj hw with ⟨_, c2, _, _⟩ | ⟨c1, _, c3, _⟩ | ⟨m, _, _, _, c4⟩
          · rw [hq.netOut p hp] at c2
            cases c2
          · have hin := h.inbox p hp job.id
            rw [c1, hq.partyOut p hp] at hin
            unfold Router.queueOf at hin
            rw [(h.reqs p hp).excl _ _ c3] at hin
            cases ht : takeFirst job.id (s.inbox p) with
            | none => rfl
            | some r =>
              obtain ⟨y, rest⟩ := r
              obtain ⟨a, b, e1, e2, e3, _⟩ := takeFirst_some ht
              rw [e1, List.map_append, List.map_cons, ofId_append, ofId_cons, if_pos e3] at hin
              simp [ofId] at hin
          · have := hst (.resume p j)
            simp only [Full.step] at this
            rw [if_pos hp, hj, hw] at this
            simp only [Full.resumeStep] at this
            rw [c4, Full.env_eq h.loc, h.loc, hact] at this
            cases this
        rw [hnone]

end Verif
