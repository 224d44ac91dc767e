import Verif.PrivacyNetSpec
import Verif.AsyncNetSeq

/-!
# Helper lemmas: two executions over the TCP network which corrupted parties cannot tell apart
-/

namespace Verif

variable {O : Type} {n : Nat} {Cs : Finset Nat}

/-! ### The relation -/

/-- Data of the same length, and the same data if `c`. -/
def Sim (c : Prop) (d d' : List Nat) : Prop := d.length = d'.length ∧ (c → d = d')

theorem Sim.refl (c : Prop) (d : List Nat) : Sim c d d := ⟨rfl, fun _ => rfl⟩

theorem Sim.symm {c : Prop} {d d' : List Nat} (h : Sim c d d') : Sim c d' d := ⟨h.1.symm, fun hc => (h.2 hc).symm⟩

theorem Sim.mono {c c' : Prop} {d d' : List Nat} (h : Sim c d d') (hc : c' → c) : Sim c' d d' := ⟨h.1, fun h' => h.2 (hc h')⟩

theorem Sim.append {c : Prop} {d d' e e' : List Nat} (h : Sim c d d') (h' : Sim c e e') : Sim c (d ++ e) (d' ++ e') := by
  refine ⟨by simp [h.1, h'.1], fun hc => ?_⟩
  rw [h.2 hc, h'.2 hc]

theorem Sim.take {c : Prop} {d d' : List Nat} (h : Sim c d d') (k : Nat) : Sim c (d.take k) (d'.take k) := by
  refine ⟨by simp [h.1], fun hc => ?_⟩
  rw [h.2 hc]

theorem Sim.drop {c : Prop} {d d' : List Nat} (h : Sim c d d') (k : Nat) : Sim c (d.drop k) (d'.drop k) := by
  refine ⟨by simp [h.1], fun hc => ?_⟩
  rw [h.2 hc]

/-- A corrupted party sends or gets it. -/
def Touches (Cs : Finset Nat) (p : Nat) (dest : Recipient) : Prop := p ∈ Cs ∨ ∃ q ∈ Cs, dest.includes q = true

/-- Messages to be sent by `p`. -/
def SndTwin (Cs : Finset Nat) (p : Nat) (a b : Recipient × List Nat) : Prop := a.1 = b.1 ∧ Sim (Touches Cs p a.1) a.2 b.2

/-- Messages in `net_inp` of `p`. -/
def STwin (Cs : Finset Nat) (p : Nat) (m m' : SMsg) : Prop :=
  m.protoId = m'.protoId ∧ m.dest = m'.dest ∧ Sim (Touches Cs p m.dest) m.data m'.data

/-- Messages on the way from `p` to `q`. -/
def NTwin (Cs : Finset Nat) (p q : Nat) (m m' : NetMsg) : Prop :=
  m.protoId = m'.protoId ∧ Sim (p ∈ Cs ∨ q ∈ Cs) m.data m'.data

/-- Messages at `q`. -/
def RTwin (Cs : Finset Nat) (q : Nat) (m m' : RMsg) : Prop :=
  m.protoId = m'.protoId ∧ m.sender = m'.sender ∧ Sim (m.sender ∈ Cs ∨ q ∈ Cs) m.data m'.data

/-- States of jobs of `p`. -/
inductive TTwin (Cs : Finset Nat) (p : Nat) : TState O → TState O → Prop
  | idle : TTwin Cs p .idle .idle
  | sending {r r' : List (Recipient × List Nat)} : List.Forall₂ (SndTwin Cs p) r r' → TTwin Cs p (.sending r) (.sending r')
  | gather {g g' : Gather} : g.hasSent = g'.hasSent → g.counter = g'.counter → (p ∈ Cs → g = g') →
    TTwin Cs p (.gather g) (.gather g')
  | reply {r r' : List (Recipient × List Nat)} : List.Forall₂ (SndTwin Cs p) r r' → TTwin Cs p (.reply r) (.reply r')
  | wait : TTwin Cs p .wait .wait
  | done {o o' : O} : (p ∈ Cs → o = o') → TTwin Cs p (.done o) (.done o')
  | fail : TTwin Cs p .fail .fail

/-- Routers of `p`. -/
structure RouterTwin (Cs : Finset Nat) (p : Nat) (r r' : Router) : Prop where
  pool : ∀ id, Option.Rel (List.Forall₂ (RTwin Cs p)) (r.mssgPool id) (r'.mssgPool id)
  handles : r.handlePool = r'.handlePool
  cancelled : r.cancelled = r'.cancelled
  answered : List.Forall₂ (fun a b => a.1 = b.1 ∧ RTwin Cs p a.2 b.2) r.answered r'.answered
  dropped : r.dropped = r'.dropped

/-- States which corrupted parties cannot tell apart, with the messages whose bytes are on the connections. -/
structure Full.Twin (Cs : Finset Nat) (f f' : Full O) : Prop where
  loc : ∀ p j, TTwin Cs p (f.loc p j) (f'.loc p j)
  waits : f.waits = f'.waits
  calls : f.calls = f'.calls
  netOut : f.netOut = f'.netOut
  stats : f.stats = f'.stats
  netInp : ∀ p, List.Forall₂ (STwin Cs p) (f.netInp p) (f'.netInp p)
  partyInp : ∀ p q, List.Forall₂ (NTwin Cs p q) (f.partyInp p q) (f'.partyInp p q)
  outBuf : ∀ p q, Sim (p ∈ Cs ∨ q ∈ Cs) (f.outBuf p q) (f'.outBuf p q)
  wire : ∀ p q, Sim (p ∈ Cs ∨ q ∈ Cs) (f.wire p q) (f'.wire p q)
  inBuf : ∀ p q, Sim (p ∈ Cs ∨ q ∈ Cs) (f.inBuf p q) (f'.inBuf p q)
  frames : ∀ p q, ∃ ms ms', List.Forall₂ (NTwin Cs p q) ms ms' ∧ (∀ m ∈ ms, m.Ok) ∧
    encodeFrames ms = some (f.inBuf p q ++ (f.wire p q ++ f.outBuf p q)) ∧
    encodeFrames ms' = some (f'.inBuf p q ++ (f'.wire p q ++ f'.outBuf p q))
  partyOut : ∀ p, List.Forall₂ (RTwin Cs p) (f.partyOut p) (f'.partyOut p)
  router : ∀ p, RouterTwin Cs p (f.router p) (f'.router p)

/-! ### Symmetry -/

theorem SndTwin.symm {p : Nat} {a b : Recipient × List Nat} (h : SndTwin Cs p a b) : SndTwin Cs p b a :=
  ⟨h.1.symm, by rw [← h.1]; exact h.2.symm⟩

theorem STwin.symm {p : Nat} {a b : SMsg} (h : STwin Cs p a b) : STwin Cs p b a :=
  ⟨h.1.symm, h.2.1.symm, by rw [← h.2.1]; exact h.2.2.symm⟩

theorem NTwin.symm {p q : Nat} {a b : NetMsg} (h : NTwin Cs p q a b) : NTwin Cs p q b a := ⟨h.1.symm, h.2.symm⟩

theorem RTwin.symm {p : Nat} {a b : RMsg} (h : RTwin Cs p a b) : RTwin Cs p b a :=
  ⟨h.1.symm, h.2.1.symm, by rw [← h.2.1]; exact h.2.2.symm⟩

theorem forall₂_symm {α : Type} {R : α → α → Prop} (hR : ∀ a b, R a b → R b a) {l l' : List α} (h : List.Forall₂ R l l') :
    List.Forall₂ R l' l := (h.imp hR).flip

theorem TTwin.symm {p : Nat} {a b : TState O} (h : TTwin Cs p a b) : TTwin Cs p b a := by
  cases h with
  | idle => exact .idle
  | sending h => exact .sending (forall₂_symm (fun _ _ h => h.symm) h)
  | gather h1 h2 h3 => exact .gather h1.symm h2.symm fun h => (h3 h).symm
  | reply h => exact .reply (forall₂_symm (fun _ _ h => h.symm) h)
  | wait => exact .wait
  | done h => exact .done fun hp => (h hp).symm
  | fail => exact .fail

theorem RouterTwin.symm {p : Nat} {a b : Router} (h : RouterTwin Cs p a b) : RouterTwin Cs p b a := by
  refine ⟨fun id => ?_, h.handles.symm, h.cancelled.symm, forall₂_symm (fun _ _ h => ⟨h.1.symm, h.2.symm⟩) h.answered,
    h.dropped.symm⟩
  have := h.pool id
  revert this
  generalize a.mssgPool id = x
  generalize b.mssgPool id = y
  intro h
  cases h with
  | none => exact .none
  | some h => exact .some (forall₂_symm (fun _ _ h => h.symm) h)

theorem NTwin.ok {p q : Nat} {a b : NetMsg} (h : NTwin Cs p q a b) (ha : a.Ok) : b.Ok := by
  unfold NetMsg.Ok at ha ⊢
  rw [← h.1, ← h.2.1]
  exact ha

theorem NTwin.oks {p q : Nat} {ms ms' : List NetMsg} (h : List.Forall₂ (NTwin Cs p q) ms ms') (hok : ∀ m ∈ ms, m.Ok) :
    ∀ m ∈ ms', m.Ok := by
  induction h with
  | nil => exact hok
  | cons h1 _ ih =>
    intro m hm
    rcases List.mem_cons.1 hm with rfl | hm
    · exact h1.ok (hok _ (by simp))
    · exact ih (fun m hm => hok m (by simp [hm])) m hm

theorem Full.Twin.symm {f f' : Full O} (h : f.Twin Cs f') : f'.Twin Cs f := by
  refine ⟨fun p j => (h.loc p j).symm, h.waits.symm, h.calls.symm, h.netOut.symm, h.stats.symm,
    fun p => forall₂_symm (fun _ _ h => h.symm) (h.netInp p), fun p q => forall₂_symm (fun _ _ h => h.symm) (h.partyInp p q),
    fun p q => (h.outBuf p q).symm, fun p q => (h.wire p q).symm, fun p q => (h.inBuf p q).symm, fun p q => ?_,
    fun p => forall₂_symm (fun _ _ h => h.symm) (h.partyOut p), fun p => (h.router p).symm⟩
  obtain ⟨ms, ms', h1, h2, h3, h4⟩ := h.frames p q
  exact ⟨ms', ms, forall₂_symm (fun _ _ h => h.symm) h1, NTwin.oks h1 h2, h4, h3⟩

/-! ### What the relation says -/

theorem forall₂_eq {α : Type} {R : α → α → Prop} (hR : ∀ a b, R a b → a = b) {l l' : List α} (h : List.Forall₂ R l l') :
    l = l' := by
  induction h with
  | nil => rfl
  | cons h1 _ ih => rw [hR _ _ h1, ih]

theorem SndTwin.eq {p : Nat} (hp : p ∈ Cs) (a b : Recipient × List Nat) (h : SndTwin Cs p a b) : a = b :=
  Prod.ext h.1 (h.2.2 (Or.inl hp))

theorem STwin.eq {p : Nat} (hp : p ∈ Cs) (a b : SMsg) (h : STwin Cs p a b) : a = b := by
  obtain ⟨a1, a2, a3⟩ := a
  obtain ⟨b1, b2, b3⟩ := b
  obtain ⟨h1, h2, h3⟩ := h
  simp only at h1 h2 h3
  rw [h1, h2, h3.2 (Or.inl hp)]

theorem NTwin.eq {p q : Nat} (hp : p ∈ Cs ∨ q ∈ Cs) (a b : NetMsg) (h : NTwin Cs p q a b) : a = b := by
  obtain ⟨a1, a2⟩ := a
  obtain ⟨b1, b2⟩ := b
  obtain ⟨h1, h2⟩ := h
  simp only at h1 h2
  rw [h1, h2.2 hp]

theorem RTwin.eq {p : Nat} (hp : p ∈ Cs) (a b : RMsg) (h : RTwin Cs p a b) : a = b := by
  obtain ⟨a1, a2, a3⟩ := a
  obtain ⟨b1, b2, b3⟩ := b
  obtain ⟨h1, h2, h3⟩ := h
  simp only at h1 h2 h3
  rw [h1, h2, h3.2 (Or.inr hp)]

theorem TTwin.eq {p : Nat} (hp : p ∈ Cs) {a b : TState O} (h : TTwin Cs p a b) : a = b := by
  cases h with
  | idle => rfl
  | sending h => rw [forall₂_eq (SndTwin.eq hp) h]
  | gather h1 h2 h3 => rw [h3 hp]
  | reply h => rw [forall₂_eq (SndTwin.eq hp) h]
  | wait => rfl
  | done h => rw [h hp]
  | fail => rfl

theorem TTwin.stage {p : Nat} {a b : TState O} (h : TTwin Cs p a b) : a.stage = b.stage := by
  cases h with
  | idle => rfl
  | sending h => simp [TState.stage, h.length_eq]
  | gather h1 h2 h3 => simp [TState.stage, h2]
  | reply h => simp [TState.stage, h.length_eq]
  | wait => rfl
  | done h => rfl
  | fail => rfl

theorem RouterTwin.eq {p : Nat} (hp : p ∈ Cs) {a b : Router} (h : RouterTwin Cs p a b) : a = b := by
  obtain ⟨a1, a2, a3, a4, a5⟩ := a
  obtain ⟨b1, b2, b3, b4, b5⟩ := b
  obtain ⟨h1, h2, h3, h4, h5⟩ := h
  simp only at h1 h2 h3 h4 h5
  have e1 : a1 = b1 := by
    funext id
    have := h1 id
    revert this
    generalize a1 id = x
    generalize b1 id = y
    intro h
    cases h with
    | none => rfl
    | some h => rw [forall₂_eq (RTwin.eq hp) h]
  rw [e1, h2, h3, h5, forall₂_eq (fun x y h => Prod.ext h.1 (RTwin.eq hp _ _ h.2)) h4]

theorem Full.Twin.alike {f f' : Full O} (h : f.Twin Cs f') : f.Alike Cs f' := by
  refine ⟨fun q hq => ⟨?_, ?_, ?_, ?_⟩, fun p q hpq => ⟨?_, ?_, ?_, ?_⟩, h.waits, h.calls, h.netOut, h.stats, fun p q => ⟨?_, ?_, ?_⟩,
    fun p j => (h.loc p j).stage⟩
  · funext j
    exact (h.loc q j).eq hq
  · exact forall₂_eq (STwin.eq hq) (h.netInp q)
  · exact forall₂_eq (RTwin.eq hq) (h.partyOut q)
  · exact (h.router q).eq hq
  · exact forall₂_eq (NTwin.eq hpq) (h.partyInp p q)
  · exact (h.outBuf p q).2 hpq
  · exact (h.wire p q).2 hpq
  · exact (h.inBuf p q).2 hpq
  · exact (h.outBuf p q).1
  · exact (h.wire p q).1
  · exact (h.inBuf p q).1

theorem Full.Twin.start : (Full.start n : Full O).Twin Cs (Full.start n) := by
  refine ⟨fun _ _ => .idle, rfl, rfl, rfl, rfl, fun _ => .nil, fun _ _ => .nil, fun _ _ => Sim.refl _ _, fun _ _ => Sim.refl _ _,
    fun _ _ => Sim.refl _ _, fun p q => ⟨[], [], .nil, ?_, rfl, rfl⟩, fun _ => .nil, fun _ => ⟨fun _ => .none, rfl, rfl, .nil, rfl⟩⟩
  intro m hm
  cases hm

/-! ### Steps of the network -/

theorem forall₂_snoc {α β : Type} {R : α → β → Prop} {l : List α} {l' : List β} {a : α} {b : β} (h : List.Forall₂ R l l') (hab : R a b) :
    List.Forall₂ R (l ++ [a]) (l' ++ [b]) := List.rel_append h (.cons hab .nil)

theorem encodeFrame_sim {p q : Nat} {m m' : NetMsg} (h : NTwin Cs p q m m') {b : List Nat} (hb : encodeFrame m = some b) :
    ∃ b', encodeFrame m' = some b' ∧ Sim (p ∈ Cs ∨ q ∈ Cs) b b' := by
  unfold encodeFrame at hb ⊢
  split at hb
  swap
  · cases hb
  rename_i hl
  rw [Option.some.injEq] at hb
  subst hb
  rw [if_pos (by rw [← h.1]; exact hl)]
  refine ⟨_, rfl, ?_, fun hc => ?_⟩
  · rw [← h.1, ← h.2.1]
    simp [h.2.1]
  · rw [← h.1, ← h.2.2 hc]

/-- Another buffer with bytes of the same messages contains a message if the first does. -/
theorem recvFrame_sim {p q : Nat} {ms ms' : List NetMsg} (h : List.Forall₂ (NTwin Cs p q) ms ms') (hok : ∀ m ∈ ms, m.Ok)
    {inb inb' post post' rest : List Nat} {m : NetMsg} (he : encodeFrames ms = some (inb ++ post))
    (he' : encodeFrames ms' = some (inb' ++ post')) (hi : Sim (p ∈ Cs ∨ q ∈ Cs) inb inb')
    (hr : recvFrame inb = .message m rest) :
    ∃ m' rest', recvFrame inb' = .message m' rest' ∧ NTwin Cs p q m m' ∧ Sim (p ∈ Cs ∨ q ∈ Cs) rest rest' ∧
      ∃ ns ns', List.Forall₂ (NTwin Cs p q) ns ns' ∧ (∀ m ∈ ns, m.Ok) ∧ encodeFrames ns = some (rest ++ post) ∧
        encodeFrames ns' = some (rest' ++ post') := by
  obtain ⟨ns, rfl, hns⟩ := first_frame hok he hr
  cases h with
  | cons h1 h2 =>
    rename_i m' ns'
    have hmok := hok m (by simp)
    obtain ⟨b, hb, _⟩ := encodeFrame_ok hmok
    obtain ⟨b', hb', hsim⟩ := encodeFrame_sim h1 hb
    rw [encodeFrames, hb, Option.bind_some, hns, Option.map_some, Option.some.injEq, ← List.append_assoc,
      List.append_cancel_right_eq] at he
    subst he
    rw [encodeFrames, hb', Option.bind_some] at he'
    obtain ⟨c, hc, he'⟩ := Option.map_eq_some_iff.1 he'
    -- the bytes of the first message are there
    have hlen : b'.length ≤ inb'.length := by
      rw [← hi.1, ← hsim.1, List.length_append]
      omega
    obtain ⟨rest', hrest⟩ : ∃ rest', inb' = b' ++ rest' := by
      refine ⟨inb'.drop b'.length, ?_⟩
      have : b' = inb'.take b'.length := by
        have h3 := congrArg (List.take b'.length) he'
        rwa [List.take_left', List.take_append_of_le_length hlen] at h3
        rfl
      conv_rhs => rw [this]
      rw [List.length_take, Nat.min_eq_left hlen, List.take_append_drop]
    subst hrest
    refine ⟨m', rest', recvFrame_encode m' (h1.ok hmok) b' rest' hb', h1, ⟨?_, fun hcs => ?_⟩, ns, ns', h2,
      fun m hm => hok m (by simp [hm]), hns, ?_⟩
    · have := hi.1
      rw [List.length_append, List.length_append, hsim.1] at this
      omega
    · have := hi.2 hcs
      rw [hsim.2 hcs, List.append_cancel_left_eq] at this
      exact this
    · rw [List.append_assoc, List.append_cancel_left_eq] at he'
      rw [hc, he']

end Verif
