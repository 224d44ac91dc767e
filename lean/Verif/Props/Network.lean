import Verif.RouterLemmas
import Verif.DeliveryLemmas
import Verif.MathModLemmas

/-!
# Properties C31-C36, C38, C39, C72, C73: the network layer (`src/protocol/network.rs`)
-/

open Verif

namespace Verif.Props

/-! ### C31: framing -/

/-- C31. The bytes written for a sequence of messages decode to the same sequence, with nothing left over. -/
theorem C31_framing (ms : List NetMsg) (h1 : ∀ m ∈ ms, m.protoId.length ≤ 255)
    (h2 : ∀ m ∈ ms, m.protoId.length + m.data.length + 1 < 2 ^ 64) :
    ∃ bytes, encodeFrames ms = some bytes ∧ recvFrames (ms.length + 1) bytes = some (ms, []) := by
  have hok : ∀ m ∈ ms, m.Ok := fun m hm => ⟨h1 m hm, h2 m hm⟩
  obtain ⟨bytes, hb⟩ := encodeFrames_ok hok
  refine ⟨bytes, hb, ?_⟩
  obtain ⟨k, rest, _, hr, b, _, _, hd, _⟩ := recvFrames_prefix ms hok bytes bytes [] hb (by simp) (ms.length + 1) (by omega)
  obtain ⟨rfl, rfl⟩ := hd rfl
  simpa using hr

/-- C31. However the stream is cut into pieces: after any part of it has arrived, the receiver has extracted
a prefix of the messages, holds on to the rest, waits for more bytes and never panics; nothing is held back
once a frame is complete (what is left together with the missing bytes is the encoding of the remaining
messages, and starts with an incomplete frame). -/
theorem C31_fragmented (ms : List NetMsg) (h1 : ∀ m ∈ ms, m.protoId.length ≤ 255)
    (h2 : ∀ m ∈ ms, m.protoId.length + m.data.length + 1 < 2 ^ 64) (bytes pre post : List Nat)
    (hb : encodeFrames ms = some bytes) (hcut : bytes = pre ++ post) :
    ∃ k rest, k ≤ ms.length ∧ recvFrames (ms.length + 1) pre = some (ms.take k, rest) ∧
      encodeFrames (ms.drop k) = some (rest ++ post) ∧ recvFrame rest = .wait := by
  obtain ⟨k, rest, hk, hr, b, hb', hbe, _, hw⟩ := recvFrames_prefix ms (fun m hm => ⟨h1 m hm, h2 m hm⟩) bytes pre post hb hcut
    (ms.length + 1) (by omega)
  exact ⟨k, rest, hk, hr, by rw [hb', hbe], hw⟩

/-- A two-message stream, with a 200-byte payload (two-byte length prefix). -/
example : encodeFrames [⟨[1, 2], List.replicate 200 7⟩, ⟨[], []⟩] =
    some ([46, 3, 2, 1, 2] ++ List.replicate 200 7 ++ [3, 0]) := by decide +kernel

example : recvFrames 3 ([46, 3, 2, 1, 2] ++ List.replicate 200 7 ++ [3, 0]) =
    some ([⟨[1, 2], List.replicate 200 7⟩, ⟨[], []⟩], []) := by decide +kernel

/-! ### C32, C33: the receive router -/

/-- C32. If requests for an ID are made one after the other, the `k`-th one is answered by the `k`-th message
with that ID as soon as both exist; no request is lost and the router never panics. -/
theorem C32_in_order (evs : List REvent) (h : Sequential evs) :
    ∃ s, Router.init.run evs = some s ∧ s.dropped = [] ∧
      ∀ id, s.answersOf id = (reqsOf id evs).zip (msgsOf id evs) := by
  obtain ⟨s, h1, h2⟩ := Router.seq_run h
  exact ⟨s, h1, h2.dropped, h2.answers⟩

/-- C33. In every run, the messages which arrived for an ID are, in order, those given to requests and those
still queued. -/
theorem C33_conserved (evs : List REvent) (s : Router) (h : Router.init.run evs = some s) (id : ProtocolID) :
    msgsOf id evs = (s.answersOf id).map (·.2) ++ s.queueOf id :=
  (Router.inv_run h).msgs id

/-- C33. Only requests for the message's own ID are answered with it, and each request at most once: the
requests for an ID are those which were answered, those which were dropped, and the outstanding one. -/
theorem C33_own_id (evs : List REvent) (s : Router) (h : Router.init.run evs = some s) (id : ProtocolID) :
    (reqsOf id evs).Perm ((s.answersOf id).map (·.1) ++ s.droppedOf id ++ (s.handlePool id).toList) :=
  (Router.inv_run h).reqs id

/-- C33. No message waits in the router while a request for its ID does. -/
theorem C33_no_idle (evs : List REvent) (s : Router) (h : Router.init.run evs = some s) (id : ProtocolID)
    (hq : s.queueOf id ≠ []) : s.handlePool id = none := by
  have hi := Router.inv_run h
  cases hh : s.handlePool id with
  | none => rfl
  | some c => exact absurd (by simp [Router.queueOf, hi.excl id c hh]) hq

/-- Messages for two IDs arriving in the opposite order of the requests. -/
def exEvs : List REvent :=
  [.request [1] 0, .request [2] 1, .arrive ⟨[2], 0, [20]⟩, .arrive ⟨[1], 0, [10]⟩, .arrive ⟨[1], 2, [11]⟩, .request [1] 2]

example : (Router.init.run exEvs).map (·.answered) =
    some [(1, ⟨[2], 0, [20]⟩), (0, ⟨[1], 0, [10]⟩), (2, ⟨[1], 2, [11]⟩)] := by decide +kernel

/-! ### C34: concurrent requests -/

/-- C34 is false: of two outstanding requests for an ID the first one is thrown away, also when two messages
arrive; the second message stays in the queue. -/
theorem C34_concurrent_false (id : ProtocolID) (a b : List Nat) : ∃ s,
    Router.init.run [.request id 0, .request id 1, .arrive ⟨id, 0, a⟩, .arrive ⟨id, 1, b⟩] = some s ∧
    s.answersOf id = [(1, ⟨id, 0, a⟩)] ∧ s.droppedOf id = [0] ∧ s.queueOf id = [⟨id, 1, b⟩] := by
  refine ⟨_, by simp [Router.run, Router.step, Router.init]; rfl, ?_, ?_, ?_⟩ <;>
    simp [Router.answersOf, Router.droppedOf, Router.queueOf]

/-- C34, what holds: every request but the last one which was outstanding at the same time is dropped, and
nothing else is: after a run, `min (requests) (messages)` requests are answered if they were made one after
the other. -/
theorem C34_sequential_partial (evs : List REvent) (h : Sequential evs) :
    ∃ s, Router.init.run evs = some s ∧
      ∀ id, (s.answersOf id).length = min (reqsOf id evs).length (msgsOf id evs).length := by
  obtain ⟨s, h1, _, h3⟩ := C32_in_order evs h
  exact ⟨s, h1, fun id => by rw [h3, List.length_zip]⟩

/-! ### C72: abandoned requests -/

/-- C72 is false: if the future of an unanswered `recv` is dropped, the next message with its ID makes the
router panic, whatever the state, so that every other protocol of the party stops too. -/
theorem C72_abandoned_false (s : Router) (id : ProtocolID) (h : Nat) (hp : s.handlePool id = some h) (m : RMsg)
    (hm : m.protoId = id) (more : List REvent) : s.run (.cancel h :: .arrive m :: more) = none := by
  simp [Router.run, Router.step, hm, hp]

example : (Router.init.run [.request [1] 0, .request [2] 1, .cancel 0, .arrive ⟨[1], 0, []⟩, .arrive ⟨[2], 0, []⟩]).isNone := by
  decide +kernel

/-- C72, what holds: abandoning requests changes nothing as long as no message for them arrives: a run without
panic delivers exactly what it delivers without the cancellations. -/
theorem C72_unaffected_partial (evs : List REvent) (s : Router) (h : Router.init.run evs = some s) :
    ∃ s', Router.init.run (evs.filter fun e => match e with | .cancel _ => false | _ => true) = some s' ∧
      s'.answered = s.answered ∧ s'.mssgPool = s.mssgPool ∧ s'.handlePool = s.handlePool ∧ s'.dropped = s.dropped := by
  have gen : ∀ (evs : List REvent) (a b s : Router), a.run evs = some s → a.answered = b.answered → a.mssgPool = b.mssgPool →
      a.handlePool = b.handlePool → a.dropped = b.dropped → b.cancelled = [] →
      ∃ s', b.run (evs.filter fun e => match e with | .cancel _ => false | _ => true) = some s' ∧
        s'.answered = s.answered ∧ s'.mssgPool = s.mssgPool ∧ s'.handlePool = s.handlePool ∧ s'.dropped = s.dropped := by
    intro evs
    induction evs with
    | nil =>
      intro a b s hr h1 h2 h3 h4 h5
      simp only [Router.run, Option.some.injEq] at hr
      subst hr
      exact ⟨b, rfl, h1.symm, h2.symm, h3.symm, h4.symm⟩
    | cons e evs ih =>
      intro a b s hr h1 h2 h3 h4 h5
      rw [Router.run] at hr
      obtain ⟨a', ha', hr⟩ := Option.bind_eq_some_iff.1 hr
      cases e with
      | cancel c =>
        simp only [Router.step, Option.some.injEq] at ha'
        subst ha'
        simpa using ih _ b s hr h1 h2 h3 h4 h5
      | arrive m =>
        simp only [List.filter_cons_of_pos, Router.run]
        rw [Router.step] at ha'
        rw [Router.step, ← h3]
        cases hp : a.handlePool m.protoId with
        | none =>
          simp only [hp, Option.some.injEq] at ha'
          subst ha'
          exact ih _ _ s hr h1 (by simp only [h2]) rfl h4 h5
        | some c =>
          simp only [hp] at ha'
          split at ha'
          · cases ha'
          simp only [Option.some.injEq] at ha'
          subst ha'
          simp only [h5, List.not_mem_nil, if_false, Option.bind_some]
          exact ih _ _ s hr (by simp only [h1]) h2 rfl h4 rfl
      | request id c =>
        simp only [List.filter_cons_of_pos, Router.run]
        rw [Router.step] at ha'
        rw [Router.step, ← h2]
        cases hp : a.mssgPool id with
        | none =>
          simp only [hp, Option.some.injEq] at ha'
          subst ha'
          exact ih _ _ s hr h1 rfl (by simp only [h3]) (by simp only [h4, h3]) h5
        | some buf =>
          cases buf with
          | nil => simp only [hp] at ha'; cases ha'
          | cons m buf =>
            simp only [hp] at ha'
            split at ha'
            · cases ha'
            simp only [Option.some.injEq] at ha'
            subst ha'
            simp only [h5, List.not_mem_nil, if_false, Option.bind_some]
            exact ih _ _ s hr (by simp only [h1]) rfl h3 h4 rfl
  exact gen evs _ _ s h rfl rfl rfl rfl rfl

/-! ### C35: `message_from_each_party` -/

/-- C35. Once every party's message is among those which arrived, the call returns: with every party's first
message in party order, having consumed no more messages than necessary. -/
theorem C35_first_messages (n : Nat) (ms : List RMsg) (hms : ∀ m ∈ ms, m.sender < n)
    (hall : ∀ p, p < n → ∃ m ∈ ms, m.sender = p) :
    ∃ k vals, messageFromEachParty n ms = .done vals (ms.drop k) ∧ k ≤ ms.length ∧ vals.length = n ∧
      (∀ p, p < n → ∃ v, vals[p]? = some v ∧ firstOf p ms = some v) ∧
      (∀ p, p < n → ∃ m ∈ ms.take k, m.sender = p) ∧
      (∀ k', k' < k → ∃ p, p < n ∧ ∀ m ∈ ms.take k', m.sender ≠ p) := by
  rcases Gather.run_spec n (Gather.init n) [] ms (Gather.inv_init n) hms (by simp) with
    ⟨k, vals, e1, e2, e3, e4, e5, e6⟩ | ⟨_, p, hp, hno⟩
  · refine ⟨k, vals, e1, e2, e3, by simpa using e4, by simpa [HasMsg] using e5, ?_⟩
    intro k' hk'
    obtain ⟨p, hp, hno⟩ := e6 k' (by simpa using hk')
    refine ⟨p, hp, fun m hm he => hno ?_⟩
    exact ⟨m, by simpa using hm, he⟩
  · exact absurd (hall p hp) (by simpa [HasMsg] using hno)

/-- C35. As long as some party's message is missing, the call waits. -/
theorem C35_waits (n : Nat) (ms : List RMsg) (hms : ∀ m ∈ ms, m.sender < n)
    (hmiss : ∃ p, p < n ∧ ∀ m ∈ ms, m.sender ≠ p) : messageFromEachParty n ms = .pending := by
  obtain ⟨q, hq, hmiss⟩ := hmiss
  rcases Gather.run_spec n (Gather.init n) [] ms (Gather.inv_init n) hms (by simp) with
    ⟨k, vals, _, _, _, _, e5, _⟩ | ⟨h, _⟩
  · obtain ⟨m, hm, hmq⟩ := e5 q hq
    simp only [List.nil_append] at hm
    exact absurd hmq (hmiss m (List.mem_of_mem_take hm))
  · exact h

/-- C35. The result depends only on every party's own first message, not on how the messages of different
parties are interleaved. -/
theorem C35_interleaving (n : Nat) (ms ms' : List RMsg) (hms : ∀ m ∈ ms, m.sender < n) (hms' : ∀ m ∈ ms', m.sender < n)
    (hsame : ∀ p, p < n → firstOf p ms = firstOf p ms') (vals vals' : List (List Nat)) (rest rest' : List RMsg)
    (h : messageFromEachParty n ms = .done vals rest) (h' : messageFromEachParty n ms' = .done vals' rest') : vals = vals' := by
  have key : ∀ ms, (∀ m ∈ ms, m.sender < n) → ∀ vals rest, messageFromEachParty n ms = .done vals rest →
      vals.length = n ∧ ∀ p, p < n → vals[p]? = firstOf p ms := by
    intro ms hms vals rest h
    rcases Gather.run_spec n (Gather.init n) [] ms (Gather.inv_init n) hms (by simp) with
      ⟨k, vals', e1, _, e3, e4, _, _⟩ | ⟨e1, _⟩
    · have := e1.symm.trans h
      simp only [GatherRes.done.injEq] at this
      rw [← this.1]
      refine ⟨e3, fun p hp => ?_⟩
      obtain ⟨v, hv, hv'⟩ := e4 p hp
      rw [hv]; simpa using hv'.symm
    · rw [messageFromEachParty, e1] at h; cases h
  obtain ⟨l1, k1⟩ := key ms hms vals rest h
  obtain ⟨l2, k2⟩ := key ms' hms' vals' rest' h'
  apply List.ext_getElem?
  intro p
  by_cases hp : p < n
  · rw [k1 p hp, k2 p hp, hsame p hp]
  · rw [List.getElem?_eq_none (by omega), List.getElem?_eq_none (by omega)]

example : messageFromEachParty 3 [⟨[], 2, [22]⟩, ⟨[], 0, [1]⟩, ⟨[], 2, [99]⟩, ⟨[], 1, [7]⟩, ⟨[], 0, [98]⟩] =
    .done [[1], [7], [22]] [⟨[], 0, [98]⟩] := by decide +kernel

example : messageFromEachParty 3 [⟨[], 2, [22]⟩, ⟨[], 0, [1]⟩, ⟨[], 2, [99]⟩] = .pending := by decide +kernel

/-! ### C36: delivery -/

/-- C36, local network. Under every schedule, what `j` received from `p` is a prefix of what `p` sent to `j`
(nothing lost, duplicated or reordered). -/
theorem C36_local_order (n : Nat) (evs : List LStep) (s : LocalNet) (h : LocalNet.init.run n evs = some s)
    (p j : Nat) (hj : j < n) : gotFrom p (s.partyOut j) <+: sentTo p j (LStep.sends evs) :=
  ⟨_, by rw [← List.append_assoc]; exact (LocalNet.inv_run h).order p j hj⟩

/-- C36, local network. If all recipients exist, the network delivers everything: the forwarding tasks can only
take a bounded number of steps without new messages, and when none of them can take a step, every message has
arrived. -/
theorem C36_local_delivered (n : Nat) (evs : List LStep) (s : LocalNet) (h : LocalNet.init.run n evs = some s)
    (hd : ∀ x ∈ LStep.sends evs, ∀ j, x.2.dest = .one j → j < n) :
    (∃ bound, ∀ more, (∀ e ∈ more, e.internal = true) → (s.run n more).isSome → more.length ≤ bound) ∧
    ((∀ e : LStep, e.internal = true → s.step n e = none) →
      ∀ p j, j < n → gotFrom p (s.partyOut j) = sentTo p j (LStep.sends evs)) := by
  have hi := LocalNet.inv_run h
  refine ⟨⟨s.measure n, fun more hm hr => LocalNet.internal_bound hi hm hr⟩, ?_⟩
  intro hst p j hj
  obtain ⟨e1, e2⟩ := LocalNet.stuck_empty hi hd hst
  have := hi.order p j hj
  rw [e1 p, e2] at this
  simpa [sentTo, queuedFor] using this

/-- C36, TCP network. The same under every schedule of the send router, the sender and the receiver tasks,
for messages the frame format can carry. -/
theorem C36_tcp_order (n : Nat) (evs : List TStep) (s : TcpNet) (h : TcpNet.init.run n evs = some s)
    (hok : ∀ x ∈ TStep.sends evs, x.2.Ok n) (p j : Nat) (hj : j < n) :
    gotFrom p (s.partyOut j) <+: sentTo p j (TStep.sends evs) := by
  obtain ⟨fr, hi⟩ := TcpNet.inv_run hok h
  exact ⟨fr p j ++ s.partyInp p j ++ queuedFor p j (s.netInp p), by simpa using hi.order p j hj⟩

theorem C36_tcp_delivered (n : Nat) (evs : List TStep) (s : TcpNet) (h : TcpNet.init.run n evs = some s)
    (hok : ∀ x ∈ TStep.sends evs, x.2.Ok n) :
    (∃ bound, ∀ more, (∀ e ∈ more, e.internal = true) → (s.run n more).isSome → more.length ≤ bound) ∧
    ((∀ e : TStep, e.internal = true → s.step n e = none) →
      ∀ p j, j < n → gotFrom p (s.partyOut j) = sentTo p j (TStep.sends evs)) := by
  obtain ⟨fr, hi⟩ := TcpNet.inv_run hok h
  refine ⟨⟨s.measure n fr, fun more hm hr => TcpNet.internal_bound hi hok hm hr⟩, ?_⟩
  intro hst p j hj
  obtain ⟨e1, e2, e3⟩ := TcpNet.stuck_empty hi hok hst
  have := hi.order p j hj
  rw [e1 p, e2, e3] at this
  simpa [sentTo, queuedFor] using this

/-- Two parties: `0` sends to all and to `1`, `1` sends to `0` in between. -/
def exTcp : List TStep :=
  [.send 0 ⟨[1], .all, [10]⟩, .send 0 ⟨[2], .one 1, [20]⟩, .route 0, .send 1 ⟨[3], .one 0, [30]⟩, .route 0, .write 0 1,
    .route 1, .write 1 0, .read 1 0, .write 0 1, .read 0 1, .read 0 1]

example : (TcpNet.init.run 2 exTcp).map (fun s => (s.partyOut 0, s.partyOut 1)) =
    some ([⟨[1], 0, [10]⟩, ⟨[3], 1, [30]⟩], [⟨[1], 0, [10]⟩, ⟨[2], 0, [20]⟩]) := by decide +kernel

def exLocal : List LStep :=
  [.send 0 ⟨[1], .all, [10]⟩, .send 0 ⟨[2], .one 1, [20]⟩, .forward 0, .send 1 ⟨[3], .one 0, [30]⟩, .forward 1, .route,
    .forward 0, .route, .route]

example : (LocalNet.init.run 2 exLocal).map (fun s => (s.partyOut 0, s.partyOut 1)) =
    some ([⟨[1], 0, [10]⟩, ⟨[3], 1, [30]⟩], [⟨[1], 0, [10]⟩, ⟨[2], 0, [20]⟩]) := by decide +kernel

/-! ### C73: long IDs -/

/-- C73 is false: a message with an ID of 256 bytes or more reaches its recipient through the local network,
but in the TCP network the sending task panics when it comes to it, whatever else happens. -/
theorem C73_long_id_false (id : ProtocolID) (hid : 255 < id.length) (data : List Nat) :
    ((LocalNet.init.run 2 [.send 0 ⟨id, .one 1, data⟩, .forward 0, .route]).map fun s => s.partyOut 1) =
      some [⟨id, 0, data⟩] ∧
    ∃ s, TcpNet.init.run 2 [.send 0 ⟨id, .one 1, data⟩, .route 0] = some s ∧ s.partyInp 0 1 = [⟨id, data⟩] ∧
      (∀ e : TStep, e.internal = true → s.step 2 e = none) := by
  constructor
  · simp [LocalNet.run, LocalNet.step, LocalNet.init]
  · refine ⟨_, by simp [TcpNet.run, TcpNet.step, TcpNet.init]; rfl, by simp, ?_⟩
    intro e he
    cases e with
    | send => cases he
    | route p =>
      by_cases hp : p = 0
      · subst hp; simp [TcpNet.step]
      · simp [TcpNet.step]
    | write p j =>
      by_cases hpj : p = 0 ∧ j = 1
      · obtain ⟨rfl, rfl⟩ := hpj
        simp [TcpNet.step, encodeFrame, hid]
      · simp [TcpNet.step, hpj]
    | read p j => simp [TcpNet.step, recvFrame]

/-! ### C38: statistics -/

/-- C38. The counters of party `p` are the payload bytes, and the payload and ID bytes, of the messages which
arrived from `p`; indexing never fails. -/
theorem C38_party (n : Nat) (ms : List RMsg) (hms : ∀ m ∈ ms, m.sender < n) :
    ∃ st, statsRun (statsNew n) ms = some st ∧ st.length = n ∧ ∀ p, p < n → statsParty st p = some (bytesFrom p ms) := by
  obtain ⟨st, h1, h2, h3⟩ := statsRun_spec n (statsNew n) ms (by simp [statsNew]) hms
  refine ⟨st, h1, h2, fun p hp => ?_⟩
  obtain ⟨a, b, ha, hb, hab⟩ := h3 p hp
  have : a = (0, 0) := by
    simp [statsNew, hp] at ha
    exact ha.symm
  rw [statsParty, hb, hab, this]
  simp

/-- C38. The total counts every message once. -/
theorem C38_total (n : Nat) (ms : List RMsg) (st : List (Nat × Nat))
    (h : statsRun (statsNew n) ms = some st) :
    statsTotal st = ((ms.map fun m => m.data.length).sum, (ms.map fun m => m.data.length + m.protoId.length).sum) := by
  have fold : ∀ (l : List (Nat × Nat)) a, l.foldl (fun a v => (a.1 + v.1, a.2 + v.2)) a = (a.1 + (l.map (·.1)).sum, a.2 + (l.map (·.2)).sum) := by
    intro l
    induction l with
    | nil => intro a; simp
    | cons x l ih => intro a; rw [List.foldl_cons, ih]; simp; omega
  have setSum : ∀ (l : List Nat) (i : Nat) (hi : i < l.length) v, (l.set i (l[i] + v)).sum = l.sum + v := by
    intro l
    induction l with
    | nil => intro i hi; simp at hi
    | cons x l ih =>
      intro i hi v
      cases i with
      | zero => simp; omega
      | succ i => simp only [List.set_cons_succ, List.sum_cons, List.getElem_cons_succ, ih]; omega
  have key : ∀ (ms : List RMsg) (st st' : List (Nat × Nat)), statsRun st ms = some st' →
      (st'.map (·.1)).sum = (st.map (·.1)).sum + (ms.map fun m => m.data.length).sum ∧
      (st'.map (·.2)).sum = (st.map (·.2)).sum + (ms.map fun m => m.data.length + m.protoId.length).sum := by
    intro ms
    induction ms with
    | nil => intro st st' h; simp only [statsRun, Option.some.injEq] at h; subst h; simp
    | cons m ms ih =>
      intro st st' h
      rw [statsRun] at h
      obtain ⟨s1, h1, h2⟩ := Option.bind_eq_some_iff.1 h
      rw [statsIncrement] at h1
      obtain ⟨v, hv, h1⟩ := Option.map_eq_some_iff.1 h1
      obtain ⟨hlt, hv⟩ := List.getElem?_eq_some_iff.1 hv
      obtain ⟨i1, i2⟩ := ih s1 st' h2
      rw [i1, i2, ← h1, List.map_set, List.map_set, ← hv]
      have e1 := setSum (st.map (·.1)) m.sender (by simpa using hlt) m.data.length
      have e2 := setSum (st.map (·.2)) m.sender (by simpa using hlt) (m.data.length + m.protoId.length)
      simp only [List.getElem_map] at e1 e2
      rw [e1, e2]
      simp only [List.map_cons, List.sum_cons]
      constructor <;> omega
  obtain ⟨k1, k2⟩ := key ms _ st h
  rw [statsTotal, fold, k1, k2]
  simp [statsNew]

/-- C38. The difference between two moments never underflows and counts the messages which arrived in
between. -/
theorem C38_elapsed (n : Nat) (ms more : List RMsg) (hms : ∀ m ∈ ms ++ more, m.sender < n) :
    ∃ st st' start, statsRun (statsNew n) ms = some st ∧ statsRun (statsNew n) (ms ++ more) = some st' ∧
      statsNow st n = some start ∧ statsElapsed start st' = some ((List.range n).map fun p => bytesFrom p more) := by
  obtain ⟨st, h1, h2, h3⟩ := C38_party n ms (fun m hm => hms m (by simp [hm]))
  obtain ⟨st', h1', h2', h3'⟩ := C38_party n (ms ++ more) hms
  have hnow : statsNow st n = some ((List.range n).map fun p => bytesFrom p ms) := by
    unfold statsNow
    exact mapM_some_map _ _ _ fun p hp => h3 p (List.mem_range.1 hp)
  refine ⟨st, st', _, h1, h1', hnow, ?_⟩
  unfold statsElapsed
  rw [List.length_map, List.length_range]
  refine mapM_some_map _ _ _ fun p hp => ?_
  have hp := List.mem_range.1 hp
  rw [h3' p hp, Option.bind_some, List.getElem?_map, List.getElem?_range hp]
  simp [bytesFrom, usub]

example : (statsRun (statsNew 2) [⟨[1, 2], 0, [5, 6, 7]⟩, ⟨[], 1, [1]⟩, ⟨[9], 0, []⟩]) = some [(3, 6), (1, 1)] := by
  decide +kernel

/-! ### C39: connections -/

theorem acceptFold (n : Nat) (cs : List Conn) (t : List (Option Conn)) (ht : t.length = n) (hc : ∀ c ∈ cs, c.dialer < n)
    (hnd : (cs.map (·.dialer)).Nodup) :
    ∃ t', cs.foldlM (fun t c => if c.dialer < n then some (t.set c.dialer (some c)) else none) t = some t' ∧ t'.length = n ∧
      (∀ c ∈ cs, t'[c.dialer]? = some (some c)) ∧ ∀ i, (∀ c ∈ cs, c.dialer ≠ i) → t'[i]? = t[i]? := by
  induction cs generalizing t with
  | nil => exact ⟨t, rfl, ht, by simp, by simp⟩
  | cons c cs ih =>
    rw [List.map_cons, List.nodup_cons] at hnd
    obtain ⟨t', h1, h2, h3, h4⟩ := ih (t.set c.dialer (some c)) (by simp [ht]) (fun c' hc' => hc c' (by simp [hc'])) hnd.2
    have hcn := hc c (by simp)
    refine ⟨t', ?_, h2, ?_, ?_⟩
    · rw [List.foldlM_cons, if_pos hcn]
      exact h1
    · intro c' hc'
      rcases List.mem_cons.1 hc' with rfl | hc'
      · rw [h4 c'.dialer]
        · rw [List.getElem?_set_self (by omega)]
        · intro c'' hc'' he
          exact hnd.1 (he ▸ List.mem_map_of_mem hc'')
      · exact h3 c' hc'
    · intro i hi
      rw [h4 i (fun c' hc' => hi c' (by simp [hc'])), List.getElem?_set_ne (hi c (by simp))]

/-- C39. Whatever the order in which the connections of the higher parties come in, party `p` ends up with the
connection to `j` at index `j`, for all `j ≠ p`, and nothing at its own index; both ends of a pair hold the same
connection, dialled by the higher party. -/
theorem C39_connections (n p : Nat) (hp : p < n) (incoming : List Conn)
    (hin : incoming.Perm ((List.range' (p + 1) (n - p - 1)).map fun j => ⟨j, p⟩)) :
    connectToPeers n p incoming = some ((List.range n).map fun j =>
      if j < p then some ⟨p, j⟩ else if j = p then none else some ⟨j, p⟩) := by
  have hlen : incoming.length = n - p - 1 := by rw [hin.length_eq]; simp
  have hmem : ∀ c, c ∈ incoming ↔ ∃ j, p < j ∧ j < n ∧ c = ⟨j, p⟩ := by
    intro c
    rw [hin.mem_iff]
    simp only [List.mem_map, List.mem_range'_1]
    constructor
    · rintro ⟨j, hj, rfl⟩; exact ⟨j, by omega, by omega, rfl⟩
    · rintro ⟨j, h1, h2, rfl⟩; exact ⟨j, by omega, rfl⟩
  have hnd : (incoming.map (·.dialer)).Nodup := by
    rw [(hin.map _).nodup_iff]
    simp only [List.map_map, Function.comp_def, List.map_id']
    exact List.nodup_range'
  obtain ⟨t, h1, h2, h3, h4⟩ := acceptFold n incoming (List.replicate n none) (by simp)
    (fun c hc => by obtain ⟨j, _, hj, rfl⟩ := (hmem c).1 hc; exact hj) hnd
  have hacc : acceptTable n p incoming = some t := by
    unfold acceptTable
    rw [if_neg (by omega), if_neg (by omega), ← hlen, List.take_length]
    exact h1
  have dial : ∀ k, k ≤ p → ∃ t', (List.range k).foldlM (fun t i => if i < n then some (t.set i (some (⟨p, i⟩ : Conn))) else none) t = some t' ∧
      t'.length = n ∧ ∀ i, t'[i]? = if i < k then some (some ⟨p, i⟩) else t[i]? := by
    intro k
    induction k with
    | zero => intro _; exact ⟨t, rfl, h2, by simp⟩
    | succ k ih =>
      intro hk
      obtain ⟨t', e1, e2, e3⟩ := ih (by omega)
      refine ⟨t'.set k (some ⟨p, k⟩), ?_, by simp [e2], ?_⟩
      · rw [List.range_succ, List.foldlM_append, e1]
        simp [show k < n by omega]
      · intro i
        by_cases hi : i = k
        · subst hi
          rw [List.getElem?_set_self (by omega), if_pos (by omega)]
        · rw [List.getElem?_set_ne (fun h => hi h.symm), e3]
          by_cases hik : i < k
          · rw [if_pos hik, if_pos (by omega)]
          · rw [if_neg hik, if_neg (by omega)]
  obtain ⟨t', e1, e2, e3⟩ := dial p (le_refl _)
  rw [connectToPeers, hacc, Option.bind_some, e1, Option.some.injEq]
  apply List.ext_getElem?
  intro i
  rw [e3, List.getElem?_map]
  by_cases hin : i < n
  · rw [List.getElem?_range hin, Option.map_some]
    by_cases hip : i < p
    · rw [if_pos hip, if_pos hip]
    · rw [if_neg hip, if_neg hip]
      by_cases hie : i = p
      · subst hie
        rw [if_pos rfl, h4 i]
        · rw [List.getElem?_replicate, if_pos hp]
        · intro c hc
          obtain ⟨j, h, _, rfl⟩ := (hmem c).1 hc
          exact fun he => by simp at he; omega
      · rw [if_neg hie]
        exact h3 ⟨i, p⟩ ((hmem _).2 ⟨i, by omega, hin, rfl⟩)
  · rw [if_neg (by omega), List.getElem?_eq_none (by omega), List.getElem?_eq_none (by simp; omega)]
    rfl

/-- C39. The two ends of a pair agree. -/
theorem C39_agree (n i j : Nat) (hij : i < j) (hj : j < n) (ini inj : List Conn) (ti tj : List (Option Conn))
    (hi : ini.Perm ((List.range' (i + 1) (n - i - 1)).map fun a => ⟨a, i⟩))
    (hj' : inj.Perm ((List.range' (j + 1) (n - j - 1)).map fun a => ⟨a, j⟩))
    (h1 : connectToPeers n i ini = some ti) (h2 : connectToPeers n j inj = some tj) :
    ti[j]? = some (some ⟨j, i⟩) ∧ tj[i]? = some (some ⟨j, i⟩) := by
  rw [C39_connections n i (by omega) ini hi, Option.some.injEq] at h1
  rw [C39_connections n j hj inj hj', Option.some.injEq] at h2
  subst h1 h2
  rw [List.getElem?_map, List.getElem?_map, List.getElem?_range hj, List.getElem?_range (by omega)]
  simp [show ¬ j < i by omega, show ¬ j = i by omega, hij]

example : connectToPeers 4 1 [⟨3, 1⟩, ⟨2, 1⟩] = some [some ⟨1, 0⟩, none, some ⟨2, 1⟩, some ⟨3, 1⟩] := by decide +kernel

end Verif.Props
