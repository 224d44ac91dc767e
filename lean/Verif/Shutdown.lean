import Verif.Async

/-!
# The tasks of the TCP network, from their start to their end

`setup_tcp_network`, `src/protocol/network.rs:66-119`, starts for each party a send router, a receive router, and for each peer a sending and a
receiving task.  Here the ends of channels and streams are modelled, too: a channel is closed when all of its senders have been dropped, and a task
ends when what it reads from is closed and empty.  Simplifications: bytes are whole messages (C31), the connections are set up (C39) and do not break
(C109), and requests are not abandoned (C72).
-/

namespace Verif

/-- How things stand with a task. -/
inductive Life
  | running
  | ended
  | panicked
deriving DecidableEq

/-- How things stand with `receive_router`: in its main loop (`src/protocol/network.rs:386-419`), in the loop after it (lines 421-438), or not running. -/
inductive RouterLife
  | loop
  | cleanup
  | ended
  | panicked
deriving DecidableEq

/-- The receiving end of `party_out` exists. -/
def RouterLife.alive : RouterLife → Bool
  | .loop => true
  | .cleanup => true
  | _ => false

/-- All parties' channels, streams and tasks.  Of two numbers the first is the sending and the second the receiving party. -/
structure Down where
  /-- The party still has handles of the network, which hold the senders of `net_inp` and `net_out`. -/
  held : Nat → Bool
  netInp : Nat → List SMsg
  sendRouter : Nat → Life
  partyInp : Nat → Nat → List NetMsg
  sender : Nat → Nat → Life
  stream : Nat → Nat → List NetMsg
  receiver : Nat → Nat → Life
  partyOut : Nat → List RMsg
  netOut : Nat → List (ProtocolID × Nat)
  router : Nat → Router
  recvRouter : Nat → RouterLife
  /-- For the statements: everything which has been sent. -/
  sent : Nat → Nat → List NetMsg
  /-- For the statements: everything which a receive router has taken from `party_out`. -/
  arrived : Nat → List RMsg

/-- After `setup_tcp_network`. -/
def Down.start : Down :=
  { held := fun _ => true, netInp := fun _ => [], sendRouter := fun _ => .running, partyInp := fun _ _ => [], sender := fun _ _ => .running
    stream := fun _ _ => [], receiver := fun _ _ => .running, partyOut := fun _ => [], netOut := fun _ => [], router := fun _ => Router.init
    recvRouter := fun _ => .loop, sent := fun _ _ => [], arrived := fun _ => [] }

/-- A function of two numbers with one changed value. -/
def set2 {α : Type} (f : Nat → Nat → α) (p q : Nat) (v : α) : Nat → Nat → α := fun a b => if a = p ∧ b = q then v else f a b

/-- Steps: a party sends, asks for a message or drops its last handle; or one of the tasks of the network goes on. -/
inductive DownStep
  | send (p : Nat) (m : SMsg)
  | request (p : Nat) (id : ProtocolID) (h : Nat)
  | drop (p : Nat)
  /-- The send router of `p`. -/
  | route (p : Nat)
  /-- The sending task of `p` for `q`. -/
  | write (p q : Nat)
  /-- The receiving task of `q` for `p`. -/
  | read (p q : Nat)
  /-- The receive router of `p`: a message. -/
  | arrive (p : Nat)
  /-- The receive router of `p`: a request. -/
  | answer (p : Nat)
  /-- The receive router of `p`: the end of its main loop. -/
  | leave (p : Nat)
  /-- The receive router of `p`: an iteration of the second loop, or its end. -/
  | clean (p : Nat)

/-- A step of a task of the network. -/
def DownStep.internal : DownStep → Bool
  | .send _ _ => false
  | .request _ _ _ => false
  | .drop _ => false
  | _ => true

/-- Sending, `src/protocol/mod.rs:88-90`.  Messages to unknown parties and IDs of more than 255 bytes are left out (they panic). -/
def Down.sendStep (n : Nat) (s : Down) (p : Nat) (m : SMsg) : Option Down :=
  if p < n ∧ s.held p = true ∧ m.dest.known n = true ∧ m.protoId.length ≤ 255 then
    some { s with
      netInp := Function.update s.netInp p (s.netInp p ++ [m])
      sent := fun a b => if a = p ∧ m.dest.includes b then s.sent a b ++ [⟨m.protoId, m.data⟩] else s.sent a b }
  else none

/-- `send_router`, `src/protocol/network.rs:276-311`: it panics if the receiving end of a channel is gone. -/
def Down.routeStep (n : Nat) (s : Down) (p : Nat) : Option Down :=
  if p < n ∧ s.sendRouter p = .running then
    match s.netInp p with
    | m :: rest =>
      if (∀ q < n, q ≠ p → m.dest.includes q → s.sender p q = .running) ∧ (m.dest.includes p → (s.recvRouter p).alive = true) then
        some { s with
          netInp := Function.update s.netInp p rest
          partyInp := fun a b => if a = p ∧ b ≠ p ∧ m.dest.includes b then s.partyInp a b ++ [⟨m.protoId, m.data⟩] else s.partyInp a b
          partyOut := if m.dest.includes p then Function.update s.partyOut p (s.partyOut p ++ [⟨m.protoId, p, m.data⟩]) else s.partyOut }
      else some { s with sendRouter := Function.update s.sendRouter p .panicked }
    | [] => if s.held p then none else some { s with sendRouter := Function.update s.sendRouter p .ended }
  else none

/-- `party_sender`, `src/protocol/network.rs:313-339`: writing panics if the other side does not read any more; when the task ends the stream is closed. -/
def Down.writeStep (n : Nat) (s : Down) (p q : Nat) : Option Down :=
  if p < n ∧ q < n ∧ p ≠ q ∧ s.sender p q = .running then
    match s.partyInp p q with
    | m :: rest =>
      if m.protoId.length ≤ 255 ∧ s.receiver p q = .running then
        some { s with partyInp := set2 s.partyInp p q rest, stream := set2 s.stream p q (s.stream p q ++ [m]) }
      else some { s with sender := set2 s.sender p q .panicked }
    | [] => if s.sendRouter p = .running then none else some { s with sender := set2 s.sender p q .ended }
  else none

/-- `party_receiver`, `src/protocol/network.rs:341-376`: it panics if the receive router has ended. -/
def Down.readStep (n : Nat) (s : Down) (p q : Nat) : Option Down :=
  if p < n ∧ q < n ∧ p ≠ q ∧ s.receiver p q = .running then
    match s.stream p q with
    | m :: rest =>
      if (s.recvRouter q).alive then
        some { s with
          stream := set2 s.stream p q rest
          partyOut := Function.update s.partyOut q (s.partyOut q ++ [⟨m.protoId, p, m.data⟩]) }
      else some { s with receiver := set2 s.receiver p q .panicked }
    | [] => if s.sender p q = .running then none else some { s with receiver := set2 s.receiver p q .ended }
  else none

/-- All senders of `party_out` of party `p` have been dropped. -/
def Down.OutClosed (n : Nat) (s : Down) (p : Nat) : Prop := s.sendRouter p ≠ .running ∧ ∀ q < n, q ≠ p → s.receiver q p ≠ .running

instance (n : Nat) (s : Down) (p : Nat) : Decidable (s.OutClosed n p) := by unfold Down.OutClosed; infer_instance

open Classical in
/-- The second loop of `receive_router`, `src/protocol/network.rs:421-438`. -/
noncomputable def Down.cleanStep (n : Nat) (s : Down) (p : Nat) : Option Down :=
  if p < n ∧ s.recvRouter p = .cleanup then
    if ∀ id, (s.router p).mssgPool id = none then some { s with recvRouter := Function.update s.recvRouter p .ended }
    else match s.netOut p with
      | (id, h) :: rest =>
        match (s.router p).mssgPool id with
        | none => some { s with recvRouter := Function.update s.recvRouter p .panicked }
        | some _ => match (s.router p).step (.request id h) with
          | none => some { s with recvRouter := Function.update s.recvRouter p .panicked }
          | some r => some { s with netOut := Function.update s.netOut p rest, router := Function.update s.router p r }
      | [] => if s.held p then none else some { s with recvRouter := Function.update s.recvRouter p .ended }
  else none

open Classical in
/-- The effect of a step; `none`: it is not possible.  `select!` in `receive_router` (`src/protocol/network.rs:386-419`) takes a message or a request
in any order, and leaves the loop only if both channels are closed and empty.  A party which waits for a message has a handle. -/
noncomputable def Down.step (n : Nat) (s : Down) : DownStep → Option Down
  | .send p m => s.sendStep n p m
  | .request p id h =>
    if p < n ∧ s.held p = true then some { s with netOut := Function.update s.netOut p (s.netOut p ++ [(id, h)]) } else none
  | .drop p =>
    if p < n ∧ s.held p = true ∧ s.netOut p = [] ∧ ∀ id, (s.router p).handlePool id = none then
      some { s with held := Function.update s.held p false } else none
  | .route p => s.routeStep n p
  | .write p q => s.writeStep n p q
  | .read p q => s.readStep n p q
  | .arrive p =>
    if p < n ∧ s.recvRouter p = .loop then
      match s.partyOut p with
      | m :: rest => match (s.router p).step (.arrive m) with
        | none => some { s with recvRouter := Function.update s.recvRouter p .panicked }
        | some r => some { s with
            partyOut := Function.update s.partyOut p rest, router := Function.update s.router p r
            arrived := Function.update s.arrived p (s.arrived p ++ [m]) }
      | [] => none
    else none
  | .answer p =>
    if p < n ∧ s.recvRouter p = .loop then
      match s.netOut p with
      | (id, h) :: rest => match (s.router p).step (.request id h) with
        | none => some { s with recvRouter := Function.update s.recvRouter p .panicked }
        | some r => some { s with netOut := Function.update s.netOut p rest, router := Function.update s.router p r }
      | [] => none
    else none
  | .leave p =>
    if p < n ∧ s.recvRouter p = .loop ∧ s.partyOut p = [] ∧ s.OutClosed n p ∧ s.netOut p = [] ∧ s.held p = false then
      some { s with recvRouter := Function.update s.recvRouter p .cleanup } else none
  | .clean p => s.cleanStep n p

/-- A sequence of steps. -/
noncomputable def Down.run (n : Nat) (s : Down) : List DownStep → Option Down
  | [] => some s
  | e :: es => (s.step n e).bind fun s => s.run n es

/-- No task can go on. -/
def Down.Quiet (n : Nat) (s : Down) : Prop := ∀ e : DownStep, e.internal = true → s.step n e = none

/-- What has arrived at `q` from `p`. -/
def Down.arrivedFrom (s : Down) (p q : Nat) : List NetMsg := ((s.arrived q).filter fun m => m.sender = p).map fun m => ⟨m.protoId, m.data⟩

/-- No task has panicked. -/
def Down.Sound (n : Nat) (s : Down) : Prop :=
  ∀ p < n, s.sendRouter p ≠ .panicked ∧ s.recvRouter p ≠ .panicked ∧ ∀ q < n, q ≠ p → s.sender p q ≠ .panicked ∧ s.receiver p q ≠ .panicked

/-- All tasks have ended by themselves. -/
def Down.AllEnded (n : Nat) (s : Down) : Prop :=
  ∀ p < n, s.sendRouter p = .ended ∧ s.recvRouter p = .ended ∧ ∀ q < n, q ≠ p → s.sender p q = .ended ∧ s.receiver p q = .ended

end Verif
