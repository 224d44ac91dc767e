import Verif.Shutdown

/-!
# The tasks of the local network, from their start to their end

`setup_local_network`, `src/protocol/network.rs:122-173`, starts for each party a task which passes on what the party sends, and a receive router; and one
routing task for all parties.  As in `Verif.Shutdown` the ends of channels are modelled.  A message may be for a party which does not exist.
Simplification: requests are not abandoned (C72).
-/

namespace Verif

/-- All parties' channels and tasks. -/
structure LocalDown where
  /-- The party still has handles of the network, which hold the senders of `net_inp` and `net_out`. -/
  held : Nat → Bool
  netInp : Nat → List SMsg
  /-- The task which passes messages on from `net_inp` to `router_s`, `src/protocol/network.rs:135-139`. -/
  forward : Nat → Life
  /-- The channel `router_s`, `router_r`. -/
  queue : List (Nat × SMsg)
  /-- The routing task, `src/protocol/network.rs:146-170`. -/
  central : Life
  partyOut : Nat → List RMsg
  netOut : Nat → List (ProtocolID × Nat)
  router : Nat → Router
  recvRouter : Nat → RouterLife
  /-- For the statements: everything which has been sent. -/
  sent : Nat → Nat → List NetMsg
  /-- For the statements: everything which a receive router has taken from `party_out`. -/
  arrived : Nat → List RMsg

/-- After `setup_local_network`. -/
def LocalDown.start : LocalDown :=
  { held := fun _ => true, netInp := fun _ => [], forward := fun _ => .running, queue := [], central := .running, partyOut := fun _ => []
    netOut := fun _ => [], router := fun _ => Router.init, recvRouter := fun _ => .loop, sent := fun _ _ => [], arrived := fun _ => [] }

/-- Steps: a party sends, asks for a message or drops its last handle; or one of the tasks of the network goes on. -/
inductive LocalStep
  | send (p : Nat) (m : SMsg)
  | request (p : Nat) (id : ProtocolID) (h : Nat)
  | drop (p : Nat)
  /-- The task which passes on the messages of `p`. -/
  | pass (p : Nat)
  /-- The routing task. -/
  | route
  /-- The receive router of `p`: a message, a request, the end of its main loop, and its second loop. -/
  | arrive (p : Nat)
  | answer (p : Nat)
  | leave (p : Nat)
  | clean (p : Nat)

/-- A step of a task of the network. -/
def LocalStep.internal : LocalStep → Bool
  | .send _ _ => false
  | .request _ _ _ => false
  | .drop _ => false
  | _ => true

/-- Sending, `src/protocol/mod.rs:88-90`; the party panics if the task which passes on its messages does not run any more. -/
def LocalDown.sendStep (n : Nat) (s : LocalDown) (p : Nat) (m : SMsg) : Option LocalDown :=
  if p < n ∧ s.held p = true ∧ s.forward p = .running then
    some { s with
      netInp := Function.update s.netInp p (s.netInp p ++ [m])
      sent := fun a b => if a = p ∧ m.dest.includes b then s.sent a b ++ [⟨m.protoId, m.data⟩] else s.sent a b }
  else none

/-- `src/protocol/network.rs:135-139`: the task panics if the routing task does not run any more. -/
def LocalDown.passStep (n : Nat) (s : LocalDown) (p : Nat) : Option LocalDown :=
  if p < n ∧ s.forward p = .running then
    match s.netInp p with
    | m :: rest =>
      if s.central = .running then some { s with netInp := Function.update s.netInp p rest, queue := s.queue ++ [(p, m)] }
      else some { s with forward := Function.update s.forward p .panicked }
    | [] => if s.held p then none else some { s with forward := Function.update s.forward p .ended }
  else none

/-- `src/protocol/network.rs:146-170`: the task panics if the recipient does not exist (`party_out[pid as usize]`) or if its receive router has ended; it ends
when all tasks which pass messages on have ended (`setup_local_network` itself drops its `router_s` when it returns). -/
def LocalDown.routeStep (n : Nat) (s : LocalDown) : Option LocalDown :=
  if s.central = .running then
    match s.queue with
    | (p, m) :: rest =>
      if m.dest.known n = true ∧ ∀ q < n, m.dest.includes q → (s.recvRouter q).alive = true then
        some { s with
          queue := rest
          partyOut := fun q => if q < n ∧ m.dest.includes q then s.partyOut q ++ [⟨m.protoId, p, m.data⟩] else s.partyOut q }
      else some { s with central := .panicked, queue := [] }
    | [] => if ∀ p < n, s.forward p ≠ .running then some { s with central := .ended } else none
  else none

open Classical in
/-- The second loop of `receive_router`, `src/protocol/network.rs:421-438`. -/
noncomputable def LocalDown.cleanStep (n : Nat) (s : LocalDown) (p : Nat) : Option LocalDown :=
  if p < n ∧ s.recvRouter p = .cleanup then
    if ∀ id, (s.router p).mssgPool id = none then some { s with recvRouter := Function.update s.recvRouter p .ended }
    else match s.netOut p with
      | (id, h) :: rest =>
        match (s.router p).mssgPool id with
        | none => some { s with recvRouter := Function.update s.recvRouter p .panicked }
        | some _ => match (s.router p).step (.request id h) with
          | none => some { s with recvRouter := Function.update s.recvRouter p .panicked }
          | some r => some { s with netOut := Function.update s.netOut p rest, router := Function.update s.router p r }
      | [] => if s.held p then none else some { s with recvRouter := Function.update s.recvRouter p .ended }
  else none

open Classical in
/-- The effect of a step; `none`: it is not possible.  The receive router (`src/protocol/network.rs:378-439`) is that of the TCP network; the only sender of
its `party_out` is the routing task.  A party which waits for a message has a handle. -/
noncomputable def LocalDown.step (n : Nat) (s : LocalDown) : LocalStep → Option LocalDown
  | .send p m => s.sendStep n p m
  | .request p id h =>
    if p < n ∧ s.held p = true then some { s with netOut := Function.update s.netOut p (s.netOut p ++ [(id, h)]) } else none
  | .drop p =>
    if p < n ∧ s.held p = true ∧ s.netOut p = [] ∧ ∀ id, (s.router p).handlePool id = none then
      some { s with held := Function.update s.held p false } else none
  | .pass p => s.passStep n p
  | .route => s.routeStep n
  | .arrive p =>
    if p < n ∧ s.recvRouter p = .loop then
      match s.partyOut p with
      | m :: rest => match (s.router p).step (.arrive m) with
        | none => some { s with recvRouter := Function.update s.recvRouter p .panicked }
        | some r => some { s with
            partyOut := Function.update s.partyOut p rest, router := Function.update s.router p r
            arrived := Function.update s.arrived p (s.arrived p ++ [m]) }
      | [] => none
    else none
  | .answer p =>
    if p < n ∧ s.recvRouter p = .loop then
      match s.netOut p with
      | (id, h) :: rest => match (s.router p).step (.request id h) with
        | none => some { s with recvRouter := Function.update s.recvRouter p .panicked }
        | some r => some { s with netOut := Function.update s.netOut p rest, router := Function.update s.router p r }
      | [] => none
    else none
  | .leave p =>
    if p < n ∧ s.recvRouter p = .loop ∧ s.partyOut p = [] ∧ s.central ≠ .running ∧ s.netOut p = [] ∧ s.held p = false then
      some { s with recvRouter := Function.update s.recvRouter p .cleanup } else none
  | .clean p => s.cleanStep n p

/-- A sequence of steps. -/
noncomputable def LocalDown.run (n : Nat) (s : LocalDown) : List LocalStep → Option LocalDown
  | [] => some s
  | e :: es => (s.step n e).bind fun s => s.run n es

/-- No task can go on. -/
def LocalDown.Quiet (n : Nat) (s : LocalDown) : Prop := ∀ e : LocalStep, e.internal = true → s.step n e = none

/-- What has arrived at `q` from `p`. -/
def LocalDown.arrivedFrom (s : LocalDown) (p q : Nat) : List NetMsg := ((s.arrived q).filter fun m => m.sender = p).map fun m => ⟨m.protoId, m.data⟩

/-- No task has panicked. -/
def LocalDown.Sound (n : Nat) (s : LocalDown) : Prop :=
  s.central ≠ .panicked ∧ ∀ p < n, s.forward p ≠ .panicked ∧ s.recvRouter p ≠ .panicked

/-- All tasks have ended by themselves. -/
def LocalDown.AllEnded (n : Nat) (s : LocalDown) : Prop :=
  s.central = .ended ∧ ∀ p < n, s.forward p = .ended ∧ s.recvRouter p = .ended

/-- Some party sends a message to a party which does not exist. -/
def SendsUnknown (n : Nat) (es : List LocalStep) : Prop := ∃ p m, LocalStep.send p m ∈ es ∧ m.dest.known n = false

end Verif
