import Verif.Network

/-!
# Asynchronous execution

The sequential descriptions of `Verif.Core` and `Verif.Preproc` deliver every message once, in party order.  Here the
parties are state machines which interact through `ProtoHandle::send` and `ProtoHandle::recv` only, and the steps of the
parties' tasks and the deliveries of messages are interleaved arbitrarily.

A party runs a number of *jobs*: instances of protocols, each with a protocol ID.  A job is started when the jobs it depends
on are finished (its inputs are computed from their outputs), and started jobs run concurrently, as the tasks spawned by
`preproc` and `garble` do.

The network keeps the order between each pair of parties and loses nothing, and the router answers a request for an ID with
the first message of this ID which has not been received, in the order of arrival (this is what C32, C33 and C36 say
about the models of the networks and of the router):

* `chan p q`: messages from `p` to `q` which have not reached `q`'s router (a party's messages to itself take such a
  channel, too);
* `inbox q`: messages which have reached `q`'s router and have not been received;
* `sent`, `got` and the tags of messages are history information, which no step depends on.
-/

namespace Verif

/-- What a task does next: `net.send`, `net.recv(id).await`, a local computation, or nothing (it has returned, panicked or
waits for other tasks). -/
inductive Act (S : Type)
  | send (dest : Recipient) (data : List Nat) (next : S)
  | recv (next : RMsg → S)
  | tau (next : S)
  | stop

/-- Where a party is in a protocol: not started; sending its first messages; in `message_from_each_party`; sending the
leader's answers; waiting for the leader's answer; finished; or the task has panicked. -/
inductive TState (O : Type)
  | idle
  | sending (rest : List (Recipient × List Nat))
  | gather (g : Gather)
  | reply (rest : List (Recipient × List Nat))
  | wait
  | done (o : O)
  | fail

/-- The results of the jobs which a party has finished. -/
abbrev Env (O : Type) := Nat → Option O

/-- The local computations of a protocol (`none` is a panic).  With a leader (`reduce_degree`, `mult`, `trans`): `sends`
gives the message to the leader, `answer` the leader's answers to the parties, `finish` the result from the answer.
Without (`rand`, `zero`, `randbit`, `randtrans`, `sync`): `sends` gives the messages to all parties, `finish` the result
from the messages of all parties. -/
structure Proto (O : Type) where
  leader : Option Nat
  sends : Nat → Env O → Option (List (Recipient × List Nat))
  answer : Env O → List (List Nat) → Option (List (List Nat))
  finish : Nat → Env O → List (List Nat) → Option O

variable {O : Type}

/-- Whether party `p` calls `message_from_each_party`. -/
def Proto.gathers (P : Proto O) (p : Nat) : Bool :=
  match P.leader with
  | none => true
  | some l => p = l

/-- A step which cannot be taken if the computation panics. -/
def orFail {α : Type} (a : Option α) (k : α → TState O) : TState O :=
  match a with
  | none => .fail
  | some x => k x

/-- One party's task: `reduce_degree` and `trans`, `src/protocol/core.rs:34-84`, `129-197`; `randtrans`,
`src/protocol/core.rs:331-366`; `rand`, `zero`, `randbit`, `src/protocol/preproc.rs:55-76`, `116-137`, `176-197`; `sync`,
`src/protocol/network.rs:175-185`. -/
def Proto.act (n : Nat) (P : Proto O) (p : Nat) (env : Env O) : TState O → Act (TState O)
  | .idle => .tau (orFail (P.sends p env) fun l => .sending l)
  | .sending (x :: rest) => .send x.1 x.2 (.sending rest)
  | .sending [] => .tau (if P.gathers p then .gather (Gather.init n) else .wait)
  | .gather g =>
    if g.counter = n then
      match P.leader with
      | none => .tau (orFail (P.finish p env g.mssgs) fun o => .done o)
      | some _ => .tau (orFail (P.answer env g.mssgs) fun rs => .reply (rs.zipIdx.map fun r => (.one r.2, r.1)))
    else .recv fun m => orFail (g.step m) fun g => .gather g
  | .reply (x :: rest) => .send x.1 x.2 (.reply rest)
  | .reply [] => .tau .wait
  | .wait => .recv fun m => orFail (P.finish p env [m.data]) fun o => .done o
  | .done _ => .stop
  | .fail => .stop

/-- A protocol instance: its ID, the jobs which provide its inputs, and the protocol. -/
structure Job (O : Type) where
  id : ProtocolID
  deps : List Nat
  proto : Proto O

/-- A message with the number of the job which sent it (history information). -/
structure TMsg where
  tag : Nat
  msg : RMsg
deriving DecidableEq

/-- State of all parties and of the messages under way. `sent j p q` is what job `j` of `p` has sent to `q`; `got q` is what
`q` has received, with the number of the receiving job. -/
structure Sys (O : Type) where
  loc : Nat → Nat → TState O
  chan : Nat → Nat → List TMsg
  inbox : Nat → List TMsg
  sent : Nat → Nat → Nat → List (List Nat)
  got : Nat → List (Nat × TMsg)

/-- Before the first step. -/
def Sys.start : Sys O := ⟨fun _ _ => .idle, fun _ _ => [], fun _ => [], fun _ _ _ => [], fun _ => []⟩

/-- A step: of job `j` of party `p`, or the delivery of the next message from `p` to `q`. -/
inductive SysStep
  | act (p j : Nat)
  | deliver (p q : Nat)
deriving DecidableEq

/-- The recipient exists. -/
def Recipient.known (n : Nat) : Recipient → Bool
  | .one q => q < n
  | .all => true

/-- The first message with ID `id`, and the rest (`mssg_pool`, `src/protocol/network.rs:404-414`). -/
def takeFirst (id : ProtocolID) : List TMsg → Option (TMsg × List TMsg)
  | [] => none
  | m :: l => if m.msg.protoId = id then some (m, l) else (takeFirst id l).map fun r => (r.1, m :: r.2)

/-- The results of party `p`. -/
def Sys.env (s : Sys O) (p : Nat) : Env O := fun j =>
  match s.loc p j with
  | .done o => some o
  | _ => none

/-- The part of the results which a job is given. -/
def Env.only (env : Env O) (deps : List Nat) : Env O := fun d => if d ∈ deps then env d else none

/-- A party's job can be started or is running. -/
def Job.ready (j : Job O) (env : Env O) : Bool := j.deps.all fun d => (env d).isSome

/-- Changing the state of job `j` of party `p`. -/
def setLoc (loc : Nat → Nat → TState O) (p j : Nat) (t : TState O) : Nat → Nat → TState O :=
  fun a b => if a = p ∧ b = j then t else loc a b

/-- The effect of a step of job `j`, which is `job`, of party `p`. -/
def Sys.actStep (n : Nat) (s : Sys O) (p j : Nat) (job : Job O) : Option (Sys O) :=
  if job.ready (s.env p) then
    match job.proto.act n p ((s.env p).only job.deps) (s.loc p j) with
    | .send dest data next =>
      if dest.known n then
        some { s with
          loc := setLoc s.loc p j next
          chan := fun a b => if a = p ∧ dest.includes b then s.chan a b ++ [⟨j, ⟨job.id, p, data⟩⟩] else s.chan a b
          sent := fun i a b => if i = j ∧ a = p ∧ dest.includes b then s.sent i a b ++ [data] else s.sent i a b }
      else none
    | .recv next =>
      match takeFirst job.id (s.inbox p) with
      | none => none
      | some (m, rest) =>
        some { s with
          loc := setLoc s.loc p j (next m.msg)
          inbox := Function.update s.inbox p rest
          got := Function.update s.got p (s.got p ++ [(j, m)]) }
    | .tau next => some { s with loc := setLoc s.loc p j next }
    | .stop => none
  else none

/-- The effect of a step; `none`: it is not possible (`src/protocol/mod.rs:84-95`, `src/protocol/network.rs:377-422`). -/
def Sys.step (n : Nat) (jobs : List (Job O)) (s : Sys O) : SysStep → Option (Sys O)
  | .act p j =>
    if p < n then
      match jobs[j]? with
      | none => none
      | some job => s.actStep n p j job
    else none
  | .deliver p q =>
    if p < n ∧ q < n then
      match s.chan p q with
      | [] => none
      | m :: rest =>
        some { s with
          chan := fun a b => if a = p ∧ b = q then rest else s.chan a b
          inbox := Function.update s.inbox q (s.inbox q ++ [m]) }
    else none

/-- A sequence of steps. -/
def Sys.run (n : Nat) (jobs : List (Job O)) (s : Sys O) : List SysStep → Option (Sys O)
  | [] => some s
  | e :: es => (s.step n jobs e).bind fun s => s.run n jobs es

end Verif
