import Verif.Async

/-!
# Asynchronous execution over the TCP network

`Verif.Async` takes the network and the router of a party as a per-pair FIFO channel and an inbox.  Here the parties' tasks
run together with all tasks of `src/protocol/network.rs`: `send_router`, `party_sender`, `party_receiver` and
`receive_router`, each of which can take its next step at any time.

* A message goes from `net_inp` through `send_router` to `party_inp` (or, if it is for the party itself, to `party_out`), is
  encoded by `party_sender`, travels as bytes, of which arbitrary portions are written and arrive, is put together by
  `party_receiver`, and goes to `party_out`.
* `receive_router` takes messages from `party_out` and requests from `net_out`.
* `recv` hands a oneshot channel to the router and waits for it.  The channels are numbered in the order of the calls.

A step which is not possible, or in which the task panics, is `none`: a task which has panicked takes no steps.
-/

namespace Verif

/-- State of all parties and of the network between them. -/
structure Full (O : Type) where
  /-- Where the jobs of the parties are. -/
  loc : Nat → Nat → TState O
  /-- The oneshot channel which a job waits for. -/
  waits : Nat → Nat → Option Nat
  /-- Number of calls of `recv`. -/
  calls : Nat → Nat
  /-- `net_inp`. -/
  netInp : Nat → List SMsg
  /-- `party_inp`, by sender and recipient. -/
  partyInp : Nat → Nat → List NetMsg
  /-- What `party_sender` has not written of the message it is at. -/
  outBuf : Nat → Nat → List Nat
  /-- Bytes under way. -/
  wire : Nat → Nat → List Nat
  /-- Bytes which have arrived and have not been made a message. -/
  inBuf : Nat → Nat → List Nat
  /-- `party_out`. -/
  partyOut : Nat → List RMsg
  /-- `net_out`: requests, with the number of the oneshot channel. -/
  netOut : Nat → List (ProtocolID × Nat)
  /-- State of `receive_router`. -/
  router : Nat → Router
  /-- `Stats`. -/
  stats : Nat → List (Nat × Nat)

variable {O : Type}

/-- Before the first step; the connections are established. -/
def Full.start (n : Nat) : Full O :=
  ⟨fun _ _ => .idle, fun _ _ => none, fun _ => 0, fun _ => [], fun _ _ => [], fun _ _ => [], fun _ _ => [], fun _ _ => [],
    fun _ => [], fun _ => [], fun _ => Router.init, fun _ => statsNew n⟩

/-- Steps. -/
inductive FStep
  /-- Job `j` of party `p` computes, sends a message, or calls `recv`. -/
  | act (p j : Nat)
  /-- Job `j` of party `p` gets the message it waits for. -/
  | resume (p j : Nat)
  /-- `send_router` of party `p`. -/
  | route (p : Nat)
  /-- `party_sender` of party `p` for party `q` takes and encodes a message. -/
  | take (p q : Nat)
  /-- `party_sender` of party `p` for party `q` writes `k` bytes. -/
  | push (p q k : Nat)
  /-- `k` bytes from `p` reach `q`. -/
  | pull (p q k : Nat)
  /-- `party_receiver` of party `q` for party `p` completes a message. -/
  | parse (p q : Nat)
  /-- `receive_router` of party `p` takes a message. -/
  | arrive (p : Nat)
  /-- `receive_router` of party `p` takes a request. -/
  | request (p : Nat)

/-- The results of party `p`. -/
def Full.env (f : Full O) (p : Nat) : Env O := fun j =>
  match f.loc p j with
  | .done o => some o
  | _ => none

/-- Changing the value for one pair. -/
def upd2 {α : Type} (g : Nat → Nat → α) (p q : Nat) (v : α) : Nat → Nat → α := fun a b => if a = p ∧ b = q then v else g a b

/-- `ProtoHandle::send`, the first half of `ProtoHandle::recv`, or a local step: `src/protocol/mod.rs:87-93`. -/
def Full.actStep (n : Nat) (f : Full O) (p j : Nat) (job : Job O) : Option (Full O) :=
  if job.ready (f.env p) = true ∧ f.waits p j = none then
    match job.proto.act n p ((f.env p).only job.deps) (f.loc p j) with
    | .send dest data next => some { f with
        loc := setLoc f.loc p j next
        netInp := Function.update f.netInp p (f.netInp p ++ [⟨job.id, dest, data⟩]) }
    | .recv _ => some { f with
        waits := upd2 f.waits p j (some (f.calls p))
        calls := Function.update f.calls p (f.calls p + 1)
        netOut := Function.update f.netOut p (f.netOut p ++ [(job.id, f.calls p)]) }
    | .tau next => some { f with loc := setLoc f.loc p j next }
    | .stop => none
  else none

/-- The second half of `ProtoHandle::recv`, `src/protocol/mod.rs:94`: the message has been sent on channel `h`. -/
def Full.resumeStep (n : Nat) (f : Full O) (p j : Nat) (job : Job O) (h : Nat) : Option (Full O) :=
  match (f.router p).answered.find? fun a => a.1 = h with
  | none => none
  | some a =>
    match job.proto.act n p ((f.env p).only job.deps) (f.loc p j) with
    | .recv next => some { f with loc := setLoc f.loc p j (next a.2), waits := upd2 f.waits p j none }
    | _ => none

/-- `send_router` of party `p` with message `m`, `src/protocol/network.rs:284-310`. -/
def Full.routeStep (n : Nat) (f : Full O) (p : Nat) (m : SMsg) (rest : List SMsg) : Option (Full O) :=
  if m.dest.known n = true then some { f with
    netInp := Function.update f.netInp p rest
    partyInp := fun a b => if a = p ∧ b ≠ p ∧ b < n ∧ m.dest.includes b = true then f.partyInp a b ++ [⟨m.protoId, m.data⟩]
      else f.partyInp a b
    partyOut := if m.dest.includes p = true then Function.update f.partyOut p (f.partyOut p ++ [⟨m.protoId, p, m.data⟩])
      else f.partyOut }
  else none

/-- The effect of a step. -/
def Full.step (n : Nat) (jobs : List (Job O)) (f : Full O) : FStep → Option (Full O)
  | .act p j =>
    if p < n then
      match jobs[j]? with
      | none => none
      | some job => f.actStep n p j job
    else none
  | .resume p j =>
    if p < n then
      match jobs[j]?, f.waits p j with
      | some job, some h => f.resumeStep n p j job h
      | _, _ => none
    else none
  | .route p =>
    if p < n then
      match f.netInp p with
      | [] => none
      | m :: rest => f.routeStep n p m rest
    else none
  | .take p q =>
    if p < n ∧ q < n ∧ p ≠ q ∧ f.outBuf p q = [] then
      match f.partyInp p q with
      | [] => none
      | m :: rest => (encodeFrame m).map fun bytes => { f with
          partyInp := upd2 f.partyInp p q rest
          outBuf := upd2 f.outBuf p q bytes }
    else none
  | .push p q k =>
    if p < n ∧ q < n ∧ p ≠ q ∧ 0 < k ∧ k ≤ (f.outBuf p q).length then some { f with
      outBuf := upd2 f.outBuf p q ((f.outBuf p q).drop k)
      wire := upd2 f.wire p q (f.wire p q ++ (f.outBuf p q).take k) }
    else none
  | .pull p q k =>
    if p < n ∧ q < n ∧ p ≠ q ∧ 0 < k ∧ k ≤ (f.wire p q).length then some { f with
      wire := upd2 f.wire p q ((f.wire p q).drop k)
      inBuf := upd2 f.inBuf p q (f.inBuf p q ++ (f.wire p q).take k) }
    else none
  | .parse p q =>
    if p < n ∧ q < n ∧ p ≠ q then
      match recvFrame (f.inBuf p q) with
      | .message m rest => some { f with
          inBuf := upd2 f.inBuf p q rest
          partyOut := Function.update f.partyOut q (f.partyOut q ++ [⟨m.protoId, p, m.data⟩]) }
      | _ => none
    else none
  | .arrive p =>
    if p < n then
      match f.partyOut p with
      | [] => none
      | m :: rest =>
        (statsIncrement (f.stats p) m.sender m.data.length (m.data.length + m.protoId.length)).bind fun st =>
        ((f.router p).step (.arrive m)).map fun r => { f with
          partyOut := Function.update f.partyOut p rest
          router := Function.update f.router p r
          stats := Function.update f.stats p st }
    else none
  | .request p =>
    if p < n then
      match f.netOut p with
      | [] => none
      | a :: rest => ((f.router p).step (.request a.1 a.2)).map fun r => { f with
          netOut := Function.update f.netOut p rest
          router := Function.update f.router p r }
    else none

/-- A sequence of steps. -/
def Full.run (n : Nat) (jobs : List (Job O)) (f : Full O) : List FStep → Option (Full O)
  | [] => some f
  | e :: es => (f.step n jobs e).bind fun f => f.run n jobs es

/-- No step is possible. -/
def Full.Stuck (n : Nat) (jobs : List (Job O)) (f : Full O) : Prop := ∀ e, f.step n jobs e = none

end Verif
