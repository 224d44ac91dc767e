import Verif.AsyncNet

/-!
# Failures

Tasks may panic or be cancelled, processes may crash and connections may break, at any time.  When a process crashes, all its tasks end, and
what it has not written to a connection is lost.  When a connection breaks, `party_receiver` ends (`src/protocol/network.rs:347`) without telling
anyone, and a message of which only a part has arrived is not passed on (lines 351-363); `party_sender` panics when it writes to the connection
(lines 332-336), then `send_router` panics (line 294 or 306), and then every task which sends a message panics (`src/protocol/mod.rs:88`).  The
model allows all this and more: any set of tasks may end, and any connections may break, independently of each other.
-/

namespace Verif

variable {O : Type}

/-- The state of the parties, the tasks which have ended by a failure, and the connections which are broken. -/
structure FailSys (O : Type) where
  sys : Sys O
  dead : Nat → Nat → Bool
  broken : Nat → Nat → Bool

/-- Before the first step. -/
def FailSys.start : FailSys O := ⟨Sys.start, fun _ _ => false, fun _ _ => false⟩

/-- A step of a party or of the network; task `j` of party `p` ends; the connection from `p` to `q` breaks, with only the first `keep` of the
messages which are under way being delivered. -/
inductive FailStep
  | sys (e : SysStep)
  | kill (p j : Nat)
  | cut (p q keep : Nat)

/-- Messages which are sent over broken connections are lost. -/
def FailSys.lose (x : FailSys O) (s : Sys O) : Sys O :=
  { s with chan := fun a b => if x.broken a b = true then x.sys.chan a b else s.chan a b }

/-- The effect of a step. -/
def FailSys.step (n : Nat) (jobs : List (Job O)) (x : FailSys O) : FailStep → Option (FailSys O)
  | .sys (.act p j) => if x.dead p j = true then none else (x.sys.step n jobs (.act p j)).map fun s => { x with sys := x.lose s }
  | .sys (.deliver p q) => (x.sys.step n jobs (.deliver p q)).map fun s => { x with sys := s }
  | .kill p j => some { x with dead := fun a b => if a = p ∧ b = j then true else x.dead a b }
  | .cut p q keep => some { x with
      sys := { x.sys with chan := fun a b => if a = p ∧ b = q then (x.sys.chan a b).take keep else x.sys.chan a b }
      broken := fun a b => if a = p ∧ b = q then true else x.broken a b }

/-- A sequence of steps. -/
def FailSys.run (n : Nat) (jobs : List (Job O)) (x : FailSys O) : List FailStep → Option (FailSys O)
  | [] => some x
  | e :: es => (x.step n jobs e).bind fun x => x.run n jobs es

/-- No step of a party or of the network is possible. -/
def FailSys.Stuck (n : Nat) (jobs : List (Job O)) (x : FailSys O) : Prop := ∀ e, x.step n jobs (.sys e) = none

/-- The number of steps of the parties and the network. -/
def progress (es : List FailStep) : Nat := es.countP fun e => match e with | .sys _ => true | _ => false

/-- The crash of party `p` in the very beginning: all its tasks end. -/
def crashAtStart (p numJobs : Nat) : List FailStep := (List.range numJobs).map fun j => .kill p j

/-! ## Failures over the TCP network

In `Verif.AsyncNet` every task of the parties and of their networks takes its steps separately.  A failure ends any of them: `ended` says which
steps are not taken any more.  If the process of party `p` crashes, these are all steps of its tasks; if the connection from `p` to `q` breaks,
these are `push p q` and `pull p q`, in the middle of a message or not, and whatever has not arrived is never seen by `q`. -/

/-- The state of all parties and the network, and the steps which are not taken any more. -/
structure FailNet (O : Type) where
  full : Full O
  ended : FStep → Bool

/-- Before the first step. -/
def FailNet.start (n : Nat) : FailNet O := ⟨Full.start n, fun _ => false⟩

/-- A step of a task, or a failure. -/
inductive NetFail
  | step (e : FStep)
  | fail (lost : FStep → Bool)

/-- The effect. -/
def FailNet.step (n : Nat) (jobs : List (Job O)) (x : FailNet O) : NetFail → Option (FailNet O)
  | .step e => if x.ended e = true then none else (x.full.step n jobs e).map fun f => { x with full := f }
  | .fail lost => some { x with ended := fun e => x.ended e || lost e }

/-- A sequence of steps. -/
def FailNet.run (n : Nat) (jobs : List (Job O)) (x : FailNet O) : List NetFail → Option (FailNet O)
  | [] => some x
  | e :: es => (x.step n jobs e).bind fun x => x.run n jobs es

/-- The crash of party `p`. -/
def crashSteps (p : Nat) : FStep → Bool
  | .act a _ => a = p
  | .resume a _ => a = p
  | .route a => a = p
  | .take a _ => a = p
  | .push a _ _ => a = p
  | .pull _ b _ => b = p
  | .parse _ b => b = p
  | .arrive a => a = p
  | .request a => a = p

/-- The break of the connection from `p` to `q`. -/
def cutSteps (p q : Nat) : FStep → Bool
  | .push a b _ => a = p ∧ b = q
  | .pull a b _ => a = p ∧ b = q
  | _ => false

end Verif
