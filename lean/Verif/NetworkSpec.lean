import Verif.Network

/-!
# Specification vocabulary for the network

Projections of event sequences: which requests were made and which messages arrived for an ID, what a party
sent to another one.
-/

namespace Verif

/-- The requests for `id`, in order. -/
def reqsOf (id : ProtocolID) (evs : List REvent) : List Nat :=
  evs.filterMap fun e => match e with
    | .request id' h => if id' = id then some h else none
    | _ => none

/-- The messages which arrived for `id`, in order. -/
def msgsOf (id : ProtocolID) (evs : List REvent) : List RMsg :=
  evs.filterMap fun e => match e with
    | .arrive m => if m.protoId = id then some m else none
    | _ => none

/-- The answers to requests for `id`, in order. -/
def Router.answersOf (s : Router) (id : ProtocolID) : List (Nat × RMsg) := s.answered.filter fun a => a.2.protoId = id

/-- The requests for `id` which were thrown away. -/
def Router.droppedOf (s : Router) (id : ProtocolID) : List Nat := (s.dropped.filter fun a => a.1 = id).map (·.2)

/-- The messages for `id` which are still queued. -/
def Router.queueOf (s : Router) (id : ProtocolID) : List RMsg := (s.mssgPool id).getD []

/-- No request is abandoned, and a request for an ID is only made when all earlier requests for that ID have
been answerable: what happens if every protocol ID is used by one sequential task. -/
def Sequential (evs : List REvent) : Prop :=
  (∀ h, REvent.cancel h ∉ evs) ∧
  ∀ pre id h post, evs = pre ++ .request id h :: post → (reqsOf id pre).length ≤ (msgsOf id pre).length

/-- What `p` sent to `j` (directly or to all), in order. -/
def sentTo (p j : Nat) (evs : List (Nat × SMsg)) : List NetMsg :=
  (evs.filter fun e => e.1 = p ∧ e.2.dest.includes j).map fun e => ⟨e.2.protoId, e.2.data⟩

/-- What `j`'s router got from `p`, in order. -/
def gotFrom (p : Nat) (out : List RMsg) : List NetMsg :=
  (out.filter fun m => m.sender = p).map fun m => ⟨m.protoId, m.data⟩

/-- The messages handed to the local network. -/
def LStep.sends (evs : List LStep) : List (Nat × SMsg) :=
  evs.filterMap fun e => match e with | .send p m => some (p, m) | _ => none

/-- The messages handed to the TCP network. -/
def TStep.sends (evs : List TStep) : List (Nat × SMsg) :=
  evs.filterMap fun e => match e with | .send p m => some (p, m) | _ => none

/-- A step of the network itself. -/
def LStep.internal : LStep → Bool
  | .send _ _ => false
  | _ => true

def TStep.internal : TStep → Bool
  | .send _ _ => false
  | _ => true

/-- A message which the TCP network can carry: known recipient, ID of at most 255 bytes, length below
`2 ^ 64`. -/
def SMsg.Ok (n : Nat) (m : SMsg) : Prop :=
  (∀ j, m.dest = .one j → j < n) ∧ m.protoId.length ≤ 255 ∧ m.protoId.length + m.data.length + 1 < 2 ^ 64

/-- First message of `p`. -/
def firstOf (p : Nat) (ms : List RMsg) : Option (List Nat) := (ms.find? fun m => m.sender = p).map (·.data)

/-- Sums of payload bytes and of payload and ID bytes of the messages of `p`. -/
def bytesFrom (p : Nat) (ms : List RMsg) : Nat × Nat :=
  (((ms.filter fun m => m.sender = p).map fun m => m.data.length).sum,
   ((ms.filter fun m => m.sender = p).map fun m => m.data.length + m.protoId.length).sum)

end Verif
