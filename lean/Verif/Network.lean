import Verif.ProtoId
import Verif.GF

/-!
# Model of `src/protocol/network.rs`

* framing: `party_sender`, `party_receiver` and the `vint64` length prefix;
* the receive router, as a transition function on arrivals, requests and cancellations;
* `message_from_each_party`, as a fold over the arriving messages;
* the forwarding tasks of the local network and of the TCP network, as transition relations in which every
  task can take its next step at any time;
* statistics, and the stream table built by `connect_to_peers`.
-/

namespace Verif

/-! ## Framing -/

/-- `vint64::encoded_len`: 7 bits per byte, 9 bytes from 57 bits on. -/
def vintLen (v : Nat) : Nat :=
  if v < 2 ^ 7 then 1 else if v < 2 ^ 14 then 2 else if v < 2 ^ 21 then 3 else if v < 2 ^ 28 then 4
  else if v < 2 ^ 35 then 5 else if v < 2 ^ 42 then 6 else if v < 2 ^ 49 then 7 else if v < 2 ^ 56 then 8 else 9

/-- `vint64::encode`. -/
def vintEncode (v : Nat) : List Nat :=
  let len := vintLen v
  if len = 9 then 0 :: leBytes 8 v else leBytes len ((v * 2 + 1) * 2 ^ (len - 1))

/-- `u8::trailing_zeros` (8 for 0). -/
def trailingZeros (b : Nat) : Nat :=
  if b % 2 = 1 then 0 else if b % 4 = 2 then 1 else if b % 8 = 4 then 2 else if b % 16 = 8 then 3
  else if b % 32 = 16 then 4 else if b % 64 = 32 then 5 else if b % 128 = 64 then 6
  else if b % 256 = 128 then 7 else 8

/-- `vint64::decoded_len`. -/
def vintDecodedLen (b : Nat) : Nat := trailingZeros b + 1

/-- `vint64::decode` of exactly `decoded_len` bytes; `none` for a non-canonical encoding. -/
def vintDecode (bytes : List Nat) : Option Nat :=
  match bytes with
  | [] => none
  | b :: rest =>
    let len := vintDecodedLen b
    let v := if len = 9 then ofLeBytes rest else ofLeBytes bytes / 2 ^ len
    if len = 1 ∨ 2 ^ (7 * (len - 1)) ≤ v then some v else none

/-- A message as seen by the forwarding tasks: protocol ID and data. -/
structure NetMsg where
  protoId : ProtocolID
  data : List Nat
deriving DecidableEq

/-- The bytes `party_sender` writes for a message, `src/protocol/network.rs:318-337`; panics for IDs of more
than 255 bytes. -/
def encodeFrame (m : NetMsg) : Option (List Nat) :=
  if m.protoId.length ≤ 255 then
    some (vintEncode (m.protoId.length + m.data.length + 1) ++ m.protoId.length :: (m.protoId ++ m.data))
  else none

/-- The bytes written for a sequence of messages. -/
def encodeFrames : List NetMsg → Option (List Nat)
  | [] => some []
  | m :: ms => (encodeFrame m).bind fun a => (encodeFrames ms).map fun b => a ++ b

/-- What `party_receiver` does next, `src/protocol/network.rs:347-375`, given the bytes which have arrived. -/
inductive RecvStep
  /-- The bytes of the next message are not all there yet (the task waits; if the stream ends here, it
  ends silently if nothing of the message has arrived and panics otherwise). -/
  | wait
  /-- Decoding error or slice out of bounds. -/
  | panic
  /-- A message, and the bytes after it. -/
  | message (m : NetMsg) (rest : List Nat)
deriving DecidableEq

def recvFrame (bytes : List Nat) : RecvStep :=
  match bytes with
  | [] => .wait
  | b :: _ =>
    let encLen := vintDecodedLen b
    if bytes.length < encLen then .wait
    else match vintDecode (bytes.take encLen) with
      | none => .panic
      | some len =>
        let body := bytes.drop encLen
        if body.length < len then .wait
        else match body.take len with
          | [] => .panic
          | idLen :: mssg =>
            if idLen ≤ mssg.length then
              .message ⟨mssg.take idLen, mssg.drop idLen⟩ (body.drop len)
            else .panic

/-- The messages `party_receiver` extracts from a byte stream, and what is left (at most `fuel` messages). -/
def recvFrames : Nat → List Nat → Option (List NetMsg × List Nat)
  | 0, bytes => some ([], bytes)
  | fuel + 1, bytes =>
    match recvFrame bytes with
    | .wait => some ([], bytes)
    | .panic => none
    | .message m rest => (recvFrames fuel rest).map fun (ms, r) => (m :: ms, r)

/-! ## The receive router -/

/-- `struct ReceivedMessage`, `src/protocol/network.rs:27-32`. -/
structure RMsg where
  protoId : ProtocolID
  sender : Nat
  data : List Nat
deriving DecidableEq

/-- What can happen to the router: a message arrives (`party_out_r`), a request arrives (`net_out_r`), or
the future of a request which has not been answered is dropped, which closes its oneshot channel. -/
inductive REvent
  | arrive (m : RMsg)
  | request (id : ProtocolID) (h : Nat)
  | cancel (h : Nat)

/-- State of `receive_router`, `src/protocol/network.rs:383-384`; `answered` lists what was sent on the
oneshot channels (handle and message), newest last, `dropped` the handles which were thrown away (their
`recv` panics). -/
structure Router where
  mssgPool : ProtocolID → Option (List RMsg)
  handlePool : ProtocolID → Option Nat
  cancelled : List Nat
  answered : List (Nat × RMsg)
  dropped : List (ProtocolID × Nat)

def Router.init : Router := ⟨fun _ => none, fun _ => none, [], [], []⟩

/-- One round of the `select!` loop, `src/protocol/network.rs:386-419`; `none` is a panic of the task
(`handle.send(..).unwrap()` on a closed channel, `pop_front().unwrap()` of an empty buffer). -/
def Router.step (s : Router) : REvent → Option Router
  | .arrive m =>
    match s.handlePool m.protoId with
    | some h =>
      if h ∈ s.cancelled then none
      else some { s with
        handlePool := Function.update s.handlePool m.protoId none
        answered := s.answered ++ [(h, m)] }
    | none =>
      some { s with
        mssgPool := Function.update s.mssgPool m.protoId (some ((s.mssgPool m.protoId).getD [] ++ [m])) }
  | .request id h =>
    match s.mssgPool id with
    | some buf =>
      match buf with
      | [] => none
      | m :: buf =>
        if h ∈ s.cancelled then none
        else some { s with
          mssgPool := Function.update s.mssgPool id (if buf = [] then none else some buf)
          answered := s.answered ++ [(h, m)] }
    | none =>
      some { s with
        handlePool := Function.update s.handlePool id (some h)
        dropped := s.dropped ++ (s.handlePool id).toList.map fun h' => (id, h') }
  | .cancel h => some { s with cancelled := h :: s.cancelled }

/-- The router after a sequence of events; `none` once it has panicked. -/
def Router.run (s : Router) : List REvent → Option Router
  | [] => some s
  | e :: es => (s.step e).bind fun s => s.run es

/-! ## `message_from_each_party` -/

/-- State of the loop, `src/protocol/network.rs:196-198`. -/
structure Gather where
  mssgs : List (List Nat)
  hasSent : List Bool
  counter : Nat

def Gather.init (n : Nat) : Gather := ⟨List.replicate n [], List.replicate n false, 0⟩

/-- One iteration, `src/protocol/network.rs:201-206`; indexing with an unknown sender panics. -/
def Gather.step (g : Gather) (m : RMsg) : Option Gather :=
  match g.hasSent[m.sender]? with
  | none => none
  | some true => some g
  | some false => some ⟨g.mssgs.set m.sender m.data, g.hasSent.set m.sender true, g.counter + 1⟩

/-- Result of running the loop on the messages which arrive. -/
inductive GatherRes
  | pending
  | panic
  | done (mssgs : List (List Nat)) (rest : List RMsg)
deriving DecidableEq

/-- The loop, `src/protocol/network.rs:200-209`, on the messages which arrive for the protocol ID. -/
def Gather.run (n : Nat) (g : Gather) : List RMsg → GatherRes
  | [] => if g.counter = n then .done g.mssgs [] else .pending
  | m :: ms => if g.counter = n then .done g.mssgs (m :: ms) else
    match g.step m with
    | none => .panic
    | some g => Gather.run n g ms

/-- `message_from_each_party`. -/
def messageFromEachParty (n : Nat) (ms : List RMsg) : GatherRes := Gather.run n (Gather.init n) ms

/-! ## Forwarding tasks -/

/-- `enum Recipient`, `src/protocol/network.rs:14-18`. -/
inductive Recipient
  | one (p : Nat)
  | all
deriving DecidableEq

/-- `struct SendMessage`, `src/protocol/network.rs:20-25`. -/
structure SMsg where
  protoId : ProtocolID
  dest : Recipient
  data : List Nat
deriving DecidableEq

/-- Whether party `j` is a recipient. -/
def Recipient.includes (r : Recipient) (j : Nat) : Bool :=
  match r with
  | .one p => p = j
  | .all => true

/-- State of the local network, `src/protocol/network.rs:122-173`: the queues `net_inp`, the queue of the
global router and the queues `party_out`. -/
structure LocalNet where
  netInp : Nat → List SMsg
  router : List (Nat × SMsg)
  partyOut : Nat → List RMsg

def LocalNet.init : LocalNet := ⟨fun _ => [], [], fun _ => []⟩

/-- Steps of the local network. `send` is `ProtoHandle::send` of a party. -/
inductive LStep
  | send (p : Nat) (m : SMsg)
  | forward (p : Nat)
  | route

/-- `src/protocol/network.rs:136-140`, `149-170`; `none`: the step is not possible (empty queue) or panics
(unknown recipient). -/
def LocalNet.step (n : Nat) (s : LocalNet) : LStep → Option LocalNet
  | .send p m => if p < n then some { s with netInp := Function.update s.netInp p (s.netInp p ++ [m]) } else none
  | .forward p =>
    match s.netInp p with
    | [] => none
    | m :: q => some { s with netInp := Function.update s.netInp p q, router := s.router ++ [(p, m)] }
  | .route =>
    match s.router with
    | [] => none
    | (p, m) :: q =>
      match m.dest with
      | .one j => if j < n then some { s with
          router := q, partyOut := Function.update s.partyOut j (s.partyOut j ++ [⟨m.protoId, p, m.data⟩]) } else none
      | .all => some { s with
          router := q
          partyOut := fun j => if j < n then s.partyOut j ++ [⟨m.protoId, p, m.data⟩] else s.partyOut j }

def LocalNet.run (n : Nat) (s : LocalNet) : List LStep → Option LocalNet
  | [] => some s
  | e :: es => (s.step n e).bind fun s => s.run n es

/-- State of the TCP network seen as a whole: the queues `net_inp` of all parties, the queues `party_inp`
of the party tasks, the byte streams, and the queues `party_out`. -/
structure TcpNet where
  netInp : Nat → List SMsg
  partyInp : Nat → Nat → List NetMsg
  stream : Nat → Nat → List Nat
  partyOut : Nat → List RMsg

def TcpNet.init : TcpNet := ⟨fun _ => [], fun _ _ => [], fun _ _ => [], fun _ => []⟩

inductive TStep
  | send (p : Nat) (m : SMsg)
  /-- `send_router` of party `p` handles a message. -/
  | route (p : Nat)
  /-- `party_sender` of party `p` for party `j` writes a message. -/
  | write (p j : Nat)
  /-- `party_receiver` of party `j` for party `p` reads a message. -/
  | read (p j : Nat)

/-- `send_router`, `src/protocol/network.rs:283-311`, `party_sender` and `party_receiver`; `none`: the step
is not possible, or panics. -/
def TcpNet.step (n : Nat) (s : TcpNet) : TStep → Option TcpNet
  | .send p m => if p < n then some { s with netInp := Function.update s.netInp p (s.netInp p ++ [m]) } else none
  | .route p =>
    match s.netInp p with
    | [] => none
    | m :: q =>
      let s := { s with netInp := Function.update s.netInp p q }
      let toParty (j : Nat) (s : TcpNet) : TcpNet :=
        if j = p then { s with partyOut := Function.update s.partyOut p (s.partyOut p ++ [⟨m.protoId, p, m.data⟩]) }
        else { s with partyInp := fun a b => if a = p ∧ b = j then s.partyInp a b ++ [⟨m.protoId, m.data⟩] else s.partyInp a b }
      match m.dest with
      | .one j => if j < n then some (toParty j s) else none
      | .all => some ((List.range n).foldl (fun s j => toParty j s) s)
  | .write p j =>
    match s.partyInp p j with
    | [] => none
    | m :: q => (encodeFrame m).map fun bytes => { s with
        partyInp := fun a b => if a = p ∧ b = j then q else s.partyInp a b
        stream := fun a b => if a = p ∧ b = j then s.stream a b ++ bytes else s.stream a b }
  | .read p j =>
    match recvFrame (s.stream p j) with
    | .wait => none
    | .panic => none
    | .message m rest => some { s with
        stream := fun a b => if a = p ∧ b = j then rest else s.stream a b
        partyOut := Function.update s.partyOut j (s.partyOut j ++ [⟨m.protoId, p, m.data⟩]) }

def TcpNet.run (n : Nat) (s : TcpNet) : List TStep → Option TcpNet
  | [] => some s
  | e :: es => (s.step n e).bind fun s => s.run n es

/-! ## Statistics -/

/-- `Stats::increment`, `src/protocol/network.rs:42-46`; indexing panics for unknown parties. -/
def statsIncrement (st : List (Nat × Nat)) (sender proto net : Nat) : Option (List (Nat × Nat)) :=
  (st[sender]?).map fun v => st.set sender (v.1 + proto, v.2 + net)

/-- The statistics after messages have arrived, `src/protocol/network.rs:389-391`. -/
def statsRun (st : List (Nat × Nat)) : List RMsg → Option (List (Nat × Nat))
  | [] => some st
  | m :: ms => (statsIncrement st m.sender m.data.length (m.data.length + m.protoId.length)).bind fun st => statsRun st ms

/-- `Stats::new`. -/
def statsNew (n : Nat) : List (Nat × Nat) := List.replicate n (0, 0)

/-- `Stats::party`, `src/protocol/network.rs:48-50`. -/
def statsParty (st : List (Nat × Nat)) (p : Nat) : Option (Nat × Nat) := st[p]?

/-- `Stats::total`, `src/protocol/network.rs:52-63`. -/
def statsTotal (st : List (Nat × Nat)) : Nat × Nat := st.foldl (fun a v => (a.1 + v.1, a.2 + v.2)) (0, 0)

/-- `Stats::now`, `src/lib.rs:25-35`. -/
def statsNow (st : List (Nat × Nat)) (n : Nat) : Option (List (Nat × Nat)) := (List.range n).mapM (statsParty st)

/-- `a - b` on `u64`, panics on underflow. -/
def usub (a b : Nat) : Option Nat := if b ≤ a then some (a - b) else none

/-- `Stats::elapsed` without the time, `src/lib.rs:37-46`. -/
def statsElapsed (start st : List (Nat × Nat)) : Option (List (Nat × Nat)) :=
  (List.range start.length).mapM fun i => (statsParty st i).bind fun v => (start[i]?).bind fun w =>
    (usub v.1 w.1).bind fun a => (usub v.2 w.2).map fun b => (a, b)

/-! ## Connecting -/

/-- A TCP connection, identified by the dialling and the accepting party. -/
structure Conn where
  dialer : Nat
  acceptor : Nat
deriving DecidableEq

/-- The table built by the accepting task of `connect_to_peers`, `src/protocol/network.rs:225-241`, from the
incoming connections in the order in which they are accepted: each announces its party ID first.
`num_parties - party_id - 1` underflows for IDs which are too big; more connections are not accepted. -/
def acceptTable (n p : Nat) (incoming : List Conn) : Option (List (Option Conn)) :=
  if n < p + 1 then none
  else if incoming.length < n - p - 1 then none
  else (incoming.take (n - p - 1)).foldlM (fun t c => if c.dialer < n then some (t.set c.dialer (some c)) else none)
    (List.replicate n none)

/-- The table of `connect_to_peers` of party `p`, `src/protocol/network.rs:212-274`. -/
def connectToPeers (n p : Nat) (incoming : List Conn) : Option (List (Option Conn)) :=
  (acceptTable n p incoming).bind fun t =>
    (List.range p).foldlM (fun t i => if i < n then some (t.set i (some ⟨p, i⟩)) else none) t

end Verif
