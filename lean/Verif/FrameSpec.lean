import Verif.Network

/-!
# Arbitrary bytes on a connection

What `party_receiver` does with bytes which need not come from `party_sender`, in pieces, and with limited memory.
-/

namespace Verif

/-- The messages which `party_receiver` passes on for the bytes which have arrived, `src/protocol/network.rs:347-375`, and the bytes which
it still holds; `none` if it has panicked.  At most `fuel` messages. -/
def recvRun : Nat → List Nat → List NetMsg × Option (List Nat)
  | 0, bytes => ([], some bytes)
  | fuel + 1, bytes =>
    match recvFrame bytes with
    | .wait => ([], some bytes)
    | .panic => ([], none)
    | .message m rest => (m :: (recvRun fuel rest).1, (recvRun fuel rest).2)

/-- All messages: each takes at least two bytes. -/
def recvBytes (bytes : List Nat) : List NetMsg × Option (List Nat) := recvRun bytes.length bytes

/-- Another piece of the stream arrives. -/
def recvPiece (s : List NetMsg × Option (List Nat)) (piece : List Nat) : List NetMsg × Option (List Nat) :=
  match s.2 with
  | none => s
  | some held => (s.1 ++ (recvBytes (held ++ piece)).1, (recvBytes (held ++ piece)).2)

/-- The bytes of a message. -/
def NetMsg.Bytes (m : NetMsg) : Prop := (∀ b ∈ m.protoId, b < 256) ∧ ∀ b ∈ m.data, b < 256

/-- The length which the header of the next message announces, `src/protocol/network.rs:348-357`; `none` if the header is not complete or no header. -/
def announced (bytes : List Nat) : Option Nat :=
  match bytes with
  | [] => none
  | b :: _ => if bytes.length < vintDecodedLen b then none else vintDecode (bytes.take (vintDecodedLen b))

/-- How things stand on a connection when allocations can fail. -/
inductive MemEnd
  /-- The task holds these bytes and waits for more. -/
  | held (bytes : List Nat)
  /-- The task has panicked: nothing more is read from this connection. -/
  | panicked
  /-- The allocation has failed: the process has been aborted. -/
  | aborted
deriving DecidableEq

/-- `party_receiver` where allocations of more than `M` bytes fail, which aborts the process, and `vec![0; n]` panics (capacity overflow) from `n = 2^63` on.
`vec![0; mssg_len]`, `src/protocol/network.rs:360`, comes before any byte of the message is read. -/
def recvRunMem (M : Nat) : Nat → List Nat → List NetMsg × MemEnd
  | 0, bytes => ([], .held bytes)
  | fuel + 1, bytes =>
    if ∃ len ∈ announced bytes, 2 ^ 63 ≤ len then ([], .panicked)
    else if ∃ len ∈ announced bytes, M < len then ([], .aborted)
    else match recvFrame bytes with
      | .wait => ([], .held bytes)
      | .panic => ([], .panicked)
      | .message m rest => (m :: (recvRunMem M fuel rest).1, (recvRunMem M fuel rest).2)

/-- All messages, as in `recvBytes`. -/
def recvMem (M : Nat) (bytes : List Nat) : List NetMsg × MemEnd := recvRunMem M bytes.length bytes

/-- The number of bytes which `party_receiver` allocates for a message. -/
def NetMsg.size (m : NetMsg) : Nat := m.protoId.length + m.data.length + 1

end Verif
