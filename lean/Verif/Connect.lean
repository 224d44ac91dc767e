import Verif.Network

/-!
# Connecting when anybody may dial

`connect_to_peers` and `setup_tcp_network`, `src/protocol/network.rs:66-119`, `212-274`: a party takes the first `n - p - 1` connections to its
port, whoever makes them, and believes the number which each of them sends first.  In `Verif.Network` only the parties dial.
-/

namespace Verif

/-- What arrives first over a connection: nothing at all; the connection ends before two bytes have arrived; or a number of two bytes. -/
inductive Hello
  | silent
  | closed
  | id (k : Nat)
deriving DecidableEq

/-- A connection which somebody makes to the port of a party. -/
structure Dial where
  source : Nat
  hello : Hello
deriving DecidableEq

/-- An entry of the table of streams: the party has dialled this peer itself, or it has accepted a connection. -/
inductive Link
  | dialled (q : Nat)
  | accepted (d : Dial)
deriving DecidableEq

/-- How the setup ends: it waits for ever, it panics, or the network starts with these streams. -/
inductive SetupResult (α : Type)
  | waits
  | panics
  | ok (a : α)
deriving DecidableEq

/-- The accepting loop with `k` connections to go, `src/protocol/network.rs:231-241`: one connection after the other, `read_u16` waits for two bytes
and panics if the connection ends (`expect`), and an index which is not below the number of parties panics. -/
def acceptLoop (n : Nat) : Nat → List Dial → List (Option Link) → SetupResult (List (Option Link))
  | 0, _, t => .ok t
  | _ + 1, [], _ => .waits
  | k + 1, d :: ds, t =>
    match d.hello with
    | .silent => .waits
    | .closed => .panics
    | .id q => if q < n then acceptLoop n k ds (t.set q (some (.accepted d))) else .panics

/-- Party `p` of `n` enters the connections it has dialled itself, `src/protocol/network.rs:269-272`. -/
def enterDialled (p : Nat) (t : List (Option Link)) : List (Option Link) :=
  (List.range p).foldl (fun t i => t.set i (some (.dialled i))) t

/-- `setup_tcp_network` of party `p` of `n` up to the start of the tasks, `src/protocol/network.rs:66-105`: `addresses[party_id]` panics for unknown
numbers, and the assertion for entries of the table without a stream. -/
def setupStreams (n p : Nat) (incoming : List Dial) : SetupResult (List (Option Link)) :=
  if p < n then
    match acceptLoop n (n - p - 1) incoming (List.replicate n none) with
    | .waits => .waits
    | .panics => .panics
    | .ok t =>
      let t := enterDialled p t
      if (List.range n).all fun i => t[i]? != some none || i == p then .ok t else .panics
  else .panics

end Verif
