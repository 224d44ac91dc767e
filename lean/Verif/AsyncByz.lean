import Verif.Async

/-!
# Parties which send whatever they like

The parties in `Cs` do not follow the protocols: at any time they may send anything with any protocol ID to anybody.  The others follow the
protocols.  Bytes which are no message end the task which reads this connection (`party_receiver`, `src/protocol/network.rs:347-374`), which is the
same as sending nothing any more; since a message gets its sender from the connection over which it comes (lines 366-370), nobody can send
messages in the name of others.
-/

namespace Verif

variable {O : Type}

/-- A step of a party which follows the protocols or of the network, or party `p` sends something to `q`. -/
inductive ByzStep
  | sys (e : SysStep)
  | inject (p q : Nat) (id : ProtocolID) (data : List Nat)

/-- The effect. -/
def Sys.byzStep (n : Nat) (jobs : List (Job O)) (Cs : Finset Nat) (s : Sys O) : ByzStep → Option (Sys O)
  | .sys (.act p j) => if p ∈ Cs then none else s.step n jobs (.act p j)
  | .sys (.deliver p q) => s.step n jobs (.deliver p q)
  | .inject p q id data =>
    if p ∈ Cs ∧ p < n ∧ q < n then
      some { s with chan := fun a b => if a = p ∧ b = q then s.chan a b ++ [⟨jobs.length, ⟨id, p, data⟩⟩] else s.chan a b }
    else none

/-- A sequence of steps. -/
def Sys.byzRun (n : Nat) (jobs : List (Job O)) (Cs : Finset Nat) (s : Sys O) : List ByzStep → Option (Sys O)
  | [] => some s
  | e :: es => (s.byzStep n jobs Cs e).bind fun s => s.byzRun n jobs Cs es

end Verif
