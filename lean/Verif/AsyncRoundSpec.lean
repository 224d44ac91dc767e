import Verif.AsyncSpec
import Verif.ProtoId

/-!
# Specification vocabulary for the number of communication rounds

If local computations take no time and every message takes at most one unit of time, then everything that happens between two points in time
`k` and `k + 1` is a round: the messages which are under way at `k` are delivered, and the tasks go on until they wait for messages again.
Messages sent in a round may be delivered in it, too; nothing is said about the order.
-/

namespace Verif

variable {O : Type}

/-- Every task has ended or waits for messages: only deliveries are possible. -/
def Sys.Blocked (n : Nat) (jobs : List (Job O)) (s : Sys O) : Prop := ∀ p j, s.step n jobs (.act p j) = none

/-- States after `k` rounds. -/
inductive AfterRounds (n : Nat) (jobs : List (Job O)) : Nat → Sys O → Prop
  | start {es : List SysStep} {s : Sys O} (run : Sys.start.run n jobs es = some s) (blocked : s.Blocked n jobs) : AfterRounds n jobs 0 s
  | round {k : Nat} {s s' : Sys O} {es : List SysStep} (before : AfterRounds n jobs k s) (run : s.run n jobs es = some s')
      (delivered : ∀ p < n, ∀ q < n, (s.chan p q).length ≤ es.count (.deliver p q)) (blocked : s'.Blocked n jobs) : AfterRounds n jobs (k + 1) s'

/-- States after `k` rounds in which nothing is faster than it has to be: a message arrives in the round after the one in which it is sent. -/
inductive LockStep (n : Nat) (jobs : List (Job O)) : Nat → Sys O → Prop
  | start {es : List SysStep} {s : Sys O} (run : Sys.start.run n jobs es = some s) (none : ∀ p q, SysStep.deliver p q ∉ es)
      (blocked : s.Blocked n jobs) : LockStep n jobs 0 s
  | round {k : Nat} {s s' : Sys O} {es : List SysStep} (before : LockStep n jobs k s) (run : s.run n jobs es = some s')
      (delivered : ∀ p < n, ∀ q < n, (s.chan p q).length = es.count (.deliver p q)) (blocked : s'.Blocked n jobs) : LockStep n jobs (k + 1) s'

/-- All parties have finished all jobs. -/
def Sys.AllFinished (n : Nat) (jobs : List (Job O)) (s : Sys O) : Prop := ∀ j < jobs.length, ∀ p < n, s.Finished p j

/-- Whatever the schedule, `k` rounds suffice; and `k - 1` do not suffice if every message takes as long as it may. -/
def TakesRounds (n : Nat) (jobs : List (Job O)) (k : Nat) : Prop :=
  (∀ s, AfterRounds n jobs k s → s.AllFinished n jobs) ∧ (∃ s, LockStep n jobs k s) ∧ ∀ i s, i < k → LockStep n jobs i s → ¬ s.AllFinished n jobs

/-- The number of rounds of `garble`, for the number of input blocks and the kinds of the gates: one for the random transformations, two
each for the transformations of output wires and of gate inputs, and two for each multiplication of a gate. -/
def garbleRoundsOf (inputs : Nat) (kinds : List GateKind) : Nat :=
  if GateKind.and ∈ kinds then 1 + 2 + 2 + 2 * 2
  else if kinds ≠ [] then 1 + 2 + 2 + 2
  else if inputs ≠ 0 then 1 + 2
  else 0

end Verif
