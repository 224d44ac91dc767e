import Verif.AsyncBench

/-!
# Processes which end

The benchmark programs run everything on a current-thread runtime, `src/bin/preproc.rs:215-219`, `src/bin/garble.rs:211-215`:
when `benchmark` returns, `block_on` returns, the runtime is dropped together with the tasks which forward messages, and
the process ends.  Messages which `send_router` and `party_sender` have not written to the connections by then are lost.
-/

namespace Verif

variable {O : Type}

/-- The parties whose processes have ended, and the rest of the state. -/
structure XSys (O : Type) where
  sys : Sys O
  gone : Nat → Bool

/-- Before the first step. -/
def XSys.start : XSys O := ⟨Sys.start, fun _ => false⟩

/-- A step of a party or of the network, or party `p`'s process ends when the first `keep q` of its messages to `q` which
are under way have been written. -/
inductive XStep
  | sys (e : SysStep)
  | exit (p : Nat) (keep : Nat → Nat)

/-- Party `p` has finished all jobs. -/
def Sys.allDone (s : Sys O) (jobs : List (Job O)) (p : Nat) : Bool :=
  (List.range jobs.length).all fun j => (s.env p j).isSome

/-- The step is one of a process which has ended. -/
def XSys.ended (x : XSys O) : SysStep → Bool
  | .act p _ => x.gone p
  | .deliver _ _ => false

/-- The effect of a step. -/
def XSys.step (n : Nat) (jobs : List (Job O)) (x : XSys O) : XStep → Option (XSys O)
  | .sys e =>
    if x.ended e = true then none else (x.sys.step n jobs e).map fun s => { x with sys := s }
  | .exit p keep =>
    if p < n ∧ x.gone p = false ∧ x.sys.allDone jobs p = true then
      some ⟨{ x.sys with chan := fun a b => if a = p ∧ b ≠ p then (x.sys.chan a b).take (keep b) else x.sys.chan a b },
        fun q => if q = p then true else x.gone q⟩
    else none

/-- A sequence of steps. -/
def XSys.run (n : Nat) (jobs : List (Job O)) (x : XSys O) : List XStep → Option (XSys O)
  | [] => some x
  | e :: es => (x.step n jobs e).bind fun x => x.run n jobs es

/-- No step is possible. -/
def XSys.Stuck (n : Nat) (jobs : List (Job O)) (x : XSys O) : Prop := ∀ e, x.step n jobs e = none

/-- Whenever a process ends, all its messages have been written. -/
def Lossless (n : Nat) (jobs : List (Job O)) : XSys O → List XStep → Prop
  | _, [] => True
  | x, .sys e :: es => ∀ x', x.step n jobs (.sys e) = some x' → Lossless n jobs x' es
  | x, .exit p keep :: es => (∀ q, (x.sys.chan p q).length ≤ keep q) ∧
      ∀ x', x.step n jobs (.exit p keep) = some x' → Lossless n jobs x' es

/-! ## The end of party 0 with `--save` -/

/-- Steps of the programs with `--save`.  From the moment when `message_from_each_party` returns at party 0, its task does not
wait any more: it writes the file, hands "done" to the network and returns (`src/bin/preproc.rs:171-187`,
`src/bin/garble.rs:167-183`).  No other task of this process runs in between, so this is one step, `finish`, and "done" does
not leave the process. -/
inductive SStep
  | sys (e : SysStep)
  | finish

/-- Party 0 has received the measurements of all parties; `last` is the number of the job `saveProto`. -/
def Sys.collected (n : Nat) (s : Sys O) (last : Nat) : Bool :=
  match s.loc 0 last with
  | .gather g => g.counter = n
  | _ => false

/-- The effect of a step. -/
def saveStep (n : Nat) (jobs : List (Job O)) (last : Nat) (x : XSys O) : SStep → Option (XSys O)
  | .sys e =>
    if x.ended e = true ∨ (e = .act 0 last ∧ x.sys.collected n last = true) then none
    else (x.sys.step n jobs e).map fun s => { x with sys := s }
  | .finish =>
    if x.gone 0 = false ∧ x.sys.collected n last = true then some { x with gone := fun q => if q = 0 then true else x.gone q }
    else none

/-- A sequence of steps. -/
def saveRun (n : Nat) (jobs : List (Job O)) (last : Nat) (x : XSys O) : List SStep → Option (XSys O)
  | [] => some x
  | e :: es => (saveStep n jobs last x e).bind fun x => saveRun n jobs last x es

end Verif
