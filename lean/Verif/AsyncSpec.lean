import Verif.Async
import Mathlib.Logic.Relation

/-!
# Specification vocabulary for asynchronous executions
-/

namespace Verif

variable {O : Type}

/-! ## Sequential execution -/

/-- The only message for `q`. -/
def theMessage (q : Nat) (l : List (Recipient × List Nat)) : Option (List Nat) :=
  match l.filter fun a => a.1.includes q with
  | [a] => some a.2
  | _ => none

/-- A protocol run in which the parties act in turn and every message is delivered at once: the results of the parties,
given what each of them knows.  With a leader, every party sends one message to it, and it answers all parties; without,
every party sends one message to each party. -/
def Proto.round (n : Nat) (P : Proto O) (envs : Nat → Env O) : Option (List O) :=
  ((List.range n).mapM fun p => P.sends p (envs p)).bind fun sent =>
  if sent.all (fun l => l.all fun a => a.1.known n) = true then
    match P.leader with
    | none => (List.range n).mapM fun q => (sent.mapM (theMessage q)).bind fun ms => P.finish q (envs q) ms
    | some L =>
      if L < n ∧ sent.all (fun l => l.all fun a => a.1 = .one L) = true then
        (sent.mapM (theMessage L)).bind fun ms => (P.answer (envs L) ms).bind fun rs =>
        if rs.length = n then (List.range n).mapM fun q => (rs[q]?).bind fun r => P.finish q (envs q) [r] else none
      else none
  else none

/-- What a job of party `p` is given, when `outs` are the results of the first jobs. -/
def seqEnv (outs : List (List O)) (deps : List Nat) (p : Nat) : Env O :=
  fun d => if d ∈ deps then (outs[d]?).bind fun o => o[p]? else none

/-- Jobs one after the other; `outs` are the results of the jobs before. -/
def seqFrom (n : Nat) : List (Job O) → List (List O) → Option (List (List O))
  | [], outs => some outs
  | job :: rest, outs =>
    if job.deps.all (fun d => d < outs.length) = true then
      (job.proto.round n (seqEnv outs job.deps)).bind fun o => seqFrom n rest (outs ++ [o])
    else none

/-- All jobs, one after the other: the results, by job and party. -/
def seqRun (n : Nat) (jobs : List (Job O)) : Option (List (List O)) := seqFrom n jobs []

/-! ## Schedules -/

/-- Job `i` has to be finished before job `j` starts. -/
def Before (jobs : List (Job O)) : Nat → Nat → Prop :=
  Relation.TransGen fun a b => ∃ job, jobs[b]? = some job ∧ a ∈ job.deps

/-- An ID is only used again when there is a job without a leader in between. -/
def IdsOk (jobs : List (Job O)) : Prop :=
  ∀ (i j : Nat) (a b : Job O), jobs[i]? = some a → jobs[j]? = some b → i < j → a.id = b.id →
    ∃ (k : Nat) (c : Job O), jobs[k]? = some c ∧ c.proto.leader = none ∧ Before jobs i k ∧ Before jobs k j

/-- Party `p` has finished job `j`. -/
def Sys.Finished (s : Sys O) (p j : Nat) : Prop := ∃ o, s.loc p j = .done o

/-- Party `p` has started job `j`. -/
def Sys.Started (s : Sys O) (p j : Nat) : Prop := s.loc p j ≠ .idle

/-- No step is possible. -/
def Sys.Stuck (n : Nat) (jobs : List (Job O)) (s : Sys O) : Prop := ∀ e, s.step n jobs e = none

/-- Every schedule leads to the results `outs` (by job and party): no schedule goes on forever; no task panics; finished
jobs have the given results; and when no step is possible all jobs are finished. -/
def ScheduleFree (n : Nat) (jobs : List (Job O)) (outs : List (List O)) : Prop :=
  (∃ B, ∀ (es : List SysStep) (s : Sys O), Sys.start.run n jobs es = some s → es.length ≤ B) ∧
  ∀ (es : List SysStep) (s : Sys O), Sys.start.run n jobs es = some s → ∀ j < jobs.length, ∀ p < n,
    s.loc p j ≠ .fail ∧ (∀ o, s.loc p j = .done o → (outs[j]?).bind (fun l => l[p]?) = some o) ∧
    (s.Stuck n jobs → s.Finished p j)

end Verif
