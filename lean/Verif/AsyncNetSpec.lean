import Verif.AsyncNet
import Verif.AsyncSpec
import Mathlib.Algebra.Group.Prod

/-!
# Specification vocabulary for executions over the TCP network
-/

namespace Verif

variable {O : Type}

/-- What party `p` sends to `q` in a protocol run in which every message is delivered at once (`Proto.round`). -/
def Proto.between (n : Nat) (P : Proto O) (envs : Nat → Env O) (p q : Nat) : List (List Nat) :=
  ((((P.sends p (envs p)).getD []).filter fun a => a.1.includes q).map (·.2)) ++
  if P.leader = some p then
    (((List.range n).mapM fun r => (P.sends r (envs r)).bind (theMessage p)).bind fun ms =>
      (P.answer (envs p) ms).bind fun rs => rs[q]?).toList
  else []

/-- Every message of the sequential execution can be put on the network: the ID has at most 255 bytes, and the length is
below `2 ^ 64`. -/
def SizesOk (n : Nat) (jobs : List (Job O)) (outs : List (List O)) : Prop :=
  ∀ job ∈ jobs, job.id.length ≤ 255 ∧ ∀ p < n, ∀ q < n, ∀ d ∈ job.proto.between n (seqEnv outs job.deps) p q,
    job.id.length + d.length + 1 < 2 ^ 64

/-- Number of bytes which `p` sends to `q` in job `j` of the sequential execution, without and with the IDs. -/
def jobBytes (n : Nat) (jobs : List (Job O)) (outs : List (List O)) (p q j : Nat) : Nat × Nat :=
  match jobs[j]? with
  | none => (0, 0)
  | some job =>
    (((job.proto.between n (seqEnv outs job.deps) p q).map fun d => d.length).sum,
     ((job.proto.between n (seqEnv outs job.deps) p q).map fun d => d.length + job.id.length).sum)

/-- Every schedule of all tasks, of the parties and of their networks, leads to the results `outs` (by job and party): no
schedule goes on forever; no task panics; finished jobs have the given results; and when no step is possible all jobs are
finished. -/
def NetScheduleFree (n : Nat) (jobs : List (Job O)) (outs : List (List O)) : Prop :=
  (¬ ∃ g : Nat → Full O, g 0 = Full.start n ∧ ∀ i, ∃ e, (g i).step n jobs e = some (g (i + 1))) ∧
  ∀ (es : List FStep) (f : Full O), (Full.start n).run n jobs es = some f → ∀ j < jobs.length, ∀ p < n,
    f.loc p j ≠ .fail ∧ (∀ o, f.loc p j = .done o → (outs[j]?).bind (fun l => l[p]?) = some o) ∧
    (f.Stuck n jobs → ∃ o, f.loc p j = .done o)

end Verif
