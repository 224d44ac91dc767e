import Verif.AsyncProto

/-!
# The loop of the benchmark programs

`benchmark` (`src/bin/preproc.rs:65-192`, `src/bin/garble.rs:49-188`) repeats: `sync`, then one run of `preproc` or `garble`,
always with the same protocol IDs.  After the loop the parties may send their measurements to party 0, which answers.
Connections, measuring and printing are left out.
-/

namespace Verif

variable {O : Type}

/-- A protocol whose jobs start with number `off` (and which sees the results of these only). -/
def Proto.shift (off : Nat) (P : Proto O) : Proto O where
  leader := P.leader
  sends p env := P.sends p fun d => env (off + d)
  answer env ms := P.answer (fun d => env (off + d)) ms
  finish p env ms := P.finish p (fun d => env (off + d)) ms

/-- A job of a list of jobs which starts with number `off` and whose jobs wait for the jobs `wait`. -/
def Job.shift (off : Nat) (wait : List Nat) (j : Job O) : Job O := ⟨j.id, wait ++ j.deps.map (off + ·), j.proto.shift off⟩

/-- The iterations of the loop, `src/bin/preproc.rs:114-126`, `src/bin/garble.rs:114-122`, after `off` jobs: `sync` is called
when everything before has returned, and the jobs of the body are started when `sync` has returned.  `bodies` are the jobs
of the calls of `preproc` or `garble`. -/
def benchLoop (bid : ProtocolID) (o : O) : Nat → List (List (Job O)) → List (Job O)
  | _, [] => []
  | off, body :: rest =>
    ⟨bid, List.range off, syncProto o⟩ :: body.map (Job.shift (off + 1) [off]) ++ benchLoop bid o (off + 1 + body.length) rest

/-- `b"done"`. -/
def doneData : List Nat := [100, 111, 110, 101]

/-- Sending the measurements `data` to party 0, `src/bin/preproc.rs:146-191`, `src/bin/garble.rs:142-187`.  Party 0's message
"done" to itself is not received in the code; here it is. -/
def saveProto (o : O) (data : Nat → List Nat) : Proto O where
  leader := some 0
  sends p _ := some [(.one 0, data p)]
  answer _ ms := some (ms.map fun _ => doneData)
  finish _ _ _ := some o

/-- The whole program, with or without `--save`; the ID is the one of `sync`. -/
def benchJobs (bid : ProtocolID) (o : O) (save : Option (Nat → List Nat)) (bodies : List (List (Job O))) : List (Job O) :=
  benchLoop bid o 0 bodies ++
    match save with
    | none => []
    | some data => [⟨bid, List.range (benchLoop bid o 0 bodies).length, saveProto o data⟩]

/-- The number of the first job of iteration `r` (its `sync`). -/
def benchStart (bodies : List (List (Job O))) (r : Nat) : Nat := ((bodies.take r).map fun b => b.length + 1).sum

/-- The results of the body of iteration `r`. -/
def benchEnv (bodies : List (List (Job O))) (env : Env O) (r : Nat) : Env O := fun d => env (benchStart bodies r + 1 + d)

/-- `b"benchmark communication protocol"`, `src/bin/preproc.rs:111`. -/
def preprocBenchId : ProtocolID :=
  [98, 101, 110, 99, 104, 109, 97, 114, 107, 32, 99, 111, 109, 109, 117, 110, 105, 99, 97, 116, 105, 111, 110, 32,
   112, 114, 111, 116, 111, 99, 111, 108]

/-- `b"garble_benchmark"`, `src/bin/garble.rs:95`. -/
def garbleBenchId : ProtocolID := [103, 97, 114, 98, 108, 101, 95, 98, 101, 110, 99, 104, 109, 97, 114, 107]

end Verif
