import Verif.Json

/-!
# What the benchmark programs save

`src/bin/preproc.rs:65-194` and `src/bin/garble.rs:62-190`.
-/

namespace Verif

/-- The options which are written to the file, with the number of parties, which is the number of lines of the network file. -/
structure BenchOpts where
  n : Nat
  t : Nat
  l : Nat
  circ : List Nat
  tau : Nat
  keyLen : Nat
  mssgLen : Nat
  reps : Nat
  threads : Nat

/-- What a party measures in one repetition: the time, and for each party the bytes received from it without and with IDs. -/
structure BenchRep where
  time : Nat
  comm : List (Nat × Nat)
deriving DecidableEq

/-- `src/bin/preproc.rs:138-143`, `src/bin/garble.rs:134-139`. -/
def BenchRep.json (r : BenchRep) : Json :=
  .obj [(ascii "time", .num r.time), (ascii "comm", .arr (r.comm.map fun c => .arr [.num c.1, .num c.2]))]

/-- `bench_data` of `src/bin/preproc.rs:112`. -/
def preprocData (reps : List BenchRep) : Json := .arr (reps.map BenchRep.json)

/-- `bench_data` of `src/bin/garble.rs:96-112`; the first member is set at line 102, the second at line 112. -/
def garbleData (onetime : Nat) (reps : List BenchRep) : Json :=
  .obj [(ascii "onetime_comp", .num onetime), (ascii "garbling", .arr (reps.map BenchRep.json))]

/-- `details`, `src/bin/preproc.rs:157-167`, `src/bin/garble.rs:153-163`. -/
def BenchOpts.details (o : BenchOpts) : Json :=
  .obj [(ascii "n", .num o.n), (ascii "t", .num o.t), (ascii "l", .num o.l), (ascii "circ", .str o.circ), (ascii "lpn_tau", .num o.tau),
    (ascii "lpn_key_len", .num o.keyLen), (ascii "lpn_mssg_len", .num o.mssgLen), (ascii "reps", .num o.reps),
    (ascii "threads", .num o.reps)]

/-- The file which party 0 writes, from the messages of all parties in the order of `message_from_each_party`; `none` if a message is no
JSON text (`src/bin/preproc.rs:156-181`, `src/bin/garble.rs:152-177`). -/
def saveFile (esc : Escapes) (o : BenchOpts) (mssgs : List (List Nat)) : Option (List Nat) :=
  (mssgs.mapM Json.parse).map fun ds => (Json.obj [(ascii "details", o.details), (ascii "benchmarks", .arr ds)]).dump esc

end Verif
