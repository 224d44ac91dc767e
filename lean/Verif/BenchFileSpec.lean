import Verif.BenchFile

/-!
# Vocabulary of the statements about the saved file
-/

namespace Verif

/-- The member of an object with a given name. -/
def Json.get? (name : String) : Json → Option Json
  | .obj l => (l.find? fun m => m.1 = ascii name).map (·.2)
  | _ => none

/-- An element of an array. -/
def Json.at? (i : Nat) : Json → Option Json
  | .arr l => l[i]?
  | _ => none

/-- The measurements fit into 64 bits. -/
def BenchRep.Ok (r : BenchRep) : Prop := r.time < 2 ^ 64 ∧ ∀ c ∈ r.comm, c.1 < 2 ^ 64 ∧ c.2 < 2 ^ 64

/-- The options fit into 64 bits. -/
structure BenchOpts.Ok (o : BenchOpts) : Prop where
  n : o.n < 2 ^ 64
  t : o.t < 2 ^ 64
  l : o.l < 2 ^ 64
  tau : o.tau < 2 ^ 64
  keyLen : o.keyLen < 2 ^ 64
  mssgLen : o.mssgLen < 2 ^ 64
  reps : o.reps < 2 ^ 64
  threads : o.threads < 2 ^ 64

/-- The value `v` holds the measurements of one repetition. -/
def Json.IsRep (v : Json) (r : BenchRep) : Prop :=
  v.get? "time" = some (.num r.time) ∧ ∃ c, v.get? "comm" = some c ∧ c.at? r.comm.length = none ∧
    ∀ q x, r.comm[q]? = some x → ∃ d, c.at? q = some d ∧ d.at? 0 = some (.num x.1) ∧ d.at? 1 = some (.num x.2) ∧ d.at? 2 = none

/-- The value `v` holds the measurements of all repetitions, in this order. -/
def Json.IsReps (v : Json) (rs : List BenchRep) : Prop :=
  v.at? rs.length = none ∧ ∀ i r, rs[i]? = some r → ∃ w, v.at? i = some w ∧ w.IsRep r

/-- The details agree with the options, up to the number of threads. -/
structure Json.DetailsOf (v : Json) (o : BenchOpts) : Prop where
  n : v.get? "n" = some (.num o.n)
  t : v.get? "t" = some (.num o.t)
  l : v.get? "l" = some (.num o.l)
  circ : v.get? "circ" = some (.str o.circ)
  tau : v.get? "lpn_tau" = some (.num o.tau)
  keyLen : v.get? "lpn_key_len" = some (.num o.keyLen)
  mssgLen : v.get? "lpn_mssg_len" = some (.num o.mssgLen)
  reps : v.get? "reps" = some (.num o.reps)

end Verif
