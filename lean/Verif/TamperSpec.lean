import Verif.Preproc
import Verif.CoreSpec
import Mathlib.LinearAlgebra.Lagrange

/-!
# Parties which do not follow the protocol: specification

The repository implements the semi-honest protocol, in which nothing is checked (`semihon_recon` instead of `recon`,
`src/protocol/core.rs:61-62`).  Here single parties send something else than they should.
-/

open Polynomial
open Verif.CodeField (ofU32)

namespace Verif

variable {F : Type} [CodeField F] [DecidableEq F]

/-- The second half of `reduce_degree`, `src/protocol/core.rs:50-83`: the leader has got the messages `mssgs`. -/
def reduceFrom (ctx : Ctx F) (num : Nat) (tapes randoms mssgs : List (List F)) : Option (List (List F)) :=
  (rdLeader ctx num tapes mssgs).bind fun replies =>
  (List.range ctx.n).mapM fun i => (replies[i]?).bind fun s => (randoms[i]?).bind fun r => rdFinish r s

/-- The first half, `src/protocol/core.rs:40-48`: the messages to the leader. -/
def reduceSends (ctx : Ctx F) (vxs randoms zeros : List (List F)) : Option (List (List F)) :=
  (List.range ctx.n).mapM fun i => (vxs[i]?).bind fun vx => (randoms[i]?).bind fun r => (zeros[i]?).bind fun z => rdSend vx r z

omit [DecidableEq F] in
/-- `e p j` is added to value `j` of party `p`. -/
def tamper (e : Nat → Nat → F) (vs : List (List F)) : List (List F) := vs.mapIdx fun p v => v.mapIdx fun j x => x + e p j

omit [DecidableEq F] in
/-- What errors in the `n` shares of a polynomial do to the value at position `n + k`, if it is interpolated from all of them. -/
noncomputable def secretShift (n : Nat) (e : Nat → F) (k : Nat) : F :=
  ∑ p ∈ Finset.range n, e p * (Lagrange.basis (Finset.range n) (fun i => (ofU32 i : F)) p).eval (ofU32 (n + k))

omit [DecidableEq F] in
/-- The secrets with these errors. -/
noncomputable def shiftSecrets (n : Nat) (e : Nat → Nat → F) (X : List (List F)) : List (List F) :=
  X.mapIdx fun j xs => xs.mapIdx fun k x => x + secretShift n (fun p => e p j) k

/-- The second half of `trans`, `src/protocol/core.rs:145-197`: the leader has got the messages `mssgs`. -/
def transFrom (ctx : Ctx F) (tr : SharingTransform F) (num : Nat) (tapes randoms mssgs : List (List F)) : Option (List (List F)) :=
  (transLeader ctx tr num tapes mssgs).bind fun replies =>
  (List.range ctx.n).mapM fun i => (replies[i]?).bind fun s => (randoms[i]?).bind fun r => rdFinish r s

/-- The first half, `src/protocol/core.rs:135-143`: the messages to the leader. -/
def transSends (ctx : Ctx F) (vxs randomsN : List (List F)) : Option (List (List F)) :=
  (List.range ctx.n).mapM fun i => (vxs[i]?).bind fun vx => (randomsN[i]?).bind fun r => transSend vx r

omit [DecidableEq F] in
/-- What errors in the `n` shares of a polynomial do to its value at `v`, if it is interpolated from all of them. -/
noncomputable def shiftAt (n : Nat) (e : Nat → F) (v : F) : F :=
  ∑ p ∈ Finset.range n, e p * (Lagrange.basis (Finset.range n) (fun i => (ofU32 i : F)) p).eval v

omit [DecidableEq F] in
/-- Secrets at the positions `pos`, with these errors. -/
noncomputable def shiftSecretsAt (n : Nat) (pos : List F) (e : Nat → Nat → F) (X : List (List F)) : List (List F) :=
  X.mapIdx fun j xs => List.zipWith (fun v x => x + shiftAt n (fun p => e p j) v) pos xs

omit [DecidableEq F] in
/-- The parties' values lie on a polynomial of degree below `d`. -/
def OnPoly (n d : Nat) (v : Nat → F) : Prop := ∃ p : F[X], p.degree < d ∧ ∀ i, i < n → v i = p.eval (ofU32 i)

end Verif
