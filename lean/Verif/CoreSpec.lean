import Verif.SharingSpec
import Verif.Core

/-!
# Specification of vectors of packed sharings

`shares` has one entry per party: that party's vector of shares.  The `j`-th entries of all parties form a
sharing of the `j`-th secret vector.
-/

open Polynomial

namespace Verif

variable {F : Type} [CodeField F]

open CodeField (ofU32)

/-- The parties' vectors `shares` are sharings, of degree below `k`, of the secret vectors `secrets` at the
positions `pos`. -/
def VecSharing (n k : Nat) (pos : List F) (secrets shares : List (List F)) : Prop :=
  ∃ ps : List F[X], (∀ p ∈ ps, p.degree < k) ∧
    shares = (List.range n).map (fun i => ps.map fun p => p.eval (ofU32 i)) ∧
    secrets = ps.map fun p => pos.map fun x => p.eval x

/-- Sharings whose secrets are all zero. -/
def VecZero (n k : Nat) (pos : List F) (num : Nat) (shares : List (List F)) : Prop :=
  VecSharing n k pos (List.replicate num (List.replicate pos.length 0)) shares

variable [DecidableEq F]

/-- The context every party builds, e.g. `src/bin/garble.rs:73-91`. -/
structure Ctx.Good (ctx : Ctx F) : Prop where
  pss : PackedSharing.new (ctx.t + ctx.l - 1) ctx.n (defaultPos ctx.n ctx.l) = some ctx.pss
  pssN : PackedSharing.new (ctx.n - 1) ctx.n (defaultPos ctx.n ctx.l) = some ctx.pssN
  posL : 1 ≤ ctx.l
  fit : ctx.n + ctx.l ≤ CodeField.order F

omit [DecidableEq F] in
/-- What `RandSharingTransform::new` expects of a transformation (its `debug_assert!`s, and indices which are
in range). -/
structure SharingTransform.Ok (ctx : Ctx F) (tf : SharingTransform F) : Prop where
  old : GoodPos ctx.n tf.oldPos
  new : GoodPos ctx.n tf.newPos
  oldLen : tf.oldPos.length ≤ ctx.l
  newLen : tf.newPos.length ≤ ctx.l
  len : tf.f.len = tf.newPos.length
  idx : ∀ i ∈ tf.f.map, i < tf.oldPos.length

end Verif
