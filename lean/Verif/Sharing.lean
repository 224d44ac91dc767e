import Verif.MathMod

/-!
# Model of `src/sharing.rs`

Randomness is an explicit tape: the values `GF::rand` returns, in drawing order.
The `debug_assert`s are not modelled; they appear as hypotheses of the theorems.
-/

namespace Verif

variable {F : Type} [CodeField F] [DecidableEq F]

open CodeField (ofU32)

/-- `PackedSharing::default_pos`, `src/sharing.rs:20-22`. -/
def defaultPos (n l : Nat) : List F := (List.range l).map fun i => ofU32 (n + i)

/-- `PackedSharing::share_pos`, `src/sharing.rs:24-26`. -/
def sharePos (n : Nat) : List F := (List.range n).map ofU32

/-- `PackedSharing::wire_to_pos`, `src/sharing.rs:28-34`. -/
def wireToPos (n l : Nat) (ws : List Nat) : List F := ws.map fun x => ofU32 (x + (n + l))

/-- `struct PackedSharing`, `src/sharing.rs:10-17`. -/
structure PackedSharing (F : Type) where
  n : Nat
  np : Nat
  l : Nat
  shareCoeffs : Mat F
  reconCoeffs : Mat F
  randCoeffs : Mat F

/-- `ProtoErrorKind`, `src/lib.rs:9-15`. -/
inductive ProtoError where
  | maliciousBehavior
  | other
deriving DecidableEq

/-- `compute_share_coeffs`, `src/sharing.rs:36-41`; the slice `..np` panics past the end. -/
def computeShareCoeffs (d n : Nat) (pos : List F) : Option (Mat F) :=
  let np := d + 1
  let allPos := pos ++ sharePos n
  if np ≤ allPos.length then some (lagrangeCoeffs (allPos.take np) (allPos.drop np)) else none

/-- `share_using_coeffs`, `src/sharing.rs:43-63`.  The tape first supplies the `np - l` random
shares (line 52) and then the padding of missing secrets (lines 53-57). -/
def shareUsingCoeffs (secrets : List F) (coeffs : Mat F) (l : Nat) (tape : List F) :
    Option (List F) :=
  let np := coeffs.ncols
  let numRand := np - l
  if tape.length = numRand + (l - secrets.length) then
    let shares := tape.take numRand
    let points := (secrets ++ tape.drop numRand).take l ++ shares
    (coeffs.mulVec points).map fun rest => shares ++ rest
  else none

/-- `compute_recon_coeffs`, `src/sharing.rs:65-75`; `l + n - np` underflows for `np > l + n`. -/
def computeReconCoeffs (d n : Nat) (pos : List F) : Option (Mat F) :=
  let np := d + 1
  let l := pos.length
  let allPos := pos ++ sharePos n
  if np ≤ l + n then some (lagrangeCoeffs (allPos.drop (l + n - np)) (allPos.take l)) else none

/-- `recon_using_coeffs`, `src/sharing.rs:77-84`. -/
def reconUsingCoeffs (shares : List F) (coeffs : Mat F) : Option (List F) :=
  let np := coeffs.ncols
  let n := shares.length
  if np ≤ n then coeffs.mulVec (shares.drop (n - np)) else none

/-- `PackedSharing::new`, `src/sharing.rs:86-124`; the slice `sh_pos[..np]` panics for `np > n`. -/
def PackedSharing.new (d n : Nat) (pos : List F) : Option (PackedSharing F) :=
  let shPos : List F := sharePos n
  let np := d + 1
  let l := pos.length
  let allPos := pos ++ shPos
  if np ≤ n then
    some
      { n := n, np := np, l := l
        shareCoeffs := lagrangeCoeffs (allPos.take np) (allPos.drop np)
        reconCoeffs := lagrangeCoeffs (allPos.drop (l + n - np)) (allPos.take (l + n - np))
        randCoeffs := lagrangeCoeffs (shPos.take np) (shPos.drop np) }
  else none

/-- `PackedSharing::share`, `src/sharing.rs:126-133`. -/
def PackedSharing.share (ps : PackedSharing F) (secrets tape : List F) : Option (List F) :=
  shareUsingCoeffs secrets ps.shareCoeffs ps.l tape

/-- `PackedSharing::rand`, `src/sharing.rs:135-139`. -/
def PackedSharing.rand (ps : PackedSharing F) (tape : List F) : Option (List F) :=
  if tape.length = ps.np then
    (ps.randCoeffs.mulVec tape).map fun rest => tape ++ rest
  else none

/-- `PackedSharing::recon_coeffs`, `src/sharing.rs:169-171`. -/
def PackedSharing.secretCoeffs (ps : PackedSharing F) : Mat F :=
  { ncols := ps.reconCoeffs.ncols, rows := ps.reconCoeffs.rows.take ps.l }

/-- `PackedSharing::semihon_recon`, `src/sharing.rs:141-148`; `shares.slice((n - np)..)` panics if
there are fewer than `n - np` shares. -/
def PackedSharing.semihonRecon (ps : PackedSharing F) (shares : List F) : Option (List F) :=
  if ps.n - ps.np ≤ shares.length then
    ps.secretCoeffs.mulVec (shares.drop (ps.n - ps.np))
  else none

/-- `PackedSharing::recon`, `src/sharing.rs:150-167`.  Outer `none`: panic. -/
def PackedSharing.recon (ps : PackedSharing F) (shares : List F) :
    Option (Except ProtoError (List F)) :=
  if shares.length ≠ ps.n then some (.error .other)
  else
    (ps.reconCoeffs.mulVec (shares.drop (ps.n - ps.np))).map fun reconVals =>
      if ((reconVals.drop ps.l).zipIdx.all fun (v, i) => decide (shares[i]? = some v)) then
        .ok (reconVals.take ps.l)
      else .error .maliciousBehavior

end Verif
