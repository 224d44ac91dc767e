import Verif.PreRetape
import Verif.PrivacyWorld

/-!
# Changing the secrets of the sharings of a run of `preproc`
-/

open Polynomial

namespace Verif

open CodeField (ofU32)

variable {F : Type} [CodeField F] [DecidableEq F]

/-- What is opened in the first multiplication for error `k`. -/
noncomputable def Outs.open1 (s : List Nat) (o : Outs F) (k : Nat) : F[X] :=
  openPoly (o.B (errIdx 2 s 0 k)) (o.B (errIdx 2 s 1 k)) (o.R (errIdx 3 s 0 k)) (o.Z (errIdx 2 s 0 k))

/-- The result of the first multiplication. -/
noncomputable def Outs.mid (ctx : Ctx F) (s : List Nat) (errs : List (ErrTapes F)) (o : Outs F) : Nat → F[X] := midPoly ctx s errs o.R o.Z o.B

/-- What is opened in the second multiplication. -/
noncomputable def Outs.open2 (ctx : Ctx F) (s : List Nat) (errs : List (ErrTapes F)) (o : Outs F) (k : Nat) : F[X] :=
  openPoly (o.mid ctx s errs k) (o.R (errIdx 3 s 1 k)) (o.R (errIdx 3 s 2 k)) (o.Z (errIdx 2 s 1 k))

/-- The sharing of error `k`. -/
noncomputable def Outs.err (ctx : Ctx F) (s : List Nat) (errs : List (ErrTapes F)) (o : Outs F) : Nat → F[X] := errPoly ctx s errs o.R o.Z o.B

/-- The sharings are those of the secrets `S`. -/
structure Outs.Has (ctx : Ctx F) (d : PreProcCount) (s : List Nat) (S : PreSecrets F) (o : Outs F) : Prop where
  masks : ∀ j < d.masks, ∀ v < ctx.l, (o.B (2 * d.errors + j)).eval (ofU32 (ctx.n + v)) = at2 S.masks j v
  keys : ∀ j < d.numKeys, ∀ v < ctx.l, (o.R (3 * d.errors + j)).eval (ofU32 (ctx.n + v)) = at2 S.keys j v
  bit0 : ∀ k < d.errors, ∀ v < ctx.l, (o.B (errIdx 2 s 0 k)).eval (ofU32 (ctx.n + v)) = at2 S.bit0 k v
  bit1 : ∀ k < d.errors, ∀ v < ctx.l, (o.B (errIdx 2 s 1 k)).eval (ofU32 (ctx.n + v)) = at2 S.bit1 k v
  scalars : ∀ k < d.errors, ∀ v < ctx.l, (o.R (errIdx 3 s 1 k)).eval (ofU32 (ctx.n + v)) = at2 S.scalars k v

/-- The sharings of the material. -/
structure MatPolys (F : Type) [CodeField F] where
  masks : Nat → F[X]
  keys : Nat → F[X]
  errors : Nat → F[X]
  rand : Nat → F[X]
  zero : Nat → F[X]

/-- They are sharings of the secrets `S`. -/
structure MatPolys.Ok (ctx : Ctx F) (d : PreProcCount) (nr nz : Nat) (S : PreSecrets F) (w : MatPolys F) : Prop where
  masks : ∀ j < d.masks, (w.masks j).degree < (ctx.t + ctx.l : Nat) ∧ ∀ v < ctx.l, (w.masks j).eval (ofU32 (ctx.n + v)) = at2 S.masks j v
  keys : ∀ j < d.numKeys, (w.keys j).degree < (ctx.t + ctx.l : Nat) ∧ ∀ v < ctx.l, (w.keys j).eval (ofU32 (ctx.n + v)) = at2 S.keys j v
  errors : ∀ k < d.errors, (w.errors k).degree < (ctx.t + ctx.l : Nat) ∧ ∀ v < ctx.l,
    (w.errors k).eval (ofU32 (ctx.n + v)) = at2 S.bit0 k v * at2 S.bit1 k v * at2 S.scalars k v
  rand : ∀ j < nr, (w.rand j).degree < (ctx.t + ctx.l : Nat)
  zero : ∀ j < nz, (w.zero j).degree < ctx.n ∧ ∀ v ∈ defaultPos ctx.n ctx.l, (w.zero j).eval v = 0

/-- The sharings of the material of a run. -/
noncomputable def Outs.mat (ctx : Ctx F) (d : PreProcCount) (s : List Nat) (errs : List (ErrTapes F)) (o : Outs F) : MatPolys F :=
  ⟨fun j => o.B (2 * d.errors + j), fun j => o.R (3 * d.errors + j), o.err ctx s errs,
    fun j => o.R (3 * d.errors + (d.numKeys + j)), fun j => o.Z (2 * d.errors + j)⟩

/-- The change of the first bit of error `k`. -/
noncomputable def dBit0 (ctx : Ctx F) (Cs : Finset Nat) (S S' : PreSecrets F) (k : Nat) : F[X] :=
  packC ctx Cs fun v => at2 S'.bit0 k v - at2 S.bit0 k v

/-- The change of the second bit. -/
noncomputable def dBit1 (ctx : Ctx F) (Cs : Finset Nat) (S S' : PreSecrets F) (k : Nat) : F[X] :=
  packC ctx Cs fun v => at2 S'.bit1 k v - at2 S.bit1 k v

/-- The change of the scalar. -/
noncomputable def dScalar (ctx : Ctx F) (Cs : Finset Nat) (S S' : PreSecrets F) (k : Nat) : F[X] :=
  packC ctx Cs fun v => at2 S'.scalars k v - at2 S.scalars k v

/-- The change of the mask of the first multiplication. -/
noncomputable def dMask (ctx : Ctx F) (Cs : Finset Nat) (S S' : PreSecrets F) (k : Nat) : F[X] :=
  packC ctx Cs fun v => at2 S.bit0 k v * at2 S.bit1 k v - at2 S'.bit0 k v * at2 S'.bit1 k v

/-- The sharings changed from the secrets `S` to the secrets `S'` so that the material consists of the sharings `w` and the same
is opened. -/
noncomputable def Outs.move (ctx : Ctx F) (d : PreProcCount) (s : List Nat) (errs : List (ErrTapes F)) (Cs : Finset Nat)
    (S S' : PreSecrets F) (o : Outs F) (w : MatPolys F) : Outs F where
  B i := if i < 2 * d.errors then
      if (errRole 2 s i).1 = 0 then o.B i + dBit0 ctx Cs S S' (errRole 2 s i).2 else o.B i + dBit1 ctx Cs S S' (errRole 2 s i).2
    else if i < 2 * d.errors + d.masks then w.masks (i - 2 * d.errors) else o.B i
  R i := if i < 3 * d.errors then
      if (errRole 3 s i).1 = 0 then o.R i + dMask ctx Cs S S' (errRole 3 s i).2
      else if (errRole 3 s i).1 = 1 then o.R i + dScalar ctx Cs S S' (errRole 3 s i).2
      else o.R i + o.err ctx s errs (errRole 3 s i).2 - w.errors (errRole 3 s i).2
    else if i < 3 * d.errors + d.numKeys then w.keys (i - 3 * d.errors) else w.rand (i - 3 * d.errors - d.numKeys)
  Z i := if i < 2 * d.errors then
      if (errRole 2 s i).1 = 0 then
        o.open1 s (errRole 2 s i).2 - (o.B (errIdx 2 s 0 (errRole 2 s i).2) + dBit0 ctx Cs S S' (errRole 2 s i).2)
          * (o.B (errIdx 2 s 1 (errRole 2 s i).2) + dBit1 ctx Cs S S' (errRole 2 s i).2)
          - (o.R (errIdx 3 s 0 (errRole 2 s i).2) + dMask ctx Cs S S' (errRole 2 s i).2)
      else
        o.open2 ctx s errs (errRole 2 s i).2 - (o.mid ctx s errs (errRole 2 s i).2 - dMask ctx Cs S S' (errRole 2 s i).2)
          * (o.R (errIdx 3 s 1 (errRole 2 s i).2) + dScalar ctx Cs S S' (errRole 2 s i).2)
          - (o.R (errIdx 3 s 2 (errRole 2 s i).2) + o.err ctx s errs (errRole 2 s i).2 - w.errors (errRole 2 s i).2)
    else w.zero (i - 2 * d.errors)

section
variable {ctx : Ctx F} {d : PreProcCount} {s : List Nat} {errs : List (ErrTapes F)} {Cs : Finset Nat} {S S' : PreSecrets F}
  {o : Outs F} {w : MatPolys F} (hs : s.sum = d.errors)

section values
include hs
variable {k : Nat} (hk : k < d.errors)
include hk

omit [DecidableEq F] in
theorem move_bit0 : (o.move ctx d s errs Cs S S' w).B (errIdx 2 s 0 k) = o.B (errIdx 2 s 0 k) + dBit0 ctx Cs S S' k := by
  have h1 := errIdx_lt (c := 2) (s := s) (r := 0) (k := k) (by omega) (by omega)
  simp only [Outs.move, if_pos (show errIdx 2 s 0 k < 2 * d.errors by omega), errRole_errIdx (c := 2) (s := s) (r := 0) (by omega) (hs ▸ hk), if_true]

omit [DecidableEq F] in
theorem move_bit1 : (o.move ctx d s errs Cs S S' w).B (errIdx 2 s 1 k) = o.B (errIdx 2 s 1 k) + dBit1 ctx Cs S S' k := by
  have h1 := errIdx_lt (c := 2) (s := s) (r := 1) (k := k) (by omega) (by omega)
  simp only [Outs.move, if_pos (show errIdx 2 s 1 k < 2 * d.errors by omega), errRole_errIdx (c := 2) (s := s) (r := 1) (by omega) (hs ▸ hk),
    one_ne_zero, if_false]

omit [DecidableEq F] in
theorem move_mask1 : (o.move ctx d s errs Cs S S' w).R (errIdx 3 s 0 k) = o.R (errIdx 3 s 0 k) + dMask ctx Cs S S' k := by
  have h1 := errIdx_lt (c := 3) (s := s) (r := 0) (k := k) (by omega) (by omega)
  simp only [Outs.move, if_pos (show errIdx 3 s 0 k < 3 * d.errors by omega), errRole_errIdx (c := 3) (s := s) (r := 0) (by omega) (hs ▸ hk), if_true]

omit [DecidableEq F] in
theorem move_scalar : (o.move ctx d s errs Cs S S' w).R (errIdx 3 s 1 k) = o.R (errIdx 3 s 1 k) + dScalar ctx Cs S S' k := by
  have h1 := errIdx_lt (c := 3) (s := s) (r := 1) (k := k) (by omega) (by omega)
  simp only [Outs.move, if_pos (show errIdx 3 s 1 k < 3 * d.errors by omega), errRole_errIdx (c := 3) (s := s) (r := 1) (by omega) (hs ▸ hk),
    one_ne_zero, if_false, if_true]

omit [DecidableEq F] in
theorem move_mask2 : (o.move ctx d s errs Cs S S' w).R (errIdx 3 s 2 k)
    = o.R (errIdx 3 s 2 k) + o.err ctx s errs k - w.errors k := by
  have h1 := errIdx_lt (c := 3) (s := s) (r := 2) (k := k) (by omega) (by omega)
  simp only [Outs.move, if_pos (show errIdx 3 s 2 k < 3 * d.errors by omega), errRole_errIdx (c := 3) (s := s) (r := 2) (by omega) (hs ▸ hk),
    if_neg (show ¬ (2 : Nat) = 0 by omega), if_neg (show ¬ (2 : Nat) = 1 by omega)]

omit [DecidableEq F] in
theorem move_zero1 : (o.move ctx d s errs Cs S S' w).Z (errIdx 2 s 0 k)
    = o.open1 s k - (o.B (errIdx 2 s 0 k) + dBit0 ctx Cs S S' k) * (o.B (errIdx 2 s 1 k) + dBit1 ctx Cs S S' k)
      - (o.R (errIdx 3 s 0 k) + dMask ctx Cs S S' k) := by
  have h1 := errIdx_lt (c := 2) (s := s) (r := 0) (k := k) (by omega) (by omega)
  simp only [Outs.move, if_pos (show errIdx 2 s 0 k < 2 * d.errors by omega), errRole_errIdx (c := 2) (s := s) (r := 0) (by omega) (hs ▸ hk), if_true]

omit [DecidableEq F] in
theorem move_zero2 : (o.move ctx d s errs Cs S S' w).Z (errIdx 2 s 1 k)
    = o.open2 ctx s errs k - (o.mid ctx s errs k - dMask ctx Cs S S' k) * (o.R (errIdx 3 s 1 k) + dScalar ctx Cs S S' k)
      - (o.R (errIdx 3 s 2 k) + o.err ctx s errs k - w.errors k) := by
  have h1 := errIdx_lt (c := 2) (s := s) (r := 1) (k := k) (by omega) (by omega)
  simp only [Outs.move, if_pos (show errIdx 2 s 1 k < 2 * d.errors by omega), errRole_errIdx (c := 2) (s := s) (r := 1) (by omega) (hs ▸ hk),
    one_ne_zero, if_false]

omit [DecidableEq F] in
/-- The same is opened. -/
theorem move_open1 : (o.move ctx d s errs Cs S S' w).open1 s k = o.open1 s k := by
  conv_lhs => unfold Outs.open1 openPoly
  rw [move_bit0 hs hk, move_bit1 hs hk, move_mask1 hs hk, move_zero1 hs hk]
  ring

omit [DecidableEq F] in
theorem move_mid : (o.move ctx d s errs Cs S S' w).mid ctx s errs k = o.mid ctx s errs k - dMask ctx Cs S S' k := by
  show leadPoly ctx _ ((o.move ctx d s errs Cs S S' w).open1 s k) - _ = leadPoly ctx _ (o.open1 s k) - _ - _
  rw [move_open1 hs hk, move_mask1 hs hk, sub_sub]

omit [DecidableEq F] in
theorem move_open2 : (o.move ctx d s errs Cs S S' w).open2 ctx s errs k = o.open2 ctx s errs k := by
  conv_lhs => unfold Outs.open2 openPoly
  rw [move_mid hs hk, move_scalar hs hk, move_mask2 hs hk, move_zero2 hs hk]
  ring

omit [DecidableEq F] in
/-- The sharings of the errors are the given ones. -/
theorem move_err : (o.move ctx d s errs Cs S S' w).err ctx s errs k = w.errors k := by
  show leadPoly ctx _ ((o.move ctx d s errs Cs S S' w).open2 ctx s errs k) - _ = _
  rw [move_open2 hs hk, move_mask2 hs hk]
  have : o.err ctx s errs k = leadPoly ctx (errTape2 s errs k) (o.open2 ctx s errs k) - o.R (errIdx 3 s 2 k) := rfl
  rw [this]
  ring

end values

omit [DecidableEq F] in
theorem move_masks {j : Nat} (hj : j < d.masks) : (o.move ctx d s errs Cs S S' w).B (2 * d.errors + j) = w.masks j := by
  simp only [Outs.move, if_neg (show ¬ 2 * d.errors + j < 2 * d.errors by omega), if_pos (show 2 * d.errors + j < 2 * d.errors + d.masks by omega),
    Nat.add_sub_cancel_left]

omit [DecidableEq F] in
theorem move_keys {j : Nat} (hj : j < d.numKeys) : (o.move ctx d s errs Cs S S' w).R (3 * d.errors + j) = w.keys j := by
  simp only [Outs.move, if_neg (show ¬ 3 * d.errors + j < 3 * d.errors by omega), if_pos (show 3 * d.errors + j < 3 * d.errors + d.numKeys by omega),
    Nat.add_sub_cancel_left]

omit [DecidableEq F] in
theorem move_rand (j : Nat) : (o.move ctx d s errs Cs S S' w).R (3 * d.errors + (d.numKeys + j)) = w.rand j := by
  simp only [Outs.move, if_neg (show ¬ 3 * d.errors + (d.numKeys + j) < 3 * d.errors by omega),
    if_neg (show ¬ 3 * d.errors + (d.numKeys + j) < 3 * d.errors + d.numKeys by omega), Nat.add_sub_cancel_left]

omit [DecidableEq F] in
theorem move_zero (j : Nat) : (o.move ctx d s errs Cs S S' w).Z (2 * d.errors + j) = w.zero j := by
  simp only [Outs.move, if_neg (show ¬ 2 * d.errors + j < 2 * d.errors by omega), Nat.add_sub_cancel_left]

omit [DecidableEq F] in
theorem move_rest {i : Nat} (hi : 2 * d.errors + d.masks ≤ i) : (o.move ctx d s errs Cs S S' w).B i = o.B i := by
  simp only [Outs.move, if_neg (show ¬ i < 2 * d.errors by omega), if_neg (show ¬ i < 2 * d.errors + d.masks by omega)]

/-! ### Cases of a position -/

omit [DecidableEq F] in
include hs in
theorem casesB (P : Nat → Prop) (h0 : ∀ k < d.errors, P (errIdx 2 s 0 k)) (h1 : ∀ k < d.errors, P (errIdx 2 s 1 k))
    (h2 : ∀ j < d.masks, P (2 * d.errors + j)) (h3 : ∀ i, 2 * d.errors + d.masks ≤ i → P i) (i : Nat) : P i := by
  by_cases hi : i < 2 * d.errors
  · obtain ⟨g1, g2, g3⟩ := errRole_spec (c := 2) (s := s) (i := i) (by omega)
    rw [← g3]
    rw [hs] at g2
    rcases (show (errRole 2 s i).1 = 0 ∨ (errRole 2 s i).1 = 1 by omega) with h | h
    · rw [h]; exact h0 _ g2
    · rw [h]; exact h1 _ g2
  · by_cases hi' : i < 2 * d.errors + d.masks
    · have := h2 (i - 2 * d.errors) (by omega)
      rwa [show 2 * d.errors + (i - 2 * d.errors) = i by omega] at this
    · exact h3 i (by omega)

omit [DecidableEq F] in
include hs in
theorem casesR (P : Nat → Prop) {N : Nat} (h0 : ∀ k < d.errors, P (errIdx 3 s 0 k)) (h1 : ∀ k < d.errors, P (errIdx 3 s 1 k))
    (h2 : ∀ k < d.errors, P (errIdx 3 s 2 k)) (h3 : ∀ j < d.numKeys, P (3 * d.errors + j))
    (h4 : ∀ j < N - 3 * d.errors - d.numKeys, P (3 * d.errors + (d.numKeys + j))) (i : Nat) (hN : i < N) : P i := by
  by_cases hi : i < 3 * d.errors
  · obtain ⟨g1, g2, g3⟩ := errRole_spec (c := 3) (s := s) (i := i) (by omega)
    rw [← g3]
    rw [hs] at g2
    rcases (show (errRole 3 s i).1 = 0 ∨ (errRole 3 s i).1 = 1 ∨ (errRole 3 s i).1 = 2 by omega) with h | h | h
    · rw [h]; exact h0 _ g2
    · rw [h]; exact h1 _ g2
    · rw [h]; exact h2 _ g2
  · by_cases hi' : i < 3 * d.errors + d.numKeys
    · have := h3 (i - 3 * d.errors) (by omega)
      rwa [show 3 * d.errors + (i - 3 * d.errors) = i by omega] at this
    · have := h4 (i - 3 * d.errors - d.numKeys) (by omega)
      rwa [show 3 * d.errors + (d.numKeys + (i - 3 * d.errors - d.numKeys)) = i by omega] at this

omit [DecidableEq F] in
include hs in
theorem casesZ (P : Nat → Prop) {N : Nat} (h0 : ∀ k < d.errors, P (errIdx 2 s 0 k)) (h1 : ∀ k < d.errors, P (errIdx 2 s 1 k))
    (h2 : ∀ j < N - 2 * d.errors, P (2 * d.errors + j)) (i : Nat) (hN : i < N) : P i := by
  by_cases hi : i < 2 * d.errors
  · obtain ⟨g1, g2, g3⟩ := errRole_spec (c := 2) (s := s) (i := i) (by omega)
    rw [← g3]
    rw [hs] at g2
    rcases (show (errRole 2 s i).1 = 0 ∨ (errRole 2 s i).1 = 1 by omega) with h | h
    · rw [h]; exact h0 _ g2
    · rw [h]; exact h1 _ g2
  · have := h2 (i - 2 * d.errors) (by omega)
    rwa [show 2 * d.errors + (i - 2 * d.errors) = i by omega] at this

/-! ### Back -/

omit [DecidableEq F] in
theorem dBit0_back (k : Nat) : dBit0 ctx Cs S' S k = -dBit0 ctx Cs S S' k := by
  unfold dBit0
  rw [← packC_neg]
  simp only [neg_sub]

omit [DecidableEq F] in
theorem dBit1_back (k : Nat) : dBit1 ctx Cs S' S k = -dBit1 ctx Cs S S' k := by
  unfold dBit1
  rw [← packC_neg]
  simp only [neg_sub]

omit [DecidableEq F] in
theorem dScalar_back (k : Nat) : dScalar ctx Cs S' S k = -dScalar ctx Cs S S' k := by
  unfold dScalar
  rw [← packC_neg]
  simp only [neg_sub]

omit [DecidableEq F] in
theorem dMask_back (k : Nat) : dMask ctx Cs S' S k = -dMask ctx Cs S S' k := by
  unfold dMask
  rw [← packC_neg]
  simp only [neg_sub]

include hs

omit [DecidableEq F] in
/-- Moving back to the first material gives the first sharings. -/
theorem move_backB (i : Nat) : ((o.move ctx d s errs Cs S S' w).move ctx d s errs Cs S' S (o.mat ctx d s errs)).B i = o.B i := by
  refine casesB hs (fun i => ((o.move ctx d s errs Cs S S' w).move ctx d s errs Cs S' S (o.mat ctx d s errs)).B i = o.B i) (fun k hk => ?_) (fun k hk => ?_) (fun j hj => ?_) (fun i hi => ?_) i
  · rw [move_bit0 hs hk, move_bit0 hs hk, dBit0_back, neg_add_cancel_right]
  · rw [move_bit1 hs hk, move_bit1 hs hk, dBit1_back, neg_add_cancel_right]
  · rw [move_masks hj]; rfl
  · rw [move_rest hi, move_rest hi]

omit [DecidableEq F] in
theorem move_backR (i : Nat) : ((o.move ctx d s errs Cs S S' w).move ctx d s errs Cs S' S (o.mat ctx d s errs)).R i = o.R i := by
  refine casesR hs (fun i => ((o.move ctx d s errs Cs S S' w).move ctx d s errs Cs S' S (o.mat ctx d s errs)).R i = o.R i) (N := i + 1) (fun k hk => ?_) (fun k hk => ?_) (fun k hk => ?_) (fun j hj => ?_) (fun j _ => ?_) i (by omega)
  · rw [move_mask1 hs hk, move_mask1 hs hk, dMask_back, neg_add_cancel_right]
  · rw [move_scalar hs hk, move_scalar hs hk, dScalar_back, neg_add_cancel_right]
  · rw [move_mask2 hs hk, move_mask2 hs hk, move_err hs hk]
    show _ - o.err ctx s errs k = _
    ring
  · rw [move_keys hj]; rfl
  · rw [move_rand]; rfl

omit [DecidableEq F] in
theorem move_backZ (i : Nat) : ((o.move ctx d s errs Cs S S' w).move ctx d s errs Cs S' S (o.mat ctx d s errs)).Z i = o.Z i := by
  refine casesZ hs (fun i => ((o.move ctx d s errs Cs S S' w).move ctx d s errs Cs S' S (o.mat ctx d s errs)).Z i = o.Z i) (N := i + 1) (fun k hk => ?_) (fun k hk => ?_) (fun j _ => ?_) i (by omega)
  · rw [move_zero1 hs hk, move_open1 hs hk, move_bit0 hs hk, move_bit1 hs hk, move_mask1 hs hk, dBit0_back, dBit1_back, dMask_back,
      neg_add_cancel_right, neg_add_cancel_right, neg_add_cancel_right]
    unfold Outs.open1 openPoly
    ring
  · rw [move_zero2 hs hk, move_open2 hs hk, move_mid hs hk, move_scalar hs hk, move_mask2 hs hk, move_err hs hk, dScalar_back, dMask_back,
      neg_add_cancel_right]
    show _ - _ - (_ + _ - o.err ctx s errs k) = _
    unfold Outs.open2 openPoly
    ring
  · rw [move_zero]; rfl

end

/-! ### The moved sharings -/

section ok
variable {ctx : Ctx F} (h : ctx.Good) (hm : 2 * (ctx.t + ctx.l - 1) < ctx.n) {d : PreProcCount} {s : List Nat} {errs : List (ErrTapes F)}
  {Cs : Finset Nat} (hC : Coalition ctx Cs) {S S' : PreSecrets F} {o : Outs F} {w : MatPolys F} (hs : s.sum = d.errors) {NR NZ NB : Nat}
  (lR : 3 * d.errors + d.numKeys ≤ NR) (lZ : 2 * d.errors ≤ NZ) (lB : 2 * d.errors + d.masks ≤ NB)
  (ho : o.Ok ctx NR NZ NB) (hS : o.Has ctx d s S) (hw : w.Ok ctx d (NR - 3 * d.errors - d.numKeys) (NZ - 2 * d.errors) S')

omit [DecidableEq F] in
theorem errIdx_lt' (hs : s.sum = d.errors) {c r k : Nat} (hr : r < c) (hk : k < d.errors) : errIdx c s r k < c * d.errors := by
  have := errIdx_lt (c := c) (s := s) hr (by omega : k < s.sum)
  rwa [hs] at this

include h hs lR ho in
theorem err_degree {k : Nat} (hk : k < d.errors) : (o.err ctx s errs k).degree < (ctx.t + ctx.l : Nat) := by
  have := errIdx_lt' hs (c := 3) (r := 2) (by omega) hk
  exact multPoly_degree h _ _ _ _ (ho.R _ (by omega))

include h hs lR ho in
theorem mid_degree {k : Nat} (hk : k < d.errors) : (o.mid ctx s errs k).degree < (ctx.t + ctx.l : Nat) := by
  have := errIdx_lt' hs (c := 3) (r := 0) (by omega) hk
  exact multPoly_degree h _ _ _ _ (ho.R _ (by omega))

include h hs lZ ho hS in
theorem mid_secret {k v : Nat} (hk : k < d.errors) (hv : v < ctx.l) :
    (o.mid ctx s errs k).eval (ofU32 (ctx.n + v)) = at2 S.bit0 k v * at2 S.bit1 k v := by
  have := errIdx_lt' hs (c := 2) (r := 0) (by omega) hk
  have hm : (ofU32 (ctx.n + v) : F) ∈ defaultPos ctx.n ctx.l := List.mem_map.2 ⟨v, List.mem_range.2 hv, rfl⟩
  show (multPoly ctx _ _ _ _ _).eval _ = _
  rw [multPoly_secret h _ _ _ _ hm (ho.Z0 _ (by omega) _ hm), hS.bit0 k hk v hv, hS.bit1 k hk v hv]

include h hs lZ ho hS in
theorem err_secret {k v : Nat} (hk : k < d.errors) (hv : v < ctx.l) :
    (o.err ctx s errs k).eval (ofU32 (ctx.n + v)) = at2 S.bit0 k v * at2 S.bit1 k v * at2 S.scalars k v := by
  have := errIdx_lt' hs (c := 2) (r := 1) (by omega) hk
  have hm : (ofU32 (ctx.n + v) : F) ∈ defaultPos ctx.n ctx.l := List.mem_map.2 ⟨v, List.mem_range.2 hv, rfl⟩
  show (multPoly ctx _ (o.mid ctx s errs k) _ _ _).eval _ = _
  rw [multPoly_secret h _ _ _ _ hm (ho.Z0 _ (by omega) _ hm), mid_secret h hs lZ ho hS hk hv, hS.scalars k hk v hv]

include h hs lR lZ lB ho hS in
/-- The material of a run is a sharing of its secrets. -/
theorem mat_ok : (o.mat ctx d s errs).Ok ctx d (NR - 3 * d.errors - d.numKeys) (NZ - 2 * d.errors) S where
  masks j hj := ⟨ho.B _ (by omega), hS.masks j hj⟩
  keys j hj := ⟨ho.R _ (by omega), hS.keys j hj⟩
  errors k hk := ⟨err_degree h hs lR ho hk, fun v hv => err_secret h hs lZ ho hS hk hv⟩
  rand j hj := ho.R _ (by omega)
  zero j hj := ⟨ho.Z _ (by omega), ho.Z0 _ (by omega)⟩

include h hm in
theorem sub_mul_degree {u x y r : F[X]} (hu : u.degree < ctx.n) (hx : x.degree < (ctx.t + ctx.l : Nat)) (hy : y.degree < (ctx.t + ctx.l : Nat))
    (hr : r.degree < (ctx.t + ctx.l : Nat)) : (u - x * y - r).degree < ctx.n := by
  have := openPoly_degree h hm hx hy hr (z := -u) (by rw [degree_neg]; exact hu)
  rw [show u - x * y - r = -(openPoly x y r (-u)) by unfold openPoly; ring, degree_neg]
  exact this

include h hC hs hS hw in
/-- The moved sharings have the secrets `S'`. -/
theorem move_has : (o.move ctx d s errs Cs S S' w).Has ctx d s S' where
  masks j hj v hv := by rw [move_masks hj, (hw.masks j hj).2 v hv]
  keys j hj v hv := by rw [move_keys hj, (hw.keys j hj).2 v hv]
  bit0 k hk v hv := by
    rw [move_bit0 hs hk, eval_add, hS.bit0 k hk v hv]
    unfold dBit0
    rw [packC_secret h hC _ hv, add_sub_cancel]
  bit1 k hk v hv := by
    rw [move_bit1 hs hk, eval_add, hS.bit1 k hk v hv]
    unfold dBit1
    rw [packC_secret h hC _ hv, add_sub_cancel]
  scalars k hk v hv := by
    rw [move_scalar hs hk, eval_add, hS.scalars k hk v hv]
    unfold dScalar
    rw [packC_secret h hC _ hv, add_sub_cancel]

include h hm hC hs lR lZ lB ho hS hw in
/-- They are sharings which a run can have. -/
theorem move_ok' (hS' : S'.Fit ctx.l d) : (o.move ctx d s errs Cs S S' w).Ok ctx NR NZ NB := by
  have hH := move_has (errs := errs) h hC hs hS hw
  have hbits : ∀ {x : List (List F)} {num : Nat}, (x.length = num ∧ ∀ y ∈ x, y.length = ctx.l ∧ ∀ v ∈ y, v = 0 ∨ v = 1) →
      ∀ k v, IsBit (at2 x k v) := by
    intro x num hx k v
    unfold at2
    rw [List.getD_eq_getElem?_getD]
    cases hy : (x.getD k [])[v]? with
    | none => left; rfl
    | some y =>
      rw [List.getD_eq_getElem?_getD] at hy
      cases hr : x[k]? with
      | none => rw [hr] at hy; simp at hy
      | some r =>
        rw [hr] at hy
        exact (hx.2 r (List.mem_of_getElem? hr)).2 y (List.mem_of_getElem? hy)
  have dg : ∀ f, (packC ctx Cs f).degree < (ctx.t + ctx.l : Nat) := packC_degree h hC
  refine ⟨fun i hi => ?_, fun i hi => ?_, fun i hi v hv => ?_, fun i hi => ?_, fun i hi v hv => ?_⟩
  · refine casesR hs (fun i => ((o.move ctx d s errs Cs S S' w).R i).degree < (ctx.t + ctx.l : Nat)) (N := NR)
      (fun k hk => ?_) (fun k hk => ?_) (fun k hk => ?_) (fun j hj => ?_) (fun j hj => ?_) i hi
    · have := errIdx_lt' hs (c := 3) (r := 0) (by omega) hk
      rw [move_mask1 hs hk]
      exact degree_add_lt (ho.R _ (by omega)) (dg _)
    · have := errIdx_lt' hs (c := 3) (r := 1) (by omega) hk
      rw [move_scalar hs hk]
      exact degree_add_lt (ho.R _ (by omega)) (dg _)
    · have := errIdx_lt' hs (c := 3) (r := 2) (by omega) hk
      rw [move_mask2 hs hk]
      exact degree_sub_lt' (degree_add_lt (ho.R _ (by omega)) (err_degree h hs lR ho hk)) (hw.errors k hk).1
    · rw [move_keys hj]; exact (hw.keys j hj).1
    · rw [move_rand]; exact hw.rand j hj
  · refine casesZ hs (fun i => ((o.move ctx d s errs Cs S S' w).Z i).degree < ctx.n) (N := NZ) (fun k hk => ?_) (fun k hk => ?_)
      (fun j hj => ?_) i hi
    · have b0 := errIdx_lt' hs (c := 2) (r := 0) (by omega) hk
      have b1 := errIdx_lt' hs (c := 2) (r := 1) (by omega) hk
      have b2 := errIdx_lt' hs (c := 3) (r := 0) (by omega) hk
      rw [move_zero1 hs hk]
      refine sub_mul_degree h hm (openPoly_degree h hm (ho.B _ (by omega)) (ho.B _ (by omega)) (ho.R _ (by omega)) (ho.Z _ (by omega)))
        (degree_add_lt (ho.B _ (by omega)) (dg _)) (degree_add_lt (ho.B _ (by omega)) (dg _)) (degree_add_lt (ho.R _ (by omega)) (dg _))
    · have b0 := errIdx_lt' hs (c := 2) (r := 1) (by omega) hk
      have b1 := errIdx_lt' hs (c := 3) (r := 1) (by omega) hk
      have b2 := errIdx_lt' hs (c := 3) (r := 2) (by omega) hk
      rw [move_zero2 hs hk]
      refine sub_mul_degree h hm (openPoly_degree h hm (mid_degree h hs lR ho hk) (ho.R _ (by omega)) (ho.R _ (by omega)) (ho.Z _ (by omega)))
        (degree_sub_lt' (mid_degree h hs lR ho hk) (dg _)) (degree_add_lt (ho.R _ (by omega)) (dg _))
        (degree_sub_lt' (degree_add_lt (ho.R _ (by omega)) (err_degree h hs lR ho hk)) (hw.errors k hk).1)
    · rw [move_zero]; exact (hw.zero j hj).1
  · refine casesZ hs (fun i => ((o.move ctx d s errs Cs S S' w).Z i).eval v = 0) (N := NZ) (fun k hk => ?_) (fun k hk => ?_)
      (fun j hj => ?_) i hi
    · have b0 := errIdx_lt' hs (c := 2) (r := 0) (by omega) hk
      have hz := ho.Z0 _ (show errIdx 2 s 0 k < NZ by omega) v hv
      obtain ⟨u, hu, rfl⟩ := List.mem_map.1 hv
      have hu := List.mem_range.1 hu
      rw [move_zero1 hs hk, ← move_bit0 (w := w) (errs := errs) hs hk, ← move_bit1 (w := w) (errs := errs) hs hk]
      simp only [eval_sub, eval_mul, eval_add, Outs.open1, openPoly]
      rw [hH.bit0 k hk u hu, hH.bit1 k hk u hu, hS.bit0 k hk u hu, hS.bit1 k hk u hu, hz]
      unfold dMask
      rw [packC_secret h hC _ hu]
      ring
    · have b0 := errIdx_lt' hs (c := 2) (r := 1) (by omega) hk
      have hz := ho.Z0 _ (show errIdx 2 s 1 k < NZ by omega) v hv
      obtain ⟨u, hu, rfl⟩ := List.mem_map.1 hv
      have hu := List.mem_range.1 hu
      rw [move_zero2 hs hk, ← move_scalar (w := w) (errs := errs) hs hk]
      simp only [eval_sub, eval_mul, eval_add, Outs.open2, openPoly]
      rw [hH.scalars k hk u hu, hS.scalars k hk u hu, hz, mid_secret h hs lZ ho hS hk hu, err_secret h hs lZ ho hS hk hu,
        (hw.errors k hk).2 u hu]
      unfold dMask
      rw [packC_secret h hC _ hu]
      ring
    · rw [move_zero]; exact (hw.zero j hj).2 v hv
  · revert hi
    refine casesB hs (fun i => i < NB → ((o.move ctx d s errs Cs S S' w).B i).degree < (ctx.t + ctx.l : Nat)) (fun k hk hi => ?_)
      (fun k hk hi => ?_) (fun j hj _ => ?_) (fun i hi hi' => ?_) i
    · rw [move_bit0 hs hk]; exact degree_add_lt (ho.B _ hi) (dg _)
    · rw [move_bit1 hs hk]; exact degree_add_lt (ho.B _ hi) (dg _)
    · rw [move_masks hj]; exact (hw.masks j hj).1
    · rw [move_rest hi]; exact ho.B _ hi'
  · revert hi
    refine casesB hs (fun i => i < NB → IsBit (((o.move ctx d s errs Cs S S' w).B i).eval v)) (fun k hk hi => ?_)
      (fun k hk hi => ?_) (fun j hj _ => ?_) (fun i hi hi' => ?_) i
    · obtain ⟨u, hu, rfl⟩ := List.mem_map.1 hv
      rw [hH.bit0 k hk u (List.mem_range.1 hu)]
      exact hbits hS'.bit0 _ _
    · obtain ⟨u, hu, rfl⟩ := List.mem_map.1 hv
      rw [hH.bit1 k hk u (List.mem_range.1 hu)]
      exact hbits hS'.bit1 _ _
    · obtain ⟨u, hu, rfl⟩ := List.mem_map.1 hv
      rw [hH.masks j hj u (List.mem_range.1 hu)]
      exact hbits hS'.masks _ _
    · rw [move_rest hi]; exact ho.B0 i hi' v hv

/-- The shares of `q` of both materials are the same. -/
structure MatPolys.Same (d : PreProcCount) (nr nz q : Nat) (w w' : MatPolys F) : Prop where
  masks : ∀ j < d.masks, (w'.masks j).eval (ofU32 q) = (w.masks j).eval (ofU32 q)
  keys : ∀ j < d.numKeys, (w'.keys j).eval (ofU32 q) = (w.keys j).eval (ofU32 q)
  errors : ∀ j < d.errors, (w'.errors j).eval (ofU32 q) = (w.errors j).eval (ofU32 q)
  rand : ∀ j < nr, (w'.rand j).eval (ofU32 q) = (w.rand j).eval (ofU32 q)
  zero : ∀ j < nz, (w'.zero j).eval (ofU32 q) = (w.zero j).eval (ofU32 q)

include h hC hs in
/-- The coalition's shares do not change if they do not change in the material. -/
theorem move_shares {q : Nat} (hq : q ∈ Cs)
    (hsame : MatPolys.Same d (NR - 3 * d.errors - d.numKeys) (NZ - 2 * d.errors) q (o.mat ctx d s errs) w) :
    (∀ i < NR, ((o.move ctx d s errs Cs S S' w).R i).eval (ofU32 q) = (o.R i).eval (ofU32 q)) ∧
    (∀ i < NZ, ((o.move ctx d s errs Cs S S' w).Z i).eval (ofU32 q) = (o.Z i).eval (ofU32 q)) ∧
    ∀ i, ((o.move ctx d s errs Cs S S' w).B i).eval (ofU32 q) = (o.B i).eval (ofU32 q) := by
  have hp : ∀ f, (packC ctx Cs f).eval (ofU32 q) = 0 := fun f => packC_share h hC f hq
  refine ⟨fun i hi => ?_, fun i hi => ?_, fun i => ?_⟩
  · refine casesR hs (fun i => ((o.move ctx d s errs Cs S S' w).R i).eval (ofU32 q) = (o.R i).eval (ofU32 q)) (N := NR)
      (fun k hk => ?_) (fun k hk => ?_) (fun k hk => ?_) (fun j hj => ?_) (fun j hj => ?_) i hi
    · rw [move_mask1 hs hk, eval_add, dMask, hp, add_zero]
    · rw [move_scalar hs hk, eval_add, dScalar, hp, add_zero]
    · rw [move_mask2 hs hk, eval_sub, eval_add, hsame.errors k hk]
      exact add_sub_cancel_right _ _
    · rw [move_keys hj]; exact hsame.keys j hj
    · rw [move_rand]; exact hsame.rand j hj
  · refine casesZ hs (fun i => ((o.move ctx d s errs Cs S S' w).Z i).eval (ofU32 q) = (o.Z i).eval (ofU32 q)) (N := NZ)
      (fun k hk => ?_) (fun k hk => ?_) (fun j hj => ?_) i hi
    · rw [move_zero1 hs hk]
      simp only [eval_sub, eval_mul, eval_add, Outs.open1, openPoly, dBit0, dBit1, dMask, hp]
      ring
    · rw [move_zero2 hs hk]
      simp only [eval_sub, eval_mul, eval_add, Outs.open2, openPoly, dScalar, dMask, hp, hsame.errors k hk]
      show _ - _ - (_ + _ - (o.err ctx s errs k).eval _) = _
      ring
    · rw [move_zero]; exact hsame.zero j hj
  · refine casesB hs (fun i => ((o.move ctx d s errs Cs S S' w).B i).eval (ofU32 q) = (o.B i).eval (ofU32 q)) (fun k hk => ?_)
      (fun k hk => ?_) (fun j hj => ?_) (fun i hi => ?_) i
    · rw [move_bit0 hs hk, eval_add, dBit0, hp, add_zero]
    · rw [move_bit1 hs hk, eval_add, dBit1, hp, add_zero]
    · rw [move_masks hj]; exact hsame.masks j hj
    · rw [move_rest hi]

end ok

end Verif
