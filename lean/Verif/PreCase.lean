import Verif.PreLift
import Verif.Props.ProtoId
import Verif.BinsupRank

/-!
# Runs of `preproc` with given secrets
-/

open Polynomial

namespace Verif

open CodeField (ofU32)

variable {F : Type} [CodeField F] [DecidableEq F]

section
variable {c : Codec F} {ctx : Ctx F} {m mb : Mat F} {d : PreProcCount}

theorem PreParams.hyp (P : PreParams c ctx m mb d) (id : ProtocolID) :
    ∃ ids br bz bb, PreHyp c ctx m mb d id ids br bz bb := by
  obtain ⟨br, hbr⟩ := numBatches_some (d.numKeys + d.randoms + 3 * d.errors) (List.length_pos_iff.2 P.mat.2.2)
  obtain ⟨bz, hbz⟩ := numBatches_some (d.zeros + 2 * d.errors) (List.length_pos_iff.2 P.mat.2.2)
  obtain ⟨bb, hbb⟩ := numBatches_some (d.masks + 2 * d.errors) (List.length_pos_iff.2 P.matb.2.2)
  obtain ⟨ids, hids⟩ := Option.isSome_iff_exists.1 (Props.C30_preproc id ctx.n P.parties)
  exact ⟨ids, br, bz, bb, P.good, P.mult, P.mat, P.matb, P.binary, P.codec, hbr, hbz, hbb, hids,
    (Props.C29_preproc_distinct id ctx.n ids hids).2.1, P.sizeR, P.sizeZ, P.sizeB⟩

end

/-- Secrets which are zero but for slot 0 of the `k`-th sharing from `randbit`. -/
def onlyBit (l : Nat) (d : PreProcCount) (s : List Nat) (k : Nat) (x : F) : PreSecrets F where
  masks := (List.range d.masks).map fun j => (List.range l).map fun v => if 2 * d.errors + j = k ∧ v = 0 then x else 0
  keys := List.replicate d.numKeys (List.replicate l 0)
  bit0 := (List.range d.errors).map fun j => (List.range l).map fun v => if errIdx 2 s 0 j = k ∧ v = 0 then x else 0
  bit1 := (List.range d.errors).map fun j => (List.range l).map fun v => if errIdx 2 s 1 j = k ∧ v = 0 then x else 0
  scalars := List.replicate d.errors (List.replicate l 0)

omit [DecidableEq F] in
theorem onlyBit_fit (l : Nat) (d : PreProcCount) (s : List Nat) (k : Nat) {x : F} (hx : IsBit x) : (onlyBit l d s k x).Fit l d := by
  have tab : ∀ (n : Nat) (P : Nat → Nat → Prop) [∀ j v, Decidable (P j v)],
      ((List.range n).map fun j => (List.range l).map fun v => if P j v then x else 0).length = n ∧
      ∀ y ∈ (List.range n).map fun j => (List.range l).map fun v => if P j v then x else 0, y.length = l ∧ ∀ v ∈ y, v = 0 ∨ v = 1 := by
    intro n P _
    refine ⟨by simp, fun y hy => ?_⟩
    obtain ⟨j, _, rfl⟩ := List.mem_map.1 hy
    refine ⟨by simp, fun v hv => ?_⟩
    obtain ⟨i, _, rfl⟩ := List.mem_map.1 hv
    split
    · exact hx
    · left; rfl
  have rep : ∀ n : Nat, (List.replicate n (List.replicate l (0 : F))).length = n ∧
      ∀ y ∈ List.replicate n (List.replicate l (0 : F)), y.length = l := by
    intro n
    refine ⟨by simp, fun y hy => ?_⟩
    rw [List.eq_of_mem_replicate hy, List.length_replicate]
  exact ⟨tab _ _, rep _, tab _ _, tab _ _, rep _⟩

omit [DecidableEq F] in
theorem at2_zeros (a l j v : Nat) : at2 (List.replicate a (List.replicate l (0 : F))) j v = 0 := by
  unfold at2
  simp only [List.getD_eq_getElem?_getD, List.getElem?_replicate]
  by_cases h : j < a
  · rw [if_pos h, Option.getD_some, List.getElem?_replicate]
    split <;> rfl
  · rw [if_neg h]
    simp

omit [DecidableEq F] in
theorem at2_zeros' (a l : Nat) (Q : Nat → Nat → Prop) [∀ j v, Decidable (Q j v)] (j v : Nat) :
    at2 ((List.range a).map fun j => (List.range l).map fun v => if Q j v then (0 : F) else 0) j v = 0 := by
  simp only [ite_self, List.map_const', List.length_range]
  exact at2_zeros a l j v

section
variable {c : Codec F} {ctx : Ctx F} {m mb : Mat F} {d : PreProcCount} {id : ProtocolID} {ids : List ProtocolID} {br bz bb : Nat}
  (H : PreHyp c ctx m mb d id ids br bz bb)

/-- Leaders' randomness. -/
def zeroErrs (ctx : Ctx F) (d : PreProcCount) : List (ErrTapes F) :=
  (List.range ctx.n).map fun a => ⟨List.replicate (errSize d.errors ctx.n a) (List.replicate ctx.t 0),
    List.replicate (errSize d.errors ctx.n a) (List.replicate ctx.t 0)⟩

include H

/-- There are runs with secrets zero. -/
theorem PreHyp.zero_run {S : PreSecrets F} (hS : S.Fit ctx.l d) (h0 : ∀ j v, at2 S.masks j v = 0 ∧ at2 S.keys j v = 0 ∧
    at2 S.bit0 j v = 0 ∧ at2 S.bit1 j v = 0 ∧ at2 S.scalars j v = 0) : Nonempty (TapesWith ctx m mb d S) := by
  have z : ∀ k : Nat, (0 : F[X]).degree < (k : Nat) := fun k => by rw [degree_zero]; exact WithBot.bot_lt_coe _
  let tp : PreTapes F := .ofPolys ctx br bz bb (fun _ _ => 0) (fun _ _ => 0) (fun _ _ => 0) (zeroErrs ctx d)
  have hok : tp.Ok ctx.n ctx.t ctx.l m mb d := {
    rand := fun b hb => by
      obtain rfl := Option.some.inj (hb.symm.trans H.br)
      exact tab3_shape _
    zero := fun b hb => by
      obtain rfl := Option.some.inj (hb.symm.trans H.bz)
      exact tab3_shape _
    bits := fun b hb => by
      obtain rfl := Option.some.inj (hb.symm.trans H.bb)
      exact tab3_shape _
    rbit := fun b hb => by
      obtain rfl := Option.some.inj (hb.symm.trans H.bb)
      exact tab3_shape _
    errs := by
      refine ⟨by simp [tp, PreTapes.ofPolys, zeroErrs], fun a e he => ?_⟩
      have he : (zeroErrs ctx d)[a]? = some e := he
      unfold zeroErrs at he
      rw [List.getElem?_map] at he
      obtain ⟨i, hi, rfl⟩ := Option.map_eq_some_iff.1 he
      obtain ⟨-, rfl⟩ := List.getElem?_eq_some_iff.1 hi
      simp [ErrTapes.Ok] }
  refine ⟨tp, hok, (H.hasSecrets hok hS).2 ?_⟩
  obtain ⟨b1, b2, b3⟩ := H.bounds
  have hR : ∀ k < m.rows.length * br, tp.outR ctx m br k = 0 := by
    intro k hk
    unfold PreTapes.outR
    rw [dealPoly_congr (q' := fun _ _ => 0) (fun p hp b hb => ofPolys_R H.good hp hb (z _)) hk]
    simp [dealPoly]
  have hB : ∀ k < mb.rows.length * bb, tp.outB ctx mb bb k = 0 := by
    intro k hk
    unfold PreTapes.outB
    rw [dealPoly_congr (q' := fun _ _ => 0) (fun p hp b hb => ofPolys_B H.good hp hb (z _) fun v _ => by left; exact eval_zero) hk]
    simp [dealPoly]
  refine ⟨fun j hj v _ => ?_, fun j hj v _ => ?_, fun k hk v _ => ?_, fun k hk v _ => ?_, fun k hk v _ => ?_⟩
  · show ((tp.outB ctx mb bb (2 * d.errors + j)).eval _) = _
    rw [hB _ (by omega), eval_zero, (h0 _ _).1]
  · show ((tp.outR ctx m br (3 * d.errors + j)).eval _) = _
    rw [hR _ (by omega), eval_zero, (h0 _ _).2.1]
  · show ((tp.outB ctx mb bb (errIdx 2 (errSizes d ctx.n) 0 k)).eval _) = _
    rw [hB _ ((H.idx hk).1 0 (by omega)).2, eval_zero, (h0 _ _).2.2.1]
  · show ((tp.outB ctx mb bb (errIdx 2 (errSizes d ctx.n) 1 k)).eval _) = _
    rw [hB _ ((H.idx hk).1 1 (by omega)).2, eval_zero, (h0 _ _).2.2.2.1]
  · show ((tp.outR ctx m br (errIdx 3 (errSizes d ctx.n) 1 k)).eval _) = _
    rw [hR _ ((H.idx hk).2 1 (by omega)), eval_zero, (h0 _ _).2.2.2.2]

theorem PreHyp.zero_exists : Nonempty (TapesWith ctx m mb d (onlyBit ctx.l d (errSizes d ctx.n) k (0 : F))) :=
  H.zero_run (onlyBit_fit ctx.l d (errSizes d ctx.n) k (Or.inl rfl)) fun _ _ =>
    ⟨at2_zeros' _ _ _ _ _, at2_zeros _ _ _ _, at2_zeros' _ _ _ _ _, at2_zeros' _ _ _ _ _, at2_zeros _ _ _ _⟩

/-- The secrets of the sharings from `randbit`. -/
theorem PreHyp.onlyBit_at {k : Nat} {x : F} (hx : IsBit x) (tp : TapesWith ctx m mb d (onlyBit ctx.l d (errSizes d ctx.n) k x)) {i : Nat}
    (hi : i < d.masks + 2 * d.errors) :
    (tp.1.outB ctx mb bb i).eval (ofU32 ctx.n) = if i = k then x else 0 := by
  have hl := H.good.posL
  have has := (H.hasSecrets tp.2.1 (onlyBit_fit ctx.l d (errSizes d ctx.n) k hx)).1 tp.2.2
  revert hi
  refine casesB (s := errSizes d ctx.n) (d := d) H.sizes_sum (fun i => i < d.masks + 2 * d.errors → (tp.1.outB ctx mb bb i).eval (ofU32 ctx.n) = if i = k then x else 0)
    (fun j hj _ => ?_) (fun j hj _ => ?_) (fun j hj _ => ?_) (fun i hi hi' => absurd hi' (by omega)) i
  · have := has.bit0 j hj 0 hl
    refine this.trans ?_
    unfold at2 onlyBit
    rw [getD_tab _ _ _ hj, getD_tab _ _ _ hl]
    simp
  · have := has.bit1 j hj 0 hl
    refine this.trans ?_
    unfold at2 onlyBit
    rw [getD_tab _ _ _ hj, getD_tab _ _ _ hl]
    simp
  · have := has.masks j hj 0 hl
    refine this.trans ?_
    unfold at2 onlyBit
    rw [getD_tab _ _ _ hj, getD_tab _ _ _ hl]
    simp

/-- Parties who know a sum of outputs of the matrix know a sum of secrets. -/
theorem PreHyp.leak {T U : Finset Nat} (hT : ∀ p ∈ T, p < ctx.n) (hU : ∀ u ∈ U, u < mb.rows.length) (hleak : mb.Leaks T U)
    (tp : PreTapes F) {b : Nat} (hb : b < bb) (v : F) :
    ∑ u ∈ U, (tp.outB ctx mb bb (u * bb + b)).eval v = ∑ p ∈ T, (tp.polyB ctx p b).eval v := by
  have hmul : mb.mulVec ((List.range ctx.n).map fun p => (tp.polyB ctx p b).eval v)
      = some ((List.range mb.rows.length).map fun u => (tp.outB ctx mb bb (u * bb + b)).eval v) := by
    unfold Mat.mulVec
    rw [if_pos (by simp [H.matb.2.1]), Option.some.injEq]
    apply List.ext_getElem (by simp)
    intro r hr1 hr2
    have hr : r < mb.rows.length := by simpa using hr1
    simp only [List.getElem_map, List.getElem_range]
    rw [dot_sum (H.matb.1 _ (List.getElem_mem hr)) (by simp [H.matb.2.1]), H.matb.2.1]
    unfold PreTapes.outB
    rw [dealPoly_eval]
    have hd : (r * bb + b) / bb = r := by
      rw [Nat.mul_comm, Nat.mul_add_div (by omega), Nat.div_eq_of_lt hb, Nat.add_zero]
    have hmod : (r * bb + b) % bb = b := by
      rw [Nat.mul_comm, Nat.mul_add_mod, Nat.mod_eq_of_lt hb]
    refine Finset.sum_congr rfl fun p hp => ?_
    rw [hd, hmod, getD_tab _ _ _ (Finset.mem_range.1 hp), List.getD_eq_getElem?_getD (l := mb.rows), List.getElem?_eq_getElem hr,
      Option.getD_some]
  have := hleak _ _ hmul
  rw [Finset.sum_congr rfl fun u hu => getD_tab _ (fun u => (tp.outB ctx mb bb (u * bb + b)).eval v) _ (hU u hu),
    Finset.sum_congr rfl fun p hp => getD_tab _ (fun p => (tp.polyB ctx p b).eval v) _ (hT p hp)] at this
  exact this

end

end Verif
