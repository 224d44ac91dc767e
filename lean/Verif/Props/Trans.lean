import Verif.Props.Lengths
import Verif.Props.Tamper

/-! # C110 and C112 for `trans` -/

open Polynomial Verif
open Verif.CodeField (ofU32)

namespace Verif.Props

section
variable {F : Type} [CodeField F] [DecidableEq F]

/-- Whatever the leader gets, each column lies on a polynomial of degree below `n`. -/
theorem exists_tab_of_flat {n num : Nat} (hn : n ≤ CodeField.order F) (flat : List F) (hl : flat.length = n * num) :
    ∃ q : Nat → F[X], (∀ j < num, (q j).degree < n) ∧ toRows n num flat = toRows n num (tabShares n num q).flatten := by
  have hcols : ∀ j < num, ∃ q : F[X], q.degree < n ∧ ∀ p < n, q.eval (ofU32 p) = flat.getD (p * num + j) 0 := by
    intro j hj
    obtain ⟨q, h1, h2⟩ := exists_poly_of_values (sharePos n : List F) (sharePos_nodup hn)
      ((List.range n).map fun p => flat.getD (p * num + j) 0) (by simp [sharePos_length])
    rw [sharePos_length] at h1
    refine ⟨q, h1, fun p hp => ?_⟩
    unfold sharePos at h2
    rw [List.map_map] at h2
    exact List.map_inj_left.1 h2 p (List.mem_range.2 hp)
  obtain ⟨q, hq⟩ := exists_family num hcols
  refine ⟨q, fun j hj => (hq j hj).1, ?_⟩
  have h0 := range_getD flat 0
  rw [hl] at h0
  rw [tabShares_flatten, h0, toRows_tab _ _ _ rfl, Option.some.injEq]
  unfold tabShares
  refine List.map_congr_left fun p hp => List.map_congr_left fun j hj => ?_
  exact ((hq j (List.mem_range.1 hj)).2 p (List.mem_range.1 hp)).symm

omit [DecidableEq F] in
theorem transSend_tab (n num : Nat) (x rn : Nat → F[X]) (ctx : Ctx F) (hc : ctx.n = n) :
    transSends ctx (tabShares n num x) (tabShares n num rn) = some (tabShares n num fun j => rn j + x j) := by
  subst hc
  unfold transSends
  apply mapM_range_some
  intro i hi
  rw [tabShares_row _ _ _ _ hi, tabShares_row _ _ _ _ hi, Option.bind_some, Option.bind_some]
  unfold transSend
  rw [if_pos (by simp)]
  unfold vadd
  simp [List.zipWith_map_left, List.zipWith_map_right, List.zipWith_self]

/-- The two halves are `trans`. -/
theorem trans_halves (ctx : Ctx F) (tr : SharingTransform F) (num : Nat) (tapes vxs randoms randomsN : List (List F)) :
    trans ctx tr num tapes vxs randoms randomsN = (transSends ctx vxs randomsN).bind (transFrom ctx tr num tapes randoms) := rfl

theorem transLeader_isSome_iff (ctx : Ctx F) (hn : 1 ≤ ctx.t + ctx.l) (hl : ctx.t + ctx.l ≤ ctx.n) (tr : SharingTransform F)
    (hg : GoodPos ctx.n tr.newPos) (hnl : tr.newPos.length ≤ ctx.t + ctx.l) (w : List F) (hw : tr.f.apply tr.oldPos = some w)
    (hwl : w.length = tr.newPos.length) (num : Nat) (tapes : List (List F)) (ht : tapes.length = num)
    (htl : ∀ tp ∈ tapes, tp.length = ctx.t + ctx.l - tr.newPos.length) (vs : List (List F)) :
    (transLeader ctx tr num tapes vs).isSome = true ↔ (vs.map List.length).sum = ctx.n * num := by
  rw [← List.length_flatten]
  constructor
  · intro h
    rw [← toRows_isSome_iff]
    unfold transLeader at h
    split at h
    · cases h
    · cases h1 : computeReconCoeffs (ctx.n - 1) ctx.n tr.oldPos with
      | none => rw [h1] at h; cases h
      | some a =>
        cases h2 : computeShareCoeffs (ctx.t + ctx.l - 1) ctx.n tr.newPos with
        | none => rw [h1, h2] at h; cases h
        | some b =>
          cases h3 : toRows ctx.n num vs.flatten with
          | none => rw [h1, h2, h3] at h; cases h
          | some rows => rfl
  · intro h
    obtain ⟨q, hq, hrows⟩ := exists_tab_of_flat hg.small vs.flatten h
    obtain ⟨y, _, _, hy⟩ := trans_tab (by omega) hl hn tr hg hnl num tapes ht htl q (fun _ => 0) (fun _ => 0) hq
      (fun _ _ => by rw [degree_zero]; exact WithBot.bot_lt_coe _) (fun _ _ => by rw [degree_zero]; exact WithBot.bot_lt_coe _)
      (fun _ _ => by
        rw [apply_map, hw]
        simp [hwl])
    rw [trans_halves, transSend_tab _ _ _ _ _ rfl, Option.bind_some] at hy
    simp only [zero_add] at hy
    obtain ⟨rs, hrs, _⟩ := Option.bind_eq_some_iff.1 hy
    have : transLeader ctx tr num tapes vs = transLeader ctx tr num tapes (tabShares ctx.n num q) := by
      unfold transLeader
      rw [hrows]
    rw [this, hrs]
    rfl

/-- C110, the leader of `trans`, which has `num` values itself, accepts the vectors `vs` exactly if they have `n * num` entries together. -/
theorem C110_trans_leader_iff {O : Type} (c : Codec F) (hc : c.Ok) (ctx : Ctx F) (hn : 1 ≤ ctx.t + ctx.l) (hl : ctx.t + ctx.l ≤ ctx.n)
    (tr : SharingTransform F) (hg : GoodPos ctx.n tr.newPos) (hnl : tr.newPos.length ≤ ctx.t + ctx.l) (w : List F)
    (hw : tr.f.apply tr.oldPos = some w) (hwl : w.length = tr.newPos.length) (L : Nat) (tapes : List (List F))
    (inp : Nat → Env O → Option (List F × List F × List F)) (ret : List F → O) (env : Env O) (i : List F × List F × List F)
    (hi : inp L env = some i) (ht : tapes.length = i.1.length) (htl : ∀ tp ∈ tapes, tp.length = ctx.t + ctx.l - tr.newPos.length)
    (vs : List (List F)) (hv : ∀ v ∈ vs, v.length < 2 ^ 64) :
    ((transProto c ctx tr L tapes inp ret).answer env (vs.map c.enc)).isSome = true ↔ (vs.map List.length).sum = ctx.n * i.1.length := by
  unfold transProto
  simp only [hi, decode_all c hc vs hv, Option.bind_some, Option.isSome_map]
  exact transLeader_isSome_iff ctx hn hl tr hg hnl w hw hwl _ tapes ht htl vs

theorem transLeader_lengths {ctx : Ctx F} {tr : SharingTransform F} {num : Nat} {tapes vs rs : List (List F)}
    (h : transLeader ctx tr num tapes vs = some rs) : rs.length = ctx.n ∧ ∀ r ∈ rs, r.length = num := by
  unfold transLeader at h
  split at h
  · cases h
  obtain ⟨_, _, h⟩ := Option.bind_eq_some_iff.1 h
  obtain ⟨_, _, h⟩ := Option.bind_eq_some_iff.1 h
  obtain ⟨_, _, h⟩ := Option.bind_eq_some_iff.1 h
  obtain ⟨_, _, h⟩ := Option.bind_eq_some_iff.1 h
  obtain ⟨sh, _, h⟩ := Option.bind_eq_some_iff.1 h
  obtain ⟨rows, hr, rfl⟩ := Option.map_eq_some_iff.1 h
  refine ⟨by simp, fun r hm => ?_⟩
  obtain ⟨i, hi, rfl⟩ := List.mem_map.1 hm
  rw [col_length, toRows_length hr]
  intro x hx
  rw [toRows_width hr x hx]
  exact List.mem_range.1 hi

/-- C110, `trans`.  Party `p` calls it for `b p` values, and `L` is the leader.  All parties get a result exactly if all of them have called it for the
same number of values. -/
theorem C110_trans_agree (ctx : Ctx F) (hn : 1 ≤ ctx.t + ctx.l) (hl : ctx.t + ctx.l ≤ ctx.n)
    (tr : SharingTransform F) (hg : GoodPos ctx.n tr.newPos) (hnl : tr.newPos.length ≤ ctx.t + ctx.l) (w : List F)
    (hw : tr.f.apply tr.oldPos = some w) (hwl : w.length = tr.newPos.length) (b : Nat → Nat) (L : Nat) (hL : L < ctx.n) (tapes : List (List F))
    (ht : tapes.length = b L) (htl : ∀ tp ∈ tapes, tp.length = ctx.t + ctx.l - tr.newPos.length) (x r rn : Nat → List F)
    (hx : ∀ p < ctx.n, (x p).length = b p) (hr : ∀ p < ctx.n, (r p).length = b p) (hrn : ∀ p < ctx.n, (rn p).length = b p) :
    (trans ctx tr (b L) tapes ((List.range ctx.n).map x) ((List.range ctx.n).map r) ((List.range ctx.n).map rn)).isSome = true ↔
      ∀ p < ctx.n, b p = b 0 := by
  have hget : ∀ (f : Nat → List F) (p : Nat), p < ctx.n → ((List.range ctx.n).map f)[p]? = some (f p) := fun f p hp => by
    rw [List.getElem?_map, List.getElem?_range hp, Option.map_some]
  have hsend : transSends ctx ((List.range ctx.n).map x) ((List.range ctx.n).map rn) = some ((List.range ctx.n).map fun p => vadd (rn p) (x p)) := by
    refine mapM_range_some _ _ _ fun p hp => ?_
    rw [hget x p hp, hget rn p hp, Option.bind_some, Option.bind_some]
    unfold transSend
    rw [if_pos (by rw [hx p hp, hrn p hp])]
  have hlens : ((List.range ctx.n).map fun p => vadd (rn p) (x p)).map List.length = (List.range ctx.n).map b := by
    rw [List.map_map]
    refine List.map_congr_left fun p hp => ?_
    have hp := List.mem_range.1 hp
    simp [vadd, hx p hp, hrn p hp]
  have hiff := transLeader_isSome_iff ctx hn hl tr hg hnl w hw hwl (b L) tapes ht htl ((List.range ctx.n).map fun p => vadd (rn p) (x p))
  rw [hlens] at hiff
  rw [trans_halves, hsend, Option.bind_some]
  unfold transFrom
  constructor
  · intro hs
    obtain ⟨outs, hs⟩ := Option.isSome_iff_exists.1 hs
    obtain ⟨rs, h1, h2⟩ := Option.bind_eq_some_iff.1 hs
    obtain ⟨l1, l2⟩ := transLeader_lengths h1
    have hb : ∀ p < ctx.n, b p = b L := by
      intro p hp
      have h3 := (mapM_range_get [] h2).2.1 p hp
      rw [hget r p hp, List.getElem?_eq_getElem (by omega), Option.bind_some, Option.bind_some] at h3
      unfold rdFinish at h3
      split at h3
      · next h4 =>
        rw [l2 _ (List.getElem_mem _), hr p hp] at h4
        exact h4.symm
      · cases h3
    intro p hp
    rw [hb p hp, hb 0 (by omega)]
  · intro hb
    have hb' : ∀ p < ctx.n, b p = b L := fun p hp => by rw [hb p hp, hb L hL]
    obtain ⟨rs, h1⟩ := Option.isSome_iff_exists.1 (hiff.2 (sum_same hb'))
    obtain ⟨l1, l2⟩ := transLeader_lengths h1
    rw [h1, Option.bind_some]
    rw [mapM_range_some _ _ fun p => vsub (rs.getD p []) (r p)]
    · rfl
    · intro p hp
      rw [hget r p hp, List.getD_eq_getElem?_getD, List.getElem?_eq_getElem (by omega), Option.bind_some, Option.bind_some, Option.getD_some]
      unfold rdFinish
      rw [if_pos (by rw [l2 _ (List.getElem_mem _), hr p hp, hb' p hp])]

omit [DecidableEq F] in
theorem shift_poly_at {n : Nat} (hn : n ≤ CodeField.order F) (e : Nat → F) : ∃ p : F[X], p.degree < n ∧ (∀ i, i < n → p.eval (ofU32 i) = e i) ∧
    ∀ v, p.eval v = shiftAt n e v := by
  refine ⟨Lagrange.interpolate (Finset.range n) (fun i => (ofU32 i : F)) e, ?_, ?_, ?_⟩
  · have := Lagrange.degree_interpolate_lt (s := Finset.range n) (v := fun i => (ofU32 i : F)) e (nodes_inj hn)
    simpa using this
  · intro i hi
    exact Lagrange.eval_interpolate_at_node (s := Finset.range n) (v := fun i => (ofU32 i : F)) e (nodes_inj hn) (Finset.mem_range.2 hi)
  · intro k
    rw [Lagrange.interpolate_apply, eval_finsetSum]
    simp [shiftAt]

/-- C112, `trans`.  The inputs are as in C43, but the parties add arbitrary values to the shares they send to the leader.  Nobody notices: all parties
get results, and these are a sharing, of degree below `t + l`, of the selection `f` from secrets which are shifted by a linear function of the errors. -/
theorem C112_trans_undetected_false (ctx : Ctx F) (hn : 1 ≤ ctx.t + ctx.l) (hl : ctx.t + ctx.l ≤ ctx.n) (tr : SharingTransform F)
    (hg : GoodPos ctx.n tr.newPos) (hnl : tr.newPos.length ≤ ctx.t + ctx.l)
    (X R R' vxs randoms randomsN tapes : List (List F))
    (hx : VecSharing ctx.n ctx.n tr.oldPos X vxs)
    (hrn : VecSharing ctx.n ctx.n tr.oldPos R randomsN) (hR : R.length = X.length)
    (hr : VecSharing ctx.n (ctx.t + ctx.l) tr.newPos R' randoms) (hf : R.mapM tr.f.apply = some R')
    (ht : tapes.length = X.length) (htl : ∀ tp ∈ tapes, tp.length = ctx.t + ctx.l - tr.newPos.length) (e : Nat → Nat → F) :
    ∃ sent outs Y, transSends ctx vxs randomsN = some sent ∧ transFrom ctx tr X.length tapes randoms (tamper e sent) = some outs ∧
      (shiftSecretsAt ctx.n tr.oldPos e X).mapM tr.f.apply = some Y ∧ VecSharing ctx.n (ctx.t + ctx.l) tr.newPos Y outs := by
  obtain ⟨x, x1, x2, x3⟩ := (vecSharing_iff _ _ _ _ _).1 hx
  obtain ⟨rn, rn1, rn2, rn3⟩ := (vecSharing_iff _ _ _ _ _).1 hrn
  rw [hR] at rn1 rn2 rn3
  choose E hE1 hE2 hE3 using fun j => shift_poly_at (n := ctx.n) hg.small fun p => e p j
  -- wrong messages are the messages for other inputs
  have hX' : shiftSecretsAt ctx.n tr.oldPos e X = tabSecrets tr.oldPos X.length fun j => x j + E j := by
    unfold shiftSecretsAt
    conv_lhs => rw [x3]
    unfold tabSecrets
    apply List.ext_getElem?
    intro j
    by_cases hj : j < X.length
    · simp only [List.getElem?_mapIdx, List.getElem?_map, List.getElem?_range hj, Option.map_some, Option.some.injEq]
      simp [List.zipWith_map_right, List.zipWith_self, hE3]
    · simp [hj]
  have hlen : (shiftSecretsAt ctx.n tr.oldPos e X).length = X.length := by simp [shiftSecretsAt]
  have hx' : VecSharing ctx.n ctx.n tr.oldPos (shiftSecretsAt ctx.n tr.oldPos e X) (tabShares ctx.n X.length fun j => x j + E j) := by
    rw [hX']
    exact vecSharing_of_tab _ _ _ _ _ fun j hj => degree_add_lt (x1 j hj) (hE1 j)
  obtain ⟨outs, Y, h1, h2, h3⟩ := C43_trans ctx hn hl tr hg hnl (shiftSecretsAt ctx.n tr.oldPos e X) R R' _ randoms randomsN tapes hx' hrn
    (by rw [hlen, hR]) hr hf (by rw [hlen, ht]) htl
  refine ⟨_, outs, Y, by rw [x2, rn2]; exact transSend_tab _ _ _ _ _ rfl, ?_, h2, h3⟩
  rw [trans_halves, rn2, transSend_tab _ _ _ _ _ rfl, Option.bind_some, hlen] at h1
  rw [← h1]
  congr 1
  conv_lhs => unfold tabShares sharePos
  rw [tamper_tab]
  unfold tabShares
  apply List.map_congr_left
  intro i hi
  apply List.map_congr_left
  intro j _
  rw [eval_add, eval_add, eval_add, hE2 j i (List.mem_range.1 hi)]
  ring

/-- 7 parties move two secrets; party 5 adds 1 to its share for the leader.  All get results, and both secrets are wrong. -/
example : (exCtx.bind fun ctx =>
    (transFrom ctx ⟨[ofU32 10, ofU32 12], [ofU32 7, ofU32 8], ⟨[1, 0]⟩⟩ 1 [[ofU32 3, ofU32 11]] ((List.range 7).map fun _ => [1])
      (tamper (fun p _ => if p = 5 then 1 else 0) ((List.range 7).map fun i => [1 + (ofU32 i) ^ 2]))).bind fun outs =>
    (outs.mapM fun v => v[0]?).bind fun s => (ctx.pss.recon s).map fun r => match r with
      | .ok x => decide (x.length = 2 ∧ x[0]? ≠ some ((ofU32 12) ^ 2) ∧ x[1]? ≠ some ((ofU32 10) ^ 2))
      | .error _ => false) = some true := by
  decide +kernel

/-- Without the error they get the swapped secrets. -/
example : (exCtx.bind fun ctx =>
    (transFrom ctx ⟨[ofU32 10, ofU32 12], [ofU32 7, ofU32 8], ⟨[1, 0]⟩⟩ 1 [[ofU32 3, ofU32 11]] ((List.range 7).map fun _ => [1])
      ((List.range 7).map fun i => [1 + (ofU32 i) ^ 2])).bind fun outs =>
    (outs.mapM fun v => v[0]?).bind fun s => (ctx.pss.recon s).map fun r => match r with
      | .ok x => decide (x = [(ofU32 12) ^ 2, (ofU32 10) ^ 2])
      | .error _ => false) = some true := by
  decide +kernel

/-- 7 parties have 1 value each: the leader accepts, and it does not if party 3 has 2. -/
example : (exCtx.map fun ctx =>
    ((transLeader ctx ⟨[ofU32 10, ofU32 12], [ofU32 7, ofU32 8], ⟨[1, 0]⟩⟩ 1 [[ofU32 3, ofU32 11]] ((List.range 7).map fun _ => [1])).isSome,
     (transLeader ctx ⟨[ofU32 10, ofU32 12], [ofU32 7, ofU32 8], ⟨[1, 0]⟩⟩ 1 [[ofU32 3, ofU32 11]]
       ((List.range 7).map fun i => if i = 3 then [1, 1] else [1])).isSome)) = some (true, false) := by
  decide +kernel

end

end Verif.Props
