import Verif.PrivacyLeak

/-!
# What a corrupted leader of an output transformation knows about the padding of a block which is not full
-/

open Polynomial

namespace Verif

open CodeField (ofU32)

variable {F : Type} [CodeField F] [DecidableEq F]

/-- A leader which gets the same messages in two runs of `trans` sends everybody the same answer. -/
theorem trans_pad {O : Type} {c : Codec F} {ctx : Ctx F} {tr : SharingTransform F} {L : Nat} {tapes : List (List F)}
    {inp inp' : Nat → Env O → Option (List F × List F × List F)} {ret : List F → O} {n num : Nat} {envs envs' : Nat → Env O} {o o' : List O}
    (hc : c.Ok) (hnum : num < 2 ^ 64) (h : (transProto c ctx tr L tapes inp ret).round n envs = some o)
    (h' : (transProto c ctx tr L tapes inp' ret).round n envs' = some o')
    (hb : ∀ p < n, (transProto c ctx tr L tapes inp' ret).between n envs' p L = (transProto c ctx tr L tapes inp ret).between n envs p L)
    {X X' R R' N N' : Nat → List F} (hi : ∀ p < n, inp p (envs p) = some (X p, R p, N p) ∧ (X p).length = num)
    (hi' : ∀ p < n, inp' p (envs' p) = some (X' p, R' p, N' p) ∧ (X' p).length = num) {p : Nat} (hp : p < n) :
    vadd (N' p) (X' p) = vadd (N p) (X p) ∧ ∃ s : List F, o[p]? = (rdFinish (R p) s).map ret ∧ o'[p]? = (rdFinish (R' p) s).map ret := by
  obtain ⟨snd, msg, ans, hP⟩ := Proto.round_parts h
  obtain ⟨snd', msg', ans', hP'⟩ := Proto.round_parts h'
  have hL : L < n := hP.leader L rfl
  have gL : ∀ inp, (transProto c ctx tr L tapes inp ret).gathers L = true := fun inp => by
    unfold Proto.gathers transProto
    simp
  have hsend : ∀ {inp : Nat → Env O → Option (List F × List F × List F)} {envs : Nat → Env O} {o : List O} {snd msg ans} {X R N : Nat → List F},
      (transProto c ctx tr L tapes inp ret).Parts n envs o snd msg ans →
      (∀ p < n, inp p (envs p) = some (X p, R p, N p) ∧ (X p).length = num) →
      ∀ q < n, (X q).length = (N q).length ∧ msg q L = c.enc (vadd (N q) (X q)) ∧
        ((transProto c ctx tr L tapes inp ret).between n envs q L).head? = some (msg q L) := by
    intro inp envs o snd msg ans X R N hP hi q hq
    have h1 := hP.sends q hq
    have h2 := hP.addressed q hq L hL
    rw [gL, if_pos rfl] at h2
    have h3 : ((transProto c ctx tr L tapes inp ret).between n envs q L).head? = some (msg q L) := by
      unfold Proto.between
      rw [h1, Option.getD_some, h2]
      rfl
    refine ⟨?_, ?_, h3⟩
    all_goals
      simp only [transProto] at h1
      rw [(hi q hq).1, Option.bind_some] at h1
      unfold transSend at h1
      simp only at h1
      split at h1
      · next hlen =>
        first
        | exact hlen
        | rw [Option.map_some, Option.some.injEq] at h1
          rw [← h1] at h2
          simp [Recipient.includes] at h2
          exact h2.symm
      · cases h1
  have hm : ∀ q < n, msg' q L = msg q L := by
    intro q hq
    have h1 := (hsend hP hi q hq).2.2
    have h2 := (hsend hP' hi' q hq).2.2
    rw [hb q hq, h1, Option.some.injEq] at h2
    exact h2.symm
  have ha : ans' p = ans p := by
    have h1 := hP.answer L rfl
    have h2 := hP'.answer L rfl
    rw [List.map_congr_left (g := fun q => msg q L) fun q hq => hm q (List.mem_range.1 hq)] at h2
    simp only [transProto] at h1 h2
    rw [(hi L hL).1, Option.bind_some] at h1
    rw [(hi' L hL).1, Option.bind_some] at h2
    simp only [(hi L hL).2] at h1
    simp only [(hi' L hL).2] at h2
    rw [h1, Option.some.injEq] at h2
    have h3 := congrArg (fun l => l[p]?) h2
    simp only [tab_get _ hp, Option.some.injEq] at h3
    exact h3.symm
  obtain ⟨a1, a2, -⟩ := hsend hP hi p hp
  obtain ⟨b1, b2, -⟩ := hsend hP' hi' p hp
  have l1 := (hi p hp).2
  have l2 := (hi' p hp).2
  refine ⟨?_, ?_⟩
  · have h1 := congrArg c.dec (hm p hp)
    rw [a2, b2, hc _ (by unfold vadd; simp; omega), hc _ (by unfold vadd; simp; omega), Option.some.injEq] at h1
    exact h1
  · have f1 := hP.finishOne L rfl p hp
    have f2 := hP'.finishOne L rfl p hp
    rw [ha] at f2
    simp only [transProto] at f1 f2
    rw [(hi p hp).1, Option.bind_some] at f1
    rw [(hi' p hp).1, Option.bind_some] at f2
    simp only [List.head?_cons, Option.bind_some] at f1 f2
    cases hd : c.dec (ans p) with
    | none =>
      rw [hd] at f1
      simp only [Option.bind_none] at f1
      rw [List.getElem?_eq_getElem (by rw [hP.len]; exact hp)] at f1
      cases f1
    | some s =>
      rw [hd, Option.bind_some] at f1 f2
      exact ⟨s, f1.symm, f2.symm⟩

section leak
variable {ctx : Ctx F} {lpn : LpnParams} {circ : PackedCircuit} {g : GarbleCtx F} {tp : GarbleTapes F} {c : Codec F}
  {go gi : List (List (SharingTransform F))} {lead : ProtocolID → Nat} {nr nz : Nat} {sec sec' : Nat → PreProc F}
  {ω ω' : Coins ctx nr nz} {fin fin' : List (List (GOut F))}

variable (H : RunHyp c ctx g go gi) (R : GarbleRun c ctx g lead tp go gi (ofCoins sec ω) fin)
  (R' : GarbleRun c ctx g lead tp go gi (ofCoins sec' ω') fin')

include H R R' in
/-- A corrupted leader of an output transformation with free places knows by how much the results of the parties at these places differ
from their arguments. -/
theorem SameView.pad {L : Nat} (SL : SameView c ctx g lead tp go gi (ofCoins sec ω) (ofCoins sec' ω') fin fin' L) {i : Nat}
    {tf : SharingTransform F} (htf : g.tfOut[i]? = some tf) (hlead : i % ctx.n = L) (hal : tf.oldPos.length = tf.newPos.length)
    {p : Nat} (hpad : tf.newPos.length + p < ctx.l) {y y' : List F} (hy : outsEnv fin p (go.length + gi.length + i) = some (.vec y))
    (hy' : outsEnv fin' p (go.length + gi.length + i) = some (.vec y')) {j : Nat} (hj : j < gReps g) :
    y'.getD j 0 - (outX g (sec' p) i).getD j 0 = y.getD j 0 - (outX g (sec p) i).getD j 0 := by
  have hle := H.good.le
  have hl := H.posL
  have hpn : p < ctx.n := by omega
  have hi : i < g.tfOut.length := (List.getElem?_eq_some_iff.1 htf).1
  have hit : i < tp.out.length := by rw [R.lens.out]; exact hi
  have htape := List.getElem?_eq_getElem hit
  have hst := steps_outTr (c := c) (ctx := ctx) (lead := lead) (pre := (List.range ctx.n).map (ofCoins sec ω)) (go := go) (gi := gi)
    R.lens htf htape
  have hst' := steps_outTr (c := c) (ctx := ctx) (lead := lead) (pre := (List.range ctx.n).map (ofCoins sec' ω')) (go := go) (gi := gi)
    R.lens htf htape
  obtain ⟨jid, hb⟩ := SL.messages _ _ _ hst hst'
  obtain ⟨o, e1, e2⟩ := R.step hst jid
  obtain ⟨o', e1', e2'⟩ := R'.step hst' jid
  have hgl := H.go_length
  have hv : i / ctx.l < go.length := by rw [hgl]; exact group_lt hl hi
  have hch : chunks ctx.l g.tfOut = go := by
    have := H.out
    unfold chunks? at this
    rw [if_neg (by omega), Option.some.injEq] at this
    exact this
  have hgrp : go[i / ctx.l]? = some go[i / ctx.l] := List.getElem?_eq_getElem hv
  have hgrp' : (go ++ gi)[i / ctx.l]? = some go[i / ctx.l] := by rw [List.getElem?_append_left hv, hgrp]
  have hk : (go[i / ctx.l])[i % ctx.l]? = some tf := by
    obtain ⟨grp, g1, g2⟩ := chunks_get hl g.tfOut hi
    rw [hch, hgrp] at g1
    rw [Option.some.inj g1, g2, htf]
  -- the masks are the same at the free places
  have hover : ∀ (w : Coins ctx nr nz) (j : Nat), (gR ctx g go gi w (i / ctx.l) (i % ctx.l) j).eval (ofU32 p)
      = (gRN ctx g go gi w (i / ctx.l) (i % ctx.l) j).eval (ofU32 p) := by
    intro w j
    obtain ⟨k1, k2⟩ := H.group (List.mem_of_getElem? hgrp')
    have hgd : (go ++ gi).getD (i / ctx.l) [] = go[i / ctx.l] := by
      rw [List.getD_eq_getElem?_getD, hgrp', Option.getD_some]
    unfold gR gRN
    rw [hgd]
    obtain ⟨hkl, htf'⟩ := List.getElem?_eq_some_iff.1 hk
    rw [rt_overlap (rtB_basis H.good k1 k2) _ hkl j hle (i := p) (by rw [htf']; exact hpad), htf']
    congr 1
    rw [List.getD_eq_getElem?_getD, List.getElem?_append_right (by omega), hal, Nat.add_sub_cancel_left]
    unfold sharePos
    rw [getElem?_tab _ _ _ hpn, Option.getD_some]
  have hsz : gReps g < 2 ^ 64 := by
    have h1 : 2 * ((ctx.n + ctx.t) * gReps g) < 2 ^ 64 := H.size
    have : 1 * gReps g ≤ (ctx.n + ctx.t) * gReps g := Nat.mul_le_mul_right _ (by have := H.good.posN; omega)
    omega
  subst hlead
  obtain ⟨hm, s, s1, s2⟩ := trans_pad (L := i % ctx.n) (num := gReps g) H.codec hsz e2 e2' hb
    (X := fun p => outX g (sec p) i)
    (R := fun p => (List.range (gReps g)).map fun j => (gR ctx g go gi ω (i / ctx.l) (i % ctx.l) j).eval (ofU32 p))
    (N := fun p => (List.range (gReps g)).map fun j => (gRN ctx g go gi ω (i / ctx.l) (i % ctx.l) j).eval (ofU32 p))
    (X' := fun p => outX g (sec' p) i)
    (R' := fun p => (List.range (gReps g)).map fun j => (gR ctx g go gi ω' (i / ctx.l) (i % ctx.l) j).eval (ofU32 p))
    (N' := fun p => (List.range (gReps g)).map fun j => (gRN ctx g go gi ω' (i / ctx.l) (i % ctx.l) j).eval (ofU32 p))
    (fun p hp => R.outTr H htf htape p hp) (fun p hp => R'.outTr H htf htape p hp) hpn
  have l1 := (R.outTr H htf htape p hpn).2
  have l2 := (R'.outTr H htf htape p hpn).2
  unfold outsEnv at hy hy'
  rw [e1, Option.bind_some, s1] at hy
  rw [e1', Option.bind_some, s2] at hy'
  unfold rdFinish at hy hy'
  split at hy
  · next hs =>
    rw [if_pos (by simpa using hs), Option.map_some, Option.some.injEq, GOut.vec.injEq] at hy'
    rw [Option.map_some, Option.some.injEq, GOut.vec.injEq] at hy
    have h1 := congrArg (fun l => l.getD j 0) hm
    simp only [List.length_map, List.length_range] at hs
    have hjs : j < s.length := by omega
    have hj1 : j < (outX g (sec p) i).length := by omega
    have hj2 : j < (outX g (sec' p) i).length := by omega
    unfold vadd at h1
    unfold vsub at hy hy'
    have z : ∀ (op : F → F → F) (a b : List F), j < a.length → j < b.length → (List.zipWith op a b).getD j 0 = op (a.getD j 0) (b.getD j 0) := by
      intro op a b ha hb
      rw [List.getD_eq_getElem _ _ (by simp; omega), List.getD_eq_getElem _ _ ha, List.getD_eq_getElem _ _ hb, List.getElem_zipWith]
    rw [z _ _ _ (by simpa using hj) hj2, z _ _ _ (by simpa using hj) hj1, getD_tab _ _ _ hj, getD_tab _ _ _ hj, ← hover, ← hover] at h1
    rw [← hy, ← hy', z _ _ _ hjs (by simpa using hj), z _ _ _ hjs (by simpa using hj), getD_tab _ _ _ hj, getD_tab _ _ _ hj]
    linear_combination -h1
  · cases hy

end leak

end Verif
