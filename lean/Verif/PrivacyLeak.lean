import Verif.PrivacyWorld

/-!
# What a party can compute from its view of `garble`
-/

open Polynomial

namespace Verif

open CodeField (ofU32)

/-- A party's result of a protocol is determined by what it knows and the messages it gets. -/
theorem Proto.round_view {O : Type} {n q : Nat} {P P' : Proto O} {envs envs' : Nat → Env O} {o o' : List O}
    (hl : P'.leader = P.leader) (hq : q < n) (h : P.round n envs = some o) (h' : P'.round n envs' = some o')
    (hb : ∀ p < n, P'.between n envs' p q = P.between n envs p q)
    (hf : P'.finish q (envs' q) = P.finish q (envs q)) : o'[q]? = o[q]? := by
  obtain ⟨snd, msg, ans, hp⟩ := Proto.round_parts h
  obtain ⟨snd', msg', ans', hp'⟩ := Proto.round_parts h'
  have g' : ∀ p, P'.gathers p = P.gathers p := fun p => by unfold Proto.gathers; rw [hl]
  cases hL : P.leader with
  | none =>
    have hL' := hl.trans hL
    have gq : P.gathers q = true := by unfold Proto.gathers; rw [hL]
    rw [← hp.finishAll hL q hq, ← hp'.finishAll hL' q hq, hf]
    congr 1
    apply List.map_congr_left
    intro p hpn
    have hpn := List.mem_range.1 hpn
    have := hb p hpn
    unfold Proto.between at this
    rw [hp.sends p hpn, hp'.sends p hpn, Option.getD_some, Option.getD_some, hp.addressed p hpn q hq, hp'.addressed p hpn q hq,
      g', gq, if_pos rfl, if_pos rfl, hL, hL', if_neg (by simp), if_neg (by simp), List.append_nil, List.append_nil] at this
    exact (List.cons.inj this).1
  | some L =>
    have hL' := hl.trans hL
    have hLn := hp.leader L hL
    rw [← hp.finishOne L hL q hq, ← hp'.finishOne L hL' q hq, hf]
    have gL : P.gathers L = true := by unfold Proto.gathers; rw [hL]; simp
    have hth : ∀ {l : List (Recipient × List Nat)} {m : List Nat},
        (l.filter fun a => a.1.includes L).map (·.2) = [m] → theMessage L l = some m := by
      intro l m h
      unfold theMessage
      obtain ⟨a, ha, rfl⟩ : ∃ a, (l.filter fun a => a.1.includes L) = [a] ∧ a.2 = m := by
        generalize (l.filter fun a => a.1.includes L) = f at h
        match f, h with
        | [a], h => exact ⟨a, rfl, (List.cons.inj h).1⟩
      rw [ha]
    have last : ∀ {P : Proto O} {envs : Nat → Env O} {o : List O} {snd msg ans}, P.leader = some L → P.gathers L = true →
        P.Parts n envs o snd msg ans → (P.between n envs L q).getLast? = some (ans q) := by
      intro P envs o snd msg ans hL gL hp
      unfold Proto.between
      have hm : ((List.range n).mapM fun r => (P.sends r (envs r)).bind (theMessage L))
          = some ((List.range n).map fun p => msg p L) := by
        apply mapM_range_some
        intro r hr
        have := hp.addressed r hr L hLn
        rw [gL, if_pos rfl] at this
        rw [hp.sends r hr, Option.bind_some, hth this]
      rw [if_pos hL, hm, Option.bind_some, hp.answer L hL, Option.bind_some, tab_get _ hq, Option.toList_some,
        List.getLast?_append]
      simp
    have h1 := last hL gL hp
    have h2 := last hL' ((g' L).trans gL) hp'
    rw [hb L hLn, h1, Option.some.injEq] at h2
    rw [h2]

variable {F : Type} [CodeField F] [DecidableEq F]

section jobs
variable {ctx : Ctx F} {lpn : LpnParams} {circ : PackedCircuit} {g : GarbleCtx F} {tp : GarbleTapes F} {c : Codec F}
  {go gi : List (List (SharingTransform F))} {lead : ProtocolID → Nat} {pr pr' : Nat → PreProc F}
  {fin fin' : List (List (GOut F))}

/-- Equal views: the same material, and the same messages in all jobs. -/
theorem view_jobs (R : GarbleRun c ctx g lead tp go gi pr fin) (R' : GarbleRun c ctx g lead tp go gi pr' fin')
    (hG : Prepared ctx circ lpn g tp go gi) {id : ProtocolID} {ids : List ProtocolID}
    (hids : garbleIdsOf id circ.inputs.length ctx.l (circ.gates.map PackedGate.kind) = some ids)
    (hlen : ids.length = fin.length) (hlen' : ids.length = fin'.length) {q : Nat} (hq : q < ctx.n)
    (hv : garbleView c ctx g lead tp ((List.range ctx.n).map pr') id q
      = garbleView c ctx g lead tp ((List.range ctx.n).map pr) id q) :
    pr' q = pr q ∧ ∀ (k : Nat) (st st' : GStep F),
      (garbleSteps c ctx g lead tp ((List.range ctx.n).map pr) go gi)[k]? = some st →
      (garbleSteps c ctx g lead tp ((List.range ctx.n).map pr') go gi)[k]? = some st' → ∃ jid, ∀ p < ctx.n,
        (st'.proto jid).between ctx.n (fun r => Env.only (outsEnv fin' r) st'.deps) p q
          = (st.proto jid).between ctx.n (fun r => Env.only (outsEnv fin r) st.deps) p q := by
  rw [R.view hG hids hlen, R'.view hG hids hlen', Option.some.injEq, Prod.mk.injEq] at hv
  obtain ⟨h1, h2⟩ := hv
  rw [tab_get _ hq, tab_get _ hq, Option.some.injEq] at h1
  refine ⟨h1, ?_⟩
  intro k st st' hk hk'
  have hkl := (List.getElem?_eq_some_iff.1 hk).1
  rw [← R.all, ← hlen] at hkl
  refine ⟨ids[k], fun p hp => ?_⟩
  have h3 := congrArg (fun l => l[k]?) h2
  have z1 : (ids.zip (garbleSteps c ctx g lead tp ((List.range ctx.n).map pr) go gi))[k]? = some (ids[k], st) :=
    List.getElem?_zip_eq_some.2 ⟨List.getElem?_eq_getElem hkl, hk⟩
  have z2 : (ids.zip (garbleSteps c ctx g lead tp ((List.range ctx.n).map pr') go gi))[k]? = some (ids[k], st') :=
    List.getElem?_zip_eq_some.2 ⟨List.getElem?_eq_getElem hkl, hk'⟩
  simp only [List.getElem?_map, z1, z2, Option.map_some, Option.some.injEq] at h3
  have h4 := congrArg (fun l => l[p]?) h3
  simp only [tab_get _ hp, Option.some.injEq] at h4
  exact h4

end jobs

section values
variable {ctx : Ctx F} {g : GarbleCtx F} {tp : GarbleTapes F} {c : Codec F} {go gi : List (List (SharingTransform F))}
  {lead : ProtocolID → Nat} {nr nz : Nat} {sec : Nat → PreProc F} {ω : Coins ctx nr nz} {fin : List (List (GOut F))}

/-- The masks of one random transformation fit together. -/
theorem RunHyp.correlated (H : RunHyp c ctx g go gi) {v k : Nat} (hv : v < go.length + gi.length) {grp : List (SharingTransform F)}
    (hg : (go ++ gi)[v]? = some grp) {tf : SharingTransform F} (hk : grp[k]? = some tf) (ω : Coins ctx nr nz) (j : Nat) :
    (gR ctx g go gi ω v k j).degree < (ctx.t + ctx.l : Nat) ∧ (gRN ctx g go gi ω v k j).degree < ctx.n ∧
    tf.f.apply (tf.oldPos.map fun x => (gRN ctx g go gi ω v k j).eval x) = some (tf.newPos.map fun x => (gR ctx g go gi ω v k j).eval x) := by
  have hmem := List.mem_of_getElem? hg
  obtain ⟨k1, k2⟩ := H.group hmem
  have hgd : (go ++ gi).getD v [] = grp := by rw [List.getD_eq_getElem?_getD, hg, Option.getD_some]
  unfold gR gRN
  rw [hgd]
  have B := rtB_basis H.good k1 k2
  refine ⟨B.degR _ _ _ _, B.degRN _ _ _ _, ?_⟩
  obtain ⟨hkl, rfl⟩ := List.getElem?_eq_some_iff.1 hk
  have ok := k2 _ (List.getElem_mem hkl)
  have hle := H.good.le
  have hml := ok.oldLen
  have hml' := ok.newLen
  have hlen := ok.len
  unfold Combination.len at hlen
  have e1 : ∀ m < grp[k].oldPos.length, (grp[k].oldPos.map fun x =>
      (rtRN ctx grp.length (gReps g) (rtB ctx grp).2.1 (fun m => ω.g (v * gA ctx g + m)) k j).eval x)[m]?
      = some ((ω.g (v * gA ctx g + (m * gReps g + j))).eval (ofU32 (ctx.n + k))) := by
    intro m hm
    have := B.evalRN (num := gReps g) (fun m => ω.g (v * gA ctx g + m)) hkl j (m := m) (by omega) (by simp; omega)
    rw [List.getElem_append_left hm, Ctx.idxN, if_pos (by omega)] at this
    rw [List.getElem?_map, List.getElem?_eq_getElem hm, Option.map_some, this]
  unfold Combination.apply
  rw [mapM_some_map _ (fun m => (ω.g (v * gA ctx g + (m * gReps g + j))).eval (ofU32 (ctx.n + k))) _
    fun m hm => e1 m (ok.idx m hm), Option.some.injEq]
  apply List.ext_getElem (by simp [hlen])
  intro m h1 h2
  have hm : m < grp[k].newPos.length := by simpa using h2
  have hmf : m < grp[k].f.map.length := by omega
  have hmi := ok.idx _ (List.getElem_mem hmf)
  have hbase : grp[k].base m = grp[k].f.map[m] := by
    unfold SharingTransform.base
    rw [if_pos hm, List.getD_eq_getElem?_getD, List.getElem?_eq_getElem hmf, Option.getD_some]
  have := B.evalR (num := gReps g) (fun m => ω.g (v * gA ctx g + m)) hkl j (m := m) (by omega) (by simp; omega) (by omega)
  rw [List.getElem_append_left hm, hbase] at this
  rw [List.getElem_map, List.getElem_map, this]

/-- The results of the transformations of the output wires. -/
theorem GarbleRun.outRes (R : GarbleRun c ctx g lead tp go gi (ofCoins sec ω) fin) (H : RunHyp c ctx g go gi)
    (ht : TransTapes ctx g.tfOut (gReps g) tp.out) {K M : Nat → F[X]} (hb : g.tfOut.length = g.circ.blocks.length)
    (hK : ∀ p < ctx.n, (sec p).keys.flat = (List.range (2 * g.lpn.keyLen * g.circ.blocks.length)).map fun m => (K m).eval (ofU32 p))
    (hM : ∀ p < ctx.n, (sec p).masks = (List.range g.circ.blocks.length).map fun m => (M m).eval (ofU32 p))
    (dK : ∀ m < 2 * g.lpn.keyLen * g.circ.blocks.length, (K m).degree < (ctx.t + ctx.l : Nat))
    (dM : ∀ m < g.circ.blocks.length, (M m).degree < (ctx.t + ctx.l : Nat)) :
    ∃ Y : Nat → Nat → F[X], ∀ (i : Nat) (tf : SharingTransform F), g.tfOut[i]? = some tf →
      (∀ j < gReps g, (Y i j).degree < (ctx.t + ctx.l : Nat) ∧
        tf.f.apply (tf.oldPos.map fun x => (keyCol g.lpn.keyLen K M i j).eval x) = some (tf.newPos.map fun x => (Y i j).eval x)) ∧
      fin[go.length + gi.length + i]? = some ((List.range ctx.n).map fun p => .vec ((List.range (gReps g)).map fun j =>
        (Y i j).eval (ofU32 p))) := by
  have one : ∀ i, ∃ y : Nat → F[X], ∀ tf : SharingTransform F, g.tfOut[i]? = some tf →
      (∀ j < gReps g, (y j).degree < (ctx.t + ctx.l : Nat) ∧
        tf.f.apply (tf.oldPos.map fun x => (keyCol g.lpn.keyLen K M i j).eval x) = some (tf.newPos.map fun x => (y j).eval x)) ∧
      fin[go.length + gi.length + i]? = some ((List.range ctx.n).map fun p => .vec ((List.range (gReps g)).map fun j =>
        (y j).eval (ofU32 p))) := by
    intro i
    cases htf : g.tfOut[i]? with
    | none => exact ⟨fun _ => 0, fun tf h => by cases h⟩
    | some tf =>
      have hil : i < g.tfOut.length := (List.getElem?_eq_some_iff.1 htf).1
      have hit : i < tp.out.length := by rw [ht.1]; exact hil
      have htape := List.getElem?_eq_getElem hit
      obtain ⟨t1, t2⟩ := ht.2 i tf _ htf htape
      have ok := H.okO tf (List.mem_of_getElem? htf)
      have hle := H.good.le
      have hl := H.posL
      have hgl := H.go_length
      have hv : i / ctx.l < go.length := by
        rw [hgl]
        exact group_lt hl hil
      have hch : chunks ctx.l g.tfOut = go := by
        have := H.out
        unfold chunks? at this
        rw [if_neg (by omega), Option.some.injEq] at this
        exact this
      have hgrp : go[i / ctx.l]? = some go[i / ctx.l] := List.getElem?_eq_getElem hv
      have hgrp' : (go ++ gi)[i / ctx.l]? = some go[i / ctx.l] := by rw [List.getElem?_append_left hv, hgrp]
      have hk : (go[i / ctx.l])[i % ctx.l]? = some tf := by
        obtain ⟨grp, g1, g2⟩ := chunks_get hl g.tfOut hil
        rw [hch, hgrp] at g1
        rw [Option.some.inj g1, g2, htf]
      have hcor := fun j => H.correlated (by omega) hgrp' hk ω j
      have dX : ∀ j < gReps g, (keyCol g.lpn.keyLen K M i j).degree < (ctx.t + ctx.l : Nat) := by
        intro j hj
        unfold keyCol
        split
        · next hlt =>
          apply dK
          calc i * (2 * g.lpn.keyLen) + j < i * (2 * g.lpn.keyLen) + 2 * g.lpn.keyLen := by omega
            _ = (i + 1) * (2 * g.lpn.keyLen) := by ring
            _ ≤ g.circ.blocks.length * (2 * g.lpn.keyLen) := Nat.mul_le_mul_right _ (by omega)
            _ = _ := by ring
        · exact dM i (by omega)
      obtain ⟨y, y1, y2, y3⟩ := trans_tab H.good.posN hle (by omega) tf ok.new (by have := ok.newLen; omega) (gReps g) _ t1 t2
        (keyCol g.lpn.keyLen K M i) (gR ctx g go gi ω (i / ctx.l) (i % ctx.l)) (gRN ctx g go gi ω (i / ctx.l) (i % ctx.l))
        (fun j hj => degree_lt_mono (dX j hj) hle) (fun j _ => (hcor j).1) (fun j _ => (hcor j).2.1) (fun j _ => (hcor j).2.2)
      refine ⟨y, fun tf' htf' => ?_⟩
      obtain rfl := Option.some.inj htf'
      refine ⟨fun j hj => ⟨y1 j hj, y2 j hj⟩, ?_⟩
      have hst := steps_outTr (c := c) (ctx := ctx) (lead := lead) (pre := (List.range ctx.n).map (ofCoins sec ω)) (go := go) (gi := gi)
        R.lens htf htape
      obtain ⟨o, e1, e2⟩ := R.step hst default
      have hin := R.outTr H htf htape
      have hr := trans_round H.codec ctx tf (L := i % ctx.n) (Nat.mod_lt _ H.good.posN) tp.out[i]
        (fun p env => (((List.range ctx.n).map (ofCoins sec ω))[p]?).bind fun pr => outTransIn ctx g go.length pr env i) GOut.vec
        (fun p => Env.only (outsEnv fin p) (List.range go.length)) (gReps g) (by
          have h1 : 2 * ((ctx.n + ctx.t) * gReps g) < 2 ^ 64 := H.size
          have : 1 * gReps g ≤ (ctx.n + ctx.t) * gReps g := Nat.mul_le_mul_right _ (by have := H.good.posN; omega)
          omega) _ _ _ _ (by
          intro v hv
          obtain ⟨p, _, rfl⟩ := List.mem_map.1 hv
          simp) (by
          intro p hp
          rw [(hin p hp).1, tabShares_row _ _ _ _ hp, tabShares_row _ _ _ _ hp, tabShares_row _ _ _ _ hp]
          simp only [Option.bind_some, Option.map_some]
          congr 2
          unfold outX
          rw [outInput_tab _ _ _ _ _ _ (hK p hp) (hM p hp), Option.bind_some, getElem?_tab _ _ _ (by omega), Option.getD_some]) y3
      rw [e1, ← e2]
      refine hr.trans ?_
      unfold tabShares
      rw [List.map_map]
      rfl
  choose Y hY using one
  exact ⟨Y, fun i tf h => hY i tf h⟩

end values

section leak
variable {ctx : Ctx F} {lpn : LpnParams} {circ : PackedCircuit} {g : GarbleCtx F} {tp : GarbleTapes F} {c : Codec F}
  {go gi : List (List (SharingTransform F))} {lead : ProtocolID → Nat} {nr nz : Nat} {sec sec' : Nat → PreProc F}
  {ω ω' : Coins ctx nr nz} {fin fin' : List (List (GOut F))}

/-- What two runs with equal views of party `q` have in common. -/
structure SameView (c : Codec F) (ctx : Ctx F) (g : GarbleCtx F) (lead : ProtocolID → Nat) (tp : GarbleTapes F)
    (go gi : List (List (SharingTransform F))) (pr pr' : Nat → PreProc F) (fin fin' : List (List (GOut F))) (q : Nat) : Prop where
  material : pr' q = pr q
  messages : ∀ (k : Nat) (st st' : GStep F),
      (garbleSteps c ctx g lead tp ((List.range ctx.n).map pr) go gi)[k]? = some st →
      (garbleSteps c ctx g lead tp ((List.range ctx.n).map pr') go gi)[k]? = some st' → ∃ jid, ∀ p < ctx.n,
        (st'.proto jid).between ctx.n (fun r => Env.only (outsEnv fin' r) st'.deps) p q
          = (st.proto jid).between ctx.n (fun r => Env.only (outsEnv fin r) st.deps) p q

variable (H : RunHyp c ctx g go gi) (R : GarbleRun c ctx g lead tp go gi (ofCoins sec ω) fin)
  (R' : GarbleRun c ctx g lead tp go gi (ofCoins sec' ω') fin') {q : Nat} (hq : q < ctx.n)
  (S : SameView c ctx g lead tp go gi (ofCoins sec ω) (ofCoins sec' ω') fin fin' q)

include R R' hq S in
/-- The party has the same results of the random transformations. -/
theorem SameView.rt {v : Nat} (hv : v < go.length + gi.length) : outsEnv fin' q v = outsEnv fin q v := by
  have key : ∀ st st' : GStep F, (garbleSteps c ctx g lead tp ((List.range ctx.n).map (ofCoins sec ω)) go gi)[v]? = some st →
      (garbleSteps c ctx g lead tp ((List.range ctx.n).map (ofCoins sec' ω')) go gi)[v]? = some st' →
      (∀ jid, (st'.proto jid).leader = (st.proto jid).leader ∧ ∀ env env', (st'.proto jid).finish q env' = (st.proto jid).finish q env) →
      outsEnv fin' q v = outsEnv fin q v := by
    intro st st' hst hst' hp
    obtain ⟨jid, hb⟩ := S.messages v st st' hst hst'
    obtain ⟨o, e1, e2⟩ := R.step hst jid
    obtain ⟨o', e1', e2'⟩ := R'.step hst' jid
    have := Proto.round_view (hp jid).1 hq e2 e2' hb ((hp jid).2 _ _)
    unfold outsEnv
    rw [e1, e1', Option.bind_some, Option.bind_some, this]
  have hm := S.material
  by_cases hu : v < go.length
  · have hgrp := List.getElem?_eq_getElem hu
    refine key _ _ (steps_outRt hgrp) (steps_outRt hgrp) fun jid => ⟨rfl, fun env env' => ?_⟩
    funext ms
    simp only [sOutRt, rtProto]
    rw [tab_get _ hq, tab_get _ hq, hm]
  · obtain ⟨u, rfl⟩ : ∃ u, v = go.length + u := ⟨v - go.length, by omega⟩
    have hu' : u < gi.length := by omega
    have hgrp := List.getElem?_eq_getElem hu'
    refine key _ _ (steps_inpRt hgrp) (steps_inpRt hgrp) fun jid => ⟨rfl, fun env env' => ?_⟩
    funext ms
    simp only [sInpRt, rtProto]
    rw [tab_get _ hq, tab_get _ hq, hm]

include R R' hq S in
/-- The party has the same results of the transformations of the output wires. -/
theorem SameView.out {i : Nat} (hi : i < g.tfOut.length) :
    outsEnv fin' q (go.length + gi.length + i) = outsEnv fin q (go.length + gi.length + i) := by
  have htf := List.getElem?_eq_getElem hi
  have hit : i < tp.out.length := by rw [R.lens.out]; exact hi
  have htape := List.getElem?_eq_getElem hit
  have hst := steps_outTr (c := c) (ctx := ctx) (lead := lead) (pre := (List.range ctx.n).map (ofCoins sec ω)) (go := go) (gi := gi)
    R.lens htf htape
  have hst' := steps_outTr (c := c) (ctx := ctx) (lead := lead) (pre := (List.range ctx.n).map (ofCoins sec' ω')) (go := go) (gi := gi)
    R.lens htf htape
  obtain ⟨jid, hb⟩ := S.messages _ _ _ hst hst'
  obtain ⟨o, e1, e2⟩ := R.step hst jid
  obtain ⟨o', e1', e2'⟩ := R'.step hst' jid
  have henv : Env.only (outsEnv fin' q) (List.range go.length) = Env.only (outsEnv fin q) (List.range go.length) := by
    funext d
    unfold Env.only
    split
    · next hd => exact S.rt R R' hq (by have := List.mem_range.1 hd; omega)
    · rfl
  have := Proto.round_view (P := (sOutTr c ctx g ((List.range ctx.n).map (ofCoins sec ω)) go i g.tfOut[i] tp.out[i]).proto jid)
    (P' := (sOutTr c ctx g ((List.range ctx.n).map (ofCoins sec' ω')) go i g.tfOut[i] tp.out[i]).proto jid) rfl hq e2 e2' hb (by
      funext ms
      simp only [sOutTr, transProto]
      rw [henv, tab_get _ hq, tab_get _ hq, S.material])
  unfold outsEnv
  rw [e1, e1', Option.bind_some, Option.bind_some, this]

include H R R' hq S in
/-- A corrupted leader of a transformation which is not aligned and another corrupted party learn the share of a third party. -/
theorem SameView.leak {L : Nat} (SL : SameView c ctx g lead tp go gi (ofCoins sec ω) (ofCoins sec' ω') fin fin' L) {i : Nat} {tf : SharingTransform F} (htf : g.tfInp[i]? = some tf) (hlead : i % ctx.n = L)
    (hnew : tf.newPos.length + q < ctx.l) (hold : tf.oldPos.length ≤ tf.newPos.length + q) :
    inpX ctx g go gi fin' (tf.newPos.length + q - tf.oldPos.length) i
      = inpX ctx g go gi fin (tf.newPos.length + q - tf.oldPos.length) i := by
  have hle := H.good.le
  have hl := H.posL
  obtain ⟨p, hp⟩ : ∃ p, tf.newPos.length + q - tf.oldPos.length = p := ⟨_, rfl⟩
  have hpn : p < ctx.n := by omega
  rw [hp]
  have hi : i < g.tfInp.length := (List.getElem?_eq_some_iff.1 htf).1
  have hit : i < tp.inp.length := by rw [R.lens.inp]; exact hi
  have htape := List.getElem?_eq_getElem hit
  have hst := steps_inpTr (c := c) (ctx := ctx) (lead := lead) (pre := (List.range ctx.n).map (ofCoins sec ω)) (go := go) (gi := gi)
    R.lens htf htape
  have hst' := steps_inpTr (c := c) (ctx := ctx) (lead := lead) (pre := (List.range ctx.n).map (ofCoins sec' ω')) (go := go) (gi := gi)
    R.lens htf htape
  obtain ⟨jid, hb⟩ := SL.messages _ _ _ hst hst'
  have hgl := H.gi_length
  have hv : i / ctx.l < gi.length := by rw [hgl]; exact group_lt hl hi
  have hch : chunks ctx.l g.tfInp = gi := by
    have := H.inp
    unfold chunks? at this
    rw [if_neg (by omega), Option.some.injEq] at this
    exact this
  have hgrp : gi[i / ctx.l]? = some gi[i / ctx.l] := List.getElem?_eq_getElem hv
  have hgrp' : (go ++ gi)[go.length + i / ctx.l]? = some gi[i / ctx.l] := by
    rw [List.getElem?_append_right (Nat.le_add_right _ _), Nat.add_sub_cancel_left, hgrp]
  have hk : (gi[i / ctx.l])[i % ctx.l]? = some tf := by
    obtain ⟨grp, g1, g2⟩ := chunks_get hl g.tfInp hi
    rw [hch, hgrp] at g1
    rw [Option.some.inj g1, g2, htf]
  -- the masks overlap
  have hover : ∀ (w : Coins ctx nr nz) (j : Nat), (gR ctx g go gi w (go.length + i / ctx.l) (i % ctx.l) j).eval (ofU32 q)
      = (gRN ctx g go gi w (go.length + i / ctx.l) (i % ctx.l) j).eval (ofU32 p) := by
    intro w j
    obtain ⟨k1, k2⟩ := H.group (List.mem_of_getElem? hgrp')
    have hgd : (go ++ gi).getD (go.length + i / ctx.l) [] = gi[i / ctx.l] := by
      rw [List.getD_eq_getElem?_getD, hgrp', Option.getD_some]
    unfold gR gRN
    rw [hgd]
    obtain ⟨hkl, htf'⟩ := List.getElem?_eq_some_iff.1 hk
    rw [rt_overlap (rtB_basis H.good k1 k2) _ hkl j hle (i := q) (by rw [htf']; exact hnew), htf']
    congr 1
    rw [List.getD_eq_getElem?_getD, List.getElem?_append_right hold, hp]
    unfold sharePos
    rw [getElem?_tab _ _ _ hpn, Option.getD_some]
  -- the party has the same mask
  have hsame : ∀ j < gReps g, (gR ctx g go gi ω' (go.length + i / ctx.l) (i % ctx.l) j).eval (ofU32 q)
      = (gR ctx g go gi ω (go.length + i / ctx.l) (i % ctx.l) j).eval (ofU32 q) := by
    intro j hj
    have h1 := S.rt R R' hq (v := go.length + i / ctx.l) (by omega)
    unfold outsEnv at h1
    rw [R.rt_fin H (by omega), R'.rt_fin H (by omega), Option.bind_some, Option.bind_some, tab_get _ hq, tab_get _ hq,
      Option.some.injEq, GOut.rt.injEq] at h1
    have h2 := congrArg (fun l => (l.getD (i % ctx.l) []).getD j 0) h1.1
    rwa [getD_tab _ _ _ (Nat.mod_lt _ hl), getD_tab _ _ _ (Nat.mod_lt _ hl), getD_tab _ _ _ hj, getD_tab _ _ _ hj] at h2
  obtain ⟨i1, l1⟩ := R.inpTr H htf htape p hpn
  obtain ⟨i2, l2⟩ := R'.inpTr H htf htape p hpn
  generalize hX : inpX ctx g go gi fin p i = X at *
  generalize hX' : inpX ctx g go gi fin' p i = X' at *
  have hsz : gReps g < 2 ^ 64 := by
    have h1 : 2 * ((ctx.n + ctx.t) * gReps g) < 2 ^ 64 := H.size
    have : 1 * gReps g ≤ (ctx.n + ctx.t) * gReps g := Nat.mul_le_mul_right _ (by have := H.good.posN; omega)
    omega
  -- the message
  have hmsg : ∀ (w : Coins ctx nr nz) (f : List (List (GOut F))) (X : List F),
      inpTransIn ctx g go.length gi.length p (Env.only (outsEnv f p) (inpDeps g go gi)) i = some (X,
        (List.range (gReps g)).map (fun j => (gR ctx g go gi w (go.length + i / ctx.l) (i % ctx.l) j).eval (ofU32 p)),
        (List.range (gReps g)).map (fun j => (gRN ctx g go gi w (go.length + i / ctx.l) (i % ctx.l) j).eval (ofU32 p))) →
      X.length = gReps g → (((sInpTr c ctx g go gi i tf tp.inp[i]).proto jid).between ctx.n
        (fun r => Env.only (outsEnv f r) (inpDeps g go gi)) p L).head? = some (c.enc ((List.range (gReps g)).map fun j =>
          (gRN ctx g go gi w (go.length + i / ctx.l) (i % ctx.l) j).eval (ofU32 p) + X.getD j 0)) := by
    intro w f X h1 h2
    have hsend : ((sInpTr c ctx g go gi i tf tp.inp[i]).proto jid).sends p (Env.only (outsEnv f p) (inpDeps g go gi))
        = some [(.one L, c.enc ((List.range (gReps g)).map fun j =>
          (gRN ctx g go gi w (go.length + i / ctx.l) (i % ctx.l) j).eval (ofU32 p) + X.getD j 0))] := by
      simp only [sInpTr, transProto]
      rw [h1, Option.bind_some]
      unfold transSend
      simp only
      rw [if_pos (by simp [h2]), Option.map_some, hlead]
      congr 5
      unfold vadd
      apply List.ext_getElem (by simp [h2])
      intro j j1 j2
      have hj : j < X.length := by simp at j1; omega
      simp [List.getD_eq_getElem?_getD, List.getElem?_eq_getElem hj]
    unfold Proto.between
    rw [hsend, Option.getD_some]
    simp [Recipient.includes]
  have h1 := hmsg ω fin X i1 l1
  have h2 := hmsg ω' fin' X' i2 l2
  have h3 := hb p hpn
  have h4 : ((sInpTr c ctx g go gi i tf tp.inp[i]).proto jid).between ctx.n
        (fun r => Env.only (outsEnv fin' r) (inpDeps g go gi)) p L = ((sInpTr c ctx g go gi i tf tp.inp[i]).proto jid).between ctx.n
        (fun r => Env.only (outsEnv fin r) (inpDeps g go gi)) p L := h3
  rw [h4, h1, Option.some.injEq] at h2
  have h5 := congrArg c.dec h2
  rw [H.codec _ (by simpa using hsz), H.codec _ (by simpa using hsz), Option.some.injEq] at h5
  apply List.ext_getElem (by omega)
  intro j j1 j2
  have hj : j < gReps g := by omega
  have h6 := congrArg (fun l => l.getD j 0) h5
  rw [getD_tab _ _ _ hj, getD_tab _ _ _ hj, ← hover, ← hover, hsame j hj, add_right_inj, List.getD_eq_getElem?_getD,
    List.getD_eq_getElem?_getD, List.getElem?_eq_getElem j1, List.getElem?_eq_getElem j2] at h6
  exact h6.symm

end leak

end Verif
