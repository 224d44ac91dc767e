import Verif.AsyncGarble
import Verif.AsyncPreprocLemmas
import Verif.ProtoIdLemmas
import Verif.CircuitLemmas

/-!
# Lemmas about `garble` as concurrent tasks
-/

namespace Verif

variable {F : Type} [CodeField F] [DecidableEq F]

theorem tab_get {α : Type} {n p : Nat} (f : Nat → α) (hp : p < n) : ((List.range n).map f)[p]? = some (f p) := by
  rw [List.getElem?_map, List.getElem?_range hp, Option.map_some]

theorem getD_get {α : Type} {l : List α} {i : Nat} (d : α) (h : i < l.length) : l[i]? = some (l.getD i d) := by
  rw [List.getD_eq_getElem?_getD, List.getElem?_eq_getElem h, Option.getD_some]

/-! ## Steps -/

/-- The steps from number `off` on give the results `fin`. -/
def StepsOk (n : Nat) (fin : List (List (GOut F))) (off : Nat) (steps : List (GStep F)) : Prop :=
  ∀ (i : Nat) (st : GStep F), steps[i]? = some st → (∀ d ∈ st.deps, d < off + i) ∧
    ∀ id, (st.proto id).round n (fun p => Env.only (outsEnv fin p) st.deps) = fin[off + i]?

omit [CodeField F] [DecidableEq F] in
theorem StepsOk.append {n : Nat} {fin : List (List (GOut F))} {off : Nat} {a b : List (GStep F)} (ha : StepsOk n fin off a)
    (hb : StepsOk n fin (off + a.length) b) : StepsOk n fin off (a ++ b) := by
  intro i st hi
  by_cases h : i < a.length
  · rw [List.getElem?_append_left h] at hi
    exact ha i st hi
  · rw [List.getElem?_append_right (by omega)] at hi
    have := hb (i - a.length) st hi
    rwa [show off + a.length + (i - a.length) = off + i by omega] at this

omit [CodeField F] [DecidableEq F] in
theorem StepsOk.seq {n : Nat} {fin : List (List (GOut F))} {steps : List (GStep F)} (h : StepsOk n fin 0 steps)
    (hlen : fin.length = steps.length) (ids : List ProtocolID) (hids : ids.length = steps.length) :
    seqRun n ((ids.zip steps).map fun s => (⟨s.1, s.2.deps, s.2.proto s.1⟩ : Job (GOut F))) = some fin := by
  refine seqRun_of _ fin (by simp [hids, hlen]) ?_
  intro i job hi
  rw [List.getElem?_map] at hi
  obtain ⟨⟨jid, st⟩, hzip, rfl⟩ := Option.map_eq_some_iff.1 hi
  have := h i st (List.getElem?_zip_eq_some.1 hzip).2
  simp only [Nat.zero_add] at this
  exact ⟨this.1, this.2 jid⟩

/-! ## Random transformations -/

theorem genRandLoop_split {ctx : Ctx F} {reps : Nat} (gs : List (List (SharingTransform F))) (rem : Nat)
    (f h : Nat → List F) (res : List (List (List F) × List (List F)))
    (hl : genRandLoop ctx reps rem gs ((List.range ctx.n).map f) ((List.range ctx.n).map h) = some res) :
    ∃ (sl : Nat → List (List F × List F)) (outs : List (List (List (List F) × List (List F)))),
      outs.length = gs.length ∧ (∀ p < ctx.n, rtSlices ctx reps gs.length (f p) (h p) = some (sl p)) ∧
      (∀ (i : Nat) (grp : List (SharingTransform F)), gs[i]? = some grp → ∃ (R Z : Nat → List F)
        (o : List (List (List F) × List (List F))), (∀ p < ctx.n, (sl p)[i]? = some (R p, Z p)) ∧
        (∀ p < ctx.n, (R p).length = (ctx.n + ctx.t) * reps) ∧ outs[i]? = some o ∧ o.length = ctx.n ∧
        randtrans ctx grp ((List.range ctx.n).map R) ((List.range ctx.n).map Z) = some o) ∧
      res.length = ctx.n ∧
      ∀ p < ctx.n, rtCollect ctx.l reps rem (outs.map fun o => o.getD p ([], [])) = res[p]? := by
  induction gs generalizing rem f h res with
  | nil =>
    unfold genRandLoop at hl
    rw [Option.some.injEq] at hl
    subst hl
    refine ⟨fun _ => [], [], rfl, fun p _ => rfl, ?_, by simp, ?_⟩
    · intro i grp hi
      simp at hi
    · intro p hp
      simp [rtCollect, hp]
  | cons g gs ih =>
    unfold genRandLoop at hl
    obtain ⟨⟨r, rs⟩, d1, hl⟩ := Option.bind_eq_some_iff.1 hl
    obtain ⟨u1, v1, rfl, rfl⟩ := drainAll_split d1
    obtain ⟨⟨z, zs⟩, d2, hl⟩ := Option.bind_eq_some_iff.1 hl
    obtain ⟨u2, v2, rfl, rfl⟩ := drainAll_split d2
    obtain ⟨o, ho, hl⟩ := Option.bind_eq_some_iff.1 hl
    obtain ⟨more, hmore, hl⟩ := Option.bind_eq_some_iff.1 hl
    obtain ⟨sl, outs, i1, i2, i3, i4, i5⟩ := ih _ _ _ _ hmore
    have hol : o.length = ctx.n := by
      unfold randtrans at ho
      obtain ⟨_, _, ho⟩ := Option.bind_eq_some_iff.1 ho
      rw [mapM_length ho, List.length_range]
    by_cases hall : (o.all fun o => o.1.all (fun row => decide (row.length = reps)) &&
        o.2.all (fun row => decide (row.length = reps))) = true
    swap
    · rw [if_neg hall] at hl
      cases hl
    rw [if_pos hall, Option.some.injEq] at hl
    subst hl
    refine ⟨fun p => ((f p).take ((ctx.n + ctx.t) * reps), (h p).take (2 * ctx.n * reps)) :: sl p, o :: outs,
      by simp [i1], ?_, ?_, by simp [hol, i4], ?_⟩
    · intro p hp
      rw [List.length_cons, rtSlices, u1 p hp, Option.bind_some]
      simp only []
      rw [u2 p hp, Option.bind_some]
      simp only []
      rw [i2 p hp]
      rfl
    · intro i grp hi
      cases i with
      | zero =>
        simp only [List.getElem?_cons_zero, Option.some.injEq] at hi
        subst hi
        exact ⟨fun p => (f p).take ((ctx.n + ctx.t) * reps), fun p => (h p).take (2 * ctx.n * reps), o, fun p _ => rfl, v1,
          rfl, hol, ho⟩
      | succ i =>
        obtain ⟨R, Z, o', k1, k2⟩ := i3 i grp (by simpa using hi)
        exact ⟨R, Z, o', fun p hp => by simpa using k1 p hp, by simpa using k2⟩
    · intro p hp
      rw [List.map_cons, rtCollect, i5 p hp, getD_get ([], []) (by omega), Option.bind_some]
      have hop : o[p]? = some (o.getD p ([], [])) := getD_get _ (by omega)
      have h1 := List.all_eq_true.1 hall _ (List.mem_of_getElem? hop)
      rw [if_pos h1, List.getElem?_zipWith, hop, getD_get (l := more) ([], []) (by omega)]
      have h2 : (outs.map fun o => o.getD p ([], [])) = [] ↔ gs = [] := by
        rw [List.map_eq_nil_iff, ← List.length_eq_zero_iff, i1, List.length_eq_zero_iff]
      simp only [h2]

theorem runRtrans_split {ctx : Ctx F} {tfs : List (SharingTransform F)} {reps : Nat} {f h : Nat → List F}
    {out : List (List (List F) × List (List F))} {r z : List (List F)}
    (hl : runRtrans ctx tfs reps ((List.range ctx.n).map f) ((List.range ctx.n).map h) = some (out, r, z)) :
    ∃ (gs : List (List (SharingTransform F))) (sl : Nat → List (List F × List F)) (rf zf : Nat → List F)
      (outs : List (List (List (List F) × List (List F)))),
      chunks? ctx.l tfs = some gs ∧ gs.length = (tfs.length + ctx.l - 1) / ctx.l ∧ outs.length = gs.length ∧
      (∀ p < ctx.n, rtMaterial ctx tfs reps (f p) (h p) = some (sl p, rf p, zf p)) ∧
      (∀ (i : Nat) (grp : List (SharingTransform F)), gs[i]? = some grp → ∃ (R Z : Nat → List F)
        (o : List (List (List F) × List (List F))), (∀ p < ctx.n, (sl p)[i]? = some (R p, Z p)) ∧
        (∀ p < ctx.n, (R p).length = (ctx.n + ctx.t) * reps) ∧ outs[i]? = some o ∧ o.length = ctx.n ∧
        randtrans ctx grp ((List.range ctx.n).map R) ((List.range ctx.n).map Z) = some o) ∧
      out.length = ctx.n ∧
      (∀ p < ctx.n, rtCollect ctx.l reps tfs.length (outs.map fun o => o.getD p ([], [])) = out[p]?) ∧
      r = (List.range ctx.n).map rf ∧ z = (List.range ctx.n).map zf := by
  unfold runRtrans at hl
  obtain ⟨num, hnum, hl⟩ := Option.bind_eq_some_iff.1 hl
  obtain ⟨⟨r1, rs⟩, d1, hl⟩ := Option.bind_eq_some_iff.1 hl
  obtain ⟨u1, v1, rfl, rfl⟩ := drainAll_split d1
  obtain ⟨⟨z1, zs⟩, d2, hl⟩ := Option.bind_eq_some_iff.1 hl
  obtain ⟨u2, v2, rfl, rfl⟩ := drainAll_split d2
  obtain ⟨out', hg, hl⟩ := Option.map_eq_some_iff.1 hl
  simp only [Prod.mk.injEq] at hl
  obtain ⟨rfl, rfl, rfl⟩ := hl
  unfold genRandShares at hg
  obtain ⟨gs, hgs, hg⟩ := Option.bind_eq_some_iff.1 hg
  have hl0 : ctx.l ≠ 0 := by
    rintro h0
    unfold chunks? at hgs
    rw [if_pos h0] at hgs
    cases hgs
  have hgl : gs.length = (tfs.length + ctx.l - 1) / ctx.l := by
    unfold chunks? at hgs
    rw [if_neg hl0, Option.some.injEq] at hgs
    rw [← hgs, chunks_length _ _ hl0]
  have hnum' : num = gs.length := by
    unfold numBatches at hnum
    rw [if_neg hl0, Option.some.injEq] at hnum
    omega
  obtain ⟨sl, outs, i1, i2, i3, i4, i5⟩ := genRandLoop_split _ _ _ _ _ hg
  refine ⟨gs, sl, _, _, outs, hgs, hgl, i1, ?_, i3, i4, i5, rfl, rfl⟩
  intro p hp
  unfold rtMaterial
  rw [hnum, Option.bind_some, u1 p hp, Option.bind_some]
  simp only []
  rw [u2 p hp, Option.bind_some]
  simp only []
  rw [hnum'] at i2 ⊢
  rw [i2 p hp]
  rfl

/-! ## Transformations -/

theorem mapM_get_split {α : Type} {n i : Nat} {f : Nat → List α} {w : List α}
    (h : ((List.range n).map f).mapM (fun a => a[i]?) = some w) :
    w.length = n ∧ ∀ p < n, (f p)[i]? = w[p]? := by
  rw [List.mapM_map] at h
  have h1 := mapM_length h
  rw [List.length_range] at h1
  refine ⟨h1, fun p hp => ?_⟩
  have := mapM_getElem h p (by simpa using hp) (by omega)
  rw [List.getElem_range] at this
  rw [List.getElem?_eq_getElem (l := w) (by omega), ← this]
  rfl

theorem transform_split {ctx : Ctx F} {tfs : List (SharingTransform F)} {reps : Nat} {tapes : List (List (List F))}
    {inp rand randN : Nat → List (List F)} {res : List (List (List F))}
    (hl : transform ctx tfs reps tapes ((List.range ctx.n).map inp) ((List.range ctx.n).map rand)
      ((List.range ctx.n).map randN) = some res) :
    ∃ outs : List (List (List F)), outs.length = tfs.length ∧ (tfs.zip tapes).length = tfs.length ∧
      (∀ (i : Nat) (a : SharingTransform F × List (List F)), (tfs.zip tapes)[i]? = some a →
        ∃ (X R N : Nat → List F) (o : List (List F)), 0 < ctx.n ∧
        (∀ p < ctx.n, (inp p)[i]? = some (X p) ∧ (rand p)[i]? = some (R p) ∧ (randN p)[i]? = some (N p)) ∧
        outs[i]? = some o ∧ o.length = ctx.n ∧
        trans ctx a.1 (X (i % ctx.n)).length a.2 ((List.range ctx.n).map X) ((List.range ctx.n).map R)
          ((List.range ctx.n).map N) = some o) ∧
      res.length = ctx.n ∧
      ∀ p < ctx.n, toRows tfs.length reps (outs.map fun o => o.getD p []).flatten = res[p]? := by
  unfold transform at hl
  obtain ⟨outs, h1, h2⟩ := Option.bind_eq_some_iff.1 hl
  have hol : outs.length = tfs.length := by rw [mapM_length h1, List.length_range]
  have hrl : res.length = ctx.n := by rw [mapM_length h2, List.length_range]
  have hone : ∀ i < tfs.length, ∃ tr tp, tfs[i]? = some tr ∧ tapes[i]? = some tp ∧
      transformOne ctx tr i tp ((List.range ctx.n).map inp) ((List.range ctx.n).map rand)
        ((List.range ctx.n).map randN) = outs[i]? := by
    intro i hi
    have h3 := mapM_getElem h1 i (by simpa using hi) (by omega)
    rw [List.getElem_range] at h3
    obtain ⟨tr, e1, h3⟩ := Option.bind_eq_some_iff.1 h3
    obtain ⟨tp, e2, h3⟩ := Option.bind_eq_some_iff.1 h3
    exact ⟨tr, tp, e1, e2, by rw [h3, List.getElem?_eq_getElem]⟩
  have hout : ∀ (i : Nat) (o : List (List F)), outs[i]? = some o → ∃ (tr : SharingTransform F) (tp : List (List F))
      (X R N : Nat → List F), 0 < ctx.n ∧ tfs[i]? = some tr ∧ tapes[i]? = some tp ∧
      (∀ p < ctx.n, (inp p)[i]? = some (X p) ∧ (rand p)[i]? = some (R p) ∧ (randN p)[i]? = some (N p)) ∧
      o.length = ctx.n ∧
      trans ctx tr (X (i % ctx.n)).length tp ((List.range ctx.n).map X) ((List.range ctx.n).map R)
          ((List.range ctx.n).map N) = some o := by
    intro i o ho
    obtain ⟨tr, tp, e1, e2, e3⟩ := hone i (by have := (List.getElem?_eq_some_iff.1 ho).1; omega)
    rw [ho] at e3
    unfold transformOne at e3
    split at e3
    · cases e3
    next hn =>
    obtain ⟨vxs, k1, e3⟩ := Option.bind_eq_some_iff.1 e3
    obtain ⟨rs, k2, e3⟩ := Option.bind_eq_some_iff.1 e3
    obtain ⟨rns, k3, e3⟩ := Option.bind_eq_some_iff.1 e3
    obtain ⟨v, k4, e3⟩ := Option.bind_eq_some_iff.1 e3
    obtain ⟨a1, a2⟩ := mapM_get_split k1
    obtain ⟨b1, b2⟩ := mapM_get_split k2
    obtain ⟨c1, c2⟩ := mapM_get_split k3
    have ev := range_getD vxs []
    have er := range_getD rs []
    have en := range_getD rns []
    rw [a1] at ev
    rw [b1] at er
    rw [c1] at en
    refine ⟨tr, tp, fun p => vxs.getD p [], fun p => rs.getD p [], fun p => rns.getD p [], by omega, e1, e2, ?_, ?_, ?_⟩
    · intro p hp
      rw [a2 p hp, b2 p hp, c2 p hp]
      exact ⟨getD_get _ (by omega), getD_get _ (by omega), getD_get _ (by omega)⟩
    · unfold trans at e3
      obtain ⟨_, _, e3⟩ := Option.bind_eq_some_iff.1 e3
      obtain ⟨_, _, e3⟩ := Option.bind_eq_some_iff.1 e3
      rw [mapM_length e3, List.length_range]
    · rw [← ev, ← er, ← en]
      simp only []
      rw [getD_of_some k4]
      exact e3
  have htl : tfs.length ≤ tapes.length := by
    by_contra hlt
    obtain ⟨tr, tp, _, e2, _⟩ := hone tapes.length (by omega)
    rw [List.getElem?_eq_none (by omega)] at e2
    cases e2
  refine ⟨outs, hol, by simp [htl], ?_, hrl, ?_⟩
  · intro i a ha
    obtain ⟨ha1, ha2⟩ := List.getElem?_zip_eq_some.1 ha
    have hi := (List.getElem?_eq_some_iff.1 ha1).1
    obtain ⟨tr, tp, X, R, N, k1, k2, k3, k4, k5, k6⟩ := hout i _ (getD_get [] (by omega))
    rw [ha1, Option.some.injEq] at k2
    rw [ha2, Option.some.injEq] at k3
    refine ⟨X, R, N, _, k1, k4, getD_get [] (by omega), k5, ?_⟩
    rw [k2, k3]
    exact k6
  · intro p hp
    have h3 := mapM_getElem h2 p (by simpa using hp) (by omega)
    rw [List.getElem_range] at h3
    obtain ⟨rows, h4, h5⟩ := Option.bind_eq_some_iff.1 h3
    rw [List.getElem?_eq_getElem (by omega), ← h5]
    congr 2
    have h6 := mapM_some_map (fun o : List (List F) => o[p]?) (fun o => o.getD p []) outs (by
      intro o ho
      obtain ⟨i, hi, rfl⟩ := List.getElem_of_mem ho
      obtain ⟨_, _, _, _, _, _, _, _, _, k5, _⟩ := hout i _ (List.getElem?_eq_getElem hi)
      exact getD_get [] (by omega))
    rw [h6, Option.some.injEq] at h4
    exact h4

/-! ## Gates -/

theorem mapM_tab_get {α β : Type} {n : Nat} {h : Nat → α} {f : α → Option β} {w : List β} (d : β)
    (hw : ((List.range n).map h).mapM f = some w) :
    w.length = n ∧ (∀ i < n, f (h i) = some (w.getD i d)) ∧ w = (List.range n).map fun i => w.getD i d := by
  rw [List.mapM_map] at hw
  exact mapM_range_get d hw

/-- A multiplication with arguments `args`. -/
def MultOk (ctx : Ctx F) (num : Nat) (tp : List (List F)) (args : Nat → Option (List F × List F × List F × List F))
    (out : List (List F)) : Prop :=
  out.length = ctx.n ∧ ∃ A B R Z : Nat → List F, (∀ p < ctx.n, args p = some (A p, B p, R p, Z p) ∧ (A p).length = num) ∧
    mult ctx num tp ((List.range ctx.n).map A) ((List.range ctx.n).map B) ((List.range ctx.n).map R)
      ((List.range ctx.n).map Z) = some out

/-- The multiplications of a gate and the table made of them. -/
def GateOk (ctx : Ctx F) (lpn : LpnParams) (enc : Mat F) (tp : GateTapes F) (I : Nat → GateIn F)
    (T : List (List (List F))) : GateKind → List (List (List F)) → Prop
  | .and, js => ∃ prods sel, js = [prods, sel] ∧ MultOk ctx 1 tp.first (fun p => andFirst lpn.keyLen (I p)) prods ∧
      MultOk ctx (3 * (lpn.keyLen + 1)) tp.second (fun p => andSecond lpn.keyLen (I p) (prods.getD p [])) sel ∧
      ∀ p < ctx.n, gateTable lpn enc .and (I p) (sel.getD p []) = T[p]?
  | .xor, js => ∃ sel, js = [sel] ∧ MultOk ctx (lpn.keyLen + 1) tp.second (fun p => xorArgs lpn.keyLen (I p)) sel ∧
      ∀ p < ctx.n, gateTable lpn enc .xor (I p) (sel.getD p []) = T[p]?
  | .inv, js => ∃ sel, js = [sel] ∧ MultOk ctx (lpn.keyLen + 1) tp.second (fun p => invArgs lpn.keyLen (I p)) sel ∧
      ∀ p < ctx.n, gateTable lpn enc .inv (I p) (sel.getD p []) = T[p]?

omit [DecidableEq F] in
theorem gateTables_split {ctx : Ctx F} {lpn : LpnParams} {enc : Mat F} {kind : GateKind} {tp : GateTapes F}
    {mats : Nat → List (List (List F))} {rows : Nat → List (List F)} {omasks : Nat → F} {oks : Nat → List F × List F}
    {randoms zeros errors : Nat → List F} {T : List (List (List F))}
    (h : gateTables ctx lpn enc kind tp ((List.range ctx.n).map mats) ((List.range ctx.n).map rows)
      ((List.range ctx.n).map omasks) ((List.range ctx.n).map oks) ((List.range ctx.n).map randoms)
      ((List.range ctx.n).map zeros) ((List.range ctx.n).map errors) = some T) :
    T.length = ctx.n ∧ ∃ js, GateOk ctx lpn enc tp
      (fun p => ⟨omasks p, oks p, rows p, randoms p, zeros p, errors p, mats p⟩) T kind js := by
  cases kind with
  | and =>
    unfold gateTables at h
    simp only [] at h
    obtain ⟨ins, h1, h⟩ := Option.bind_eq_some_iff.1 h
    obtain ⟨i1, i2, i3⟩ := mapM_range_get (⟨0, 0, [], 0, [], []⟩ : PairIn F) h1
    have hin : ∀ p < ctx.n, pairIn lpn.keyLen (rows p) (omasks p) (oks p) = some (ins.getD p ⟨0, 0, [], 0, [], []⟩) := by
      intro p hp
      have := i2 p hp
      simpa only [tab_get _ hp, Option.bind_some] using this
    generalize hI : (fun p => ins.getD p (⟨0, 0, [], 0, [], []⟩ : PairIn F)) = I at i3 hin
    have hII : ∀ p, ins.getD p (⟨0, 0, [], 0, [], []⟩ : PairIn F) = I p := fun p => congrFun hI p
    simp only [hII] at hin
    subst i3
    unfold garbleAnd at h
    obtain ⟨rs, hrs, h⟩ := Option.bind_eq_some_iff.1 h
    obtain ⟨zs, hzs, h⟩ := Option.bind_eq_some_iff.1 h
    obtain ⟨prods, hp, h⟩ := Option.bind_eq_some_iff.1 h
    obtain ⟨sels, hsels, h⟩ := Option.bind_eq_some_iff.1 h
    obtain ⟨muls, hmuls, h⟩ := Option.bind_eq_some_iff.1 h
    obtain ⟨sel, hsel, h⟩ := Option.bind_eq_some_iff.1 h
    obtain ⟨_, r2, r3⟩ := mapM_tab_get ([], 0) hrs
    obtain ⟨_, z2, z3⟩ := mapM_tab_get ([], 0) hzs
    obtain ⟨_, s2, s3⟩ := mapM_range_get [] hsels
    obtain ⟨_, m2, m3⟩ := mapM_tab_get [] hmuls
    obtain ⟨t1, t2, _⟩ := mapM_range_get [] h
    have hpl := (mult_length hp).1
    have hsl := (mult_length hsel).1
    refine ⟨t1, [prods, sel], prods, sel, rfl, ⟨hpl, fun p => [(I p).lmask], fun p => [(I p).rmask],
      fun p => [(rs.getD p ([], 0)).2], fun p => [(zs.getD p ([], 0)).2], ?_, ?_⟩,
      ⟨hsl, fun p => sels.getD p [], fun p => muls.getD p [], fun p => (rs.getD p ([], 0)).1,
        fun p => (zs.getD p ([], 0)).1, ?_, ?_⟩, ?_⟩
    · intro p hp
      refine ⟨?_, rfl⟩
      unfold andFirst
      simp only [hin p hp, r2 p hp, z2 p hp, Option.bind_some, Option.map_some]
    · rw [r3, z3, List.map_map, List.map_map, List.map_map, List.map_map] at hp
      exact hp
    · intro p hp
      have h3 := s2 p hp
      rw [tab_get _ hp, Option.bind_some, getD_get (l := prods) [] (by omega), Option.bind_some] at h3
      obtain ⟨v, hv, h3⟩ := Option.map_eq_some_iff.1 h3
      unfold andSecond
      simp only [hin p hp, r2 p hp, z2 p hp, m2 p hp, hv, Option.bind_some, Option.map_some]
      refine ⟨by rw [h3], ?_⟩
      rw [← h3]
      simp [andSelector]
      omega
    · rw [r3, z3, s3, m3, List.map_map, List.map_map] at hsel
      exact hsel
    · intro p hp
      have h3 := t2 p hp
      simp only [tab_get _ hp, getD_get (l := sel) [] (show p < sel.length by omega), Option.bind_some] at h3
      unfold gateTable
      simp only [hin p hp, Option.bind_some]
      rw [h3, getD_get [] (by omega)]
  | xor =>
    unfold gateTables at h
    simp only [] at h
    obtain ⟨ins, h1, h⟩ := Option.bind_eq_some_iff.1 h
    obtain ⟨i1, i2, i3⟩ := mapM_range_get (⟨0, 0, [], 0, [], []⟩ : PairIn F) h1
    have hin : ∀ p < ctx.n, pairIn lpn.keyLen (rows p) (omasks p) (oks p) = some (ins.getD p ⟨0, 0, [], 0, [], []⟩) := by
      intro p hp
      have := i2 p hp
      simpa only [tab_get _ hp, Option.bind_some] using this
    generalize hI : (fun p => ins.getD p (⟨0, 0, [], 0, [], []⟩ : PairIn F)) = I at i3 hin
    have hII : ∀ p, ins.getD p (⟨0, 0, [], 0, [], []⟩ : PairIn F) = I p := fun p => congrFun hI p
    simp only [hII] at hin
    subst i3
    unfold garbleXor at h
    obtain ⟨muls, hmuls, h⟩ := Option.bind_eq_some_iff.1 h
    obtain ⟨sel, hsel, h⟩ := Option.bind_eq_some_iff.1 h
    obtain ⟨_, m2, m3⟩ := mapM_tab_get [] hmuls
    obtain ⟨t1, t2, _⟩ := mapM_range_get [] h
    have hsl := (mult_length hsel).1
    refine ⟨t1, [sel], sel, rfl, ⟨hsl, fun p => List.replicate (lpn.keyLen + 1) ((I p).lmask + (I p).rmask + (I p).omask),
      fun p => muls.getD p [], randoms, zeros, ?_, ?_⟩, ?_⟩
    · intro p hp
      have h3 := m2 p hp
      unfold xorArgs
      simp only [hin p hp, Option.bind_some]
      split at h3
      · next he =>
        rw [Option.some.injEq] at h3
        rw [if_pos he, h3]
        exact ⟨rfl, List.length_replicate⟩
      · cases h3
    · rw [m3, List.map_map] at hsel
      exact hsel
    · intro p hp
      have h3 := t2 p hp
      simp only [tab_get _ hp, getD_get (l := sel) [] (show p < sel.length by omega), Option.bind_some] at h3
      unfold gateTable
      simp only [hin p hp, Option.bind_some]
      rw [h3, getD_get [] (by omega)]
  | inv =>
    unfold gateTables at h
    simp only [] at h
    obtain ⟨ins, h1, h⟩ := Option.bind_eq_some_iff.1 h
    obtain ⟨i1, i2, i3⟩ := mapM_range_get (⟨0, [], 0, [], []⟩ : OneIn F) h1
    have hin : ∀ p < ctx.n, oneIn lpn.keyLen (rows p) (omasks p) (oks p) = some (ins.getD p ⟨0, [], 0, [], []⟩) := by
      intro p hp
      have := i2 p hp
      simpa only [tab_get _ hp, Option.bind_some] using this
    generalize hI : (fun p => ins.getD p (⟨0, [], 0, [], []⟩ : OneIn F)) = I at i3 hin
    have hII : ∀ p, ins.getD p (⟨0, [], 0, [], []⟩ : OneIn F) = I p := fun p => congrFun hI p
    simp only [hII] at hin
    subst i3
    unfold garbleInv at h
    obtain ⟨muls, hmuls, h⟩ := Option.bind_eq_some_iff.1 h
    obtain ⟨sel, hsel, h⟩ := Option.bind_eq_some_iff.1 h
    obtain ⟨_, m2, m3⟩ := mapM_tab_get [] hmuls
    obtain ⟨t1, t2, _⟩ := mapM_range_get [] h
    have hsl := (mult_length hsel).1
    refine ⟨t1, [sel], sel, rfl, ⟨hsl, fun p => List.replicate (lpn.keyLen + 1) ((I p).mask + (I p).omask),
      fun p => muls.getD p [], randoms, zeros, ?_, ?_⟩, ?_⟩
    · intro p hp
      have h3 := m2 p hp
      unfold invArgs
      simp only [hin p hp, Option.bind_some]
      split at h3
      · next he =>
        rw [Option.some.injEq] at h3
        rw [if_pos he, h3]
        exact ⟨rfl, List.length_replicate⟩
      · cases h3
    · rw [m3, List.map_map] at hsel
      exact hsel
    · intro p hp
      have h3 := t2 p hp
      simp only [tab_get _ hp, getD_get (l := sel) [] (show p < sel.length by omega), Option.bind_some] at h3
      unfold gateTable
      simp only [hin p hp, Option.bind_some]
      rw [h3, getD_get [] (by omega)]

/-- The multiplications of all gates and the tables made of them. -/
def GatesOk (ctx : Ctx F) (lpn : LpnParams) (enc : Mat F) : List (GateKind × GateTapes F) → (Nat → List (GateIn F)) →
    List (List (List (List F))) → List (List (List (List F))) → Prop
  | [], ins, tables, G => tables = [] ∧ G = [] ∧ ∀ p < ctx.n, ins p = []
  | x :: gs, ins, tables, G => ∃ (I : Nat → GateIn F) (ins' : Nat → List (GateIn F)) (T : List (List (List F)))
      (tables' : List (List (List (List F)))) (js : List (List (List F))) (G' : List (List (List (List F)))),
      tables = T :: tables' ∧ G = js :: G' ∧ (∀ p < ctx.n, ins p = I p :: ins' p) ∧ T.length = ctx.n ∧
      GateOk ctx lpn enc x.2 I T x.1 js ∧ GatesOk ctx lpn enc gs ins' tables' G'

omit [DecidableEq F] in
theorem gateLoop_split {ctx : Ctx F} {g : GarbleCtx F} {pr : Nat → PreProc F}
    {mats : Nat → List (List (List (List F)))} (hmats : g.mats = (List.range ctx.n).map mats)
    (gs : List (GateKind × GateTapes F)) (gid : Nat) (rows : Nat → List (List F)) (rnd zer err : Nat → List F)
    (tables : List (List (List (List F)))) (s : GarbleState F)
    (h : gateLoop ctx g ((List.range ctx.n).map pr) gid gs ⟨(List.range ctx.n).map rows, (List.range ctx.n).map rnd,
      (List.range ctx.n).map zer, (List.range ctx.n).map err⟩ = some (tables, s)) :
    ∃ (ins : Nat → List (GateIn F)) (G : List (List (List (List F)))),
      (∀ p < ctx.n, gateIns g (pr p) (mats p) gid (gs.map (·.1)) (rows p) (rnd p) (zer p) (err p) = some (ins p)) ∧
      GatesOk ctx g.lpn g.enc gs ins tables G := by
  induction gs generalizing gid rows rnd zer err tables s with
  | nil =>
    unfold gateLoop at h
    rw [Option.some.injEq, Prod.mk.injEq] at h
    exact ⟨fun _ => [], [], fun p _ => rfl, h.1.symm, rfl, fun _ _ => rfl⟩
  | cons x gs ih =>
    obtain ⟨kind, tp⟩ := x
    unfold gateLoop at h
    obtain ⟨⟨T, s1⟩, hstep, h'⟩ := Option.bind_eq_some_iff.1 h
    clear h
    obtain ⟨⟨tables', s2⟩, hloop, heq⟩ := Option.map_eq_some_iff.1 h'
    clear h'
    simp only [Prod.mk.injEq] at heq
    unfold gateStep at hstep
    obtain ⟨omasks, h1, hstep⟩ := Option.bind_eq_some_iff.1 hstep
    obtain ⟨oks, h2, hstep⟩ := Option.bind_eq_some_iff.1 hstep
    obtain ⟨⟨rw', rrows⟩, d1, hstep⟩ := Option.bind_eq_some_iff.1 hstep
    obtain ⟨u1, _, rfl, rfl⟩ := drainAll_split d1
    obtain ⟨⟨rd', rrnd⟩, d2, hstep⟩ := Option.bind_eq_some_iff.1 hstep
    obtain ⟨u2, _, rfl, rfl⟩ := drainAll_split d2
    obtain ⟨⟨zr', rzer⟩, d3, hstep⟩ := Option.bind_eq_some_iff.1 hstep
    obtain ⟨u3, _, rfl, rfl⟩ := drainAll_split d3
    obtain ⟨⟨er', rerr⟩, d4, hstep⟩ := Option.bind_eq_some_iff.1 hstep
    obtain ⟨u4, _, rfl, rfl⟩ := drainAll_split d4
    obtain ⟨idx, hidx, hstep⟩ := Option.bind_eq_some_iff.1 hstep
    obtain ⟨ms, hms, hstep⟩ := Option.bind_eq_some_iff.1 hstep
    obtain ⟨T', hT, hstep⟩ := Option.map_eq_some_iff.1 hstep
    rw [Prod.mk.injEq] at hstep
    obtain ⟨rfl, rfl⟩ := hstep
    rw [hmats] at hms
    obtain ⟨_, o2, o3⟩ := mapM_tab_get 0 h1
    obtain ⟨_, k2, k3⟩ := mapM_range_get ([], []) h2
    obtain ⟨_, m2, m3⟩ := mapM_tab_get [] hms
    rw [m3, o3, k3] at hT
    obtain ⟨hTl, js, hjs⟩ := gateTables_split hT
    obtain ⟨ins', G', i1, i2⟩ := ih _ _ _ _ _ _ _ hloop
    refine ⟨_, js :: G', ?_, _, ins', T', tables', js, G', heq.1.symm, rfl, fun p _ => rfl, hTl, hjs, i2⟩
    intro p hp
    rw [List.map_cons, gateIns, o2 p hp, Option.bind_some]
    have h3 := k2 p hp
    have h4 : omasks[p]? = some (omasks.getD p 0) := getD_get _ (by
      have := congrArg List.length o3
      simp at this
      omega)
    rw [tab_get _ hp, Option.bind_some, h4, Option.bind_some] at h3
    rw [h3, Option.bind_some, u1 p hp, Option.bind_some]
    simp only []
    rw [u2 p hp, Option.bind_some]
    simp only []
    rw [u3 p hp, Option.bind_some]
    simp only []
    rw [u4 p hp, Option.bind_some]
    simp only []
    rw [hidx, Option.bind_some, m2 p hp, Option.bind_some, i1 p hp]
    rfl

omit [DecidableEq F] in
theorem GateOk.length {ctx : Ctx F} {lpn : LpnParams} {enc : Mat F} {tp : GateTapes F} {I : Nat → GateIn F}
    {T : List (List (List F))} {kind : GateKind} {js : List (List (List F))} (h : GateOk ctx lpn enc tp I T kind js) :
    js.length = kind.numJobs := by
  cases kind with
  | and => obtain ⟨_, _, rfl, _⟩ := h; rfl
  | xor => obtain ⟨_, rfl, _⟩ := h; rfl
  | inv => obtain ⟨_, rfl, _⟩ := h; rfl

omit [DecidableEq F] in
theorem MultOk.round {c : Codec F} (hc : c.Ok) {ctx : Ctx F} {L : Nat} (hL : L < ctx.n) {num : Nat} (hnum : num < 2 ^ 64)
    {tp : List (List F)} {args : Nat → Option (List F × List F × List F × List F)} {out : List (List F)}
    (h : MultOk ctx num tp args out) (inp : Nat → Env (GOut F) → Option (List F × List F × List F × List F))
    (envs : Nat → Env (GOut F)) (hinp : ∀ p < ctx.n, inp p (envs p) = args p) :
    (multProto c ctx L tp inp .vec).round ctx.n envs = some (out.map .vec) := by
  obtain ⟨_, A, B, R, Z, h1, h2⟩ := h
  refine mult_round hc ctx hL tp inp .vec envs num hnum _ _ _ _ out ?_ ?_ h2
  · intro v hv
    obtain ⟨p, hp, rfl⟩ := List.mem_map.1 hv
    exact (h1 p (List.mem_range.1 hp)).2
  · intro p hp
    rw [hinp p hp, (h1 p hp).1]
    simp only [tab_get _ hp, Option.bind_some, Option.map_some]

omit [DecidableEq F] in
theorem gateSteps_ok {c : Codec F} (hc : c.Ok) {ctx : Ctx F} (lead : ProtocolID → Nat) (hL : ∀ id, lead id < ctx.n) {lpn : LpnParams}
    (hK : 3 * (lpn.keyLen + 1) < 2 ^ 64) {enc : Mat F} {tp : GateTapes F} {I : Nat → GateIn F} {T : List (List (List F))}
    {kind : GateKind} {js : List (List (List F))} (h : GateOk ctx lpn enc tp I T kind js) {off : Nat} {deps : List Nat}
    (hdeps : ∀ d ∈ deps, d < off) {fin : List (List (GOut F))}
    (hfin : ∀ (i : Nat) (x : List (List F)), js[i]? = some x → fin[off + i]? = some (x.map .vec))
    (gin : Nat → Env (GOut F) → Option (GateIn F))
    (hgin : ∀ D : List Nat, (∀ d ∈ deps, d ∈ D) → ∀ p < ctx.n, gin p (Env.only (outsEnv fin p) D) = some (I p)) :
    StepsOk ctx.n fin off (gateSteps c ctx lead lpn.keyLen deps gin off tp kind) := by
  cases kind with
  | and =>
    obtain ⟨prods, sel, rfl, h1, h2, _⟩ := h
    have f0 := hfin 0 prods rfl
    have f1 := hfin 1 sel rfl
    intro i st hi
    unfold gateSteps at hi
    match i with
    | 0 =>
      simp only [List.getElem?_cons_zero, Option.some.injEq] at hi
      subst hi
      refine ⟨fun d hd => by have := hdeps d hd; omega, fun id => ?_⟩
      rw [f0]
      refine h1.round hc (hL id) (by omega) _ _ fun p hp => ?_
      rw [hgin deps (fun d hd => hd) p hp, Option.bind_some]
    | 1 =>
      simp only [List.getElem?_cons_succ, List.getElem?_cons_zero, Option.some.injEq] at hi
      subst hi
      refine ⟨fun d hd => ?_, fun id => ?_⟩
      · rcases List.mem_cons.1 hd with rfl | hd
        · omega
        · have := hdeps d hd
          omega
      · rw [f1]
        refine h2.round hc (hL id) hK _ _ fun p hp => ?_
        rw [hgin (off :: deps) (fun d hd => List.mem_cons_of_mem _ hd) p hp, Option.bind_some]
        have : Env.only (outsEnv fin p) (off :: deps) off = some (.vec (prods.getD p [])) := by
          unfold Env.only outsEnv
          rw [if_pos (by simp), ← Nat.add_zero off, f0, Option.bind_some, List.getElem?_map,
            getD_get (l := prods) [] (by have := h1.1; omega)]
          rfl
        rw [this]
        rfl
    | (i + 2) => simp at hi
  | xor =>
    obtain ⟨sel, rfl, h1, _⟩ := h
    have f0 := hfin 0 sel rfl
    intro i st hi
    unfold gateSteps at hi
    match i with
    | 0 =>
      simp only [List.getElem?_cons_zero, Option.some.injEq] at hi
      subst hi
      refine ⟨fun d hd => by have := hdeps d hd; omega, fun id => ?_⟩
      rw [f0]
      refine h1.round hc (hL id) (by omega) _ _ fun p hp => ?_
      rw [hgin deps (fun d hd => hd) p hp, Option.bind_some]
    | (i + 1) => simp at hi
  | inv =>
    obtain ⟨sel, rfl, h1, _⟩ := h
    have f0 := hfin 0 sel rfl
    intro i st hi
    unfold gateSteps at hi
    match i with
    | 0 =>
      simp only [List.getElem?_cons_zero, Option.some.injEq] at hi
      subst hi
      refine ⟨fun d hd => by have := hdeps d hd; omega, fun id => ?_⟩
      rw [f0]
      refine h1.round hc (hL id) (by omega) _ _ fun p hp => ?_
      rw [hgin deps (fun d hd => hd) p hp, Option.bind_some]
    | (i + 1) => simp at hi

omit [DecidableEq F] in
theorem gateSteps_length (c : Codec F) (ctx : Ctx F) (lead : ProtocolID → Nat) (keyLen : Nat) (deps : List Nat)
    (gin : Nat → Env (GOut F) → Option (GateIn F)) (off : Nat) (tp : GateTapes F) (kind : GateKind) :
    (gateSteps c ctx lead keyLen deps gin off tp kind).length = kind.numJobs := by
  cases kind <;> rfl

omit [DecidableEq F] in
theorem gatesSteps_ok {c : Codec F} (hc : c.Ok) {ctx : Ctx F} (lead : ProtocolID → Nat) (hL : ∀ id, lead id < ctx.n) {lpn : LpnParams}
    (hK : 3 * (lpn.keyLen + 1) < 2 ^ 64) {enc : Mat F} {deps : List Nat} {fin : List (List (GOut F))}
    (gins : Nat → Env (GOut F) → Option (List (GateIn F))) (gs : List (GateKind × GateTapes F)) (off gid : Nat)
    (front ins : Nat → List (GateIn F)) (tables G : List (List (List (List F))))
    (h : GatesOk ctx lpn enc gs ins tables G) (hdeps : ∀ d ∈ deps, d < off)
    (hfin : ∀ (i : Nat) (x : List (List F)), G.flatten[i]? = some x → fin[off + i]? = some (x.map .vec))
    (hfr : ∀ p < ctx.n, (front p).length = gid)
    (hgins : ∀ D : List Nat, (∀ d ∈ deps, d ∈ D) → ∀ p < ctx.n,
      gins p (Env.only (outsEnv fin p) D) = some (front p ++ ins p)) :
    StepsOk ctx.n fin off (gatesSteps c ctx lead lpn.keyLen deps gins off gid gs) ∧
    (gatesSteps c ctx lead lpn.keyLen deps gins off gid gs).length = G.flatten.length ∧
    G.flatten.length = (gs.map fun x => x.1.numJobs).sum ∧
    ∀ p < ctx.n, tablesOf lpn enc (outsEnv fin p) off (gs.map (·.1)) (ins p) = some (tables.map fun T => T.getD p []) := by
  induction gs generalizing off gid front ins tables G with
  | nil =>
    obtain ⟨rfl, rfl, h3⟩ := h
    refine ⟨?_, rfl, rfl, ?_⟩
    · intro i st hi
      simp [gatesSteps] at hi
    · intro p hp
      rw [h3 p hp]
      rfl
  | cons x gs ih =>
    obtain ⟨kind, tp⟩ := x
    obtain ⟨I, ins', T, tables', js, G', rfl, rfl, h3, h4, h5, h6⟩ := h
    have hjl := h5.length
    simp only [] at hjl h5
    obtain ⟨k1, k2, k3, k4⟩ := ih (off + kind.numJobs) (gid + 1) (fun p => front p ++ [I p]) ins' tables' G' h6
      (fun d hd => by have := hdeps d hd; omega)
      (fun i x hx => by
        rw [Nat.add_assoc]
        refine hfin _ x ?_
        rw [List.flatten_cons, List.getElem?_append_right (by omega), ← hx]
        congr 1
        omega)
      (fun p hp => by rw [List.length_append, hfr p hp]; rfl)
      (fun D hD p hp => by rw [hgins D hD p hp, h3 p hp, List.append_assoc]; rfl)
    refine ⟨?_, ?_, ?_, ?_⟩
    · unfold gatesSteps
      refine StepsOk.append ?_ (by rw [gateSteps_length]; exact k1)
      refine gateSteps_ok hc lead hL hK h5 hdeps (fun i x hx => hfin i x ?_) _ ?_
      · rw [List.flatten_cons, List.getElem?_append_left (List.getElem?_eq_some_iff.1 hx).1, hx]
      · intro D hD p hp
        rw [hgins D hD p hp, Option.bind_some, h3 p hp, ← hfr p hp]
        simp
    · unfold gatesSteps
      rw [List.length_append, gateSteps_length, k2, List.flatten_cons, List.length_append, hjl]
    · rw [List.flatten_cons, List.length_append, hjl, k3]
      rfl
    · intro p hp
      rw [h3 p hp, List.map_cons, tablesOf, k4 p hp]
      have hlast : ∃ s, (outsEnv fin p (off + kind.numJobs - 1)).bind GOut.vec? = some s ∧
          gateTable lpn enc kind (I p) s = T[p]? := by
        cases kind with
        | and =>
          obtain ⟨prods, sel, rfl, _, j2, j3⟩ := h5
          refine ⟨_, ?_, j3 p hp⟩
          unfold outsEnv
          rw [show off + GateKind.and.numJobs - 1 = off + 1 from rfl, hfin 1 sel rfl, Option.bind_some, List.getElem?_map,
            getD_get (l := sel) [] (by have := j2.1; omega)]
          rfl
        | xor =>
          obtain ⟨sel, rfl, j2, j3⟩ := h5
          refine ⟨_, ?_, j3 p hp⟩
          unfold outsEnv
          rw [show off + GateKind.xor.numJobs - 1 = off + 0 from rfl, hfin 0 sel rfl, Option.bind_some, List.getElem?_map,
            getD_get (l := sel) [] (by have := j2.1; omega)]
          rfl
        | inv =>
          obtain ⟨sel, rfl, j2, j3⟩ := h5
          refine ⟨_, ?_, j3 p hp⟩
          unfold outsEnv
          rw [show off + GateKind.inv.numJobs - 1 = off + 0 from rfl, hfin 0 sel rfl, Option.bind_some, List.getElem?_map,
            getD_get (l := sel) [] (by have := j2.1; omega)]
          rfl
      obtain ⟨s, e1, e2⟩ := hlast
      rw [e1, Option.bind_some, e2, getD_get [] (by omega)]
      rfl

/-! ## All jobs -/

omit [CodeField F] [DecidableEq F] in
theorem rtResults_of {fin : List (List (GOut F))} {p off : Nat} {outs : List (List (List (List F) × List (List F)))}
    {n : Nat} (hp : p < n) (ho : ∀ o ∈ outs, o.length = n)
    (hfin : ∀ (i : Nat) (o : List (List (List F) × List (List F))), outs[i]? = some o →
      fin[off + i]? = some (o.map fun x => .rt x.1 x.2))
    (D : List Nat) (hD : ∀ i < outs.length, off + i ∈ D) :
    rtResults (Env.only (outsEnv fin p) D) off outs.length = some (outs.map fun o => o.getD p ([], [])) := by
  unfold rtResults
  have := range_getD (outs.map fun o => o.getD p ([], [])) ([], [])
  rw [this, List.length_map]
  refine mapM_range_some _ _ _ fun i hi => ?_
  have hoi := List.getElem?_eq_getElem hi
  unfold Env.only outsEnv
  rw [if_pos (hD i hi), hfin i _ hoi, Option.bind_some, List.getElem?_map,
    getD_get (l := outs[i]) ([], []) (by rw [ho _ (List.getElem_mem hi)]; exact hp)]
  simp [GOut.rt?, hi]

omit [CodeField F] [DecidableEq F] in
theorem vecResults_of {fin : List (List (GOut F))} {p off : Nat} {outs : List (List (List F))}
    {n : Nat} (hp : p < n) (ho : ∀ o ∈ outs, o.length = n)
    (hfin : ∀ (i : Nat) (o : List (List F)), outs[i]? = some o → fin[off + i]? = some (o.map .vec))
    (D : List Nat) (hD : ∀ i < outs.length, off + i ∈ D) :
    vecResults (Env.only (outsEnv fin p) D) off outs.length = some (outs.map fun o => o.getD p []) := by
  unfold vecResults
  have := range_getD (outs.map fun o => o.getD p []) []
  rw [this, List.length_map]
  refine mapM_range_some _ _ _ fun i hi => ?_
  have hoi := List.getElem?_eq_getElem hi
  unfold Env.only outsEnv
  rw [if_pos (hD i hi), hfin i _ hoi, Option.bind_some, List.getElem?_map,
    getD_get (l := outs[i]) [] (by rw [ho _ (List.getElem_mem hi)]; exact hp)]
  simp [GOut.vec?, hi]

theorem toRows_width {α : Type} {r c : Nat} {flat : List α} {rows : List (List α)} (h : toRows r c flat = some rows) :
    ∀ x ∈ rows, x.length = c := by
  unfold toRows at h
  split at h
  · next hl =>
    cases h
    intro x hx
    obtain ⟨i, hi, rfl⟩ := List.mem_map.1 hx
    have := List.mem_range.1 hi
    have h2 : (i + 1) * c ≤ r * c := Nat.mul_le_mul_right _ this
    rw [Nat.add_mul, Nat.one_mul] at h2
    simp
    omega
  · cases h

omit [CodeField F] [DecidableEq F] in
theorem outInput_width {nb K : Nat} {pr : PreProc F} {rows : List (List F)} (h : outInput nb K pr = some rows) :
    ∀ x ∈ rows, x.length = 2 * K + 1 := by
  unfold outInput at h
  obtain ⟨rs, h1, h⟩ := Option.bind_eq_some_iff.1 h
  split at h
  · rw [Option.some.injEq] at h
    subst h
    intro x hx
    obtain ⟨i, hi, rfl⟩ := List.getElem_of_mem hx
    have := toRows_width h1 (rs[i]'(by simp at hi; omega)) (List.getElem_mem _)
    simp [this]
  · cases h

theorem selectAll_width {n l id cols : Nat} {g : GarbleCtx F} {sh rows : List (List F)}
    (h : selectAll n l id cols g sh = some rows) : ∀ x ∈ rows, x.length = cols := by
  unfold selectAll at h
  obtain ⟨rs, h1, h⟩ := Option.bind_eq_some_iff.1 h
  split at h
  · cases h
  · exact toRows_width h

theorem rtSteps_ok {c : Codec F} (hc : c.Ok) {ctx : Ctx F} {reps : Nat} (hb : 2 * ((ctx.n + ctx.t) * reps) < 2 ^ 64)
    {gs : List (List (SharingTransform F))} {sl : Nat → List (List F × List F)}
    {outs : List (List (List (List F) × List (List F)))}
    (h : ∀ (i : Nat) (grp : List (SharingTransform F)), gs[i]? = some grp → ∃ (R Z : Nat → List F)
        (o : List (List (List F) × List (List F))), (∀ p < ctx.n, (sl p)[i]? = some (R p, Z p)) ∧
        (∀ p < ctx.n, (R p).length = (ctx.n + ctx.t) * reps) ∧ outs[i]? = some o ∧ o.length = ctx.n ∧
        randtrans ctx grp ((List.range ctx.n).map R) ((List.range ctx.n).map Z) = some o)
    {off : Nat} {fin : List (List (GOut F))}
    (hfin : ∀ (i : Nat) (o : List (List (List F) × List (List F))), outs[i]? = some o →
      fin[off + i]? = some (o.map fun x => .rt x.1 x.2))
    (inp : Nat → Nat → Option (List F × List F)) (hinp : ∀ i, ∀ p < ctx.n, inp i p = (sl p)[i]?) :
    StepsOk ctx.n fin off (gs.zipIdx.map fun a => ⟨[], fun _ => rtProto c ctx a.1 (fun p _ => inp a.2 p)
      fun o => .rt o.1 o.2⟩) := by
  intro i st hi
  rw [List.getElem?_map, List.getElem?_zipIdx] at hi
  obtain ⟨a, ha, rfl⟩ := Option.map_eq_some_iff.1 hi
  obtain ⟨grp, hg, rfl⟩ := Option.map_eq_some_iff.1 ha
  refine ⟨by simp, fun id => ?_⟩
  obtain ⟨R, Z, o, h1, h2, h3, h4, h5⟩ := h i grp hg
  rw [hfin i o h3]
  refine rt_round hc ctx grp _ _ _ _ _ ?_ ?_ o h5
  · intro r hr
    obtain ⟨p, hp, rfl⟩ := List.mem_map.1 hr
    rw [h2 p (List.mem_range.1 hp)]
    exact hb
  · intro p hp
    simp only [tab_get _ hp, Option.bind_some, Option.map_some]
    rw [hinp _ p hp, Nat.zero_add, h1 p hp]

theorem transSteps_ok {c : Codec F} (hc : c.Ok) {ctx : Ctx F} {reps : Nat} (hb : reps < 2 ^ 64)
    {as : List (SharingTransform F × List (List F))} {inp rand randN : Nat → List (List F)} {outs : List (List (List F))}
    (hw : ∀ p < ctx.n, ∀ x ∈ inp p, x.length = reps)
    (h : ∀ (i : Nat) (a : SharingTransform F × List (List F)), as[i]? = some a →
        ∃ (X R N : Nat → List F) (o : List (List F)), 0 < ctx.n ∧
        (∀ p < ctx.n, (inp p)[i]? = some (X p) ∧ (rand p)[i]? = some (R p) ∧ (randN p)[i]? = some (N p)) ∧
        outs[i]? = some o ∧ o.length = ctx.n ∧
        trans ctx a.1 (X (i % ctx.n)).length a.2 ((List.range ctx.n).map X) ((List.range ctx.n).map R)
          ((List.range ctx.n).map N) = some o)
    {off : Nat} {deps : List Nat} (hdeps : ∀ d ∈ deps, d < off) {fin : List (List (GOut F))}
    (hfin : ∀ (i : Nat) (o : List (List F)), outs[i]? = some o → fin[off + i]? = some (o.map .vec))
    (args : Nat → Env (GOut F) → Nat → Option (List F × List F × List F))
    (hargs : ∀ i, ∀ p < ctx.n, args p (Env.only (outsEnv fin p) deps) i =
      ((inp p)[i]?).bind fun x => ((rand p)[i]?).bind fun r => ((randN p)[i]?).map fun rn => (x, r, rn)) :
    StepsOk ctx.n fin off (as.zipIdx.map fun a => ⟨deps, fun _ => transProto c ctx a.1.1 (a.2 % ctx.n) a.1.2
      (fun p env => args p env a.2) .vec⟩) := by
  intro i st hi
  rw [List.getElem?_map, List.getElem?_zipIdx] at hi
  obtain ⟨b, hb', rfl⟩ := Option.map_eq_some_iff.1 hi
  obtain ⟨a, hg, rfl⟩ := Option.map_eq_some_iff.1 hb'
  refine ⟨fun d hd => by have := hdeps d hd; omega, fun id => ?_⟩
  obtain ⟨X, R, N, o, h1, h2, h3, h4, h5⟩ := h i a hg
  have hX : ∀ p < ctx.n, (X p).length = reps := fun p hp => hw p hp _ (List.mem_of_getElem? (h2 p hp).1)
  have hlt : i % ctx.n < ctx.n := Nat.mod_lt _ h1
  rw [hX _ hlt] at h5
  rw [hfin i o h3]
  simp only [Nat.zero_add]
  refine trans_round hc ctx a.1 hlt a.2 _ _ _ reps hb _ _ _ o ?_ ?_ h5
  · intro v hv
    obtain ⟨p, hp, rfl⟩ := List.mem_map.1 hv
    exact hX p (List.mem_range.1 hp)
  · intro p hp
    simp only [tab_get _ hp, Option.bind_some, Option.map_some]
    rw [hargs _ p hp, (h2 p hp).1, (h2 p hp).2.1, (h2 p hp).2.2]
    rfl

omit [CodeField F] [DecidableEq F] in
theorem outsEnv_only (fin : List (List (GOut F))) (p : Nat) :
    Env.only (outsEnv fin p) (List.range fin.length) = outsEnv fin p := by
  funext j
  unfold Env.only
  split
  · rfl
  · next h =>
    unfold outsEnv
    rw [List.getElem?_eq_none (by simpa using h)]
    rfl

theorem GatesOk.widths {ctx : Ctx F} {lpn : LpnParams} {enc : Mat F} {gs : List (GateKind × GateTapes F)}
    {ins : Nat → List (GateIn F)} {tables G : List (List (List (List F)))} (h : GatesOk ctx lpn enc gs ins tables G) :
    ∀ T ∈ tables, T.length = ctx.n := by
  induction gs generalizing ins tables G with
  | nil =>
    obtain ⟨rfl, _⟩ := h
    simp
  | cons x gs ih =>
    obtain ⟨I, ins', T, tables', js, G', rfl, rfl, _, h4, _, h6⟩ := h
    intro T' hT'
    rcases List.mem_cons.1 hT' with rfl | hT'
    · exact h4
    · exact ih h6 T' hT'

/-- The sequential execution of the jobs of `garble`. -/
theorem garble_seq {c : Codec F} (hc : c.Ok) (ctx : Ctx F) (hn : 0 < ctx.n) (g : GarbleCtx F) (hmats : g.mats.length = ctx.n)
    (lead : ProtocolID → Nat) (hL : ∀ id, lead id < ctx.n) (tp : GarbleTapes F) (pre : List (PreProc F)) (hpre : pre.length = ctx.n)
    (hb : 2 * ((ctx.n + ctx.t) * (2 * g.lpn.keyLen + 1)) < 2 ^ 64) (hK : 3 * (g.lpn.keyLen + 1) < 2 ^ 64)
    (tables : List (List (List (List F)))) (s : GarbleState F) (h : garble ctx g tp pre = some (tables, s)) :
    ∃ go gi outs, chunks? ctx.l g.tfOut = some go ∧ chunks? ctx.l g.tfInp = some gi ∧
      outs.length = (garbleSteps c ctx g lead tp pre go gi).length ∧
      outs.length = (g.tfOut.length + ctx.l - 1) / ctx.l + (g.tfInp.length + ctx.l - 1) / ctx.l + g.tfOut.length +
        g.tfInp.length + ((g.circ.gates.map PackedGate.kind).map GateKind.numJobs).sum ∧
      StepsOk ctx.n outs 0 (garbleSteps c ctx g lead tp pre go gi) ∧
      ∀ p < ctx.n, ∃ pr, pre[p]? = some pr ∧
        garbleResult ctx g p pr (outsEnv outs p) = some (tables.map fun T => T.getD p []) ∧
        tables.mapM (fun T => T[p]?) = some (tables.map fun T => T.getD p []) := by
  obtain ⟨pr, rfl⟩ : ∃ pr : Nat → PreProc F, pre = (List.range ctx.n).map pr := by
    obtain ⟨d⟩ : Nonempty (PreProc F) := ⟨pre[0]'(by omega)⟩
    refine ⟨fun i => pre.getD i d, ?_⟩
    rw [← hpre]
    exact range_getD pre d
  obtain ⟨mats, hmats'⟩ : ∃ mats : Nat → List (List (List (List F))), g.mats = (List.range ctx.n).map mats :=
    ⟨fun i => g.mats.getD i [], by rw [← hmats]; exact range_getD _ _⟩
  unfold garble at h
  obtain ⟨⟨outShares, inpShares, randoms, zeros⟩, hi, h⟩ := Option.bind_eq_some_iff.1 h
  simp only [] at h
  by_cases htp : tp.gates.length = g.circ.gates.length
  swap
  · rw [if_neg htp] at h
    cases h
  rw [if_pos htp, List.map_map] at h
  unfold garbleInputs at hi
  rw [List.map_map, List.map_map] at hi
  obtain ⟨⟨ro, r1, z1⟩, h1, hi⟩ := Option.bind_eq_some_iff.1 hi
  obtain ⟨go, so, rf, zf, outsO, hgo, a1, a2, a3, a4, a5, a6, rfl, rfl⟩ := runRtrans_split h1
  obtain ⟨⟨ri, r2, z2⟩, h2, hi⟩ := Option.bind_eq_some_iff.1 hi
  obtain ⟨gi, si, rf2, zf2, outsI, hgi, b1, b2, b3, b4, b5, b6, rfl, rfl⟩ := runRtrans_split h2
  obtain ⟨inp, hinp, hi⟩ := Option.bind_eq_some_iff.1 hi
  obtain ⟨outSh, hT1, hi⟩ := Option.bind_eq_some_iff.1 hi
  obtain ⟨sel, hsel, hi⟩ := Option.bind_eq_some_iff.1 hi
  obtain ⟨inpSh, hT2, hi⟩ := Option.map_eq_some_iff.1 hi
  simp only [Prod.mk.injEq] at hi
  obtain ⟨rfl, rfl, rfl, rfl⟩ := hi
  obtain ⟨_, i2, i3⟩ := mapM_tab_get [] hinp
  obtain ⟨_, s2, s3⟩ := mapM_range_get [] hsel
  have hro := range_getD ro ([], [])
  have hri := range_getD ri ([], [])
  rw [a5] at hro
  rw [b5] at hri
  rw [i3, hro, List.map_map, List.map_map] at hT1
  rw [s3, hri, List.map_map, List.map_map] at hT2
  obtain ⟨tO, c1, c2, c3, c4, c5⟩ := transform_split hT1
  obtain ⟨tI, d1, d2, d3, d4, d5⟩ := transform_split hT2
  have hish := range_getD inpSh []
  rw [d4] at hish
  rw [hish] at h
  obtain ⟨ins, G, e1, e2⟩ := gateLoop_split hmats' _ 0 _ _ _ _ _ _ h
  have hkinds : ((g.circ.gates.map PackedGate.kind).zip tp.gates).map (·.1) = g.circ.gates.map PackedGate.kind :=
    List.map_fst_zip (by simp [htp])
  rw [hkinds] at e1
  -- the results
  obtain ⟨fin, hfin⟩ : ∃ fin : List (List (GOut F)), fin = (outsO.map fun o => o.map fun x => GOut.rt x.1 x.2) ++
    (outsI.map fun o => o.map fun x => GOut.rt x.1 x.2) ++ (tO.map fun o => o.map GOut.vec) ++
    (tI.map fun o => o.map GOut.vec) ++ (G.flatten.map fun o => o.map GOut.vec) := ⟨_, rfl⟩
  have f1 : ∀ (i : Nat) (o : List (List (List F) × List (List F))), outsO[i]? = some o →
      fin[0 + i]? = some (o.map fun x => .rt x.1 x.2) := by
    intro i o ho
    have hlt := (List.getElem?_eq_some_iff.1 ho).1
    rw [hfin, List.append_assoc, List.append_assoc, List.append_assoc, List.getElem?_append_left (by simp; omega),
      List.getElem?_map, Nat.zero_add, ho]
    rfl
  have f2 : ∀ (i : Nat) (o : List (List (List F) × List (List F))), outsI[i]? = some o →
      fin[go.length + i]? = some (o.map fun x => .rt x.1 x.2) := by
    intro i o ho
    have hlt := (List.getElem?_eq_some_iff.1 ho).1
    rw [hfin, List.append_assoc, List.append_assoc, List.append_assoc, List.getElem?_append_right (by simp; omega),
      List.getElem?_append_left (by simp; omega), List.getElem?_map,
      show go.length + i - (List.map (fun o => List.map (fun x => GOut.rt x.1 x.2) o) outsO).length = i by simp; omega, ho]
    rfl
  have f3 : ∀ (i : Nat) (o : List (List F)), tO[i]? = some o →
      fin[go.length + gi.length + i]? = some (o.map .vec) := by
    intro i o ho
    have hlt := (List.getElem?_eq_some_iff.1 ho).1
    rw [hfin, List.append_assoc, List.append_assoc, List.getElem?_append_right (by simp; omega),
      List.getElem?_append_left (by simp; omega), List.getElem?_map]
    rw [show go.length + gi.length + i - ((outsO.map fun o => o.map fun x => GOut.rt x.1 x.2) ++
      (outsI.map fun o => o.map fun x => GOut.rt x.1 x.2)).length = i by simp; omega, ho]
    rfl
  have f4 : ∀ (i : Nat) (o : List (List F)), tI[i]? = some o →
      fin[go.length + gi.length + g.tfOut.length + i]? = some (o.map .vec) := by
    intro i o ho
    have hlt := (List.getElem?_eq_some_iff.1 ho).1
    rw [hfin, List.append_assoc, List.getElem?_append_right (by simp; omega),
      List.getElem?_append_left (by simp; omega), List.getElem?_map]
    rw [show go.length + gi.length + g.tfOut.length + i - ((outsO.map fun o => o.map fun x => GOut.rt x.1 x.2) ++
      (outsI.map fun o => o.map fun x => GOut.rt x.1 x.2) ++ (tO.map fun o => o.map GOut.vec)).length = i by simp; omega, ho]
    rfl
  have f5 : ∀ (i : Nat) (o : List (List F)), G.flatten[i]? = some o →
      fin[go.length + gi.length + g.tfOut.length + g.tfInp.length + i]? = some (o.map .vec) := by
    intro i o ho
    have hlt := (List.getElem?_eq_some_iff.1 ho).1
    rw [hfin, List.getElem?_append_right (by simp; omega), List.getElem?_map]
    rw [show go.length + gi.length + g.tfOut.length + g.tfInp.length + i - ((outsO.map fun o => o.map fun x =>
      GOut.rt x.1 x.2) ++ (outsI.map fun o => o.map fun x => GOut.rt x.1 x.2) ++ (tO.map fun o => o.map GOut.vec) ++
      (tI.map fun o => o.map GOut.vec)).length = i by simp; omega, ho]
    rfl
  have wO : ∀ o ∈ outsO, o.length = ctx.n := by
    intro o ho
    obtain ⟨i, hi, rfl⟩ := List.getElem_of_mem ho
    obtain ⟨_, _, o', _, _, k3, k4, _⟩ := a4 i _ (List.getElem?_eq_getElem (by omega))
    rw [List.getElem?_eq_getElem hi, Option.some.injEq] at k3
    rw [k3]
    exact k4
  have wI : ∀ o ∈ outsI, o.length = ctx.n := by
    intro o ho
    obtain ⟨i, hi, rfl⟩ := List.getElem_of_mem ho
    obtain ⟨_, _, o', _, _, k3, k4, _⟩ := b4 i _ (List.getElem?_eq_getElem (by omega))
    rw [List.getElem?_eq_getElem hi, Option.some.injEq] at k3
    rw [k3]
    exact k4
  have wtO : ∀ o ∈ tO, o.length = ctx.n := by
    intro o ho
    obtain ⟨i, hi, rfl⟩ := List.getElem_of_mem ho
    obtain ⟨_, _, _, o', _, _, k3, k4, _⟩ := c3 i _ (List.getElem?_eq_getElem (by omega))
    rw [List.getElem?_eq_getElem hi, Option.some.injEq] at k3
    rw [k3]
    exact k4
  have wtI : ∀ o ∈ tI, o.length = ctx.n := by
    intro o ho
    obtain ⟨i, hi, rfl⟩ := List.getElem_of_mem ho
    obtain ⟨_, _, _, o', _, _, k3, k4, _⟩ := d3 i _ (List.getElem?_eq_getElem (by omega))
    rw [List.getElem?_eq_getElem hi, Option.some.injEq] at k3
    rw [k3]
    exact k4
  have hmat : ∀ p < ctx.n, garbleMaterial ctx g (pr p) = some (so p, si p, rf2 p, zf2 p) := by
    intro p hp
    unfold garbleMaterial
    have := a3 p hp
    simp only [Function.comp] at this
    rw [this, Option.bind_some]
    simp only []
    rw [b3 p hp]
    rfl
  have hreps : 2 * g.lpn.keyLen + 1 < 2 ^ 64 := by
    have : 1 * (2 * g.lpn.keyLen + 1) ≤ (ctx.n + ctx.t) * (2 * g.lpn.keyLen + 1) := Nat.mul_le_mul_right _ (by omega)
    omega
  have hoff := hreps
  have transO : ∀ D : List Nat, (∀ i < g.tfOut.length, go.length + gi.length + i ∈ D) → ∀ p < ctx.n,
      transformed g.tfOut (2 * g.lpn.keyLen + 1) (go.length + gi.length) (Env.only (outsEnv fin p) D) = outSh[p]? := by
    intro D hD p hp
    unfold transformed
    rw [← c1, vecResults_of hp wtO f3 D (by rw [c1]; exact hD), Option.bind_some, c1]
    exact c5 p hp
  have transI : ∀ D : List Nat, (∀ i < g.tfInp.length, go.length + gi.length + g.tfOut.length + i ∈ D) → ∀ p < ctx.n,
      transformed g.tfInp (2 * g.lpn.keyLen + 1) (go.length + gi.length + g.tfOut.length) (Env.only (outsEnv fin p) D)
        = inpSh[p]? := by
    intro D hD p hp
    unfold transformed
    rw [← d1, vecResults_of hp wtI f4 D (by rw [d1]; exact hD), Option.bind_some, d1]
    exact d5 p hp
  have hgin : ∀ D : List Nat, (∀ i < g.tfInp.length, go.length + gi.length + g.tfOut.length + i ∈ D) → ∀ p < ctx.n,
      gatesIn ctx g p (pr p) (go.length + gi.length + g.tfOut.length) (Env.only (outsEnv fin p) D) = some (ins p) := by
    intro D hD p hp
    unfold gatesIn
    rw [hmat p hp, Option.bind_some]
    simp only []
    rw [transI D hD p hp, getD_get [] (by omega), Option.bind_some, hmats', tab_get _ hp, Option.bind_some]
    exact e1 p hp
  obtain ⟨g1, g2, g3, g4⟩ := gatesSteps_ok (c := c) hc lead hL hK
    (deps := (List.range g.tfInp.length).map (go.length + gi.length + g.tfOut.length + ·)) (fin := fin)
    (fun p env => (((List.range ctx.n).map pr)[p]?).bind fun pr =>
      gatesIn ctx g p pr (go.length + gi.length + g.tfOut.length) env) _
    (go.length + gi.length + g.tfOut.length + g.tfInp.length) 0 (fun _ => []) ins tables G e2
    (fun d hd => by
      obtain ⟨i, hi, rfl⟩ := List.mem_map.1 hd
      have := List.mem_range.1 hi
      omega) f5 (fun _ _ => rfl)
    (fun D hD p hp => by
      rw [tab_get _ hp, Option.bind_some, List.nil_append]
      exact hgin D (fun i hi => hD _ (List.mem_map.2 ⟨i, List.mem_range.2 hi, rfl⟩)) p hp)
  have hfl : fin.length = go.length + gi.length + g.tfOut.length + g.tfInp.length + G.flatten.length := by
    rw [hfin]
    simp only [List.length_append, List.length_map]
    omega
  have hjobs : G.flatten.length = ((g.circ.gates.map PackedGate.kind).map GateKind.numJobs).sum := by
    have h3 := congrArg (fun l => (l.map GateKind.numJobs).sum) hkinds
    simp only [List.map_map] at h3
    rw [g3, List.map_map, ← h3]
    rfl
  refine ⟨go, gi, fin, hgo, hgi, ?_, by rw [hfl, hjobs, a1, b1], ?_, ?_⟩
  · unfold garbleSteps
    rw [List.length_append, g2]
    simp only [List.length_append, List.length_map, List.length_zipIdx]
    omega
  · unfold garbleSteps
    refine StepsOk.append (StepsOk.append (StepsOk.append (StepsOk.append ?_ ?_) ?_) ?_) ?_
    · refine rtSteps_ok hc hb a4 f1 (fun i p => (((List.range ctx.n).map pr)[p]?).bind fun pr =>
        (garbleMaterial ctx g pr).bind fun m => m.1[i]?) ?_
      intro i p hp
      simp only [tab_get _ hp, hmat p hp, Option.bind_some]
    · refine rtSteps_ok hc hb b4 (by simpa using f2) (fun i p => (((List.range ctx.n).map pr)[p]?).bind fun pr =>
        (garbleMaterial ctx g pr).bind fun m => m.2.1[i]?) ?_
      intro i p hp
      simp only [tab_get _ hp, hmat p hp, Option.bind_some]
    · refine transSteps_ok hc hreps ?_ c3 ?_ (by simpa using f3) (fun p env i => (((List.range ctx.n).map pr)[p]?).bind
        fun pr => outTransIn ctx g go.length pr env i) ?_
      · intro p hp
        exact outInput_width (i2 p hp)
      · intro d hd
        have := List.mem_range.1 hd
        simp
        omega
      · intro i p hp
        rw [tab_get _ hp, Option.bind_some]
        unfold outTransIn
        rw [← a2, rtResults_of hp wO f1 _ (by intro i hi; simpa using hi), Option.bind_some, a6 p hp,
          getD_get ([], []) (by omega), Option.bind_some, i2 p hp, Option.bind_some]
        rfl
    · refine transSteps_ok hc hreps ?_ d3 ?_ ?_ (fun p env i => inpTransIn ctx g go.length gi.length p env i) ?_
      · intro p hp
        have h3 := s2 p hp
        obtain ⟨sh, _, h3⟩ := Option.bind_eq_some_iff.1 h3
        exact selectAll_width h3
      · intro d hd
        obtain ⟨i, hi, rfl⟩ := List.mem_map.1 hd
        have := List.mem_range.1 hi
        simp only [List.length_append, List.length_map, List.length_zipIdx]
        omega
      · intro i o ho
        rw [← f4 i o ho]
        congr 1
        simp only [List.length_append, List.length_map, List.length_zipIdx]
        omega
      · intro i p hp
        unfold inpTransIn
        rw [transO _ ?_ p hp]
        swap
        · intro i hi
          exact List.mem_map.2 ⟨gi.length + i, List.mem_range.2 (by omega), by omega⟩
        have h3 := s2 p hp
        rw [getD_get (l := outSh) [] (by omega), Option.bind_some] at h3
        rw [getD_get (l := outSh) [] (by omega), Option.bind_some, h3, Option.bind_some, ← b2,
          rtResults_of hp wI f2 _ (by
            intro i hi
            exact List.mem_map.2 ⟨i, List.mem_range.2 (by omega), rfl⟩), Option.bind_some, b6 p hp,
          getD_get ([], []) (by omega), Option.bind_some]
        rfl
    · simp only [List.length_append, List.length_map, List.length_zipIdx, Nat.zero_add]
      rw [c2, d2]
      exact g1
  · intro p hp
    refine ⟨pr p, tab_get _ hp, ?_, mapM_some_map _ _ _ fun T hT => getD_get [] (by rw [e2.widths T hT]; exact hp)⟩
    unfold garbleResult
    rw [hgo, Option.bind_some, hgi, Option.bind_some, ← outsEnv_only fin p, hgin _ ?_ p hp, Option.bind_some,
      outsEnv_only fin p, ← hkinds]
    · exact g4 p hp
    · intro i hi
      rw [List.mem_range, hfl]
      omega

theorem tablesOf_congr {lpn : LpnParams} {enc : Mat F} {env env' : Env (GOut F)} {N : Nat}
    (henv : ∀ j < N, env j = env' j) (off : Nat) (ks : List GateKind) (is : List (GateIn F))
    (hN : off + (ks.map GateKind.numJobs).sum ≤ N) : tablesOf lpn enc env off ks is = tablesOf lpn enc env' off ks is := by
  induction ks generalizing off is with
  | nil => cases is <;> rfl
  | cons k ks ih =>
    cases is with
    | nil => rfl
    | cons i is =>
      simp only [List.map_cons, List.sum_cons] at hN
      have hk : 0 < k.numJobs := by cases k <;> decide
      rw [tablesOf, tablesOf, henv _ (by omega), ih _ _ (by omega)]

theorem garbleResult_congr {ctx : Ctx F} {g : GarbleCtx F} {p : Nat} {pr : PreProc F} {env env' : Env (GOut F)} {N : Nat}
    (henv : ∀ j < N, env j = env' j) {go gi : List (List (SharingTransform F))} (hgo : chunks? ctx.l g.tfOut = some go)
    (hgi : chunks? ctx.l g.tfInp = some gi) (hN : go.length + gi.length + g.tfOut.length + g.tfInp.length +
      ((g.circ.gates.map PackedGate.kind).map GateKind.numJobs).sum ≤ N) :
    garbleResult ctx g p pr env = garbleResult ctx g p pr env' := by
  unfold garbleResult
  simp only [hgo, hgi, Option.bind_some]
  have : gatesIn ctx g p pr (go.length + gi.length + g.tfOut.length) env
      = gatesIn ctx g p pr (go.length + gi.length + g.tfOut.length) env' := by
    unfold gatesIn transformed vecResults
    have : (List.range g.tfInp.length).mapM (fun i => (env (go.length + gi.length + g.tfOut.length + i)).bind GOut.vec?)
        = (List.range g.tfInp.length).mapM fun i => (env' (go.length + gi.length + g.tfOut.length + i)).bind GOut.vec? :=
      mapM_congr_mem fun i hi => by
        have := List.mem_range.1 hi
        rw [henv _ (by omega)]
    rw [this]
  rw [this]
  congr 1
  funext ins
  exact tablesOf_congr henv _ _ _ hN

/-- Number of the IDs used by `garble`. -/
theorem garbleIdsOf_length {id : ProtocolID} {b l : Nat} {gates : List GateKind} {ids : List ProtocolID}
    (h : garbleIdsOf id b l gates = some ids) :
    ids.length = (b + gates.length + l - 1) / l + ((gates.map GateKind.arity).sum + l - 1) / l + (b + gates.length) +
      (gates.map GateKind.arity).sum + (gates.map GateKind.numJobs).sum := by
  unfold garbleIdsOf at h
  simp only at h
  generalize (b + gates.length + l - 1) / l = rOut at h ⊢
  generalize ((gates.map GateKind.arity).sum + l - 1) / l = rInp at h ⊢
  generalize b + gates.length = tOut at h ⊢
  generalize (gates.map GateKind.arity).sum = tInp at h ⊢
  have hs := (garbleIds_isSome id rOut rInp tOut tInp gates).1 (by rw [h]; rfl)
  obtain ⟨h1, h2⟩ := hs (4 + gates.length) (by simp)
  rw [garbleIds_eq id _ _ _ _ gates h1 h2] at h
  simp only at h
  obtain ⟨l0, k0, h⟩ := Option.bind_eq_some_iff.1 h
  obtain ⟨l1, k1, h⟩ := Option.bind_eq_some_iff.1 h
  obtain ⟨l2, k2, h⟩ := Option.bind_eq_some_iff.1 h
  obtain ⟨l3, k3, h⟩ := Option.bind_eq_some_iff.1 h
  rw [Option.some.injEq] at h
  subst h
  have key : ∀ (ids : List ProtocolID) (gs : List GateKind), ids.length = gs.length →
      (((ids.zip gs).map fun p => gateIdsSpec p.1 p.2).flatten).length = (gs.map GateKind.numJobs).sum := by
    intro ids gs hl
    induction gs generalizing ids with
    | nil => simp
    | cons g gs ih =>
      cases ids with
      | nil => simp at hl
      | cons i ids =>
        simp only [List.zip_cons_cons, List.map_cons, List.flatten_cons, List.length_append, List.sum_cons]
        rw [ih ids (by simpa using hl)]
        cases g <;> rfl
  simp only [List.length_append, (childIds_nodup k0).2.1, (childIds_nodup k1).2.1, (childIds_nodup k2).2.1,
    (childIds_nodup k3).2.1]
  rw [key _ _ (by simp)]

end Verif
