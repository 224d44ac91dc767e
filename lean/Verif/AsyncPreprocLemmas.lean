import Verif.AsyncPreproc
import Verif.AsyncRounds

/-!
# Lemmas about `preproc` as concurrent tasks
-/

namespace Verif

theorem mapM_congr_mem {α β : Type} {f g : α → Option β} {l : List α} (h : ∀ a ∈ l, f a = g a) : l.mapM f = l.mapM g := by
  induction l with
  | nil => rfl
  | cons a l ih =>
    rw [List.mapM_cons, List.mapM_cons, h a (by simp), ih fun b hb => h b (by simp [hb])]

section
variable {O : Type} {n : Nat}

/-- What the parties know when all jobs are finished. -/
def outsEnv (outs : List (List O)) (p : Nat) : Env O := fun j => (outs[j]?).bind fun o => o[p]?

theorem seqFrom_of (rest : List (Job O)) (outs res : List (List O)) (hlen : res.length = outs.length + rest.length)
    (hpre : res.take outs.length = outs)
    (hj : ∀ (i : Nat) (job : Job O), rest[i]? = some job → (∀ d ∈ job.deps, d < outs.length + i) ∧
      job.proto.round n (fun p => Env.only (outsEnv res p) job.deps) = res[outs.length + i]?) :
    seqFrom n rest outs = some res := by
  induction rest generalizing outs with
  | nil =>
    unfold seqFrom
    rw [← hpre, List.take_of_length_le (by simp at hlen; omega)]
  | cons job rest ih =>
    unfold seqFrom
    obtain ⟨h1, h2⟩ := hj 0 job rfl
    have hlt : outs.length < res.length := by simp at hlen; omega
    rw [Nat.add_zero] at h2
    rw [if_pos (by simpa using h1)]
    have henv : seqEnv outs job.deps = fun p => Env.only (outsEnv res p) job.deps := by
      funext p d
      unfold seqEnv Env.only outsEnv
      split
      · next hd =>
        have h3 := h1 d hd
        rw [← hpre, List.getElem?_take, if_pos (by omega)]
      · rfl
    rw [henv, h2, List.getElem?_eq_getElem hlt, Option.bind_some]
    refine ih _ (by simp at hlen ⊢; omega) ?_ ?_
    · rw [List.length_append, List.length_singleton, List.take_add_one, hpre, List.getElem?_eq_getElem hlt]
      rfl
    · intro i job' hi
      obtain ⟨h3, h4⟩ := hj (i + 1) job' (by simpa using hi)
      rw [List.length_append, List.length_singleton]
      refine ⟨fun d hd => by have := h3 d hd; omega, ?_⟩
      rw [h4]
      congr 1
      omega

/-- A sequential execution from the executions of the single jobs. -/
theorem seqRun_of (jobs : List (Job O)) (res : List (List O)) (hlen : res.length = jobs.length)
    (hj : ∀ (i : Nat) (job : Job O), jobs[i]? = some job → (∀ d ∈ job.deps, d < i) ∧
      job.proto.round n (fun p => Env.only (outsEnv res p) job.deps) = res[i]?) :
    seqRun n jobs = some res := by
  refine seqFrom_of jobs [] res (by simpa using hlen) (by simp) ?_
  intro i job hi
  simpa using hj i job hi

theorem idsOk_of_nodup (jobs : List (Job O)) (h : (jobs.map (·.id)).Nodup) : IdsOk jobs := by
  intro i j a b hi hj hij hab
  have h1 : (jobs.map (·.id))[i]? = some a.id := by rw [List.getElem?_map, hi]; rfl
  have h2 : (jobs.map (·.id))[j]? = some a.id := by rw [List.getElem?_map, hj, hab]; rfl
  have h3 := (List.getElem?_eq_some_iff.1 h1).1
  have := (List.nodup_iff_getElem?_ne_getElem?.1 h) i j hij (List.getElem?_eq_some_iff.1 h2).1
  rw [h1, h2] at this
  exact absurd rfl this

/-- When no step is possible any more, the parties know the results of all jobs. -/
theorem ScheduleFree.env {jobs : List (Job O)} {outs : List (List O)} (h : ScheduleFree n jobs outs)
    {es : List SysStep} {s : Sys O} (hrun : Sys.start.run n jobs es = some s) (hst : s.Stuck n jobs) {p : Nat} (hp : p < n)
    {j : Nat} (hj : j < jobs.length) : s.env p j = outsEnv outs p j := by
  obtain ⟨_, h1, h2⟩ := h.2 es s hrun j hj p hp
  obtain ⟨o, ho⟩ := h2 hst
  unfold Sys.env
  rw [ho]
  exact (h1 o ho).symm

end

section
variable {F : Type} [CodeField F] [DecidableEq F]

theorem drainAll_split {α : Type} {n k : Nat} {f : Nat → List α} {a b : List (List α)}
    (h : drainAll k ((List.range n).map f) = some (a, b)) :
    (∀ p < n, drain k (f p) = some ((f p).take k, (f p).drop k)) ∧ (∀ p < n, ((f p).take k).length = k) ∧
      a = (List.range n).map (fun p => (f p).take k) ∧ b = (List.range n).map fun p => (f p).drop k := by
  unfold drainAll at h
  obtain ⟨ds, h1, h2⟩ := Option.map_eq_some_iff.1 h
  rw [List.mapM_map] at h1
  have hle : ∀ p < n, k ≤ (f p).length := by
    intro p hp
    obtain ⟨h3, h4, _⟩ := mapM_range_get ([], []) h1
    have h5 := h4 p hp
    unfold drain at h5
    by_contra hk
    rw [Function.comp, if_neg hk] at h5
    cases h5
  have h3 : ∀ p < n, drain k (f p) = some ((f p).take k, (f p).drop k) := by
    intro p hp
    unfold drain
    rw [if_pos (hle p hp)]
  have h4 := mapM_range_some n (drain k ∘ f) (fun p => ((f p).take k, (f p).drop k)) h3
  rw [h4, Option.some.injEq] at h1
  subst h1
  rw [Prod.mk.injEq, List.map_map, List.map_map] at h2
  refine ⟨h3, fun p hp => ?_, h2.1.symm, h2.2.symm⟩
  have := hle p hp
  simp
  omega

omit [DecidableEq F] in
theorem mult_length {ctx : Ctx F} {num : Nat} {tapes vxs vys rs zs outs : List (List F)}
    (h : mult ctx num tapes vxs vys rs zs = some outs) :
    outs.length = ctx.n ∧ ∀ p < ctx.n, ∃ r, rs[p]? = some r ∧ (outs.getD p []).length = r.length := by
  unfold mult reduceDegree at h
  obtain ⟨ps, _, h⟩ := Option.bind_eq_some_iff.1 h
  obtain ⟨ms, _, h⟩ := Option.bind_eq_some_iff.1 h
  obtain ⟨reps, _, h⟩ := Option.bind_eq_some_iff.1 h
  obtain ⟨h1, h2, _⟩ := mapM_range_get [] h
  refine ⟨h1, fun p hp => ?_⟩
  have h3 := h2 p hp
  obtain ⟨s, _, h3⟩ := Option.bind_eq_some_iff.1 h3
  obtain ⟨r, hr, h3⟩ := Option.bind_eq_some_iff.1 h3
  refine ⟨r, hr, ?_⟩
  unfold rdFinish at h3
  split at h3
  · next hl =>
    rw [Option.some.injEq] at h3
    rw [← h3]
    simp [vsub, hl]
  · cases h3

omit [DecidableEq F] in
/-- What the loop over the leaders does, for each leader and each party. -/
theorem errorLoop_split {ctx : Ctx F} (l : List (Nat × ErrTapes F)) (f g h : Nat → List F) (errors : List (List F))
    (hl : errorLoop ctx l ((List.range ctx.n).map f) ((List.range ctx.n).map g) ((List.range ctx.n).map h) = some errors) :
    ∃ (ins : Nat → List (ErrIn F)) (mid fin : List (List (List F))), mid.length = l.length ∧ fin.length = l.length ∧
      (∀ p < ctx.n, errIns (l.map (·.1)) (f p) (g p) (h p) = some (ins p)) ∧
      (∀ (a : Nat) (x : Nat × ErrTapes F), l[a]? = some x → ∃ (I : Nat → ErrIn F) (m e : List (List F)),
        (∀ p < ctx.n, (ins p)[a]? = some (I p)) ∧ mid[a]? = some m ∧ fin[a]? = some e ∧
        m.length = ctx.n ∧ e.length = ctx.n ∧
        (∀ p < ctx.n, (I p).rbit0.length = x.1 ∧ (m.getD p []).length = x.1) ∧
        mult ctx x.1 x.2.first ((List.range ctx.n).map fun p => (I p).rbit0) ((List.range ctx.n).map fun p => (I p).rbit1)
          ((List.range ctx.n).map fun p => (I p).rands) ((List.range ctx.n).map fun p => (I p).zeros) = some m ∧
        mult ctx x.1 x.2.second m ((List.range ctx.n).map fun p => (I p).scalars)
          ((List.range ctx.n).map fun p => (I p).rands2) ((List.range ctx.n).map fun p => (I p).zeros2) = some e) ∧
      errors = (List.range ctx.n).map fun p => (fin.map fun e => e.getD p []).flatten := by
  induction l generalizing f g h errors with
  | nil =>
    unfold errorLoop at hl
    rw [Option.some.injEq] at hl
    refine ⟨fun _ => [], [], [], rfl, rfl, fun p _ => rfl, ?_, ?_⟩
    · intro a x hx
      simp at hx
    · rw [← hl]
      simp [List.map_const']
  | cons x l ih =>
    obtain ⟨b, tp⟩ := x
    unfold errorLoop at hl
    obtain ⟨⟨rbit0, rb1⟩, d1, hl⟩ := Option.bind_eq_some_iff.1 hl
    obtain ⟨u1, v1, rfl, rfl⟩ := drainAll_split d1
    obtain ⟨⟨rbit1, rb2⟩, d2, hl⟩ := Option.bind_eq_some_iff.1 hl
    obtain ⟨u2, v2, rfl, rfl⟩ := drainAll_split d2
    obtain ⟨⟨brand, er⟩, d3, hl⟩ := Option.bind_eq_some_iff.1 hl
    obtain ⟨u3, v3, rfl, rfl⟩ := drainAll_split d3
    obtain ⟨⟨bz, ez⟩, d4, hl⟩ := Option.bind_eq_some_iff.1 hl
    obtain ⟨u4, v4, rfl, rfl⟩ := drainAll_split d4
    obtain ⟨errs, hb, hl⟩ := Option.bind_eq_some_iff.1 hl
    obtain ⟨more, hmore, hl⟩ := Option.map_eq_some_iff.1 hl
    unfold errorBatch at hb
    obtain ⟨⟨rands, br1⟩, d5, hb⟩ := Option.bind_eq_some_iff.1 hb
    obtain ⟨u5, v5, rfl, rfl⟩ := drainAll_split d5
    obtain ⟨⟨zeros, bz1⟩, d6, hb⟩ := Option.bind_eq_some_iff.1 hb
    obtain ⟨u6, v6, rfl, rfl⟩ := drainAll_split d6
    obtain ⟨biased, hm1, hb⟩ := Option.bind_eq_some_iff.1 hb
    obtain ⟨⟨scalars, br2⟩, d7, hm2⟩ := Option.bind_eq_some_iff.1 hb
    obtain ⟨u7, v7, rfl, rfl⟩ := drainAll_split d7
    simp only [] at hm1 hm2 hmore
    obtain ⟨ins, mid, fin, i1, i2, i3, i4, i5⟩ := ih _ _ _ _ hmore
    obtain ⟨l1, l2⟩ := mult_length hm1
    obtain ⟨l3, _⟩ := mult_length hm2
    refine ⟨fun p => ⟨(f p).take b, ((f p).drop b).take b, ((g p).take (3 * b)).take b, ((h p).take (2 * b)).take b,
        (((g p).take (3 * b)).drop b).take b, (((g p).take (3 * b)).drop b).drop b, ((h p).take (2 * b)).drop b⟩ :: ins p,
      biased :: mid, errs :: fin, by simp [i1], by simp [i2], ?_, ?_, ?_⟩
    · intro p hp
      rw [List.map_cons, errIns, u1 p hp, Option.bind_some]
      simp only []
      rw [u2 p hp, Option.bind_some]
      simp only []
      rw [u3 p hp, Option.bind_some]
      simp only []
      rw [u4 p hp, Option.bind_some]
      simp only []
      rw [u5 p hp, Option.bind_some]
      simp only []
      rw [u6 p hp, Option.bind_some]
      simp only []
      rw [u7 p hp, Option.bind_some]
      simp only []
      rw [i3 p hp]
      rfl
    · intro a x hx
      cases a with
      | zero =>
        simp only [List.getElem?_cons_zero, Option.some.injEq] at hx
        subst hx
        refine ⟨fun p => ⟨(f p).take b, ((f p).drop b).take b, ((g p).take (3 * b)).take b, ((h p).take (2 * b)).take b,
          (((g p).take (3 * b)).drop b).take b, (((g p).take (3 * b)).drop b).drop b, ((h p).take (2 * b)).drop b⟩,
          biased, errs, fun p _ => rfl, rfl, rfl, l1, l3, ?_, hm1, hm2⟩
        intro p hp
        refine ⟨v1 p hp, ?_⟩
        obtain ⟨r, hr, e⟩ := l2 p hp
        rw [e]
        rw [List.getElem?_map, List.getElem?_range hp, Option.map_some, Option.some.injEq] at hr
        rw [← hr]
        exact v5 p hp
      | succ a =>
        obtain ⟨I, m, e, k1, k2⟩ := i4 a x (by simpa using hx)
        exact ⟨I, m, e, fun p hp => by simpa using k1 p hp, by simpa using k2⟩
    · rw [← hl, i5]
      apply List.ext_getElem
      · simp [l3]
      · intro p h1 h2
        have hp : p < ctx.n := by simpa using h2
        simp [l3, hp]

theorem flatMap_pair {α β : Type} (g h : α → β) (l : List α) (i : Nat) :
    (l.flatMap fun x => [g x, h x])[i]? = if i % 2 = 0 then (l[i / 2]?).map g else (l[i / 2]?).map h := by
  induction l generalizing i with
  | nil => simp
  | cons x l ih =>
    match i with
    | 0 => simp
    | 1 => simp
    | i + 2 =>
      have h1 : (i + 2) / 2 = i / 2 + 1 := by omega
      rw [List.flatMap_cons, List.cons_append, List.cons_append, List.nil_append, List.getElem?_cons_succ,
        List.getElem?_cons_succ, ih, Nat.add_mod_right, h1, List.getElem?_cons_succ]

omit [DecidableEq F] in
theorem rand_length {ctx : Ctx F} {m : Mat F} {num : Nat} {tapes : List (List (List F))} {outs : List (List F)}
    (h : rand ctx m num tapes = some outs) : outs.length = ctx.n := by
  unfold rand at h
  obtain ⟨_, _, h⟩ := Option.bind_eq_some_iff.1 h
  obtain ⟨_, _, h⟩ := Option.bind_eq_some_iff.1 h
  unfold dealRound at h
  obtain ⟨_, _, h⟩ := Option.bind_eq_some_iff.1 h
  exact (mapM_range_get [] h).1

omit [DecidableEq F] in
theorem zero_length {ctx : Ctx F} {m : Mat F} {num : Nat} {tapes : List (List (List F))} {outs : List (List F)}
    (h : zero ctx m num tapes = some outs) : outs.length = ctx.n := by
  unfold zero at h
  obtain ⟨_, _, h⟩ := Option.bind_eq_some_iff.1 h
  obtain ⟨_, _, h⟩ := Option.bind_eq_some_iff.1 h
  unfold dealRound at h
  obtain ⟨_, _, h⟩ := Option.bind_eq_some_iff.1 h
  exact (mapM_range_get [] h).1

omit [DecidableEq F] in
theorem randbit_length {ctx : Ctx F} {m : Mat F} {num : Nat} {bits : List (List (List Bool))}
    {tapes : List (List (List F))} {outs : List (List F)}
    (h : randbit ctx m num bits tapes = some outs) : outs.length = ctx.n := by
  unfold randbit at h
  obtain ⟨_, _, h⟩ := Option.bind_eq_some_iff.1 h
  obtain ⟨_, _, h⟩ := Option.bind_eq_some_iff.1 h
  unfold dealRound at h
  obtain ⟨_, _, h⟩ := Option.bind_eq_some_iff.1 h
  exact (mapM_range_get [] h).1

theorem numBatches_le {num k b : Nat} (h : numBatches num k = some b) : b ≤ num := by
  unfold numBatches at h
  split at h
  · cases h
  · next hk =>
    rw [Option.some.injEq] at h
    rw [← h]
    rw [Nat.div_le_iff_le_mul_add_pred (by omega)]
    have := Nat.le_mul_of_pos_left num (Nat.pos_of_ne_zero hk)
    omega

omit [DecidableEq F] in
/-- The sequential execution of the jobs of `preproc` gives the results of the sequential description. -/
theorem preproc_seq {c : Codec F} (hc : c.Ok) (ctx : Ctx F) (m mb : Mat F) (desc : PreProcCount) (tp : PreTapes F)
    (id : ProtocolID) (ids : List ProtocolID) (hids : preprocIds id ctx.n = some ids)
    (hilen : ids.length = 3 + 2 * ctx.n)
    (hr : desc.numKeys + desc.randoms + 3 * desc.errors < 2 ^ 64) (hz : desc.zeros + 2 * desc.errors < 2 ^ 64)
    (hb : desc.masks + 2 * desc.errors < 2 ^ 64) (res : List (PreProc F)) (h : preproc ctx m mb desc tp = some res) :
    ∃ jobs outs, preprocJobs c ctx m mb desc tp id = some jobs ∧ jobs.map (·.id) = ids ∧ seqRun ctx.n jobs = some outs ∧
      res.length = ctx.n ∧ ∀ p < ctx.n, preprocResult desc ctx.n (outsEnv outs p) = res[p]? := by
  unfold preproc at h
  obtain ⟨rands, hrand, h⟩ := Option.bind_eq_some_iff.1 h
  obtain ⟨zeros, hzero, h⟩ := Option.bind_eq_some_iff.1 h
  obtain ⟨rbits, hrbit, h⟩ := Option.bind_eq_some_iff.1 h
  have lr := rand_length hrand
  have lz := zero_length hzero
  have lb := randbit_length hrbit
  have er := range_getD rands []
  have ez := range_getD zeros []
  have eb := range_getD rbits []
  rw [lr] at er
  rw [lz] at ez
  rw [lb] at eb
  rw [er, ez, eb] at h
  obtain ⟨⟨erand, rands1⟩, d1, h⟩ := Option.bind_eq_some_iff.1 h
  obtain ⟨u1, v1, rfl, rfl⟩ := drainAll_split d1
  obtain ⟨⟨ezeros, zeros1⟩, d2, h⟩ := Option.bind_eq_some_iff.1 h
  obtain ⟨u2, v2, rfl, rfl⟩ := drainAll_split d2
  obtain ⟨⟨ebits, rbits1⟩, d3, h⟩ := Option.bind_eq_some_iff.1 h
  obtain ⟨u3, v3, rfl, rfl⟩ := drainAll_split d3
  obtain ⟨sizes, hsz, h⟩ := Option.bind_eq_some_iff.1 h
  have hslen : sizes.length = ctx.n := by
    unfold errorBatches at hsz
    split at hsz
    · cases hsz
    · rw [Option.some.injEq] at hsz
      rw [← hsz]
      simp
      omega
  have hsle : ∀ a ∈ sizes, a ≤ desc.errors := by
    unfold errorBatches at hsz
    split at hsz
    · cases hsz
    · rw [Option.some.injEq] at hsz
      rw [← hsz]
      intro a ha
      simp only [List.mem_append, List.mem_replicate, List.mem_singleton] at ha
      rcases ha with ⟨_, rfl⟩ | rfl
      · exact Nat.div_le_self _ _
      · exact Nat.sub_le _ _
  by_cases htl : tp.errs.length = sizes.length
  swap
  · rw [if_neg htl] at h
    cases h
  rw [if_pos htl] at h
  obtain ⟨errors, hloop, h⟩ := Option.bind_eq_some_iff.1 h
  obtain ⟨⟨keys, rands2⟩, d4, h⟩ := Option.bind_eq_some_iff.1 h
  obtain ⟨u4, v4, rfl, rfl⟩ := drainAll_split d4
  obtain ⟨ins, mid, fin, i1, i2, i3, i4, rfl⟩ := errorLoop_split _ _ _ _ _ hloop
  obtain ⟨br, hbr, hrand'⟩ := Option.bind_eq_some_iff.1 hrand
  obtain ⟨bz, hbz, hzero'⟩ := Option.bind_eq_some_iff.1 hzero
  obtain ⟨bb, hbb, hrbit'⟩ := Option.bind_eq_some_iff.1 hrbit
  have hzl : (sizes.zip tp.errs).length = ctx.n := by simp [htl, hslen]
  rw [hzl] at i1 i2
  have hsm : (sizes.zip tp.errs).map (·.1) = sizes := by
    rw [List.map_fst_zip]
    omega
  rw [hsm] at i3
  obtain ⟨outs, o0, o1, o2, o3, o4, ol⟩ : ∃ outs : List (List (List F)), outs[0]? = some rands ∧ outs[1]? = some zeros ∧
      outs[2]? = some rbits ∧ (∀ a, outs[3 + 2 * a]? = mid[a]?) ∧ (∀ a, outs[4 + 2 * a]? = fin[a]?) ∧
      outs.length = 3 + 2 * ctx.n := by
    refine ⟨rands :: zeros :: rbits :: (mid.zip fin).flatMap fun x => [x.1, x.2], rfl, rfl, rfl, fun a => ?_, fun a => ?_, ?_⟩
    · rw [show 3 + 2 * a = 2 * a + 1 + 1 + 1 by omega]
      simp only [List.getElem?_cons_succ]
      rw [flatMap_pair, if_pos (by omega), show 2 * a / 2 = a by omega, ← List.getElem?_map, List.map_fst_zip (by omega)]
    · rw [show 4 + 2 * a = 2 * a + 1 + 1 + 1 + 1 by omega]
      simp only [List.getElem?_cons_succ]
      rw [flatMap_pair, if_neg (by omega), show (2 * a + 1) / 2 = a by omega, ← List.getElem?_map,
        List.map_snd_zip (by omega)]
    · simp [i1, i2]
      omega
  have hgr : ∀ p < ctx.n, rands[p]? = some (rands.getD p []) := by
    intro p hp
    rw [List.getD_eq_getElem?_getD, List.getElem?_eq_getElem (by omega), Option.getD_some]
  have hgz : ∀ p < ctx.n, zeros[p]? = some (zeros.getD p []) := by
    intro p hp
    rw [List.getD_eq_getElem?_getD, List.getElem?_eq_getElem (by omega), Option.getD_some]
  have hgb : ∀ p < ctx.n, rbits[p]? = some (rbits.getD p []) := by
    intro p hp
    rw [List.getD_eq_getElem?_getD, List.getElem?_eq_getElem (by omega), Option.getD_some]
  have hins : ∀ p < ctx.n, ∀ deps : List Nat, 0 ∈ deps → 1 ∈ deps → 2 ∈ deps →
      preIns desc ctx.n (Env.only (outsEnv outs p) deps) = some (ins p) := by
    intro p hp deps h0 h1 h2
    unfold preIns Env.only outsEnv
    rw [if_pos h0, if_pos h1, if_pos h2, o0, o1, o2, Option.bind_some, Option.bind_some, Option.bind_some, hgr p hp, hgz p hp,
      hgb p hp, Option.bind_some, Option.bind_some, Option.bind_some, u1 p hp, Option.bind_some]
    simp only []
    rw [u2 p hp, Option.bind_some]
    simp only []
    rw [u3 p hp, Option.bind_some]
    simp only []
    rw [hsz, Option.bind_some, i3 p hp]
  obtain ⟨steps, hsteps⟩ : ∃ steps : List (List Nat × Proto (List F)), steps =
    [([], dealProto c ctx.n br m (randSharings ctx br tp.rand) (fun o => o)),
      ([], dealProto c ctx.n bz m (zeroSharings ctx bz tp.zero) (fun o => o)),
      ([], dealProto c ctx.n bb mb (randbitSharings ctx bb tp.bits tp.rbit) (fun o => o))] ++
    tp.errs.zipIdx.flatMap fun e => errJobs c ctx desc e.2 e.1 := ⟨_, rfl⟩
  have hstl : steps.length = 3 + 2 * ctx.n := by
    rw [hsteps]
    simp [errJobs]
    omega
  have hjobs : preprocJobs c ctx m mb desc tp id = some ((ids.zip steps).map fun s => ⟨s.1, s.2.1, s.2.2⟩) := by
    unfold preprocJobs
    rw [hids, Option.bind_some, hbr, Option.bind_some, hbz, Option.bind_some, hbb, Option.map_some, ← hsteps]
  refine ⟨_, outs, hjobs, ?_, ?_, ?_, ?_⟩
  · rw [List.map_map]
    exact List.map_fst_zip (by omega)
  · refine seqRun_of _ outs (by simp [hilen, hstl, ol]) ?_
    intro i job hi
    rw [List.getElem?_map] at hi
    obtain ⟨⟨jid, st⟩, hzip, rfl⟩ := Option.map_eq_some_iff.1 hi
    have hst := (List.getElem?_zip_eq_some.1 hzip).2
    simp only []
    have hi3 : i < 3 + 2 * ctx.n := by
      have := (List.getElem?_eq_some_iff.1 hst).1
      omega
    rw [hsteps] at hst
    match i, hst with
    | 0, hst =>
      cases hst
      refine ⟨by simp, ?_⟩
      unfold rand at hrand
      rw [hbr, Option.bind_some] at hrand
      obtain ⟨shs, h1, h2⟩ := Option.bind_eq_some_iff.1 hrand
      have := deal_round (O := List F) hc br (lt_of_le_of_lt (numBatches_le hbr) hr) m (randSharings ctx br tp.rand) shs h1
        (fun o => o) (fun p => Env.only (outsEnv outs p) []) rands h2
      rw [this, o0, List.map_id']
    | 1, hst =>
      cases hst
      refine ⟨by simp, ?_⟩
      unfold zero at hzero
      rw [hbz, Option.bind_some] at hzero
      obtain ⟨shs, h1, h2⟩ := Option.bind_eq_some_iff.1 hzero
      have := deal_round (O := List F) hc bz (lt_of_le_of_lt (numBatches_le hbz) hz) m (zeroSharings ctx bz tp.zero) shs h1
        (fun o => o) (fun p => Env.only (outsEnv outs p) []) zeros h2
      rw [this, o1, List.map_id']
    | 2, hst =>
      cases hst
      refine ⟨by simp, ?_⟩
      unfold randbit at hrbit
      rw [hbb, Option.bind_some] at hrbit
      obtain ⟨shs, h1, h2⟩ := Option.bind_eq_some_iff.1 hrbit
      have := deal_round (O := List F) hc bb (lt_of_le_of_lt (numBatches_le hbb) hb) mb
        (randbitSharings ctx bb tp.bits tp.rbit) shs h1 (fun o => o) (fun p => Env.only (outsEnv outs p) []) rbits h2
      rw [this, o2, List.map_id']
    | i + 3, hst =>
      have hst' : (tp.errs.zipIdx.flatMap fun e => errJobs c ctx desc e.2 e.1)[i]? = some st := hst
      unfold errJobs at hst'
      rw [flatMap_pair] at hst'
      have ha : i / 2 < ctx.n := by omega
      have hx : (sizes.zip tp.errs)[i / 2]? = some (sizes[i / 2]'(by omega), tp.errs[i / 2]'(by omega)) := by
        rw [List.getElem?_eq_getElem (by omega), List.getElem_zip]
      have hzi : tp.errs.zipIdx[i / 2]? = some (tp.errs[i / 2]'(by omega), i / 2) := by
        rw [List.getElem?_zipIdx, List.getElem?_eq_getElem (by omega)]
        simp
      rw [hzi] at hst'
      have hbs : sizes[i / 2]'(by omega) < 2 ^ 64 := by
        have := hsle _ (List.getElem_mem (show i / 2 < sizes.length by omega))
        omega
      obtain ⟨I, mm, ee, k1, k2, k3, k4, k5, k6, k7, k8⟩ := i4 (i / 2) _ hx
      have hin : ∀ p < ctx.n, ∀ deps : List Nat, 0 ∈ deps → 1 ∈ deps → 2 ∈ deps →
          ((preIns desc ctx.n (Env.only (outsEnv outs p) deps)).bind fun ins => ins[i / 2]?) = some (I p) := by
        intro p hp deps h0 h1 h2
        rw [hins p hp deps h0 h1 h2, Option.bind_some, k1 p hp]
      by_cases hpar : i % 2 = 0
      · rw [if_pos hpar, Option.map_some, Option.some.injEq] at hst'
        subst hst'
        simp only []
        refine ⟨?_, ?_⟩
        · intro d hd
          simp at hd
          omega
        · have := mult_round (O := List F) hc ctx ha (tp.errs[i / 2]'(by omega)).first (fun _ env =>
            (preIns desc ctx.n env).bind fun ins => (ins[i / 2]?).map fun i => (i.rbit0, i.rbit1, i.rands, i.zeros))
            (fun o => o) (fun p => Env.only (outsEnv outs p) [0, 1, 2]) _ hbs _ _ _ _ mm ?_ ?_ k7
          · rw [this, List.map_id', show i + 3 = 3 + 2 * (i / 2) by omega, o3, k2]
          · intro v hv
            rw [List.mem_map] at hv
            obtain ⟨p, hp, rfl⟩ := hv
            exact (k6 p (List.mem_range.1 hp)).1
          · intro p hp
            rw [hins p hp _ (by simp) (by simp) (by simp), Option.bind_some, k1 p hp]
            simp [hp]
      · rw [if_neg hpar, Option.map_some, Option.some.injEq] at hst'
        subst hst'
        simp only []
        refine ⟨?_, ?_⟩
        · intro d hd
          simp at hd
          omega
        · have := mult_round (O := List F) hc ctx ha (tp.errs[i / 2]'(by omega)).second (fun _ env =>
            (preIns desc ctx.n env).bind fun ins => (ins[i / 2]?).bind fun j => (env (3 + 2 * (i / 2))).map fun biased =>
              (biased, j.scalars, j.rands2, j.zeros2))
            (fun o => o) (fun p => Env.only (outsEnv outs p) [0, 1, 2, 3 + 2 * (i / 2)]) _ hbs _ _ _ _ ee ?_ ?_ k8
          · rw [this, List.map_id', show i + 3 = 4 + 2 * (i / 2) by omega, o4, k3]
          · intro v hv
            obtain ⟨p, hp, rfl⟩ := List.getElem_of_mem hv
            have := (k6 p (by omega)).2
            rwa [List.getD_eq_getElem?_getD, List.getElem?_eq_getElem hp, Option.getD_some] at this
          · intro p hp
            have hmp : mm[p]? = some (mm.getD p []) := by
              rw [List.getD_eq_getElem?_getD, List.getElem?_eq_getElem (by omega), Option.getD_some]
            rw [hins p hp _ (by simp) (by simp) (by simp), Option.bind_some, k1 p hp, Option.bind_some]
            unfold Env.only outsEnv
            rw [if_pos (by simp), o3, k2, Option.bind_some, hmp]
            simp [hp]
  · rw [mapM_length h, List.length_range]
  · intro p hp
    have hlen : res.length = ctx.n := by rw [mapM_length h, List.length_range]
    have h5 := mapM_getElem h p (by simpa using hp) (by omega)
    rw [List.getElem?_eq_getElem (by omega), ← h5]
    unfold preprocResult outsEnv
    rw [o0, o1, o2, Option.bind_some, Option.bind_some, Option.bind_some, hgr p hp, hgz p hp,
      hgb p hp, Option.bind_some, Option.bind_some, Option.bind_some, u1 p hp, Option.bind_some]
    simp only []
    rw [u2 p hp, Option.bind_some]
    simp only []
    rw [u3 p hp, Option.bind_some]
    simp only []
    have herr : (List.range ctx.n).mapM (fun a => (outs[4 + 2 * a]?).bind fun o => o[p]?)
        = some (fin.map fun e => e.getD p []) := by
      conv_rhs => rw [range_getD fin [], i2, List.map_map]
      refine mapM_range_some _ _ _ fun a ha => ?_
      have hx : (sizes.zip tp.errs)[a]? = some (sizes[a]'(by omega), tp.errs[a]'(by omega)) := by
        rw [List.getElem?_eq_getElem (by omega), List.getElem_zip]
      obtain ⟨I, mm, ee, k1, k2, k3, k4, k5, _⟩ := i4 a _ hx
      rw [o4, k3, Option.bind_some, Function.comp, getD_of_some k3, List.getD_eq_getElem?_getD,
        List.getElem?_eq_getElem (by omega), Option.getD_some]
    rw [herr, Option.bind_some, u4 p hp, Option.bind_some]
    simp [hp]
    cases Arr3.ofVec desc.keys (List.take desc.numKeys (List.drop (3 * desc.errors) (rands[p]?.getD []))) <;> rfl

end

end Verif
