import Verif.PreLoop
import Verif.PrivacyJobs
import Verif.Props.ProtoId

/-!
# Results, messages and material of a run of `preproc`, in terms of polynomials
-/

open Polynomial

namespace Verif

open CodeField (ofU32)

variable {F : Type} [CodeField F] [DecidableEq F]

/-! ## What the parties deal -/

section deal
variable {ctx : Ctx F} (h : ctx.Good) {batches : Nat} {tp : PreTapes F}
include h

theorem randSharings_explicit (ht : TapeShape ctx.n batches (ctx.t + ctx.l) tp.rand) {p : Nat} (hp : p < ctx.n) :
    randSharings ctx batches tp.rand p
      = some ((List.range batches).map fun b => (sharePos ctx.n).map fun x => (tp.polyR ctx p b).eval x) := by
  have hle := h.le
  have hl := h.posL
  have hfit := h.fit
  unfold randSharings
  refine mapM_range_some batches _ _ fun b hb => ?_
  obtain ⟨u, v, h1, h2, h3, h4⟩ := ht.get p b hp hb
  rw [h1, Option.bind_some, h2, Option.bind_some]
  obtain ⟨r, r1, r2, r3⟩ := rand_eq_eval h.pss (by omega) v (by omega)
  rw [show ctx.t + ctx.l - 1 + 1 = ctx.t + ctx.l by omega] at r1 r3
  rw [r2, show r = tp.polyR ctx p b from sharePoly_unique (by omega) _ r1 (take_share_eval (by omega) (by rw [r3, h4]))]

theorem zeroSharings_explicit (ht : TapeShape ctx.n batches (ctx.n - ctx.l) tp.zero) {p : Nat} (hp : p < ctx.n) :
    zeroSharings ctx batches tp.zero p
      = some ((List.range batches).map fun b => (sharePos ctx.n).map fun x => (tp.polyZ ctx p b).eval x) := by
  have hle := h.le
  have hl := h.posL
  have hn1 := h.posN
  unfold zeroSharings
  refine mapM_range_some batches _ _ fun b hb => ?_
  obtain ⟨u, v, h1, h2, h3, h4⟩ := ht.get p b hp hb
  rw [h1, Option.bind_some, h2, Option.bind_some]
  obtain ⟨r, r1, r2, r3, r4⟩ := share_eq_eval h.pssN (defaultPos_good h.fit) (by rw [defaultPos_length]; omega)
    (List.replicate ctx.l 0) v (by rw [defaultPos_length]; simp) (by rw [defaultPos_length]; simp; omega)
  rw [defaultPos_length] at r3 r4
  rw [show ctx.n - 1 + 1 = ctx.n by omega] at r1 r3 r4
  rw [List.drop_eq_nil_of_le (by omega), List.append_nil] at r3
  rw [List.take_of_length_le (l := v) (by omega)] at r4
  rw [r2]
  have : r = tp.polyZ ctx p b := by
    refine secPoly_unique h (k := ctx.n - ctx.l) (by omega) _ _ ?_ (take_share_eval (n := ctx.n) (by omega) (by rw [r4, h4])) fun j hj => ?_
    · rw [show ctx.n - ctx.l + ctx.l = ctx.n by omega]
      exact r1
    · rw [default_eval r3 j hj]
      simp [List.getD_eq_getElem?_getD, hj]
  rw [this]

theorem randbitSharings_explicit (hb : TapeShape ctx.n batches ctx.l tp.bits) (ht : TapeShape ctx.n batches ctx.t tp.rbit)
    {p : Nat} (hp : p < ctx.n) :
    randbitSharings ctx batches tp.bits tp.rbit p
      = some ((List.range batches).map fun b => (sharePos ctx.n).map fun x => (tp.polyB ctx p b).eval x) := by
  have hpl : ctx.pss.l = ctx.l := by rw [(new_eq h.pss).2.2.2.1, defaultPos_length]
  unfold randbitSharings
  refine mapM_range_some batches _ _ fun b hb' => ?_
  obtain ⟨u, v, h1, h2, h3, h4⟩ := ht.get p b hp hb'
  obtain ⟨u', v', g1, g2, g3, g4⟩ := hb.get p b hp hb'
  rw [g1, Option.bind_some, g2, Option.bind_some, h1, Option.bind_some, h2, Option.bind_some, if_pos (by rw [hpl, g3]),
    share_explicit h _ _ (by simpa using g3) h3]
  unfold PreTapes.polyB
  rw [h4, g4]

end deal

omit [DecidableEq F] in
/-- A message of a dealing round. -/
theorem deal_between {O : Type} {c : Codec F} {n batches : Nat} {m : Mat F} {sharings : Nat → Option (List (List F))}
    {ret : List F → O} {envs : Nat → Env O} {p q : Nat} {f : Nat → F[X]} (hq : q < n)
    (h : sharings p = some ((List.range batches).map fun b => (sharePos n).map fun x => (f b).eval x)) :
    (dealProto c n batches m sharings ret).between n envs p q
      = [c.enc ((List.range batches).map fun b => (f b).eval (ofU32 q))] := by
  have hs : (dealProto c n batches m sharings ret).sends p (envs p) = some (toEach ((List.range n).map fun r => c.enc (
      (List.range batches).map fun b => (f b).eval (ofU32 r)))) := by
    simp only [dealProto, h, dealSend_tab, Option.bind_some, Option.map_some, tabShares, List.map_map]
    rfl
  unfold Proto.between
  rw [hs, Option.getD_some, theMessage_filter (theMessage_toEach _ hq), if_neg (by simp [dealProto]), List.append_nil]

/-! ## Blocks -/

omit [CodeField F] [DecidableEq F] in
/-- Blocks one after the other. -/
theorem blocks_flatten {α : Type} (s : List Nat) (f : Nat → α) :
    ((List.range s.length).map fun a => (List.range (s.getD a 0)).map fun j => f (preSum s a + j)).flatten
      = (List.range s.sum).map f := by
  induction s generalizing f with
  | nil => rfl
  | cons b s ih =>
    rw [List.length_cons, List.range_succ_eq_map, List.map_cons, List.map_map, List.flatten_cons, List.sum_cons,
      List.range_add, List.map_append, List.map_map]
    congr 1
    · simp [preSum_zero]
    · rw [← ih (f ∘ (b + ·))]
      congr 1
      refine List.map_congr_left fun a _ => ?_
      simp only [Function.comp_apply, List.getD_cons_succ, preSum_cons]
      exact List.map_congr_left fun j _ => by rw [Nat.add_assoc]

section run
variable {c : Codec F} {ctx : Ctx F} {m mb : Mat F} {d : PreProcCount} {id : ProtocolID} {ids : List ProtocolID} {br bz bb : Nat}
  (H : PreHyp c ctx m mb d id ids br bz bb) {tp : PreTapes F} (ht : tp.Ok ctx.n ctx.t ctx.l m mb d)

omit [CodeField F] [DecidableEq F] in
theorem sizes_get {n a : Nat} (ha : a < n) :
    (errSizes d n)[a]? = some ((errSizes d n).getD a 0) ∧ (errSizes d n).getD a 0 = errSize d.errors n a := by
  have := errSizes_get (d := d) ha
  constructor
  · rw [List.getD_eq_getElem?_getD, this, Option.getD_some]
  · rw [List.getD_eq_getElem?_getD, this, Option.getD_some]

include H in
theorem PreHyp.sizes_sum : (errSizes d ctx.n).sum = d.errors := errSizes_sum H.good.posN

omit [DecidableEq F] in
theorem midPoly_at {R Z B : Nat → F[X]} {a j : Nat} (ha : a < ctx.n) (hj : j < (errSizes d ctx.n).getD a 0) :
    midPoly ctx (errSizes d ctx.n) tp.errs R Z B (preSum (errSizes d ctx.n) a + j)
      = multPoly ctx ((((tp.errs[a]?).map (·.first)).getD []).getD j [])
        (B (2 * preSum (errSizes d ctx.n) a + j)) (B (2 * preSum (errSizes d ctx.n) a + (errSizes d ctx.n).getD a 0 + j))
        (R (3 * preSum (errSizes d ctx.n) a + j)) (Z (2 * preSum (errSizes d ctx.n) a + j)) := by
  have ha' := (sizes_get (d := d) ha).1
  unfold midPoly errTape1
  simp only [errIdx_at ha' hj, locate_get ha' hj, Nat.zero_mul, Nat.add_zero, Nat.one_mul]
  congr 1
  cases tp.errs[a]? <;> simp

omit [DecidableEq F] in
theorem errPoly_at {R Z B : Nat → F[X]} {a j : Nat} (ha : a < ctx.n) (hj : j < (errSizes d ctx.n).getD a 0) :
    errPoly ctx (errSizes d ctx.n) tp.errs R Z B (preSum (errSizes d ctx.n) a + j)
      = multPoly ctx ((((tp.errs[a]?).map (·.second)).getD []).getD j [])
        (midPoly ctx (errSizes d ctx.n) tp.errs R Z B (preSum (errSizes d ctx.n) a + j))
        (R (3 * preSum (errSizes d ctx.n) a + (errSizes d ctx.n).getD a 0 + j))
        (R (3 * preSum (errSizes d ctx.n) a + 2 * (errSizes d ctx.n).getD a 0 + j))
        (Z (2 * preSum (errSizes d ctx.n) a + (errSizes d ctx.n).getD a 0 + j)) := by
  have ha' := (sizes_get (d := d) ha).1
  unfold errPoly errTape2
  simp only [errIdx_at ha' hj, locate_get ha' hj, Nat.one_mul]
  congr 1
  cases tp.errs[a]? <;> simp

include H in
/-- Indices of the sharings for error `k` of leader `a`. -/
theorem PreHyp.idx_lt {a : Nat} (ha : a < ctx.n) :
    preSum (errSizes d ctx.n) a + (errSizes d ctx.n).getD a 0 ≤ d.errors := by
  have h1 := preSum_le_sum (errSizes d ctx.n) (a + 1)
  rw [preSum_succ (sizes_get (d := d) ha).1, H.sizes_sum] at h1
  exact h1

include H in
theorem PreHyp.midPoly_degree {a j : Nat} (ha : a < ctx.n) (hj : j < (errSizes d ctx.n).getD a 0) :
    (midPoly ctx (errSizes d ctx.n) tp.errs (tp.outR ctx m br) (tp.outZ ctx m bz) (tp.outB ctx mb bb)
      (preSum (errSizes d ctx.n) a + j)).degree < (ctx.t + ctx.l : Nat) := by
  rw [midPoly_at ha hj]
  have := H.idx_lt ha
  have := H.leR
  exact multPoly_degree H.good _ _ _ _ (H.degR tp _ (by omega))

include H ht in
/-- The results of all jobs. -/
theorem PreHyp.seqRun : ∃ jobs, preprocJobs c ctx m mb d tp id = some jobs ∧ seqRun ctx.n jobs = some (tp.outs ctx m mb d br bz bb) ∧
    jobs = (ids.zip (preSteps c ctx m mb d br bz bb tp)).map fun s => ⟨s.1, s.2.1, s.2.2⟩ := by
  have htl := ht.errs.1
  have hstl : (preSteps c ctx m mb d br bz bb tp).length = 3 + 2 * ctx.n := by
    simp [preSteps, errJobs]
    omega
  have l1 := H.leR
  have l2 := H.leZ
  have l3 := H.leB
  have hilen := H.len
  refine ⟨_, H.jobs tp, ?_, rfl⟩
  refine seqRun_of _ _ (by simp [hilen, hstl, PreTapes.outs, preOuts_length]) ?_
  intro i job hi
  rw [List.getElem?_map] at hi
  obtain ⟨⟨jid, st⟩, hzip, rfl⟩ := Option.map_eq_some_iff.1 hi
  have hst := (List.getElem?_zip_eq_some.1 hzip).2
  simp only []
  have hi3 : i < 3 + 2 * ctx.n := by
    have := (List.getElem?_eq_some_iff.1 hst).1
    omega
  match i, hst with
  | 0, hst =>
    cases hst
    refine ⟨by simp, ?_⟩
    have hrand := rand_explicit H.good H.mat.1 H.mat.2.1 H.br (ht.rand br H.br)
    unfold rand at hrand
    rw [H.br, Option.bind_some] at hrand
    obtain ⟨shs, h1, h2⟩ := Option.bind_eq_some_iff.1 hrand
    have := deal_round (O := List F) H.codec br (lt_of_le_of_lt (numBatches_le H.br) H.sizeR) m (randSharings ctx br tp.rand) shs h1
      (fun o => o) (fun p => Env.only (outsEnv (tp.outs ctx m mb d br bz bb) p) []) _ h2
    rw [this, List.map_id']
    rfl
  | 1, hst =>
    cases hst
    refine ⟨by simp, ?_⟩
    have hzero := zero_explicit H.good H.mat.1 H.mat.2.1 H.bz (ht.zero bz H.bz)
    unfold zero at hzero
    rw [H.bz, Option.bind_some] at hzero
    obtain ⟨shs, h1, h2⟩ := Option.bind_eq_some_iff.1 hzero
    have := deal_round (O := List F) H.codec bz (lt_of_le_of_lt (numBatches_le H.bz) H.sizeZ) m (zeroSharings ctx bz tp.zero) shs h1
      (fun o => o) (fun p => Env.only (outsEnv (tp.outs ctx m mb d br bz bb) p) []) _ h2
    rw [this, List.map_id']
    rfl
  | 2, hst =>
    cases hst
    refine ⟨by simp, ?_⟩
    have hbit := randbit_explicit H.good H.matb.1 H.matb.2.1 H.bb (ht.bits bb H.bb) (ht.rbit bb H.bb)
    unfold randbit at hbit
    rw [H.bb, Option.bind_some] at hbit
    obtain ⟨shs, h1, h2⟩ := Option.bind_eq_some_iff.1 hbit
    have := deal_round (O := List F) H.codec bb (lt_of_le_of_lt (numBatches_le H.bb) H.sizeB) mb
      (randbitSharings ctx bb tp.bits tp.rbit) shs h1 (fun o => o)
      (fun p => Env.only (outsEnv (tp.outs ctx m mb d br bz bb) p) []) _ h2
    rw [this, List.map_id']
    rfl
  | i + 3, hst =>
    have hst' : (tp.errs.zipIdx.flatMap fun e => errJobs c ctx d e.2 e.1)[i]? = some st := hst
    unfold errJobs at hst'
    rw [flatMap_pair] at hst'
    have ha : i / 2 < ctx.n := by omega
    obtain ⟨a, hae⟩ : ∃ a, a = i / 2 := ⟨_, rfl⟩
    rw [← hae] at hst' ha
    have hzi : tp.errs.zipIdx[a]? = some (tp.errs[a]'(by omega), a) := by
      rw [List.getElem?_zipIdx, List.getElem?_eq_getElem (by omega)]
      simp
    rw [hzi] at hst'
    have he : tp.errs[a]? = some (tp.errs[a]'(by omega)) := List.getElem?_eq_getElem (by omega)
    have heok := ht.errs.2 a _ he
    rw [← (sizes_get (d := d) ha).2] at heok
    obtain ⟨⟨e1, e2⟩, e3, e4⟩ := heok
    have hins : ∀ p < ctx.n, ∀ deps : List Nat, 0 ∈ deps → 1 ∈ deps → 2 ∈ deps →
        ((Verif.preIns d ctx.n (Env.only (outsEnv (tp.outs ctx m mb d br bz bb) p) deps)).bind fun ins => ins[a]?)
          = some (errInAt (errSizes d ctx.n) (fun k => (tp.outB ctx mb bb k).eval (ofU32 p))
            (fun k => (tp.outR ctx m br k).eval (ofU32 p)) (fun k => (tp.outZ ctx m bz k).eval (ofU32 p)) a) := by
      intro p hp deps h0 h1 h2
      unfold PreTapes.outs
      rw [H.preIns hp deps h0 h1 h2, Option.bind_some, getElem?_tab _ _ _ ha]
    have hlt : ∀ j < (errSizes d ctx.n).getD a 0, preSum (errSizes d ctx.n) a + (errSizes d ctx.n).getD a 0 ≤ d.errors :=
      fun j hj => H.idx_lt ha
    have hbs : (errSizes d ctx.n).getD a 0 < 2 ^ 64 := by
      rcases Nat.eq_zero_or_pos ((errSizes d ctx.n).getD a 0) with h0 | h0
      · rw [h0]; norm_num
      · have := hlt 0 h0
        have := H.sizeR
        omega
    by_cases hpar : i % 2 = 0
    · rw [if_pos hpar, Option.map_some, Option.some.injEq] at hst'
      subst hst'
      simp only []
      refine ⟨by intro k hk; simp at hk; omega, ?_⟩
      have := mult_round (O := List F) H.codec ctx ha (tp.errs[a]'(by omega)).first (fun _ env =>
          (Verif.preIns d ctx.n env).bind fun ins => (ins[a]?).map fun i => (i.rbit0, i.rbit1, i.rands, i.zeros)) (fun o => o)
          (fun p => Env.only (outsEnv (tp.outs ctx m mb d br bz bb) p) [0, 1, 2]) _ hbs
          (tabShares ctx.n ((errSizes d ctx.n).getD a 0) fun j => tp.outB ctx mb bb (2 * preSum (errSizes d ctx.n) a + j))
          (tabShares ctx.n ((errSizes d ctx.n).getD a 0) fun j => tp.outB ctx mb bb
            (2 * preSum (errSizes d ctx.n) a + (errSizes d ctx.n).getD a 0 + j))
          (tabShares ctx.n ((errSizes d ctx.n).getD a 0) fun j => tp.outR ctx m br (3 * preSum (errSizes d ctx.n) a + j))
          (tabShares ctx.n ((errSizes d ctx.n).getD a 0) fun j => tp.outZ ctx m bz (2 * preSum (errSizes d ctx.n) a + j))
          _ (fun v hv => by obtain ⟨p, _, rfl⟩ := List.mem_map.1 hv; simp)
          (fun p hp => by
            rw [tabShares_row _ _ _ _ hp, tabShares_row _ _ _ _ hp, tabShares_row _ _ _ _ hp, tabShares_row _ _ _ _ hp]
            have h1 := hins p hp [0, 1, 2] (by simp) (by simp) (by simp)
            obtain ⟨ins, h2, h3⟩ := Option.bind_eq_some_iff.1 h1
            rw [h2, Option.bind_some, h3]
            rfl)
          (mult_explicit H.good H.mult e1 e2 (fun j hj => H.degB tp _ (by have := hlt j hj; omega))
            (fun j hj => H.degB tp _ (by have := hlt j hj; omega)) (fun j hj => H.degR tp _ (by have := hlt j hj; omega))
            (fun j hj => H.degZ tp _ (by have := hlt j hj; omega)))
      rw [this, List.map_id', show i + 3 = 3 + 2 * a by omega]
      unfold PreTapes.outs
      rw [preOuts_mid ha, tabShares_congr fun j hj => ?_]
      rw [midPoly_at ha hj, he]
      rfl
    · rw [if_neg hpar, Option.map_some, Option.some.injEq] at hst'
      subst hst'
      simp only []
      refine ⟨by intro k hk; simp at hk; omega, ?_⟩
      have := mult_round (O := List F) H.codec ctx ha (tp.errs[a]'(by omega)).second (fun _ env =>
          (Verif.preIns d ctx.n env).bind fun ins => (ins[a]?).bind fun i => (env (3 + 2 * a)).map fun biased =>
            (biased, i.scalars, i.rands2, i.zeros2)) (fun o => o)
          (fun p => Env.only (outsEnv (tp.outs ctx m mb d br bz bb) p) [0, 1, 2, 3 + 2 * a]) _ hbs
          (tabShares ctx.n ((errSizes d ctx.n).getD a 0) fun j =>
            midPoly ctx (errSizes d ctx.n) tp.errs (tp.outR ctx m br) (tp.outZ ctx m bz) (tp.outB ctx mb bb)
              (preSum (errSizes d ctx.n) a + j))
          (tabShares ctx.n ((errSizes d ctx.n).getD a 0) fun j => tp.outR ctx m br
            (3 * preSum (errSizes d ctx.n) a + (errSizes d ctx.n).getD a 0 + j))
          (tabShares ctx.n ((errSizes d ctx.n).getD a 0) fun j => tp.outR ctx m br
            (3 * preSum (errSizes d ctx.n) a + 2 * (errSizes d ctx.n).getD a 0 + j))
          (tabShares ctx.n ((errSizes d ctx.n).getD a 0) fun j => tp.outZ ctx m bz
            (2 * preSum (errSizes d ctx.n) a + (errSizes d ctx.n).getD a 0 + j))
          _ (fun v hv => by obtain ⟨p, _, rfl⟩ := List.mem_map.1 hv; simp)
          (fun p hp => by
            rw [tabShares_row _ _ _ _ hp, tabShares_row _ _ _ _ hp, tabShares_row _ _ _ _ hp, tabShares_row _ _ _ _ hp]
            have h1 := hins p hp [0, 1, 2, 3 + 2 * a] (by simp) (by simp) (by simp)
            obtain ⟨ins, h2, h3⟩ := Option.bind_eq_some_iff.1 h1
            have h4 : Env.only (outsEnv (tp.outs ctx m mb d br bz bb) p) [0, 1, 2, 3 + 2 * a] (3 + 2 * a)
                = some ((List.range ((errSizes d ctx.n).getD a 0)).map fun j =>
                  (midPoly ctx (errSizes d ctx.n) tp.errs (tp.outR ctx m br) (tp.outZ ctx m bz) (tp.outB ctx mb bb)
                    (preSum (errSizes d ctx.n) a + j)).eval (ofU32 p)) := by
              unfold Env.only outsEnv PreTapes.outs
              rw [if_pos (by simp), preOuts_mid ha, Option.bind_some, tabShares_row _ _ _ _ hp]
            rw [h2, Option.bind_some, h3, Option.bind_some, h4]
            rfl)
          (mult_explicit H.good H.mult e3 e4 (fun j hj => H.midPoly_degree ha hj)
            (fun j hj => H.degR tp _ (by have := hlt j hj; omega)) (fun j hj => H.degR tp _ (by have := hlt j hj; omega))
            (fun j hj => H.degZ tp _ (by have := hlt j hj; omega)))
      rw [this, List.map_id', show i + 3 = 4 + 2 * a by omega]
      unfold PreTapes.outs
      rw [preOuts_err ha, tabShares_congr fun j hj => ?_]
      rw [errPoly_at ha hj, he]
      rfl

end run

end Verif
