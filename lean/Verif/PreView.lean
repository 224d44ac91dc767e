import Verif.PreRun
import Verif.PrivacyPreSpec

/-!
# The material from a run of `preproc`, and when two runs look alike
-/

open Polynomial

namespace Verif

open CodeField (ofU32)

variable {F : Type} [CodeField F] [DecidableEq F]

section mult
variable {O : Type} {c : Codec F} {ctx : Ctx F} {L n : Nat} {tapes : List (List F)}
  {inp inp' : Nat → Env O → Option (List F × List F × List F × List F)} {ret : List F → O} {envs envs' : Nat → Env O}

omit [DecidableEq F] in
/-- Two multiplications in which the same is opened. -/
theorem mult_same_between {k : Nat} {A B R Z A' B' R' Z' : Nat → Nat → F}
    (hi : ∀ p < n, inp p (envs p) = some ((List.range k).map (A p), (List.range k).map (B p), (List.range k).map (R p),
      (List.range k).map (Z p)))
    (hi' : ∀ p < n, inp' p (envs' p) = some ((List.range k).map (A' p), (List.range k).map (B' p), (List.range k).map (R' p),
      (List.range k).map (Z' p)))
    (hs : ∀ p < n, ∀ j < k, A' p j * B' p j + R' p j + Z' p j = A p j * B p j + R p j + Z p j) {p : Nat} (hp : p < n) (q : Nat) :
    (multProto c ctx L tapes inp' ret).between n envs' p q = (multProto c ctx L tapes inp ret).between n envs p q := by
  have hm : ∀ u v : Nat → F, vmul ((List.range k).map u) ((List.range k).map v) = (List.range k).map fun j => u j * v j := by
    intro u v
    unfold vmul
    rw [List.zipWith_map, List.zipWith_self]
  have ha : ∀ u v : Nat → F, vadd ((List.range k).map u) ((List.range k).map v) = (List.range k).map fun j => u j + v j := by
    intro u v
    unfold vadd
    rw [List.zipWith_map, List.zipWith_self]
  refine Proto.between_congr (P := multProto c ctx L tapes inp ret) (P' := multProto c ctx L tapes inp' ret) rfl (fun p hp => ?_) (fun K hK hPK => ?_) hp q
  · simp only [multProto, rdProto, hi p hp, hi' p hp, Option.bind_some, List.length_map, if_true, rdSend, hm, ha, and_self]
    rw [List.map_congr_left fun j hj => hs p hp j (List.mem_range.1 hj)]
  · cases hPK
    funext ms
    simp only [multProto, rdProto, hi L hK, hi' L hK, Option.bind_some, List.length_map, if_true, hm]

end mult

/-- A party's material. -/
noncomputable def preMaterial (d : PreProcCount) (NR NZ : Nat) (R Z B E : Nat → F[X]) (p : Nat) : PreProc F where
  masks := (List.range d.masks).map fun j => (B (2 * d.errors + j)).eval (ofU32 p)
  keys := ⟨d.keys, (List.range d.numKeys).map fun j => (R (3 * d.errors + j)).eval (ofU32 p)⟩
  randoms := (List.range (NR - 3 * d.errors - d.numKeys)).map fun j => (R (3 * d.errors + (d.numKeys + j))).eval (ofU32 p)
  zeros := (List.range (NZ - 2 * d.errors)).map fun j => (Z (2 * d.errors + j)).eval (ofU32 p)
  errors := (List.range d.errors).map fun k => (E k).eval (ofU32 p)

section run
variable {c : Codec F} {ctx : Ctx F} {m mb : Mat F} {d : PreProcCount} {id : ProtocolID} {ids : List ProtocolID} {br bz bb : Nat}
  (H : PreHyp c ctx m mb d id ids br bz bb)
include H

theorem PreHyp.result {R Z B M E : Nat → F[X]} {p : Nat} (hp : p < ctx.n) :
    preprocResult d ctx.n (outsEnv (preOuts ctx.n (errSizes d ctx.n) (m.rows.length * br) (m.rows.length * bz)
      (mb.rows.length * bb) R Z B M E) p) = some (preMaterial d (m.rows.length * br) (m.rows.length * bz) R Z B E p) := by
  have l1 := H.leR
  have l2 := H.leZ
  have l3 := H.leB
  have he : ∀ a < ctx.n, outsEnv (preOuts ctx.n (errSizes d ctx.n) (m.rows.length * br) (m.rows.length * bz)
      (mb.rows.length * bb) R Z B M E) p (4 + 2 * a) = some ((List.range ((errSizes d ctx.n).getD a 0)).map fun j =>
        (E (preSum (errSizes d ctx.n) a + j)).eval (ofU32 p)) := by
    intro a ha
    unfold outsEnv
    rw [preOuts_err ha, Option.bind_some, tabShares_row _ _ _ _ hp]
  unfold preprocResult
  rw [mapM_range_some _ _ _ he]
  unfold outsEnv
  rw [show (preOuts ctx.n (errSizes d ctx.n) (m.rows.length * br) (m.rows.length * bz) (mb.rows.length * bb) R Z B M E)[0]?
      = some (tabShares ctx.n (m.rows.length * br) R) from rfl,
    show (preOuts ctx.n (errSizes d ctx.n) (m.rows.length * br) (m.rows.length * bz) (mb.rows.length * bb) R Z B M E)[1]?
      = some (tabShares ctx.n (m.rows.length * bz) Z) from rfl,
    show (preOuts ctx.n (errSizes d ctx.n) (m.rows.length * br) (m.rows.length * bz) (mb.rows.length * bb) R Z B M E)[2]?
      = some (tabShares ctx.n (mb.rows.length * bb) B) from rfl]
  simp only [Option.bind_some]
  rw [tabShares_row _ _ _ _ hp, tabShares_row _ _ _ _ hp, tabShares_row _ _ _ _ hp]
  simp only [Option.bind_some]
  rw [drain_tab _ _ _ (by omega), Option.bind_some]
  simp only []
  rw [drain_tab _ _ _ (by omega), Option.bind_some]
  simp only []
  rw [drain_tab _ _ _ (by omega), Option.bind_some]
  simp only []
  rw [drain_tab _ _ _ (by omega), Option.bind_some]
  simp only []
  unfold Arr3.ofVec
  rw [if_pos (by simp [PreProcCount.numKeys]), Option.map_some, take_tab _ _ _ (by omega),
    show List.range ctx.n = List.range (errSizes d ctx.n).length by simp [errSizes],
    blocks_flatten (errSizes d ctx.n) fun k => (E k).eval (ofU32 p), H.sizes_sum]
  rfl

/-- The material of a run. -/
noncomputable def PreTapes.material (ctx : Ctx F) (m mb : Mat F) (d : PreProcCount) (br bz bb : Nat) (tp : PreTapes F) : Nat → PreProc F :=
  preMaterial d (m.rows.length * br) (m.rows.length * bz) (tp.outR ctx m br) (tp.outZ ctx m bz) (tp.outB ctx mb bb)
    (errPoly ctx (errSizes d ctx.n) tp.errs (tp.outR ctx m br) (tp.outZ ctx m bz) (tp.outB ctx mb bb))

theorem PreHyp.preproc {tp : PreTapes F} (ht : tp.Ok ctx.n ctx.t ctx.l m mb d) :
    preproc ctx m mb d tp = some ((List.range ctx.n).map (tp.material ctx m mb d br bz bb)) := by
  obtain ⟨w, _, _, hw⟩ := preproc_tab H.good H.mult ht H.br H.bz H.bb (tp.outR ctx m br) (tp.outZ ctx m bz) (tp.outB ctx mb bb)
    (H.degR tp) (H.degZ tp) (fun k _ => H.secZ tp k) (H.degB tp)
    (rand_explicit H.good H.mat.1 H.mat.2.1 H.br (ht.rand br H.br))
    (zero_explicit H.good H.mat.1 H.mat.2.1 H.bz (ht.zero bz H.bz))
    (randbit_explicit H.good H.matb.1 H.matb.2.1 H.bb (ht.bits bb H.bb) (ht.rbit bb H.bb))
  obtain ⟨res, hres⟩ : ∃ res, Verif.preproc ctx m mb d tp = some res := ⟨_, hw⟩
  obtain ⟨jobs, outs, e1, _, e3, e4, e5⟩ := preproc_seq H.codec ctx m mb d tp id ids H.hids H.len H.sizeR H.sizeZ H.sizeB _ hres
  obtain ⟨jobs', f1, f2, _⟩ := H.seqRun ht
  obtain rfl : jobs = jobs' := Option.some.inj (e1.symm.trans f1)
  obtain rfl : outs = _ := Option.some.inj (e3.symm.trans f2)
  rw [hres, Option.some.injEq]
  apply List.ext_getElem (by simp [e4])
  intro p h1 h2
  have hp : p < ctx.n := by omega
  have := e5 p hp
  rw [show tp.outs ctx m mb d br bz bb = preOuts _ _ _ _ _ _ _ _ _ _ from rfl, H.result hp, List.getElem?_eq_getElem h1,
    Option.some.injEq] at this
  rw [← this, List.getElem_map, List.getElem_range]
  rfl

/-- Two runs which look alike to party `q`. -/
structure PreSameView (ctx : Ctx F) (m mb : Mat F) (d : PreProcCount) (br bz bb : Nat) (tp tp' : PreTapes F) (q : Nat) : Prop where
  own : tp'.own q = tp.own q
  errs : tp'.errs = tp.errs
  rand : ∀ p < ctx.n, ∀ b < br, (tp'.polyR ctx p b).eval (ofU32 q) = (tp.polyR ctx p b).eval (ofU32 q)
  zero : ∀ p < ctx.n, ∀ b < bz, (tp'.polyZ ctx p b).eval (ofU32 q) = (tp.polyZ ctx p b).eval (ofU32 q)
  bits : ∀ p < ctx.n, ∀ b < bb, (tp'.polyB ctx p b).eval (ofU32 q) = (tp.polyB ctx p b).eval (ofU32 q)
  first : ∀ k < d.errors,
    openPoly (tp'.outB ctx mb bb (errIdx 2 (errSizes d ctx.n) 0 k)) (tp'.outB ctx mb bb (errIdx 2 (errSizes d ctx.n) 1 k))
      (tp'.outR ctx m br (errIdx 3 (errSizes d ctx.n) 0 k)) (tp'.outZ ctx m bz (errIdx 2 (errSizes d ctx.n) 0 k))
    = openPoly (tp.outB ctx mb bb (errIdx 2 (errSizes d ctx.n) 0 k)) (tp.outB ctx mb bb (errIdx 2 (errSizes d ctx.n) 1 k))
      (tp.outR ctx m br (errIdx 3 (errSizes d ctx.n) 0 k)) (tp.outZ ctx m bz (errIdx 2 (errSizes d ctx.n) 0 k))
  second : ∀ k < d.errors,
    openPoly (midPoly ctx (errSizes d ctx.n) tp'.errs (tp'.outR ctx m br) (tp'.outZ ctx m bz) (tp'.outB ctx mb bb) k)
      (tp'.outR ctx m br (errIdx 3 (errSizes d ctx.n) 1 k)) (tp'.outR ctx m br (errIdx 3 (errSizes d ctx.n) 2 k))
      (tp'.outZ ctx m bz (errIdx 2 (errSizes d ctx.n) 1 k))
    = openPoly (midPoly ctx (errSizes d ctx.n) tp.errs (tp.outR ctx m br) (tp.outZ ctx m bz) (tp.outB ctx mb bb) k)
      (tp.outR ctx m br (errIdx 3 (errSizes d ctx.n) 1 k)) (tp.outR ctx m br (errIdx 3 (errSizes d ctx.n) 2 k))
      (tp.outZ ctx m bz (errIdx 2 (errSizes d ctx.n) 1 k))

theorem PreHyp.view {tp : PreTapes F} (ht : tp.Ok ctx.n ctx.t ctx.l m mb d) (q : Nat) :
    preprocView c ctx m mb d tp id q = some (tp.own q, (ids.zip (preSteps c ctx m mb d br bz bb tp)).map fun s =>
      (List.range ctx.n).map fun p => s.2.2.between ctx.n (fun r => Env.only (outsEnv (tp.outs ctx m mb d br bz bb) r) s.2.1) p q) := by
  obtain ⟨jobs, f1, f2, f3⟩ := H.seqRun ht
  unfold preprocView
  rw [f1, Option.bind_some, f2, Option.map_some, f3, List.map_map]
  rfl

theorem PreHyp.ins {tp : PreTapes F} {p a : Nat} (hp : p < ctx.n) (ha : a < ctx.n) (deps : List Nat) (h0 : 0 ∈ deps)
    (h1 : 1 ∈ deps) (h2 : 2 ∈ deps) :
    ((Verif.preIns d ctx.n (Env.only (outsEnv (tp.outs ctx m mb d br bz bb) p) deps)).bind fun ins => ins[a]?)
      = some (errInAt (errSizes d ctx.n) (fun k => (tp.outB ctx mb bb k).eval (ofU32 p))
        (fun k => (tp.outR ctx m br k).eval (ofU32 p)) (fun k => (tp.outZ ctx m bz k).eval (ofU32 p)) a) := by
  unfold PreTapes.outs
  rw [H.preIns hp deps h0 h1 h2, Option.bind_some, getElem?_tab _ _ _ ha]

theorem PreHyp.sameStep {tp tp' : PreTapes F} (ht : tp.Ok ctx.n ctx.t ctx.l m mb d) (ht' : tp'.Ok ctx.n ctx.t ctx.l m mb d)
    {p q : Nat} (hp : p < ctx.n) (hq : q < ctx.n) (S : PreSameView ctx m mb d br bz bb tp tp' q) {i : Nat}
    {st st' : List Nat × Proto (List F)} (h : (preSteps c ctx m mb d br bz bb tp)[i]? = some st)
    (h' : (preSteps c ctx m mb d br bz bb tp')[i]? = some st') :
    st'.2.between ctx.n (fun r => Env.only (outsEnv (tp'.outs ctx m mb d br bz bb) r) st'.1) p q
      = st.2.between ctx.n (fun r => Env.only (outsEnv (tp.outs ctx m mb d br bz bb) r) st.1) p q := by
  have htl := ht.errs.1
  have hil : i < 3 + 2 * ctx.n := by
    have := (List.getElem?_eq_some_iff.1 h).1
    have e : (preSteps c ctx m mb d br bz bb tp).length = 3 + 2 * ctx.n := by
      simp [preSteps, errJobs]
      omega
    omega
  match i, h, h' with
  | 0, h, h' =>
    cases h
    cases h'
    have key : ∀ (tp : PreTapes F) (ht : tp.Ok ctx.n ctx.t ctx.l m mb d) (envs : Nat → Env (List F)),
        (dealProto c ctx.n br m (randSharings ctx br tp.rand) (fun o => o)).between ctx.n envs p q
          = [c.enc ((List.range br).map fun b => (tp.polyR ctx p b).eval (ofU32 q))] :=
      fun tp ht envs => deal_between hq (randSharings_explicit H.good (ht.rand br H.br) hp)
    refine (key tp' ht' _).trans (Eq.trans ?_ (key tp ht _).symm)
    rw [List.map_congr_left fun b hb => S.rand p hp b (List.mem_range.1 hb)]
  | 1, h, h' =>
    cases h
    cases h'
    have key : ∀ (tp : PreTapes F) (ht : tp.Ok ctx.n ctx.t ctx.l m mb d) (envs : Nat → Env (List F)),
        (dealProto c ctx.n bz m (zeroSharings ctx bz tp.zero) (fun o => o)).between ctx.n envs p q
          = [c.enc ((List.range bz).map fun b => (tp.polyZ ctx p b).eval (ofU32 q))] :=
      fun tp ht envs => deal_between hq (zeroSharings_explicit H.good (ht.zero bz H.bz) hp)
    refine (key tp' ht' _).trans (Eq.trans ?_ (key tp ht _).symm)
    rw [List.map_congr_left fun b hb => S.zero p hp b (List.mem_range.1 hb)]
  | 2, h, h' =>
    cases h
    cases h'
    have key : ∀ (tp : PreTapes F) (ht : tp.Ok ctx.n ctx.t ctx.l m mb d) (envs : Nat → Env (List F)),
        (dealProto c ctx.n bb mb (randbitSharings ctx bb tp.bits tp.rbit) (fun o => o)).between ctx.n envs p q
          = [c.enc ((List.range bb).map fun b => (tp.polyB ctx p b).eval (ofU32 q))] :=
      fun tp ht envs => deal_between hq (randbitSharings_explicit H.good (ht.bits bb H.bb) (ht.rbit bb H.bb) hp)
    refine (key tp' ht' _).trans (Eq.trans ?_ (key tp ht _).symm)
    rw [List.map_congr_left fun b hb => S.bits p hp b (List.mem_range.1 hb)]
  | i + 3, h, h' =>
    obtain ⟨a, hae⟩ : ∃ a, a = i / 2 := ⟨_, rfl⟩
    have ha : a < ctx.n := by omega
    have hla : a < tp'.errs.length := by rw [S.errs]; omega
    have hge : ∀ (tp : PreTapes F) (st : List Nat × Proto (List F)), tp.errs = tp'.errs →
        (preSteps c ctx m mb d br bz bb tp)[i + 3]? = some st → st = if i % 2 = 0 then
          ([0, 1, 2], multProto c ctx a tp'.errs[a].first (fun _ env => (Verif.preIns d ctx.n env).bind fun ins =>
            (ins[a]?).map fun i => (i.rbit0, i.rbit1, i.rands, i.zeros)) (fun o => o))
        else
          ([0, 1, 2, 3 + 2 * a], multProto c ctx a tp'.errs[a].second (fun _ env => (Verif.preIns d ctx.n env).bind fun ins =>
            (ins[a]?).bind fun i => (env (3 + 2 * a)).map fun biased => (biased, i.scalars, i.rands2, i.zeros2)) (fun o => o)) := by
      intro tp st he hst
      have hst' : (tp.errs.zipIdx.flatMap fun e => errJobs c ctx d e.2 e.1)[i]? = some st := hst
      unfold errJobs at hst'
      have hzi : tp'.errs.zipIdx[a]? = some (tp'.errs[a], a) := by
        rw [List.getElem?_zipIdx, List.getElem?_eq_getElem hla]
        simp
      rw [flatMap_pair, ← hae, he, hzi] at hst'
      split
      · next hpar => rw [if_pos hpar, Option.map_some, Option.some.injEq] at hst'; exact hst'.symm
      · next hpar => rw [if_neg hpar, Option.map_some, Option.some.injEq] at hst'; exact hst'.symm
    rw [hge tp' st' rfl h', hge tp st S.errs.symm h]
    have hk : ∀ j < (errSizes d ctx.n).getD a 0, preSum (errSizes d ctx.n) a + j < d.errors := fun j hj => by
      have := H.idx_lt ha
      omega
    have hsz := (sizes_get (d := d) ha).1
    by_cases hpar : i % 2 = 0
    · simp only [if_pos hpar]
      refine mult_same_between (k := (errSizes d ctx.n).getD a 0)
        (A := fun p j => (tp.outB ctx mb bb (2 * preSum (errSizes d ctx.n) a + j)).eval (ofU32 p))
        (B := fun p j => (tp.outB ctx mb bb (2 * preSum (errSizes d ctx.n) a + (errSizes d ctx.n).getD a 0 + j)).eval (ofU32 p))
        (R := fun p j => (tp.outR ctx m br (3 * preSum (errSizes d ctx.n) a + j)).eval (ofU32 p))
        (Z := fun p j => (tp.outZ ctx m bz (2 * preSum (errSizes d ctx.n) a + j)).eval (ofU32 p))
        (A' := fun p j => (tp'.outB ctx mb bb (2 * preSum (errSizes d ctx.n) a + j)).eval (ofU32 p))
        (B' := fun p j => (tp'.outB ctx mb bb (2 * preSum (errSizes d ctx.n) a + (errSizes d ctx.n).getD a 0 + j)).eval (ofU32 p))
        (R' := fun p j => (tp'.outR ctx m br (3 * preSum (errSizes d ctx.n) a + j)).eval (ofU32 p))
        (Z' := fun p j => (tp'.outZ ctx m bz (2 * preSum (errSizes d ctx.n) a + j)).eval (ofU32 p))
        (fun p hp => ?_) (fun p hp => ?_) (fun p hp j hj => ?_) hp q
      · obtain ⟨ins, g1, g2⟩ := Option.bind_eq_some_iff.1 (H.ins (tp := tp) hp ha [0, 1, 2] (by simp) (by simp) (by simp))
        rw [g1, Option.bind_some, g2]
        rfl
      · obtain ⟨ins, g1, g2⟩ := Option.bind_eq_some_iff.1 (H.ins (tp := tp') hp ha [0, 1, 2] (by simp) (by simp) (by simp))
        rw [g1, Option.bind_some, g2]
        rfl
      · have := congrArg (fun x => x.eval (ofU32 p)) (S.first _ (hk j hj))
        simpa only [errIdx_at hsz hj, openPoly, eval_add, eval_mul, Nat.zero_mul, Nat.one_mul, Nat.add_zero] using this
    · simp only [if_neg hpar]
      have hmid : ∀ tp : PreTapes F, ∀ p < ctx.n,
          Env.only (outsEnv (tp.outs ctx m mb d br bz bb) p) [0, 1, 2, 3 + 2 * a] (3 + 2 * a)
          = some ((List.range ((errSizes d ctx.n).getD a 0)).map fun j =>
            (midPoly ctx (errSizes d ctx.n) tp.errs (tp.outR ctx m br) (tp.outZ ctx m bz) (tp.outB ctx mb bb)
              (preSum (errSizes d ctx.n) a + j)).eval (ofU32 p)) := by
        intro tp p hp
        unfold Env.only outsEnv PreTapes.outs
        rw [if_pos (by simp), preOuts_mid ha, Option.bind_some, tabShares_row _ _ _ _ hp]
      refine mult_same_between (k := (errSizes d ctx.n).getD a 0)
        (A := fun p j => (midPoly ctx (errSizes d ctx.n) tp.errs (tp.outR ctx m br) (tp.outZ ctx m bz) (tp.outB ctx mb bb)
              (preSum (errSizes d ctx.n) a + j)).eval (ofU32 p))
        (B := fun p j => (tp.outR ctx m br (3 * preSum (errSizes d ctx.n) a + (errSizes d ctx.n).getD a 0 + j)).eval (ofU32 p))
        (R := fun p j => (tp.outR ctx m br (3 * preSum (errSizes d ctx.n) a + 2 * (errSizes d ctx.n).getD a 0 + j)).eval (ofU32 p))
        (Z := fun p j => (tp.outZ ctx m bz (2 * preSum (errSizes d ctx.n) a + (errSizes d ctx.n).getD a 0 + j)).eval (ofU32 p))
        (A' := fun p j => (midPoly ctx (errSizes d ctx.n) tp'.errs (tp'.outR ctx m br) (tp'.outZ ctx m bz) (tp'.outB ctx mb bb)
              (preSum (errSizes d ctx.n) a + j)).eval (ofU32 p))
        (B' := fun p j => (tp'.outR ctx m br (3 * preSum (errSizes d ctx.n) a + (errSizes d ctx.n).getD a 0 + j)).eval (ofU32 p))
        (R' := fun p j => (tp'.outR ctx m br (3 * preSum (errSizes d ctx.n) a + 2 * (errSizes d ctx.n).getD a 0 + j)).eval (ofU32 p))
        (Z' := fun p j => (tp'.outZ ctx m bz (2 * preSum (errSizes d ctx.n) a + (errSizes d ctx.n).getD a 0 + j)).eval (ofU32 p))
        (fun p hp => ?_) (fun p hp => ?_) (fun p hp j hj => ?_) hp q
      · obtain ⟨ins, g1, g2⟩ := Option.bind_eq_some_iff.1 (H.ins (tp := tp) hp ha [0, 1, 2, 3 + 2 * a] (by simp) (by simp) (by simp))
        rw [g1, Option.bind_some, g2, Option.bind_some, hmid tp p hp]
        rfl
      · obtain ⟨ins, g1, g2⟩ := Option.bind_eq_some_iff.1 (H.ins (tp := tp') hp ha [0, 1, 2, 3 + 2 * a] (by simp) (by simp) (by simp))
        rw [g1, Option.bind_some, g2, Option.bind_some, hmid tp' p hp]
        rfl
      · have := congrArg (fun x => x.eval (ofU32 p)) (S.second _ (hk j hj))
        simpa only [errIdx_at hsz hj, openPoly, eval_add, eval_mul, Nat.zero_mul, Nat.one_mul, Nat.add_zero] using this

theorem PreHyp.sameView {tp tp' : PreTapes F} (ht : tp.Ok ctx.n ctx.t ctx.l m mb d) (ht' : tp'.Ok ctx.n ctx.t ctx.l m mb d)
    {q : Nat} (hq : q < ctx.n) (S : PreSameView ctx m mb d br bz bb tp tp' q) :
    preprocView c ctx m mb d tp' id q = preprocView c ctx m mb d tp id q := by
  rw [H.view ht, H.view ht', S.own]
  refine congrArg (fun x => some (tp.own q, x)) ?_
  have hst : ∀ tp : PreTapes F, tp.Ok ctx.n ctx.t ctx.l m mb d → (preSteps c ctx m mb d br bz bb tp).length = 3 + 2 * ctx.n := by
    intro tp ht
    have htl := ht.errs.1
    simp [preSteps, errJobs]
    omega
  have e1 := hst tp ht
  have e2 := hst tp' ht'
  apply List.ext_getElem (by simp only [List.length_map, List.length_zip]; omega)
  intro i h1 h2
  simp only [List.length_map, List.length_zip] at h1 h2
  simp only [List.getElem_map, List.getElem_zip]
  exact List.map_congr_left fun p hp => H.sameStep ht ht' (List.mem_range.1 hp) hq S (List.getElem?_eq_getElem (by omega))
    (List.getElem?_eq_getElem (by omega))

end run

end Verif
