import Verif.PreDeal
import Verif.PreIndex
import Verif.AsyncPreprocLemmas

/-!
# One run of `preproc`, job by job, in terms of polynomials
-/

open Polynomial

namespace Verif

open CodeField (ofU32)

variable {F : Type} [CodeField F] [DecidableEq F]

/-! ## The inputs of the multiplications -/

/-- The sizes of the batches of errors. -/
def errSizes (d : PreProcCount) (n : Nat) : List Nat := (List.range n).map (errSize d.errors n)

theorem errSizes_sum {d : PreProcCount} {n : Nat} (hn : 1 ≤ n) : (errSizes d n).sum = d.errors := errSize_sum hn

theorem errSizes_get {d : PreProcCount} {n a : Nat} (ha : a < n) : (errSizes d n)[a]? = some (errSize d.errors n a) :=
  getElem?_tab n _ a ha

theorem errSizes_preSum {d : PreProcCount} {n a : Nat} (ha : a < n) : preSum (errSizes d n) a = a * (d.errors / n) := by
  unfold preSum errSizes
  rw [take_tab _ _ _ (by omega), errSize_prefix ha]

/-- The inputs for batch `a` in terms of all sharings. -/
def errInAt (s : List Nat) (f g z : Nat → F) (a : Nat) : ErrIn F :=
  ⟨(List.range (s.getD a 0)).map fun j => f (2 * preSum s a + j),
   (List.range (s.getD a 0)).map fun j => f (2 * preSum s a + s.getD a 0 + j),
   (List.range (s.getD a 0)).map fun j => g (3 * preSum s a + j),
   (List.range (s.getD a 0)).map fun j => z (2 * preSum s a + j),
   (List.range (s.getD a 0)).map fun j => g (3 * preSum s a + s.getD a 0 + j),
   (List.range (s.getD a 0)).map fun j => g (3 * preSum s a + 2 * s.getD a 0 + j),
   (List.range (s.getD a 0)).map fun j => z (2 * preSum s a + s.getD a 0 + j)⟩

omit [CodeField F] [DecidableEq F] in
theorem drain_tab {α : Type} (N k : Nat) (f : Nat → α) (h : k ≤ N) :
    drain k ((List.range N).map f) = some ((List.range k).map f, (List.range (N - k)).map fun j => f (k + j)) := by
  rw [drain_some (by simpa using h), take_tab _ _ _ h, drop_tab]

omit [CodeField F] [DecidableEq F] in
theorem errIns_tab (s : List Nat) (e : Nat) (he : e = s.sum) (f g z : Nat → F) :
    errIns s ((List.range (2 * e)).map f) ((List.range (3 * e)).map g) ((List.range (2 * e)).map z)
      = some ((List.range s.length).map (errInAt s f g z)) := by
  induction s generalizing e f g z with
  | nil => rfl
  | cons b s ih =>
    obtain ⟨e', he'⟩ : ∃ e', e' = s.sum := ⟨_, rfl⟩
    rw [List.sum_cons, ← he'] at he
    subst he
    unfold errIns
    rw [drain_tab _ _ _ (by omega), Option.bind_some]
    simp only []
    rw [drain_tab _ _ _ (by omega), Option.bind_some]
    simp only []
    rw [drain_tab _ _ _ (by omega), Option.bind_some]
    simp only []
    rw [drain_tab _ _ _ (by omega), Option.bind_some]
    simp only []
    rw [drain_tab _ _ _ (by omega), Option.bind_some]
    simp only []
    rw [drain_tab _ _ _ (by omega), Option.bind_some]
    simp only []
    rw [drain_tab _ _ _ (by omega), Option.bind_some]
    simp only []
    rw [show 2 * (b + e') - b - b = 2 * e' by omega, show 3 * (b + e') - 3 * b = 3 * e' by omega,
      show 2 * (b + e') - 2 * b = 2 * e' by omega, ih e' he', Option.map_some, Option.some.injEq, List.length_cons,
      List.range_succ_eq_map, List.map_cons, List.map_map]
    congr 1
    · unfold errInAt
      simp only [List.getD_cons_zero, preSum_zero, Nat.mul_zero, Nat.zero_add, show 3 * b - b - b = b by omega,
        show 2 * b - b = b by omega, ErrIn.mk.injEq, true_and, and_true]
      exact List.map_congr_left fun j _ => by rw [Nat.two_mul, Nat.add_assoc]
    · refine List.map_congr_left fun a _ => ?_
      unfold errInAt
      simp only [Function.comp_apply, List.getD_cons_succ, preSum_cons, ErrIn.mk.injEq]
      refine ⟨?_, ?_, ?_, ?_, ?_, ?_, ?_⟩ <;> exact List.map_congr_left fun j _ => by congr 1; omega

/-! ## The polynomials of the errors -/

/-- The leader's randomness of the first multiplication for error `k`. -/
def errTape1 (s : List Nat) (errs : List (ErrTapes F)) (k : Nat) : List F :=
  ((errs[(locate s k).1]?).map fun e => e.first.getD (locate s k).2 []).getD []

/-- The leader's randomness of the second multiplication for error `k`. -/
def errTape2 (s : List Nat) (errs : List (ErrTapes F)) (k : Nat) : List F :=
  ((errs[(locate s k).1]?).map fun e => e.second.getD (locate s k).2 []).getD []

/-- The result of the first multiplication for error `k`. -/
noncomputable def midPoly (ctx : Ctx F) (s : List Nat) (errs : List (ErrTapes F)) (R Z B : Nat → F[X]) (k : Nat) : F[X] :=
  multPoly ctx (errTape1 s errs k) (B (errIdx 2 s 0 k)) (B (errIdx 2 s 1 k)) (R (errIdx 3 s 0 k)) (Z (errIdx 2 s 0 k))

/-- The result of the second multiplication: the sharing of error `k`. -/
noncomputable def errPoly (ctx : Ctx F) (s : List Nat) (errs : List (ErrTapes F)) (R Z B : Nat → F[X]) (k : Nat) : F[X] :=
  multPoly ctx (errTape2 s errs k) (midPoly ctx s errs R Z B k) (R (errIdx 3 s 1 k)) (R (errIdx 3 s 2 k)) (Z (errIdx 2 s 1 k))

/-! ## The run -/

/-- The assumptions about a run. -/
structure PreHyp (c : Codec F) (ctx : Ctx F) (m mb : Mat F) (d : PreProcCount) (id : ProtocolID) (ids : List ProtocolID)
    (br bz bb : Nat) : Prop where
  good : ctx.Good
  mult : 2 * (ctx.t + ctx.l - 1) < ctx.n
  mat : DealMat ctx.n m
  matb : DealMat ctx.n mb
  binary : mb.Binary
  codec : c.Ok
  br : numBatches (d.numKeys + d.randoms + 3 * d.errors) m.rows.length = some br
  bz : numBatches (d.zeros + 2 * d.errors) m.rows.length = some bz
  bb : numBatches (d.masks + 2 * d.errors) mb.rows.length = some bb
  hids : preprocIds id ctx.n = some ids
  len : ids.length = 3 + 2 * ctx.n
  sizeR : d.numKeys + d.randoms + 3 * d.errors < 2 ^ 64
  sizeZ : d.zeros + 2 * d.errors < 2 ^ 64
  sizeB : d.masks + 2 * d.errors < 2 ^ 64

/-- The sharings from `rand`. -/
noncomputable def PreTapes.outR (ctx : Ctx F) (m : Mat F) (br : Nat) (tp : PreTapes F) : Nat → F[X] :=
  dealPoly ctx.n br m (tp.polyR ctx)

/-- The sharings from `zero`. -/
noncomputable def PreTapes.outZ (ctx : Ctx F) (m : Mat F) (bz : Nat) (tp : PreTapes F) : Nat → F[X] :=
  dealPoly ctx.n bz m (tp.polyZ ctx)

/-- The sharings from `randbit`. -/
noncomputable def PreTapes.outB (ctx : Ctx F) (mb : Mat F) (bb : Nat) (tp : PreTapes F) : Nat → F[X] :=
  dealPoly ctx.n bb mb (tp.polyB ctx)

/-- The results of the jobs. -/
noncomputable def preOuts (n : Nat) (s : List Nat) (NR NZ NB : Nat) (R Z B M E : Nat → F[X]) : List (List (List F)) :=
  tabShares n NR R :: tabShares n NZ Z :: tabShares n NB B :: (List.range n).flatMap fun a =>
    [tabShares n (s.getD a 0) fun j => M (preSum s a + j), tabShares n (s.getD a 0) fun j => E (preSum s a + j)]

section
variable {n : Nat} {s : List Nat} {NR NZ NB : Nat} {R Z B M E : Nat → F[X]}

omit [DecidableEq F] in
theorem preOuts_mid {a : Nat} (ha : a < n) : (preOuts n s NR NZ NB R Z B M E)[3 + 2 * a]?
    = some (tabShares n (s.getD a 0) fun j => M (preSum s a + j)) := by
  unfold preOuts
  rw [show 3 + 2 * a = 2 * a + 1 + 1 + 1 by omega]
  simp only [List.getElem?_cons_succ]
  rw [flatMap_pair, if_pos (by omega), show 2 * a / 2 = a by omega, List.getElem?_range ha]
  rfl

omit [DecidableEq F] in
theorem preOuts_err {a : Nat} (ha : a < n) : (preOuts n s NR NZ NB R Z B M E)[4 + 2 * a]?
    = some (tabShares n (s.getD a 0) fun j => E (preSum s a + j)) := by
  unfold preOuts
  rw [show 4 + 2 * a = 2 * a + 1 + 1 + 1 + 1 by omega]
  simp only [List.getElem?_cons_succ]
  rw [flatMap_pair, if_neg (by omega), show (2 * a + 1) / 2 = a by omega, List.getElem?_range ha]
  rfl

omit [DecidableEq F] in
theorem preOuts_length : (preOuts n s NR NZ NB R Z B M E).length = 3 + 2 * n := by
  unfold preOuts
  simp
  omega

end

section run
variable {c : Codec F} {ctx : Ctx F} {m mb : Mat F} {d : PreProcCount} {id : ProtocolID} {ids : List ProtocolID} {br bz bb : Nat}
  (H : PreHyp c ctx m mb d id ids br bz bb)
include H

theorem PreHyp.leR : d.numKeys + d.randoms + 3 * d.errors ≤ m.rows.length * br := (numBatches_spec H.br).2.1.1
theorem PreHyp.leZ : d.zeros + 2 * d.errors ≤ m.rows.length * bz := (numBatches_spec H.bz).2.1.1
theorem PreHyp.leB : d.masks + 2 * d.errors ≤ mb.rows.length * bb := (numBatches_spec H.bb).2.1.1

/-- A party's inputs of the multiplications. -/
theorem PreHyp.preIns {R Z B M E : Nat → F[X]} {p : Nat} (hp : p < ctx.n) (deps : List Nat) (h0 : 0 ∈ deps) (h1 : 1 ∈ deps)
    (h2 : 2 ∈ deps) :
    preIns d ctx.n (Env.only (outsEnv (preOuts ctx.n (errSizes d ctx.n) (m.rows.length * br) (m.rows.length * bz)
      (mb.rows.length * bb) R Z B M E) p) deps) = some ((List.range ctx.n).map (errInAt (errSizes d ctx.n)
        (fun k => (B k).eval (ofU32 p)) (fun k => (R k).eval (ofU32 p)) (fun k => (Z k).eval (ofU32 p)))) := by
  have l1 := H.leR
  have l2 := H.leZ
  have l3 := H.leB
  unfold Verif.preIns Env.only outsEnv
  rw [if_pos h0, if_pos h1, if_pos h2,
    show (preOuts ctx.n (errSizes d ctx.n) (m.rows.length * br) (m.rows.length * bz) (mb.rows.length * bb) R Z B M E)[0]?
      = some (tabShares ctx.n (m.rows.length * br) R) from rfl,
    show (preOuts ctx.n (errSizes d ctx.n) (m.rows.length * br) (m.rows.length * bz) (mb.rows.length * bb) R Z B M E)[1]?
      = some (tabShares ctx.n (m.rows.length * bz) Z) from rfl,
    show (preOuts ctx.n (errSizes d ctx.n) (m.rows.length * br) (m.rows.length * bz) (mb.rows.length * bb) R Z B M E)[2]?
      = some (tabShares ctx.n (mb.rows.length * bb) B) from rfl]
  simp only [Option.bind_some]
  rw [tabShares_row _ _ _ _ hp, tabShares_row _ _ _ _ hp, tabShares_row _ _ _ _ hp]
  simp only [Option.bind_some]
  rw [drain_tab _ _ _ (by omega), Option.bind_some]
  simp only []
  rw [drain_tab _ _ _ (by omega), Option.bind_some]
  simp only []
  rw [drain_tab _ _ _ (by omega), Option.bind_some]
  simp only []
  rw [errorBatches_eq (by omega), Option.bind_some,
    show (List.range ctx.n).map (errSize d.errors ctx.n) = errSizes d ctx.n from rfl,
    errIns_tab _ _ (errSizes_sum (by omega)).symm]
  simp [errSizes]

theorem PreHyp.degR (tp : PreTapes F) : ∀ k < m.rows.length * br, (tp.outR ctx m br k).degree < (ctx.t + ctx.l : Nat) :=
  dealPoly_degree m _ fun p _ b _ => sharePoly_degree (by have := H.good.le; have := H.good.fit; omega) _

theorem PreHyp.degZ (tp : PreTapes F) : ∀ k < m.rows.length * bz, (tp.outZ ctx m bz k).degree < ctx.n :=
  dealPoly_degree m _ fun p _ b _ => by
    have := secPoly_degree H.good (k := ctx.n - ctx.l) (by omega) ((tp.zero.getD p []).getD b []) []
    have hle := H.good.le
    rwa [show ctx.n - ctx.l + ctx.l = ctx.n by omega] at this

theorem PreHyp.secZ (tp : PreTapes F) (k : Nat) : ∀ v ∈ defaultPos ctx.n ctx.l, (tp.outZ ctx m bz k).eval v = 0 := by
  intro v hv
  obtain ⟨j, hj, rfl⟩ := List.mem_map.1 hv
  unfold PreTapes.outZ
  rw [dealPoly_eval]
  refine Finset.sum_eq_zero fun p _ => ?_
  unfold PreTapes.polyZ
  rw [secPoly_secret H.good (by omega) _ _ (List.mem_range.1 hj)]
  simp

theorem PreHyp.degB (tp : PreTapes F) : ∀ k < mb.rows.length * bb, (tp.outB ctx mb bb k).degree < (ctx.t + ctx.l : Nat) :=
  dealPoly_degree mb _ fun p _ b _ => secPoly_degree H.good (by have := H.good.le; omega) _ _

/-- The steps of `preproc`. -/
def preSteps (c : Codec F) (ctx : Ctx F) (m mb : Mat F) (d : PreProcCount) (br bz bb : Nat) (tp : PreTapes F) :
    List (List Nat × Proto (List F)) :=
  [([], dealProto c ctx.n br m (randSharings ctx br tp.rand) (fun o => o)),
    ([], dealProto c ctx.n bz m (zeroSharings ctx bz tp.zero) (fun o => o)),
    ([], dealProto c ctx.n bb mb (randbitSharings ctx bb tp.bits tp.rbit) (fun o => o))] ++
  tp.errs.zipIdx.flatMap fun e => errJobs c ctx d e.2 e.1

omit H in
/-- The results of the jobs of a run. -/
noncomputable def PreTapes.outs (ctx : Ctx F) (m mb : Mat F) (d : PreProcCount) (br bz bb : Nat) (tp : PreTapes F) :
    List (List (List F)) :=
  preOuts ctx.n (errSizes d ctx.n) (m.rows.length * br) (m.rows.length * bz) (mb.rows.length * bb)
    (tp.outR ctx m br) (tp.outZ ctx m bz) (tp.outB ctx mb bb)
    (midPoly ctx (errSizes d ctx.n) tp.errs (tp.outR ctx m br) (tp.outZ ctx m bz) (tp.outB ctx mb bb))
    (errPoly ctx (errSizes d ctx.n) tp.errs (tp.outR ctx m br) (tp.outZ ctx m bz) (tp.outB ctx mb bb))

theorem PreHyp.jobs (tp : PreTapes F) : preprocJobs c ctx m mb d tp id
    = some ((ids.zip (preSteps c ctx m mb d br bz bb tp)).map fun s => ⟨s.1, s.2.1, s.2.2⟩) := by
  unfold preprocJobs
  rw [H.hids, Option.bind_some, H.br, Option.bind_some, H.bz, Option.bind_some, H.bb, Option.map_some]
  rfl

end run

end Verif
