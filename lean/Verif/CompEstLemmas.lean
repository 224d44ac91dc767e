import Verif.CountGarble
import Verif.CompEst
import Verif.EstimatesLemmas
import Verif.PrivacyParams

/-! # The script `scripts/computation_estimates.py`: closed forms -/

namespace Verif.Props

open Verif

theorem numBatches_cdiv {num b : Nat} (h : 0 < b) : numBatches num b = some (cdiv num b) := by
  unfold numBatches cdiv
  rw [if_neg (by omega)]

/-- Parameters of a context. -/
structure EstOk (P : EstParams) : Prop where
  l : 0 < P.l
  n : P.t + P.l ≤ P.n

section
variable {P : EstParams} (h : EstOk P)
include h

theorem degree_zero : P.degree 0 + 1 = P.t + P.l := by
  have := h.l
  unfold EstParams.degree
  rw [if_pos rfl]
  omega

theorem compRandShare_eq (num : Nat) : P.compRandShare num 0 = num * ((P.n - (P.t + P.l)) * (P.t + P.l)) := by
  unfold EstParams.compRandShare
  rw [Nat.sub_sub, degree_zero h]

theorem compShare_eq (num : Nat) : P.compShare num 0 = num * ((P.n - P.t) * (P.t + P.l)) := by
  unfold EstParams.compShare
  rw [Nat.sub_sub, degree_zero h, show P.n + P.l - (P.t + P.l) = P.n - P.t by omega]

theorem compShareN_eq (num : Nat) : P.compShare num (P.n - 1) = num * (P.l * P.n) := by
  have h1 := h.l
  have h2 := h.n
  have hd : P.degree (P.n - 1) + 1 = P.n := by
    unfold EstParams.degree
    split <;> omega
  unfold EstParams.compShare
  rw [Nat.sub_sub, hd, Nat.add_sub_cancel_left]

theorem Ok.dim : 0 < P.n - P.t := by
  have h1 := h.l
  have h2 := h.n
  omega

theorem Ok.pos : 0 < P.n := by
  have h1 := h.l
  have h2 := h.n
  omega

theorem compRand_eq (num : Nat) : P.compRand num = some (cdiv num (P.n - P.t) * ((P.n - (P.t + P.l)) * (P.t + P.l) + (P.n - P.t) * P.n)) := by
  unfold EstParams.compRand
  rw [estCeil_some (Ok.dim h), Option.map_some, compRandShare_eq h, Option.some.injEq]
  ring

theorem compZero_eq (num : Nat) : P.compZero num = some (cdiv num (P.n - P.t) * (P.l * P.n + (P.n - P.t) * P.n)) := by
  unfold EstParams.compZero
  rw [estCeil_some (Ok.dim h), Option.map_some, compShareN_eq h, Option.some.injEq]
  ring

theorem compBitrand_eq (hb : 0 < P.binsupDim) (num : Nat) :
    P.compBitrand num = some (cdiv num P.binsupDim * ((P.n - P.t) * (P.t + P.l) + P.binsupDim * P.n)) := by
  unfold EstParams.compBitrand
  rw [estCeil_some hb, Option.map_some, compShare_eq h, Option.some.injEq]
  ring

theorem compDegreduce_eq (num : Nat) : P.compDegreduce num = some (cdiv num P.n * redCost P.n P.t P.l) := by
  unfold EstParams.compDegreduce
  rw [estCeil_some (Ok.pos h), Option.map_some, compShare_eq h, Option.some.injEq]
  unfold EstParams.compRecon redCost
  ring

theorem compMult_eq (num : Nat) : P.compMult num = some ⟨num + cdiv num P.n * redCost P.n P.t P.l, num, num, 0⟩ := by
  unfold EstParams.compMult
  rw [compDegreduce_eq h]
  simp [Est.add, estRand, estZero]

theorem compTrans_eq (num : Nat) : P.compTrans num = some ⟨cdiv num P.l * (3 * (P.l * P.n) + (P.n - P.t) * (P.t + P.l))
    + cdiv num P.n * redCost P.n P.t P.l, cdiv num P.l * (P.n + P.t), cdiv num P.l * 2 * P.n, 0⟩ := by
  have h1 := h.l
  have h2 := h.n
  unfold EstParams.compTrans EstParams.compRandshare
  rw [estCeil_some h.l, Option.map_some, Option.bind_some, compDegreduce_eq h, Option.map_some, Option.some.injEq]
  rw [show P.n + P.l - (P.t + P.l - 1) - 1 = P.n - P.t by omega, show P.t + P.l - 1 + 1 = P.t + P.l by omega]
  simp only [Est.add, estRand, estZero, EstParams.compRecon, Est.mk.injEq, Nat.zero_add, Nat.add_zero, and_true]
  ring

theorem compError_eq (hnoise : P.noise = 2) (num : Nat) :
    P.compError num = some ⟨2 * (num + cdiv num P.n * redCost P.n P.t P.l), 3 * num, 2 * num, 2 * num⟩ := by
  unfold EstParams.compError
  rw [hnoise, Nat.mul_one, compMult_eq h, Option.bind_some, Option.map_some, Option.some.injEq]
  simp only [Est.add, estRand, estBitrand, Est.mk.injEq]
  refine ⟨?_, ?_, ?_, ?_⟩ <;> ring

/-- The figures of the script. -/
theorem compSemihon_eq (hb : 0 < P.binsupDim) (hnoise : P.noise = 2) (inp nand nxor : Nat) :
    ∃ e, P.compSemihon inp nand nxor = some e ∧ ∃ A X W, A = cdiv nand P.l ∧ X = cdiv nxor P.l ∧ W = cdiv inp P.l + A + X ∧
      e.transform = (cdiv (W * (2 * P.keyLen + 1)) P.l + cdiv (2 * (A + X) * (2 * P.keyLen + 1)) P.l)
          * (3 * (P.l * P.n) + (P.n - P.t) * (P.t + P.l))
        + (cdiv (W * (2 * P.keyLen + 1)) P.n + cdiv (2 * (A + X) * (2 * P.keyLen + 1)) P.n) * redCost P.n P.t P.l
        + 2 * (A + X) * (2 * P.keyLen + 1) * P.l ∧
      e.plaintexts = (A * (3 * (P.keyLen + 1) + 1) + X * (P.keyLen + 1))
        + cdiv (A * (3 * (P.keyLen + 1) + 1) + X * (P.keyLen + 1)) P.n * redCost P.n P.t P.l ∧
      e.ciphertexts = 4 * (A + X) * rowCost P.keyLen P.ctxLen ∧
      e.errors = 2 * ((A + X) * 4 * P.ctxLen + cdiv ((A + X) * 4 * P.ctxLen) P.n * redCost P.n P.t P.l) ∧
      e.rand = cdiv (EstRand P W A X) (P.n - P.t) * ((P.n - (P.t + P.l)) * (P.t + P.l) + (P.n - P.t) * P.n) ∧
      e.zero = cdiv (EstZero P W A X) (P.n - P.t) * (P.l * P.n + (P.n - P.t) * P.n) ∧
      e.bitrand = cdiv (W + 2 * ((A + X) * 4 * P.ctxLen)) P.binsupDim * ((P.n - P.t) * (P.t + P.l) + P.binsupDim * P.n) := by
  have w1 : ∀ w, w + w * 2 * P.keyLen = w * (2 * P.keyLen + 1) := fun w => by ring
  unfold EstParams.compSemihon
  simp only [estCeil_some h.l, Option.bind_some, Option.map_some, w1, compError_eq h hnoise, compTrans_eq h, compMult_eq h, compRand_eq h,
    compZero_eq h, compBitrand_eq h hb]
  refine ⟨_, rfl, _, _, _, rfl, rfl, rfl, ?_, ?_, ?_, ?_, ?_, ?_, ?_⟩
  · simp only [EstParams.compSelect]
    ring
  · rfl
  · simp only [EstParams.compEcc, rowCost]
    ring
  · rfl
  · refine congrArg (fun x => cdiv x _ * _) ?_
    simp only [Est.add, estRand, estBitrand, EstRand]
    ring
  · refine congrArg (fun x => cdiv x _ * _) ?_
    simp only [Est.add, estRand, estBitrand, EstZero]
    ring
  · refine congrArg (fun x => cdiv x _ * _) ?_
    simp only [Est.add, estRand, estBitrand]
    ring

end

/-- The script rounds up the number of degree reductions which each party leads. -/
theorem round_bounds {n num c : Nat} (hn : 0 < n) (hc : 0 < c) :
    num * c ≤ n * (cdiv num n * c) ∧ n * (cdiv num n * c) ≤ (num + (n - 1)) * c ∧ (num * c = n * (cdiv num n * c) ↔ n ∣ num) := by
  have h1 := le_cdiv_mul num hn
  have h2 := cdiv_lt num hn
  have e : n * (cdiv num n * c) = cdiv num n * n * c := by ring
  rw [e]
  refine ⟨Nat.mul_le_mul_right _ h1, Nat.mul_le_mul_right _ (by omega), ?_⟩
  rw [Nat.mul_left_inj (by omega)]
  constructor
  · exact fun h => ⟨cdiv num n, by rw [Nat.mul_comm]; exact h⟩
  · rintro ⟨k, rfl⟩
    have h3 : cdiv (n * k) n ≤ k := (cdiv_le_iff hn).2 (by rw [Nat.mul_comm])
    have := Nat.mul_le_mul_right n h3
    rw [Nat.mul_comm k n] at this
    omega

theorem redCost_pos {P : EstParams} (h : EstOk P) : 0 < redCost P.n P.t P.l := by
  have := Nat.mul_pos h.l (Ok.pos h)
  unfold redCost
  omega

theorem sum_kinds (f : GateKind → Nat) (ks : List GateKind) :
    (ks.map f).sum = ks.count .and * f .and + ks.count .xor * f .xor + ks.count .inv * f .inv := by
  induction ks with
  | nil => simp
  | cons k ks ih =>
    rw [List.map_cons, List.sum_cons, ih]
    cases k <;> simp [List.count_cons] <;> ring

theorem sum_map_const {α : Type} {l : List α} {f : α → Nat} {k : Nat} (h : ∀ x ∈ l, f x = k) : (l.map f).sum = l.length * k := by
  rw [List.map_congr_left h, List.map_const', List.sum_replicate, smul_eq_mul]

section
variable {F : Type} [CodeField F] [DecidableEq F]

/-- A whole run of `preproc`, by all parties. -/
theorem costs_preproc {ctx : Ctx F} (h : ctx.Good) {m mb : Mat F} (hm : m.WF) (hn : m.ncols = ctx.n) (hr : 0 < m.rows.length) (hmb : mb.WF)
    (hnb : mb.ncols = ctx.n) (hrb : 0 < mb.rows.length) (desc : PreProcCount) (tp : PreTapes F) :
    Costs (preprocC ctx m mb desc tp) (preproc ctx m mb desc tp)
      (ctx.n * (cdiv (desc.numKeys + desc.randoms + 3 * desc.errors) m.rows.length
            * ((ctx.n - (ctx.t + ctx.l)) * (ctx.t + ctx.l) + m.rows.length * ctx.n)
          + cdiv (desc.zeros + 2 * desc.errors) m.rows.length * (ctx.l * ctx.n + m.rows.length * ctx.n)
          + cdiv (desc.masks + 2 * desc.errors) mb.rows.length * ((ctx.n - ctx.t) * (ctx.t + ctx.l) + mb.rows.length * ctx.n))
        + 2 * desc.errors * multCost ctx.n ctx.t ctx.l) := by
  unfold preprocC preproc
  refine (costs_bind (costs_rand h hm hn _ _ (numBatches_cdiv hr) _) fun rands _ => costs_bind (costs_zero h hm hn _ _ (numBatches_cdiv hr) _)
    fun zeros _ => costs_bind (costs_randbit h hmb hnb _ _ (numBatches_cdiv hrb) _ _) fun rbits _ => costs_cnt_bind fun a _ =>
    costs_cnt_bind fun b _ => costs_cnt_bind fun c _ => costs_cnt_bind fun sizes hs => costs_ite (k := 2 * desc.errors * multCost ctx.n ctx.t ctx.l)
      (fun hl => (costs_bind (costs_errorLoop h _ _ _ _) fun errors _ => costs_cnt_bind fun d _ => costs_cnt _).of_eq ?_) fun _ => costs_fail _).of_eq ?_
  · rw [List.map_fst_zip (by omega), errorBatches_sum hs, Nat.add_zero]
  · ring

end

end Verif.Props
