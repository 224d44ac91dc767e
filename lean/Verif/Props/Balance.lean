import Verif.Props.AsyncComm
import Verif.Props.PreprocSize
import Verif.EstimatesLemmas

/-!
# How the communication of `preproc` is spread over the parties
-/

open Verif

namespace Verif.Props

section
variable {F : Type} [CodeField F] [DecidableEq F]

/-- C124. The LPN errors for which a party is the leader, `src/protocol/preproc.rs:388-395`: all but the last one have the same number, and the last one has
what is left over on top. -/
theorem C124_share (errors n p : Nat) (hp : p < n) : errShare errors n p = errors / n + if p + 1 = n then errors % n else 0 := by
  unfold errShare
  obtain ⟨n, rfl⟩ : ∃ m, n = m + 1 := ⟨n - 1, by omega⟩
  have h := Nat.div_add_mod errors (n + 1)
  by_cases h1 : p + 1 = n + 1
  · rw [if_neg (by omega), if_pos h1]
    rw [Nat.succ_mul] at h
    simp only [Nat.add_sub_cancel]
    generalize errors / (n + 1) = x at h ⊢
    generalize errors % (n + 1) = y at h ⊢
    generalize n * x = z at h ⊢
    omega
  · rw [if_pos (by omega), if_neg h1]
    omega

/-- With fewer errors than parties the last party does all the work. -/
example : (List.range 16).map (errShare 15 16) = List.replicate 15 0 ++ [15] := by decide

/-- C124, as far as it is true.  In every schedule all parties but the last receive the same number of bytes in `preproc`, and the last one receives
`2 * n * B` bytes more for each of the `errors % n` errors which are left over.  Missing: the last party receives as many, unless `n` divides the number of
errors (`C124_false`). -/
theorem C124_received_partial (c : Codec F) (hc : c.Ok) (B : Nat) (hB : 0 < B) (hw : c.Width B) (ctx : Ctx F) (hn : ctx.n < 2 ^ 32)
    (m mb : Mat F) (desc : PreProcCount) (hr : B * (desc.numKeys + desc.randoms + 3 * desc.errors) < 2 ^ 63)
    (hz : B * (desc.zeros + 2 * desc.errors) < 2 ^ 63) (hb : B * (desc.masks + 2 * desc.errors) < 2 ^ 63) (tp : PreTapes F)
    (id : ProtocolID) (hid : id.length ≤ 250) (res : List (PreProc F)) (h : preproc ctx m mb desc tp = some res) :
    ∃ jobs outs, preprocJobs c ctx m mb desc tp id = some jobs ∧ NetScheduleFree ctx.n jobs outs ∧
      ∀ (es : List FStep) (f : Full (List F)), (Full.start ctx.n).run ctx.n jobs es = some f → f.Stuck ctx.n jobs →
        ∃ common, ∀ q < ctx.n, ∑ p ∈ Finset.range ctx.n, (((f.stats q)[p]?).getD 0).1
          = common + if q + 1 = ctx.n then 2 * ctx.n * B * (desc.errors % ctx.n) else 0 := by
  obtain ⟨jobs, outs, h1, h2, h3⟩ := C83_preproc c hc B hB hw ctx hn m mb desc hr hz hb tp id hid res h
  refine ⟨jobs, outs, h1, h2, fun es f hrun hst => ?_⟩
  obtain ⟨-, h4⟩ := h3 es f hrun hst
  refine ⟨ctx.n * (56 + B * ((desc.numKeys + desc.randoms + 3 * desc.errors + m.rows.length - 1) / m.rows.length
            + (desc.zeros + 2 * desc.errors + m.rows.length - 1) / m.rows.length
            + (desc.masks + 2 * desc.errors + mb.rows.length - 1) / mb.rows.length + 2 * (desc.errors / ctx.n))) + 2 * B * desc.errors, fun q hq => ?_⟩
  have hs : ∀ p ∈ Finset.range ctx.n, (((f.stats q)[p]?).getD 0).1 = (56 + B * ((desc.numKeys + desc.randoms + 3 * desc.errors + m.rows.length - 1) / m.rows.length
            + (desc.zeros + 2 * desc.errors + m.rows.length - 1) / m.rows.length
            + (desc.masks + 2 * desc.errors + mb.rows.length - 1) / mb.rows.length + 2 * errShare desc.errors ctx.n q)) + 2 * B * errShare desc.errors ctx.n p := by
    intro p hp
    obtain ⟨elems, he, hst⟩ := h4 p (Finset.mem_range.1 hp) q hq
    rw [hst, he, Option.getD_some]
    ring
  rw [Finset.sum_congr rfl hs, Finset.sum_add_distrib, Finset.sum_const, Finset.card_range, ← Finset.mul_sum,
    sum_errShare _ _ (by omega), C124_share _ _ q hq, smul_eq_mul]
  split <;> ring

theorem same_iff (n B errors : Nat) (hn : 2 ≤ n) (hB : 0 < B) (received : Nat → Nat) (common : Nat)
    (h : ∀ q < n, received q = common + if q + 1 = n then 2 * n * B * (errors % n) else 0) :
    (∀ q < n, ∀ q' < n, received q = received q') ↔ n ∣ errors := by
  constructor
  · intro hs
    have := hs 0 (by omega) (n - 1) (by omega)
    rw [h 0 (by omega), h (n - 1) (by omega), if_neg (by omega), if_pos (by omega)] at this
    have hz : 2 * n * B * (errors % n) = 0 := by omega
    rcases Nat.mul_eq_zero.1 hz with h0 | h0
    · have : 0 < 2 * n * B := by positivity
      omega
    · exact Nat.dvd_of_mod_eq_zero h0
  · rintro hd q hq q' hq'
    rw [h q hq, h q' hq', Nat.mod_eq_zero_of_dvd hd]
    simp

/-- C124. So all parties receive the same number of bytes exactly if the number of parties divides the number of errors, in every schedule. -/
theorem C124_iff (c : Codec F) (hc : c.Ok) (B : Nat) (hB : 0 < B) (hw : c.Width B) (ctx : Ctx F) (hn2 : 2 ≤ ctx.n) (hn : ctx.n < 2 ^ 32)
    (m mb : Mat F) (desc : PreProcCount) (hr : B * (desc.numKeys + desc.randoms + 3 * desc.errors) < 2 ^ 63)
    (hz : B * (desc.zeros + 2 * desc.errors) < 2 ^ 63) (hb : B * (desc.masks + 2 * desc.errors) < 2 ^ 63) (tp : PreTapes F)
    (id : ProtocolID) (hid : id.length ≤ 250) (res : List (PreProc F)) (h : preproc ctx m mb desc tp = some res) :
    ∃ jobs outs, preprocJobs c ctx m mb desc tp id = some jobs ∧ NetScheduleFree ctx.n jobs outs ∧
      ∀ (es : List FStep) (f : Full (List F)), (Full.start ctx.n).run ctx.n jobs es = some f → f.Stuck ctx.n jobs →
        ((∀ q < ctx.n, ∀ q' < ctx.n, ∑ p ∈ Finset.range ctx.n, (((f.stats q)[p]?).getD 0).1 = ∑ p ∈ Finset.range ctx.n, (((f.stats q')[p]?).getD 0).1) ↔
          ctx.n ∣ desc.errors) := by
  obtain ⟨jobs, outs, h1, h2, h3⟩ := C124_received_partial c hc B hB hw ctx hn m mb desc hr hz hb tp id hid res h
  refine ⟨jobs, outs, h1, h2, fun es f hrun hst => ?_⟩
  obtain ⟨common, h4⟩ := h3 es f hrun hst
  exact same_iff ctx.n B desc.errors hn2 hB _ common h4

end

/-- C124 is false: for the half adder with seven parties over GF(16), 24 errors are made, and in every run of `preproc` and every schedule party 6 receives
42 bytes more than party 0. -/
theorem C124_false : ∃ (ctx : Ctx (GF 4)) (desc : PreProcCount), exCtx = some ctx ∧ halfAdderPacked.describe 7 2 2 ⟨1, 3⟩ = some desc ∧ desc.errors = 24 ∧
    ∀ tp : PreTapes (GF 4), tp.Ok 7 2 2 exDeal exDeal desc → ∃ jobs outs, preprocJobs (gfCodec 4) ctx exDeal exDeal desc tp [] = some jobs ∧
      NetScheduleFree 7 jobs outs ∧
      ∀ (es : List FStep) (f : Full (List (GF 4))), (Full.start 7).run 7 jobs es = some f → f.Stuck 7 jobs →
        ∑ p ∈ Finset.range 7, (((f.stats 6)[p]?).getD 0).1 = ∑ p ∈ Finset.range 7, (((f.stats 0)[p]?).getD 0).1 + 42 := by
  obtain ⟨ctx, hctx, hg, hn, ht, hl⟩ := exCtx_good
  have hd : halfAdderPacked.describe 7 2 2 ⟨1, 3⟩ = some ⟨3, (2, 1, 3), 117, 177, 24⟩ := by decide +kernel
  refine ⟨ctx, _, hctx, hd, rfl, fun tp htp => ?_⟩
  obtain ⟨res, -, -, h1, -⟩ := preproc_lengths ctx hg (by omega) exDeal exDeal (by rw [hn]; exact exDeal_ok.1)
    (by rw [hn]; exact exDeal_ok.1) _ tp (by rw [hn, ht, hl]; exact htp)
  obtain ⟨jobs, outs, k1, k2, k3⟩ := C124_received_partial (gfCodec 4) (C45_codec 4 (by norm_num)) 1 one_pos (gfCodec_width (W := 4) (by norm_num)) ctx
    (by omega) exDeal exDeal _ (by decide) (by decide) (by decide) tp [] (by decide) res h1
  rw [hn] at k2 k3
  refine ⟨jobs, outs, k1, k2, fun es f hrun hst => ?_⟩
  obtain ⟨common, h4⟩ := k3 es f hrun hst
  rw [h4 6 (by omega), h4 0 (by omega)]
  rfl

end Verif.Props
