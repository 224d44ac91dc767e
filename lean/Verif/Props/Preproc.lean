import Verif.PreprocLemmas
import Verif.Props.MathMod
import Verif.Props.Core

/-!
# Properties of the preprocessing (`src/protocol/preproc.rs`)
-/

open Polynomial Verif
open Verif.CodeField (ofU32)

namespace Verif.Props

variable {F : Type} [CodeField F] [DecidableEq F]

/-! ### C47: rand, zero, randbit -/

/-- C47 for `rand`.  For all tapes, the results are sharings of degree below `t + l`; output `k` (row `k / batches`
of the matrix, batch `k % batches`) carries the combination, by that row, of the secrets `s p (k % batches)` dealt by
the parties. -/
theorem C47_rand (ctx : Ctx F) (h : ctx.Good) (m : Mat F) (hm : DealMat ctx.n m) (num batches : Nat)
    (hb : numBatches num m.rows.length = some batches) (tapes : List (List (List F)))
    (ht : TapeShape ctx.n batches (ctx.t + ctx.l) tapes) :
    ∃ outs, rand ctx m num tapes = some outs ∧ ∃ s : Nat → Nat → List F,
      (∀ p < ctx.n, ∀ b < batches, ∃ sh, ctx.pss.rand ((tapes.getD p []).getD b []) = some sh ∧
        IsSharing ctx.n (ctx.t + ctx.l) (defaultPos ctx.n ctx.l) (s p b) sh) ∧
      VecSharing ctx.n (ctx.t + ctx.l) (defaultPos ctx.n ctx.l)
        ((List.range (m.rows.length * batches)).map fun k => (List.range ctx.l).map fun i =>
          ∑ p ∈ Finset.range ctx.n, (m.rows.getD (k / batches) []).getD p 0 * (s p (k % batches)).getD i 0) outs ∧
      RoundedUp num m.rows.length (m.rows.length * batches) := by
  obtain ⟨q, q1, q2⟩ := rand_tab h hm.1 hm.2.1 hb ht
  refine ⟨_, q2, fun p b => (defaultPos ctx.n ctx.l).map fun x => (q p b).eval x, ?_, ?_, (numBatches_spec hb).2⟩
  · intro p hp b hb'
    obtain ⟨d1, d2, -⟩ := q1 p hp b hb'
    exact ⟨_, d2, q p b, d1, (range_map_eval _ _).symm, rfl⟩
  · have := vecSharing_of_tab ctx.n (ctx.t + ctx.l) (defaultPos ctx.n ctx.l) (m.rows.length * batches)
      (dealPoly ctx.n batches m q) (dealPoly_degree m q fun p hp b hb' => (q1 p hp b hb').1)
    convert this using 1
    apply List.map_congr_left
    intro k _
    rw [defaultPos, List.map_map]
    apply List.map_congr_left
    intro i hi
    have hi := List.mem_range.1 hi
    simp only [Function.comp, dealPoly_eval]
    apply Finset.sum_congr rfl
    intro p _
    simp [hi]

/-- C47 for `zero`: the results are sharings of zero of degree below `n`. -/
theorem C47_zero (ctx : Ctx F) (h : ctx.Good) (m : Mat F) (hm : DealMat ctx.n m) (num batches : Nat)
    (hb : numBatches num m.rows.length = some batches) (tapes : List (List (List F)))
    (ht : TapeShape ctx.n batches (ctx.n - ctx.l) tapes) :
    ∃ outs, zero ctx m num tapes = some outs ∧
      VecZero ctx.n ctx.n (defaultPos ctx.n ctx.l) (m.rows.length * batches) outs ∧
      RoundedUp num m.rows.length (m.rows.length * batches) := by
  obtain ⟨q, q1, q2⟩ := zero_tab h hm.1 hm.2.1 hb ht
  refine ⟨_, q2, ?_, (numBatches_spec hb).2⟩
  refine vecZero_of_tab _ (dealPoly_degree m q fun p hp b hb' => (q1 p hp b hb').1) fun k hk x hx => ?_
  rw [dealPoly_eval]
  apply Finset.sum_eq_zero
  intro p hp
  rw [(q1 p (Finset.mem_range.1 hp) _ (Nat.mod_lt _ (Nat.pos_of_ne_zero (by rintro rfl; simp at hk)))).2.1 x hx, mul_zero]

/-- C47 for `randbit`: the secrets are the combinations of the bits drawn by the parties; if the entries of the
matrix are bits then so are the secrets. -/
theorem C47_randbit (ctx : Ctx F) (h : ctx.Good) (m : Mat F) (hm : DealMat ctx.n m) (num batches : Nat)
    (hb : numBatches num m.rows.length = some batches) (bits : List (List (List Bool)))
    (hbits : TapeShape ctx.n batches ctx.l bits) (tapes : List (List (List F)))
    (ht : TapeShape ctx.n batches ctx.t tapes) :
    ∃ outs secrets, randbit ctx m num bits tapes = some outs ∧
      VecSharing ctx.n (ctx.t + ctx.l) (defaultPos ctx.n ctx.l) secrets outs ∧
      secrets = ((List.range (m.rows.length * batches)).map fun k => (List.range ctx.l).map fun i =>
          ∑ p ∈ Finset.range ctx.n, (m.rows.getD (k / batches) []).getD p 0 *
            bitVal F (((bits.getD p []).getD (k % batches) []).getD i false)) ∧
      (m.Binary → ∀ s ∈ secrets, ∀ x ∈ s, x = 0 ∨ x = 1) ∧
      RoundedUp num m.rows.length (m.rows.length * batches) := by
  obtain ⟨q, q1, q2⟩ := randbit_tab h hm.1 hm.2.1 hb hbits ht
  refine ⟨_, _, q2, ?_, rfl, ?_, (numBatches_spec hb).2⟩
  · have := vecSharing_of_tab ctx.n (ctx.t + ctx.l) (defaultPos ctx.n ctx.l) (m.rows.length * batches)
      (dealPoly ctx.n batches m q) (dealPoly_degree m q fun p hp b hb' => (q1 p hp b hb').1)
    convert this using 1
    apply List.map_congr_left
    intro k hk
    have hk := List.mem_range.1 hk
    have hb0 : 0 < batches := by
      rcases Nat.eq_zero_or_pos batches with h0 | h0
      · subst h0; simp at hk
      · exact h0
    have hmod := Nat.mod_lt k hb0
    rw [defaultPos, List.map_map]
    apply List.map_congr_left
    intro i hi
    have hi := List.mem_range.1 hi
    simp only [Function.comp, dealPoly_eval]
    apply Finset.sum_congr rfl
    intro p hp
    have hp := Finset.mem_range.1 hp
    have h1 := (q1 p hp _ hmod).2.1
    obtain ⟨tp, t, _, _, h5, h6⟩ := hbits.get p _ hp hmod
    rw [h6] at h1 ⊢
    have h2 := congrArg (fun l => l[i]?) h1
    simp only [defaultPos, List.map_map, List.getElem?_map, List.getElem?_range hi, Option.map_some, Function.comp] at h2
    rw [List.getElem?_eq_getElem (by omega)] at h2
    simp only [Option.map_some, Option.some.injEq] at h2
    rw [h2]
    simp [h5, hi]
  · intro hbin s hs x hx
    obtain ⟨k, _, rfl⟩ := List.mem_map.1 hs
    obtain ⟨i, _, rfl⟩ := List.mem_map.1 hx
    exact bit_sum _ fun p _ => bit_mul (binary_getD hbin _ _) (bitVal_bit _)

/-- Requests which are no multiple of the batch size are rounded up. -/
example : numBatches 10 4 = some 3 ∧ RoundedUp 10 4 12 :=
  ⟨rfl, (numBatches_spec (bs := 4) (num := 10) (batches := 3) rfl).2⟩

/-- One batch of random bits of the 7 parties: the secrets of the output are the sums of the bits of the parties
which the row selects. -/
example : (exCtx.bind fun ctx =>
    (randbit ctx ⟨7, [[1, 0, 1, 0, 0, 0, 1], [0, 1, 1, 1, 0, 0, 0]]⟩ 2
      ((List.range 7).map fun p => [[p = 2, p ≤ 4]]) ((List.range 7).map fun p => [[ofU32 p, ofU32 (2 * p)]])).bind fun outs =>
    (outs.mapM fun v => v[0]?).bind fun a => (outs.mapM fun v => v[1]?).bind fun b =>
    (ctx.pss.semihonRecon a).bind fun s => (ctx.pss.semihonRecon b).map fun s' => (s, s'))
      = some ([1, 0], [1, 1]) := by
  decide +kernel

/-! ### C48: honest randomness makes the outputs uniform -/

/-- C48 for `rand`.  Fix `n - t` parties `J` (the honest ones) and arbitrary tapes of all others.  For every choice of
the first `t + l` shares of each output sharing (which determine these sharings) there is exactly one choice of
tapes of the parties in `J` which leads to it.  Hence uniform honest tapes give uniform outputs. -/
theorem C48_rand (ctx : Ctx F) (h : ctx.Good) (J : List Nat) (hJ : J.Nodup) (hJlen : J.length = ctx.n - ctx.t)
    (hJlt : ∀ j ∈ J, j < ctx.n) (num batches : Nat) (hb : numBatches num (ctx.n - ctx.t) = some batches)
    (base : List (List (List F))) (hbase : TapeShape ctx.n batches (ctx.t + ctx.l) base) (target : Nat → Nat → F) :
    ∃ m : Mat F, superInvMatrix ctx.n (ctx.n - ctx.t) = some m ∧
      ∃! tapes : List (List (List F)), TapeShape ctx.n batches (ctx.t + ctx.l) tapes ∧
        (∀ p, p ∉ J → tapes[p]? = base[p]?) ∧
        ∃ outs, rand ctx m num tapes = some outs ∧
          HasOutputs outs (ctx.t + ctx.l) ((ctx.n - ctx.t) * batches) target := by
  have hle := h.le
  have hl := h.posL
  have hfit := h.fit
  obtain ⟨m, hm, hwf, hnc, hrows⟩ := superInv_shape (F := F) (numInp := ctx.n) (numOut := ctx.n - ctx.t) (by omega) (by omega)
  refine ⟨m, hm, ?_⟩
  have key := tapes_bijective hwf hnc J (by
    intro base hbase y hy
    rw [hrows] at hy
    obtain ⟨m', hm', hx⟩ := C09_super_invertible ctx.n (ctx.n - ctx.t) (by omega) (by omega) J hJ hJlen hJlt base hbase y hy
    rw [hm] at hm'
    cases hm'
    exact hx) base hbase target
  obtain ⟨tapes, ⟨k1, k2, k3⟩, ku⟩ := key
  have hiff : ∀ tapes : List (List (List F)), TapeShape ctx.n batches (ctx.t + ctx.l) tapes → _ := fun tapes ht =>
    let ⟨q, q1, q2⟩ := rand_tab h hwf hnc (num := num) (by rw [hrows]; exact hb) ht
    deal_iff m hle q tapes (fun p hp b hb' => (q1 p hp b hb').2.2) _ q2 target
  rw [← hrows]
  refine ⟨tapes, ⟨k1, k2, (hiff tapes k1).1 k3⟩, ?_⟩
  rintro tapes' ⟨a1, a2, a3⟩
  exact ku tapes' ⟨a1, a2, (hiff tapes' a1).2 a3⟩

/-- C48 for `zero`: likewise for the first `n - l` shares, which together with the zero secrets determine a sharing of
degree below `n`. -/
theorem C48_zero (ctx : Ctx F) (h : ctx.Good) (J : List Nat) (hJ : J.Nodup) (hJlen : J.length = ctx.n - ctx.t)
    (hJlt : ∀ j ∈ J, j < ctx.n) (num batches : Nat) (hb : numBatches num (ctx.n - ctx.t) = some batches)
    (base : List (List (List F))) (hbase : TapeShape ctx.n batches (ctx.n - ctx.l) base) (target : Nat → Nat → F) :
    ∃ m : Mat F, superInvMatrix ctx.n (ctx.n - ctx.t) = some m ∧
      ∃! tapes : List (List (List F)), TapeShape ctx.n batches (ctx.n - ctx.l) tapes ∧
        (∀ p, p ∉ J → tapes[p]? = base[p]?) ∧
        ∃ outs, zero ctx m num tapes = some outs ∧
          HasOutputs outs (ctx.n - ctx.l) ((ctx.n - ctx.t) * batches) target := by
  have hle := h.le
  have hl := h.posL
  have hfit := h.fit
  obtain ⟨m, hm, hwf, hnc, hrows⟩ := superInv_shape (F := F) (numInp := ctx.n) (numOut := ctx.n - ctx.t) (by omega) (by omega)
  refine ⟨m, hm, ?_⟩
  have key := tapes_bijective hwf hnc J (by
    intro base hbase y hy
    rw [hrows] at hy
    obtain ⟨m', hm', hx⟩ := C09_super_invertible ctx.n (ctx.n - ctx.t) (by omega) (by omega) J hJ hJlen hJlt base hbase y hy
    rw [hm] at hm'
    cases hm'
    exact hx) base hbase target
  obtain ⟨tapes, ⟨k1, k2, k3⟩, ku⟩ := key
  have hiff : ∀ tapes : List (List (List F)), TapeShape ctx.n batches (ctx.n - ctx.l) tapes → _ := fun tapes ht =>
    let ⟨q, q1, q2⟩ := zero_tab h hwf hnc (num := num) (by rw [hrows]; exact hb) ht
    deal_iff m (by omega) q tapes (fun p hp b hb' => (q1 p hp b hb').2.2) _ q2 target
  rw [← hrows]
  refine ⟨tapes, ⟨k1, k2, (hiff tapes k1).1 k3⟩, ?_⟩
  rintro tapes' ⟨a1, a2, a3⟩
  exact ku tapes' ⟨a1, a2, (hiff tapes' a1).2 a3⟩

/-- Parties 1, 2, 4, 5, 6 of 7 are honest; whatever 0 and 3 contribute, every outcome of a batch has exactly one
choice of honest tapes. -/
example (base : List (List (List (GF 4)))) (hbase : TapeShape 7 1 4 base) (target : Nat → Nat → GF 4) :
    ∃ ctx, exCtx = some ctx ∧ ∃ m : Mat (GF 4), superInvMatrix 7 5 = some m ∧
      ∃! tapes : List (List (List (GF 4))), TapeShape 7 1 4 tapes ∧ (∀ p, p ∉ [1, 2, 4, 5, 6] → tapes[p]? = base[p]?) ∧
        ∃ outs, rand ctx m 5 tapes = some outs ∧ HasOutputs outs 4 5 target := by
  obtain ⟨ctx, h1, h2, h3, h4, h5⟩ := exCtx_good
  refine ⟨ctx, h1, ?_⟩
  have := C48_rand ctx h2 [1, 2, 4, 5, 6] (by decide) (by rw [h3, h4]; rfl) (by rw [h3]; decide) 5 1
    (by rw [h3, h4]; rfl) base (by rw [h3, h4, h5]; exact hbase) target
  rw [h3, h4, h5] at this
  exact this

/-! ### C50: the material of `preproc` -/

/-- C50.  For every description and all tapes, `preproc` succeeds (in particular it never drains more than there is)
and gives every party masks, keys and errors of exactly the described shapes and at least the described number of
random and zero shares; masks are sharings of bits and zero shares are sharings of zero of degree below `n`. -/
theorem C50_preproc (ctx : Ctx F) (h : ctx.Good) (hd : 2 * (ctx.t + ctx.l - 1) < ctx.n) (m mb : Mat F)
    (hm : DealMat ctx.n m) (hmb : DealMat ctx.n mb) (hbin : mb.Binary) (desc : PreProcCount) (tp : PreTapes F)
    (ht : tp.Ok ctx.n ctx.t ctx.l m mb desc) :
    ∃ outs masks keys randoms errors : List _, ∃ nz, preproc ctx m mb desc tp = some outs ∧ outs.length = ctx.n ∧
      VecSharing ctx.n (ctx.t + ctx.l) (defaultPos ctx.n ctx.l) masks (outs.map (·.masks)) ∧
      masks.length = desc.masks ∧ (∀ s ∈ masks, ∀ x ∈ s, x = 0 ∨ x = 1) ∧
      VecSharing ctx.n (ctx.t + ctx.l) (defaultPos ctx.n ctx.l) keys (outs.map (·.keys.flat)) ∧
      (∀ o ∈ outs, o.keys.shape = desc.keys) ∧ keys.length = desc.keys.1 * desc.keys.2.1 * desc.keys.2.2 ∧
      VecSharing ctx.n (ctx.t + ctx.l) (defaultPos ctx.n ctx.l) randoms (outs.map (·.randoms)) ∧
      desc.randoms ≤ randoms.length ∧
      VecZero ctx.n ctx.n (defaultPos ctx.n ctx.l) nz (outs.map (·.zeros)) ∧ desc.zeros ≤ nz ∧
      VecSharing ctx.n (ctx.t + ctx.l) (defaultPos ctx.n ctx.l) errors (outs.map (·.errors)) ∧
      errors.length = desc.errors := by
  have hr0 : 0 < m.rows.length := List.length_pos_of_ne_nil hm.2.2
  have hb0 : 0 < mb.rows.length := List.length_pos_of_ne_nil hmb.2.2
  obtain ⟨br, hbr⟩ := numBatches_some (desc.numKeys + desc.randoms + 3 * desc.errors) hr0
  obtain ⟨bz, hbz⟩ := numBatches_some (desc.zeros + 2 * desc.errors) hr0
  obtain ⟨bb, hbb⟩ := numBatches_some (desc.masks + 2 * desc.errors) hb0
  obtain ⟨q, q1, q2⟩ := rand_tab h hm.1 hm.2.1 hbr (ht.rand _ hbr)
  obtain ⟨z, z1, z2⟩ := zero_tab h hm.1 hm.2.1 hbz (ht.zero _ hbz)
  obtain ⟨c, c1, c2⟩ := randbit_tab h hmb.1 hmb.2.1 hbb (ht.bits _ hbb) (ht.rbit _ hbb)
  have l1 := (numBatches_spec hbr).2.1.1
  have l2 := (numBatches_spec hbz).2.1.1
  have l3 := (numBatches_spec hbb).2.1.1
  have hR := dealPoly_degree m q fun p hp b hb' => (q1 p hp b hb').1
  have hZ := dealPoly_degree m z fun p hp b hb' => (z1 p hp b hb').1
  have hB := dealPoly_degree mb c fun p hp b hb' => (c1 p hp b hb').1
  have hZ0 : ∀ k < m.rows.length * bz, ∀ x ∈ defaultPos ctx.n ctx.l, (dealPoly ctx.n bz m z k).eval x = 0 := by
    intro k hk x hx
    rw [dealPoly_eval]
    apply Finset.sum_eq_zero
    intro p hp
    rw [(z1 p (Finset.mem_range.1 hp) _ (Nat.mod_lt _ (Nat.pos_of_ne_zero (by rintro rfl; simp at hk)))).2.1 x hx, mul_zero]
  have hB0 : ∀ k < mb.rows.length * bb, ∀ x ∈ defaultPos ctx.n ctx.l,
      (dealPoly ctx.n bb mb c k).eval x = 0 ∨ (dealPoly ctx.n bb mb c k).eval x = 1 := by
    intro k hk x hx
    rw [dealPoly_eval]
    apply bit_sum
    intro p hp
    apply bit_mul (binary_getD hbin _ _)
    have h1 := (c1 p hp _ (Nat.mod_lt k (Nat.pos_of_ne_zero (by rintro rfl; simp at hk)))).2.1
    have h2 : (c p (k % bb)).eval x ∈ (defaultPos ctx.n ctx.l).map fun x => (c p (k % bb)).eval x :=
      List.mem_map_of_mem hx
    rw [h1] at h2
    obtain ⟨b, _, hb⟩ := List.mem_map.1 h2
    rw [← hb]
    exact bitVal_bit b
  obtain ⟨w, w1, w2, w3⟩ := preproc_tab h hd ht hbr hbz hbb _ _ _ hR hZ hZ0 hB q2 z2 c2
  refine ⟨_, tabSecrets (defaultPos ctx.n ctx.l) desc.masks fun j => dealPoly ctx.n bb mb c (2 * desc.errors + j),
    tabSecrets (defaultPos ctx.n ctx.l) desc.numKeys fun j => dealPoly ctx.n br m q (3 * desc.errors + j),
    tabSecrets (defaultPos ctx.n ctx.l) (m.rows.length * br - 3 * desc.errors - desc.numKeys) fun j =>
      dealPoly ctx.n br m q (3 * desc.errors + (desc.numKeys + j)),
    tabSecrets (defaultPos ctx.n ctx.l) desc.errors w, m.rows.length * bz - 2 * desc.errors, w3, by simp,
    ?_, by simp [tabSecrets], ?_, ?_, ?_, by simp [tabSecrets, PreProcCount.numKeys], ?_,
    by simp [tabSecrets]; omega, ?_, by omega, ?_, by simp [tabSecrets]⟩
  · rw [List.map_map]
    exact vecSharing_of_tab _ _ _ _ _ fun j hj => hB _ (by omega)
  · intro s hs x hx
    obtain ⟨j, hj, rfl⟩ := List.mem_map.1 hs
    obtain ⟨v, hv, rfl⟩ := List.mem_map.1 hx
    have := List.mem_range.1 hj
    exact hB0 _ (by omega) v hv
  · rw [List.map_map]
    exact vecSharing_of_tab _ _ _ _ _ fun j hj => hR _ (by omega)
  · intro o ho
    obtain ⟨i, _, rfl⟩ := List.mem_map.1 ho
    rfl
  · rw [List.map_map]
    exact vecSharing_of_tab _ _ _ _ _ fun j hj => hR _ (by omega)
  · rw [List.map_map]
    exact vecZero_of_tab _ (fun j hj => hZ _ (by omega)) fun j hj x hx => hZ0 _ (by omega) x hx
  · rw [List.map_map]
    exact vecSharing_of_tab _ _ _ _ _ w1

/-! ### C51: error shares -/

/-- C51.  Let `rs` and `bs` be the secrets of the random sharings and the bit sharings made during the run.  The `j`-th
error of leader `a` is a sharing of the entrywise product of two bit vectors and one random vector, at the stated
places. -/
theorem C51_errors (ctx : Ctx F) (h : ctx.Good) (hd : 2 * (ctx.t + ctx.l - 1) < ctx.n) (m mb : Mat F)
    (hm : DealMat ctx.n m) (hmb : DealMat ctx.n mb) (desc : PreProcCount) (tp : PreTapes F)
    (ht : tp.Ok ctx.n ctx.t ctx.l m mb desc) (rands bits rs bs : List (List F))
    (hrand : rand ctx m (desc.numKeys + desc.randoms + 3 * desc.errors) tp.rand = some rands)
    (hrs : VecSharing ctx.n (ctx.t + ctx.l) (defaultPos ctx.n ctx.l) rs rands)
    (hbit : randbit ctx mb (desc.masks + 2 * desc.errors) tp.bits tp.rbit = some bits)
    (hbs : VecSharing ctx.n (ctx.t + ctx.l) (defaultPos ctx.n ctx.l) bs bits) :
    ∃ outs errors, preproc ctx m mb desc tp = some outs ∧
      VecSharing ctx.n (ctx.t + ctx.l) (defaultPos ctx.n ctx.l) errors (outs.map (·.errors)) ∧
      errors.length = desc.errors ∧
      ∀ a < ctx.n, ∀ j < errSize desc.errors ctx.n a, ∃ b0 b1 s,
        bs[2 * (a * (desc.errors / ctx.n)) + j]? = some b0 ∧
        bs[2 * (a * (desc.errors / ctx.n)) + errSize desc.errors ctx.n a + j]? = some b1 ∧
        rs[3 * (a * (desc.errors / ctx.n)) + errSize desc.errors ctx.n a + j]? = some s ∧
        errors[a * (desc.errors / ctx.n) + j]? = some (vmul (vmul b0 b1) s) := by
  have hr0 : 0 < m.rows.length := List.length_pos_of_ne_nil hm.2.2
  have hb0 : 0 < mb.rows.length := List.length_pos_of_ne_nil hmb.2.2
  obtain ⟨br, hbr⟩ := numBatches_some (desc.numKeys + desc.randoms + 3 * desc.errors) hr0
  obtain ⟨bz, hbz⟩ := numBatches_some (desc.zeros + 2 * desc.errors) hr0
  obtain ⟨bb, hbb⟩ := numBatches_some (desc.masks + 2 * desc.errors) hb0
  obtain ⟨q, q1, q2⟩ := rand_tab h hm.1 hm.2.1 hbr (ht.rand _ hbr)
  obtain ⟨z, z1, z2⟩ := zero_tab h hm.1 hm.2.1 hbz (ht.zero _ hbz)
  obtain ⟨c, c1, c2⟩ := randbit_tab h hmb.1 hmb.2.1 hbb (ht.bits _ hbb) (ht.rbit _ hbb)
  have l1 := (numBatches_spec hbr).2.1.1
  have l3 := (numBatches_spec hbb).2.1.1
  have hZ := dealPoly_degree m z fun p hp b hb' => (z1 p hp b hb').1
  have hZ0 : ∀ k < m.rows.length * bz, ∀ x ∈ defaultPos ctx.n ctx.l, (dealPoly ctx.n bz m z k).eval x = 0 := by
    intro k hk x hx
    rw [dealPoly_eval]
    apply Finset.sum_eq_zero
    intro p hp
    rw [(z1 p (Finset.mem_range.1 hp) _ (Nat.mod_lt _ (Nat.pos_of_ne_zero (by rintro rfl; simp at hk)))).2.1 x hx, mul_zero]
  obtain ⟨R, R1, R2, R3⟩ := (vecSharing_iff _ _ _ _ _).1 hrs
  obtain ⟨B, B1, B2, B3⟩ := (vecSharing_iff _ _ _ _ _).1 hbs
  rw [hrand, R2, Option.some.injEq] at q2
  rw [hbit, B2, Option.some.injEq] at c2
  have e1 := tabShares_length_inj h.posN _ _ q2
  have e2 := tabShares_length_inj h.posN _ _ c2
  rw [e1] at R1 R2 R3
  rw [e2] at B1 B2 B3
  rw [R2] at hrand
  rw [B2] at hbit
  obtain ⟨w, w1, w2, w3⟩ := preproc_tab h hd ht hbr hbz hbb R _ B R1 hZ hZ0 B1 hrand z2 hbit
  refine ⟨_, tabSecrets (defaultPos ctx.n ctx.l) desc.errors w, w3, ?_, by simp [tabSecrets], ?_⟩
  · rw [List.map_map]
    exact vecSharing_of_tab _ _ _ _ _ w1
  · intro a ha j hj
    have hbd := errSize_bound (errors := desc.errors) ha
    refine ⟨_, _, _, by rw [B3]; exact tabSecrets_get _ _ _ _ (by omega),
      by rw [B3]; exact tabSecrets_get _ _ _ _ (by omega), by rw [R3]; exact tabSecrets_get _ _ _ _ (by omega), ?_⟩
    rw [tabSecrets_get _ _ _ _ (by omega), vmul_map, vmul_map]
    congr 1
    apply List.map_congr_left
    intro x hx
    exact w2 a ha j hj x hx

/-- C51.  The errors of all leaders together are all errors, and no sharing is used for two errors: the positions of
the bits and scalars used for the errors are pairwise different. -/
theorem C51_fresh (errors n : Nat) (hn : 1 ≤ n) :
    (∀ e < errors, ∃ a j, a < n ∧ j < errSize errors n a ∧ e = a * (errors / n) + j) ∧
    ∀ a j a' j', a < n → j < errSize errors n a → a' < n → j' < errSize errors n a' → (a, j) ≠ (a', j') →
      a * (errors / n) + j ≠ a' * (errors / n) + j' ∧
      2 * (a * (errors / n)) + j ≠ 2 * (a' * (errors / n)) + j' ∧
      2 * (a * (errors / n)) + errSize errors n a + j ≠ 2 * (a' * (errors / n)) + errSize errors n a' + j' ∧
      2 * (a * (errors / n)) + j ≠ 2 * (a' * (errors / n)) + errSize errors n a' + j' ∧
      3 * (a * (errors / n)) + errSize errors n a + j ≠ 3 * (a' * (errors / n)) + errSize errors n a' + j' := by
  constructor
  · intro e he
    have hdm := Nat.div_add_mod errors n
    have hml := Nat.mod_lt errors hn
    by_cases h1 : e < (n - 1) * (errors / n)
    · have hd : 0 < errors / n := Nat.pos_of_ne_zero (by intro h0; rw [h0] at h1; simp at h1)
      have ha : e / (errors / n) < n - 1 := (Nat.div_lt_iff_lt_mul hd).2 h1
      refine ⟨e / (errors / n), e % (errors / n), by omega, ?_, ?_⟩
      · unfold errSize
        rw [if_neg (by omega)]
        exact Nat.mod_lt _ hd
      · rw [Nat.mul_comm, Nat.div_add_mod]
    · refine ⟨n - 1, e - (n - 1) * (errors / n), by omega, ?_, by omega⟩
      unfold errSize
      rw [if_pos (by omega)]
      omega
  · have key : ∀ a j a' j', a < a' → a' < n → j < errSize errors n a → j' < errSize errors n a' →
        a * (errors / n) + errSize errors n a ≤ a' * (errors / n) := by
      intro a j a' j' h1 h2 _ _
      unfold errSize
      rw [if_neg (by omega)]
      calc a * (errors / n) + errors / n = (a + 1) * (errors / n) := by ring
        _ ≤ a' * (errors / n) := Nat.mul_le_mul_right _ h1
    intro a j a' j' ha hj ha' hj' hne
    rcases Nat.lt_trichotomy a a' with hlt | heq | hgt
    · have := key a j a' j' hlt ha' hj hj'
      omega
    · subst heq
      have : j ≠ j' := by rintro rfl; exact hne rfl
      omega
    · have := key a' j' a j hgt ha hj' hj
      omega

/-- 17 errors among 7 leaders: six batches of two and one of five. -/
example : (List.range 7).map (errSize 17 7) = [2, 2, 2, 2, 2, 2, 5] ∧ errorBatches 17 7 = some [2, 2, 2, 2, 2, 2, 5] := by
  decide

/-! ### C52: dummy material -/

/-- C52.  Called by all parties with the same seed (hence the same random values), `PreProc::dummy` gives consistent
sharings: masks of bits, keys, random and error shares of degree below `t + l`, and zero shares of degree below `n`,
in the described numbers.  The secrets are those of the pool columns which are cycled through. -/
theorem C52_dummy (ctx : Ctx F) (h : ctx.Good) (pool : Nat) (hpool : 1 ≤ pool) (counts : PreProcCount) (tp : DummyTape F)
    (ht : tp.Ok ctx.n ctx.t ctx.l pool) :
    ∃ outs, ((List.range ctx.n).mapM fun id => PreProc.dummy ctx id pool counts tp) = some outs ∧
      VecSharing ctx.n (ctx.t + ctx.l) (defaultPos ctx.n ctx.l)
        ((List.range counts.masks).map fun k => (col (k % pool) tp.bits).map (bitVal F)) (outs.map (·.masks)) ∧
      (∀ o ∈ outs, o.keys.shape = counts.keys) ∧
      VecSharing ctx.n (ctx.t + ctx.l) (defaultPos ctx.n ctx.l)
        ((List.range counts.numKeys).map fun k => (col (k % pool) tp.rand).take ctx.l) (outs.map (·.keys.flat)) ∧
      VecSharing ctx.n (ctx.t + ctx.l) (defaultPos ctx.n ctx.l)
        ((List.range counts.randoms).map fun k => (col ((counts.numKeys + k) % pool) tp.rand).take ctx.l)
        (outs.map (·.randoms)) ∧
      VecZero ctx.n ctx.n (defaultPos ctx.n ctx.l) counts.zeros (outs.map (·.zeros)) ∧
      VecSharing ctx.n (ctx.t + ctx.l) (defaultPos ctx.n ctx.l)
        ((List.range counts.errors).map fun k => (col ((counts.numKeys + counts.randoms + k) % pool) tp.rand).take ctx.l)
        (outs.map (·.errors)) := by
  have hle := h.le
  obtain ⟨r, r1, r2, r3⟩ := dummyPool_exists (k := ctx.t + ctx.l) h.fit (by omega) tp.rand ht.rand.1 ht.rand.2
  obtain ⟨z, z1, z2, z3⟩ := dummyPool_exists (k := ctx.n) (pool := pool) h.fit (by omega)
    (List.replicate ctx.l (List.replicate pool 0) ++ tp.zero)
    (by simp [ht.zero.1]; omega) (by
      intro x hx
      rcases List.mem_append.1 hx with hx | hx
      · rw [(List.mem_replicate.1 hx).2]; simp
      · exact ht.zero.2 x hx)
  obtain ⟨b, b1, b2, b3⟩ := dummyPool_exists (k := ctx.t + ctx.l) (pool := pool) h.fit (by omega)
    (tp.bits.map (·.map (bitVal F)) ++ tp.bitRand)
    (by simp [ht.bits.1, ht.bitRand.1]; omega) (by
      intro x hx
      rcases List.mem_append.1 hx with hx | hx
      · obtain ⟨y, hy, rfl⟩ := List.mem_map.1 hx; simp [ht.bits.2 y hy]
      · exact ht.bitRand.2 x hx)
  have hmod : ∀ k, k % pool < pool := fun k => Nat.mod_lt _ (by omega)
  have hrun : ((List.range ctx.n).mapM fun id => PreProc.dummy ctx id pool counts tp)
      = some ((List.range ctx.n).map fun i =>
        { masks := (List.range counts.masks).map fun k => (b (k % pool)).eval (ofU32 i)
          keys := ⟨counts.keys, (List.range counts.numKeys).map fun k => (r (k % pool)).eval (ofU32 i)⟩
          randoms := (List.range counts.randoms).map fun k => (r ((counts.numKeys + k) % pool)).eval (ofU32 i)
          zeros := (List.range counts.zeros).map fun k => (z (k % pool)).eval (ofU32 i)
          errors := (List.range counts.errors).map fun k =>
            (r ((counts.numKeys + counts.randoms + k) % pool)).eval (ofU32 i) }) := by
    apply mapM_range_some
    intro i hi
    unfold PreProc.dummy
    rw [if_neg (by omega), r3 i hi, z3 i hi, b3 i hi]
    simp only [Option.bind_some]
    rw [cycleTake_tab pool hpool, cycleTake_tab pool hpool]
    simp only [Option.bind_some, Nat.zero_add]
    unfold Arr3.ofVec
    rw [if_pos (by simp [PreProcCount.numKeys]), cycleTake_tab pool hpool, cycleTake_tab pool hpool,
      cycleTake_tab pool hpool]
    simp only [Option.bind_some, Option.map_some, Nat.zero_add]
  have hrs : ∀ k, (defaultPos ctx.n ctx.l).map (fun x => (r (k % pool)).eval x)
      = (col (k % pool) tp.rand).take ctx.l := fun k => take_allPos (by omega) _ _ (r2 _ (hmod k))
  refine ⟨_, hrun, ?_, ?_, ?_, ?_, ?_, ?_⟩
  · have hb : ∀ k, (defaultPos ctx.n ctx.l).map (fun x => (b (k % pool)).eval x)
        = (col (k % pool) tp.bits).map (bitVal F) := by
      intro k
      have hj := hmod k
      rw [take_allPos (k := ctx.t + ctx.l) (by omega) _ _ (b2 _ hj), col_append]
      have : col (k % pool) (tp.bits.map (·.map (bitVal F))) = (col (k % pool) tp.bits).map (bitVal F) := by
        unfold col
        rw [List.filterMap_map, List.map_filterMap]
        congr 1
        funext x
        simp
      rw [this, List.take_append_of_le_length, List.take_of_length_le]
      · rw [List.length_map, col_length _ _ (fun x hx => by rw [ht.bits.2 x hx]; exact hj), ht.bits.1]
      · rw [List.length_map, col_length _ _ (fun x hx => by rw [ht.bits.2 x hx]; exact hj), ht.bits.1]
    simp only [← hb, List.map_map]
    exact vecSharing_of_tab _ _ _ _ (fun k => b (k % pool)) fun k _ => b1 _ (hmod k)
  · intro o ho
    obtain ⟨i, _, rfl⟩ := List.mem_map.1 ho
    rfl
  · simp only [← hrs, List.map_map]
    exact vecSharing_of_tab _ _ _ _ (fun k => r (k % pool)) fun k _ => r1 _ (hmod k)
  · simp only [← hrs, List.map_map]
    exact vecSharing_of_tab _ _ _ _ (fun k => r ((counts.numKeys + k) % pool)) fun k _ => r1 _ (hmod _)
  · simp only [List.map_map]
    refine vecZero_of_tab (fun k => z (k % pool)) (fun k _ => z1 _ (hmod k)) fun k _ x hx => ?_
    have hz := take_allPos (k := ctx.n) (l := ctx.l) (by omega) _ _ (z2 _ (hmod k))
    rw [col_append, col_replicate _ _ _ _ (hmod k), List.take_append_of_le_length (by simp),
      List.take_of_length_le (by simp)] at hz
    have h2 : (z (k % pool)).eval x ∈ (defaultPos ctx.n ctx.l).map fun x => (z (k % pool)).eval x := List.mem_map_of_mem hx
    rw [hz] at h2
    exact (List.mem_replicate.1 h2).2
  · simp only [← hrs, List.map_map]
    exact vecSharing_of_tab _ _ _ _ (fun k => r ((counts.numKeys + counts.randoms + k) % pool)) fun k _ => r1 _ (hmod _)

/-- Two mask sharings of a pool of three columns, reconstructed. -/
example : (exCtx.bind fun ctx => ((List.range 7).mapM fun id => PreProc.dummy ctx id 3 ⟨2, (2, 1, 1), 1, 1, 1⟩
      ⟨[[1, 2, 3], [4, 5, 6], [7, 8, 9], [10, 11, 12]].map (·.map ofU32),
       [[1, 0, 3], [4, 5, 6], [0, 8, 9], [10, 11, 12], [1, 2, 2]].map (·.map ofU32),
       [[true, false, true], [true, true, false]], [[3, 3, 1], [4, 1, 2]].map (·.map ofU32)⟩).bind fun outs =>
    (outs.mapM fun o => o.masks[0]?).bind fun a => (outs.mapM fun o => o.masks[1]?).bind fun b =>
    (outs.mapM fun o => o.zeros[0]?).bind fun z => (ctx.pss.semihonRecon a).bind fun a =>
    (ctx.pss.semihonRecon b).bind fun b => (ctx.pssN.semihonRecon z).map fun z => (a, b, z))
      = some ([1, 1], [0, 1], [0, 0]) := by
  decide +kernel

/-! ### C53: serialization -/

/-- Preprocessing material as described by `PreProcCount::new` for key length `K` and `B` blocks. -/
def Described (K B : Nat) (p : PreProc F) : Prop :=
  p.masks.length = B ∧ p.keys.shape = (2, K, B) ∧ p.keys.flat.length = 2 * K * B

omit [CodeField F] [DecidableEq F] in
/-- C53 (what holds): for at least one block, deserializing gives back all entries, in the same order, but the key
array has shape `(B, 2, K)`. -/
theorem C53_entries_partial (K B : Nat) (hB : 1 ≤ B) (p : PreProc F) (hp : Described K B p) :
    p.ser.de = some { p with keys := ⟨(B, 2, K), p.keys.flat⟩ } := by
  obtain ⟨h1, h2, h3⟩ := hp
  unfold PreProcSer.de PreProc.ser Arr3.ofVec
  simp only [h1, h3]
  have : 2 * K * B / (2 * B) = K := by
    rw [show 2 * K * B = K * (2 * B) by ring]
    exact Nat.mul_div_cancel _ (by omega)
  rw [if_neg (by omega), this, if_pos (by ring)]
  rfl

omit [CodeField F] [DecidableEq F] in
/-- C53 fails: material with any number of blocks (at least one) and any key length comes back unchanged only if
there are exactly two blocks and the keys have length two; with no blocks, deserialization panics. -/
theorem C53_roundtrip_false (K B : Nat) (p : PreProc F) (hp : Described K B p) :
    (p.ser.de = some p ↔ K = 2 ∧ B = 2) ∧ (B = 0 → p.ser.de = none) := by
  constructor
  · rcases Nat.eq_zero_or_pos B with rfl | hB
    · have : p.ser.de = none := by
        unfold PreProcSer.de PreProc.ser
        rw [if_pos (by simp [hp.1])]
      rw [this]
      simp
    · rw [C53_entries_partial K B hB p hp]
      obtain ⟨m, ⟨sh, fl⟩, r, z, e⟩ := p
      obtain ⟨_, h2, _⟩ := hp
      simp only at h2
      subst h2
      simp only [Option.some.injEq, PreProc.mk.injEq, Arr3.mk.injEq, Prod.mk.injEq, and_true, true_and]
      omega
  · rintro rfl
    unfold PreProcSer.de PreProc.ser
    rw [if_pos (by simp [hp.1])]

/-- With key length 1 and 3 blocks, entry 0 of the key with label 1 of block 0 moves. -/
example : (PreProc.mk [0, 0, 0] ⟨(2, 1, 3), [10, 11, 12, 20, 21, 22]⟩ [] [] [] : PreProc Nat).ser.de.map
    (fun p => (p.keys.shape, p.keys.get? 1 0 0)) = some ((3, 2, 1), some 12) ∧
    (⟨(2, 1, 3), [10, 11, 12, 20, 21, 22]⟩ : Arr3 Nat).get? 1 0 0 = some 20 := by decide

end Verif.Props
