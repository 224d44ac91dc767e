import Verif.RandTransLemmas
import Verif.GF
import Mathlib.Tactic.IntervalCases

/-!
# Properties of the core protocols (`src/protocol/core.rs`)

The theorems are about the sequential description of the protocols; `Verif.Props.Async` (C45) lifts them to
every schedule.
-/

open Polynomial Verif
open Verif.CodeField (ofU32)

namespace Verif.Props

variable {F : Type} [CodeField F] [DecidableEq F]

/-- The context used in the examples: 7 parties, threshold 2, two secrets, over GF(16). -/
noncomputable def exCtx : Option (Ctx (GF 4)) :=
  (PackedSharing.new (2 + 2 - 1) 7 (defaultPos 7 2)).bind fun pss =>
  (PackedSharing.new (7 - 1) 7 (defaultPos 7 2)).map fun pssN => ⟨7, 2, 2, pss, pssN⟩

theorem exCtx_good : ∃ ctx, exCtx = some ctx ∧ ctx.Good ∧ ctx.n = 7 ∧ ctx.t = 2 ∧ ctx.l = 2 := by
  have h1 : ∃ pss : PackedSharing (GF 4), PackedSharing.new (2 + 2 - 1) 7 (defaultPos 7 2) = some pss := by
    unfold PackedSharing.new; exact ⟨_, rfl⟩
  have h2 : ∃ pss : PackedSharing (GF 4), PackedSharing.new (7 - 1) 7 (defaultPos 7 2) = some pss := by
    unfold PackedSharing.new; exact ⟨_, rfl⟩
  obtain ⟨p, hp⟩ := h1
  obtain ⟨q, hq⟩ := h2
  refine ⟨⟨7, 2, 2, p, q⟩, ?_, ⟨hp, hq, by norm_num, ?_⟩, rfl, rfl, rfl⟩
  · unfold exCtx; rw [hp, hq]; rfl
  · show 7 + 2 ≤ 2 ^ 4
    norm_num

/-! ### C40: degree reduction -/

/-- C40. For inputs of degree below `n` with secrets `X`, random sharings of degree below `t + l` and
sharings of zero of degree below `n`: for all leader randomness `reduce_degree` succeeds at all parties, and
the results are sharings of `X` of degree below `t + l`. -/
theorem C40_reduce_degree (ctx : Ctx F) (h : ctx.Good) (X R vxs randoms zeros tapes : List (List F))
    (hx : VecSharing ctx.n ctx.n (defaultPos ctx.n ctx.l) X vxs)
    (hr : VecSharing ctx.n (ctx.t + ctx.l) (defaultPos ctx.n ctx.l) R randoms) (hR : R.length = X.length)
    (hz : VecZero ctx.n ctx.n (defaultPos ctx.n ctx.l) X.length zeros)
    (ht : tapes.length = X.length) (htl : ∀ tp ∈ tapes, tp.length = ctx.t) :
    ∃ outs, reduceDegree ctx X.length tapes vxs randoms zeros = some outs ∧
      VecSharing ctx.n (ctx.t + ctx.l) (defaultPos ctx.n ctx.l) X outs := by
  obtain ⟨x, x1, x2, x3⟩ := (vecSharing_iff _ _ _ _ _).1 hx
  obtain ⟨r, r1, r2, r3⟩ := (vecSharing_iff _ _ _ _ _).1 hr
  rw [hR] at r1 r2
  obtain ⟨z, z1, z2, z3⟩ := vecZero_tab hz
  obtain ⟨y, y1, y2, y3⟩ := reduceDegree_tab h X.length tapes ht htl x r z x1 r1 z1 z3
  refine ⟨_, by rw [x2, r2, z2]; exact y3, ?_⟩
  rw [vecSharing_iff]
  refine ⟨y, y1, rfl, ?_⟩
  conv_lhs => rw [x3]
  unfold tabSecrets
  apply List.map_congr_left
  intro j hj
  apply List.map_congr_left
  intro v hv
  rw [y2 j (List.mem_range.1 hj) v hv]

/-- 7 parties reduce a sharing of degree 6 (the values of `X ^ 6`) to degree 3. -/
example : (exCtx.bind fun ctx =>
    (reduceDegree ctx 1 [[ofU32 3, ofU32 11]] ((List.range 7).map fun i => [(ofU32 i) ^ 6])
      ((List.range 7).map fun i => [(ofU32 i) ^ 3]) ((List.range 7).map fun _ => [0])).bind fun outs =>
    (outs.mapM fun v => v[0]?).bind fun s => ctx.pss.semihonRecon s) = some [(ofU32 7) ^ 6, (ofU32 8) ^ 6] := by
  decide +kernel

/-! ### C41: multiplication -/

/-- C41. If `2(t + l - 1) < n`, multiplying sharings of `X` and `Y` of degree below `t + l` gives sharings
of the entrywise products, again of degree below `t + l`. -/
theorem C41_mult (ctx : Ctx F) (h : ctx.Good) (hd : 2 * (ctx.t + ctx.l - 1) < ctx.n)
    (X Y R vxs vys randoms zeros tapes : List (List F))
    (hx : VecSharing ctx.n (ctx.t + ctx.l) (defaultPos ctx.n ctx.l) X vxs)
    (hy : VecSharing ctx.n (ctx.t + ctx.l) (defaultPos ctx.n ctx.l) Y vys) (hY : Y.length = X.length)
    (hr : VecSharing ctx.n (ctx.t + ctx.l) (defaultPos ctx.n ctx.l) R randoms) (hR : R.length = X.length)
    (hz : VecZero ctx.n ctx.n (defaultPos ctx.n ctx.l) X.length zeros)
    (ht : tapes.length = X.length) (htl : ∀ tp ∈ tapes, tp.length = ctx.t) :
    ∃ outs, mult ctx X.length tapes vxs vys randoms zeros = some outs ∧
      VecSharing ctx.n (ctx.t + ctx.l) (defaultPos ctx.n ctx.l) (List.zipWith vmul X Y) outs := by
  obtain ⟨x, x1, x2, x3⟩ := (vecSharing_iff _ _ _ _ _).1 hx
  obtain ⟨y, y1, y2, y3⟩ := (vecSharing_iff _ _ _ _ _).1 hy
  rw [hY] at y1 y2 y3
  obtain ⟨r, r1, r2, r3⟩ := (vecSharing_iff _ _ _ _ _).1 hr
  rw [hR] at r1 r2
  obtain ⟨z, z1, z2, z3⟩ := vecZero_tab hz
  obtain ⟨w, w1, w2, w3⟩ := mult_tab h X.length tapes ht htl hd x y r z x1 y1 r1 z1 z3
  refine ⟨_, by rw [x2, y2, r2, z2]; exact w3, ?_⟩
  rw [vecSharing_iff]
  have hlen : (List.zipWith vmul X Y).length = X.length := by simp [hY]
  rw [hlen]
  refine ⟨w, w1, rfl, ?_⟩
  conv_lhs => rw [x3, y3]
  unfold tabSecrets
  apply List.ext_getElem (by simp)
  intro j h1 h2
  have hj : j < X.length := by simpa using h1
  simp only [List.getElem_zipWith, List.getElem_map, List.getElem_range, vmul_map]
  apply List.map_congr_left
  intro v hv
  rw [w2 j hj v hv]

/-- The values of `X ^ 3` and `X + 1` are multiplied. -/
example : (exCtx.bind fun ctx =>
    (mult ctx 1 [[ofU32 3, ofU32 11]] ((List.range 7).map fun i => [(ofU32 i) ^ 3])
      ((List.range 7).map fun i => [ofU32 i + 1])
      ((List.range 7).map fun i => [(ofU32 i) ^ 3]) ((List.range 7).map fun _ => [0])).bind fun outs =>
    (outs.mapM fun v => v[0]?).bind fun s => ctx.pss.semihonRecon s)
      = some [(ofU32 7) ^ 3 * (ofU32 7 + 1), (ofU32 8) ^ 3 * (ofU32 8 + 1)] := by
  decide +kernel

/-! ### C42: what the leader learns -/

/-- C42. Let `t` parties (`C`) be corrupted, with shares `rC` of the random sharing and
`zC` of the sharing of zero.  For all inputs `x` of the parties and every vector of messages `v` which agrees
with what the corrupted parties send, exactly one random sharing (of degree below `t + l`) and one sharing of
zero (of degree below `n`) extend `rC`, `zC` and make the parties send `v`.  So for uniform random sharings
the messages of the honest parties are uniform, whatever the inputs are. -/
theorem C42_leader_view (ctx : Ctx F) (h : ctx.Good) (C : List Nat) (hC : C.Nodup) (hCl : C.length = ctx.t)
    (hCn : ∀ i ∈ C, i < ctx.n) (x v rC zC : List F) (hx : x.length = ctx.n) (hv : v.length = ctx.n)
    (hrC : rC.length = ctx.t) (hzC : zC.length = ctx.t)
    (hvC : C.map (fun i => v.getD i 0) = vadd (vadd (C.map fun i => x.getD i 0) rC) zC) :
    ∃! rz : List F × List F,
      Consistent ctx.n (ctx.t + ctx.l) rz.1 ∧
      IsSharing ctx.n ctx.n (defaultPos ctx.n ctx.l) (List.replicate ctx.l 0) rz.2 ∧
      C.map (fun i => rz.1.getD i 0) = rC ∧ C.map (fun i => rz.2.getD i 0) = zC ∧
      ∀ i < ctx.n, rdSend [x.getD i 0] [rz.1.getD i 0] [rz.2.getD i 0] = some [v.getD i 0] := by
  have hfit := h.fit
  have hle := h.le
  have hsmall : ctx.n ≤ CodeField.order F := by omega
  have hsp := sharePos_nodup (F := F) hsmall
  have hgp := defaultPos_good (F := F) h.fit
  -- the polynomial through the masks
  obtain ⟨q, hq, hqv⟩ := exists_poly_of_values (sharePos ctx.n : List F) hsp (vsub v x)
    (by simp [vsub, sharePos_length, hx, hv])
  rw [sharePos_length] at hq
  have hqi : ∀ i < ctx.n, q.eval (ofU32 i) = v.getD i 0 - x.getD i 0 := by
    intro i hi
    have := congrArg (fun l => l[i]?) hqv
    simp only [sharePos, List.map_map, List.getElem?_map, List.getElem?_range hi, Option.map_some, vsub,
      List.getElem?_zipWith, List.getElem?_eq_getElem (show i < v.length by omega),
      List.getElem?_eq_getElem (show i < x.length by omega), Function.comp] at this
    simp only [Option.some.injEq] at this
    rw [this]
    simp [show i < v.length by omega, show i < x.length by omega]
  -- the points which determine the random sharing
  have hnd : (defaultPos ctx.n ctx.l ++ C.map ofU32 : List F).Nodup := by
    apply List.Nodup.append hgp.nodup
    · apply List.Nodup.map_on _ hC
      intro a ha b hb hab
      exact CodeField.ofU32_inj a b (by have := hCn a ha; omega) (by have := hCn b hb; omega) hab
    · intro y hy hy'
      obtain ⟨i, hi, rfl⟩ := List.mem_map.1 hy'
      exact hgp.disj i (hCn i hi) hy
  have hlen : (defaultPos ctx.n ctx.l ++ C.map ofU32 : List F).length = ctx.t + ctx.l := by
    simp [defaultPos, hCl]; omega
  obtain ⟨r, hr, hrv⟩ := exists_poly_of_values _ hnd ((defaultPos ctx.n ctx.l).map (fun y => q.eval y) ++ rC)
    (by rw [hlen]; simp [defaultPos, hrC]; omega)
  rw [hlen] at hr
  rw [List.map_append] at hrv
  obtain ⟨hrd, hrc⟩ := List.append_inj hrv (by simp)
  rw [List.map_map] at hrc
  have getr : ∀ (p : F[X]) i, i < ctx.n → ((List.range ctx.n).map fun i => p.eval (ofU32 i : F)).getD i 0 = p.eval (ofU32 i) := by
    intro p i hi
    simp [hi]
  have getC : ∀ p : F[X], C.map (fun i => ((List.range ctx.n).map fun i => p.eval (ofU32 i : F)).getD i 0)
      = C.map fun i => p.eval (ofU32 i) := by
    intro p
    apply List.map_congr_left
    intro i hi
    exact getr p i (hCn i hi)
  have hsend : ∀ a b c d : F, rdSend [a] [b] [c] = some [d] ↔ a + b + c = d := by
    intro a b c d
    simp [rdSend, vadd]
  refine ⟨((List.range ctx.n).map fun i => r.eval (ofU32 i), (List.range ctx.n).map fun i => (q - r).eval (ofU32 i)),
    ⟨⟨r, hr, rfl⟩, ⟨q - r, degree_sub_lt' hq (degree_lt_mono hr hle), rfl, ?_⟩, ?_, ?_, ?_⟩, ?_⟩
  · -- zero at the default positions
    have : (defaultPos ctx.n ctx.l : List F).map (fun y => (q - r).eval y) = (defaultPos ctx.n ctx.l : List F).map fun _ => (0 : F) := by
      apply List.map_congr_left
      intro y hy
      have := List.map_inj_left.1 hrd y hy
      rw [eval_sub, this, sub_self]
    rw [this, List.map_const', defaultPos_length]
  · simp only [getC]; exact hrc
  · simp only [getC]
    simp only [eval_sub]
    have h1 : C.map (fun i => q.eval (ofU32 i)) = vsub (C.map fun i => v.getD i 0) (C.map fun i => x.getD i 0) := by
      rw [vsub_map]
      apply List.map_congr_left
      intro i hi
      exact hqi i (hCn i hi)
    have h2 : C.map (fun i => q.eval (ofU32 i) - r.eval (ofU32 i))
        = vsub (C.map fun i => q.eval (ofU32 i)) (C.map fun i => r.eval (ofU32 i)) := by rw [vsub_map]
    have hrc' : C.map (fun i => r.eval (ofU32 i)) = rC := hrc
    rw [h2, h1, hvC, hrc']
    apply List.ext_getElem (by simp [vsub, vadd, hrC, hzC, hCl])
    intro i i1 i2
    simp only [vsub, vadd, List.getElem_zipWith]
    ring
  · intro i hi
    rw [hsend, getr _ i hi, getr _ i hi, eval_sub, hqi i hi]
    ring
  · rintro ⟨r', z'⟩ ⟨⟨pr, hpr, rfl⟩, ⟨pz, hpz, rfl, hpz0⟩, hrC', hzC', hs⟩
    simp only at hpz0 hrC' hzC' hs
    rw [getC] at hrC'
    -- the sum is determined by the messages
    have hsum : pr + pz = q := by
      apply poly_eq_of_values (sharePos ctx.n : List F) hsp
      · rw [sharePos_length]; exact degree_add_lt (degree_lt_mono hpr hle) hpz
      · rw [sharePos_length]; exact hq
      · simp only [sharePos, List.map_map]
        apply List.map_congr_left
        intro i hi
        have hi := List.mem_range.1 hi
        have := hs i hi
        rw [hsend, getr _ i hi, getr _ i hi] at this
        simp only [Function.comp, eval_add]
        rw [hqi i hi, ← this]
        ring
    have hpr' : pr = r := by
      apply poly_eq_of_values _ hnd
      · rw [hlen]; exact hpr
      · rw [hlen]; exact hr
      · rw [List.map_append, List.map_append, hrv, List.map_map]
        refine congrArg₂ _ ?_ hrC'
        apply List.map_congr_left
        intro y hy
        have : pz.eval y = 0 := by
          have hm : pz.eval y ∈ List.replicate ctx.l (0 : F) := by
            rw [hpz0]; exact List.mem_map.2 ⟨y, hy, rfl⟩
          exact (List.mem_replicate.1 hm).2
        rw [← hsum, eval_add, this, add_zero]
    have hpz' : pz = q - r := by rw [← hsum, hpr']; ring
    rw [hpr', hpz']

/-- Threshold 2 with the corrupted parties 6 and 1: the hypotheses can be met for any inputs of the others. -/
example : ([6, 1] : List Nat).Nodup ∧
    ([6, 1].map fun i => ([1, ofU32 7, 0, 0, ofU32 3, 0, ofU32 9] : List (GF 4)).getD i 0)
      = vadd (vadd ([6, 1].map fun i => ([0, 1, 0, 0, ofU32 5, 0, ofU32 2] : List (GF 4)).getD i 0) [ofU32 8, ofU32 4])
        [ofU32 3, ofU32 2] := by
  constructor
  · decide
  · decide +kernel

/-! ### C43: transformations -/

/-- C43. `trans` turns sharings of `X` at the old positions into sharings, of degree below `t + l`, of the
selected secrets `f(X)` at the new positions, for every pair of masks which is correlated by `f`; there may be
fewer positions than the packing parameter. -/
theorem C43_trans (ctx : Ctx F) (hn : 1 ≤ ctx.t + ctx.l) (hl : ctx.t + ctx.l ≤ ctx.n) (tr : SharingTransform F)
    (hg : GoodPos ctx.n tr.newPos) (hnl : tr.newPos.length ≤ ctx.t + ctx.l)
    (X R R' vxs randoms randomsN tapes : List (List F))
    (hx : VecSharing ctx.n ctx.n tr.oldPos X vxs)
    (hrn : VecSharing ctx.n ctx.n tr.oldPos R randomsN) (hR : R.length = X.length)
    (hr : VecSharing ctx.n (ctx.t + ctx.l) tr.newPos R' randoms) (hf : R.mapM tr.f.apply = some R')
    (ht : tapes.length = X.length) (htl : ∀ tp ∈ tapes, tp.length = ctx.t + ctx.l - tr.newPos.length) :
    ∃ outs Y, trans ctx tr X.length tapes vxs randoms randomsN = some outs ∧ X.mapM tr.f.apply = some Y ∧
      VecSharing ctx.n (ctx.t + ctx.l) tr.newPos Y outs := by
  obtain ⟨x, x1, x2, x3⟩ := (vecSharing_iff _ _ _ _ _).1 hx
  obtain ⟨rn, rn1, rn2, rn3⟩ := (vecSharing_iff _ _ _ _ _).1 hrn
  rw [hR] at rn1 rn2 rn3
  have hlen' : R'.length = X.length := by rw [mapM_length hf, hR]
  obtain ⟨r, r1, r2, r3⟩ := (vecSharing_iff _ _ _ _ _).1 hr
  rw [hlen'] at r1 r2 r3
  have hfj : ∀ j < X.length, tr.f.apply (tr.oldPos.map fun v => (rn j).eval v) = some (tr.newPos.map fun v => (r j).eval v) := by
    intro j hj
    have := mapM_getElem hf j (by omega) (by omega)
    have e1 : R[j] = tr.oldPos.map fun v => (rn j).eval v := by
      have := congrArg (fun l => l[j]?) rn3
      simpa [tabSecrets, hj, hR] using this
    have e2 : R'[j] = tr.newPos.map fun v => (r j).eval v := by
      have := congrArg (fun l => l[j]?) r3
      simpa [tabSecrets, hj, hlen'] using this
    rw [← e1, ← e2]; exact this
  obtain ⟨y, y1, y2, y3⟩ := trans_tab (by omega) hl hn tr hg hnl X.length tapes ht htl x r rn x1 r1 rn1 hfj
  refine ⟨_, tabSecrets tr.newPos X.length y, by rw [x2, r2, rn2]; exact y3, ?_, ?_⟩
  · conv_lhs => rw [x3]
    unfold tabSecrets
    rw [List.mapM_map]
    exact mapM_range_some _ _ _ fun j hj => y2 j hj
  · exact vecSharing_of_tab _ _ _ _ _ y1

/-- The secrets of `X ^ 2` at two wire positions are swapped and moved to the default positions; the masks
are the constant 1. -/
example : (exCtx.bind fun ctx =>
    (trans ctx ⟨[ofU32 10, ofU32 12], [ofU32 7, ofU32 8], ⟨[1, 0]⟩⟩ 1 [[ofU32 3, ofU32 11]]
      ((List.range 7).map fun i => [(ofU32 i) ^ 2])
      ((List.range 7).map fun _ => [1]) ((List.range 7).map fun _ => [1])).bind fun outs =>
    (outs.mapM fun v => v[0]?).bind fun s => ctx.pss.semihonRecon s)
      = some [(ofU32 12) ^ 2, (ofU32 10) ^ 2] := by
  decide +kernel

/-! ### C44: correlated random sharings -/

/-- The `k`-th rows of the parties' results. -/
def rowOf (k : Nat) (a : List (List (List F))) : List (List F) := a.map fun m => m.getD k []

/-- C44. If `t + 2l ≤ n`, then for every batch of at most `l` transformations, all random sharings (secrets
`S`) and all sharings of zero `randtrans` succeeds, and for the `k`-th transformation the parties hold
sharings of degree below `n` of `RN k` at the old positions and sharings of degree below `t + l` of `f (RN k)`
at the new positions.  The `j`-th vector `RN k j` consists of the `k`-th secrets of the random sharings
`j`, `num + j`, `2 num + j`, ...  -/
theorem C44_randtrans (ctx : Ctx F) (h : ctx.Good) (hd : ctx.t + 2 * ctx.l ≤ ctx.n) (tfs : List (SharingTransform F))
    (hK : tfs.length ≤ ctx.l) (hok : ∀ tf ∈ tfs, tf.Ok ctx) (num : Nat) (S randoms zeros : List (List F))
    (hS : S.length = (ctx.n + ctx.t) * num)
    (hr : VecSharing ctx.n (ctx.t + ctx.l) (defaultPos ctx.n ctx.l) S randoms)
    (hz : VecZero ctx.n ctx.n (defaultPos ctx.n ctx.l) (2 * ctx.n * num) zeros) :
    ∃ outs, randtrans ctx tfs randoms zeros = some outs ∧
      ∀ k (hk : k < tfs.length),
        let RN := (List.range num).map fun j => (List.range tfs[k].oldPos.length).map fun c =>
          (S.getD (c * num + j) []).getD k 0
        VecSharing ctx.n ctx.n tfs[k].oldPos RN (rowOf k (outs.map (·.2))) ∧
        ∃ R', RN.mapM tfs[k].f.apply = some R' ∧
          VecSharing ctx.n (ctx.t + ctx.l) tfs[k].newPos R' (rowOf k (outs.map (·.1))) := by
  obtain ⟨g, g1, g2, g3⟩ := (vecSharing_iff _ _ _ _ _).1 hr
  rw [hS] at g1 g2 g3
  obtain ⟨z, z1, z2, z3⟩ := vecZero_tab hz
  obtain ⟨R, RN, R1, R2, R3, R4, R5⟩ := randtrans_tab h hd tfs hK hok num g z g1 z1 z3
  refine ⟨_, by rw [g2, z2]; exact R5, ?_⟩
  intro k hk RN'
  have hkl : k < ctx.l := by omega
  have ok := hok _ (List.getElem_mem hk)
  have hle := h.le
  -- the secrets which are used
  have hsec : ∀ c < ctx.l, ∀ j < num, (S.getD (c * num + j) []).getD k 0 = (g (c * num + j)).eval (ofU32 (ctx.n + k)) := by
    intro c hc j hj
    have hlt : c * num + j < (ctx.n + ctx.t) * num := by
      have : (c + 1) * num ≤ (ctx.n + ctx.t) * num := Nat.mul_le_mul_right _ (by omega)
      rw [Nat.add_mul, Nat.one_mul] at this; omega
    rw [g3]
    simp [tabSecrets, defaultPos, hlt, hkl]
  have hRN : RN' = (List.range num).map fun j => tfs[k].oldPos.map fun x => (RN k j).eval x := by
    apply List.map_congr_left
    intro j hj
    rw [R3 k hk j]
    apply List.map_congr_left
    intro c hc
    exact hsec c (by have := ok.oldLen; have := List.mem_range.1 hc; omega) j (List.mem_range.1 hj)
  have hrow : ∀ f : Nat → Nat → F[X], ((List.range ctx.n).map fun r => (List.range ctx.l).map fun k =>
      (List.range num).map fun j => (f k j).eval (ofU32 r : F)).map (fun m => m.getD k [])
      = tabShares ctx.n num (f k) := by
    intro f
    rw [List.map_map]
    apply List.map_congr_left
    intro r _
    simp [hkl]
  refine ⟨?_, tabSecrets tfs[k].newPos num (R k), ?_, ?_⟩
  · rw [hRN]
    have := hrow RN
    unfold rowOf
    rw [List.map_map] at this ⊢
    rw [List.map_map]
    simp only [Function.comp_def] at this ⊢
    rw [this]
    exact vecSharing_of_tab _ _ _ _ _ fun j _ => R2 k j
  · rw [hRN, List.mapM_map]
    apply mapM_range_some
    intro j hj
    simp only [Function.comp]
    rw [R3 k hk j, R4 k hk j, apply_map]
    have : tfs[k].f.apply (List.range tfs[k].oldPos.length) = some tfs[k].f.map := by
      unfold Combination.apply
      have := mapM_some_map (fun i => (List.range tfs[k].oldPos.length)[i]?) id tfs[k].f.map (by
        intro i hi
        have := ok.idx i hi
        simp [this])
      simpa using this
    rw [this]
    rfl
  · have := hrow R
    unfold rowOf
    rw [List.map_map] at this ⊢
    rw [List.map_map]
    simp only [Function.comp_def] at this ⊢
    rw [this]
    exact vecSharing_of_tab _ _ _ _ _ fun j _ => R1 k j

/-- 7 parties with `t = 2` and `l = 2`: two transformations, one which swaps two secrets and one which
copies a single secret. -/
example : ∃ ctx, exCtx = some ctx ∧ ctx.Good ∧ ctx.t + 2 * ctx.l ≤ ctx.n ∧
    SharingTransform.Ok ctx ⟨[ofU32 10, ofU32 12], [ofU32 7, ofU32 8], ⟨[1, 0]⟩⟩ ∧
    SharingTransform.Ok ctx ⟨[ofU32 10], [ofU32 7, ofU32 8], ⟨[0, 0]⟩⟩ := by
  obtain ⟨ctx, h1, h2, h3, h4, h5⟩ := exCtx_good
  have good : ∀ pos : List (GF 4), (sharePos 7 ++ pos).Nodup → GoodPos ctx.n pos := by
    intro pos hp
    rw [h3]
    refine ⟨(List.nodup_append.1 hp).2.1, ?_, ?_⟩
    · intro i hi hm
      exact (List.nodup_append.1 hp).2.2 _ (List.mem_map.2 ⟨i, List.mem_range.2 hi, rfl⟩) _ hm rfl
    · show 7 ≤ 2 ^ 4
      norm_num
  refine ⟨ctx, h1, h2, by omega, ?_, ?_⟩
  · exact ⟨good _ (by decide +kernel), good _ (by decide +kernel), by simp [h5], by simp [h5], rfl, by simp⟩
  · exact ⟨good _ (by decide +kernel), good _ (by decide +kernel), by simp [h5], by simp [h5], rfl, by simp⟩

/-! ### C70: what the leader of a transformation learns -/

/-- C70. Let `t` parties (`C`) be corrupted, with shares `rnC` of the mask at the old positions; if the new
sharing has `m < l` positions, fix in addition the mask shares of `l - m` further parties `D`.  For all
inputs `x` and every vector of messages `v` which agrees with what the corrupted parties send, exactly one
pair of masks correlated by `f` extends the given values and makes the parties send `v`. So the number of
masks which explain a view does not depend on the inputs. -/
theorem C70_trans_leader_view (ctx : Ctx F) (tr : SharingTransform F) (hok : tr.Ok ctx)
    (C D : List Nat) (hCD : (C ++ D).Nodup) (hCDn : ∀ i ∈ C ++ D, i < ctx.n) (hCl : C.length = ctx.t)
    (hDl : D.length = ctx.l - tr.newPos.length) (x v rnC rCD : List F) (hx : x.length = ctx.n)
    (hv : v.length = ctx.n) (hrnC : rnC.length = ctx.t) (hrCD : rCD.length = (C ++ D).length)
    (hvC : C.map (fun i => v.getD i 0) = vadd rnC (C.map fun i => x.getD i 0)) :
    ∃! r : List F × List F,
      (∃ R R', IsSharing ctx.n ctx.n tr.oldPos R r.2 ∧ tr.f.apply R = some R' ∧
        IsSharing ctx.n (ctx.t + ctx.l) tr.newPos R' r.1) ∧
      C.map (fun i => r.2.getD i 0) = rnC ∧ (C ++ D).map (fun i => r.1.getD i 0) = rCD ∧
      ∀ i < ctx.n, transSend [x.getD i 0] [r.2.getD i 0] = some [v.getD i 0] := by
  have hsp := sharePos_nodup (F := F) hok.new.small
  have hsm := hok.new.small
  obtain ⟨q, hq, hqv⟩ := exists_poly_of_values (sharePos ctx.n : List F) hsp (vsub v x)
    (by simp [vsub, sharePos_length, hx, hv])
  rw [sharePos_length] at hq
  have hqi : ∀ i < ctx.n, q.eval (ofU32 i) = v.getD i 0 - x.getD i 0 := by
    intro i hi
    have := congrArg (fun l => l[i]?) hqv
    simp only [sharePos, List.map_map, List.getElem?_map, List.getElem?_range hi, Option.map_some, vsub,
      List.getElem?_zipWith, List.getElem?_eq_getElem (show i < v.length by omega),
      List.getElem?_eq_getElem (show i < x.length by omega), Function.comp] at this
    simp only [Option.some.injEq] at this
    rw [this]
    simp [show i < v.length by omega, show i < x.length by omega]
  have hnl := hok.newLen
  have hnd : (tr.newPos ++ (C ++ D).map ofU32 : List F).Nodup := by
    apply List.Nodup.append hok.new.nodup
    · apply List.Nodup.map_on _ hCD
      intro a ha b hb hab
      exact CodeField.ofU32_inj a b (by have := hCDn a ha; omega) (by have := hCDn b hb; omega) hab
    · intro y hy hy'
      obtain ⟨i, hi, rfl⟩ := List.mem_map.1 hy'
      exact hok.new.disj i (hCDn i hi) hy
  have hlen : (tr.newPos ++ (C ++ D).map ofU32 : List F).length = ctx.t + ctx.l := by
    simp [hCl, hDl]; omega
  -- the selection of the secrets of the first mask
  have hap : ∃ w, tr.f.apply tr.oldPos = some w ∧ w.length = tr.newPos.length := by
    have : tr.f.apply tr.oldPos = some (tr.f.map.map fun i => tr.oldPos.getD i 0) := by
      unfold Combination.apply
      apply mapM_some_map
      intro i hi
      have := hok.idx i hi
      simp [this]
    refine ⟨_, this, ?_⟩
    have := hok.len
    unfold Combination.len at this
    simpa using this
  obtain ⟨w, hw, hwl⟩ := hap
  have hapq : ∀ p : F[X], tr.f.apply (tr.oldPos.map fun y => p.eval y) = some (w.map fun y => p.eval y) := by
    intro p; rw [apply_map, hw]; rfl
  obtain ⟨r, hr, hrv⟩ := exists_poly_of_values _ hnd (w.map (fun y => q.eval y) ++ rCD)
    (by rw [hlen]; simp [hwl, hrCD, hCl, hDl]; omega)
  rw [hlen] at hr
  rw [List.map_append] at hrv
  obtain ⟨hrd, hrc⟩ := List.append_inj hrv (by simp [hwl])
  rw [List.map_map] at hrc
  have getr : ∀ (p : F[X]) i, i < ctx.n → ((List.range ctx.n).map fun i => p.eval (ofU32 i : F)).getD i 0 = p.eval (ofU32 i) := by
    intro p i hi
    simp [hi]
  have getC : ∀ (L : List Nat), (∀ i ∈ L, i < ctx.n) → ∀ p : F[X],
      L.map (fun i => ((List.range ctx.n).map fun i => p.eval (ofU32 i : F)).getD i 0)
      = L.map fun i => p.eval (ofU32 i) := by
    intro L hL p
    apply List.map_congr_left
    intro i hi
    exact getr p i (hL i hi)
  have hCn : ∀ i ∈ C, i < ctx.n := fun i hi => hCDn i (List.mem_append_left _ hi)
  have hsend : ∀ a b d : F, transSend [a] [b] = some [d] ↔ b + a = d := by
    intro a b d
    simp [transSend, vadd]
  refine ⟨((List.range ctx.n).map fun i => r.eval (ofU32 i), (List.range ctx.n).map fun i => q.eval (ofU32 i)),
    ⟨⟨_, _, ⟨q, hq, rfl, rfl⟩, hapq q, ⟨r, hr, rfl, hrd.symm⟩⟩, ?_, ?_, ?_⟩, ?_⟩
  · simp only [getC C hCn]
    have h1 : C.map (fun i => q.eval (ofU32 i)) = vsub (C.map fun i => v.getD i 0) (C.map fun i => x.getD i 0) := by
      rw [vsub_map]
      apply List.map_congr_left
      intro i hi
      exact hqi i (hCn i hi)
    rw [h1, hvC]
    apply List.ext_getElem (by simp [vsub, vadd, hrnC, hCl])
    intro i i1 i2
    simp only [vsub, vadd, List.getElem_zipWith]
    ring
  · simp only [getC _ hCDn]; exact hrc
  · intro i hi
    rw [hsend, getr _ i hi, hqi i hi]
    ring
  · rintro ⟨r', rn'⟩ ⟨⟨R, R', ⟨pn, hpn, rfl, rfl⟩, hRR, ⟨pr, hpr, rfl, rfl⟩⟩, _, hCD', hs⟩
    simp only at hRR hCD' hs
    rw [getC _ hCDn] at hCD'
    have hpq : pn = q := by
      apply poly_eq_of_values (sharePos ctx.n : List F) hsp
      · rw [sharePos_length]; exact hpn
      · rw [sharePos_length]; exact hq
      · simp only [sharePos, List.map_map]
        apply List.map_congr_left
        intro i hi
        have hi := List.mem_range.1 hi
        have := hs i hi
        rw [hsend, getr _ i hi] at this
        simp only [Function.comp]
        rw [hqi i hi, ← this]
        ring
    subst hpq
    rw [hapq, Option.some.injEq] at hRR
    have hpr' : pr = r := by
      apply poly_eq_of_values _ hnd
      · rw [hlen]; exact hpr
      · rw [hlen]; exact hr
      · have e : ∀ p : F[X], (tr.newPos ++ (C ++ D).map ofU32).map (fun y => p.eval y)
            = tr.newPos.map (fun y => p.eval y) ++ (C ++ D).map fun i => p.eval (ofU32 i) := by
          intro p
          rw [List.map_append, List.map_map]
          rfl
        rw [e, e]
        exact congrArg₂ _ (hRR.symm.trans hrd.symm) (hCD'.trans hrc.symm)
    rw [hpr']

/-- Threshold 2, two secrets which are copied from one, corrupted parties 0 and 3: no further parties are
needed. -/
example : (([0, 3] : List Nat) ++ []).Nodup ∧ ([] : List Nat).length = 2 - ([ofU32 7, ofU32 8] : List (GF 4)).length := by
  decide

/-! ### C71: the bound in C44 is needed -/

/-- 4 parties, threshold 1, two secrets: `t + 2l = 5 > 4`, although `t + l ≤ n`. -/
noncomputable def badCtx : Option (Ctx (GF 4)) :=
  (PackedSharing.new (1 + 2 - 1) 4 (defaultPos 4 2)).bind fun pss =>
  (PackedSharing.new (4 - 1) 4 (defaultPos 4 2)).map fun pssN => ⟨4, 1, 2, pss, pssN⟩

/-- Two transformations of the same positions, the identity and the swap. -/
noncomputable def badTfs : List (SharingTransform (GF 4)) :=
  [⟨[ofU32 10, ofU32 12], [ofU32 8, ofU32 9], ⟨[0, 1]⟩⟩, ⟨[ofU32 10, ofU32 12], [ofU32 8, ofU32 9], ⟨[1, 0]⟩⟩]

/-- C71. Without `t + 2l ≤ n` (which nothing checks) `randtrans` can return uncorrelated sharings: there are
a context with `t + l ≤ n`, a valid batch and valid preprocessing for which it succeeds, but the sharing at the
new positions of the first transformation does not carry the selected secrets of the sharing at the old
positions. -/
theorem C71_bound_needed : ∃ (ctx : Ctx (GF 4)) (tfs : List (SharingTransform (GF 4)))
    (S randoms zeros : List (List (GF 4))) (outs : List (List (List (GF 4)) × List (List (GF 4)))),
    ctx.Good ∧ tfs.length ≤ ctx.l ∧ (∀ tf ∈ tfs, tf.Ok ctx) ∧ S.length = (ctx.n + ctx.t) * 1 ∧
    VecSharing ctx.n (ctx.t + ctx.l) (defaultPos ctx.n ctx.l) S randoms ∧
    VecZero ctx.n ctx.n (defaultPos ctx.n ctx.l) (2 * ctx.n * 1) zeros ∧
    randtrans ctx tfs randoms zeros = some outs ∧
    ∃ tf, tfs[0]? = some tf ∧ ¬ ∃ R R', VecSharing ctx.n ctx.n tf.oldPos R (rowOf 0 (outs.map (·.2))) ∧
      R.mapM tf.f.apply = some R' ∧ VecSharing ctx.n (ctx.t + ctx.l) tf.newPos R' (rowOf 0 (outs.map (·.1))) := by
  have h1 : ∃ pss : PackedSharing (GF 4), PackedSharing.new (1 + 2 - 1) 4 (defaultPos 4 2) = some pss := by
    unfold PackedSharing.new; exact ⟨_, rfl⟩
  have h2 : ∃ pss : PackedSharing (GF 4), PackedSharing.new (4 - 1) 4 (defaultPos 4 2) = some pss := by
    unfold PackedSharing.new; exact ⟨_, rfl⟩
  have h3 : ∃ pss : PackedSharing (GF 4), PackedSharing.new 2 4 [ofU32 8, ofU32 9] = some pss := by
    unfold PackedSharing.new; exact ⟨_, rfl⟩
  have h4 : ∃ pss : PackedSharing (GF 4), PackedSharing.new 3 4 [ofU32 10, ofU32 12] = some pss := by
    unfold PackedSharing.new; exact ⟨_, rfl⟩
  obtain ⟨p, hp⟩ := h1
  obtain ⟨q, hq⟩ := h2
  obtain ⟨a, ha⟩ := h3
  obtain ⟨b, hb⟩ := h4
  -- the run
  have hrun : (badCtx.bind fun ctx =>
      (randtrans ctx badTfs
        ((List.range 4).map fun i => (List.range 5).map fun m => ofU32 (m + 1) * (ofU32 i) ^ 2)
        ((List.range 4).map fun _ => List.replicate 8 0)).bind fun outs =>
      (PackedSharing.new 2 4 ([ofU32 8, ofU32 9] : List (GF 4))).bind fun a =>
      (PackedSharing.new 3 4 ([ofU32 10, ofU32 12] : List (GF 4))).bind fun b =>
      (a.semihonRecon ((rowOf 0 (outs.map (·.1))).map (·.getD 0 0))).bind fun x =>
      (b.semihonRecon ((rowOf 0 (outs.map (·.2))).map (·.getD 0 0))).bind fun y =>
        some (decide (x ≠ y), (rowOf 0 (outs.map (·.2))).map List.length)) = some (true, [1, 1, 1, 1]) := by
    decide +kernel
  have hbad : badCtx = some ⟨4, 1, 2, p, q⟩ := by
    unfold badCtx; rw [hp, hq]; rfl
  rw [hbad, ha, hb] at hrun
  simp only [Option.bind_some] at hrun
  obtain ⟨outs, ho, hrun⟩ := Option.bind_eq_some_iff.1 hrun
  obtain ⟨x, hx, hrun⟩ := Option.bind_eq_some_iff.1 hrun
  obtain ⟨y, hy, hrun⟩ := Option.bind_eq_some_iff.1 hrun
  simp only [Option.some.injEq, Prod.mk.injEq, decide_eq_true_eq] at hrun
  obtain ⟨hxy, hlen⟩ := hrun
  have good : ∀ pos : List (GF 4), (sharePos 4 ++ pos).Nodup → GoodPos 4 pos := by
    intro pos hp
    refine ⟨(List.nodup_append.1 hp).2.1, ?_, ?_⟩
    · intro i hi hm
      exact (List.nodup_append.1 hp).2.2 _ (List.mem_map.2 ⟨i, List.mem_range.2 hi, rfl⟩) _ hm rfl
    · show 4 ≤ 2 ^ 4
      norm_num
  have g1 := good [ofU32 10, ofU32 12] (by decide +kernel)
  have g2 := good [ofU32 8, ofU32 9] (by decide +kernel)
  refine ⟨⟨4, 1, 2, p, q⟩, badTfs,
    (List.range 5).map (fun m => (defaultPos 4 2).map fun v => (C (ofU32 (m + 1)) * X ^ 2 : (GF 4)[X]).eval v), _, _, outs,
    ⟨hp, hq, by norm_num, by show 4 + 2 ≤ 2 ^ 4; norm_num⟩, by simp [badTfs], ?_, by simp, ?_, ?_, ho, ?_⟩
  · intro tf htf
    simp only [badTfs, List.mem_cons, List.not_mem_nil, or_false] at htf
    rcases htf with rfl | rfl
    · exact ⟨g1, g2, by simp, by simp, rfl, by simp⟩
    · exact ⟨g1, g2, by simp, by simp, rfl, by simp⟩
  · refine ⟨(List.range 5).map fun m => C (ofU32 (m + 1)) * X ^ 2, ?_, ?_, ?_⟩
    · intro p hp
      obtain ⟨m, _, rfl⟩ := List.mem_map.1 hp
      refine degree_C_mul_lt _ ?_
      rw [degree_X_pow]
      exact_mod_cast (by norm_num : 2 < 1 + 2)
    · simp only [List.map_map, Function.comp_def, eval_mul, eval_C, eval_pow, eval_X]
    · simp only [List.map_map, Function.comp_def]
  · refine ⟨List.replicate 8 0, ?_, ?_, ?_⟩
    · intro p hp
      rw [(List.mem_replicate.1 hp).2, degree_zero]
      exact WithBot.bot_lt_coe _
    · simp
    · simp [defaultPos, List.replicate, List.range_succ]
  · refine ⟨_, rfl, ?_⟩
    rintro ⟨R, R', ⟨ps, hps, hs, hR⟩, hap, ⟨ps', hps', hs', hR'⟩⟩
    -- one sharing each
    have hps1 : ps.length = 1 := by
      have := congrArg (fun l => (l.map List.length)) hs
      rw [hlen] at this
      simp only [List.map_map, Function.comp_def, List.length_map] at this
      have h0 := congrArg (fun l => l[0]?) this
      simpa using h0.symm
    have hps1' : ps'.length = 1 := by
      have h1 := mapM_length hap
      rw [hR, hR'] at h1
      simp only [List.length_map] at h1
      omega
    obtain ⟨f, rfl⟩ := List.length_eq_one_iff.1 hps1
    obtain ⟨f', rfl⟩ := List.length_eq_one_iff.1 hps1'
    rw [hs'] at hx
    rw [hs] at hy
    have hsm : 4 ≤ CodeField.order (GF 4) := by show 4 ≤ 2 ^ 4; norm_num
    have e1 := semihonRecon_eval ha hsm f' (hps' f' (by simp))
    have e2 := semihonRecon_eval hb hsm f (hps f (by simp))
    rw [← range_map_eval] at e1 e2
    simp only [List.map_map, Function.comp_def, List.map_cons, List.map_nil, List.getD_cons_zero] at hx hy
    rw [e1, Option.some.injEq] at hx
    rw [e2, Option.some.injEq] at hy
    rw [hR, hR'] at hap
    apply hxy
    rw [← hx, ← hy]
    simpa [Combination.apply] using hap.symm

/-! ### C46: the leader -/

/-- C46. For every hash function, every ID and every number of parties from 1 to `2 ^ 16`, the leader is a
valid party.  It is a function of the ID and the number of parties only, so all parties agree on it. -/
theorem C46_leader (hash : List Nat → Nat) (id : List Nat) (n : Nat) (h1 : 1 ≤ n) (h2 : n ≤ 2 ^ 16) :
    ∃ p, leaderFromProtoId hash id n = some p ∧ p < n ∧ chooseLeader hash id none n = some p ∧
      ∀ q, chooseLeader hash id (some q) n = some q := by
  have := Nat.mod_lt (hash id) (show n > 0 by omega)
  refine ⟨hash id % n, ?_, this, ?_, fun q => rfl⟩
  · unfold leaderFromProtoId
    rw [if_neg (by omega), if_pos (by omega)]
  · unfold chooseLeader leaderFromProtoId
    simp only
    rw [if_neg (by omega), if_pos (by omega)]

example : leaderFromProtoId (fun id => id.sum) [3, 4] 5 = some 2 := by decide

/-- C46. The run panics exactly if there are no parties or the leader does not fit into 16 bits. -/
theorem C46_panics (hash : List Nat → Nat) (id : List Nat) (n : Nat) :
    leaderFromProtoId hash id n = none ↔ n = 0 ∨ 65536 ≤ hash id % n := by
  unfold leaderFromProtoId
  by_cases hn : n = 0
  · simp [hn]
  · by_cases h : hash id % n < 2 ^ 16
    · rw [if_neg hn, if_pos h]
      refine iff_of_false (by simp) ?_
      omega
    · rw [if_neg hn, if_neg h]
      refine iff_of_true rfl (Or.inr ?_)
      omega

example : leaderFromProtoId (fun _ => 65536) [3] 70000 = none := (C46_panics _ _ _).2 (Or.inr (by norm_num))

end Verif.Props
