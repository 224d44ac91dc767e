import Verif.RandTransSmall
import Verif.EndToEndLemmas

/-! # Property C71: `randtrans` with too few parties, exactly (`src/protocol/core.rs:199-366`) -/

open Polynomial

namespace Verif.Props

open Verif CodeField

variable {F : Type} [CodeField F] [DecidableEq F]

/-- The results of all parties are correlated sharings: for each transformation there are secrets of which the parties hold sharings of degree below `n`
at the old positions, and sharings of degree below `t + l` of the transformed secrets at the new positions. -/
def Correlated (ctx : Ctx F) (tfs : List (SharingTransform F)) (outs : List (List (List F) × List (List F))) : Prop :=
  ∀ k (hk : k < tfs.length), ∃ R R', VecSharing ctx.n ctx.n tfs[k].oldPos R (rowOf k (outs.map (·.2))) ∧
    R.mapM tfs[k].f.apply = some R' ∧ VecSharing ctx.n (ctx.t + ctx.l) tfs[k].newPos R' (rowOf k (outs.map (·.1)))

/-- `randtrans` works for this batch of transformations: for all random sharings and all sharings of zero it gives correlated sharings. -/
def RandtransOk (ctx : Ctx F) (tfs : List (SharingTransform F)) : Prop :=
  ∀ (num : Nat) (S randoms zeros : List (List F)), S.length = (ctx.n + ctx.t) * num →
    VecSharing ctx.n (ctx.t + ctx.l) (defaultPos ctx.n ctx.l) S randoms → VecZero ctx.n ctx.n (defaultPos ctx.n ctx.l) (2 * ctx.n * num) zeros →
    ∃ outs, randtrans ctx tfs randoms zeros = some outs ∧ Correlated ctx tfs outs

/-- The rows of the results. -/
theorem rowOf_result (n l num : Nat) (f g : Nat → Nat → F[X]) {k : Nat} (hk : k < l) :
    rowOf k (((List.range n).map fun r => ((List.range l).map fun k => (List.range num).map fun j => (f k j).eval (ofU32 r : F),
      (List.range l).map fun k => (List.range num).map fun j => (g k j).eval (ofU32 r : F))).map (·.1)) = tabShares n num (f k) ∧
    rowOf k (((List.range n).map fun r => ((List.range l).map fun k => (List.range num).map fun j => (f k j).eval (ofU32 r : F),
      (List.range l).map fun k => (List.range num).map fun j => (g k j).eval (ofU32 r : F))).map (·.2)) = tabShares n num (g k) := by
  unfold rowOf tabShares
  constructor
  · rw [List.map_map, List.map_map]
    apply List.map_congr_left
    intro r _
    simp [hk]
  · rw [List.map_map, List.map_map]
    apply List.map_congr_left
    intro r _
    simp [hk]

/-- C71. `randtrans` never panics, with any number of parties for which a context can be made: it succeeds for all random sharings, right or wrong. -/
theorem C71_succeeds (ctx : Ctx F) (h : ctx.Good) (tfs : List (SharingTransform F)) (hK : tfs.length ≤ ctx.l) (hok : ∀ tf ∈ tfs, tf.Ok ctx)
    (num : Nat) (S randoms zeros : List (List F)) (hS : S.length = (ctx.n + ctx.t) * num)
    (hr : VecSharing ctx.n (ctx.t + ctx.l) (defaultPos ctx.n ctx.l) S randoms)
    (hz : VecZero ctx.n ctx.n (defaultPos ctx.n ctx.l) (2 * ctx.n * num) zeros) : ∃ outs, randtrans ctx tfs randoms zeros = some outs := by
  obtain ⟨g, g1, g2, g3⟩ := (vecSharing_iff _ _ _ _ _).1 hr
  rw [hS] at g1 g2 g3
  obtain ⟨z, z1, z2, z3⟩ := vecZero_tab hz
  obtain ⟨A, AN, E, B⟩ := rtBasis_exists h tfs hK hok
  rw [g2, z2]
  exact ⟨_, B.result1 h num g z z1 z3⟩

/-- C71. One transformation in a batch: the sharings are correlated, however few parties there are. -/
theorem C71_single_partial (ctx : Ctx F) (h : ctx.Good) (tf : SharingTransform F) (hok : tf.Ok ctx) : RandtransOk ctx [tf] := by
  intro num S randoms zeros hS hr hz
  obtain ⟨g, g1, g2, g3⟩ := (vecSharing_iff _ _ _ _ _).1 hr
  rw [hS] at g1 g2 g3
  obtain ⟨z, z1, z2, z3⟩ := vecZero_tab hz
  have hl := h.posL
  have hle := h.le
  obtain ⟨A, AN, E, B⟩ := rtBasis_exists h [tf] (by simpa using hl) (by simpa using hok)
  rw [g2, z2]
  refine ⟨_, B.result1 h num g z z1 z3, ?_⟩
  intro k hk
  have hk0 : k = 0 := by simpa using hk
  subst hk0
  obtain ⟨r1, r2⟩ := rowOf_result ctx.n ctx.l num (rtR1 ctx [tf].length num A E g) (rtRN1 ctx [tf].length num AN E g) (k := 0) (by omega)
  rw [r1, r2]
  -- the secrets
  have e1 : ∀ j, rtR1 ctx [tf].length num A E g 0 j = rtR ctx [tf].length num A (fun m => C (rtPsi ctx.n E 0 0 (g m))) 0 j := by
    intro j
    simp [rtR1, rtR]
  have e2 : ∀ j, rtRN1 ctx [tf].length num AN E g 0 j = rtRN ctx [tf].length num AN (fun m => C (rtPsi ctx.n E 0 0 (g m))) 0 j := by
    intro j
    simp [rtRN1, rtRN]
  have hlen := hok.len
  unfold Combination.len at hlen
  have ho := hok.oldLen
  have hn := hok.newLen
  have s1 : ∀ j, tf.oldPos.map (fun x => (rtRN1 ctx [tf].length num AN E g 0 j).eval x) =
      (List.range tf.oldPos.length).map fun c => rtPsi ctx.n E 0 0 (g (c * num + j)) := by
    intro j
    apply List.ext_getElem (by simp)
    intro m h1 h2
    have hm : m < tf.oldPos.length := by simpa using h1
    simp only [List.getElem_map, List.getElem_range, e2]
    have := B.evalRN (num := num) (fun m => C (rtPsi ctx.n E 0 0 (g m))) hk j (m := m) (by omega) (by simp; omega)
    simp only [List.getElem_cons_zero] at this
    rw [List.getElem_append_left hm] at this
    rw [this, Ctx.idxN, if_pos (by omega), eval_C]
  have s2 : ∀ j, tf.newPos.map (fun x => (rtR1 ctx [tf].length num A E g 0 j).eval x) =
      tf.f.map.map fun c => rtPsi ctx.n E 0 0 (g (c * num + j)) := by
    intro j
    apply List.ext_getElem (by simp [hlen])
    intro m h1 h2
    have hm : m < tf.newPos.length := by simpa using h1
    have hmf : m < tf.f.map.length := by omega
    have hmi := hok.idx _ (List.getElem_mem hmf)
    have hbase : tf.base m = tf.f.map[m] := by
      unfold SharingTransform.base
      rw [if_pos hm, List.getD_eq_getElem?_getD, List.getElem?_eq_getElem hmf, Option.getD_some]
    simp only [List.getElem_map, e1]
    have := B.evalR (num := num) (fun m => C (rtPsi ctx.n E 0 0 (g m))) hk j (m := m) (by omega) (by simp; omega)
      (by simp only [List.getElem_cons_zero]; omega)
    simp only [List.getElem_cons_zero] at this
    rw [List.getElem_append_left hm, hbase] at this
    rw [this, eval_C]
  refine ⟨tabSecrets tf.oldPos num (rtRN1 ctx [tf].length num AN E g 0), tabSecrets tf.newPos num (rtR1 ctx [tf].length num A E g 0),
    vecSharing_of_tab _ _ _ _ _ fun j _ => B.degRN1 num g 0 j, ?_, vecSharing_of_tab _ _ _ _ _ fun j _ => B.degR1 num g 0 j⟩
  simp only [List.getElem_cons_zero]
  unfold tabSecrets
  rw [List.mapM_map]
  apply mapM_range_some
  intro j hj
  simp only [Function.comp]
  rw [s1, s2, apply_map]
  have : tf.f.apply (List.range tf.oldPos.length) = some tf.f.map := by
    unfold Combination.apply
    have := mapM_some_map (fun i => (List.range tf.oldPos.length)[i]?) id tf.f.map (by
      intro i hi
      have := hok.idx i hi
      simp [this])
    simpa using this
  rw [this]
  rfl

/-- Two transformations between the first two default positions: leaving two secrets as they are, and swapping them. -/
def twoTfs (ctx : Ctx F) : List (SharingTransform F) :=
  [⟨defaultPos ctx.n 2, defaultPos ctx.n 2, ⟨[0, 1]⟩⟩, ⟨defaultPos ctx.n 2, defaultPos ctx.n 2, ⟨[1, 0]⟩⟩]

theorem twoTfs_ok {ctx : Ctx F} (h : ctx.Good) (hl : 2 ≤ ctx.l) : ∀ tf ∈ twoTfs ctx, tf.Ok ctx := by
  have hf := h.fit
  have hg : GoodPos ctx.n (defaultPos ctx.n 2 : List F) := defaultPos_good (by omega)
  intro tf htf
  simp only [twoTfs, List.mem_cons, List.not_mem_nil, or_false] at htf
  rcases htf with rfl | rfl
  · exact ⟨hg, hg, by simpa [defaultPos] using hl, by simpa [defaultPos] using hl, by simp [defaultPos, Combination.len], by simp [defaultPos]⟩
  · exact ⟨hg, hg, by simpa [defaultPos] using hl, by simpa [defaultPos] using hl, by simp [defaultPos, Combination.len], by simp [defaultPos]⟩

/-- An encoding polynomial has exactly degree `l`. -/
theorem rtE_natDegree {ctx : Ctx F} (h : ctx.Good) {tfs : List (SharingTransform F)} {A AN : Nat → Nat → F[X]} {E : Nat → F[X]}
    (B : RtBasis ctx tfs A AN E) (h0 : ∀ k < ctx.l, (E k).eval (ofU32 0) = 0) {k : Nat} (hk : k < ctx.l) : (E k).natDegree = ctx.l := by
  have hf := h.fit
  have hn := h.posN
  have hle : (E k).natDegree ≤ ctx.l := by
    have := B.degE k (by omega)
    rw [degree_lt_iff_coeff_zero] at this
    rw [natDegree_le_iff_coeff_eq_zero]
    intro m hm
    exact this m (by omega)
  have hne : E k ≠ 0 := by
    intro e
    have := B.evalE k hk k hk
    rw [e, if_pos rfl] at this
    simp at this
  refine le_antisymm hle ?_
  by_contra hlt
  push Not at hlt
  refine hne (eq_zero_of_natDegree_lt_card_of_eval_eq_zero' (E k)
    (insert (ofU32 0) (((Finset.range ctx.l).erase k).image fun i => (ofU32 (ctx.n + i) : F))) ?_ ?_)
  · intro x hx
    rcases Finset.mem_insert.1 hx with rfl | hx
    · exact h0 k hk
    · obtain ⟨i, hi, rfl⟩ := Finset.mem_image.1 hx
      obtain ⟨hi1, hi2⟩ := Finset.mem_erase.1 hi
      rw [B.evalE i (Finset.mem_range.1 hi2) k hk, if_neg hi1]
  · rw [Finset.card_insert_of_notMem, Finset.card_image_of_injOn, Finset.card_erase_of_mem (Finset.mem_range.2 hk), Finset.card_range]
    · omega
    · intro a ha b hb hab
      have ha := Finset.mem_range.1 (Finset.mem_erase.1 ha).2
      have hb := Finset.mem_range.1 (Finset.mem_erase.1 hb).2
      have := CodeField.ofU32_inj _ _ (by omega) (by omega) hab
      omega
    · intro hm
      obtain ⟨i, hi, e⟩ := Finset.mem_image.1 hm
      have hi := Finset.mem_range.1 (Finset.mem_erase.1 hi).2
      have := CodeField.ofU32_inj _ _ (by omega) (by omega) e
      omega

/-- C71. With at least two secrets per sharing and fewer than `t + 2l` parties (which nothing checks): whatever the number of parties, the threshold, the
packing parameter and the field are, there are two transformations and random sharings for which `randtrans` succeeds with sharings which are not
correlated. -/
theorem C71_general_false (ctx : Ctx F) (h : ctx.Good) (hl : 2 ≤ ctx.l) (hd : ctx.n < ctx.t + 2 * ctx.l) : ¬ RandtransOk ctx (twoTfs ctx) := by
  intro hall
  have hle := h.le
  have hf := h.fit
  have hn := h.posN
  let g : Nat → F[X] := fun m => if m = 1 then X ^ (ctx.n - ctx.l) else 0
  have hg : ∀ m, (g m).degree < (ctx.t + ctx.l : Nat) := by
    intro m
    simp only [g]
    split_ifs
    · rw [degree_X_pow]; exact_mod_cast (by omega : ctx.n - ctx.l < ctx.t + ctx.l)
    · rw [degree_zero]; exact WithBot.bot_lt_coe _
  obtain ⟨A, AN, E, B, h0⟩ := rtBasis_exists0 h (twoTfs ctx) (by simpa [twoTfs] using hl) (twoTfs_ok h hl)
  have hS : (tabSecrets (defaultPos ctx.n ctx.l) ((ctx.n + ctx.t) * 1) g).length = (ctx.n + ctx.t) * 1 := by simp [tabSecrets]
  have hz : VecZero ctx.n ctx.n (defaultPos ctx.n ctx.l : List F) (2 * ctx.n * 1) (tabShares ctx.n (2 * ctx.n * 1) fun _ => 0) := by
    have := vecSharing_of_tab ctx.n ctx.n (defaultPos ctx.n ctx.l : List F) (2 * ctx.n * 1) (fun _ => 0)
      (fun _ _ => by rw [degree_zero]; exact WithBot.bot_lt_coe _)
    unfold VecZero
    have e : tabSecrets (defaultPos ctx.n ctx.l : List F) (2 * ctx.n * 1) (fun _ => 0) =
        List.replicate (2 * ctx.n * 1) (List.replicate (defaultPos ctx.n ctx.l : List F).length 0) := by
      simp [tabSecrets, List.map_const']
    rwa [e] at this
  obtain ⟨outs, ho, hc⟩ := hall 1 _ _ _ hS (vecSharing_of_tab _ _ _ _ g fun j _ => hg j) hz
  rw [B.result1 h 1 g (fun _ => 0) (fun _ _ => by rw [degree_zero]; exact WithBot.bot_lt_coe _) (fun _ _ _ _ => by simp)] at ho
  have ho := Option.some.inj ho
  subst ho
  obtain ⟨R, R', c1, c2, c3⟩ := hc 0 (by simp [twoTfs])
  obtain ⟨r1, r2⟩ := rowOf_result ctx.n ctx.l 1 (rtR1 ctx (twoTfs ctx).length 1 A E g) (rtRN1 ctx (twoTfs ctx).length 1 AN E g) (k := 0) (by omega)
  rw [r2] at c1
  rw [r1] at c3
  have u1 := vecSharing_unique (by omega) le_rfl hn c1 (vecSharing_of_tab _ _ _ _ _ fun j _ => B.degRN1 1 g 0 j)
  have u2 := vecSharing_unique (by omega) hle hn c3 (vecSharing_of_tab _ _ _ _ _ fun j _ => B.degR1 1 g 0 j)
  -- the first secrets
  have hp : ∀ k (hk : k < (twoTfs ctx).length), (twoTfs ctx)[k].oldPos = defaultPos ctx.n 2 ∧ (twoTfs ctx)[k].newPos = defaultPos ctx.n 2 := by
    intro k hk
    have hk : k < 2 := by simpa [twoTfs] using hk
    interval_cases k <;> simp [twoTfs]
  have v1 : (rtRN1 ctx (twoTfs ctx).length 1 AN E g 0 0).eval (ofU32 ctx.n) = 0 := by
    have ha : ∀ k' < 2, ∀ c < ctx.n, (AN k' c).eval (ofU32 ctx.n : F) = if 0 = c then 1 else 0 := by
      intro k' hk' c hc
      have := B.evalAN k' (by simpa [twoTfs] using hk') c hc 0 (by omega) (by rw [List.length_append, sharePos_length]; omega)
      simp only [(hp k' (by simpa [twoTfs] using hk')).1] at this
      simpa [defaultPos, List.range_succ] using this
    unfold rtRN1
    rw [eval_finsetSum]
    refine Finset.sum_eq_zero fun c hc => ?_
    rw [eval_finsetSum]
    refine Finset.sum_eq_zero fun k' hk' => ?_
    rw [eval_mul, eval_C, ha k' (by simpa [twoTfs] using hk') c (Finset.mem_range.1 hc)]
    split_ifs with e
    · subst e
      have hi : ctx.idxN 0 = 0 := by unfold Ctx.idxN; rw [if_pos (by omega)]
      have : g (ctx.idxN 0 * 1 + 0) = 0 := by simp [g, hi]
      rw [this]
      simp [rtPsi, reduceZ]
    · simp
  have v2 : (rtR1 ctx (twoTfs ctx).length 1 A E g 0 0).eval (ofU32 ctx.n) = rtPsi ctx.n E 0 1 (X ^ (ctx.n - ctx.l)) := by
    have ha : ∀ k' < 2, ∀ c < ctx.t + ctx.l, (A k' c).eval (ofU32 ctx.n : F) = if k' = c then 1 else 0 := by
      intro k' hk' c hc
      have := B.evalA k' (by simpa [twoTfs] using hk') c hc 0 (by omega) (by rw [List.length_append, sharePos_length]; omega)
      simp only [(hp k' (by simpa [twoTfs] using hk')).2] at this
      have hb : ((twoTfs ctx)[k']'(by simpa [twoTfs] using hk')).base 0 = k' := by
        interval_cases k' <;> simp [twoTfs, SharingTransform.base, defaultPos]
      rw [hb] at this
      simpa [defaultPos, List.range_succ] using this
    unfold rtR1
    rw [eval_finsetSum, Finset.sum_eq_single 1]
    · rw [eval_finsetSum, Finset.sum_eq_single 1]
      · rw [eval_mul, eval_C, ha 1 (by omega) 1 (by omega), if_pos rfl, mul_one]
        simp [g]
      · intro k' hk' hne
        rw [eval_mul, eval_C, ha k' (by simpa [twoTfs] using hk') 1 (by omega), if_neg hne, mul_zero]
      · simp [twoTfs]
    · intro c _ hne
      rw [eval_finsetSum]
      refine Finset.sum_eq_zero fun k' _ => ?_
      have : g (c * 1 + 0) = 0 := by simp [g, hne]
      rw [this]
      simp [rtPsi, reduceZ]
    · intro hm
      exact absurd (Finset.mem_range.2 (by omega)) hm
  have v3 : rtPsi ctx.n E 0 1 (X ^ (ctx.n - ctx.l)) ≠ 0 := by
    have hdeg := rtE_natDegree h B h0 (k := 1) (by omega)
    have hne : E 1 ≠ 0 := by
      intro e
      rw [e] at hdeg
      simp at hdeg
      omega
    have hnd : (E 1 * X ^ (ctx.n - ctx.l)).natDegree = ctx.n := by
      rw [natDegree_mul hne (pow_ne_zero _ X_ne_zero), hdeg, natDegree_X_pow]
      omega
    unfold rtPsi
    have hE := B.evalE 0 (by omega) 1 (by omega)
    rw [reduceZ_top hnd, eval_sub, eval_mul, hE, if_neg (by omega), zero_mul, zero_sub, eval_mul, eval_C, neg_ne_zero]
    refine mul_ne_zero (leadingCoeff_ne_zero.2 (mul_ne_zero hne (pow_ne_zero _ X_ne_zero))) ?_
    exact shareZ_eval_ne (by omega) (by omega)
  apply v3
  rw [← v2, ← v1]
  have hR : R = R' := by
    have e : ∀ a b : F, Combination.apply ⟨[0, 1]⟩ [a, b] = some [a, b] := fun a b => rfl
    rw [u1] at c2 ⊢
    simp only [tabSecrets, twoTfs, List.getElem_cons_zero, defaultPos, List.range_one, List.map_cons, List.map_nil, List.range_succ, List.range_zero,
      List.nil_append, List.cons_append, List.mapM_cons, List.mapM_nil, e] at c2 ⊢
    simpa using c2
  rw [u1, u2] at hR
  simp only [tabSecrets, twoTfs, List.getElem_cons_zero, defaultPos, List.range_one, List.map_cons, List.map_nil, List.range_succ, List.range_zero,
    List.nil_append, List.cons_append, List.cons.injEq, Nat.add_zero] at hR
  simpa [twoTfs] using hR.1.1.symm

/-- C71. Exactly when `randtrans` works for all batches of transformations: if there are at least `t + 2l` parties, or only one secret per sharing. -/
theorem C71_iff (ctx : Ctx F) (h : ctx.Good) :
    (∀ tfs : List (SharingTransform F), tfs.length ≤ ctx.l → (∀ tf ∈ tfs, tf.Ok ctx) → RandtransOk ctx tfs) ↔ ctx.t + 2 * ctx.l ≤ ctx.n ∨ ctx.l = 1 := by
  have hl := h.posL
  constructor
  · intro hall
    by_contra hc
    exact C71_general_false ctx h (by omega) (by omega) (hall (twoTfs ctx) (by simp [twoTfs]; omega) (twoTfs_ok h (by omega)))
  · rintro (hd | h1) tfs hK hok
    · intro num S randoms zeros hS hr hz
      obtain ⟨outs, ho, hx⟩ := C44_randtrans ctx h hd tfs hK hok num S randoms zeros hS hr hz
      refine ⟨outs, ho, fun k hk => ?_⟩
      obtain ⟨a, R', b, c⟩ := hx k hk
      exact ⟨_, R', a, b, c⟩
    · match tfs, hK, hok with
      | [], _, _ =>
        intro num S randoms zeros hS hr hz
        obtain ⟨outs, ho⟩ := C71_succeeds ctx h [] (by simp) (by simp) num S randoms zeros hS hr hz
        exact ⟨outs, ho, fun k hk => absurd hk (by simp)⟩
      | [tf], _, hok => exact C71_single_partial ctx h tf (hok tf (by simp))
      | _ :: _ :: _, hK, _ => simp at hK; omega

/-- Four parties, threshold 1, two secrets: a context exists, `t + 2l = 5`, and there are batches which go wrong. -/
example : ∃ ctx : Ctx (GF 4), ctx.Good ∧ ctx.n = 4 ∧ ctx.t = 1 ∧ ctx.l = 2 ∧ ¬ RandtransOk ctx (twoTfs ctx) := by
  have h1 : ∃ pss : PackedSharing (GF 4), PackedSharing.new (1 + 2 - 1) 4 (defaultPos 4 2) = some pss := by
    unfold PackedSharing.new; exact ⟨_, rfl⟩
  have h2 : ∃ pss : PackedSharing (GF 4), PackedSharing.new (4 - 1) 4 (defaultPos 4 2) = some pss := by
    unfold PackedSharing.new; exact ⟨_, rfl⟩
  obtain ⟨p, hp⟩ := h1
  obtain ⟨q, hq⟩ := h2
  have hg : Ctx.Good (⟨4, 1, 2, p, q⟩ : Ctx (GF 4)) := ⟨hp, hq, by norm_num, by show 4 + 2 ≤ 2 ^ 4; norm_num⟩
  exact ⟨_, hg, rfl, rfl, rfl, C71_general_false _ hg (by norm_num) (by norm_num)⟩

end Verif.Props
