import Verif.PrivacyRtLemmas
import Verif.SelectLemmas
import Verif.Props.Core

/-!
# C88: the masks of the transformations

`trans` hides a party's share of its input by adding its share of the mask `random_n`, and sends the sum to the leader.
The masks come from `randtrans`.
-/

open Polynomial

namespace Verif.Props

open CodeField (ofU32)

variable {F : Type} [CodeField F] [DecidableEq F]

/-! ### The defect -/

/-- C88. The code uses one batch of random values for the masks at the old and at the new positions.  If a transformation
has fewer than `l` new positions, then for all coins the share of party `i` of the mask at the new positions is the share of
party `newPos.length + i - oldPos.length` of the mask at the old positions. -/
theorem C88_overlap (ctx : Ctx F) (h : ctx.Good) (hd : ctx.t + 2 * ctx.l ≤ ctx.n) (tfs : List (SharingTransform F))
    (hK : tfs.length ≤ ctx.l) (hok : ∀ tf ∈ tfs, tf.Ok ctx) (num : Nat)
    (ω : Coins ctx ((ctx.n + ctx.t) * num) (2 * ctx.n * num)) :
    ∃ outs, rtResult ctx tfs ω = some outs ∧ ∀ (k : Nat) (tf : SharingTransform F), tfs[k]? = some tf →
      ∀ i, tf.newPos.length + i < ctx.l → tf.oldPos.length ≤ tf.newPos.length + i →
        (outs.getD i ([], [])).1.getD k [] = (outs.getD (tf.newPos.length + i - tf.oldPos.length) ([], [])).2.getD k [] := by
  obtain ⟨A, AN, E, B⟩ := rtBasis_exists h tfs hK hok
  refine ⟨_, rtResult_eq B h hd hK ω, ?_⟩
  intro k tf hk i hi ho
  obtain ⟨hkl, rfl⟩ := List.getElem?_eq_some_iff.1 hk
  have hle := h.le
  rw [getD_tab _ _ _ (by omega), getD_tab _ _ _ (by omega), getD_tab _ _ _ (by omega), getD_tab _ _ _ (by omega)]
  apply List.map_congr_left
  intro j _
  rw [rt_overlap B _ hkl j (by omega) hi]
  congr 1
  rw [List.getD_eq_getElem?_getD, List.getElem?_append_right ho]
  unfold sharePos
  rw [getElem?_tab _ _ _ (by omega), Option.getD_some]

/-- C88. So if party `i` is corrupted, the leader's message from the honest party
`newPos.length + i - oldPos.length` gives this party's shares away. -/
theorem C88_share_leak (ctx : Ctx F) (h : ctx.Good) (hd : ctx.t + 2 * ctx.l ≤ ctx.n) (tfs : List (SharingTransform F))
    (hK : tfs.length ≤ ctx.l) (hok : ∀ tf ∈ tfs, tf.Ok ctx) (num : Nat)
    (ω : Coins ctx ((ctx.n + ctx.t) * num) (2 * ctx.n * num)) :
    ∃ outs, rtResult ctx tfs ω = some outs ∧ ∀ (k : Nat) (tf : SharingTransform F), tfs[k]? = some tf →
      ∀ i, tf.newPos.length + i < ctx.l → tf.oldPos.length ≤ tf.newPos.length + i → ∀ vx : List F, vx.length = num →
        ∃ msg, transSend vx ((outs.getD (tf.newPos.length + i - tf.oldPos.length) ([], [])).2.getD k []) = some msg ∧
          vsub msg ((outs.getD i ([], [])).1.getD k []) = vx := by
  obtain ⟨outs, h1, h2⟩ := C88_overlap ctx h hd tfs hK hok num ω
  refine ⟨outs, h1, ?_⟩
  intro k tf hk i hi ho vx hvx
  rw [h2 k tf hk i hi ho]
  have hlen : ((outs.getD (tf.newPos.length + i - tf.oldPos.length) ([], [])).2.getD k []).length = num := by
    obtain ⟨A, AN, E, B⟩ := rtBasis_exists h tfs hK hok
    rw [rtResult_eq B h hd hK ω, Option.some.injEq] at h1
    have hkl := (List.getElem?_eq_some_iff.1 hk).1
    have hle := h.le
    rw [← h1, getD_tab _ _ _ (by omega), getD_tab _ _ _ (by omega)]
    simp
  generalize ((outs.getD (tf.newPos.length + i - tf.oldPos.length) ([], [])).2.getD k []) = r at *
  refine ⟨vadd r vx, by unfold transSend; rw [if_pos (by omega)], ?_⟩
  unfold vadd vsub
  apply List.ext_getElem (by simp; omega)
  intro j h1 h2
  simp

/-! ### The masks are hidden exactly for aligned transformations -/

/-- C88 (partial: only for transformations with as many old as new positions, or `l` new positions).  `randtrans` hides the
masks: for every coalition of at most `t` parties, every change of the other parties' shares of the masks is a
bijection of the coins which changes neither the shares of the coalition nor the messages it gets. -/
theorem C88_masks_partial (ctx : Ctx F) (h : ctx.Good) (hd : ctx.t + 2 * ctx.l ≤ ctx.n) (tfs : List (SharingTransform F))
    (hK : tfs.length ≤ ctx.l) (hok : ∀ tf ∈ tfs, tf.Ok ctx) (hal : ∀ tf ∈ tfs, tf.Aligned ctx.l) (num : Nat) :
    RtHides ctx tfs num := by
  intro Cs hC d hdC
  obtain ⟨A, AN, E, B⟩ := rtBasis_exists h tfs hK hok
  have hfit := h.fit
  have hle := h.le
  have hn : ctx.n ≤ CodeField.order F := by omega
  set δ : Nat → Nat → F[X] := fun k j => sharePoly ctx.n (d k j) with hδ
  have h1 : ∀ k < tfs.length, ∀ j < num, (δ k j).degree < ctx.n := fun k _ j _ => sharePoly_degree hn _
  have h2 : ∀ k < tfs.length, ∀ j < num, ∀ p ∈ Cs, (δ k j).eval (ofU32 p) = 0 := fun k _ j _ p hp => by
    rw [hδ, sharePoly_eval hn _ (hC.parties p hp), hdC k j p hp]
  set σ : Nat → Nat → F[X] := fun k j => trShift ctx Cs (tfs.getD k ⟨[], [], ⟨[]⟩⟩) (δ k j) with hσ
  have h3 : ∀ (k : Nat) (hk : k < tfs.length), ∀ j < num, NewShift ctx Cs tfs[k] (δ k j) (σ k j) := fun k hk j hj => by
    rw [hσ]
    simp only [List.getD_eq_getElem _ _ hk]
    exact trShift_fits h hC (hok _ (List.getElem_mem hk)) (hal _ (List.getElem_mem hk)) (h2 k hk j hj)
  have hγ : ∀ m < (ctx.n + ctx.t) * num, (rtShift ctx Cs tfs num δ σ m).degree < (ctx.t + ctx.l : Nat) :=
    fun m _ => rtShift_degree h hC δ σ m
  have hζ : ∀ m < 2 * ctx.n * num, (rtShiftZ ctx Cs tfs A AN E num δ σ m).degree < ctx.n ∧
      ∀ v ∈ defaultPos ctx.n ctx.l, (rtShiftZ ctx Cs tfs A AN E num δ σ m).eval v = 0 := by
    intro m hm
    have hnum : 0 < num := by
      rcases Nat.eq_zero_or_pos num with h0 | h0
      · rw [h0] at hm; omega
      · exact h0
    exact rtShiftZ_zero h hC B hK hok δ σ hd hnum h1 h2 h3 m
  refine ⟨Coins.translate _ _ hγ hζ, fun ω => ?_⟩
  have eg : ∀ m < (ctx.n + ctx.t) * num, (Coins.translate _ _ hγ hζ ω).g m = ω.g m + rtShift ctx Cs tfs num δ σ m :=
    fun m hm => Coins.shift_g ω _ _ hγ hζ hm
  have ez : ∀ m < 2 * ctx.n * num, (Coins.translate _ _ hγ hζ ω).z m = ω.z m + rtShiftZ ctx Cs tfs A AN E num δ σ m :=
    fun m hm => Coins.shift_z ω _ _ hγ hζ hm
  have ag : Coins.Agree Cs ω (Coins.translate _ _ hγ hζ ω) := Coins.shift_agree ω _ _ hγ hζ _
    (fun m _ p hp => rtShift_share h hC δ σ m hp) (fun m _ p hp => rtShiftZ_share h hC δ σ m hp)
  generalize Coins.translate _ _ hγ hζ ω = ω' at ag eg ez ⊢
  refine ⟨ag, ?_, ?_⟩
  · intro p hp q hq
    have hqn := hC.parties q hq
    refine ⟨_, _, _, rtMessages_eq B h ω hp, rtMessages_eq B h _ hp, getElem?_tab _ _ _ hqn, ?_⟩
    rw [getElem?_tab _ _ _ hqn, Option.some.injEq]
    congr 1
    · apply List.map_congr_left
      intro j hj
      have hj := List.mem_range.1 hj
      rw [rtQ_congr eg ez hle hqn hj, rtQ_same δ σ _ _ hq hj]
    · apply List.map_congr_left
      intro j hj
      have hj := List.mem_range.1 hj
      rw [rtQN_congr eg ez hqn hj, rtQN_same hC δ σ _ _ hq hj]
  · refine ⟨_, _, rtResult_eq B h hd hK ω, rtResult_eq B h hd hK _, by simp, by simp, ?_⟩
    intro p hp k hk j hj
    rw [getD_tab _ _ _ hp, getD_tab _ _ _ hp, entry2_tab _ _ _ (by omega) hj, entry2_tab _ _ _ (by omega) hj,
      rtRN_congr eg hj, rtRN_add, eval_add, rtRN_shift h hC B hK hok δ σ h1 hk hj, hδ, sharePoly_eval hn _ hp]

/-- C88. If there may be a corrupted party, this is so only for these transformations. -/
theorem C88_masks_iff (ctx : Ctx F) (h : ctx.Good) (hd : ctx.t + 2 * ctx.l ≤ ctx.n) (ht : 1 ≤ ctx.t)
    (tfs : List (SharingTransform F)) (hK : tfs.length ≤ ctx.l) (hok : ∀ tf ∈ tfs, tf.Ok ctx) (num : Nat) (hnum : 1 ≤ num) :
    RtHides ctx tfs num ↔ ∀ tf ∈ tfs, tf.Aligned ctx.l := by
  refine ⟨fun hh => ?_, fun hal => C88_masks_partial ctx h hd tfs hK hok hal num⟩
  by_contra hne
  push Not at hne
  obtain ⟨tf, htf, hna⟩ := hne
  obtain ⟨k, hk, rfl⟩ := List.mem_iff_getElem.1 htf
  obtain ⟨A, AN, E, B⟩ := rtBasis_exists h tfs hK hok
  have ok := hok _ (List.getElem_mem hk)
  have hle := h.le
  have hfit := h.fit
  have hl := h.posL
  have hn : ctx.n ≤ CodeField.order F := by omega
  unfold SharingTransform.Aligned at hna
  push Not at hna
  have hm : tfs[k].newPos.length < ctx.l := lt_of_le_of_ne ok.newLen hna.2
  have hC : Coalition ctx {0} := ⟨fun p hp => by rw [Finset.mem_singleton.1 hp]; omega, by simpa using ht⟩
  obtain ⟨e, he⟩ := hh {0} hC (fun _ _ p => ofU32 p - ofU32 0) (fun _ _ p hp => by
    rw [Finset.mem_singleton.1 hp, sub_self])
  -- all coins zero
  let ω : Coins ctx ((ctx.n + ctx.t) * num) (2 * ctx.n * num) :=
    ⟨fun _ => ⟨0, by rw [degree_zero]; exact WithBot.bot_lt_coe _⟩,
      fun _ => ⟨0, by rw [degree_zero]; exact WithBot.bot_lt_coe _, fun _ _ => eval_zero⟩⟩
  obtain ⟨_, hmsg, o, o', ho, ho', _, _, hres⟩ := he ω
  rw [rtResult_eq B h hd hK, Option.some.injEq] at ho ho'
  -- party 0 gets the same messages, so the same shares
  have hQ : rtQ ctx tfs.length num A E (e ω).g (e ω).z 0 0 = rtQ ctx tfs.length num A E ω.g ω.z 0 0 := by
    have hdeg := fun w : Coins ctx ((ctx.n + ctx.t) * num) (2 * ctx.n * num) =>
      B.degQ h hd hK (fun m hm => w.g_degree hm) (fun m hm => w.z_degree hm) (r := 0) (j := 0) (by omega) (by omega)
    refine poly_eq_of_places (hdeg _) (hdeg _) (sharePos ctx.n) (sharePos_nodup hn) (by simp [sharePos_length]) fun p hp _ => ?_
    have hp : p < ctx.n := by simpa [sharePos_length] using hp
    obtain ⟨m, m', x, h1, h2, h3, h4⟩ := hmsg p hp 0 (by simp)
    rw [rtMessages_eq B h _ hp, Option.some.injEq] at h1 h2
    rw [← h1, getElem?_tab _ _ _ (by omega), Option.some.injEq] at h3
    rw [← h2, getElem?_tab _ _ _ (by omega), Option.some.injEq, ← h3] at h4
    have h5 := congrArg (fun l => l.getD 0 0) h4
    have : ∀ (f f' : Nat → F) , ((List.range num).map f ++ (List.range num).map f').getD 0 0 = f 0 := by
      intro f f'
      rw [List.getD_eq_getElem?_getD, List.getElem?_append_left (by simp; omega), getElem?_tab _ _ _ (by omega),
        Option.getD_some]
    simp only [this] at h5
    simpa [sharePos] using h5
  have hR : (rtR ctx tfs.length num A (e ω).g k 0).eval (ofU32 0) = (rtR ctx tfs.length num A ω.g k 0).eval (ofU32 0) := by
    have hz : ∀ w : Coins ctx ((ctx.n + ctx.t) * num) (2 * ctx.n * num),
        (w.z ((ctx.n + 0) * num + 0)).eval (ofU32 (ctx.n + k)) = 0 := fun w => by
      refine w.z_zero (rt_idxz (by omega) (by omega)) _ (List.mem_map.2 ⟨k, ?_, rfl⟩)
      exact List.mem_range.2 (by omega)
    rw [← B.evalQ hK _ _ 0 (by omega) (hz _), ← B.evalQ hK _ _ 0 (by omega) (hz _), hQ]
  -- but the mask changes there
  have hRN : rtRN ctx tfs.length num AN (e ω).g k 0 = rtRN ctx tfs.length num AN ω.g k 0 + (X - C (ofU32 0)) := by
    refine poly_eq_of_places (B.degRN _ _ _ _) (degree_add_lt (B.degRN _ _ _ _) ?_) (sharePos ctx.n) (sharePos_nodup hn)
      (by simp [sharePos_length]) fun p hp _ => ?_
    · rw [degree_X_sub_C]
      exact_mod_cast (show 1 < ctx.n by omega)
    · have hp : p < ctx.n := by simpa [sharePos_length] using hp
      have := hres p hp k hk 0 (by omega)
      rw [← ho, ← ho', getD_tab _ _ _ hp, getD_tab _ _ _ hp, entry2_tab _ _ _ (by omega) (by omega),
        entry2_tab _ _ _ (by omega) (by omega)] at this
      simpa [sharePos] using this
  rw [rt_overlap B _ hk 0 (by omega) (i := 0) (by omega), rt_overlap B _ hk 0 (by omega) (i := 0) (by omega), hRN, eval_add,
    add_eq_left, eval_sub, eval_X, eval_C, sub_eq_zero] at hR
  rw [Nat.add_zero, List.getD_eq_getElem?_getD] at hR
  by_cases hlt : tfs[k].newPos.length < tfs[k].oldPos.length
  · rw [List.getElem?_append_left hlt, List.getElem?_eq_getElem hlt, Option.getD_some] at hR
    exact ok.old.disj 0 (by omega) (hR ▸ List.getElem_mem hlt)
  · rw [List.getElem?_append_right (by omega)] at hR
    unfold sharePos at hR
    rw [getElem?_tab _ _ _ (by omega), Option.getD_some] at hR
    have := CodeField.ofU32_inj _ _ (by omega) (by omega) hR
    omega

/-! ### The example -/

/-- 7 parties, threshold 1, three secrets, over GF(16). -/
noncomputable def exCtx3 : Option (Ctx (GF 4)) :=
  (PackedSharing.new (1 + 3 - 1) 7 (defaultPos 7 3)).bind fun pss =>
  (PackedSharing.new (7 - 1) 7 (defaultPos 7 3)).map fun pssN => ⟨7, 1, 3, pss, pssN⟩

theorem exCtx3_good : ∃ ctx, exCtx3 = some ctx ∧ ctx.Good ∧ ctx.n = 7 ∧ ctx.t = 1 ∧ ctx.l = 3 := by
  have h1 : ∃ pss : PackedSharing (GF 4), PackedSharing.new (1 + 3 - 1) 7 (defaultPos 7 3) = some pss := by
    unfold PackedSharing.new; exact ⟨_, rfl⟩
  have h2 : ∃ pss : PackedSharing (GF 4), PackedSharing.new (7 - 1) 7 (defaultPos 7 3) = some pss := by
    unfold PackedSharing.new; exact ⟨_, rfl⟩
  obtain ⟨p, hp⟩ := h1
  obtain ⟨q, hq⟩ := h2
  refine ⟨⟨7, 1, 3, p, q⟩, ?_, ⟨hp, hq, by norm_num, ?_⟩, rfl, rfl, rfl⟩
  · unfold exCtx3; rw [hp, hq]; rfl
  · show 7 + 3 ≤ 2 ^ 4
    norm_num

/-- Two `XOR` gates in a block for three: `w0 + w1` and `w0 + w2`. -/
def exCirc3 : PackedCircuit where
  gates := [.xor ⟨#v[[0, 0], [1, 2]], [3, 4]⟩]
  inputs := [[0, 1, 2]]
  outputs := [[3, 4]]
  numWires := 5
  gatesPerBlock := 3

theorem exCirc3_ok : exCirc3.Ok 3 := by
  constructor <;> decide

/-- C88. For the transformations which `garble` uses on this circuit the masks are not hidden, although circuit and
parameters are as they should be. -/
theorem C88_masks_false : ∃ (ctx : Ctx (GF 4)) (tfs : List (SharingTransform (GF 4))), ctx.Good ∧
    ctx.t + 2 * ctx.l ≤ ctx.n ∧ exCirc3.Ok ctx.l ∧ tfInp ctx.n ctx.l exCirc3 = some tfs ∧ tfs.length ≤ ctx.l ∧
    (∀ tf ∈ tfs, tf.Ok ctx) ∧ ∀ num, 1 ≤ num → ¬ RtHides ctx tfs num := by
  obtain ⟨ctx, _, hg, hn, ht, hl⟩ := exCtx3_good
  have ho : CodeField.order (GF 4) = 16 := by
    show 2 ^ 4 = 16
    norm_num
  obtain ⟨tr, h1, h2⟩ := tfInp_eq hg (c := exCirc3) (by rw [hl]; decide) (by
    rw [hn, hl]
    unfold WiresFit
    rw [ho]
    decide)
  have hlen : ((exCirc3.gates.flatMap PackedGate.inps).map tr).length ≤ ctx.l := by
    rw [hl, List.length_map]
    decide
  have hok : ∀ tf ∈ (exCirc3.gates.flatMap PackedGate.inps).map tr, tf.Ok ctx := by
    intro tf htf
    obtain ⟨ws, hws, rfl⟩ := List.mem_map.1 htf
    exact (h1 ws hws).ok
  refine ⟨ctx, _, hg, by omega, by rw [hl]; exact exCirc3_ok, h2, hlen, hok, ?_⟩
  intro num hnum hh
  rw [C88_masks_iff ctx hg (by omega) (by omega) _ hlen hok num hnum] at hh
  have h00 : [0, 0] ∈ exCirc3.gates.flatMap PackedGate.inps := by decide
  have h3 := hh _ (List.mem_map.2 ⟨[0, 0], h00, rfl⟩)
  unfold SharingTransform.Aligned at h3
  rw [(h1 _ h00).old, (h1 _ h00).new, wireToPos, List.length_map, List.length_take, defaultPos_length, hl,
    show (sortDedup [0, 0]).length = 1 by decide] at h3
  simp at h3

/-- The hypothesis of `C88_masks_partial` for a transformation of `garble`: all wires of the block are different. -/
example : ∃ (ctx : Ctx (GF 4)) (tf : SharingTransform (GF 4)), ctx.Good ∧ tf.Ok ctx ∧
    tf.oldPos = wireToPos ctx.n ctx.l (sortDedup [1, 2]) ∧ RtHides ctx [tf] 2 := by
  obtain ⟨ctx, _, hg, hn, ht, hl⟩ := exCtx3_good
  have ho : CodeField.order (GF 4) = 16 := by
    show 2 ^ 4 = 16
    norm_num
  obtain ⟨tf, _, h⟩ := tfInp_one hg (ws := [1, 2]) (by rw [hl]; decide) (by
    rw [hn, hl]
    unfold WiresFit
    rw [ho]
    decide)
  refine ⟨ctx, tf, hg, h.ok, h.old, C88_masks_partial ctx hg (by omega) [tf] (by simp; omega) (by simpa using h.ok) ?_ 2⟩
  intro tf' htf'
  rw [List.mem_singleton.1 htf']
  left
  rw [h.old, h.new, wireToPos, List.length_map, List.length_take, defaultPos_length, hl]
  decide

end Verif.Props
