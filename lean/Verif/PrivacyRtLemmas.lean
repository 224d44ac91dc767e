import Verif.PrivacyShift

/-!
# Coins as families of polynomials, and `randtrans` on them
-/

open Polynomial

namespace Verif

open CodeField (ofU32)

variable {F : Type} [CodeField F]

/-! ## Coins -/

/-- The random sharings, as a family over all numbers. -/
noncomputable def Coins.g {ctx : Ctx F} {nr nz : Nat} (ω : Coins ctx nr nz) (m : Nat) : F[X] :=
  if h : m < nr then (ω.rand ⟨m, h⟩).1 else 0

/-- The sharings of zero. -/
noncomputable def Coins.z {ctx : Ctx F} {nr nz : Nat} (ω : Coins ctx nr nz) (m : Nat) : F[X] :=
  if h : m < nz then (ω.zero ⟨m, h⟩).1 else 0

section
variable {ctx : Ctx F} {nr nz : Nat}

theorem Coins.g_degree (ω : Coins ctx nr nz) {m : Nat} (hm : m < nr) : (ω.g m).degree < (ctx.t + ctx.l : Nat) := by
  unfold Coins.g
  rw [dif_pos hm]
  exact (ω.rand _).2

theorem Coins.z_degree (ω : Coins ctx nr nz) {m : Nat} (hm : m < nz) : (ω.z m).degree < ctx.n := by
  unfold Coins.z
  rw [dif_pos hm]
  exact (ω.zero _).2.1

theorem Coins.z_zero (ω : Coins ctx nr nz) {m : Nat} (hm : m < nz) : ∀ v ∈ defaultPos ctx.n ctx.l, (ω.z m).eval v = 0 := by
  unfold Coins.z
  rw [dif_pos hm]
  exact (ω.zero _).2.2

theorem Coins.randoms_eq (ω : Coins ctx nr nz) (p : Nat) :
    ω.randoms p = (List.range nr).map fun m => (ω.g m).eval (ofU32 p) := by
  unfold Coins.randoms Coins.g
  apply List.ext_getElem (by simp)
  intro i h1 h2
  have : i < nr := by simpa using h1
  simp [this]

theorem Coins.zeros_eq (ω : Coins ctx nr nz) (p : Nat) :
    ω.zeros p = (List.range nz).map fun m => (ω.z m).eval (ofU32 p) := by
  unfold Coins.zeros Coins.z
  apply List.ext_getElem (by simp)
  intro i h1 h2
  have : i < nz := by simpa using h1
  simp [this]

theorem Coins.ext' {ω ω' : Coins ctx nr nz} (hg : ∀ m < nr, ω.g m = ω'.g m) (hz : ∀ m < nz, ω.z m = ω'.z m) : ω = ω' := by
  obtain ⟨r, z⟩ := ω
  obtain ⟨r', z'⟩ := ω'
  congr 1
  · funext i
    apply Subtype.ext
    have := hg i.1 i.2
    unfold Coins.g at this
    simpa using this
  · funext i
    apply Subtype.ext
    have := hz i.1 i.2
    unfold Coins.z at this
    simpa using this

/-- Adding polynomials to the coins. -/
noncomputable def Coins.shift (ω : Coins ctx nr nz) (γ ζ : Nat → F[X])
    (hγ : ∀ m < nr, (γ m).degree < (ctx.t + ctx.l : Nat))
    (hζ : ∀ m < nz, (ζ m).degree < ctx.n ∧ ∀ v ∈ defaultPos ctx.n ctx.l, (ζ m).eval v = 0) : Coins ctx nr nz where
  rand i := ⟨(ω.rand i).1 + γ i, degree_add_lt (ω.rand i).2 (hγ i i.2)⟩
  zero i := ⟨(ω.zero i).1 + ζ i, degree_add_lt (ω.zero i).2.1 (hζ i i.2).1, fun v hv => by
    rw [eval_add, (ω.zero i).2.2 v hv, (hζ i i.2).2 v hv, add_zero]⟩

variable (ω : Coins ctx nr nz) (γ ζ : Nat → F[X]) (hγ : ∀ m < nr, (γ m).degree < (ctx.t + ctx.l : Nat))
    (hζ : ∀ m < nz, (ζ m).degree < ctx.n ∧ ∀ v ∈ defaultPos ctx.n ctx.l, (ζ m).eval v = 0)

theorem Coins.shift_g {m : Nat} (hm : m < nr) : (ω.shift γ ζ hγ hζ).g m = ω.g m + γ m := by
  unfold Coins.shift Coins.g
  rw [dif_pos hm, dif_pos hm]

theorem Coins.shift_z {m : Nat} (hm : m < nz) : (ω.shift γ ζ hγ hζ).z m = ω.z m + ζ m := by
  unfold Coins.shift Coins.z
  rw [dif_pos hm, dif_pos hm]

theorem Coins.shift_agree (Cs : Finset Nat) (h1 : ∀ m < nr, ∀ p ∈ Cs, (γ m).eval (ofU32 p) = 0)
    (h2 : ∀ m < nz, ∀ p ∈ Cs, (ζ m).eval (ofU32 p) = 0) : Coins.Agree Cs ω (ω.shift γ ζ hγ hζ) := by
  intro p hp
  constructor
  · rw [Coins.randoms_eq, Coins.randoms_eq]
    apply List.map_congr_left
    intro m hm
    rw [Coins.shift_g ω γ ζ hγ hζ (List.mem_range.1 hm), eval_add, h1 m (List.mem_range.1 hm) p hp, add_zero]
  · rw [Coins.zeros_eq, Coins.zeros_eq]
    apply List.map_congr_left
    intro m hm
    rw [Coins.shift_z ω γ ζ hγ hζ (List.mem_range.1 hm), eval_add, h2 m (List.mem_range.1 hm) p hp, add_zero]

theorem neg_hγ (hγ : ∀ m < nr, (γ m).degree < (ctx.t + ctx.l : Nat)) :
    ∀ m < nr, ((fun m => -γ m) m).degree < (ctx.t + ctx.l : Nat) := fun m hm => by
  rw [degree_neg]; exact hγ m hm

theorem neg_hζ (hζ : ∀ m < nz, (ζ m).degree < ctx.n ∧ ∀ v ∈ defaultPos ctx.n ctx.l, (ζ m).eval v = 0) :
    ∀ m < nz, ((fun m => -ζ m) m).degree < ctx.n ∧ ∀ v ∈ defaultPos ctx.n ctx.l, ((fun m => -ζ m) m).eval v = 0 := fun m hm => by
  refine ⟨by rw [degree_neg]; exact (hζ m hm).1, fun v hv => ?_⟩
  simp only [eval_neg]
  rw [(hζ m hm).2 v hv, neg_zero]

/-- Adding fixed polynomials is a bijection. -/
noncomputable def Coins.translate : Coins ctx nr nz ≃ Coins ctx nr nz where
  toFun ω := ω.shift γ ζ hγ hζ
  invFun ω := ω.shift (fun m => -γ m) (fun m => -ζ m) (neg_hγ γ hγ) (neg_hζ ζ hζ)
  left_inv ω := by
    apply Coins.ext'
    · intro m hm
      rw [Coins.shift_g _ _ _ _ _ hm, Coins.shift_g _ _ _ _ _ hm, add_neg_cancel_right]
    · intro m hm
      rw [Coins.shift_z _ _ _ _ _ hm, Coins.shift_z _ _ _ _ _ hm, add_neg_cancel_right]
  right_inv ω := by
    apply Coins.ext'
    · intro m hm
      rw [Coins.shift_g _ _ _ _ _ hm, Coins.shift_g _ _ _ _ _ hm, neg_add_cancel_right]
    · intro m hm
      rw [Coins.shift_z _ _ _ _ _ hm, Coins.shift_z _ _ _ _ _ hm, neg_add_cancel_right]

end

/-! ## `randtrans` -/

variable [DecidableEq F] {ctx : Ctx F} {tfs : List (SharingTransform F)} {A AN : Nat → Nat → F[X]} {E : Nat → F[X]}

theorem rtMessages_eq (B : RtBasis ctx tfs A AN E) (h : ctx.Good) {num : Nat}
    (ω : Coins ctx ((ctx.n + ctx.t) * num) (2 * ctx.n * num)) {p : Nat} (hp : p < ctx.n) :
    rtMessages ctx tfs ω p = some ((List.range ctx.n).map fun r =>
          (List.range num).map (fun j => (rtQ ctx tfs.length num A E ω.g ω.z r j).eval (ofU32 p)) ++
          (List.range num).map (fun j => (rtQN ctx tfs.length num AN E ω.g ω.z r j).eval (ofU32 p))) := by
  unfold rtMessages
  rw [Coins.randoms_eq, Coins.zeros_eq]
  exact B.send h num ω.g ω.z hp

theorem rtResult_eq (B : RtBasis ctx tfs A AN E) (h : ctx.Good) (hd : ctx.t + 2 * ctx.l ≤ ctx.n) (hK : tfs.length ≤ ctx.l)
    {num : Nat} (ω : Coins ctx ((ctx.n + ctx.t) * num) (2 * ctx.n * num)) :
    rtResult ctx tfs ω = some ((List.range ctx.n).map fun r =>
          ((List.range ctx.l).map fun k => (List.range num).map fun j => (rtR ctx tfs.length num A ω.g k j).eval (ofU32 r),
           (List.range ctx.l).map fun k => (List.range num).map fun j => (rtRN ctx tfs.length num AN ω.g k j).eval (ofU32 r))) := by
  rw [← B.result h hd hK num ω.g ω.z (fun m hm => ω.g_degree hm) (fun m hm => ω.z_degree hm) fun m hm => ω.z_zero hm]
  unfold rtResult tabShares
  congr 1
  · apply List.map_congr_left
    intro p _
    exact ω.randoms_eq p
  · apply List.map_congr_left
    intro p _
    exact ω.zeros_eq p

omit [CodeField F] [DecidableEq F] in
theorem getD_tab {α : Type} (n : Nat) (f : Nat → α) (d : α) {p : Nat} (hp : p < n) : ((List.range n).map f).getD p d = f p := by
  rw [List.getD_eq_getElem?_getD, getElem?_tab _ _ _ hp, Option.getD_some]

omit [DecidableEq F] in
theorem entry2_tab (B C : Nat) (x : Nat → Nat → F) {k j : Nat} (hk : k < B) (hj : j < C) :
    entry2 ((List.range B).map fun k => (List.range C).map fun j => x k j) k j = x k j := by
  unfold entry2
  rw [getD_tab _ _ _ hk, getD_tab _ _ _ hj]

omit [DecidableEq F] in
/-- Families which agree where they are used give the same message polynomials. -/
theorem rtQ_congr {K num : Nat} {g g' z z' : Nat → F[X]} (hg : ∀ m < (ctx.n + ctx.t) * num, g m = g' m)
    (hz : ∀ m < 2 * ctx.n * num, z m = z' m) (hl : ctx.t + ctx.l ≤ ctx.n) {r j : Nat} (hr : r < ctx.n) (hj : j < num) :
    rtQ ctx K num A E g z r j = rtQ ctx K num A E g' z' r j := by
  unfold rtQ
  rw [hz _ (rt_idxz (by omega) hj)]
  congr 1
  apply Finset.sum_congr rfl
  intro c hc
  rw [hg _ (rt_idx (by omega) (Finset.mem_range.1 hc) hj)]

omit [DecidableEq F] in
theorem rtQN_congr {K num : Nat} {g g' z z' : Nat → F[X]} (hg : ∀ m < (ctx.n + ctx.t) * num, g m = g' m)
    (hz : ∀ m < 2 * ctx.n * num, z m = z' m) {r j : Nat} (hr : r < ctx.n) (hj : j < num) :
    rtQN ctx K num AN E g z r j = rtQN ctx K num AN E g' z' r j := by
  unfold rtQN
  rw [hz _ (rt_idxz (by omega) hj)]
  congr 1
  apply Finset.sum_congr rfl
  intro c hc
  rw [hg _ (rt_idxN (Finset.mem_range.1 hc) hj)]

omit [DecidableEq F] in
theorem rtR_congr {K num : Nat} {g g' : Nat → F[X]} (hg : ∀ m < (ctx.n + ctx.t) * num, g m = g' m)
    (hl : ctx.t + ctx.l ≤ ctx.n) {k j : Nat} (hj : j < num) : rtR ctx K num A g k j = rtR ctx K num A g' k j := by
  unfold rtR
  split
  · apply Finset.sum_congr rfl
    intro c hc
    rw [hg _ (rt_idx (by omega) (Finset.mem_range.1 hc) hj)]
  · rfl

omit [DecidableEq F] in
theorem rtRN_congr {K num : Nat} {g g' : Nat → F[X]} (hg : ∀ m < (ctx.n + ctx.t) * num, g m = g' m)
    {k j : Nat} (hj : j < num) : rtRN ctx K num AN g k j = rtRN ctx K num AN g' k j := by
  unfold rtRN
  split
  · apply Finset.sum_congr rfl
    intro c hc
    rw [hg _ (rt_idxN (Finset.mem_range.1 hc) hj)]
  · rfl

/-- Where the places of the masks overlap, party 0's share of one is a value of the other. -/
theorem rt_overlap (B : RtBasis ctx tfs A AN E) {num : Nat} (g : Nat → F[X]) {k : Nat}
    (hk : k < tfs.length) (j : Nat) (hl : ctx.t + ctx.l ≤ ctx.n) {i : Nat}
    (hi : tfs[k].newPos.length + i < ctx.l) :
    (rtR ctx tfs.length num A g k j).eval (ofU32 i)
      = (rtRN ctx tfs.length num AN g k j).eval ((tfs[k].oldPos ++ sharePos ctx.n).getD (tfs[k].newPos.length + i) 0) := by
  have h1 := B.evalR (num := num) g hk j (m := tfs[k].newPos.length + i) (by omega) (by simp [sharePos_length]; omega)
    (by unfold SharingTransform.base; rw [if_neg (by omega)]; omega)
  have h2 := B.evalRN (num := num) g hk j (m := tfs[k].newPos.length + i) (by omega) (by simp [sharePos_length]; omega)
  have e1 : (tfs[k].newPos ++ sharePos ctx.n)[tfs[k].newPos.length + i]'(by simp [sharePos_length]; omega) = ofU32 i := by
    rw [List.getElem_append_right (by omega)]
    simp [sharePos]
  rw [e1] at h1
  rw [h1, List.getD_eq_getElem?_getD, List.getElem?_eq_getElem (by simp [sharePos_length]; omega), Option.getD_some, h2]
  unfold SharingTransform.base Ctx.idxN
  rw [if_neg (by omega), if_pos hi]

end Verif
