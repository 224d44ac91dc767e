import Verif.RandTransLemmas
import Verif.PreprocLemmas
import Verif.CircuitLemmas
import Verif.GarbleSpec
import Verif.Props.MathMod
import Verif.Props.Sharing

/-!
# Lemmas about the transformations used by `garble`
-/

open Polynomial

namespace Verif

open CodeField (ofU32)

variable {F : Type} [CodeField F]

/-- The parties' arrays of shares of a family of polynomials with two indices. -/
def tab2 (n B C : Nat) (X : Nat → Nat → F[X]) : List (List (List F)) :=
  (List.range n).map fun i => (List.range B).map fun b => (List.range C).map fun c => (X b c).eval (ofU32 i)

theorem tab2_row (n B C : Nat) (X : Nat → Nat → F[X]) (b : Nat) (hb : b < B) :
    (tab2 n B C X).mapM (fun a => a[b]?) = some (tabShares n C (X b)) := by
  unfold tab2 tabShares
  apply mapM_tab
  intro i _
  exact getElem?_tab _ _ _ hb

theorem tab2_congr (n B C : Nat) (X Y : Nat → Nat → F[X]) (h : ∀ b < B, ∀ c < C, X b c = Y b c) :
    tab2 n B C X = tab2 n B C Y := by
  unfold tab2
  apply List.map_congr_left
  intro i _
  apply List.map_congr_left
  intro b hb
  apply List.map_congr_left
  intro c hc
  rw [h b (List.mem_range.1 hb) c (List.mem_range.1 hc)]

theorem tab2_at (n B C : Nat) (X : Nat → Nat → F[X]) (i : Nat) (hi : i < n) :
    (tab2 n B C X)[i]? = some ((List.range B).map fun b => (List.range C).map fun c => (X b c).eval (ofU32 i)) :=
  getElem?_tab _ _ _ hi

/-- `apply` in terms of the index list. -/
theorem apply_range {T : Type} (f : Combination) (m : Nat) (g : Nat → T) (h : ∀ i ∈ f.map, i < m) :
    f.apply ((List.range m).map g) = some (f.map.map g) := by
  unfold Combination.apply
  apply mapM_some_map
  intro i hi
  exact getElem?_tab _ _ _ (h i hi)

variable [DecidableEq F]

/-! ## Correlated masks -/

/-- Families of correlated masks for the transformations. -/
def Correlated (ctx : Ctx F) (tfs : List (SharingTransform F)) (reps : Nat) (R RN : Nat → Nat → F[X]) : Prop :=
  ∀ (k : Nat) (tr : SharingTransform F), tfs[k]? = some tr → ∀ c < reps, (R k c).degree < (ctx.t + ctx.l : Nat) ∧ (RN k c).degree < ctx.n ∧
    tr.f.apply (tr.oldPos.map fun v => (RN k c).eval v) = some (tr.newPos.map fun v => (R k c).eval v)

theorem genRandLoop_tab {ctx : Ctx F} (h : ctx.Good) (hd : ctx.t + 2 * ctx.l ≤ ctx.n) (reps : Nat)
    (tfs : List (SharingTransform F)) (hok : ∀ tf ∈ tfs, tf.Ok ctx) (Nr Nz : Nat) (g z : Nat → F[X])
    (hNr : Nr = (chunks ctx.l tfs).length * ((ctx.n + ctx.t) * reps))
    (hNz : Nz = (chunks ctx.l tfs).length * (2 * ctx.n * reps))
    (hg : ∀ m < Nr, (g m).degree < (ctx.t + ctx.l : Nat)) (hz : ∀ m < Nz, (z m).degree < ctx.n)
    (hz0 : ∀ m < Nz, ∀ v ∈ defaultPos ctx.n ctx.l, (z m).eval v = 0) :
    ∃ R RN : Nat → Nat → F[X], Correlated ctx tfs reps R RN ∧
      genRandLoop ctx reps tfs.length (chunks ctx.l tfs) (tabShares ctx.n Nr g) (tabShares ctx.n Nz z)
        = some ((List.range ctx.n).map fun i =>
          ((List.range tfs.length).map fun k => (List.range reps).map fun c => (R k c).eval (ofU32 i),
           (List.range tfs.length).map fun k => (List.range reps).map fun c => (RN k c).eval (ofU32 i))) := by
  have hl0 : ctx.l ≠ 0 := by have := h.posL; omega
  induction hlen : tfs.length using Nat.strong_induction_on generalizing tfs Nr Nz g z with
  | _ T ih =>
  by_cases hnil : tfs = []
  · subst hnil
    refine ⟨fun _ _ => 0, fun _ _ => 0, ?_, ?_⟩
    · intro k tr hk
      simp at hk
    · rw [chunks_eq _ _ hl0, if_pos rfl]
      subst hlen
      simp only [genRandLoop, List.length_nil, List.range_zero, List.map_nil, Option.some.injEq]
      exact (List.eq_replicate_iff.2 ⟨by simp, by simp⟩).symm
  · have hpos : 0 < tfs.length := List.length_pos_of_ne_nil hnil
    have hch : chunks ctx.l tfs = tfs.take ctx.l :: chunks ctx.l (tfs.drop ctx.l) := by
      rw [chunks_eq _ _ hl0, if_neg hnil]
    rw [hch, List.length_cons, Nat.succ_mul] at hNr hNz
    generalize hA : (ctx.n + ctx.t) * reps = A at *
    generalize hB : 2 * ctx.n * reps = Bz at *
    obtain ⟨R1, RN1, r1, r2, r3, r4, r5⟩ := randtrans_tab h hd (tfs.take ctx.l) (by simp) (fun tf htf =>
      hok tf (List.mem_of_mem_take htf)) reps g z
      (fun m hm => hg m (by omega)) (fun m hm => hz m (by omega)) (fun m hm => hz0 m (by omega))
    rw [hA, hB] at r5
    obtain ⟨R2, RN2, s1, s2⟩ := ih (tfs.drop ctx.l).length (by rw [List.length_drop]; omega) (tfs.drop ctx.l)
      (fun tf htf => hok tf (List.mem_of_mem_drop htf)) (Nr - A) (Nz - Bz) (fun m => g (A + m))
      (fun m => z (Bz + m)) (by omega) (by omega) (fun m hm => hg _ (by omega)) (fun m hm => hz _ (by omega))
      (fun m hm => hz0 _ (by omega)) rfl
    refine ⟨fun k => if k < ctx.l then R1 k else R2 (k - ctx.l), fun k => if k < ctx.l then RN1 k else RN2 (k - ctx.l),
      ?_, ?_⟩
    · intro k tr hk c hc
      by_cases hkl : k < ctx.l
      · simp only [if_pos hkl]
        have hk1 : (tfs.take ctx.l)[k]? = some tr := by rw [List.getElem?_take_of_lt hkl, hk]
        obtain ⟨hlt, he⟩ := List.getElem?_eq_some_iff.1 hk1
        refine ⟨r1 k c, r2 k c, ?_⟩
        have e1 := r3 k hlt c
        have e2 := r4 k hlt c
        rw [he] at e1 e2
        rw [e1, e2]
        exact apply_range _ _ _ (hok tr (List.mem_of_getElem? hk)).idx
      · simp only [if_neg hkl]
        refine s1 (k - ctx.l) tr ?_ c hc
        rw [List.getElem?_drop, show ctx.l + (k - ctx.l) = k by omega, hk]
    · rw [hch]
      unfold genRandLoop
      rw [hA, hB, drainAll_tab _ _ _ (by omega)]
      simp only [Option.bind_some]
      rw [drainAll_tab _ _ _ (by omega)]
      simp only [Option.bind_some]
      rw [r5]
      simp only [Option.bind_some]
      rw [← hlen, show tfs.length - ctx.l = (tfs.drop ctx.l).length by simp, s2]
      simp only [Option.bind_some]
      rw [if_pos (by simp [List.all_eq_true])]
      rw [Option.some.injEq]
      have hz : ∀ (α β γ : Type) (n : Nat) (f : α → β → γ) (a : Nat → α) (b : Nat → β),
          List.zipWith f ((List.range n).map a) ((List.range n).map b) = (List.range n).map fun i => f (a i) (b i) := by
        intro α β γ n f a b
        apply List.ext_getElem (by simp)
        intro i h1 h2
        simp
      rw [hz]
      apply List.map_congr_left
      intro i _
      have key : ∀ (R1 R2 : Nat → Nat → F[X]),
          (if chunks ctx.l (tfs.drop ctx.l) = [] then
            ((List.range ctx.l).map fun k => (List.range reps).map fun c => (R1 k c).eval (ofU32 i : F)).take (min ctx.l tfs.length)
              ++ (List.range (tfs.drop ctx.l).length).map fun k => (List.range reps).map fun c => (R2 k c).eval (ofU32 i : F)
          else ((List.range ctx.l).map fun k => (List.range reps).map fun c => (R1 k c).eval (ofU32 i : F))
              ++ (List.range (tfs.drop ctx.l).length).map fun k => (List.range reps).map fun c => (R2 k c).eval (ofU32 i : F))
          = (List.range tfs.length).map fun k => (List.range reps).map fun c =>
            ((if k < ctx.l then R1 k else R2 (k - ctx.l)) c).eval (ofU32 i : F) := by
        intro R1 R2
        have hnil' : chunks ctx.l (tfs.drop ctx.l) = [] ↔ tfs.length ≤ ctx.l := by
          rw [chunks_eq _ _ hl0]
          by_cases hd : tfs.drop ctx.l = []
          · rw [if_pos hd]
            simpa using hd
          · rw [if_neg hd]
            simpa using hd
        by_cases hT : tfs.length ≤ ctx.l
        · rw [if_pos (hnil'.2 hT), take_tab _ _ _ (by omega), Nat.min_eq_right hT, List.length_drop,
            Nat.sub_eq_zero_of_le hT]
          simp only [List.range_zero, List.map_nil, List.append_nil]
          apply List.map_congr_left
          intro k hk
          rw [if_pos (by have := List.mem_range.1 hk; omega)]
        · rw [if_neg (fun hh => hT (hnil'.1 hh)), List.length_drop]
          have : tfs.length = ctx.l + (tfs.length - ctx.l) := by omega
          rw [this, ← tab_append, ← this]
          congr 1
          · apply List.map_congr_left
            intro k hk
            rw [if_pos (by have := List.mem_range.1 hk; omega)]
          · apply List.map_congr_left
            intro k hk
            rw [if_neg (by omega), show ctx.l + k - ctx.l = k by omega]
      have k1 := key R1 R2
      have k2 := key RN1 RN2
      by_cases hc : chunks ctx.l (tfs.drop ctx.l) = []
      · rw [if_pos hc] at k1 k2 ⊢
        simp only [k1, k2]
      · rw [if_neg hc] at k1 k2 ⊢
        simp only [k1, k2]

theorem runRtrans_tab {ctx : Ctx F} (h : ctx.Good) (hd : ctx.t + 2 * ctx.l ≤ ctx.n) (reps : Nat)
    (tfs : List (SharingTransform F)) (hok : ∀ tf ∈ tfs, tf.Ok ctx) {nb : Nat} (hnb : numBatches tfs.length ctx.l = some nb)
    (Nr Nz : Nat) (g z : Nat → F[X]) (hNr : nb * reps * (ctx.n + ctx.t) ≤ Nr) (hNz : nb * reps * 2 * ctx.n ≤ Nz)
    (hg : ∀ m < Nr, (g m).degree < (ctx.t + ctx.l : Nat)) (hz : ∀ m < Nz, (z m).degree < ctx.n)
    (hz0 : ∀ m < Nz, ∀ v ∈ defaultPos ctx.n ctx.l, (z m).eval v = 0) :
    ∃ R RN : Nat → Nat → F[X], Correlated ctx tfs reps R RN ∧
      runRtrans ctx tfs reps (tabShares ctx.n Nr g) (tabShares ctx.n Nz z)
        = some ((List.range ctx.n).map (fun i =>
          ((List.range tfs.length).map fun k => (List.range reps).map fun c => (R k c).eval (ofU32 i),
           (List.range tfs.length).map fun k => (List.range reps).map fun c => (RN k c).eval (ofU32 i))),
          tabShares ctx.n (Nr - nb * reps * (ctx.n + ctx.t)) (fun m => g (nb * reps * (ctx.n + ctx.t) + m)),
          tabShares ctx.n (Nz - nb * reps * 2 * ctx.n) (fun m => z (nb * reps * 2 * ctx.n + m))) := by
  have hl0 : ctx.l ≠ 0 := by have := h.posL; omega
  have hlen : (chunks ctx.l tfs).length = nb := by
    rw [chunks_length _ _ hl0]
    unfold numBatches at hnb
    rw [if_neg hl0, Option.some.injEq] at hnb
    exact hnb
  obtain ⟨R, RN, c1, c2⟩ := genRandLoop_tab h hd reps tfs hok (nb * reps * (ctx.n + ctx.t)) (nb * reps * 2 * ctx.n) g z
    (by rw [hlen]; ring) (by rw [hlen]; ring) (fun m hm => hg m (by omega)) (fun m hm => hz m (by omega))
    (fun m hm => hz0 m (by omega))
  refine ⟨R, RN, c1, ?_⟩
  unfold runRtrans
  rw [hnb]
  simp only [Option.bind_some]
  rw [drainAll_tab _ _ _ hNr]
  simp only [Option.bind_some]
  rw [drainAll_tab _ _ _ hNz]
  simp only [Option.bind_some]
  unfold genRandShares chunks?
  rw [if_neg hl0]
  simp only [Option.bind_some]
  rw [c2]
  rfl

/-! ## `transform` -/

theorem transform_tab {ctx : Ctx F} (h : ctx.Good) (tfs : List (SharingTransform F)) (hok : ∀ tf ∈ tfs, tf.Ok ctx)
    (reps : Nat) (tapes : List (List (List F))) (ht : TransTapes ctx tfs reps tapes) (X R RN : Nat → Nat → F[X])
    (hX : ∀ k < tfs.length, ∀ c < reps, (X k c).degree < ctx.n) (hR : Correlated ctx tfs reps R RN) :
    ∃ Y : Nat → Nat → F[X], (∀ k < tfs.length, ∀ c < reps, (Y k c).degree < (ctx.t + ctx.l : Nat)) ∧
      (∀ (k : Nat) (tr : SharingTransform F), tfs[k]? = some tr → ∀ c < reps, tr.f.apply (tr.oldPos.map fun v => (X k c).eval v)
        = some (tr.newPos.map fun v => (Y k c).eval v)) ∧
      transform ctx tfs reps tapes (tab2 ctx.n tfs.length reps X) (tab2 ctx.n tfs.length reps R)
        (tab2 ctx.n tfs.length reps RN) = some (tab2 ctx.n tfs.length reps Y) := by
  have hn := h.posN
  have one : ∀ k (hk : k < tfs.length), ∃ y : Nat → F[X], (∀ c < reps, (y c).degree < (ctx.t + ctx.l : Nat)) ∧
      (∀ c < reps, tfs[k].f.apply (tfs[k].oldPos.map fun v => (X k c).eval v)
        = some (tfs[k].newPos.map fun v => (y c).eval v)) ∧
      transformOne ctx tfs[k] k (tapes.getD k []) (tab2 ctx.n tfs.length reps X) (tab2 ctx.n tfs.length reps R)
        (tab2 ctx.n tfs.length reps RN) = some (tabShares ctx.n reps y) := by
    intro k hk
    have hke : tfs[k]? = some tfs[k] := List.getElem?_eq_getElem hk
    have hk' : k < tapes.length := by rw [ht.1]; exact hk
    obtain ⟨h1, h2⟩ := ht.2 k tfs[k] (tapes.getD k []) hke (by
      rw [List.getElem?_eq_getElem hk', List.getD_eq_getElem _ _ hk'])
    have ok := hok _ (List.getElem_mem hk)
    obtain ⟨y, y1, y2, y3⟩ := trans_tab hn h.le (by have := h.posL; omega) tfs[k] ok.new
      (by have := ok.newLen; omega) reps (tapes.getD k []) h1 h2 (X k) (R k) (RN k)
      (hX k hk) (fun c hc => (hR k _ hke c hc).1) (fun c hc => (hR k _ hke c hc).2.1)
      (fun c hc => (hR k _ hke c hc).2.2)
    refine ⟨y, y1, y2, ?_⟩
    unfold transformOne
    rw [if_neg (by omega), tab2_row _ _ _ _ _ hk, tab2_row _ _ _ _ _ hk, tab2_row _ _ _ _ _ hk]
    simp only [Option.bind_some]
    rw [tabShares_row _ _ _ _ (Nat.mod_lt _ (by omega))]
    simp only [Option.bind_some, List.length_map, List.length_range]
    exact y3
  choose! y y1 y2 y3 using one
  refine ⟨y, y1, ?_, ?_⟩
  · intro k tr hk c hc
    obtain ⟨hlt, rfl⟩ := List.getElem?_eq_some_iff.1 hk
    exact y2 k hlt c hc
  · unfold transform
    rw [mapM_range_some _ _ (fun k => tabShares ctx.n reps (y k))]
    · simp only [Option.bind_some]
      unfold tab2
      apply mapM_range_some
      intro p hp
      rw [mapM_tab _ _ _ (fun k => (List.range reps).map fun c => (y k c).eval (ofU32 p))]
      · simp only [Option.bind_some]
        apply toRows_flatten
        · simp
        · intro x hx
          obtain ⟨k, _, rfl⟩ := List.mem_map.1 hx
          simp
      · intro k _
        exact tabShares_row _ _ _ _ hp
    · intro k hk
      have hk' : k < tapes.length := by rw [ht.1]; exact hk
      have := y3 k hk
      rw [List.getD_eq_getElem _ _ hk'] at this
      rw [List.getElem?_eq_getElem hk, List.getElem?_eq_getElem hk']
      exact this

end Verif
