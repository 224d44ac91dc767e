import Verif.BinsupLemmas
import Verif.BinsupSpec

/-!
# From weights to ranks and distributions
-/

namespace Verif

variable {F : Type} [Field F]

/-- The matrix which `binary_super_inv_matrix` makes of a file: see `C11_read_rectangular`. -/
def BinFile.mat (F : Type) [Field F] (f : BinFile) : Mat F where
  ncols := f.bits.length
  rows := (List.range f.k).map fun j => f.bits.map fun r => if r.getD j false then 1 else 0

theorem BinFile.ncols_mat (f : BinFile) : (f.mat F).ncols = f.lines.length := by
  simp [BinFile.mat, BinFile.bits]

theorem BinFile.rows_mat (f : BinFile) : (f.mat F).rows.length = f.k := by
  simp [BinFile.mat]

theorem BinFile.row_eq (f : BinFile) {j : Nat} (hj : j < f.k) :
    (f.mat F).rows[j]? = some (f.lines.map fun v => bitVal F (v.testBit j)) := by
  unfold BinFile.mat BinFile.bits
  rw [List.getElem?_map, List.getElem?_range hj, Option.map_some, List.map_map]
  congr 1
  refine List.map_congr_left fun v _ => ?_
  simp [Function.comp, hj, bitVal]

theorem dot_map_sum (l : List Nat) (g : Nat → F) (x : List F) (hx : x.length = l.length) :
    dot (l.map g) x = ∑ p ∈ Finset.range l.length, g (l.getD p 0) * x.getD p 0 := by
  induction l generalizing x with
  | nil => simp [dot]
  | cons a l ih =>
    cases x with
    | nil => simp at hx
    | cons b x =>
      have := ih x (by simpa using hx)
      unfold dot at this ⊢
      rw [List.map_cons, List.zipWith_cons_cons, List.sum_cons, this, List.length_cons, Finset.sum_range_succ']
      simp [add_comm]

theorem dot_sum {a b : List F} {n : Nat} (ha : a.length = n) (hb : b.length = n) :
    dot a b = ∑ p ∈ Finset.range n, a.getD p 0 * b.getD p 0 := by
  induction n generalizing a b with
  | zero =>
    rw [List.length_eq_zero_iff] at ha
    simp [ha, dot]
  | succ n ih =>
    match a, b, ha, hb with
    | x :: a, y :: b, ha, hb =>
      have := ih (a := a) (b := b) (by simpa using ha) (by simpa using hb)
      unfold dot at this ⊢
      rw [List.zipWith_cons_cons, List.sum_cons, this, Finset.sum_range_succ']
      simp [add_comm]

/-- The matrix-vector product of a file's matrix. -/
theorem BinFile.mulVec_iff (f : BinFile) (x y : List F) (hx : x.length = f.lines.length) (hy : y.length = f.k) :
    (f.mat F).mulVec x = some y ↔ ∀ j, j < f.k →
      ∑ p ∈ Finset.range f.lines.length, bitVal F ((f.lines.getD p 0).testBit j) * x.getD p 0 = y.getD j 0 := by
  unfold Mat.mulVec
  rw [if_pos (by rw [f.ncols_mat, hx]), Option.some.injEq]
  have hrow : ∀ j, j < f.k → ((f.mat F).rows.map (dot · x))[j]? = some
      (∑ p ∈ Finset.range f.lines.length, bitVal F ((f.lines.getD p 0).testBit j) * x.getD p 0) := by
    intro j hj
    rw [List.getElem?_map, f.row_eq hj, Option.map_some, dot_map_sum _ _ _ hx]
  constructor
  · intro h j hj
    have := hrow j hj
    rw [h] at this
    rw [List.getD_eq_getElem?_getD (l := y), this, Option.getD_some]
  · intro h
    apply List.ext_getElem?
    intro j
    by_cases hj : j < f.k
    · rw [hrow j hj, h j hj, List.getD_eq_getElem?_getD (l := y), List.getElem?_eq_getElem (by omega)]
      rfl
    · rw [List.getElem?_eq_none (by rw [List.length_map, f.rows_mat]; omega), List.getElem?_eq_none (by omega)]

section
variable [CharP F 2]

/-- Bits as field elements. -/
theorem bitVal_eq (b : Bool) : bitVal F b = ZMod.castHom (dvd_refl 2) F (bz b) := by
  cases b <;> simp [bitVal, bz]

/-- If all non-trivial combinations have more than `T.card` parties, the others' inputs can produce all outputs. -/
theorem BinFile.surjective (f : BinFile) (D : Nat)
    (hD : ∀ u : Nat → Bool, (∃ x < f.k, u x = true) →
      D ≤ ((Finset.range f.lines.length).filter fun p => f.coef u p ≠ 0).card)
    (T : Finset Nat) (hT : T.card < D) (y : Nat → F) :
    ∃ x : Nat → F, (∀ p ∈ T, x p = 0) ∧ ∀ j, j < f.k →
      ∑ p ∈ Finset.range f.lines.length, bitVal F ((f.lines.getD p 0).testBit j) * x p = y j := by
  classical
  let _ : Algebra (ZMod 2) F := ZMod.algebra F 2
  let L : (Fin f.lines.length → F) →ₗ[F] (Fin f.k → F) :=
    { toFun := fun x j => ∑ p : Fin f.lines.length,
        bitVal F ((f.lines.getD p 0).testBit j) * (if (p : Nat) ∈ T then 0 else x p)
      map_add' := by
        intro a b
        funext j
        simp only [Pi.add_apply]
        rw [← Finset.sum_add_distrib]
        refine Finset.sum_congr rfl fun p _ => ?_
        split <;> ring
      map_smul' := by
        intro a b
        funext j
        simp only [Pi.smul_apply, smul_eq_mul, RingHom.id_apply]
        rw [Finset.mul_sum]
        refine Finset.sum_congr rfl fun p _ => ?_
        split <;> ring }
  have hinj : Function.Injective L.dualMap := by
    rw [← LinearMap.ker_eq_bot, LinearMap.ker_eq_bot']
    intro φ hφ
    by_contra hne
    -- coefficients of the functional
    have hcoef : ∃ j0 : Fin f.k, φ (Pi.single j0 1) ≠ 0 := by
      by_contra hall
      push Not at hall
      apply hne
      refine LinearMap.pi_ext fun j a => ?_
      have : (Pi.single j a : Fin f.k → F) = a • Pi.single j 1 := by
        rw [← Pi.single_smul, smul_eq_mul, mul_one]
      rw [this, map_smul, hall j]
      simp
    obtain ⟨j0, hj0⟩ := hcoef
    obtain ⟨ψ, hψ⟩ : ∃ ψ : Module.Dual (ZMod 2) F, ψ (φ (Pi.single j0 1)) ≠ 0 := by
      by_contra hall
      push Not at hall
      exact hj0 ((Module.forall_dual_apply_eq_zero_iff (ZMod 2) _).1 hall)
    set u : Nat → Bool := fun j => if h : j < f.k then decide (ψ (φ (Pi.single ⟨j, h⟩ 1)) ≠ 0) else false with hu
    have hbz : ∀ a : ZMod 2, bz (decide (a ≠ 0)) = a := by decide
    have hweight := hD u ⟨j0, j0.2, by rw [hu]; simp [hψ]⟩
    have hsub : ((Finset.range f.lines.length).filter fun p => f.coef u p ≠ 0) ⊆ T := by
      intro p hp
      rw [Finset.mem_filter, Finset.mem_range] at hp
      by_contra hpT
      apply hp.2
      have h1 : φ (L (Pi.single ⟨p, hp.1⟩ 1)) = 0 := by
        have := congrArg (fun g => g (Pi.single ⟨p, hp.1⟩ 1)) hφ
        simpa using this
      have h2 : L (Pi.single ⟨p, hp.1⟩ 1) = ∑ j : Fin f.k, bitVal F ((f.lines.getD p 0).testBit j) • Pi.single j (1 : F) := by
        funext j
        rw [Finset.sum_apply]
        have : ∀ i : Fin f.k, (bitVal F ((f.lines.getD p 0).testBit i) • (Pi.single i (1 : F) : Fin f.k → F)) j
            = if j = i then bitVal F ((f.lines.getD p 0).testBit i) else 0 := by
          intro i
          rw [Pi.smul_apply, Pi.single_apply, smul_eq_mul]
          split <;> simp
        simp only [this]
        rw [Finset.sum_ite_eq, if_pos (Finset.mem_univ _)]
        change ∑ q : Fin f.lines.length, _ = _
        rw [Finset.sum_eq_single ⟨p, hp.1⟩]
        · rw [if_neg hpT, Pi.single_eq_same, mul_one]
        · intro q _ hq
          rw [Pi.single_eq_of_ne hq]
          simp
        · intro h
          exact absurd (Finset.mem_univ _) h
      rw [h2, map_sum] at h1
      have h3 := congrArg ψ h1
      rw [map_sum, map_zero] at h3
      rw [← h3]
      unfold BinFile.coef
      rw [Finset.sum_range]
      refine Finset.sum_congr rfl fun j _ => ?_
      have h4 : bz (u j) = ψ (φ (Pi.single j 1)) := by
        rw [hu]
        simp only []
        rw [dif_pos j.2]
        exact hbz _
      rw [h4, map_smul, smul_eq_mul]
      cases (f.lines.getD p 0).testBit j <;> simp [bz, bitVal]
    have := Finset.card_le_card hsub
    omega
  have hsurj := (LinearMap.dualMap_injective_iff.1 hinj) (fun j => y j)
  obtain ⟨x, hx⟩ := hsurj
  refine ⟨fun p => if h : p < f.lines.length then (if p ∈ T then 0 else x ⟨p, h⟩) else 0, ?_, ?_⟩
  · intro p hp
    simp [hp]
  · intro j hj
    have := congrFun hx ⟨j, hj⟩
    rw [← this]
    change _ = ∑ p : Fin f.lines.length, _
    rw [Finset.sum_range]
    refine Finset.sum_congr rfl fun p _ => ?_
    simp only []
    rw [dif_pos p.2]

/-- … in terms of matrices. -/
theorem BinFile.allOutputs (f : BinFile) (D t : Nat)
    (hD : ∀ u : Nat → Bool, (∃ x < f.k, u x = true) →
      D ≤ ((Finset.range f.lines.length).filter fun p => f.coef u p ≠ 0).card)
    (ht : t < D) : (f.mat F).AllOutputs t := by
  intro T hT base y hbase hy
  rw [f.ncols_mat] at hbase
  rw [f.rows_mat] at hy
  obtain ⟨x, hx0, hx⟩ := f.surjective D hD T (by omega) (fun j => y.getD j 0 -
    ∑ p ∈ Finset.range f.lines.length, bitVal F ((f.lines.getD p 0).testBit j) * base.getD p 0)
  refine ⟨(List.range f.lines.length).map fun p => base.getD p 0 + x p, by simp [f.ncols_mat], fun i hi => ?_, ?_⟩
  · by_cases h : i < f.lines.length
    · rw [List.getElem?_map, List.getElem?_range h, Option.map_some, hx0 i hi, add_zero, List.getD_eq_getElem?_getD,
        List.getElem?_eq_getElem (by omega)]
      rfl
    · rw [List.getElem?_eq_none (by simp; omega), List.getElem?_eq_none (by omega)]
  · rw [f.mulVec_iff _ _ (by simp) hy]
    intro j hj
    have := hx j hj
    rw [eq_sub_iff_add_eq] at this
    rw [← this, ← Finset.sum_add_distrib]
    refine Finset.sum_congr rfl fun p hp => ?_
    rw [List.getD_eq_getElem?_getD (l := List.map _ _), List.getElem?_map, List.getElem?_range (Finset.mem_range.1 hp)]
    simp only [Option.map_some, Option.getD_some]
    ring

/-- Products of bits, in the field with two elements. -/
theorem BinFile.mulVec_bits (f : BinFile) (x : Fin (f.mat F).ncols → Bool) (y : Fin (f.mat F).rows.length → Bool) :
    (f.mat F).mulVec (bitList F x) = some (bitList F y) ↔ ∀ j : Fin (f.mat F).rows.length,
      ∑ p : Fin (f.mat F).ncols, bz ((f.lines.getD p 0).testBit j) * bz (x p) = bz (y j) := by
  have hn := f.ncols_mat (F := F)
  have hk := f.rows_mat (F := F)
  rw [f.mulVec_iff _ _ (by rw [bitList, List.length_ofFn, hn]) (by rw [bitList, List.length_ofFn, hk])]
  have hinj : Function.Injective (ZMod.castHom (dvd_refl 2) F) := RingHom.injective _
  have hlhs : ∀ j, ∑ p ∈ Finset.range f.lines.length, bitVal F ((f.lines.getD p 0).testBit j) * (bitList F x).getD p 0
      = ZMod.castHom (dvd_refl 2) F (∑ p : Fin (f.mat F).ncols, bz ((f.lines.getD p 0).testBit j) * bz (x p)) := by
    intro j
    rw [← hn, Finset.sum_range, map_sum]
    refine Finset.sum_congr rfl fun p _ => ?_
    rw [map_mul, bitVal_eq]
    congr 1
    rw [bitList, List.getD_eq_getElem?_getD, List.getElem?_ofFn, dif_pos p.2, Option.getD_some, bitVal_eq]
  have hrhs : ∀ j : Fin (f.mat F).rows.length, (bitList F y).getD j 0 = ZMod.castHom (dvd_refl 2) F (bz (y j)) := by
    intro j
    rw [bitList, List.getD_eq_getElem?_getD, List.getElem?_ofFn, dif_pos j.2, Option.getD_some, bitVal_eq]
  constructor
  · intro h j
    have := h j (by rw [← hk]; exact j.2)
    rw [hlhs, hrhs] at this
    exact hinj this
  · intro h j hj
    rw [hlhs, hrhs ⟨j, by rw [hk]; exact hj⟩, h ⟨j, by rw [hk]; exact hj⟩]

/-- … and as a distribution of bits. -/
theorem BinFile.uniformBits (f : BinFile) (D t : Nat)
    (hD : ∀ u : Nat → Bool, (∃ x < f.k, u x = true) →
      D ≤ ((Finset.range f.lines.length).filter fun p => f.coef u p ≠ 0).card)
    (ht : t < D) : (f.mat F).UniformBits t := by
  classical
  have hn := f.ncols_mat (F := F)
  have hk := f.rows_mat (F := F)
  have hmul := f.mulVec_bits (F := F)
  unfold Mat.UniformBits
  generalize (f.mat F).ncols = n at hn hmul ⊢
  generalize (f.mat F).rows.length = k at hk hmul ⊢
  intro T hT base y
  -- the output of an input
  let out : (Fin n → Bool) → (Fin k → Bool) := fun x j =>
    decide (∑ p : Fin n, bz ((f.lines.getD p 0).testBit j) * bz (x p) ≠ 0)
  have hbz : ∀ a : ZMod 2, bz (decide (a ≠ 0)) = a := by decide
  have hbzinj : ∀ a b : Bool, bz a = bz b → a = b := by decide
  have hout : ∀ (x : Fin n → Bool) (z : Fin k → Bool), (f.mat F).mulVec (bitList F x) = some (bitList F z) ↔ out x = z := by
    intro x z
    rw [hmul]
    constructor
    · intro h
      funext j
      apply hbzinj
      rw [← h j]
      exact hbz _
    · intro h j
      rw [← h]
      exact (hbz _).symm
  -- all outputs are reached equally often
  let N : (Fin k → Bool) → Finset (Fin n → Bool) := fun z =>
    Finset.univ.filter fun x => (∀ i ∈ T, x i = base i) ∧ out x = z
  have hshift : ∀ z z', (N z).card ≤ (N z').card := by
    intro z z'
    obtain ⟨x0, hx0, hx⟩ := f.surjective (F := ZMod 2) D hD (T.image Fin.val)
      (lt_of_le_of_lt (Finset.card_image_le.trans hT) ht) (fun j => if h : j < k then bz (z ⟨j, h⟩) + bz (z' ⟨j, h⟩) else 0)
    refine Finset.card_le_card_of_injOn (fun x p => x p ^^ decide (x0 p ≠ 0)) ?_ ?_
    · intro x hxm
      rw [Finset.mem_coe, Finset.mem_filter] at hxm ⊢
      obtain ⟨_, h1, h2⟩ := hxm
      refine ⟨Finset.mem_univ _, fun i hi => ?_, ?_⟩
      · simp only []
        rw [hx0 i (Finset.mem_image_of_mem _ hi), h1 i hi]
        simp
      · funext j
        apply hbzinj
        have h3 : ∀ j : Fin k, bz (out x j) = ∑ p : Fin n, bz ((f.lines.getD p 0).testBit j) * bz (x p) := fun j => hbz _
        have h4 := hx j (by have := j.2; omega)
        rw [dif_pos j.2, ← hn, Finset.sum_range] at h4
        have h5 := h3 j
        rw [h2] at h5
        have h6 : bz (out (fun p => x p ^^ decide (x0 p ≠ 0)) j)
            = ∑ p : Fin n, bz ((f.lines.getD p 0).testBit j) * bz (x p ^^ decide (x0 p ≠ 0)) := hbz _
        rw [h6]
        have h7 : ∀ p : Fin n, bz ((f.lines.getD p 0).testBit j) * bz (x p ^^ decide (x0 p ≠ 0))
            = bz ((f.lines.getD p 0).testBit j) * bz (x p) + bitVal (ZMod 2) ((f.lines.getD p 0).testBit j) * x0 p := by
          intro p
          rw [bz_xor, hbz, mul_add]
          rfl
        simp only [h7]
        rw [Finset.sum_add_distrib, ← h5, h4, ← add_assoc, CharTwo.add_self_eq_zero, zero_add]
    · intro a _ b _ hab
      funext p
      have := congrFun hab p
      simp only [] at this
      exact Bool.xor_right_inj.1 (by rw [Bool.xor_comm, this, Bool.xor_comm])
  have hsame : ∀ z, (N z).card = (N y).card := fun z => le_antisymm (hshift z y) (hshift y z)
  have htotal : ∑ z, (N z).card = (Finset.univ.filter fun x : Fin n → Bool => ∀ i ∈ T, x i = base i).card := by
    rw [Finset.card_eq_sum_card_fiberwise (f := out) (t := Finset.univ) (fun _ _ => Finset.mem_coe.2 (Finset.mem_univ _))]
    refine Finset.sum_congr rfl fun z _ => ?_
    congr 1
    ext x
    simp [N]
  have hbase : (Finset.univ.filter fun x : Fin n → Bool => ∀ i ∈ T, x i = base i).card = 2 ^ (n - T.card) := by
    rw [← Fintype.card_subtype]
    have e : {x : Fin n → Bool // ∀ i ∈ T, x i = base i} ≃ ({i : Fin n // i ∉ T} → Bool) :=
      { toFun := fun x i => x.1 i.1
        invFun := fun g => ⟨fun i => if h : i ∈ T then base i else g ⟨i, h⟩, fun i hi => by simp [hi]⟩
        left_inv := by
          intro x
          ext i
          by_cases h : i ∈ T
          · simp [h, x.2 i h]
          · simp [h]
        right_inv := by
          intro g
          funext i
          simp [i.2] }
    rw [Fintype.card_congr e, Fintype.card_fun, Fintype.card_bool, Fintype.card_subtype_compl]
    simp
  have hcount : Nat.card {x : Fin n → Bool // (∀ i ∈ T, x i = base i) ∧ (f.mat F).mulVec (bitList F x) = some (bitList F y)}
      = (N y).card := by
    rw [Nat.card_eq_fintype_card, Fintype.card_subtype]
    congr 1
    ext x
    simp only [N, Finset.mem_filter, Finset.mem_univ, true_and, hout]
  rw [hcount, ← hbase, ← htotal]
  simp only [hsame]
  rw [Finset.sum_const, Finset.card_univ, Fintype.card_fun, Fintype.card_bool, Fintype.card_fin, smul_eq_mul, Nat.mul_comm]

/-- A combination with few parties is known to these parties. -/
theorem BinFile.leaks (f : BinFile) (U T : Finset Nat) (hU : U ⊆ Finset.range f.k)
    (h : ∀ p < f.lines.length, f.coef (fun x => decide (x ∈ U)) p = bz (decide (p ∈ T)))
    (hT : T ⊆ Finset.range f.lines.length) : (f.mat F).Leaks T U := by
  intro x y hxy
  have hx : x.length = f.lines.length := by
    unfold Mat.mulVec at hxy
    split at hxy
    · rename_i h
      rw [h, f.ncols_mat]
    · cases hxy
  have hy : y.length = f.k := by
    unfold Mat.mulVec at hxy
    rw [if_pos (by rw [hx, f.ncols_mat]), Option.some.injEq] at hxy
    rw [← hxy, List.length_map, f.rows_mat]
  have h1 := (f.mulVec_iff x y hx hy).1 hxy
  calc ∑ u ∈ U, y.getD u 0
      = ∑ u ∈ U, ∑ p ∈ Finset.range f.lines.length, bitVal F ((f.lines.getD p 0).testBit u) * x.getD p 0 :=
        Finset.sum_congr rfl fun u hu => (h1 u (Finset.mem_range.1 (hU hu))).symm
    _ = ∑ p ∈ Finset.range f.lines.length, (∑ u ∈ U, bitVal F ((f.lines.getD p 0).testBit u)) * x.getD p 0 := by
        rw [Finset.sum_comm]
        refine Finset.sum_congr rfl fun p _ => ?_
        rw [Finset.sum_mul]
    _ = ∑ p ∈ Finset.range f.lines.length, if p ∈ T then x.getD p 0 else 0 := by
        refine Finset.sum_congr rfl fun p hp => ?_
        have h2 : ∑ u ∈ U, bitVal F ((f.lines.getD p 0).testBit u) = bitVal F (decide (p ∈ T)) := by
          rw [bitVal_eq, ← h p (Finset.mem_range.1 hp)]
          unfold BinFile.coef
          rw [map_sum, ← Finset.sum_subset hU]
          · refine Finset.sum_congr rfl fun u hu => ?_
            simp only []
            rw [map_mul, ← bitVal_eq, ← bitVal_eq, decide_eq_true hu]
            simp [bitVal]
          · intro u _ hu
            simp only []
            rw [decide_eq_false hu]
            simp [bz]
        rw [h2]
        by_cases hpT : p ∈ T <;> simp [hpT, bitVal]
    _ = ∑ p ∈ T, x.getD p 0 := by
        rw [← Finset.sum_filter]
        congr 1
        ext p
        rw [Finset.mem_filter]
        exact ⟨fun h => h.2, fun h => ⟨hT h, h⟩⟩

end

/-- The coefficient as a computation on numbers. -/
theorem BinFile.coef_eq (f : BinFile) (u : Nat → Bool) (p : Nat) :
    f.coef u p = bz ((xorSel f.k u fun x => ((f.lines.getD p 0).testBit x).toNat).testBit 0) := by
  rw [bz_testBit_xorSel]
  refine Finset.sum_congr rfl fun x _ => ?_
  cases (f.lines.getD p 0).testBit x <;> simp [bz]

/-- The check that the outputs in the set with the bits `um` sum up to the inputs in the set with the bits `tm`. -/
def BinFile.leakCheck (f : BinFile) (um tm : Nat) : Bool :=
  f.lines.zipIdx.all fun x => (xorSel f.k (fun j => um.testBit j) fun j => (x.1.testBit j).toNat).testBit 0
    == tm.testBit x.2

theorem xorSel_congr {k : Nat} {c c' : Nat → Bool} {g : Nat → Nat} (h : ∀ j < k, c j = c' j) :
    xorSel k c g = xorSel k c' g := by
  induction k with
  | zero => rfl
  | succ k ih => rw [xorSel, xorSel, ih fun j hj => h j (by omega), h k (by omega)]

section
variable [CharP F 2]

theorem BinFile.leaks_of_check (f : BinFile) (um tm : Nat) (h : f.leakCheck um tm = true) :
    (f.mat F).Leaks ((Finset.range f.lines.length).filter fun p => tm.testBit p = true)
      ((Finset.range f.k).filter fun j => um.testBit j = true) := by
  refine f.leaks _ _ (Finset.filter_subset _ _) (fun p hp => ?_) (Finset.filter_subset _ _)
  unfold leakCheck at h
  rw [List.all_eq_true] at h
  have h1 := h (f.lines.getD p 0, p) (by
    rw [List.mem_zipIdx_iff_getElem?, List.getElem?_eq_getElem hp, List.getD_eq_getElem?_getD, List.getElem?_eq_getElem hp]
    rfl)
  rw [beq_iff_eq] at h1
  rw [f.coef_eq]
  simp only [] at h1
  rw [xorSel_congr (c' := fun j => um.testBit j) (fun j hj => by simp [hj]), h1]
  simp [hp]

end

/-- If some parties know a sum of outputs then not all outputs are possible. -/
theorem Mat.Leaks.not_allOutputs {M : Mat F} {T U : Finset Nat} (h : M.Leaks T U) {t : Nat} (hT : T.card ≤ t)
    (hU : U.Nonempty) (hUl : U ⊆ Finset.range M.rows.length) : ¬ M.AllOutputs t := by
  intro hall
  obtain ⟨u0, hu0⟩ := hU
  have hlt := Finset.mem_range.1 (hUl hu0)
  obtain ⟨x, hx1, hx2, hx3⟩ := hall T hT (List.replicate M.ncols 0)
    ((List.range M.rows.length).map fun j => if j = u0 then 1 else 0) (by simp) (by simp)
  have h1 := h _ _ hx3
  have h2 : ∑ u ∈ U, ((List.range M.rows.length).map fun j => if j = u0 then (1 : F) else 0).getD u 0 = 1 := by
    rw [Finset.sum_eq_single u0]
    · simp [hlt]
    · intro b hb hne
      have hb' := Finset.mem_range.1 (hUl hb)
      simp [hb', hne]
    · intro h
      exact absurd hu0 h
  have h3 : ∑ i ∈ T, x.getD i 0 = 0 := by
    refine Finset.sum_eq_zero fun i hi => ?_
    rw [List.getD_eq_getElem?_getD, hx2 i hi]
    by_cases hlt : i < M.ncols
    · simp [hlt]
    · simp [hlt]
  rw [h2, h3] at h1
  exact one_ne_zero h1

/-- … and output bits are not uniform. -/
theorem Mat.Leaks.not_uniformBits {M : Mat F} {T U : Finset Nat} (h : M.Leaks T U) {t : Nat} (hT : T.card ≤ t)
    (hTl : T ⊆ Finset.range M.ncols) (hU : U.Nonempty) (hUl : U ⊆ Finset.range M.rows.length) : ¬ M.UniformBits t := by
  intro hall
  obtain ⟨u0, hu0⟩ := hU
  have hlt := Finset.mem_range.1 (hUl hu0)
  have hcard : (Finset.univ.filter fun i : Fin M.ncols => (i : Nat) ∈ T).card ≤ t := by
    refine le_trans ?_ hT
    refine Finset.card_le_card_of_injOn Fin.val (fun i hi => ?_) (fun a _ b _ hab => Fin.ext hab)
    exact (Finset.mem_filter.1 (Finset.mem_coe.1 hi)).2
  have h0 := hall _ hcard (fun _ => false) (fun j => decide ((j : Nat) = u0))
  have hempty : IsEmpty {x : Fin M.ncols → Bool // (∀ i ∈ Finset.univ.filter (fun i : Fin M.ncols => (i : Nat) ∈ T),
      x i = false) ∧ M.mulVec (bitList F x) = some (bitList F fun j : Fin M.rows.length => decide ((j : Nat) = u0))} := by
    refine ⟨fun x => ?_⟩
    obtain ⟨x, hx1, hx2⟩ := x
    have h1 := h _ _ hx2
    have h2 : ∑ u ∈ U, (bitList F fun j : Fin M.rows.length => decide ((j : Nat) = u0)).getD u 0 = 1 := by
      rw [Finset.sum_eq_single u0]
      · simp [bitList, hlt, bitVal]
      · intro b hb hne
        have hb' := Finset.mem_range.1 (hUl hb)
        simp [bitList, hb', hne, bitVal]
      · intro h
        exact absurd hu0 h
    have h3 : ∑ i ∈ T, (bitList F x).getD i 0 = 0 := by
      refine Finset.sum_eq_zero fun i hi => ?_
      have hi' := Finset.mem_range.1 (hTl hi)
      have := hx1 ⟨i, hi'⟩ (by simp [hi])
      simp [bitList, hi', this, bitVal]
    rw [h2, h3] at h1
    exact one_ne_zero h1
  rw [Nat.card_of_isEmpty, Nat.zero_mul] at h0
  exact absurd h0.symm (by positivity)

end Verif
