import Verif.LpnScript
import Verif.LpnErrSpec
import Mathlib.Logic.Equiv.Prod
import Mathlib.SetTheory.Cardinal.Finite
import Mathlib.Data.Fintype.BigOperators
import Mathlib.Data.Nat.Choose.Sum
import Mathlib.Tactic.FieldSimp
import Mathlib.Tactic.Ring
import Mathlib.Tactic.Linarith

/-!
# Counting with independent choices
-/

namespace Verif

/-- Choices at the places `ι` and elsewhere. -/
noncomputable def splitPi {I A T : Type} (ι : A ↪ I) : (I → T) ≃ (A → T) × ({i // i ∉ Set.range ι} → T) := by
  classical
  exact (Equiv.piEquivPiSubtypeProd (· ∈ Set.range ι) (fun _ => T)).trans
    (Equiv.prodCongr (Equiv.arrowCongr (Equiv.ofInjective ι ι.injective).symm (Equiv.refl T)) (Equiv.refl _))

theorem splitPi_fst {I A T : Type} (ι : A ↪ I) (g : I → T) : (splitPi ι g).1 = g ∘ ι := by
  funext a
  simp [splitPi, Equiv.piEquivPiSubtypeProd]

/-- An event which depends on some of the choices only. -/
theorem card_restrict {I A T : Type} (ι : A ↪ I) (P : (A → T) → Prop) :
    Nat.card {g : I → T // P (g ∘ ι)} * Nat.card (A → T) = Nat.card {h : A → T // P h} * Nat.card (I → T) := by
  have h1 : Nat.card {g : I → T // P (g ∘ ι)} = Nat.card {h : A → T // P h} * Nat.card ({i // i ∉ Set.range ι} → T) := by
    rw [← Nat.card_prod]
    refine Nat.card_congr (Equiv.trans (Equiv.subtypeEquiv (splitPi ι) (q := fun x => P x.1) fun g => ?_) ?_)
    · rw [splitPi_fst]
    · exact Equiv.prodSubtypeFstEquivSubtypeProd
  rw [h1, Nat.card_congr (splitPi (T := T) ι), Nat.card_prod]
  ring

/-- How many choices have more than `e` places with property `B`. -/
theorem card_gt {A T : Type} [Fintype A] [DecidableEq A] [Fintype T] (B : T → Prop) [DecidablePred B] (e : Nat) :
    Nat.card {h : A → T // e < (Finset.univ.filter fun a => B (h a)).card}
      = ∑ j ∈ Finset.Ioc e (Fintype.card A), (Fintype.card A).choose j * Fintype.card {t // B t} ^ j * Fintype.card {t // ¬ B t} ^ (Fintype.card A - j) := by
  classical
  have key : ∀ S : Finset A, (Finset.univ.filter fun h : A → T => (Finset.univ.filter fun a => B (h a)) = S).card
      = Fintype.card {t // B t} ^ S.card * Fintype.card {t // ¬ B t} ^ (Fintype.card A - S.card) := by
    intro S
    have : (Finset.univ.filter fun h : A → T => (Finset.univ.filter fun a => B (h a)) = S)
        = Fintype.piFinset fun a => if a ∈ S then Finset.univ.filter B else Finset.univ.filter fun t => ¬ B t := by
      ext h
      simp only [Finset.mem_filter, Finset.mem_univ, true_and, Fintype.mem_piFinset]
      constructor
      · rintro rfl a
        by_cases hb : B (h a) <;> simp [hb]
      · intro hh
        ext a
        have := hh a
        by_cases ha : a ∈ S <;> simp_all
    rw [this, Fintype.card_piFinset]
    simp only [apply_ite Finset.card]
    rw [Finset.prod_ite, Finset.prod_const, Finset.prod_const, Fintype.card_subtype, Fintype.card_subtype]
    congr 2
    · rw [Finset.filter_mem_eq_inter, Finset.univ_inter]
    · rw [← Finset.card_compl]
      congr 1
      ext a
      simp
  rw [Nat.card_eq_fintype_card, Fintype.card_subtype]
  have h1 : (Finset.univ.filter fun h : A → T => e < (Finset.univ.filter fun a => B (h a)).card).card
      = ∑ S ∈ (Finset.univ : Finset A).powerset, if e < S.card then
          Fintype.card {t // B t} ^ S.card * Fintype.card {t // ¬ B t} ^ (Fintype.card A - S.card) else 0 := by
    rw [Finset.card_eq_sum_card_fiberwise (f := fun h => Finset.univ.filter fun a => B (h a)) (t := (Finset.univ : Finset A).powerset)
      (by intro h _; simp)]
    refine Finset.sum_congr rfl fun S _ => ?_
    by_cases hS : e < S.card
    · rw [if_pos hS, ← key S]
      congr 1
      ext h
      simp only [Finset.mem_filter, Finset.mem_univ, true_and]
      constructor
      · exact fun h => h.2
      · rintro rfl
        exact ⟨hS, rfl⟩
    · rw [if_neg hS, Finset.card_eq_zero]
      ext h
      simp only [Finset.mem_filter, Finset.mem_univ, true_and, Finset.notMem_empty, iff_false, not_and]
      rintro h1 rfl
      exact hS h1
  rw [h1, Finset.sum_powerset_apply_card (fun j => if e < j then
          Fintype.card {t // B t} ^ j * Fintype.card {t // ¬ B t} ^ (Fintype.card A - j) else 0), Finset.card_univ]
  simp only [smul_eq_mul, mul_ite, mul_zero]
  rw [← Finset.sum_filter]
  refine Finset.sum_congr ?_ fun j _ => by ring
  ext j
  simp only [Finset.mem_filter, Finset.mem_range, Finset.mem_Ioc]
  omega

/-- The same as a fraction. -/
theorem card_gt_ratio {A T : Type} [Fintype A] [DecidableEq A] [Fintype T] [Nonempty T] (B : T → Prop) [DecidablePred B] (e : Nat) :
    (Nat.card {h : A → T // e < (Finset.univ.filter fun a => B (h a)).card} : ℚ)
      = binomTail e (Fintype.card A) ((Fintype.card {t // B t} : ℚ) / Fintype.card T) * Nat.card (A → T) := by
  classical
  rw [card_gt B e]
  have hT : (Fintype.card T : ℚ) ≠ 0 := by
    have := Fintype.card_pos (α := T)
    exact_mod_cast this.ne'
  have hs : (Fintype.card {t // ¬ B t} : ℚ) = Fintype.card T - Fintype.card {t // B t} := by
    have h1 := Fintype.card_subtype_compl B
    rw [h1, Nat.cast_sub (Fintype.card_subtype_le B)]
  have hc : (Nat.card (A → T) : ℚ) = (Fintype.card T : ℚ) ^ Fintype.card A := by
    rw [Nat.card_eq_fintype_card, Fintype.card_fun]
    push_cast
    rfl
  rw [hc, binomTail, Finset.sum_mul]
  push_cast
  refine Finset.sum_congr rfl fun j hj => ?_
  have hj : j ≤ Fintype.card A := (Finset.mem_Ioc.1 hj).2
  rw [hs]
  have : (1 : ℚ) - (Fintype.card {t // B t} : ℚ) / Fintype.card T = ((Fintype.card T : ℚ) - Fintype.card {t // B t}) / Fintype.card T := by
    field_simp
  rw [this, div_pow, div_pow]
  have hp : (Fintype.card T : ℚ) ^ Fintype.card A = (Fintype.card T : ℚ) ^ j * (Fintype.card T : ℚ) ^ (Fintype.card A - j) := by
    rw [← pow_add]
    congr 1
    omega
  rw [hp]
  field_simp

theorem tail_eq_cdf {e N : Nat} (h : e ≤ N) (p : ℚ) : binomTail e N p = 1 - binomCdf e N p := by
  have h1 : ∑ j ∈ Finset.range (N + 1), (N.choose j : ℚ) * p ^ j * (1 - p) ^ (N - j) = 1 := by
    have := add_pow p (1 - p) N
    rw [show p + (1 - p) = 1 by ring, one_pow] at this
    refine Eq.trans (Finset.sum_congr rfl fun j _ => ?_) this.symm
    ring
  have h2 : Finset.range (N + 1) = Finset.range (e + 1) ∪ Finset.Ioc e N := by
    ext j
    simp only [Finset.mem_range, Finset.mem_union, Finset.mem_Ioc]
    omega
  rw [h2, Finset.sum_union (by
    rw [Finset.disjoint_left]
    intro j hj hj'
    simp only [Finset.mem_range, Finset.mem_Ioc] at hj hj'
    omega)] at h1
  unfold binomTail binomCdf
  linarith

/-- Fewer bad choices make many bad places less likely. -/
theorem tail_mono {b c T e N : Nat} (hT : 0 < T) (hbc : b ≤ c) (hc : c ≤ T) :
    binomTail e N ((b : ℚ) / T) ≤ binomTail e N ((c : ℚ) / T) := by
  classical
  have : Nonempty (Fin T) := ⟨⟨0, hT⟩⟩
  have hb : ∀ x : Nat, x ≤ T → Fintype.card {t : Fin T // t.1 < x} = x := by
    intro x hx
    rw [Fintype.card_subtype]
    have : (Finset.univ.filter fun t : Fin T => t.1 < x) = (Finset.univ : Finset (Fin x)).map (Fin.castLEEmb hx) := by
      ext t
      simp only [Finset.mem_filter, Finset.mem_univ, true_and, Finset.mem_map]
      constructor
      · intro ht
        exact ⟨⟨t.1, ht⟩, rfl⟩
      · rintro ⟨y, rfl⟩
        exact y.2
    rw [this, Finset.card_map, Finset.card_univ, Fintype.card_fin]
  have r1 := card_gt_ratio (A := Fin N) (T := Fin T) (fun t => t.1 < b) e
  have r2 := card_gt_ratio (A := Fin N) (T := Fin T) (fun t => t.1 < c) e
  rw [hb b (hbc.trans hc), Fintype.card_fin, Fintype.card_fin] at r1
  rw [hb c hc, Fintype.card_fin, Fintype.card_fin] at r2
  have hle : Nat.card {h : Fin N → Fin T // e < (Finset.univ.filter fun a => (h a).1 < b).card}
      ≤ Nat.card {h : Fin N → Fin T // e < (Finset.univ.filter fun a => (h a).1 < c).card} := by
    refine Nat.card_le_card_of_injective (fun h => ⟨h.1, lt_of_lt_of_le h.2 (Finset.card_le_card ?_)⟩) ?_
    · intro a ha
      simp only [Finset.mem_filter, Finset.mem_univ, true_and] at ha ⊢
      omega
    · intro x y hxy
      exact Subtype.ext (congrArg (fun z => z.1) hxy)
  have hpos : (0 : ℚ) < Nat.card (Fin N → Fin T) := by
    have : 0 < Nat.card (Fin N → Fin T) := Nat.card_pos
    exact_mod_cast this
  have hle' : (Nat.card {h : Fin N → Fin T // e < (Finset.univ.filter fun a => (h a).1 < b).card} : ℚ)
      ≤ Nat.card {h : Fin N → Fin T // e < (Finset.univ.filter fun a => (h a).1 < c).card} := by exact_mod_cast hle
  rw [r1, r2] at hle'
  exact le_of_mul_le_mul_right hle' hpos

/-- A larger radius makes it less likely. -/
theorem tail_anti {e e' N : Nat} (h : e ≤ e') {p : ℚ} (h0 : 0 ≤ p) (h1 : p ≤ 1) : binomTail e' N p ≤ binomTail e N p := by
  unfold binomTail
  refine Finset.sum_le_sum_of_subset_of_nonneg (Finset.Ioc_subset_Ioc_left h) fun j _ _ => ?_
  have : 0 ≤ 1 - p := by linarith
  positivity

end Verif
