import Verif.LpnParamSpec
import Verif.LpnSearchLemmas
import Mathlib.RingTheory.Polynomial.Bernstein

/-!
# The costs of attacks on LPN as the script computes them, and probabilities
-/

namespace Verif

/-- Choosing positions and choosing errors can be exchanged. -/
theorem choose_exchange (N k t : Nat) (h : k + t ≤ N) : N.choose k * (N - k).choose t = N.choose t * (N - t).choose k := by
  have h1 := Nat.choose_mul (n := N) (k := k + t) (s := k) (Nat.le_add_right k t)
  have h2 := Nat.choose_mul (n := N) (k := k + t) (s := t) (Nat.le_add_left t k)
  rw [Nat.add_sub_cancel_left] at h1
  rw [Nat.add_sub_cancel] at h2
  rw [← h1, ← h2, Nat.choose_symm_add]

theorem clean_card (N k : Nat) (E : Finset (Fin N)) :
    (((Finset.univ : Finset (Fin N)).powersetCard k).filter fun S => Disjoint S E).card = (N - E.card).choose k := by
  have : (((Finset.univ : Finset (Fin N)).powersetCard k).filter fun S => Disjoint S E) = Eᶜ.powersetCard k := by
    ext S
    simp only [Finset.mem_filter, Finset.mem_powersetCard, Finset.subset_univ, true_and]
    rw [Finset.disjoint_iff_inter_eq_empty, Finset.subset_compl_iff_disjoint_right, Finset.disjoint_iff_inter_eq_empty]
    exact and_comm
  rw [this, Finset.card_powersetCard, Finset.card_compl, Fintype.card_fin]

/-- The probability, as the script computes it. -/
theorem clean_eq (N k : Nat) (E : Finset (Fin N)) (h : k + E.card ≤ N) :
    cleanFraction N k E = com ((N - k : Nat) : Int) E.card / com N E.card ∧ 0 < cleanFraction N k E := by
  unfold cleanFraction
  rw [clean_card, Finset.card_powersetCard, Finset.card_univ, Fintype.card_fin, com_choose _ _ (by omega), com_choose _ _ (by omega)]
  have h1 : 0 < N.choose k := Nat.choose_pos (by omega)
  have h2 : 0 < N.choose E.card := Nat.choose_pos (by omega)
  have h3 : 0 < (N - E.card).choose k := Nat.choose_pos (by omega)
  refine ⟨?_, by positivity⟩
  push_cast
  rw [div_eq_div_iff (by positivity) (by positivity)]
  have := choose_exchange N k E.card h
  rw [mul_comm (N.choose E.card)] at this
  have h4 : ((N.choose k * (N - k).choose E.card : Nat) : ℝ) = (((N - E.card).choose k * N.choose E.card : Nat) : ℝ) := by rw [this]
  push_cast at h4
  linarith

theorem clean_zero (N k : Nat) (E : Finset (Fin N)) (hk : k ≤ N) (h : N < k + E.card) : cleanFraction N k E = 0 := by
  unfold cleanFraction
  have hE : E.card ≤ N := by simpa using Finset.card_le_univ E
  rw [clean_card, Nat.choose_eq_zero_of_lt (by omega)]
  simp

theorem gaussCost_clean (N k : Nat) (E : Finset (Fin N)) (h : k + E.card ≤ N) :
    gaussCost N k E.card = ((min k (N - k) : Nat) : ℝ) ^ (2.8 : ℝ) / cleanFraction N k E := by
  unfold gaussCost
  rw [(clean_eq N k E h).1]
  have h1 := com_one_le N E.card
  have h2 := com_one_le ((N - k : Nat) : Int) E.card
  field_simp

theorem parityCost_clean (N k : Nat) (E : Finset (Fin N)) (h : k + 1 + E.card ≤ N) :
    parityCost N k E.card = ((k : ℝ) + 1) / cleanFraction N (k + 1) E ^ 2 := by
  unfold parityCost
  rw [(clean_eq N (k + 1) E h).1]
  have h1 := com_one_le N E.card
  have h2 := com_one_le ((N - (k + 1) : Nat) : Int) E.card
  field_simp

/-- The mean of the number of successes. -/
theorem binom_mean (N : Nat) (p : ℚ) : ∑ j ∈ Finset.range (N + 1), (j : ℚ) * ((N.choose j : ℚ) * p ^ j * (1 - p) ^ (N - j)) = N * p := by
  have h := congrArg (Polynomial.eval p) (bernsteinPolynomial.sum_smul ℚ N)
  rw [Polynomial.eval_finsetSum] at h
  simpa [bernsteinPolynomial] using h

/-- If more than `w` successes are unlikely, `w` is not far below the mean. -/
theorem mean_le (w N : Nat) (hw : w ≤ N) (p : ℚ) (h0 : 0 ≤ p) (h1 : p ≤ 1) : N * p ≤ w + N * binomTail w N p := by
  rw [← binom_mean N p]
  set P : Nat → ℚ := fun j => (N.choose j : ℚ) * p ^ j * (1 - p) ^ (N - j) with hP
  have hpos : ∀ j, 0 ≤ P j := fun j => mul_nonneg (mul_nonneg (by positivity) (pow_nonneg h0 _)) (pow_nonneg (by linarith) _)
  have hsplit : ∀ f : Nat → ℚ, ∑ j ∈ Finset.range (N + 1), f j = ∑ j ∈ Finset.range (w + 1), f j + ∑ j ∈ Finset.Ioc w N, f j := by
    intro f
    rw [Finset.range_eq_Ico, ← Finset.sum_Ico_consecutive f (Nat.zero_le (w + 1)) (by omega : w + 1 ≤ N + 1), ← Finset.range_eq_Ico]
    congr 1
    refine Finset.sum_congr ?_ fun _ _ => rfl
    ext j
    simp only [Finset.mem_Ico, Finset.mem_Ioc]
    omega
  have hone : ∑ j ∈ Finset.range (w + 1), P j + binomTail w N p = 1 := by
    rw [tail_eq_cdf hw]
    unfold binomCdf
    ring
  rw [hsplit]
  have a1 : ∑ j ∈ Finset.range (w + 1), (j : ℚ) * P j ≤ w * ∑ j ∈ Finset.range (w + 1), P j := by
    rw [Finset.mul_sum]
    refine Finset.sum_le_sum fun j hj => mul_le_mul_of_nonneg_right ?_ (hpos j)
    exact_mod_cast Nat.lt_succ_iff.1 (Finset.mem_range.1 hj)
  have a2 : ∑ j ∈ Finset.Ioc w N, (j : ℚ) * P j ≤ N * binomTail w N p := by
    unfold binomTail
    rw [Finset.mul_sum]
    refine Finset.sum_le_sum fun j hj => mul_le_mul_of_nonneg_right ?_ (hpos j)
    exact_mod_cast (Finset.mem_Ioc.1 hj).2
  have a3 : 0 ≤ binomTail w N p := Finset.sum_nonneg fun j _ => hpos j
  have a4 : (w : ℚ) * ∑ j ∈ Finset.range (w + 1), P j ≤ w := by
    have : ∑ j ∈ Finset.range (w + 1), P j ≤ 1 := by linarith
    have hw0 : (0 : ℚ) ≤ w := by positivity
    nlinarith
  linarith

/-- Where the correctness error is small there are more free positions than errors. -/
theorem room_of_correct (N k tau q : Nat) (hq : 2 ≤ q) (hk : k ≤ N) (error : ℚ) (he : error < 1 / 2 ^ (tau + 1)) (hN : 1 ≤ N)
    (h : correctnessError N k tau ≤ error) : k + 1 + N * (q - 1) / (2 ^ tau * q) ≤ N := by
  rw [error_tail] at h
  have hp : (1 : ℚ) / 2 ^ tau ≤ 1 := by
    rw [div_le_one (by positivity)]
    exact one_le_pow₀ (by norm_num)
  have hm := mean_le ((N - k) / 2) N (by omega) (1 / 2 ^ tau) (by positivity) hp
  have hN' : (1 : ℚ) ≤ N := by exact_mod_cast hN
  have h1 : (N : ℚ) * binomTail ((N - k) / 2) N (1 / 2 ^ tau) < N * (1 / 2 ^ (tau + 1)) :=
    mul_lt_mul_of_pos_left (lt_of_le_of_lt h he) (by linarith)
  have h2 : (N : ℚ) * (1 / 2 ^ tau) = 2 * (N * (1 / 2 ^ (tau + 1))) := by
    rw [pow_succ]
    field_simp
  have h3 : (N : ℚ) * (1 / 2 ^ tau) < ((2 * ((N - k) / 2) : Nat) : ℚ) := by
    push_cast at *
    linarith
  have h4 : (N : ℚ) < ((2 * ((N - k) / 2) * 2 ^ tau : Nat) : ℚ) := by
    rw [mul_one_div, div_lt_iff₀ (by positivity)] at h3
    rw [Nat.cast_mul]
    push_cast at h3 ⊢
    exact h3
  have h5 : N < 2 * ((N - k) / 2) * 2 ^ tau := by exact_mod_cast h4
  have h6 : N * (q - 1) / (2 ^ tau * q) < 2 * ((N - k) / 2) := by
    rw [Nat.div_lt_iff_lt_mul (by positivity)]
    calc N * (q - 1) ≤ N * q := Nat.mul_le_mul_left N (Nat.sub_le q 1)
      _ < 2 * ((N - k) / 2) * 2 ^ tau * q := Nat.mul_lt_mul_of_pos_right h5 (by omega)
      _ = 2 * ((N - k) / 2) * (2 ^ tau * q) := by ring
  omega

/-- One position less. -/
theorem com_step (M t : Nat) (h : t ≤ M) : (com ((M + 1 : Nat) : Int) t : ℝ) * ((M + 1 - t : Nat) : ℝ) = com (M : Int) t * ((M + 1 : Nat) : ℝ) := by
  rw [com_choose _ _ (by omega), com_choose _ _ h]
  have := Nat.choose_mul_succ_eq M t
  push_cast
  exact_mod_cast this.symm

/-- The cost of the first attack does not fall with the length of the key, from three errors on. -/
theorem gaussCost_mono (N k t : Nat) (hk : 1 ≤ k) (ht : 3 ≤ t) (hN : k + 1 + t ≤ N) : gaussCost N k t ≤ gaussCost N (k + 1) t := by
  unfold gaussCost
  obtain ⟨M, hM⟩ : ∃ M, N - k = M + 1 := ⟨N - k - 1, by omega⟩
  rw [hM, show N - (k + 1) = M by omega]
  have hc0 := com_one_le N t
  have hc1 := com_one_le (M : Int) t
  have hc2 := com_one_le ((M + 1 : Nat) : Int) t
  have hstep := com_step M t (by omega)
  rw [div_le_div_iff₀ (by linarith) (by linarith)]
  suffices hs : ((min k (M + 1) : Nat) : ℝ) ^ (2.8 : ℝ) * com (M : Int) t ≤ ((min (k + 1) M : Nat) : ℝ) ^ (2.8 : ℝ) * com ((M + 1 : Nat) : Int) t by
    nlinarith
  by_cases hkM : k ≤ M
  · have h1 : ((min k (M + 1) : Nat) : ℝ) ^ (2.8 : ℝ) ≤ ((min (k + 1) M : Nat) : ℝ) ^ (2.8 : ℝ) := by
      apply Real.rpow_le_rpow (by positivity) _ (by norm_num)
      exact_mod_cast (show min k (M + 1) ≤ min (k + 1) M by omega)
    have h2 : (com (M : Int) t : ℝ) ≤ com ((M + 1 : Nat) : Int) t := by exact_mod_cast com_mono M (M + 1) t (by omega)
    exact mul_le_mul h1 h2 (by linarith) (by positivity)
  · rw [show min k (M + 1) = M + 1 by omega, show min (k + 1) M = M by omega]
    have hM3 : 3 ≤ M := by omega
    have hMr : (3 : ℝ) ≤ M := by exact_mod_cast hM3
    have hratio : (((M + 1 : Nat) : ℝ) / M) ^ (2.8 : ℝ) ≤ (((M + 1 : Nat) : ℝ) / M) ^ (3 : ℝ) := by
      apply Real.rpow_le_rpow_of_exponent_le _ (by norm_num)
      rw [le_div_iff₀ (by linarith)]
      push_cast
      linarith
    have h3 : (((M + 1 : Nat) : ℝ) / M) ^ (3 : ℝ) * ((M + 1 - t : Nat) : ℝ) ≤ ((M + 1 : Nat) : ℝ) := by
      have e : (3 : ℝ) = ((3 : Nat) : ℝ) := by norm_num
      have htr : ((M + 1 - t : Nat) : ℝ) ≤ (M : ℝ) - 2 := by
        have : M + 1 - t + 2 ≤ M := by omega
        have h' : ((M + 1 - t + 2 : Nat) : ℝ) ≤ M := by exact_mod_cast this
        push_cast at h' ⊢
        linarith
      rw [e, Real.rpow_natCast, div_pow, div_mul_eq_mul_div, div_le_iff₀ (by positivity)]
      push_cast at htr ⊢
      have h0 : (0 : ℝ) ≤ ((M : ℝ) + 1) ^ 3 := by positivity
      calc ((M : ℝ) + 1) ^ 3 * ((M + 1 - t : Nat) : ℝ) ≤ ((M : ℝ) + 1) ^ 3 * (M - 2) := mul_le_mul_of_nonneg_left (by exact_mod_cast htr) h0
        _ ≤ ((M : ℝ) + 1) * M ^ 3 := by nlinarith [mul_nonneg (by linarith : (0 : ℝ) ≤ (M : ℝ) + 1) (by nlinarith : (0 : ℝ) ≤ 3 * (M : ℝ) + 2)]
    have h4 : ((M + 1 : Nat) : ℝ) ^ (2.8 : ℝ) = (((M + 1 : Nat) : ℝ) / M) ^ (2.8 : ℝ) * (M : ℝ) ^ (2.8 : ℝ) := by
      rw [← Real.mul_rpow (by positivity) (by positivity), div_mul_cancel₀ _ (by linarith)]
    rw [h4]
    have hMp : (0 : ℝ) < (M : ℝ) ^ (2.8 : ℝ) := Real.rpow_pos_of_pos (by linarith) _
    have hd : (0 : ℝ) < ((M + 1 - t : Nat) : ℝ) := by exact_mod_cast (show 0 < M + 1 - t by omega)
    have h5 : (((M + 1 : Nat) : ℝ) / M) ^ (2.8 : ℝ) * com (M : Int) t ≤ com ((M + 1 : Nat) : Int) t := by
      refine le_of_mul_le_mul_right ?_ hd
      rw [hstep]
      calc (((M + 1 : Nat) : ℝ) / M) ^ (2.8 : ℝ) * com (M : Int) t * ((M + 1 - t : Nat) : ℝ)
          ≤ (((M + 1 : Nat) : ℝ) / M) ^ (3 : ℝ) * com (M : Int) t * ((M + 1 - t : Nat) : ℝ) := by
            refine mul_le_mul_of_nonneg_right (mul_le_mul_of_nonneg_right hratio (by linarith)) hd.le
        _ = com (M : Int) t * ((((M + 1 : Nat) : ℝ) / M) ^ (3 : ℝ) * ((M + 1 - t : Nat) : ℝ)) := by ring
        _ ≤ com (M : Int) t * ((M + 1 : Nat) : ℝ) := mul_le_mul_of_nonneg_left h3 (by linarith)
    nlinarith

theorem gaussCost_choose (N k t : Nat) (h : k + t ≤ N) :
    gaussCost N k t = ((min k (N - k) : Nat) : ℝ) ^ (2.8 : ℝ) * (N.descFactorial k : ℝ) / ((N - t).descFactorial k : ℝ) := by
  unfold gaussCost
  rw [com_choose _ _ (by omega), com_choose _ _ (by omega), Nat.descFactorial_eq_factorial_mul_choose, Nat.descFactorial_eq_factorial_mul_choose]
  have h0 : 0 < (N - k).choose t := Nat.choose_pos (by omega)
  have h1 : 0 < (N - t).choose k := Nat.choose_pos (by omega)
  have h2 := Nat.factorial_pos k
  have h3 : ((N.choose k * (N - k).choose t : Nat) : ℝ) = ((N.choose t * (N - t).choose k : Nat) : ℝ) := by rw [choose_exchange N k t h]
  generalize ((min k (N - k) : Nat) : ℝ) ^ (2.8 : ℝ) = M
  push_cast at h3 ⊢
  rw [div_eq_div_iff (by positivity) (by positivity)]
  linear_combination (-M * (k.factorial : ℝ)) * h3

theorem rpow_five (m : Nat) : ((m : ℝ) ^ (2.8 : ℝ)) ^ (5 : Nat) = (m : ℝ) ^ (14 : Nat) := by
  rw [← Real.rpow_natCast, ← Real.rpow_mul (Nat.cast_nonneg m), ← Real.rpow_natCast]
  norm_num

/-- Comparing the cost with a power of 2. -/
theorem gaussCost_ge (N k t b : Nat) (h : k + t ≤ N)
    (hb : 2 ^ (5 * b) * (N - t).descFactorial k ^ 5 ≤ (min k (N - k)) ^ 14 * N.descFactorial k ^ 5) : (2 : ℝ) ^ b ≤ gaussCost N k t := by
  rw [gaussCost_choose N k t h]
  have h1 : 0 < (N - t).descFactorial k := Nat.pos_of_ne_zero fun e => by rw [Nat.descFactorial_eq_zero_iff_lt] at e; omega
  have h1' : (0 : ℝ) < (N - t).descFactorial k := by exact_mod_cast h1
  rw [le_div_iff₀ h1']
  refine le_of_pow_le_pow_left₀ (n := 5) (by norm_num) (by positivity) ?_
  rw [mul_pow, mul_pow, rpow_five, ← pow_mul, mul_comm b 5]
  exact_mod_cast hb

theorem gaussCost_lt (N k t b : Nat) (h : k + t ≤ N)
    (hb : (min k (N - k)) ^ 14 * N.descFactorial k ^ 5 < 2 ^ (5 * b) * (N - t).descFactorial k ^ 5) : gaussCost N k t < (2 : ℝ) ^ b := by
  rw [gaussCost_choose N k t h]
  have h1 : 0 < (N - t).descFactorial k := Nat.pos_of_ne_zero fun e => by rw [Nat.descFactorial_eq_zero_iff_lt] at e; omega
  have h1' : (0 : ℝ) < (N - t).descFactorial k := by exact_mod_cast h1
  rw [div_lt_iff₀ h1']
  refine lt_of_pow_lt_pow_left₀ 5 (by positivity) ?_
  rw [mul_pow, mul_pow, rpow_five, ← pow_mul, mul_comm b 5]
  exact_mod_cast hb

/-- With `f` times as many queries and errors the attack costs no more. -/
theorem gaussCost_times (N k t f : Nat) (hf : 1 ≤ f) (hk : k ≤ N - k) (h : k + t ≤ N) : gaussCost (f * N) k (f * t) ≤ gaussCost N k t := by
  have hfN : N ≤ f * N := Nat.le_mul_of_pos_left N hf
  have hft : f * k ≤ f * N - f * t := by
    rw [← Nat.mul_sub]
    exact Nat.mul_le_mul_left f (by omega)
  have hkf : k ≤ f * k := Nat.le_mul_of_pos_left k hf
  have hf2 : f * t ≤ f * N := Nat.mul_le_mul_left f (by omega)
  rw [gaussCost_choose N k t h, gaussCost_choose (f * N) k (f * t) (by omega), Nat.min_eq_left (by omega : k ≤ f * N - k), Nat.min_eq_left hk, mul_div_assoc,
    mul_div_assoc]
  refine mul_le_mul_of_nonneg_left ?_ (by positivity)
  rw [Nat.descFactorial_eq_prod_range, Nat.descFactorial_eq_prod_range, Nat.descFactorial_eq_prod_range, Nat.descFactorial_eq_prod_range]
  push_cast
  rw [← Finset.prod_div_distrib, ← Finset.prod_div_distrib]
  refine Finset.prod_le_prod (fun j _ => by positivity) fun j hj => ?_
  have hj := Finset.mem_range.1 hj
  have e1 : ((f * N - j : Nat) : ℝ) = f * N - j := by push_cast [Nat.cast_sub (show j ≤ f * N by omega)]; ring
  have e2 : ((N - j : Nat) : ℝ) = N - j := by push_cast [Nat.cast_sub (show j ≤ N by omega)]; ring
  have e3 : ((f * N - f * t - j : Nat) : ℝ) = f * N - f * t - j := by
    rw [Nat.cast_sub (by omega), Nat.cast_sub hf2]; push_cast; ring
  have e4 : ((N - t - j : Nat) : ℝ) = N - t - j := by rw [Nat.cast_sub (by omega), Nat.cast_sub (by omega)]
  have p3 : (0 : ℝ) < ((f * N - f * t - j : Nat) : ℝ) := by exact_mod_cast (show 0 < f * N - f * t - j by omega)
  have p4 : (0 : ℝ) < ((N - t - j : Nat) : ℝ) := by exact_mod_cast (show 0 < N - t - j by omega)
  rw [div_le_div_iff₀ p3 p4, e1, e2, e3, e4]
  have hf' : (1 : ℝ) ≤ f := by exact_mod_cast hf
  have ht' : (0 : ℝ) ≤ t := Nat.cast_nonneg t
  have hj' : (0 : ℝ) ≤ j := Nat.cast_nonneg j
  nlinarith [mul_nonneg (mul_nonneg (sub_nonneg.2 hf') ht') hj']

end Verif
