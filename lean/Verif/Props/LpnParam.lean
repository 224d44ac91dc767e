import Verif.LpnCostLemmas
import Verif.Props.LpnSearch

/-!
# C115: the estimate of the security of LPN
-/

namespace Verif.Props

/-- C115. `com` computes binomial coefficients. -/
theorem C115_com (n m : Nat) (h : m ≤ n) : com n m = n.choose m := com_choose n m h

/-- Outside of this range `com` is 1, and not 0. -/
example : com 5 2 = 10 ∧ com 2 5 = 1 := by
  refine ⟨?_, com_out 2 5 (by norm_num)⟩
  rw [show (5 : Int) = ((5 : Nat) : Int) from rfl, show (2 : Int) = ((2 : Nat) : Int) from rfl, C115_com 5 2 (by norm_num)]
  norm_num [Nat.choose]

/-- C115. `Guass` is the logarithm of the cost of inverting a matrix divided by the probability that `k` positions, chosen at random among `N`,
are free of errors, if there are as many free positions.  Missing: fewer free positions, `C115_gauss_false`. -/
theorem C115_gauss_partial (N k : Nat) (E : Finset (Fin N)) (hk : 1 ≤ k) (hN : k < N) (h : k + E.card ≤ N) :
    0 < cleanFraction N k E ∧
      guass N k E.card = some (.real (Real.logb 2 (((min k (N - k) : Nat) : ℝ) ^ (2.8 : ℝ) / cleanFraction N k E))) := by
  refine ⟨(clean_eq N k E h).2, ?_⟩
  rw [guass_eq N k E.card hk hN, ← gaussCost_clean N k E h]
  rfl

/-- One error among four positions: two positions are free of it with probability 1/2. -/
example : cleanFraction 4 2 {0} = 1 / 2 ∧ guass 4 2 1 = some (.real (Real.logb 2 ((2 : ℝ) ^ (2.8 : ℝ) / (1 / 2)))) := by
  have h := (C115_gauss_partial 4 2 {0} (by norm_num) (by norm_num) (by decide)).2
  have e : cleanFraction 4 2 {0} = 1 / 2 := by
    unfold cleanFraction
    rw [clean_card, Finset.card_powersetCard]
    norm_num [Nat.choose]
  rw [e] at h
  exact ⟨e, by simpa using h⟩

/-- C115 is false if there are fewer free positions than the key is long: the attack never succeeds, but the cost is finite. -/
theorem C115_gauss_false (N k : Nat) (E : Finset (Fin N)) (hk : 1 ≤ k) (hN : k < N) (h : N < k + E.card) :
    cleanFraction N k E = 0 ∧ ∃ x : ℝ, guass N k E.card = some (.real x) :=
  ⟨clean_zero N k E hN.le h, _, guass_eq N k E.card hk hN⟩

/-- Three errors among four positions. -/
example : cleanFraction 4 2 {0, 1, 2} = 0 ∧ ∃ x : ℝ, guass 4 2 3 = some (.real x) :=
  C115_gauss_false 4 2 {0, 1, 2} (by norm_num) (by norm_num) (by decide)

/-- C115. `Ourparitycheckforq` is the logarithm of `k + 1` divided by the square of the probability that `k + 1` positions are free of
errors, if there are as many free positions. -/
theorem C115_parity_partial (N k : Nat) (E : Finset (Fin N)) (h : k + 1 + E.card ≤ N) :
    0 < cleanFraction N (k + 1) E ∧ parityCheckq N k E.card = .real (Real.logb 2 (((k : ℝ) + 1) / cleanFraction N (k + 1) E ^ 2)) := by
  refine ⟨(clean_eq N (k + 1) E h).2, ?_⟩
  rw [parityCheckq_eq N k E.card (by omega), ← parityCost_clean N k E h]
  rfl

/-- One error among four positions: the attack costs 3 / (1/4)^2. -/
example : parityCheckq 4 2 1 = .real (Real.logb 2 48) := by
  have h := (C115_parity_partial 4 2 {0} (by decide)).2
  have e : cleanFraction 4 (2 + 1) {0} = 1 / 4 := by
    unfold cleanFraction
    rw [clean_card, Finset.card_powersetCard]
    norm_num [Nat.choose]
  rw [e] at h
  have h : parityCheckq 4 2 1 = .real (Real.logb 2 (((2 : Nat) + 1 : ℝ) / (1 / 4) ^ 2)) := h
  rw [h]
  norm_num

/-- C115. The estimate of the security is a number, not negative, and not above the cost of these two attacks on the average number of errors. -/
theorem C115_estimate (tau q N k : Nat) (hq : 2 ≤ q) (hk : 1 ≤ k) (hN : k + 2 ≤ N) (E : Finset (Fin N))
    (hE : E.card = N * (q - 1) / (2 ^ tau * q)) (h : k + 1 + E.card ≤ N) :
    ∃ x : ℝ, secLpn tau q N k = .real x ∧ 0 ≤ x ∧ (2 : ℝ) ^ x ≤ ((min k (N - k) : Nat) : ℝ) ^ (2.8 : ℝ) / cleanFraction N k E ∧
      (2 : ℝ) ^ x ≤ ((k : ℝ) + 1) / cleanFraction N (k + 1) E ^ 2 := by
  obtain ⟨x, h1, h2, h3, h4⟩ := secLpn_bounds tau q N k hq hk (Or.inl hN)
  rw [← hE] at h3 h4
  have hg : 0 < gaussCost N k E.card := lt_of_lt_of_le one_pos (guass_arg N k E.card hk (by omega))
  have hp : 0 < parityCost N k E.card := lt_of_lt_of_le one_pos (parity_arg N k E.card (by omega))
  refine ⟨x, h1, h2, ?_, ?_⟩
  · rw [← gaussCost_clean N k E (by omega)]
    exact (Real.le_logb_iff_rpow_le (by norm_num) hg).1 h3
  · rw [← parityCost_clean N k E h]
    exact (Real.le_logb_iff_rpow_le (by norm_num) hp).1 h4

/-- C115. For the parameters which `gen_lpn_params.py` prints, both attacks cost at least `2^want`, wherever the errors are. -/
theorem C115_printed (tau q : Nat) (hq : 2 ≤ q) (htau : 1 ≤ tau) (want : ℝ) (hw : 1 ≤ want) (error : ℚ) (he : error < 1 / 2 ^ (tau + 1))
    (N k : Nat) (h : findLpnParams (secLpn tau q) tau want error = (N, some k)) (E : Finset (Fin N))
    (hE : E.card = N * (q - 1) / (2 ^ tau * q)) :
    0 < cleanFraction N k E ∧ 0 < cleanFraction N (k + 1) E ∧
      (2 : ℝ) ^ want ≤ ((min k (N - k) : Nat) : ℝ) ^ (2.8 : ℝ) / cleanFraction N k E ∧
      (2 : ℝ) ^ want ≤ ((k : ℝ) + 1) / cleanFraction N (k + 1) E ^ 2 := by
  obtain ⟨h1, h2, -, h3, h4⟩ := C100_params_partial tau q hq want error N k h
  obtain ⟨hk2, herr⟩ := h4 hw htau
  have hroom := room_of_correct N k tau q hq h2.le error he (by omega) herr
  rw [← hE] at hroom
  have hlt : k + 2 ≤ N := by
    by_contra hlt
    obtain rfl : N = k + 1 := by omega
    have hm := mean_le 0 (k + 1) (Nat.zero_le _) (1 / 2 ^ tau) (by positivity) (by
      rw [div_le_one (by positivity)]
      exact one_le_pow₀ (by norm_num))
    rw [error_tail, show (k + 1 - k) / 2 = 0 by omega] at herr
    have hpos : (0 : ℚ) < ((k + 1 : Nat) : ℚ) := by positivity
    have h5 : binomTail 0 (k + 1) (1 / 2 ^ tau) < 1 / 2 ^ tau := by
      refine lt_of_le_of_lt herr (lt_trans he ?_)
      exact one_div_lt_one_div_of_lt (by positivity) (pow_lt_pow_right₀ (by norm_num) (Nat.lt_succ_self tau))
    have := mul_lt_mul_of_pos_left h5 hpos
    push_cast at hm this
    linarith
  obtain ⟨x, hx, -, hg, hp⟩ := C115_estimate tau q N k hq h1 hlt E hE hroom
  rw [hx] at h3
  have h3' : want ≤ x := EReal.coe_le_coe_iff.1 h3
  have hmono : (2 : ℝ) ^ want ≤ 2 ^ x := Real.rpow_le_rpow_of_exponent_le (by norm_num) h3'
  exact ⟨(clean_eq N k E (by omega)).2, (clean_eq N (k + 1) E hroom).2, le_trans hmono hg, le_trans hmono hp⟩

/-- There are such parameters, see `C100_found`. -/
example : ∃ N k, findLpnParams (secLpn 2 262144) 2 7 (1 / 2 ^ 40) = (N, some k) ∧ ∀ E : Finset (Fin N), E.card = N * (262144 - 1) / (2 ^ 2 * 262144) →
    (2 : ℝ) ^ (7 : ℝ) ≤ ((min k (N - k) : Nat) : ℝ) ^ (2.8 : ℝ) / cleanFraction N k E := by
  obtain ⟨N, k, h⟩ := C100_found 262144 (by norm_num)
  exact ⟨N, k, h, fun E hE => (C115_printed 2 262144 (by norm_num) (by norm_num) 7 (by norm_num) _ (by norm_num) N k h E hE).2.2.1⟩

/-- C115. The estimate is also bounded from below, for rows of even length: it is at least the smallest of the logarithms of `2 * N`, of the cost of
inverting a matrix, and of `k + 1`, and of 230. -/
theorem C115_least (tau q N k : Nat) (hq : 2 ≤ q) (hk : 1 ≤ k) (hN : k + 2 ≤ N) (heven : N % 2 = 0) : ∃ x : ℝ, secLpn tau q N k = .real x ∧
    min (min (Real.logb 2 (2 * N)) (2.8 * Real.logb 2 (min k (N - k) : Nat))) (min (Real.logb 2 (k + 1)) 230) ≤ x := by
  refine secLpn_least tau q N k _ (le_trans (min_le_right _ _) (min_le_right _ _)) (le_trans (min_le_left _ _) (min_le_left _ _)) ?_
    (le_trans (min_le_right _ _) (min_le_left _ _)) hq hk hN heven
  refine le_trans (min_le_left _ _) (le_trans (min_le_right _ _) ?_)
  have : (0 : ℝ) < ((min k (N - k) : Nat) : ℝ) := by exact_mod_cast (show 0 < min k (N - k) by omega)
  unfold log2r
  rw [Real.logb_rpow_eq_mul_logb_of_pos this]

/-- C115. The search for the shortest key relies on longer keys being more secure.  For `Guass` they are, from three errors on. -/
theorem C115_gauss_mono (N k t : Nat) (hk : 1 ≤ k) (ht : 3 ≤ t) (hN : k + 1 + t ≤ N) :
    ∃ x y : ℝ, guass N k t = some (.real x) ∧ guass N (k + 1) t = some (.real y) ∧ x ≤ y :=
  ⟨_, _, guass_eq N k t hk (by omega), guass_eq N (k + 1) t (by omega) (by omega),
    log2r_le (guass_arg N k t hk (by omega)) (gaussCost_mono N k t hk ht hN)⟩

/-- With two errors a longer key can be less secure, by `Guass`. -/
theorem C115_gauss_mono_false : ∃ x y : ℝ, guass 20 10 2 = some (.real x) ∧ guass 20 11 2 = some (.real y) ∧ y < x := by
  refine ⟨_, _, guass_eq 20 10 2 (by norm_num) (by norm_num), guass_eq 20 11 2 (by norm_num) (by norm_num), ?_⟩
  refine Real.logb_lt_logb (by norm_num) (lt_of_lt_of_le one_pos (guass_arg 20 11 2 (by norm_num) (by norm_num))) ?_
  have e1 : com ((20 - 11 : Nat) : Int) ((2 : Nat) : Int) = 36 := by rw [com_choose 9 2 (by norm_num)]; norm_num [Nat.choose]
  have e2 : com ((20 - 10 : Nat) : Int) ((2 : Nat) : Int) = 45 := by rw [com_choose 10 2 (by norm_num)]; norm_num [Nat.choose]
  have e3 := com_one_le ((20 : Nat) : Int) ((2 : Nat) : Int)
  rw [e1, e2, show min 11 (20 - 11) = 9 from rfl, show min 10 (20 - 10) = 10 from rfl]
  generalize (com ((20 : Nat) : Int) ((2 : Nat) : Int) : ℝ) = C at e3
  have h5 : (45 * (9 : ℝ) ^ (2.8 : ℝ)) ^ (5 : Nat) < (36 * (10 : ℝ) ^ (2.8 : ℝ)) ^ (5 : Nat) := by
    have p : ∀ b : ℝ, 0 ≤ b → (b ^ (2.8 : ℝ)) ^ (5 : Nat) = b ^ (14 : Nat) := by
      intro b hb
      rw [← Real.rpow_natCast (b ^ (2.8 : ℝ)) 5, ← Real.rpow_mul hb, ← Real.rpow_natCast b 14]
      norm_num
    rw [mul_pow, mul_pow, p 9 (by norm_num), p 10 (by norm_num)]
    norm_num
  have h6 := lt_of_pow_lt_pow_left₀ 5 (by positivity) h5
  push_cast
  rw [div_lt_div_iff₀ (by norm_num) (by norm_num)]
  nlinarith

/-- C115. The estimate is not above the cost of information set decoding with any parameter `p`, unless a smaller parameter costs over 30 bits
more than the estimate: then the script gives up. -/
theorem C115_sd (N k t q : Nat) (hq : 2 ≤ q) (hk : 1 ≤ k) (hN : k + 2 ≤ N) (heven : N % 2 = 0) :
    ∃ v y : ℝ, analysisForq N k t q = some (.real v) ∧ sdIsdq N k t q = some (.real y) ∧ v ≤ y ∧ ∀ p < t / 2,
      ∃ c, minSdIsdq N k t q p = some c ∧ (c = .nan ∨ PyFloat.le (.real y) c ∨
        ∃ j < p, ∃ d : EReal, minSdIsdq N k t q j = some (.val d) ∧ (y + 30 : ℝ) < d) := by
  obtain ⟨w0, h0⟩ := subSdIsdq_some N k t q 0 0 heven
  obtain ⟨w, h1⟩ := sdLoop_some N k t q heven (List.range (t / 2)) w0
  have hbN : (0 : ℝ) ≤ log2r (2 * N) := Real.logb_nonneg (by norm_num) (by
    have : (1 : ℝ) ≤ N := by exact_mod_cast (show 1 ≤ N by omega)
    linarith)
  have hp0 : w0.Proper 0 := PyFloat.proper_of (subSdIsdq_least N k t q 0 0 0 (by norm_num) hbN (by omega) hq _ h0)
    (fun he => subSdIsdq_first N k t q (Or.inl hN) (he ▸ h0))
  have hp : w.Proper 0 := sdLoop_proper N k t q 0 (by norm_num) hbN (by omega) hq _ _ _ hp0 h1
  cases w0 with
  | nan => exact absurd hp0 id
  | val m =>
    rw [List.range_eq_range'] at h1
    obtain ⟨z, rfl, -, hall⟩ := sdLoop_seen N k t q heven _ _ _ _ h1
    obtain ⟨y, hy, hyz⟩ : ∃ y : ℝ, sdIsdq N k t q = some (.real y) ∧ (y : EReal) ≤ z := by
      unfold sdIsdq
      rw [h0, guass_eq N k t hk (by omega), List.range_eq_range']
      simp only [Option.bind_eq_bind, Option.bind_some, Option.pure_def]
      rw [h1]
      simp only [Option.bind_some, Option.some.injEq]
      change ∃ y : ℝ, (if PyFloat.lt (.real (log2r (gaussCost N k t))) (.val z) then PyFloat.real (log2r (gaussCost N k t)) else _) = _ ∧ _
      by_cases hlt : ((log2r (gaussCost N k t) : ℝ) : EReal) < z
      · exact ⟨_, if_pos hlt, hlt.le⟩
      · have h3 : ((0 : ℝ) : EReal) ≤ z := hp
        have h4 := not_lt.1 hlt
        induction z with
        | bot => simp at h3
        | top => simp at h4
        | coe y => exact ⟨y, if_neg hlt, le_refl _⟩
    obtain ⟨v, hv, hvy⟩ : ∃ v : ℝ, analysisForq N k t q = some (.real v) ∧ v ≤ y := by
      unfold analysisForq
      rw [hy, parityCheckq_eq N k t (by omega)]
      simp only [Option.bind_eq_bind, Option.bind_some, Option.pure_def, Option.some.injEq]
      change ∃ v : ℝ, (if PyFloat.lt (.real (log2r (parityCost N k t))) (.real y) then PyFloat.real (log2r (parityCost N k t)) else _) = _ ∧ _
      by_cases hlt : ((log2r (parityCost N k t) : ℝ) : EReal) < (y : EReal)
      · exact ⟨_, if_pos hlt, (EReal.coe_lt_coe_iff.1 hlt).le⟩
      · exact ⟨y, if_neg hlt, le_refl _⟩
    refine ⟨v, y, hv, hy, hvy, fun p hpt => ?_⟩
    obtain ⟨c, hc, h3⟩ := hall p (Nat.zero_le _) (by omega)
    refine ⟨c, hc, ?_⟩
    rcases h3 with h3 | h3 | ⟨j, -, h5, d, h6, h7⟩
    · exact Or.inl h3
    · refine Or.inr (Or.inl ?_)
      cases c with
      | nan => exact absurd h3 id
      | val x => exact hyz.trans h3
    · refine Or.inr (Or.inr ⟨j, h5, d, h6, lt_of_le_of_lt ?_ h7⟩)
      rw [EReal.coe_add]
      exact add_le_add hyz (le_refl _)

/-- Four errors: the values 0 and 1 of the parameter are tried. -/
example : ∃ v y : ℝ, analysisForq 20 10 4 2 = some (.real v) ∧ sdIsdq 20 10 4 2 = some (.real y) ∧ v ≤ y ∧
    ∃ c, minSdIsdq 20 10 4 2 0 = some c ∧ (c = .nan ∨ PyFloat.le (.real y) c) := by
  obtain ⟨v, y, h1, h2, h3, h4⟩ := C115_sd 20 10 4 2 (by norm_num) (by norm_num) (by norm_num) (by norm_num)
  obtain ⟨c, h5, h6⟩ := h4 0 (by norm_num)
  refine ⟨v, y, h1, h2, h3, c, h5, ?_⟩
  rcases h6 with h6 | h6 | ⟨j, hj, -⟩
  · exact Or.inl h6
  · exact Or.inr h6
  · omega

end Verif.Props
