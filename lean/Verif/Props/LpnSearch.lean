import Verif.LpnSearchLemmas

/-!
# C100: the search of `scripts/gen_lpn_params.py`
-/

namespace Verif.Props

/-- C100. `find_k_correct` finds the largest key length, below `N`, for which the correctness error is at most the wanted one, if there is
any. -/
theorem C100_largest (N tau : Nat) (error : ℚ) (hN : 2 ≤ N) (h1 : correctnessError N 1 tau ≤ error) :
    let k := findKCorrect N tau error
    1 ≤ k ∧ k < N ∧ ∀ k', 1 ≤ k' → k' < N → (correctnessError N k' tau ≤ error ↔ k' ≤ k) := by
  obtain ⟨a1, a2, a3, a4⟩ := findKCorrectIn_spec N tau error 1 (N - 1) 1 N (le_refl _) (Or.inl rfl) (le_refl _) (by omega) (Or.inl rfl)
  refine ⟨a2, a3, fun k' h2 h3 => ⟨fun h => ?_, fun h => ?_⟩⟩
  · by_contra hlt
    exact absurd h (not_le.2 (a4 k' (not_le.1 hlt) h3))
  · refine le_trans (error_mono h tau) ?_
    rcases a1 with h | h
    · unfold findKCorrect
      rw [h]
      exact h1
    · exact h

/-- The search for the shortest key looks only at keys within its bounds. -/
theorem findKSecIn_congr {sec sec' : Nat → PyFloat} (want : ℝ) : ∀ (n b e : Nat), e - b ≤ n → (∀ k, b ≤ k → k < e → sec k = sec' k) →
    findKSecIn sec want b e = findKSecIn sec' want b e := by
  intro n
  induction n with
  | zero => intro b e hn _; rw [findKSecIn, findKSecIn, dif_pos (by omega), dif_pos (by omega)]
  | succ n ih =>
    intro b e hn h
    rw [findKSecIn, findKSecIn]
    by_cases hbe : e ≤ b
    · rw [dif_pos hbe, dif_pos hbe]
    · rw [dif_neg hbe, dif_neg hbe]
      simp only
      rw [h ((b + e) / 2) (by omega) (by omega), ih ((b + e) / 2 + 1) e (by omega) fun k h1 h2 => h k (by omega) h2,
        ih b ((b + e) / 2) (by omega) fun k h1 h2 => h k h1 (by omega)]

/-- C100. The search asks for the security of keys only if they are not empty and shorter than the rows, or rows and keys have one element; estimates for
other lengths do not matter. -/
theorem C100_range (sec sec' : Nat → Nat → PyFloat) (tau : Nat) (want : ℝ) (error : ℚ)
    (h : ∀ N k, 1 ≤ k → (k < N ∨ (N = 1 ∧ k = 1)) → sec N k = sec' N k) :
    findLpnParams sec tau want error = findLpnParams sec' tau want error := by
  have hK : ∀ N, 1 ≤ N → findK (sec N) N tau want error = findK (sec' N) N tau want error := by
    intro N hN
    obtain ⟨-, a1, a2, a3⟩ := findKCorrect_bounds N tau error
    have hm : findKCorrect N tau error < N ∨ (N = 1 ∧ findKCorrect N tau error = 1) := by
      by_cases h2 : 2 ≤ N
      · exact Or.inl (a2 h2)
      · exact Or.inr ⟨by omega, a3 (by omega)⟩
    unfold findK
    simp only
    rw [h N _ a1 hm, findKSecIn_congr want _ 1 _ le_rfl fun k h1 h2 => h N k h1 (by omega)]
  have hP : ∀ (n low high : Nat), 1 ≤ low → high - low ≤ n → findLpnParamsIn sec tau want error low high = findLpnParamsIn sec' tau want error low high := by
    intro n
    induction n with
    | zero => intro low high hl hn; rw [findLpnParamsIn, findLpnParamsIn, dif_pos (by omega), dif_pos (by omega), hK low hl]
    | succ n ih =>
      intro low high hl hn
      rw [findLpnParamsIn, findLpnParamsIn]
      by_cases hh : high ≤ low
      · rw [dif_pos hh, dif_pos hh, hK low hl]
      · rw [dif_neg hh, dif_neg hh]
        simp only
        rw [hK _ (by omega), ih ((low + high) / 2 + 1) high (by omega) (by omega), ih low ((low + high) / 2) hl (by omega)]
  exact hP _ 1 1500 le_rfl le_rfl

/-- What `Guass` gives for keys longer than the rows does not matter. -/
example (x : PyFloat) : findLpnParams (fun N k => if N < k then x else secLpn 2 5 N k) 2 7 (1 / 2 ^ 40) = findLpnParams (secLpn 2 5) 2 7 (1 / 2 ^ 40) :=
  C100_range _ _ _ _ _ fun N k h1 h2 => if_neg (by omega)

/-- C100. If `find_lpn_params` finds parameters their security is at least the wanted one, as estimated; and their correctness error is at most
the wanted one if at least one bit of security is wanted and not every entry is an error.  Missing for the full claim: no security wanted, for
which it is false (`C100_params_false`). -/
theorem C100_params_partial (tau q : Nat) (hq : 2 ≤ q) (want : ℝ) (error : ℚ) (N k : Nat)
    (h : findLpnParams (secLpn tau q) tau want error = (N, some k)) :
    1 ≤ k ∧ k < N ∧ N ≤ 1500 ∧ PyFloat.le (.real want) (secLpn tau q N k) ∧ (1 ≤ want → 1 ≤ tau → 2 ≤ k ∧ correctnessError N k tau ≤ error) := by
  obtain ⟨N', a1, a2, a3, -, -⟩ := findLpnParamsIn_spec (secLpn tau q) tau want error 1499 1 1500 (by norm_num) (by norm_num)
  unfold findLpnParams at h
  rw [a1, Prod.mk.injEq] at h
  obtain ⟨rfl, h⟩ := h
  unfold findK at h
  simp only at h
  split at h
  · rename_i hw
    have hk := Option.some.inj h
    obtain ⟨hm1, hm2, hm3, hm4⟩ := findKCorrect_bounds N' tau error
    have hN2 : 2 ≤ N' := by
      by_contra hlt
      rw [hm4 (by omega), show N' = 1 by omega, secLpn_one tau q hq] at hw
      unfold PyFloat.real PyFloat.le at hw
      simp at hw
    have hlt := hm3 hN2
    obtain ⟨b1, b2, b3, -⟩ := findKSecIn_spec (secLpn tau q N') want _ 1 (findKCorrect N' tau error) (le_refl _) hm2 hw (fun j hj1 hj2 hnan => by
      obtain ⟨x, hx, -⟩ := secLpn_bounds tau q N' j hq hj1 (Or.inl (by omega))
      rw [hx] at hnan
      unfold PyFloat.real at hnan
      simp at hnan)
    rw [hk] at b1 b2 b3
    refine ⟨b2, by omega, a3, b1, fun h1 h2 => ?_⟩
    have hk2 : 2 ≤ k := by
      by_contra hlt
      obtain rfl : k = 1 := by omega
      obtain ⟨x, hx, -, hg, -⟩ := secLpn_bounds tau q N' 1 hq (le_refl _) (by omega)
      rw [hx] at b1
      have b1' : want ≤ x := EReal.coe_le_coe_iff.1 b1
      have hc := gaussCost_one tau q N' hq h2 hN2
      have hc1 : 1 ≤ gaussCost N' 1 (N' * (q - 1) / (2 ^ tau * q)) := guass_arg N' 1 _ (le_refl _) (by omega)
      have : log2r (gaussCost N' 1 (N' * (q - 1) / (2 ^ tau * q))) < log2r 2 := Real.logb_lt_logb (by norm_num) (by linarith) hc
      rw [show log2r 2 = 1 from Real.logb_self_eq_one (by norm_num)] at this
      linarith
    refine ⟨hk2, ?_⟩
    rcases hm1 with h | h
    · omega
    · exact le_trans (error_mono b3 tau) h
  · simp at h

/-- C100 is false if no security is wanted: for `gen_lpn_params.py 0 40 2 q` the script recommends rows of length 2 and keys of length 1, and the
correctness error is 7/16. -/
theorem C100_params_false (q : Nat) (hq : 2 ≤ q) :
    findLpnParams (secLpn 2 q) 2 0 (1 / 2 ^ 40) = (2, some 1) ∧ correctnessError 2 1 2 = 7 / 16 ∧ (1 : ℚ) / 2 ^ 40 < 7 / 16 := by
  refine ⟨?_, ?_, by norm_num⟩
  · have hall : ∀ N, 2 ≤ N → (findK (secLpn 2 q N) N 2 0 (1 / 2 ^ 40)).isSome := by
      intro N hN
      obtain ⟨hm1, hm2, hm3, -⟩ := findKCorrect_bounds N 2 (1 / 2 ^ 40)
      unfold findK
      simp only
      have hlt := hm3 hN
      generalize findKCorrect N 2 (1 / 2 ^ 40) = k at *
      have hk : k + 2 ≤ N ∨ (k = 1 ∧ N = 2) := by
        by_contra hno
        obtain rfl : N = k + 1 := by omega
        have hm1 := hm1.resolve_left (by omega)
        have : correctnessError (k + 1) k 2 = 1 - (3 / 4) ^ (k + 1) := by
          unfold correctnessError binomCdf
          simp only
          rw [show (k + 1 - k + 1 - 1) / 2 + 1 = 1 by omega, Finset.sum_range_one]
          norm_num
        rw [this] at hm1
        have h2 : ((3 : ℚ) / 4) ^ (k + 1) ≤ (3 / 4) ^ 1 := pow_le_pow_of_le_one (by norm_num) (by norm_num) (by omega)
        norm_num at h2 hm1
        linarith
      obtain ⟨x, hx, h0, -⟩ := secLpn_bounds 2 q N k hq hm2 hk
      rw [hx, if_pos (show PyFloat.le (.real 0) (.real x) from EReal.coe_le_coe_iff.2 h0)]
      rfl
    have hnone : findK (secLpn 2 q 1) 1 2 0 (1 / 2 ^ 40) = none := by
      unfold findK
      simp only
      rw [(findKCorrect_bounds 1 2 (1 / 2 ^ 40)).2.2.2 (le_refl _), secLpn_one 2 q hq, if_neg]
      unfold PyFloat.real PyFloat.le
      simp
    have hlow : ∀ n high, high - 1 ≤ n → 2 ≤ high →
        findLpnParamsIn (secLpn 2 q) 2 0 (1 / 2 ^ 40) 1 high = (2, findK (secLpn 2 q 2) 2 2 0 (1 / 2 ^ 40)) := by
      intro n
      induction n with
      | zero => intro high h h2; omega
      | succ n ih =>
        intro high h h2
        rw [findLpnParamsIn, dif_neg (by omega)]
        simp only
        by_cases h3 : high = 2
        · subst h3
          rw [show (1 + 2) / 2 = 1 from rfl, hnone]
          simp only
          rw [findLpnParamsIn, dif_pos (by norm_num)]
        · obtain ⟨k, hk⟩ := Option.isSome_iff_exists.1 (hall ((1 + high) / 2) (by omega))
          rw [hk]
          exact ih _ (by omega) (by omega)
    unfold findLpnParams
    rw [hlow 1499 1500 (by norm_num) (by norm_num)]
    have h1 : findKCorrect 2 2 (1 / 2 ^ 40) = 1 := by
      have := findKCorrect_bounds 2 2 (1 / 2 ^ 40)
      have h2 := this.2.2.1 (le_refl _)
      omega
    have hs := hall 2 (le_refl _)
    unfold findK at hs ⊢
    rw [h1] at hs ⊢
    simp only at hs ⊢
    split at hs
    · rename_i hw
      rw [if_pos hw, findKSecIn, dif_pos (le_refl 1)]
    · simp at hs
  · unfold correctnessError binomCdf
    norm_num

/-- C100. If longer rows never make the search for a key length fail, the rows which are found are the shortest; and if longer keys, among those
that are considered, are never less secure, the keys are the shortest for this length of rows. -/
theorem C100_shortest (tau q : Nat) (hq : 2 ≤ q) (want : ℝ) (error : ℚ)
    (hN : ∀ i j, i ≤ j → (findK (secLpn tau q i) i tau want error).isSome → (findK (secLpn tau q j) j tau want error).isSome) :
    (∀ N k, findLpnParams (secLpn tau q) tau want error = (N, some k) →
      (∀ N', 1 ≤ N' → N' < N → findK (secLpn tau q N') N' tau want error = none) ∧
      ((∀ i j, 1 ≤ i → i ≤ j → j ≤ findKCorrect N tau error → (secLpn tau q N i).le (secLpn tau q N j)) →
        ∀ k', 1 ≤ k' → k' < k → (secLpn tau q N k').lt (.real want))) ∧
    ((∃ N, 1 ≤ N ∧ N ≤ 1500 ∧ (findK (secLpn tau q N) N tau want error).isSome) →
      ∃ N k, findLpnParams (secLpn tau q) tau want error = (N, some k)) := by
  obtain ⟨N', a1, a2, a3, a4, a5⟩ := findLpnParamsIn_spec (secLpn tau q) tau want error 1499 1 1500 (by norm_num) (by norm_num)
  refine ⟨fun N k h => ?_, ?_⟩
  · obtain ⟨-, hkN, -⟩ := C100_params_partial tau q hq want error N k h
    unfold findLpnParams at h
    rw [a1, Prod.mk.injEq] at h
    obtain ⟨rfl, h⟩ := h
    refine ⟨a5 hN, fun hmono k' h1 h2 => ?_⟩
    unfold findK at h
    simp only at h
    split at h
    · rename_i hw
      have hk := Option.some.inj h
      obtain ⟨-, hm2, hm3, hm4⟩ := findKCorrect_bounds N' tau error
      rw [← hk] at h2
      refine (findKSecIn_spec (secLpn tau q N') want _ 1 (findKCorrect N' tau error) (le_refl _) hm2 hw (fun j hj1 hj2 hnan => ?_)).2.2.2
        hmono k' h1 h2
      have : 2 ≤ N' := by
        by_contra hlt
        rw [hm4 (by omega)] at hj2
        omega
      obtain ⟨x, hx, -⟩ := secLpn_bounds tau q N' j hq hj1 (Or.inl (by have := hm3 this; omega))
      rw [hx] at hnan
      unfold PyFloat.real at hnan
      simp at hnan
    · simp at h
  · rintro ⟨N, h1, h2, h3⟩
    have hs : (findK (secLpn tau q N') N' tau want error).isSome := by
      by_cases hlt : N' < 1500
      · exact a4 hlt
      · exact hN N N' (by omega) h3
    obtain ⟨k, hk⟩ := Option.isSome_iff_exists.1 hs
    exact ⟨N', k, by unfold findLpnParams; rw [a1, hk]⟩

/-- C100. Parameters are found, for example, for 7 bits of security and a correctness error of `2^-40` with an error rate of 1/4. -/
theorem C100_found (q : Nat) (hq : 2 ≤ q) : ∃ N k, findLpnParams (secLpn 2 q) 2 7 (1 / 2 ^ 40) = (N, some k) := by
  obtain ⟨N', a1, a2, a3, a4, -⟩ := findLpnParamsIn_spec (secLpn 2 q) 2 7 (1 / 2 ^ 40) 1499 1 1500 (by norm_num) (by norm_num)
  have hs : (findK (secLpn 2 q N') N' 2 7 (1 / 2 ^ 40)).isSome := by
    by_cases hlt : N' < 1500
    · exact a4 hlt
    · obtain rfl : N' = 1500 := by omega
      have herr : correctnessError 1500 127 2 ≤ 1 / 2 ^ 40 := by
        rw [error_tail, show (1 : ℚ) / 2 ^ 2 = ((1 : Nat) : ℚ) / (4 : Nat) by norm_num, show (1 : ℚ) / 2 ^ 40 = 1 / ((2 ^ 40 : Nat) : ℚ) by norm_num]
        exact tail_le (by decide) (by decide) (by decide) (by decide) (by decide +kernel)
      have herr2 : ¬ correctnessError 1500 1372 2 ≤ 1 / 2 ^ 40 := by
        rw [not_le, error_tail, show (1 : ℚ) / 2 ^ 2 = ((1 : Nat) : ℚ) / (4 : Nat) by norm_num, show (1 : ℚ) / 2 ^ 40 = 1 / ((2 ^ 40 : Nat) : ℚ) by norm_num]
        exact lt_tail (by decide) (by decide) (by decide) (by decide) (by decide +kernel)
      obtain ⟨h1, h2, h3⟩ := C100_largest 1500 2 (1 / 2 ^ 40) (by norm_num) (le_trans (error_mono (by norm_num) 2) herr)
      have h4 := (h3 127 (by norm_num) (by norm_num)).1 herr
      have h5 := not_le.1 fun h => herr2 ((h3 1372 (by norm_num) (by norm_num)).2 h)
      unfold findK
      simp only
      generalize findKCorrect 1500 2 (1 / 2 ^ 40) = k at *
      have e7 : (7 : ℝ) = log2r (2 ^ (7 : ℝ)) := (Real.logb_rpow (by norm_num) (by norm_num)).symm
      have hle : ∀ x : ℝ, 2 ^ (7 : ℝ) ≤ x → 7 ≤ log2r x := fun x hx => by
        rw [e7]
        exact log2r_le (Real.one_le_rpow (by norm_num) (by norm_num)) hx
      have hm : (128 : ℝ) ≤ ((min k (1500 - k) : Nat) : ℝ) ^ (2.8 : ℝ) := by
        have h6 : (127 : ℝ) ≤ ((min k (1500 - k) : Nat) : ℝ) := by exact_mod_cast (show 127 ≤ min k (1500 - k) by omega)
        calc (128 : ℝ) ≤ (127 : ℝ) ^ (2 : ℝ) := by norm_num
          _ ≤ (127 : ℝ) ^ (2.8 : ℝ) := Real.rpow_le_rpow_of_exponent_le (by norm_num) (by norm_num)
          _ ≤ _ := Real.rpow_le_rpow (by norm_num) h6 (by norm_num)
      obtain ⟨x, hx, h7⟩ := secLpn_least 2 q 1500 k 7 (by norm_num) (hle _ (by norm_num)) (hle _ (le_trans (by norm_num) hm))
        (hle _ (by norm_num; exact_mod_cast (show 128 ≤ k + 1 by omega))) hq (by omega) (by omega) (by norm_num)
      rw [hx, if_pos (show PyFloat.le (.real 7) (.real x) from EReal.coe_le_coe_iff.2 h7)]
      rfl
  obtain ⟨k, hk⟩ := Option.isSome_iff_exists.1 hs
  exact ⟨N', k, by unfold findLpnParams; rw [a1, hk]⟩

/-- The largest key length for rows of 555 elements and an error of `2^-40` is not below the default. -/
example : 127 ≤ findKCorrect 555 2 (1 / (2 ^ 40 : Nat)) := by
  have h := C100_largest 555 2 (1 / (2 ^ 40 : Nat)) (by norm_num) (le_trans (error_mono (by norm_num) 2) default_error)
  exact (h.2.2 127 (by norm_num) (by norm_num)).1 default_error

/-- The parameters of the README, `gen_lpn_params.py 80 40 2 262144`: whatever is found has a correctness error of at most `2^-40`. -/
example (N k : Nat) (h : findLpnParams (secLpn 2 262144) 2 80 (1 / 2 ^ 40) = (N, some k)) : 2 ≤ k ∧ correctnessError N k 2 ≤ 1 / 2 ^ 40 :=
  (C100_params_partial 2 262144 (by norm_num) 80 _ N k h).2.2.2.2 (by norm_num) (by norm_num)

end Verif.Props
