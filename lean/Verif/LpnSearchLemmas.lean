import Verif.LpnErrLemmas
import Verif.LpnParamLemmas

/-!
# What the binary searches of `scripts/gen_lpn_params.py` find
-/

namespace Verif

/-- What `find_k_correct` finds between two bounds, of which the lower one is good or where it starts. -/
theorem findKCorrectIn_spec (N tau : Nat) (error : ℚ) (b0 : Nat) : ∀ (n b e : Nat), e - b ≤ n →
    (b = b0 ∨ correctnessError N b tau ≤ error) → b0 ≤ b → b < e → (e = N ∨ error < correctnessError N e tau) →
    let k := findKCorrectIn N tau error b e
    (k = b0 ∨ correctnessError N k tau ≤ error) ∧ b0 ≤ k ∧ k < e ∧ ∀ k', k < k' → k' < N → error < correctnessError N k' tau := by
  intro n
  induction n with
  | zero => intro b e h _ _ h2; omega
  | succ n ih =>
    intro b e hn hb h0 hbe he
    rw [findKCorrectIn]
    by_cases h : e ≤ b + 1
    · rw [dif_pos h]
      refine ⟨hb, h0, hbe, fun k' h1 h2 => ?_⟩
      rcases he with rfl | he
      · omega
      · exact lt_of_lt_of_le he (error_mono (by omega) tau)
    · rw [dif_neg h]
      simp only
      split
      · rename_i hm
        obtain ⟨a1, a2, a3, a4⟩ := ih ((b + e) / 2) e (by omega) (Or.inr hm) (by omega) (by omega) he
        exact ⟨a1, a2, a3, a4⟩
      · rename_i hm
        obtain ⟨a1, a2, a3, a4⟩ := ih b ((b + e) / 2) (by omega) hb h0 (by omega) (Or.inr (not_le.1 hm))
        exact ⟨a1, a2, by omega, a4⟩

theorem PyFloat.le_of_not_lt {v : PyFloat} {x : ℝ} (hv : v ≠ .nan) (h : ¬v.lt (.real x)) : PyFloat.le (.real x) v := by
  cases v with
  | nan => exact absurd rfl hv
  | val y => exact not_lt.1 h

theorem PyFloat.lt_of_le_of_lt {u v : PyFloat} {x : ℝ} (h : u.le v) (h1 : v.lt (.real x)) : u.lt (.real x) := by
  cases u with
  | nan => exact absurd h (by unfold PyFloat.le; simp)
  | val a =>
    cases v with
    | nan => exact absurd h (by unfold PyFloat.le; simp)
    | val b => exact _root_.lt_of_le_of_lt (show a ≤ b from h) h1

theorem findKSecIn_spec (sec : Nat → PyFloat) (want : ℝ) : ∀ (n b e : Nat), e - b ≤ n → b ≤ e → PyFloat.le (.real want) (sec e) →
    (∀ k, b ≤ k → k < e → sec k ≠ .nan) →
    PyFloat.le (.real want) (sec (findKSecIn sec want b e)) ∧ b ≤ findKSecIn sec want b e ∧ findKSecIn sec want b e ≤ e ∧
    ((∀ i j, b ≤ i → i ≤ j → j ≤ e → (sec i).le (sec j)) → ∀ k', b ≤ k' → k' < findKSecIn sec want b e → (sec k').lt (.real want)) := by
  intro n
  induction n with
  | zero =>
    intro b e h hbe hs _
    rw [findKSecIn, dif_pos (by omega)]
    obtain rfl : b = e := by omega
    exact ⟨hs, le_refl _, le_refl _, fun _ k' h1 h2 => by omega⟩
  | succ n ih =>
    intro b e hn hbe hs hnan
    rw [findKSecIn]
    by_cases h : e ≤ b
    · rw [dif_pos h]
      obtain rfl : b = e := by omega
      exact ⟨hs, le_refl _, le_refl _, fun _ k' h1 h2 => by omega⟩
    · rw [dif_neg h]
      simp only
      split
      · rename_i hm
        obtain ⟨a1, a2, a3, a4⟩ := ih ((b + e) / 2 + 1) e (by omega) (by omega) hs (fun k h1 h2 => hnan k (by omega) h2)
        refine ⟨a1, by omega, a3, fun hmono k' h1 h2 => ?_⟩
        by_cases hk : k' ≤ (b + e) / 2
        · exact PyFloat.lt_of_le_of_lt (hmono _ _ h1 hk (by omega)) hm
        · exact a4 (fun i j h3 h4 h5 => hmono i j (by omega) h4 h5) k' (by omega) h2
      · rename_i hm
        obtain ⟨a1, a2, a3, a4⟩ := ih b ((b + e) / 2) (by omega) (by omega)
          (PyFloat.le_of_not_lt (hnan _ (by omega) (by omega)) hm) (fun k h1 h2 => hnan k h1 (by omega))
        exact ⟨a1, a2, by omega, fun hmono => a4 fun i j h3 h4 h5 => hmono i j h3 h4 (by omega)⟩

theorem findLpnParamsIn_spec (sec : Nat → Nat → PyFloat) (tau : Nat) (want : ℝ) (error : ℚ) : ∀ (n low high : Nat), high - low ≤ n → low ≤ high →
    ∃ N, findLpnParamsIn sec tau want error low high = (N, findK (sec N) N tau want error) ∧ low ≤ N ∧ N ≤ high ∧
    (N < high → (findK (sec N) N tau want error).isSome) ∧
    ((∀ i j, i ≤ j → (findK (sec i) i tau want error).isSome → (findK (sec j) j tau want error).isSome) →
      ∀ N', low ≤ N' → N' < N → findK (sec N') N' tau want error = none) := by
  intro n
  induction n with
  | zero =>
    intro low high h hle
    rw [findLpnParamsIn, dif_pos (by omega)]
    exact ⟨low, rfl, le_refl _, hle, fun h => by omega, fun _ N' h1 h2 => by omega⟩
  | succ n ih =>
    intro low high hn hle
    rw [findLpnParamsIn]
    by_cases h : high ≤ low
    · rw [dif_pos h]
      exact ⟨low, rfl, le_refl _, hle, fun h => by omega, fun _ N' h1 h2 => by omega⟩
    · rw [dif_neg h]
      simp only
      cases hk : findK (sec ((low + high) / 2)) ((low + high) / 2) tau want error with
      | none =>
        obtain ⟨N, a1, a2, a3, a4, a5⟩ := ih ((low + high) / 2 + 1) high (by omega) (by omega)
        refine ⟨N, a1, by omega, a3, a4, fun hmono N' h1 h2 => ?_⟩
        by_cases hlt : N' ≤ (low + high) / 2
        · by_contra hs
          have := hmono N' _ hlt (Option.isSome_iff_ne_none.2 hs)
          rw [hk] at this
          simp at this
        · exact a5 hmono N' (by omega) h2
      | some k =>
        obtain ⟨N, a1, a2, a3, a4, a5⟩ := ih low ((low + high) / 2) (by omega) (by omega)
        refine ⟨N, a1, a2, by omega, fun _ => ?_, a5⟩
        by_cases hlt : N < (low + high) / 2
        · exact a4 hlt
        · obtain rfl : N = (low + high) / 2 := by omega
          rw [hk]
          rfl

/-- The longest keys which `find_k` considers. -/
theorem findKCorrect_bounds (N tau : Nat) (error : ℚ) :
    (findKCorrect N tau error = 1 ∨ correctnessError N (findKCorrect N tau error) tau ≤ error) ∧ 1 ≤ findKCorrect N tau error ∧
      (2 ≤ N → findKCorrect N tau error < N) ∧ (N ≤ 1 → findKCorrect N tau error = 1) := by
  by_cases h2 : 2 ≤ N
  · obtain ⟨b1, b2, b3, -⟩ := findKCorrectIn_spec N tau error 1 (N - 1) 1 N (le_refl _) (Or.inl rfl) (le_refl _) (by omega) (Or.inl rfl)
    exact ⟨b1, b2, fun _ => b3, fun h => by omega⟩
  · unfold findKCorrect
    rw [findKCorrectIn, dif_pos (by omega)]
    exact ⟨Or.inl rfl, le_refl _, fun h => absurd h h2, fun _ => rfl⟩

/-- With rows of one element the estimate is minus infinity. -/
theorem secLpn_one (tau q : Nat) (hq : 2 ≤ q) : secLpn tau q 1 1 = .val ⊥ := by
  unfold secLpn
  have ht : 1 * (q - 1) / (2 ^ tau * q) = 0 := by
    refine Nat.div_eq_of_lt ?_
    have : q ≤ 2 ^ tau * q := Nat.le_mul_of_pos_left q (by positivity)
    omega
  rw [ht]
  have hg : guass 1 1 0 = some (.val ⊥) := by
    unfold guass
    simp only
    rw [if_neg (by norm_num), if_neg (by norm_num)]
    unfold npLog2
    rw [if_pos (by rw [Nat.sub_self, Nat.cast_zero]; exact Real.zero_rpow (by norm_num))]
    simp
  have hlq : 0 ≤ log2r (q : ℝ) := log2r_nonneg (by exact_mod_cast (show 1 ≤ q by omega))
  have c1 : ∀ n : Int, com n 0 = 1 := fun n => com_out n 0 (Or.inl (le_refl _))
  have hs : subSdIsdq 1 1 0 q 0 0 = some (.real 230) := by
    unfold subSdIsdq
    simp only
    norm_num [c1, log2r_one]
  unfold analysisForq sdIsdq
  simp only
  rw [hs, hg]
  simp only [Nat.zero_div, List.range_zero, sdLoop, Option.bind_eq_bind, Option.bind_some, Option.pure_def]
  rw [if_pos (show PyFloat.lt (.val ⊥) (.real 230) from EReal.bot_lt_coe _)]
  exact if_neg (show ¬((_ : ℝ) : EReal) < ⊥ from not_lt_bot)

/-- With keys of one element the cost of the first attack is below 2. -/
theorem gaussCost_one (tau q N : Nat) (hq : 2 ≤ q) (htau : 1 ≤ tau) (hN : 2 ≤ N) :
    gaussCost N 1 (N * (q - 1) / (2 ^ tau * q)) < 2 := by
  have ht : 2 * (N * (q - 1) / (2 ^ tau * q)) < N := by
    have h1 := Nat.div_mul_le_self (N * (q - 1)) (2 ^ tau * q)
    generalize N * (q - 1) / (2 ^ tau * q) = t at h1 ⊢
    have h2 : 2 ≤ 2 ^ tau := by
      calc 2 = 2 ^ 1 := rfl
        _ ≤ 2 ^ tau := Nat.pow_le_pow_right (by norm_num) htau
    have h3 : t * (2 * q) ≤ N * (q - 1) := le_trans (Nat.mul_le_mul_left t (Nat.mul_le_mul_right q h2)) h1
    by_contra hlt
    have h4 : N * q ≤ 2 * t * q := Nat.mul_le_mul_right q (not_lt.1 hlt)
    have h5 : N * (q - 1) + N = N * q := by
      rw [← Nat.mul_succ]
      congr 1
      omega
    nlinarith
  generalize N * (q - 1) / (2 ^ tau * q) = t at ht
  obtain ⟨M, rfl⟩ : ∃ M, N = M + 1 := ⟨N - 1, by omega⟩
  unfold gaussCost
  have e1 : min 1 (M + 1 - 1) = 1 := by omega
  rw [e1, Nat.cast_one, Real.one_rpow, one_mul, Nat.add_sub_cancel, com_choose M t (by omega), com_choose (M + 1) t (by omega)]
  have hpos : 0 < M.choose t := Nat.choose_pos (by omega)
  have hid := Nat.choose_mul_succ_eq M t
  push_cast
  rw [div_lt_iff₀ (by exact_mod_cast hpos)]
  have hlt : (M + 1).choose t < 2 * M.choose t := by
    have h2 : M + 1 < 2 * (M + 1 - t) := by omega
    by_contra hge
    have h3 := Nat.mul_le_mul_right (M + 1 - t) (not_lt.1 hge)
    nlinarith
  exact_mod_cast hlt

end Verif
