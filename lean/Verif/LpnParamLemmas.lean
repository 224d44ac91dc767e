import Verif.LpnParam
import Mathlib.Data.Nat.Choose.Basic
import Mathlib.Data.Nat.Factorial.BigOperators
import Mathlib.Algebra.BigOperators.Intervals
import Mathlib.Tactic.FieldSimp
import Mathlib.Tactic.Positivity

/-!
# Lemmas about the security estimate of `scripts/lpn_param.py`
-/

namespace Verif

theorem foldl_quot (f g : Nat → ℚ) (n : Nat) :
    (List.range n).foldl (fun r j => r * f j / g j) 1 = ∏ j ∈ Finset.range n, f j / g j := by
  induction n with
  | zero => simp
  | succ n ih =>
    rw [List.range_succ, List.foldl_append, ih, Finset.prod_range_succ]
    simp only [List.foldl_cons, List.foldl_nil]
    ring

theorem prod_quot_choose (n m : Nat) (h : m ≤ n) :
    ∏ j ∈ Finset.range m, (((n : Int) - j : Int) : ℚ) / (((m : Int) - j : Int) : ℚ) = n.choose m := by
  rw [Finset.prod_div_distrib]
  have h1 : ∀ a : Nat, m ≤ a → ∏ j ∈ Finset.range m, (((a : Int) - j : Int) : ℚ) = a.descFactorial m := by
    intro a ha
    rw [Nat.descFactorial_eq_prod_range, Nat.cast_prod]
    refine Finset.prod_congr rfl fun j hj => ?_
    have := Finset.mem_range.1 hj
    push_cast [Nat.cast_sub (show j ≤ a by omega)]
    rfl
  rw [h1 n h, h1 m (le_refl _), Nat.descFactorial_self, Nat.descFactorial_eq_factorial_mul_choose]
  have : (m.factorial : ℚ) ≠ 0 := by exact_mod_cast Nat.factorial_ne_zero m
  push_cast
  field_simp

/-- `com` computes binomial coefficients. -/
theorem com_choose (n m : Nat) (h : m ≤ n) : com n m = n.choose m := by
  unfold com
  simp only
  rw [foldl_quot]
  rcases le_total m (n - m) with h1 | h1
  · have e : min (m : Int) ((n : Int) - m) = m := by omega
    rw [e, Int.toNat_natCast]
    exact prod_quot_choose n m h
  · have e : min (m : Int) ((n : Int) - m) = ((n - m : Nat) : Int) := by omega
    rw [e, Int.toNat_natCast, ← Nat.choose_symm h]
    exact prod_quot_choose n (n - m) (by omega)

/-- Outside of their range `com` is 1, and not 0. -/
theorem com_out (n m : Int) (h : m ≤ 0 ∨ n ≤ m) : com n m = 1 := by
  unfold com
  simp only
  have : (min m (n - m)).toNat = 0 := by omega
  rw [this]
  rfl

theorem com_pos (n m : Int) : 1 ≤ com n m := by
  by_cases h : m ≤ 0 ∨ n ≤ m
  · rw [com_out n m h]
  · obtain ⟨a, rfl⟩ := Int.eq_ofNat_of_zero_le (show 0 ≤ n by omega)
    obtain ⟨b, rfl⟩ := Int.eq_ofNat_of_zero_le (show 0 ≤ m by omega)
    rw [com_choose a b (by omega)]
    exact_mod_cast Nat.choose_pos (by omega)

theorem com_one_le (n m : Int) : (1 : ℝ) ≤ (com n m : ℝ) := by exact_mod_cast com_pos n m

/-- Fewer positions have fewer subsets, also where `com` is 1. -/
theorem com_mono (a b t : Nat) (h : a ≤ b) : (com (a : Int) (t : Int)) ≤ com (b : Int) (t : Int) := by
  by_cases h1 : t ≤ a
  · rw [com_choose a t h1, com_choose b t (by omega)]
    exact_mod_cast Nat.choose_le_choose t h
  · rw [com_out a t (by omega)]
    exact com_pos _ _

theorem log2r_nonneg {x : ℝ} (h : 1 ≤ x) : 0 ≤ log2r x := Real.logb_nonneg (by norm_num) h

theorem log2r_le {x y : ℝ} (h : 1 ≤ x) (hxy : x ≤ y) : log2r x ≤ log2r y :=
  Real.logb_le_logb_of_le (by norm_num) (by linarith) hxy

theorem log2r_mul {x y : ℝ} (hx : x ≠ 0) (hy : y ≠ 0) : log2r (x * y) = log2r x + log2r y := Real.logb_mul hx hy

theorem log2r_div {x y : ℝ} (hx : x ≠ 0) (hy : y ≠ 0) : log2r (x / y) = log2r x - log2r y := Real.logb_div hx hy

theorem log2r_one : log2r 1 = 0 := Real.logb_one

/-- `Guass`, whenever the key is not empty and shorter than the rows. -/
theorem guass_eq (N k t : Nat) (hk : 1 ≤ k) (hN : k < N) :
    guass N k t = some (.real (log2r (((min k (N - k) : Nat) : ℝ) ^ (2.8 : ℝ) * com N t / com ((N - k : Nat) : Int) t))) := by
  unfold guass
  simp only
  rw [if_neg (by omega)]
  have hT : (if k < N - k then (k : ℝ) ^ (2.8 : ℝ) else ((N - k : Nat) : ℝ) ^ (2.8 : ℝ)) = ((min k (N - k) : Nat) : ℝ) ^ (2.8 : ℝ) := by
    split
    · rw [min_eq_left (by omega)]
    · rw [min_eq_right (by omega)]
  rw [hT]
  have hpos : (0 : ℝ) < ((min k (N - k) : Nat) : ℝ) ^ (2.8 : ℝ) := by
    apply Real.rpow_pos_of_pos
    exact_mod_cast (show 0 < min k (N - k) by omega)
  have c1 := com_one_le N t
  have c2 := com_one_le ((N - k : Nat) : Int) t
  unfold npLog2
  rw [if_neg hpos.ne', log2r_div (by positivity) (by positivity), log2r_mul (by positivity) (by positivity)]
  unfold PyFloat.real
  congr 2
  rw [← EReal.coe_sub]
  congr 1
  rw [Nat.cast_sub hN.le]
  ring

theorem guass_arg (N k t : Nat) (hk : 1 ≤ k) (hN : k < N) :
    1 ≤ ((min k (N - k) : Nat) : ℝ) ^ (2.8 : ℝ) * com N t / com ((N - k : Nat) : Int) t := by
  have h1 : (1 : ℝ) ≤ ((min k (N - k) : Nat) : ℝ) ^ (2.8 : ℝ) := by
    apply Real.one_le_rpow _ (by norm_num)
    exact_mod_cast (show 1 ≤ min k (N - k) by omega)
  have h2 : (com ((N - k : Nat) : Int) t : ℝ) ≤ com N t := by exact_mod_cast com_mono (N - k) N t (by omega)
  have h3 := com_one_le ((N - k : Nat) : Int) t
  rw [le_div_iff₀ (by linarith)]
  nlinarith

/-- `Ourparitycheckforq`. -/
theorem parityCheckq_eq (N k t : Nat) (hN : k < N) :
    parityCheckq N k t = .real (log2r (((k : ℝ) + 1) * ((com N t : ℝ) / com ((N - (k + 1) : Nat) : Int) t) ^ 2)) := by
  unfold parityCheckq
  simp only
  have c1 := com_one_le N t
  have c2 := com_one_le ((N - (k + 1) : Nat) : Int) t
  rw [log2r_mul (by positivity) (by positivity), pow_two, log2r_mul (by positivity) (by positivity), log2r_div (by positivity) (by positivity)]
  congr 1
  have e : ((N - (k + 1) : Nat) : Int) = (N : Int) - k - 1 := by omega
  rw [e]
  ring

theorem parity_arg (N k t : Nat) (hN : k < N) :
    1 ≤ ((k : ℝ) + 1) * ((com N t : ℝ) / com ((N - (k + 1) : Nat) : Int) t) ^ 2 := by
  have h2 : (com ((N - (k + 1) : Nat) : Int) t : ℝ) ≤ com N t := by exact_mod_cast com_mono (N - (k + 1)) N t (by omega)
  have h3 := com_one_le ((N - (k + 1) : Nat) : Int) t
  have h4 : 1 ≤ (com N t : ℝ) / com ((N - (k + 1) : Nat) : Int) t := by
    rw [le_div_iff₀ (by linarith)]
    linarith
  have h5 : (0 : ℝ) ≤ k := by positivity
  nlinarith [one_le_pow₀ h4 (n := 2)]

/-- A cost that is `b` or more, or NaN. -/
def PyFloat.AtLeast (b : ℝ) : PyFloat → Prop
  | .nan => True
  | .val x => (b : EReal) ≤ x

/-- Every cost that `sub_SD_ISDq` returns is 230, or the logarithm of `2 * N` or more. -/
theorem subSdIsdq_least (N k t q l p : Nat) (b : ℝ) (hb : b ≤ 230) (hbN : b ≤ log2r (2 * N)) (hN : 1 ≤ N) (hq : 2 ≤ q) (v : PyFloat)
    (h : subSdIsdq N k t q l p = some v) : v.AtLeast b := by
  have h230 : PyFloat.AtLeast b (.real 230) := by
    show (b : EReal) ≤ ((230 : ℝ) : EReal)
    exact EReal.coe_le_coe_iff.2 hb
  unfold subSdIsdq at h
  simp only at h
  split at h
  · rw [← Option.some.inj h]; exact h230
  split at h
  · rw [← Option.some.inj h]; exact h230
  split at h
  · simp at h
  rename_i hd
  split at h
  · rw [← Option.some.inj h]; exact h230
  rename_i hpp
  split at h
  · rw [← Option.some.inj h]; trivial
  rename_i hd0
  rw [← Option.some.inj h]
  unfold PyFloat.AtLeast PyFloat.real
  simp only
  refine EReal.coe_le_coe_iff.2 (le_trans hbN ?_)
  have hsub : ∀ x y z : ℝ, x ≤ y → z < 0 → x ≤ y - z := fun x y z h1 h2 => by linarith
  refine hsub _ _ _ (log2r_le ?_ ?_) (not_le.1 hpp)
  · have : (1 : ℝ) ≤ N := by exact_mod_cast hN
    linarith
  have hq' : (2 : ℝ) ≤ q := by exact_mod_cast hq
  have hN' : (1 : ℝ) ≤ N := by exact_mod_cast hN
  have hc := com_one_le (((k : Int) + ((((k + l) / 2 : Nat) : Int) * 2 - k + 2)) / 2) ((p / 2 * 2 / 2 : Nat) : Int)
  have hpow : (1 : ℝ) ≤ ((q : ℝ) - 1) ^ (p / 2 * 2 / 2) := one_le_pow₀ (by linarith)
  have hS : ∀ x : ℝ, (0 : ℝ) < 2 ^ x := fun x => Real.rpow_pos_of_pos (by norm_num) x
  have hmul := one_le_mul_of_one_le_of_one_le hc hpow
  have hT : (0 : ℝ) ≤ if (N : Int) - k - ((((k + l) / 2 : Nat) : Int) * 2 - k + 2) = 0 then (0 : ℝ) else
      ((((N : Int) - k - ((((k + l) / 2 : Nat) : Int) * 2 - k + 2)) * N : Int) : ℝ) /
        log2r (((N : Int) - k - ((((k + l) / 2 : Nat) : Int) * 2 - k + 2) : Int) : ℝ) := by
    split
    · exact le_refl _
    · rename_i h0
      have h1 : (1 : Int) ≤ (N : Int) - k - ((((k + l) / 2 : Nat) : Int) * 2 - k + 2) := by omega
      refine div_nonneg ?_ (log2r_nonneg (by exact_mod_cast h1))
      exact Int.cast_nonneg (mul_nonneg (by omega) (by omega))
  have := hS (2 * (log2r (com (((k : Int) + ((((k + l) / 2 : Nat) : Int) * 2 - k + 2)) / 2) ((p / 2 * 2 / 2 : Nat) : Int)) +
    ((p / 2 * 2 / 2 : Nat) : ℝ) * log2r ((q : ℝ) - 1)) - (((((k + l) / 2 : Nat) : Int) * 2 - k + 2 : Int) : ℝ) * log2r q)
  refine mul_le_mul_of_nonneg_right ?_ (by linarith)
  linarith

/-- The first cost which `SD_ISD_q` computes is not NaN. -/
theorem subSdIsdq_first (N k t q : Nat) (hN : k + 2 ≤ N ∨ (k = 1 ∧ N = 2)) : subSdIsdq N k t q 0 0 ≠ some .nan := by
  intro h
  have h230 : some (PyFloat.real 230) ≠ some .nan := by simp [PyFloat.real]
  unfold subSdIsdq at h
  simp only at h
  split at h
  · exact h230 h
  split at h
  · exact h230 h
  split at h
  · simp at h
  split at h
  · exact h230 h
  split at h
  · omega
  · simp [PyFloat.real] at h

theorem ternary_least (b : ℝ) (f : Nat → Option PyFloat) (hf : ∀ l v, f l = some v → v.AtLeast b) : ∀ (n start : Nat) (stop : Int) (m : PyFloat)
    (r : Nat × Int × PyFloat), (stop - start).toNat ≤ n → m.AtLeast b → ternary f start stop m = some r → r.2.2.AtLeast b := by
  intro n
  induction n with
  | zero =>
    intro start stop m r hn hm h
    rw [ternary, dif_neg (by omega)] at h
    rw [← Option.some.inj h]
    exact hm
  | succ n ih =>
    intro start stop m r hn hm h
    rw [ternary] at h
    split at h
    · simp only at h
      split at h
      · rename_i t1 t2 h1 h2
        split at h
        · exact ih _ _ _ r (by omega) (hf _ _ h2) h
        · exact ih _ _ _ r (by omega) (hf _ _ h1) h
      · simp at h
    · rw [← Option.some.inj h]
      exact hm

theorem keepMin_least (b : ℝ) (f : Nat → Option PyFloat) (hf : ∀ l v, f l = some v → v.AtLeast b) : ∀ (ls : List Nat) (m r : PyFloat),
    m.AtLeast b → keepMin f ls m = some r → r.AtLeast b := by
  intro ls
  induction ls with
  | nil =>
    intro m r hm h
    unfold keepMin at h
    rw [List.foldlM_nil] at h
    rw [← Option.some.inj h]
    exact hm
  | cons l ls ih =>
    intro m r hm h
    unfold keepMin at h
    rw [List.foldlM_cons] at h
    cases hl : f l with
    | none => rw [hl] at h; simp at h
    | some T =>
      rw [hl] at h
      simp only [Option.map_some, Option.bind_eq_bind, Option.bind_some] at h
      refine ih _ r ?_ h
      split
      · exact hf _ _ hl
      · exact hm

theorem minSdIsdq_least (N k t q p : Nat) (b : ℝ) (hb : b ≤ 230) (hbN : b ≤ log2r (2 * N)) (hN : 1 ≤ N) (hq : 2 ≤ q) (v : PyFloat) (h : minSdIsdq N k t q p = some v) : v.AtLeast b := by
  unfold minSdIsdq at h
  have hf : ∀ l v, subSdIsdq N k t q l p = some v → v.AtLeast b := fun l v h => subSdIsdq_least N k t q l p b hb hbN hN hq v h
  obtain ⟨T, hT, h⟩ := Option.bind_eq_some_iff.1 h
  obtain ⟨⟨start, stop, m⟩, hm, h⟩ := Option.bind_eq_some_iff.1 h
  exact keepMin_least b _ hf _ _ _ (ternary_least b _ hf _ _ _ _ _ (le_refl _) (hf _ _ hT) hm) h

/-- A cost that is `b` or more, and not NaN. -/
def PyFloat.Proper (b : ℝ) : PyFloat → Prop
  | .nan => False
  | .val x => (b : EReal) ≤ x

theorem PyFloat.proper_of {b : ℝ} {v : PyFloat} (h : v.AtLeast b) (h1 : v ≠ .nan) : v.Proper b := by
  cases v with
  | nan => exact absurd rfl h1
  | val x => exact h

theorem sdLoop_proper (N k t q : Nat) (b : ℝ) (hb : b ≤ 230) (hbN : b ≤ log2r (2 * N)) (hN : 1 ≤ N) (hq : 2 ≤ q) : ∀ (ps : List Nat) (m r : PyFloat), m.Proper b →
    sdLoop N k t q ps m = some r → r.Proper b := by
  intro ps
  induction ps with
  | nil =>
    intro m r hm h
    rw [← Option.some.inj h]
    exact hm
  | cons p ps ih =>
    intro m r hm h
    unfold sdLoop at h
    obtain ⟨T, hT, h⟩ := Option.bind_eq_some_iff.1 h
    have hnew : (if PyFloat.le T m then T else m).Proper b := by
      split
      · rename_i hle
        cases T with
        | nan => exact absurd hle (by unfold PyFloat.le; simp)
        | val x => exact minSdIsdq_least N k t q p b hb hbN hN hq _ hT
      · exact hm
    simp only at h
    split at h
    all_goals
      split at h
      · rw [← Option.some.inj h]
        exact hnew
      · exact ih _ r hnew h

/-- The cost of an attack, as the script computes it: `Guass`. -/
noncomputable def gaussCost (N k t : Nat) : ℝ := ((min k (N - k) : Nat) : ℝ) ^ (2.8 : ℝ) * com N t / com ((N - k : Nat) : Int) t

/-- The cost of an attack, as the script computes it: `Ourparitycheckforq`. -/
noncomputable def parityCost (N k t : Nat) : ℝ := ((k : ℝ) + 1) * ((com N t : ℝ) / com ((N - (k + 1) : Nat) : Int) t) ^ 2

theorem analysis_bounds (N k t q : Nat) (b : ℝ) (hb : b ≤ 230) (hbN : b ≤ log2r (2 * N)) (hq : 2 ≤ q) (hk : 1 ≤ k) (hN : k + 2 ≤ N ∨ (k = 1 ∧ N = 2))
    (hg0 : b ≤ log2r (gaussCost N k t)) (hp0 : b ≤ log2r (parityCost N k t)) (v : PyFloat) (h : analysisForq N k t q = some v) :
    ∃ x : ℝ, v = .real x ∧ b ≤ x ∧ x ≤ log2r (gaussCost N k t) ∧ x ≤ log2r (parityCost N k t) := by
  unfold analysisForq at h
  obtain ⟨T1, hT1, h⟩ := Option.bind_eq_some_iff.1 h
  unfold sdIsdq at hT1
  obtain ⟨w0, hw0, hT1⟩ := Option.bind_eq_some_iff.1 hT1
  obtain ⟨w, hw, hT1⟩ := Option.bind_eq_some_iff.1 hT1
  have hp : w.Proper b := sdLoop_proper N k t q b hb hbN (by omega) hq _ _ _
    (PyFloat.proper_of (subSdIsdq_least N k t q 0 0 b hb hbN (by omega) hq _ hw0) (fun he => subSdIsdq_first N k t q hN (he ▸ hw0))) hw
  rw [guass_eq N k t hk (by omega)] at hT1
  simp only [Option.bind_eq_bind, Option.bind_some, Option.pure_def, Option.some.injEq] at hT1 h
  rw [parityCheckq_eq N k t (by omega)] at h
  change (if PyFloat.lt (.real (log2r (gaussCost N k t))) w then _ else _) = _ at hT1
  change (if PyFloat.lt (.real (log2r (parityCost N k t))) T1 then PyFloat.real (log2r (parityCost N k t)) else _) = _ at h
  have h1 : ∃ y : ℝ, T1 = .real y ∧ b ≤ y ∧ y ≤ log2r (gaussCost N k t) := by
    split at hT1
    · exact ⟨_, hT1.symm, hg0, le_refl _⟩
    · rename_i hlt
      cases w with
      | nan => exact absurd hp id
      | val e =>
        have h2 : e ≤ ((log2r (gaussCost N k t) : ℝ) : EReal) := not_lt.1 hlt
        have h3 : (b : EReal) ≤ e := hp
        induction e with
        | bot => simp at h3
        | top => simp at h2
        | coe y => exact ⟨y, hT1.symm, EReal.coe_le_coe_iff.1 h3, EReal.coe_le_coe_iff.1 h2⟩
  obtain ⟨y, rfl, hy0, hy⟩ := h1
  split at h
  · rename_i hlt
    have h2 : ((log2r (parityCost N k t) : ℝ) : EReal) < ((y : ℝ) : EReal) := hlt
    exact ⟨_, h.symm, hp0, le_trans (EReal.coe_lt_coe_iff.1 h2).le hy, le_refl _⟩
  · rename_i hlt
    have h2 : ((y : ℝ) : EReal) ≤ ((log2r (parityCost N k t) : ℝ) : EReal) := not_lt.1 hlt
    exact ⟨y, h.symm, hy0, hy, EReal.coe_le_coe_iff.1 h2⟩

/-- Where it is used, `sec_lpn` is a number, not negative, and not above the cost of either of two attacks. -/
theorem secLpn_bounds (tau q N k : Nat) (hq : 2 ≤ q) (hk : 1 ≤ k) (hN : k + 2 ≤ N ∨ (k = 1 ∧ N = 2)) :
    ∃ x : ℝ, secLpn tau q N k = .real x ∧ 0 ≤ x ∧ x ≤ log2r (gaussCost N k (N * (q - 1) / (2 ^ tau * q))) ∧
      x ≤ log2r (parityCost N k (N * (q - 1) / (2 ^ tau * q))) := by
  unfold secLpn
  simp only
  generalize N * (q - 1) / (2 ^ tau * q) = t
  have hg0 : 0 ≤ log2r (gaussCost N k t) := log2r_nonneg (guass_arg N k t hk (by omega))
  have hp0 : 0 ≤ log2r (parityCost N k t) := log2r_nonneg (parity_arg N k t (by omega))
  have hN1 : (1 : ℝ) ≤ N := by exact_mod_cast (show 1 ≤ N by omega)
  cases h : analysisForq N k t q with
  | none => exact ⟨0, rfl, le_refl _, hg0, hp0⟩
  | some v => exact analysis_bounds N k t q 0 (by norm_num) (log2r_nonneg (by linarith)) hq hk hN hg0 hp0 v h

/-! ## No exceptions for rows of even length -/

theorem subSdIsdq_some (N k t q l p : Nat) (hN : N % 2 = 0) : ∃ v, subSdIsdq N k t q l p = some v := by
  unfold subSdIsdq
  simp only
  split
  · exact ⟨_, rfl⟩
  split
  · exact ⟨_, rfl⟩
  rw [if_neg (by omega)]
  split
  · exact ⟨_, rfl⟩
  split
  · exact ⟨_, rfl⟩
  · exact ⟨_, rfl⟩

theorem ternary_some (f : Nat → Option PyFloat) (hf : ∀ l, ∃ v, f l = some v) : ∀ (n start : Nat) (stop : Int) (m : PyFloat),
    (stop - start).toNat ≤ n → ∃ r, ternary f start stop m = some r := by
  intro n
  induction n with
  | zero =>
    intro start stop m hn
    rw [ternary, dif_neg (by omega)]
    exact ⟨_, rfl⟩
  | succ n ih =>
    intro start stop m hn
    rw [ternary]
    split
    · simp only
      obtain ⟨t1, h1⟩ := hf (((stop - start) / 3).toNat + start)
      obtain ⟨t2, h2⟩ := hf ((stop - ((stop - start) / 3).toNat).toNat)
      rw [h1, h2]
      simp only
      split
      · exact ih _ _ _ (by omega)
      · exact ih _ _ _ (by omega)
    · exact ⟨_, rfl⟩

theorem keepMin_some (f : Nat → Option PyFloat) (hf : ∀ l, ∃ v, f l = some v) : ∀ (ls : List Nat) (m : PyFloat), ∃ r, keepMin f ls m = some r := by
  intro ls
  induction ls with
  | nil => exact fun m => ⟨m, rfl⟩
  | cons l ls ih =>
    intro m
    obtain ⟨v, hv⟩ := hf l
    unfold keepMin
    rw [List.foldlM_cons, hv]
    exact ih _

theorem minSdIsdq_some (N k t q p : Nat) (hN : N % 2 = 0) : ∃ v, minSdIsdq N k t q p = some v := by
  have hf : ∀ l, ∃ v, subSdIsdq N k t q l p = some v := fun l => subSdIsdq_some N k t q l p hN
  unfold minSdIsdq
  obtain ⟨T, hT⟩ := hf 1
  obtain ⟨⟨a, b, m⟩, hm⟩ := ternary_some _ hf _ 1 ((N : Int) - k - 8) T (le_refl _)
  rw [hT]
  simp only [Option.bind_eq_bind, Option.bind_some]
  rw [hm]
  exact keepMin_some _ hf _ _

theorem sdLoop_some (N k t q : Nat) (hN : N % 2 = 0) : ∀ (ps : List Nat) (m : PyFloat), ∃ r, sdLoop N k t q ps m = some r := by
  intro ps
  induction ps with
  | nil => exact fun m => ⟨m, rfl⟩
  | cons p ps ih =>
    intro m
    obtain ⟨v, hv⟩ := minSdIsdq_some N k t q p hN
    unfold sdLoop
    rw [hv]
    simp only [Option.bind_eq_bind, Option.bind_some]
    split
    all_goals
      split
      · exact ⟨_, rfl⟩
      · exact ih _

/-- A lower bound of the estimate, for rows of even length. -/
theorem secLpn_least (tau q N k : Nat) (b : ℝ) (hb : b ≤ 230) (hbN : b ≤ log2r (2 * N)) (hbk : b ≤ log2r (((min k (N - k) : Nat) : ℝ) ^ (2.8 : ℝ)))
    (hbp : b ≤ log2r ((k : ℝ) + 1)) (hq : 2 ≤ q) (hk : 1 ≤ k) (hN : k + 2 ≤ N) (heven : N % 2 = 0) : ∃ x : ℝ, secLpn tau q N k = .real x ∧ b ≤ x := by
  unfold secLpn
  simp only
  generalize N * (q - 1) / (2 ^ tau * q) = t
  have hm : (1 : ℝ) ≤ ((min k (N - k) : Nat) : ℝ) ^ (2.8 : ℝ) := by
    apply Real.one_le_rpow _ (by norm_num)
    exact_mod_cast (show 1 ≤ min k (N - k) by omega)
  have hc : ∀ j : Nat, (1 : ℝ) ≤ (com N t : ℝ) / com ((N - j : Nat) : Int) t := by
    intro j
    have h2 : (com ((N - j : Nat) : Int) t : ℝ) ≤ com N t := by exact_mod_cast com_mono (N - j) N t (by omega)
    have h3 := com_one_le ((N - j : Nat) : Int) t
    rw [le_div_iff₀ (by linarith)]
    linarith
  have hg0 : b ≤ log2r (gaussCost N k t) := by
    refine le_trans hbk (log2r_le hm ?_)
    unfold gaussCost
    rw [mul_div_assoc]
    exact le_mul_of_one_le_right (by linarith) (hc k)
  have hp0 : b ≤ log2r (parityCost N k t) := by
    refine le_trans hbp (log2r_le (by linarith [Nat.cast_nonneg (α := ℝ) k]) ?_)
    unfold parityCost
    exact le_mul_of_one_le_right (by positivity) (one_le_pow₀ (hc (k + 1)))
  have hsome : ∃ v, analysisForq N k t q = some v := by
    unfold analysisForq sdIsdq
    obtain ⟨w0, h0⟩ := subSdIsdq_some N k t q 0 0 heven
    obtain ⟨w, h1⟩ := sdLoop_some N k t q heven (List.range (t / 2)) w0
    rw [h0, guass_eq N k t hk (by omega)]
    simp only [Option.bind_eq_bind, Option.bind_some]
    rw [h1]
    exact ⟨_, rfl⟩
  obtain ⟨v, hv⟩ := hsome
  rw [hv]
  obtain ⟨x, h1, h2, -⟩ := analysis_bounds N k t q b hb hbN hq hk (Or.inl hN) hg0 hp0 v hv
  exact ⟨x, h1, h2⟩

/-- What the loop of `SD_ISD_q` keeps. -/
theorem sdLoop_seen (N k t q : Nat) (heven : N % 2 = 0) : ∀ (n a : Nat) (m : EReal) (r : PyFloat),
    sdLoop N k t q (List.range' a n) (.val m) = some r → ∃ y : EReal, r = .val y ∧ y ≤ m ∧ ∀ p, a ≤ p → p < a + n →
      ∃ c, minSdIsdq N k t q p = some c ∧ (c = .nan ∨ PyFloat.le (.val y) c ∨
        ∃ j, a ≤ j ∧ j < p ∧ ∃ d : EReal, minSdIsdq N k t q j = some (.val d) ∧ y + 30 < d) := by
  intro n
  induction n with
  | zero =>
    intro a m r h
    exact ⟨m, (Option.some.inj h).symm, le_refl _, fun p h1 h2 => absurd h2 (by omega)⟩
  | succ n ih =>
    intro a m r h
    rw [List.range'_succ] at h
    unfold sdLoop at h
    obtain ⟨T, hT, h⟩ := Option.bind_eq_some_iff.1 h
    obtain ⟨m', hm', hle, hT'⟩ : ∃ m' : EReal, (if PyFloat.le T (.val m) then T else PyFloat.val m) = .val m' ∧ m' ≤ m ∧
        (T = .nan ∨ PyFloat.le (.val m') T) := by
      cases T with
      | nan => exact ⟨m, if_neg id, le_refl _, Or.inl rfl⟩
      | val x =>
        by_cases hx : x ≤ m
        · exact ⟨x, if_pos hx, hx, Or.inr (le_refl x)⟩
        · exact ⟨m, if_neg hx, le_refl _, Or.inr (le_of_lt (not_le.1 hx))⟩
    simp only [hm'] at h
    by_cases hl : PyFloat.lt (.val (m' + 30)) T
    · rw [if_pos hl] at h
      refine ⟨m', (Option.some.inj h).symm, hle, fun p h1 h2 => ?_⟩
      rcases Nat.eq_or_lt_of_le h1 with rfl | h1
      · exact ⟨T, hT, hT'.elim Or.inl (fun h => Or.inr (Or.inl h))⟩
      · obtain ⟨c, hc⟩ := minSdIsdq_some N k t q p heven
        cases T with
        | nan => exact absurd hl id
        | val d => exact ⟨c, hc, Or.inr (Or.inr ⟨a, le_refl _, h1, d, hT, hl⟩)⟩
    · rw [if_neg hl] at h
      obtain ⟨y, rfl, hy, hall⟩ := ih (a + 1) m' r h
      refine ⟨y, rfl, hy.trans hle, fun p h1 h2 => ?_⟩
      rcases Nat.eq_or_lt_of_le h1 with rfl | h1
      · refine ⟨T, hT, hT'.elim Or.inl (fun h => Or.inr (Or.inl ?_))⟩
        cases T with
        | nan => exact absurd h id
        | val x => exact hy.trans h
      · obtain ⟨c, hc, h3⟩ := hall p (by omega) (by omega)
        refine ⟨c, hc, ?_⟩
        rcases h3 with h3 | h3 | ⟨j, h4, h5, h6⟩
        · exact Or.inl h3
        · exact Or.inr (Or.inl h3)
        · exact Or.inr (Or.inr ⟨j, by omega, h5, h6⟩)

end Verif
