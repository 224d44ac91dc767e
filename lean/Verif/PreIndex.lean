import Verif.PrivacyExtract

/-!
# Positions of the sharings which are used for the LPN errors

Sharings for the errors are used in batches: from `c` times as many sharings as there are errors, a batch of size `b` takes
the next `c * b`, and in these the sharings of the same purpose are next to each other.
-/

namespace Verif

theorem preSum_succ {s : List Nat} {a x : Nat} (h : s[a]? = some x) : preSum s (a + 1) = preSum s a + x := by
  unfold preSum
  rw [List.take_add_one, h]
  simp

theorem preSum_le_sum (s : List Nat) (a : Nat) : preSum s a ≤ s.sum := by
  unfold preSum
  conv_rhs => rw [← List.take_append_drop a s, List.sum_append]
  exact Nat.le_add_right _ _

theorem locate_spec {s : List Nat} {k : Nat} (h : k < s.sum) :
    ∃ a x j, s[a]? = some x ∧ j < x ∧ k = preSum s a + j ∧ locate s k = (a, j) := by
  induction s generalizing k with
  | nil => simp at h
  | cons y s ih =>
    by_cases hk : k < y
    · refine ⟨0, y, k, rfl, hk, by rw [preSum_zero, Nat.zero_add], ?_⟩
      unfold locate
      rw [if_pos hk]
    · obtain ⟨a, x, j, h1, h2, h3, h4⟩ := ih (k := k - y) (by rw [List.sum_cons] at h; omega)
      refine ⟨a + 1, x, j, by simpa using h1, h2, by rw [preSum_cons]; omega, ?_⟩
      unfold locate
      rw [if_neg hk, h4]

theorem preSum_map_mul (c : Nat) (s : List Nat) (a : Nat) : preSum (s.map (c * ·)) a = c * preSum s a := by
  unfold preSum
  rw [← List.map_take, List.sum_map_mul_left]
  simp

/-- Position of the sharing with purpose `r` for error `k`. -/
def errIdx (c : Nat) (s : List Nat) (r k : Nat) : Nat :=
  c * preSum s (locate s k).1 + r * s.getD (locate s k).1 0 + (locate s k).2

/-- Purpose and error of the sharing at position `i`. -/
def errRole (c : Nat) (s : List Nat) (i : Nat) : Nat × Nat :=
  let u := locate (s.map (c * ·)) i
  (u.2 / s.getD u.1 0, preSum s u.1 + u.2 % s.getD u.1 0)

section
variable {c : Nat} {s : List Nat}

theorem errIdx_at {a x j : Nat} (ha : s[a]? = some x) (hj : j < x) (r : Nat) :
    errIdx c s r (preSum s a + j) = c * preSum s a + r * x + j := by
  unfold errIdx
  rw [locate_get ha hj]
  simp only [List.getD_eq_getElem?_getD, ha, Option.getD_some]

theorem errRole_at {a x r j : Nat} (ha : s[a]? = some x) (hj : j < x) (hr : r < c) :
    errRole c s (c * preSum s a + r * x + j) = (r, preSum s a + j) := by
  have h1 : (s.map (c * ·))[a]? = some (c * x) := by rw [List.getElem?_map, ha]; rfl
  have h2 : r * x + j < c * x := by
    calc r * x + j < r * x + x := by omega
      _ = (r + 1) * x := by rw [Nat.succ_mul]
      _ ≤ c * x := Nat.mul_le_mul_right _ hr
  have h3 := locate_get h1 h2
  rw [preSum_map_mul, ← Nat.add_assoc] at h3
  unfold errRole
  rw [h3]
  simp only [List.getD_eq_getElem?_getD, ha, Option.getD_some]
  rw [Nat.mul_comm r x, Nat.mul_add_div (by omega), Nat.div_eq_of_lt hj, Nat.mul_add_mod, Nat.mod_eq_of_lt hj, Nat.add_zero]

theorem errRole_errIdx {r k : Nat} (hr : r < c) (hk : k < s.sum) : errRole c s (errIdx c s r k) = (r, k) := by
  obtain ⟨a, x, j, h1, h2, rfl, _⟩ := locate_spec hk
  rw [errIdx_at h1 h2, errRole_at h1 h2 hr]

theorem errIdx_lt {r k : Nat} (hr : r < c) (hk : k < s.sum) : errIdx c s r k < c * s.sum := by
  obtain ⟨a, x, j, h1, h2, rfl, _⟩ := locate_spec hk
  rw [errIdx_at h1 h2]
  have h3 := preSum_le_sum s (a + 1)
  rw [preSum_succ h1] at h3
  calc c * preSum s a + r * x + j < c * preSum s a + r * x + x := by omega
    _ = c * preSum s a + (r + 1) * x := by rw [Nat.succ_mul]; omega
    _ ≤ c * preSum s a + c * x := Nat.add_le_add_left (Nat.mul_le_mul_right _ hr) _
    _ = c * (preSum s a + x) := by rw [Nat.mul_add]
    _ ≤ c * s.sum := Nat.mul_le_mul_left _ h3

theorem errRole_spec {i : Nat} (hi : i < c * s.sum) :
    (errRole c s i).1 < c ∧ (errRole c s i).2 < s.sum ∧ errIdx c s (errRole c s i).1 (errRole c s i).2 = i := by
  obtain ⟨a, y, i', h1, h2, rfl, _⟩ := locate_spec (s := s.map (c * ·)) (k := i) (by
    rw [List.sum_map_mul_left]
    simpa using hi)
  rw [List.getElem?_map] at h1
  obtain ⟨x, hx, rfl⟩ := Option.map_eq_some_iff.1 h1
  have hpos : 0 < x := by
    rcases Nat.eq_zero_or_pos x with h | h
    · subst h; simp at h2
    · exact h
  have hlt : i' / x < c := by
    rw [Nat.div_lt_iff_lt_mul hpos]
    exact h2
  have hm : i' % x < x := Nat.mod_lt _ hpos
  have e : preSum (s.map (c * ·)) a + i' = c * preSum s a + i' / x * x + i' % x := by
    rw [preSum_map_mul, Nat.add_assoc, Nat.mul_comm (i' / x) x, Nat.div_add_mod]
  rw [e, errRole_at hx hm hlt]
  refine ⟨hlt, ?_, errIdx_at hx hm _⟩
  have h3 := preSum_le_sum s (a + 1)
  rw [preSum_succ hx] at h3
  simp only
  omega

end

end Verif
