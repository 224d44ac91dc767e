import Verif.GenSupSpec
import Mathlib.Tactic.Linarith
import Mathlib.Tactic.Ring

/-!
# Helper lemmas: the parameters of the generator of matrices
-/

namespace Verif

theorem pow2Int64_le {n k : Nat} (hn : 1 ≤ n) (h : ¬ (n : Int) > pow2Int64 k) : k ≤ 62 ∧ n ≤ 2 ^ k := by
  unfold pow2Int64 at h
  split at h
  · refine ⟨by omega, ?_⟩
    push Not at h
    exact_mod_cast h
  · split at h
    · omega
    · omega

theorem pow2Int64_of {n k : Nat} (hk : k ≤ 62) (h : n ≤ 2 ^ k) : ¬ (n : Int) > pow2Int64 k := by
  unfold pow2Int64
  rw [if_pos (by omega)]
  push Not
  exact_mod_cast h

theorem ceil_bounds (a b : Nat) (hb : 0 < b) : a ≤ (a + b - 1) / b * b ∧ (a + b - 1) / b * b < a + b := by
  have h := Nat.div_add_mod (a + b - 1) b
  have h' := Nat.mod_lt (a + b - 1) hb
  rw [Nat.mul_comm b] at h
  omega

theorem ceil_unique {a b q : Nat} (hb : 0 < b) (h1 : a ≤ q * b) (h2 : q * b < a + b) : q = (a + b - 1) / b := by
  obtain ⟨h3, h4⟩ := ceil_bounds a b hb
  generalize (a + b - 1) / b = r at h3 h4
  by_contra hne
  rcases Nat.lt_or_gt_of_ne hne with h | h
  · have : (q + 1) * b ≤ r * b := Nat.mul_le_mul_right b h
    rw [Nat.add_mul] at this
    omega
  · have : (r + 1) * b ≤ q * b := Nat.mul_le_mul_right b h
    rw [Nat.add_mul] at this
    omega

theorem ceil_le {a b q : Nat} (hb : 0 < b) (h1 : a ≤ q * b) : (a + b - 1) / b ≤ q := by
  obtain ⟨h3, h4⟩ := ceil_bounds a b hb
  generalize (a + b - 1) / b = r at h3 h4
  by_contra h
  have : (q + 1) * b ≤ r * b := Nat.mul_le_mul_right b (by omega)
  rw [Nat.add_mul] at this
  omega

variable {N T : Nat}

/-- What a successful check gives. -/
theorem checkRs_some (hN : 1 ≤ N) (hT : 1 ≤ T) {m t kBin : Nat} (hm : 1 ≤ m) (hm' : m ≤ 10) (ht : 1 ≤ t)
    (hk : kBin + m * t = 2 ^ m - 1) (h2 : 2 ≤ kBin) {x : Nat × Nat × Nat} (h : checkRs N T (2 ^ m) kBin (2 * t + 2) = some x) :
    SupParams.Fits ⟨x.1, x.2.1, x.2.2, 2 ^ m, kBin, 2 * t + 2⟩ N T := by
  unfold checkRs at h
  simp only [] at h
  have hpos : 0 < 2 ^ m := by positivity
  obtain ⟨c1, c2⟩ := ceil_bounds N (2 ^ m) hpos
  generalize (N + 2 ^ m - 1) / 2 ^ m = nRs at h c1 c2
  split at h
  · cases h
  · next hp =>
    have hn : 1 ≤ nRs := by
      rcases Nat.eq_zero_or_pos nRs with h0 | h0
      · rw [h0, Nat.zero_mul] at c1
        omega
      · exact h0
    obtain ⟨p1, p2⟩ := pow2Int64_le hn hp
    have hd : 0 < T * (2 * t + 2) := by positivity
    obtain ⟨d1, d2⟩ := ceil_bounds (nRs * 2 ^ m) (T * (2 * t + 2)) hd
    generalize (nRs * 2 ^ m + T * (2 * t + 2) - 1) / (T * (2 * t + 2)) = dRs at h d1 d2
    split at h
    · cases h
    · next hle =>
      rw [Option.some.injEq] at h
      subst h
      refine ⟨⟨m, t, hm, hm', ht, rfl, hk, rfl⟩, h2, p1, c1, c2, ?_, ?_, ?_, p2⟩
      · simp only []
        omega
      · simp only []
        omega
      · simp only []
        calc nRs * 2 ^ m ≤ dRs * (T * (2 * t + 2)) := d1
          _ = T * (dRs * (2 * t + 2)) := by ring

/-- All fitting parameters pass the check, and none has a larger dimension than what the check returns. -/
theorem checkRs_of_fits (_hN : 1 ≤ N) (hT : 1 ≤ T) {q : SupParams} (hq : q.Fits N T) :
    ∃ x, checkRs N T q.nBin q.kBin q.dBin = some x ∧ q.kRs ≤ x.2.1 := by
  obtain ⟨⟨m, t, _, _, _, hn, _, hd⟩, _, hsm, hpar, htight, hdim, hdist, hratio, hsym⟩ := hq
  have hpos : 0 < q.nBin := by
    rw [hn]
    positivity
  unfold checkRs
  simp only []
  rw [← ceil_unique hpos hpar htight, if_neg (pow2Int64_of hsm hsym)]
  have hdp : 0 < T * q.dBin := by
    rw [hd]
    positivity
  have hle := ceil_le (a := q.nRs * q.nBin) (q := q.dRs) hdp (by
    calc q.nRs * q.nBin ≤ T * (q.dRs * q.dBin) := hratio
      _ = q.dRs * (T * q.dBin) := by ring)
  rw [if_neg (by omega)]
  exact ⟨_, rfl, by simp only []; omega⟩

/-- The best parameters so far. -/
def BestOk (N T : Nat) (best : Nat × Option SupParams) : Prop :=
  match best.2 with
  | none => best.1 = 0
  | some p => p.Fits N T ∧ best.1 = p.kRs * p.kBin

/-- No fitting parameters with the `(m, t)` given have a larger dimension. -/
def Beats (N T : Nat) (best : Nat × Option SupParams) (m t : Nat) : Prop :=
  ∀ q : SupParams, q.Fits N T → q.nBin = 2 ^ m → q.dBin = 2 * t + 2 → q.kRs * q.kBin ≤ best.1

theorem tryParams_ge (nBin kBin dBin : Nat) (best : Nat × Option SupParams) :
    best.1 ≤ (tryParams N T nBin kBin dBin best).1 := by
  unfold tryParams
  split
  · exact le_rfl
  · split
    · simp only []
      omega
    · exact le_rfl

theorem tryParams_ok (hN : 1 ≤ N) (hT : 1 ≤ T) {m t kBin : Nat} (hm : 1 ≤ m) (hm' : m ≤ 10) (ht : 1 ≤ t)
    (hk : kBin + m * t = 2 ^ m - 1) (h2 : 2 ≤ kBin) {best : Nat × Option SupParams} (h : BestOk N T best) :
    BestOk N T (tryParams N T (2 ^ m) kBin (2 * t + 2) best) := by
  unfold tryParams
  split
  · exact h
  · next nRs kRs dRs hc =>
    split
    · exact ⟨checkRs_some hN hT hm hm' ht hk h2 hc, rfl⟩
    · exact h

theorem fits_inner {q : SupParams} (hq : q.Fits N T) {m t : Nat} (h1 : q.nBin = 2 ^ m) (h2 : q.dBin = 2 * t + 2) :
    q.kBin + m * t = 2 ^ m - 1 ∧ 1 ≤ m ∧ m ≤ 10 ∧ 1 ≤ t := by
  obtain ⟨m', t', a1, a2, a3, a4, a5, a6⟩ := hq.inner
  have : m' = m := Nat.pow_right_injective le_rfl (show 2 ^ m' = 2 ^ m by rw [← a4, ← h1])
  have : t' = t := by omega
  subst m' t'
  exact ⟨a5, a1, a2, a3⟩

theorem tryParams_beats (hN : 1 ≤ N) (hT : 1 ≤ T) {m t kBin : Nat} (hk : kBin + m * t = 2 ^ m - 1)
    (best : Nat × Option SupParams) : Beats N T (tryParams N T (2 ^ m) kBin (2 * t + 2) best) m t := by
  intro q hq h1 h2
  obtain ⟨a1, _⟩ := fits_inner hq h1 h2
  obtain ⟨⟨n', k', d'⟩, hx, hle⟩ := checkRs_of_fits hN hT hq
  have hkk : q.kBin = kBin := by omega
  rw [h1, h2, hkk] at hx
  unfold tryParams
  rw [hx]
  simp only []
  have : q.kRs * q.kBin ≤ k' * kBin := by
    rw [hkk]
    exact Nat.mul_le_mul_right _ hle
  split
  · exact this
  · omega

/-- Stopping early loses nothing. -/
theorem fits_break (_hT : 1 ≤ T) {m t : Nat} (hlt : 2 * t + 1 < (2 ^ m - 1) / T) {q : SupParams} (hN : 1 ≤ N) (hq : q.Fits N T)
    (h1 : q.nBin = 2 ^ m) {s : Nat} (hs : s ≤ t) (h2 : q.dBin = 2 * s + 2) : False := by
  have hpar := hq.parties
  have hratio := hq.ratio
  have hdist := hq.dist
  have hdim := hq.dim
  rw [h1] at hratio hpar
  rw [h2] at hratio
  have hn : 1 ≤ q.nRs := by
    rcases Nat.eq_zero_or_pos q.nRs with h0 | h0
    · rw [h0, Nat.zero_mul] at hpar
      omega
    · exact h0
  have e1 : T * (q.dRs * (2 * s + 2)) ≤ q.nRs * (T * (2 * s + 2)) := by
    calc T * (q.dRs * (2 * s + 2)) = q.dRs * (T * (2 * s + 2)) := by ring
      _ ≤ q.nRs * (T * (2 * s + 2)) := Nat.mul_le_mul_right _ (by omega)
  have e2 : 2 ^ m ≤ T * (2 * s + 2) := Nat.le_of_mul_le_mul_left (hratio.trans e1) hn
  have e3 : T * (2 * s + 2) ≤ T * ((2 ^ m - 1) / T) := Nat.mul_le_mul_left _ (by omega)
  have e4 := Nat.mul_div_le (2 ^ m - 1) T
  have : 0 < 2 ^ m := by positivity
  omega

theorem Beats.mono {a b : Nat × Option SupParams} (h : a.1 ≤ b.1) {m t : Nat} (ha : Beats N T a m t) : Beats N T b m t :=
  fun q hq h1 h2 => (ha q hq h1 h2).trans h

theorem tLoop_spec (hN : 1 ≤ N) (hT : 1 ≤ T) {m : Nat} (hm : 1 ≤ m) (hm' : m ≤ 10) (t : Nat) (ht : m * t ≤ 2 ^ m - 1)
    (best : Nat × Option SupParams) (h : BestOk N T best) :
    BestOk N T (tLoop N T m t best) ∧ best.1 ≤ (tLoop N T m t best).1 ∧
      ∀ s, 1 ≤ s → s ≤ t → Beats N T (tLoop N T m t best) m s := by
  induction t generalizing best with
  | zero => exact ⟨h, le_rfl, fun s h1 h2 => by omega⟩
  | succ t ih =>
    have hmt : m * t ≤ 2 ^ m - 1 := by
      rw [Nat.mul_succ] at ht
      omega
    unfold tLoop
    simp only []
    split
    · next hk =>
      obtain ⟨i1, i2, i3⟩ := ih hmt best h
      refine ⟨i1, i2, fun s hs hs' => ?_⟩
      by_cases he : s = t + 1
      · subst he
        intro q hq h1 h2
        obtain ⟨a1, _⟩ := fits_inner hq h1 h2
        have := hq.two
        omega
      · exact i3 s hs (by omega)
    · next hk =>
      split
      · next hb =>
        refine ⟨h, le_rfl, fun s hs hs' q hq h1 h2 => ?_⟩
        exact (fits_break hT hb hN hq h1 hs' h2).elim
      · have hkk : 2 ^ m - 1 - m * (t + 1) + m * (t + 1) = 2 ^ m - 1 := by omega
        have hp : 2 ^ m - 1 + 1 = 2 ^ m := by
          have : 0 < 2 ^ m := by positivity
          omega
        have hd : 2 * (t + 1) + 1 + 1 = 2 * (t + 1) + 2 := by omega
        rw [hp, hd]
        obtain ⟨i1, i2, i3⟩ := ih hmt _ (tryParams_ok hN hT hm hm' (by omega) hkk (by omega) h)
        refine ⟨i1, (tryParams_ge _ _ _ _).trans i2, fun s hs hs' => ?_⟩
        by_cases he : s = t + 1
        · subst he
          exact (tryParams_beats hN hT hkk best).mono i2
        · exact i3 s hs (by omega)

theorem mLoop_spec (hN : 1 ≤ N) (hT : 1 ≤ T) (ms : List Nat) (hms : ∀ m ∈ ms, 1 ≤ m ∧ m ≤ 10) (best : Nat × Option SupParams)
    (h : BestOk N T best) :
    BestOk N T (ms.foldl (fun best m => tLoop N T m ((2 ^ m - 1) / m) best) best) ∧
      best.1 ≤ (ms.foldl (fun best m => tLoop N T m ((2 ^ m - 1) / m) best) best).1 ∧
      ∀ m ∈ ms, ∀ s, 1 ≤ s → m * s ≤ 2 ^ m - 1 →
        Beats N T (ms.foldl (fun best m => tLoop N T m ((2 ^ m - 1) / m) best) best) m s := by
  induction ms generalizing best with
  | nil => exact ⟨h, le_rfl, by simp⟩
  | cons m ms ih =>
    obtain ⟨hm, hm'⟩ := hms m (by simp)
    obtain ⟨t1, t2, t3⟩ := tLoop_spec hN hT hm hm' ((2 ^ m - 1) / m) (Nat.mul_div_le _ _) best h
    obtain ⟨i1, i2, i3⟩ := ih (fun x hx => hms x (by simp [hx])) _ t1
    rw [List.foldl_cons]
    refine ⟨i1, t2.trans i2, fun x hx s hs hs' => ?_⟩
    rcases List.mem_cons.1 hx with rfl | hx
    · exact (t3 s hs (by rw [Nat.le_div_iff_mul_le hm, Nat.mul_comm]; exact hs')).mono i2
    · exact i3 x hx s hs hs'

end Verif
