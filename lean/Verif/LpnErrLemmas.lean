import Verif.TapeCount
import Verif.GarbleRows
import Mathlib.Algebra.BigOperators.Field
import Mathlib.Algebra.Polynomial.BigOperators

/-!
# Rows, the distance of the code, and the numbers of the default parameters
-/

open Polynomial

namespace Verif

open CodeField (ofU32)

/-! ## The correctness error of the script -/

theorem error_tail (N k tau : Nat) : correctnessError N k tau = binomTail ((N - k) / 2) N (1 / 2 ^ tau) := by
  rw [tail_eq_cdf (by omega)]
  unfold correctnessError
  simp only [Nat.add_sub_cancel]

theorem error_mono {N k k' : Nat} (h : k ≤ k') (tau : Nat) : correctnessError N k tau ≤ correctnessError N k' tau := by
  rw [error_tail, error_tail]
  have hp : (1 : ℚ) / 2 ^ tau ≤ 1 := by
    rw [div_le_one (by positivity)]
    exact one_le_pow₀ (by norm_num)
  exact tail_anti (by omega) (by positivity) hp

/-! ## Sums of binomial terms -/

/-- `∑ j < f, C(N, i + j) a^(i + j) b^(N - i - j)`, computed with `c = C(N, i)`, added to `acc`. -/
def binomSum (N a b : Nat) : Nat → Nat → Nat → Nat → Nat
  | 0, _, _, acc => acc
  | f + 1, i, c, acc => binomSum N a b f (i + 1) (c * (N - i) / (i + 1)) (acc + c * a ^ i * b ^ (N - i))

theorem binomSum_eq (N a b : Nat) (f i acc : Nat) :
    binomSum N a b f i (N.choose i) acc = acc + ∑ j ∈ Finset.range f, N.choose (i + j) * a ^ (i + j) * b ^ (N - (i + j)) := by
  induction f generalizing i acc with
  | zero => simp [binomSum]
  | succ f ih =>
    have : N.choose i * (N - i) / (i + 1) = N.choose (i + 1) := by
      rw [← Nat.choose_succ_right_eq]
      exact Nat.mul_div_cancel _ (Nat.succ_pos i)
    rw [binomSum, this, ih, Finset.sum_range_succ', Nat.add_zero]
    have : ∀ j, i + 1 + j = i + (j + 1) := fun j => by omega
    simp only [this, Nat.add_zero]
    ring

theorem cdf_eq {a T w N : Nat} (hT : 0 < T) (ha : a ≤ T) (hw : w ≤ N) :
    binomCdf w N ((a : ℚ) / T) = (binomSum N a (T - a) (w + 1) 0 1 0 : ℚ) / T ^ N := by
  have h0 := binomSum_eq N a (T - a) (w + 1) 0 0
  rw [Nat.choose_zero_right] at h0
  simp only [Nat.zero_add] at h0
  rw [h0]
  unfold binomCdf
  push_cast
  rw [Finset.sum_div]
  refine Finset.sum_congr rfl fun j hj => ?_
  have hj : j ≤ N := by
    have := Finset.mem_range.1 hj
    omega
  have hT' : (T : ℚ) ≠ 0 := by exact_mod_cast hT.ne'
  rw [Nat.cast_sub ha, show (1 : ℚ) - a / T = (T - a) / T by field_simp, div_pow, div_pow]
  have hp : (T : ℚ) ^ N = (T : ℚ) ^ j * (T : ℚ) ^ (N - j) := by
    rw [← pow_add]
    congr 1
    omega
  rw [hp]
  field_simp

theorem tail_le {a T w N B : Nat} (hT : 0 < T) (ha : a ≤ T) (hw : w ≤ N) (hB : 0 < B)
    (h : (B - 1) * T ^ N ≤ binomSum N a (T - a) (w + 1) 0 1 0 * B) : binomTail w N ((a : ℚ) / T) ≤ 1 / B := by
  rw [tail_eq_cdf hw, cdf_eq hT ha hw]
  have hq : ((B - 1 : Nat) : ℚ) * T ^ N ≤ (binomSum N a (T - a) (w + 1) 0 1 0 : ℚ) * B := by exact_mod_cast h
  rw [Nat.cast_sub hB, Nat.cast_one] at hq
  have hB' : (0 : ℚ) < B := by exact_mod_cast hB
  have hpos : (0 : ℚ) < (T : ℚ) ^ N := by
    have : (0 : ℚ) < T := by exact_mod_cast hT
    positivity
  rw [sub_le_iff_le_add, ← sub_le_iff_le_add', le_div_iff₀ hpos]
  have : (1 - 1 / (B : ℚ)) * T ^ N = (B - 1) * T ^ N / B := by field_simp
  rw [this, div_le_iff₀ hB']
  exact hq

theorem lt_tail {a T w N B : Nat} (hT : 0 < T) (ha : a ≤ T) (hw : w ≤ N) (hB : 0 < B)
    (h : binomSum N a (T - a) (w + 1) 0 1 0 * B < (B - 1) * T ^ N) : 1 / B < binomTail w N ((a : ℚ) / T) := by
  rw [tail_eq_cdf hw, cdf_eq hT ha hw]
  have hq : (binomSum N a (T - a) (w + 1) 0 1 0 : ℚ) * B < ((B - 1 : Nat) : ℚ) * T ^ N := by exact_mod_cast h
  rw [Nat.cast_sub hB, Nat.cast_one] at hq
  have hB' : (0 : ℚ) < B := by exact_mod_cast hB
  have hpos : (0 : ℚ) < (T : ℚ) ^ N := by
    have : (0 : ℚ) < T := by exact_mod_cast hT
    positivity
  rw [lt_sub_comm, div_lt_iff₀ hpos]
  have : (1 - 1 / (B : ℚ)) * T ^ N = (B - 1) * T ^ N / B := by field_simp
  rw [this, lt_div_iff₀ hB']
  exact hq

/-- The script accepts the default parameters for a correctness error of `2^-40`. -/
theorem default_error : correctnessError 555 127 2 ≤ 1 / (2 ^ 40 : Nat) := by
  rw [error_tail, show (1 : ℚ) / 2 ^ 2 = ((1 : Nat) : ℚ) / (4 : Nat) by norm_num]
  exact tail_le (by decide) (by decide) (by decide) (by decide) (by decide +kernel)

/-- More than 213 errors are more likely than `2^-40`. -/
theorem default_tail : 1 / (2 ^ 40 : Nat) < binomTail 213 555 (((2 ^ 18 - 1 : Nat) : ℚ) / (4 * 2 ^ 18 : Nat)) :=
  lt_tail (by decide) (by decide) (by decide) (by decide) (by decide +kernel)

/-! ## Rows -/

theorem rowErrors_card (c : PackedCircuit) (mssgLen gid r : Nat) : (c.rowErrors mssgLen gid r).card = mssgLen := by
  unfold PackedCircuit.rowErrors
  rw [Finset.card_image_of_injective, Finset.card_range]
  intro a b h
  simp only [PackedCircuit.errorIdx] at h
  omega

theorem rowErrors_lt {c : PackedCircuit} {n t l : Nat} {lpn : LpnParams} {d : PreProcCount} (h : c.describe n t l lpn = some d) {gid : Nat}
    {gate : PackedGate} (hg : c.gates[gid]? = some gate) {r : Nat} (hr : r < gate.kind.numRows) : ∀ a ∈ c.rowErrors lpn.mssgLen gid r, a < d.errors := by
  intro a ha
  obtain ⟨i, hi, rfl⟩ := Finset.mem_image.1 ha
  have hi := Finset.mem_range.1 hi
  obtain ⟨_, _, _, _, _, _, _, _, e5⟩ := describe_eq h
  have hkq : (c.gates.map PackedGate.kind)[gid]? = some gate.kind := by rw [List.getElem?_map, hg, Option.map_some]
  rw [e5, ← offBy_errorIdx]
  have h1 := offBy_le (fun x => x.numRows * lpn.mssgLen) (c.gates.map PackedGate.kind) gid gate.kind hkq
  have h2 := Nat.mul_le_mul_right lpn.mssgLen (show r + 1 ≤ gate.kind.numRows from hr)
  rw [Nat.add_mul r, Nat.one_mul] at h2
  omega

/-! ## The distance of the code -/

section
variable {F : Type} [CodeField F] [DecidableEq F]

theorem hdist_getD {N : Nat} {c w : List F} (hc : c.length = N) (hw : w.length = N) :
    hdist c w = ((List.range N).filter fun a => c.getD a 0 ≠ w.getD a 0).length := by
  rw [← hdist_tab]
  congr 1
  · apply List.ext_getElem (by simp [hc])
    intro i h1 h2
    simp [List.getD_eq_getElem?_getD, h1]
  · apply List.ext_getElem (by simp [hw])
    intro i h1 h2
    simp [List.getD_eq_getElem?_getD, h1]

omit [DecidableEq F] in
/-- A message whose codeword has `k - 1` zeros, and no more. -/
theorem light_word {k N : Nat} (hk : 1 ≤ k) (hN : N < CodeField.order F) (G : Mat F) (hG : rsGenMat k N = some G) :
    ∃ m c : List F, m.length = k ∧ m.getD (k - 1) 0 = 1 ∧ G.mulVec m = some c ∧ c.length = N ∧
      ∀ a < N, c.getD a 0 = 0 ↔ a < k - 1 := by
  have h2 := rsGenMat_eq (F := F) hk hN
  obtain rfl : G = _ := Option.some.inj (hG.symm.trans h2)
  let p : F[X] := ∏ i ∈ Finset.range (k - 1), (X - C (ofU32 (i + 1)))
  have hdeg : p.natDegree = k - 1 := by
    rw [natDegree_prod_of_monic _ _ fun i _ => monic_X_sub_C _]
    simp
  have hmonic : p.Monic := monic_prod_of_monic _ _ fun i _ => monic_X_sub_C _
  refine ⟨(List.range k).map p.coeff, (rsPts N).map fun x => x * p.eval x, by simp, ?_, ?_, by simp [rsPts], ?_⟩
  · rw [getD_tab _ _ _ (by omega)]
    have := hmonic.coeff_natDegree
    rwa [hdeg] at this
  · unfold Mat.mulVec
    rw [if_pos (by simp), Option.some.injEq, List.map_map]
    refine List.map_congr_left fun x _ => ?_
    simp only [Function.comp_apply]
    rw [dot_sum (n := k) (by simp) (by simp), eval_eq_sum_range' (n := k) (by omega), Finset.mul_sum]
    refine Finset.sum_congr rfl fun r hr => ?_
    have hr := Finset.mem_range.1 hr
    rw [getD_tab _ _ _ hr, getD_tab _ _ _ hr]
    ring
  · intro a ha
    have h1 : ((rsPts N : List F).map fun x => x * p.eval x).getD a 0 = ofU32 (a + 1) * p.eval (ofU32 (a + 1)) := by
      unfold rsPts
      rw [List.map_map, getD_tab _ _ _ ha]
      rfl
    have hne : (ofU32 (a + 1) : F) ≠ 0 := by
      rw [← CodeField.ofU32_zero]
      intro h
      have := CodeField.ofU32_inj _ _ (by omega) (by omega) h
      omega
    rw [h1, mul_eq_zero, or_iff_right hne, eval_prod, Finset.prod_eq_zero_iff]
    constructor
    · rintro ⟨i, hi, h⟩
      have hi := Finset.mem_range.1 hi
      rw [eval_sub, eval_X, eval_C, sub_eq_zero] at h
      by_contra hlt
      have := CodeField.ofU32_inj _ _ (by omega) (by omega) h
      omega
    · intro h
      exact ⟨a, Finset.mem_range.2 h, by simp⟩

/-- The code corrects `e` errors if and only if `2e` is less than its distance. -/
theorem corrects_iff {k N e : Nat} (hk : 1 ≤ k) (hkN : k ≤ N) (hN : N < CodeField.order F) : Corrects F k N e ↔ 2 * e < N - k + 1 := by
  constructor
  · intro h
    by_contra hle
    obtain ⟨m, c, h1, h2, h3, h4, h5⟩ := light_word (F := F) hk hN _ (rsGenMat_eq hk hN)
    let w : List F := (List.range N).map fun a => if a < k - 1 + (N - k + 1) / 2 then c.getD a 0 else 0
    have hz : ({ ncols := k, rows := (rsPts N).map fun x => (List.range k).map fun r => x ^ (r + 1) } : Mat F).mulVec (List.replicate k 0)
        = some (List.replicate N 0) := by
      unfold Mat.mulVec
      rw [if_pos (by simp), Option.some.injEq, List.map_map, List.eq_replicate_iff]
      refine ⟨by simp [rsPts], fun b hb => ?_⟩
      obtain ⟨x, _, rfl⟩ := List.mem_map.1 hb
      simp only [Function.comp_apply]
      rw [dot_sum (n := k) (by simp) (by simp)]
      refine Finset.sum_eq_zero fun r hr => ?_
      rw [List.getD_eq_getElem?_getD (l := List.replicate k (0 : F)), List.getElem?_replicate, if_pos (Finset.mem_range.1 hr), Option.getD_some, mul_zero]
    have cnt : ∀ (P : Nat → Bool) (lo hi : Nat), (∀ a < N, P a = true → lo ≤ a ∧ a < hi) →
        ((List.range N).filter P).length ≤ hi - lo := by
      intro P lo hi hP
      have hnd : ((List.range N).filter P).Nodup := List.nodup_range.filter _
      rw [← List.toFinset_card_of_nodup hnd, ← Nat.card_Ico]
      refine Finset.card_le_card fun a ha => ?_
      rw [List.mem_toFinset, List.mem_filter, List.mem_range] at ha
      rw [Finset.mem_Ico]
      exact hP a ha.1 ha.2
    have := h _ (rsGenMat_eq hk hN) m (List.replicate k 0) c (List.replicate N 0) w h1 (by simp) h3 hz (by simp [w])
      (le_trans (cnt _ (k - 1 + (N - k + 1) / 2) N fun a ha hP => ?_) (by omega))
      (le_trans (cnt _ (k - 1) (k - 1 + (N - k + 1) / 2) fun a ha hP => ?_) (by omega))
    · rw [this, List.getD_eq_getElem?_getD, List.getElem?_replicate, if_pos (by omega), Option.getD_some] at h2
      exact zero_ne_one h2
    · refine ⟨?_, ha⟩
      by_contra hlt
      rw [decide_eq_true_iff] at hP
      apply hP
      show _ = List.getD ((List.range N).map _) a 0
      rw [getD_tab _ _ _ ha, if_pos (by omega)]
    · rw [decide_eq_true_iff] at hP
      have hw : w.getD a 0 = if a < k - 1 + (N - k + 1) / 2 then c.getD a 0 else 0 := getD_tab _ _ _ ha
      rw [hw, List.getD_eq_getElem?_getD, List.getElem?_replicate, if_pos ha, Option.getD_some] at hP
      split at hP
      · rename_i hlt
        refine ⟨?_, hlt⟩
        by_contra hge
        exact hP ((h5 a ha).2 (by omega)).symm
      · exact absurd rfl hP
  · intro he G hG m m' c c' w hm hm' hc hc' hw hd hd'
    have hl : ∀ {m c : List F}, G.mulVec m = some c → c.length = N := by
      intro m c h
      unfold Mat.mulVec at h
      split at h
      · have := Option.some.inj h
        obtain rfl : G = _ := Option.some.inj (hG.symm.trans (rsGenMat_eq hk hN))
        rw [← this]
        simp [rsPts]
      · simp at h
    exact Props.C10_unique_decoding k N e hk hkN hN (by omega) G hG w m m' c c' hw hm hm' hc hc' (by rw [hdist_getD (hl hc) hw]; exact hd)
      (by rw [hdist_getD (hl hc') hw]; exact hd')

end

end Verif
