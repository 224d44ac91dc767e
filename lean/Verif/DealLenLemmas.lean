import Verif.DealLenSpec
import Verif.MathModLemmas
import Verif.GF
import Verif.ArrayLemmas
import Mathlib.Tactic.LinearCombination

/-! # Lemmas for C137 -/

open Polynomial

namespace Verif

open CodeField (ofU32)

/-- Cutting a list into rows and concatenating them gives the list. -/
theorem rows_flatten {α : Type} (c : Nat) : ∀ (r : Nat) (v : List α), v.length = r * c → ((List.range r).map fun i => (v.drop (i * c)).take c).flatten = v := by
  intro r
  induction r with
  | zero =>
    intro v hv
    have : v = [] := List.length_eq_zero_iff.1 (by simpa using hv)
    simp [this]
  | succ r ih =>
    intro v hv
    rw [List.range_succ_eq_map, List.map_cons, List.map_map, List.flatten_cons]
    have e : ((fun i => (v.drop (i * c)).take c) ∘ Nat.succ) = fun i => ((v.drop c).drop (i * c)).take c := by
      funext i
      simp only [Function.comp, List.drop_drop]
      congr 2
      rw [Nat.succ_mul]
      omega
    rw [e, ih (v.drop c) (by rw [List.length_drop, hv, Nat.succ_mul]; omega)]
    simp

/-- The result with five values. -/
theorem dealFinish_five {m : Mat (GF 18)} (hm : superInvMatrix 5 3 = some m) (ms : List (List (GF 18))) {a b c d e : GF 18} (h : ms.flatten = [a, b, c, d, e]) :
    dealFinish 5 1 m ms = some ((List.range 3).map fun r => (ofU32 1) ^ (r + 1) * a + (ofU32 2) ^ (r + 1) * b + (ofU32 3) ^ (r + 1) * c + (ofU32 4) ^ (r + 1) * d
      + (ofU32 5) ^ (r + 1) * e) := by
  rw [superInvMatrix, rsGenCols_eq (by norm_num) (by decide), Option.map_some, Option.some.injEq] at hm
  subst hm
  unfold dealFinish toRows Mat.mulRows
  rw [h]
  simp [List.range_succ, rsPts, dot, col]
  ring_nf
  trivial

/-- Linear relations between the values of polynomials. -/
theorem eval_relation {q : (GF 18)[X]} {d : Nat} (hq : q.degree < d) (w : Nat → GF 18) (c y : GF 18)
    (h : ∀ k < d, ∑ i ∈ Finset.range 5, w i * (ofU32 i) ^ k = c * y ^ k) : ∑ i ∈ Finset.range 5, w i * q.eval (ofU32 i) = c * q.eval y := by
  rcases Nat.eq_zero_or_pos d with rfl | hd
  · have : q = 0 := by
      rw [← degree_eq_bot]
      exact Nat.WithBot.lt_zero_iff.1 (by exact_mod_cast hq)
    simp [this]
  have hn : q.natDegree < d := by
    rcases eq_or_ne q 0 with rfl | h0
    · simpa using hd
    · rwa [degree_eq_natDegree h0, Nat.cast_lt] at hq
  simp only [eval_eq_sum_range' hn, Finset.mul_sum]
  rw [Finset.sum_comm]
  refine Finset.sum_congr rfl fun k hk => ?_
  have := h k (Finset.mem_range.1 hk)
  calc ∑ i ∈ Finset.range 5, w i * (q.coeff k * ofU32 i ^ k) = q.coeff k * ∑ i ∈ Finset.range 5, w i * (ofU32 i) ^ k := by
        rw [Finset.mul_sum]
        exact Finset.sum_congr rfl fun i _ => by ring
    _ = c * (q.coeff k * y ^ k) := by rw [this]; ring

/-- The relations which are used. -/
theorem len_relations :
    (∀ k < 5, ∑ i ∈ Finset.range 5, ([7, 7, 6, 6, 1].map fun a => (GF.ofU32 a : GF 18)).getD i 0 * (ofU32 i) ^ k = 1 * (ofU32 5) ^ k) ∧
    (∀ k < 3, ∑ i ∈ Finset.range 5, ([1, 1, 1, 1, 0].map fun a => (GF.ofU32 a : GF 18)).getD i 0 * (ofU32 i) ^ k = 0 * 0 ^ k) := by
  constructor <;> decide +kernel

/-- The sum of the three values of a message with weights 2, 3 and 1. -/
noncomputable def lenSum (v : Option (List (GF 18))) : GF 18 := ofU32 2 * (v.getD []).getD 0 0 + ofU32 3 * (v.getD []).getD 1 0 + (v.getD []).getD 2 0

/-- The messages. -/
theorem lenMsg_eq {m : Mat (GF 18)} (hm : superInvMatrix 5 3 = some m) (x ρ f : Nat → (GF 18)[X]) (p : Nat) :
    lenMsg m x ρ f p = some ((List.range 3).map fun r => (x r).eval (ofU32 p)
      + ((ofU32 1) ^ (r + 1) * (ρ 0).eval (ofU32 p) + (ofU32 2) ^ (r + 1) * (ρ 1).eval (ofU32 p) + (if p = 3 then ofU32 5 else ofU32 4) ^ (r + 1) * (ρ 3).eval (ofU32 p))
      + ((ofU32 1) ^ (r + 1) * (f 0).eval (ofU32 p) + (ofU32 2) ^ (r + 1) * (f 1).eval (ofU32 p) + (ofU32 4) ^ (r + 1) * (f 3).eval (ofU32 p))) := by
  have hz : ((List.range 5).map (lenZero f p)).flatten = [(f 0).eval (ofU32 p), (f 1).eval (ofU32 p), 0, (f 3).eval (ofU32 p), 0] := by
    simp [List.range_succ, lenZero]
  unfold lenMsg
  rw [dealFinish_five hm _ hz]
  by_cases hp : p = 3
  · have hr : ((List.range 5).map (lenRand ρ p)).flatten = [(ρ 0).eval (ofU32 p), (ρ 1).eval (ofU32 p), 0, 0, (ρ 3).eval (ofU32 p)] := by
      simp [List.range_succ, lenRand, hp]
    rw [dealFinish_five hm _ hr]
    simp [rdSend, vadd, List.range_succ, hp]
  · have hr : ((List.range 5).map (lenRand ρ p)).flatten = [(ρ 0).eval (ofU32 p), (ρ 1).eval (ofU32 p), 0, (ρ 3).eval (ofU32 p), 0] := by
      simp [List.range_succ, lenRand, hp]
    rw [dealFinish_five hm _ hr]
    simp [rdSend, vadd, List.range_succ, hp]

theorem lenSum_eq {m : Mat (GF 18)} (hm : superInvMatrix 5 3 = some m) (x ρ f : Nat → (GF 18)[X]) (p : Nat) :
    lenSum (lenMsg m x ρ f p) = ofU32 2 * (x 0).eval (ofU32 p) + ofU32 3 * (x 1).eval (ofU32 p) + (x 2).eval (ofU32 p)
      + (if p = 3 then ofU32 108 else ofU32 120) * (ρ 3).eval (ofU32 p) + ofU32 120 * (f 3).eval (ofU32 p) := by
  have k1 : (ofU32 2 * ofU32 1 + ofU32 3 * ofU32 1 ^ 2 + ofU32 1 ^ 3 : GF 18) = 0 := by decide +kernel
  have k2 : (ofU32 2 * ofU32 2 + ofU32 3 * ofU32 2 ^ 2 + ofU32 2 ^ 3 : GF 18) = 0 := by decide +kernel
  have k4 : (ofU32 2 * ofU32 4 + ofU32 3 * ofU32 4 ^ 2 + ofU32 4 ^ 3 : GF 18) = ofU32 120 := by decide +kernel
  have k5 : (ofU32 2 * ofU32 5 + ofU32 3 * ofU32 5 ^ 2 + ofU32 5 ^ 3 : GF 18) = ofU32 108 := by decide +kernel
  rw [lenMsg_eq hm]
  simp only [lenSum, Option.getD_some, List.range_succ, List.range_zero, List.nil_append, List.cons_append, List.map_cons, List.map_nil, List.getD_cons_zero,
    List.getD_cons_succ, zero_add, pow_one]
  split_ifs with hp
  · linear_combination ((ρ 0).eval (ofU32 p) + (f 0).eval (ofU32 p)) * k1 + ((ρ 1).eval (ofU32 p) + (f 1).eval (ofU32 p)) * k2 + (f 3).eval (ofU32 p) * k4
      + (ρ 3).eval (ofU32 p) * k5
  · linear_combination ((ρ 0).eval (ofU32 p) + (f 0).eval (ofU32 p)) * k1 + ((ρ 1).eval (ofU32 p) + (f 1).eval (ofU32 p)) * k2
      + ((ρ 3).eval (ofU32 p) + (f 3).eval (ofU32 p)) * k4

/-- What the deviating parties compute. -/
theorem len_secret {m : Mat (GF 18)} (hm : superInvMatrix 5 3 = some m) {x ρ f : Nat → (GF 18)[X]} (h : LenRun x ρ f) :
    ofU32 2 * (x 0).eval (ofU32 5) + ofU32 3 * (x 1).eval (ofU32 5) + (x 2).eval (ofU32 5)
      = ofU32 7 * lenSum (lenMsg m x ρ f 0) + ofU32 7 * lenSum (lenMsg m x ρ f 1) + ofU32 6 * lenSum (lenMsg m x ρ f 3)
        + ofU32 6 * (ofU32 2 * (x 0).eval (ofU32 2) + ofU32 3 * (x 1).eval (ofU32 2) + (x 2).eval (ofU32 2))
        + (ofU32 2 * (x 0).eval (ofU32 4) + ofU32 3 * (x 1).eval (ofU32 4) + (x 2).eval (ofU32 4))
        + ofU32 360 * (ρ 3).eval (ofU32 2) + ofU32 120 * (ofU32 6 * (f 3).eval (ofU32 2) + (f 3).eval (ofU32 4)) := by
  have r : ∀ q : (GF 18)[X], q.degree < 5 → ofU32 7 * q.eval (ofU32 0) + ofU32 7 * q.eval (ofU32 1) + ofU32 6 * q.eval (ofU32 2) + ofU32 6 * q.eval (ofU32 3)
      + q.eval (ofU32 4) = q.eval (ofU32 5) := by
    intro q hq
    have := eval_relation (d := 5) hq _ _ _ len_relations.1
    simp only [Finset.sum_range_succ, Finset.sum_range_zero, List.map_cons, List.map_nil, List.getD_cons_zero, List.getD_cons_succ, zero_add, one_mul] at this
    rw [← this]
    have e : (GF.ofU32 1 : GF 18) = 1 := by decide +kernel
    rw [e, one_mul]
    rfl
  have r3 : (ρ 3).eval (ofU32 0) + (ρ 3).eval (ofU32 1) + (ρ 3).eval (ofU32 2) + (ρ 3).eval (ofU32 3) = 0 := by
    have := eval_relation (d := 3) (h.rand 3) _ _ _ len_relations.2
    simp only [Finset.sum_range_succ, Finset.sum_range_zero, List.map_cons, List.map_nil, List.getD_cons_zero, List.getD_cons_succ, zero_add, zero_mul] at this
    have e : (GF.ofU32 1 : GF 18) = 1 := by decide +kernel
    have e0 : (GF.ofU32 0 : GF 18) = 0 := by decide +kernel
    rw [e, e0] at this
    simpa only [one_mul, zero_mul, add_zero] using this
  have w0 : (ofU32 7 * ofU32 120 : GF 18) = ofU32 360 := by decide +kernel
  have w3 : (ofU32 6 * ofU32 108 : GF 18) = ofU32 360 := by decide +kernel
  have two : (2 : GF 18) = 0 := by decide +kernel
  have rf := r (f 3) (h.zero 3).1
  rw [(h.zero 3).2] at rf
  rw [lenSum_eq hm, lenSum_eq hm, lenSum_eq hm, if_neg (by norm_num), if_neg (by norm_num), if_pos rfl, ← r _ (h.inp 0), ← r _ (h.inp 1), ← r _ (h.inp 2)]
  linear_combination -ofU32 120 * rf - ofU32 360 * r3 - ((ρ 3).eval (ofU32 0) + (ρ 3).eval (ofU32 1)) * w0 - (ρ 3).eval (ofU32 3) * w3

end Verif
