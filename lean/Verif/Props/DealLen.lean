import Verif.DealLenLemmas

/-! # C137: numbers of values in `rand`, `zero` and `randbit` -/

open Polynomial Verif
open Verif.CodeField (ofU32)

namespace Verif.Props

variable {F : Type} [CodeField F] [DecidableEq F]

omit [DecidableEq F] in
/-- C137: a party accepts what it gets exactly if the numbers of values are right in total. -/
theorem C137_iff (n batches : Nat) (m : Mat F) (hm : m.ncols = n) (ms : List (List F)) :
    (dealFinish n batches m ms).isSome ↔ (ms.map List.length).sum = n * batches := by
  unfold dealFinish toRows Mat.mulRows
  rw [List.length_flatten]
  split_ifs with h
  · simp [h, hm]
  · simp [h]

omit [DecidableEq F] in
/-- C137, if only one party sends another number of values (missing: several such parties). -/
theorem C137_single_partial (n batches : Nat) (m : Mat F) (hm : m.ncols = n) (ms : List (List F)) (hn : ms.length = n) (j : Nat) (hj : j < n)
    (hothers : ∀ (i : Nat) (hi : i < ms.length), i ≠ j → ms[i].length = batches) (hwrong : (ms.getD j []).length ≠ batches) : dealFinish n batches m ms = none := by
  by_contra h
  have h := (C137_iff n batches m hm ms).1 (Option.isSome_iff_ne_none.2 h)
  subst hn
  have e : ms = ms.take j ++ ms.getD j [] :: ms.drop (j + 1) := by
    rw [List.getD_eq_getElem?_getD, List.getElem?_eq_getElem hj, Option.getD_some, List.getElem_cons_drop, List.take_append_drop]
  have h1 : ((ms.take j).map List.length).sum = j * batches := by
    have : (ms.take j).map List.length = List.replicate j batches := by
      refine List.eq_replicate_iff.2 ⟨by simp; omega, fun x hx => ?_⟩
      obtain ⟨v, hv, rfl⟩ := List.mem_map.1 hx
      obtain ⟨i, hi, rfl⟩ := List.mem_iff_getElem.1 hv
      simp only [List.length_take] at hi
      rw [List.getElem_take]
      exact hothers i (by omega) (by omega)
    rw [this, List.sum_replicate, smul_eq_mul]
  have h2 : ((ms.drop (j + 1)).map List.length).sum = (ms.length - (j + 1)) * batches := by
    have : (ms.drop (j + 1)).map List.length = List.replicate (ms.length - (j + 1)) batches := by
      refine List.eq_replicate_iff.2 ⟨by simp, fun x hx => ?_⟩
      obtain ⟨v, hv, rfl⟩ := List.mem_map.1 hx
      obtain ⟨i, hi, rfl⟩ := List.mem_iff_getElem.1 hv
      simp only [List.length_drop] at hi
      rw [List.getElem_drop]
      exact hothers _ (by omega) (by omega)
    rw [this, List.sum_replicate, smul_eq_mul]
  rw [e, List.map_append, List.sum_append, List.map_cons, List.sum_cons, h1, h2, ← e] at h
  obtain ⟨k, hk⟩ : ∃ k, ms.length = j + 1 + k := ⟨ms.length - (j + 1), by omega⟩
  rw [hk, Nat.add_sub_cancel_left, Nat.add_mul, Nat.add_mul] at h
  omega

omit [DecidableEq F] in
/-- C137: if the parties which send other numbers of values follow one another (those from `a` to `b - 1`), it makes no difference: there are messages with the right numbers of values from
them with which the result is the same. -/
theorem C137_neighbours_partial (n batches : Nat) (m : Mat F) (hm : m.ncols = n) (ms : List (List F)) (hn : ms.length = n) (a b : Nat) (hab : a ≤ b) (hb : b ≤ n)
    (hothers : ∀ (i : Nat) (hi : i < ms.length), i < a ∨ b ≤ i → ms[i].length = batches) (hok : (dealFinish n batches m ms).isSome) :
    ∃ ms' : List (List F), ms'.length = n ∧ (∀ v ∈ ms', v.length = batches) ∧ (∀ i, i < a ∨ b ≤ i → ms'[i]? = ms[i]?) ∧
      dealFinish n batches m ms' = dealFinish n batches m ms := by
  subst hn
  have hsum := (C137_iff _ batches m hm ms).1 hok
  have h1 : (ms.take a).flatten.length = a * batches := by
    have := flatten_length (c := batches) (ms.take a) fun v hv => by
      obtain ⟨i, hi, rfl⟩ := List.mem_iff_getElem.1 hv
      simp only [List.length_take] at hi
      rw [List.getElem_take]
      exact hothers i (by omega) (by omega)
    rw [this, List.length_take, Nat.min_eq_left (by omega)]
  have h2 : (ms.drop b).flatten.length = (ms.length - b) * batches := by
    have := flatten_length (c := batches) (ms.drop b) fun v hv => by
      obtain ⟨i, hi, rfl⟩ := List.mem_iff_getElem.1 hv
      simp only [List.length_drop] at hi
      rw [List.getElem_drop]
      exact hothers _ (by omega) (by omega)
    rw [this, List.length_drop]
  have e : ms = ms.take a ++ (ms.drop a).take (b - a) ++ ms.drop b := by
    rw [List.append_assoc]
    have : ms.drop b = (ms.drop a).drop (b - a) := by rw [List.drop_drop]; congr 1; omega
    rw [this, List.take_append_drop, List.take_append_drop]
  have h3 : ((ms.drop a).take (b - a)).flatten.length = (b - a) * batches := by
    have h := List.length_flatten (L := ms)
    rw [hsum] at h
    rw [e, List.flatten_append, List.flatten_append, List.length_append, List.length_append, h1, h2, ← e] at h
    obtain ⟨k, hk⟩ : ∃ k, b = a + k := ⟨b - a, by omega⟩
    obtain ⟨k', hk'⟩ : ∃ k', ms.length = b + k' := ⟨ms.length - b, by omega⟩
    rw [hk', Nat.add_sub_cancel_left, hk, Nat.add_mul, Nat.add_mul] at h
    rw [Nat.add_sub_cancel_left] at h
    rw [hk, Nat.add_sub_cancel_left]
    omega
  refine ⟨ms.take a ++ (List.range (b - a)).map (fun i => (((ms.drop a).take (b - a)).flatten.drop (i * batches)).take batches) ++ ms.drop b, ?_, ?_, ?_, ?_⟩
  · simp
    omega
  · intro v hv
    rw [List.mem_append, List.mem_append] at hv
    rcases hv with (hv | hv) | hv
    · obtain ⟨i, hi, rfl⟩ := List.mem_iff_getElem.1 hv
      simp only [List.length_take] at hi
      rw [List.getElem_take]
      exact hothers i (by omega) (by omega)
    · obtain ⟨i, hi, rfl⟩ := List.mem_map.1 hv
      rw [List.length_take, List.length_drop, h3]
      have : (i + 1) * batches ≤ (b - a) * batches := Nat.mul_le_mul_right _ (List.mem_range.1 hi)
      rw [Nat.add_mul] at this
      omega
    · obtain ⟨i, hi, rfl⟩ := List.mem_iff_getElem.1 hv
      simp only [List.length_drop] at hi
      rw [List.getElem_drop]
      exact hothers _ (by omega) (by omega)
  · rintro i (hi | hi)
    · rw [List.append_assoc, List.getElem?_append_left (by simp; omega), List.getElem?_take_of_lt hi]
    · rw [List.getElem?_append_right (by simp; omega), List.getElem?_drop]
      congr 1
      simp
      omega
  · unfold dealFinish
    congr 2
    rw [List.flatten_append, List.flatten_append, rows_flatten _ _ _ h3, ← List.flatten_append, ← List.flatten_append, ← e]

omit [DecidableEq F] in
/-- C137 is false: two parties `i < j` can compensate each other with any number `k` of values, and no one notices it.  The messages of the parties between them are then taken for
others (here: the sum of all numbers is what is checked). -/
theorem C137_noticed_false (n batches : Nat) (m : Mat F) (hm : m.ncols = n) (ms : List (List F)) (hn : ms.length = n) (hms : ∀ v ∈ ms, v.length = batches)
    (i j : Nat) (hij : i ≠ j) (hi : i < n) (hj : j < n) (k : Nat) (hk : k ≤ batches) :
    (dealFinish n batches m ((ms.set i (List.replicate (batches + k) 0)).set j (List.replicate (batches - k) 0))).isSome := by
  rw [C137_iff n batches m hm]
  have hlen : (((ms.set i (List.replicate (batches + k) 0)).set j (List.replicate (batches - k) 0)).map List.length)
      = (List.range n).map fun x => if x = j then batches - k else if x = i then batches + k else batches := by
    refine List.ext_getElem (by simp [hn]) fun x h1 h2 => ?_
    simp only [List.length_map, List.length_range] at h2
    simp only [List.getElem_map, List.getElem_set, List.getElem_range]
    by_cases e1 : x = j
    · simp [e1]
    · rw [if_neg (Ne.symm e1), if_neg e1]
      by_cases e2 : x = i
      · simp [e2]
      · rw [if_neg (Ne.symm e2), if_neg e2]
        exact hms _ (List.getElem_mem _)
  rw [hlen]
  change (Multiset.map _ (Multiset.range n)).sum = _
  change ∑ x ∈ Finset.range n, _ = _
  have key : ∑ x ∈ Finset.range n, ((if x = j then batches - k else if x = i then batches + k else batches) + if x = j then k else 0)
      = ∑ x ∈ Finset.range n, (batches + if x = i then k else 0) := by
    refine Finset.sum_congr rfl fun x _ => ?_
    split_ifs <;> omega
  rw [Finset.sum_add_distrib, Finset.sum_add_distrib, Finset.sum_ite_eq', Finset.sum_ite_eq', if_pos (Finset.mem_range.2 hi), if_pos (Finset.mem_range.2 hj),
    Finset.sum_const, Finset.card_range, smul_eq_mul] at key
  omega

/-- C137: numbers of values which compensate each other do harm.  With 5 parties, threshold 2 and one secret per sharing, parties 2 and 4 send party 3 two and no values in `rand`
(and zeros otherwise).  No one notices it, and the messages to a corrupted leader in the degree reduction of three values determine `2 s + 3 s' + s''`, where `s`, `s'`, `s''` are
the secrets (with right numbers of values nothing is learnt: C128). -/
theorem C137_private_false : ∃ m : Mat (GF 18), superInvMatrix 5 3 = some m ∧ ∀ x ρ f, LenRun x ρ f → (∀ p < 5, (lenMsg m x ρ f p).isSome) ∧
    ∀ x' ρ' f', LenRun x' ρ' f' →
      (∀ q ∈ [2, 4], ∀ i, (x i).eval (ofU32 q) = (x' i).eval (ofU32 q) ∧ (ρ i).eval (ofU32 q) = (ρ' i).eval (ofU32 q) ∧ (f i).eval (ofU32 q) = (f' i).eval (ofU32 q)) →
      (∀ p ∈ [0, 1, 3], lenMsg m x ρ f p = lenMsg m x' ρ' f' p) →
      ofU32 2 * (x 0).eval (ofU32 5) + ofU32 3 * (x 1).eval (ofU32 5) + (x 2).eval (ofU32 5)
        = ofU32 2 * (x' 0).eval (ofU32 5) + ofU32 3 * (x' 1).eval (ofU32 5) + (x' 2).eval (ofU32 5) := by
  obtain ⟨m, hm⟩ : ∃ m : Mat (GF 18), superInvMatrix 5 3 = some m := by
    rw [superInvMatrix, rsGenCols_eq (by norm_num) (by decide)]
    exact ⟨_, rfl⟩
  refine ⟨m, hm, fun x ρ f h => ⟨fun p _ => by rw [lenMsg_eq hm]; rfl, fun x' ρ' f' h' hq hp => ?_⟩⟩
  rw [len_secret hm h, len_secret hm h', hp 0 (by simp), hp 1 (by simp), hp 3 (by simp), (hq 2 (by simp) 0).1, (hq 2 (by simp) 1).1, (hq 2 (by simp) 2).1,
    (hq 4 (by simp) 0).1, (hq 4 (by simp) 1).1, (hq 4 (by simp) 2).1, (hq 2 (by simp) 3).2.1, (hq 2 (by simp) 3).2.2, (hq 4 (by simp) 3).2.2]

/-- There are inputs with the same shares of parties 2 and 4 for which these sums differ (so that `C137_private_false` excludes secrecy). -/
example : ∃ x x' : Nat → (GF 18)[X], LenRun x 0 0 ∧ LenRun x' 0 0 ∧ (∀ q ∈ [2, 4], ∀ i, (x i).eval (ofU32 q) = (x' i).eval (ofU32 q)) ∧
    ofU32 2 * (x 0).eval (ofU32 5) + ofU32 3 * (x 1).eval (ofU32 5) + (x 2).eval (ofU32 5)
      ≠ ofU32 2 * (x' 0).eval (ofU32 5) + ofU32 3 * (x' 1).eval (ofU32 5) + (x' 2).eval (ofU32 5) := by
  refine ⟨0, fun i => if i = 2 then (X - C (ofU32 2)) * (X - C (ofU32 4)) else 0, ⟨fun i => ?_, fun i => ?_, fun i => ⟨?_, ?_⟩⟩, ⟨fun i => ?_, fun i => ?_, fun i => ⟨?_, ?_⟩⟩, ?_, ?_⟩
  case refine_5 =>
    beta_reduce
    split_ifs
    · rw [degree_mul, degree_X_sub_C, degree_X_sub_C]
      decide
    · rw [degree_zero]
      exact WithBot.bot_lt_coe _
  case refine_9 =>
    intro q hq i
    simp only [List.mem_cons, List.not_mem_nil, or_false] at hq
    by_cases hi : i = 2
    · rcases hq with rfl | rfl <;> simp [hi]
    · simp [hi]
  case refine_10 =>
    simp only [Pi.zero_apply, eval_zero, eval_mul, eval_sub, eval_X, eval_C, if_neg (show ¬ (0 : Nat) = 2 by decide), if_neg (show ¬ (1 : Nat) = 2 by decide), if_true]
    decide +kernel
  all_goals simp only [Pi.zero_apply, eval_zero, degree_zero]
  all_goals exact WithBot.bot_lt_coe _

/-- Four parties and three batches: party 0 sends four values, party 2 sends two. -/
example (a b : List (GF 18)) (ha : a.length = 3) (hb : b.length = 3) (m : Mat (GF 18)) (hm : superInvMatrix 4 3 = some m) :
    (dealFinish 4 3 m [[1, 1, 1, 1], a, [1, 1], b]).isSome ∧ dealFinish 4 3 m [[1, 1, 1, 1], a, [1, 1, 1], b] = none := by
  have hc : m.ncols = 4 := by
    rw [superInvMatrix, rsGenCols_eq (by norm_num) (by decide), Option.map_some, Option.some.injEq] at hm
    rw [← hm]
  refine ⟨(C137_iff 4 3 m hc _).2 (by simp [ha, hb]), ?_⟩
  have := (C137_iff 4 3 m hc [[1, 1, 1, 1], a, [1, 1, 1], b]).not.2 (by simp [ha, hb])
  simpa using this

end Verif.Props
