import Verif.Connect

/-! # Lemmas about the table of streams -/

namespace Verif

theorem acceptLoop_ok {n : Nat} : ∀ (k : Nat) (ds : List Dial) (t t' : List (Option Link)), t.length = n →
    (acceptLoop n k ds t = .ok t' ↔ k ≤ ds.length ∧ (∀ d ∈ ds.take k, ∃ q, d.hello = .id q ∧ q < n) ∧ t'.length = n ∧
      ∀ i, i < n → t'[i]? = match (ds.take k).reverse.find? (fun d => d.hello = .id i) with
        | some d => some (some (.accepted d))
        | none => t[i]?)
  | 0, ds, t, t', ht => by
    constructor
    · intro h
      simp only [acceptLoop, SetupResult.ok.injEq] at h
      subst h
      simp [ht]
    · rintro ⟨-, -, h1, h2⟩
      simp only [acceptLoop, SetupResult.ok.injEq]
      apply List.ext_getElem?
      intro i
      by_cases hi : i < n
      · have := h2 i hi
        simpa using this.symm
      · rw [List.getElem?_eq_none (by omega), List.getElem?_eq_none (by omega)]
  | k + 1, [], t, t', ht => by simp [acceptLoop]
  | k + 1, d :: ds, t, t', ht => by
    cases hd : d.hello with
    | silent => simp [acceptLoop, hd]
    | closed => simp [acceptLoop, hd]
    | id q =>
      by_cases hq : q < n
      · rw [acceptLoop]
        simp only [hd, hq, if_true]
        rw [acceptLoop_ok k ds _ t' (by simpa using ht)]
        have e : ∀ i, i < n → ((match (ds.take k).reverse.find? (fun d => d.hello = .id i) with
              | some d => some (some (.accepted d))
              | none => (t.set q (some (Link.accepted d)))[i]?) : Option (Option Link))
            = match ((d :: ds).take (k + 1)).reverse.find? (fun d => d.hello = .id i) with
              | some d => some (some (.accepted d))
              | none => t[i]? := by
          intro i hi
          rw [List.take_succ_cons, List.reverse_cons, List.find?_append]
          cases hf : (ds.take k).reverse.find? (fun d => d.hello = .id i) with
          | some d' => simp
          | none =>
            by_cases hqi : q = i
            · subst hqi
              simp [hd, List.getElem?_set_self, ht, hq]
            · simp [hd, hqi, List.getElem?_set_ne]
        constructor
        · rintro ⟨h1, h2, h3, h4⟩
          refine ⟨by simpa using h1, ?_, h3, fun i hi => ?_⟩
          · intro d' hd'
            rw [List.take_succ_cons, List.mem_cons] at hd'
            rcases hd' with rfl | hd'
            · exact ⟨q, hd, hq⟩
            · exact h2 d' hd'
          · rw [h4 i hi, e i hi]
        · rintro ⟨h1, h2, h3, h4⟩
          refine ⟨by simpa using h1, fun d' hd' => h2 d' (by rw [List.take_succ_cons]; exact List.mem_cons_of_mem _ hd'), h3, fun i hi => ?_⟩
          rw [h4 i hi, e i hi]
      · rw [acceptLoop]
        simp only [hd, hq, if_false]
        constructor
        · intro h; cases h
        · rintro ⟨-, h2, -⟩
          obtain ⟨q', e1, e2⟩ := h2 d (by simp)
          rw [hd, Hello.id.injEq] at e1
          omega

theorem enterDialled_length (p : Nat) (t : List (Option Link)) : (enterDialled p t).length = t.length := by
  unfold enterDialled
  induction p with
  | zero => simp
  | succ p ih => rw [List.range_succ, List.foldl_append]; simp [ih]

theorem enterDialled_get (p : Nat) (t : List (Option Link)) (hp : p ≤ t.length) (i : Nat) :
    (enterDialled p t)[i]? = if i < p then some (some (.dialled i)) else t[i]? := by
  induction p with
  | zero => simp [enterDialled]
  | succ p ih =>
    have hl := enterDialled_length p t
    have : enterDialled (p + 1) t = (enterDialled p t).set p (some (.dialled p)) := by
      unfold enterDialled
      rw [List.range_succ, List.foldl_append]
      rfl
    rw [this]
    by_cases hi : i = p
    · subst hi
      rw [List.getElem?_set_self (by omega)]
      simp
    · rw [List.getElem?_set_ne (fun h => hi h.symm), ih (by omega)]
      by_cases hi' : i < p
      · rw [if_pos hi', if_pos (by omega)]
      · rw [if_neg hi', if_neg (by omega)]

/-- If `k` things cover `k` numbers, they are a permutation of them. -/
theorem perm_of_cover {α : Type} {l r : List α} (hr : r.Nodup) (hlen : l.length = r.length) (hc : ∀ x ∈ r, x ∈ l) : l.Perm r := by
  have h1 : r.Subperm l := List.subperm_of_subset hr hc
  exact (h1.perm_of_length_le (by omega)).symm

/-- The last connection which announces `i`, if each number is announced at most once. -/
theorem find_hello {ds : List Dial} (hnd : (ds.map Dial.hello).Nodup) {d : Dial} (hd : d ∈ ds) {i : Nat} (hi : d.hello = .id i) :
    ds.reverse.find? (fun d => d.hello = .id i) = some d := by
  cases hf : ds.reverse.find? (fun d => d.hello = .id i) with
  | none =>
    have := List.find?_eq_none.1 hf d (by simpa using hd)
    simp [hi] at this
  | some d' =>
    have h1 : d' ∈ ds := by simpa using List.mem_of_find?_eq_some hf
    have h2 : d'.hello = .id i := by simpa using List.find?_some hf
    rw [List.inj_on_of_nodup_map hnd h1 hd (h2.trans hi.symm)]

/-- No connection announces `i`. -/
theorem find_hello_none {ds : List Dial} {i : Nat} (hi : Hello.id i ∉ ds.map Dial.hello) :
    ds.reverse.find? (fun d => d.hello = .id i) = none := by
  rw [List.find?_eq_none]
  intro d hd h
  exact hi (List.mem_map.2 ⟨d, by simpa using hd, by simpa using h⟩)

theorem range_id_nodup (a k : Nat) : ((List.range' a k).map Hello.id).Nodup :=
  (List.nodup_range' (step := 1)).map fun _ _ h => Hello.id.inj h

theorem mem_range_id {a k i : Nat} : Hello.id i ∈ (List.range' a k).map Hello.id ↔ a ≤ i ∧ i < a + k := by
  simp

end Verif
