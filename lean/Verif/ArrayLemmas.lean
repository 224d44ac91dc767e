import Verif.Core
import Verif.LagrangeLemmas
import Verif.MathModLemmas

/-!
# Helper lemmas about arrays as lists of rows
-/

namespace Verif

section
variable {α β : Type}

theorem flatten_length {c : Nat} (rows : List (List α)) (h : ∀ r ∈ rows, r.length = c) :
    rows.flatten.length = rows.length * c := by
  induction rows with
  | nil => simp
  | cons r rows ih =>
    rw [List.flatten_cons, List.length_append, ih fun r hr => h r (List.mem_cons_of_mem _ hr),
      h r List.mem_cons_self, List.length_cons, Nat.succ_mul, Nat.add_comm]

theorem take_drop_flatten {c : Nat} (rows : List (List α)) (h : ∀ r ∈ rows, r.length = c) (i : Nat)
    (hi : i < rows.length) : (rows.flatten.drop (i * c)).take c = rows[i] := by
  induction rows generalizing i with
  | nil => simp at hi
  | cons r rows ih =>
    have hr := h r List.mem_cons_self
    cases i with
    | zero => simp [← hr]
    | succ i =>
      rw [List.flatten_cons, Nat.succ_mul, Nat.add_comm, ← hr, List.drop_length_add_append, hr]
      have := ih (fun r hr => h r (List.mem_cons_of_mem _ hr)) i (by simpa using hi)
      simpa using this

/-- Flattening and re-shaping an array gives it back. -/
theorem toRows_flatten {r c : Nat} (rows : List (List α)) (hr : rows.length = r)
    (h : ∀ x ∈ rows, x.length = c) : toRows r c rows.flatten = some rows := by
  unfold toRows
  rw [if_pos (by rw [flatten_length rows h, hr]), Option.some.injEq]
  apply List.ext_getElem (by simp [hr])
  intro i h1 h2
  simp only [List.getElem_map, List.getElem_range]
  exact take_drop_flatten rows h i h2

theorem toRows_isSome {r c : Nat} {flat : List α} (h : flat.length = r * c) :
    toRows r c flat = some ((List.range r).map fun i => (flat.drop (i * c)).take c) := by
  unfold toRows; rw [if_pos h]

/-- A column of a tabulated array. -/
theorem col_map {ι : Type} (l : List ι) (f : ι → List α) (g : ι → α) (j : Nat)
    (h : ∀ i ∈ l, (f i)[j]? = some (g i)) : col j (l.map f) = l.map g := by
  unfold col
  induction l with
  | nil => rfl
  | cons a l ih =>
    rw [List.map_cons, List.filterMap_cons, h a List.mem_cons_self]
    simp only [List.map_cons, List.cons.injEq, true_and]
    exact ih fun i hi => h i (List.mem_cons_of_mem _ hi)

theorem col_tab (m c : Nat) (f : Nat → Nat → α) (j : Nat) (hj : j < c) :
    col j ((List.range m).map fun i => (List.range c).map (f i)) = (List.range m).map fun i => f i j := by
  apply col_map
  intro i _
  simp [hj]

theorem getElem?_tab (m : Nat) (f : Nat → α) (i : Nat) (hi : i < m) : ((List.range m).map f)[i]? = some (f i) := by
  simp [hi]

/-- Every list is tabulated. -/
theorem tab_getD [Inhabited α] (l : List α) : l = (List.range l.length).map fun i => l.getD i default := by
  apply List.ext_getElem (by simp)
  intro i h1 h2
  simp [h1]

theorem map_tab (l : List α) (d : α) (f : α → β) : l.map f = (List.range l.length).map fun i => f (l.getD i d) := by
  apply List.ext_getElem (by simp)
  intro i h1 h2
  have : i < l.length := by simpa using h1
  simp [this]

theorem mapM_length {f : α → Option β} {l : List α} {w : List β} (h : l.mapM f = some w) : w.length = l.length := by
  induction l generalizing w with
  | nil => simp at h; subst h; rfl
  | cons a l ih =>
    rw [List.mapM_cons] at h
    obtain ⟨b, _, h⟩ := Option.bind_eq_some_iff.1 h
    obtain ⟨v, hv, h⟩ := Option.bind_eq_some_iff.1 h
    simp only [Option.pure_def, Option.some.injEq] at h
    rw [← h, List.length_cons, List.length_cons, ih hv]

theorem mapM_getElem {f : α → Option β} {l : List α} {w : List β} (h : l.mapM f = some w) (i : Nat)
    (h1 : i < l.length) (h2 : i < w.length) : f l[i] = some w[i] := by
  induction l generalizing w i with
  | nil => simp at h1
  | cons a l ih =>
    rw [List.mapM_cons] at h
    obtain ⟨b, hb, h⟩ := Option.bind_eq_some_iff.1 h
    obtain ⟨v, hv, h⟩ := Option.bind_eq_some_iff.1 h
    simp only [Option.pure_def, Option.some.injEq] at h
    subst h
    cases i with
    | zero => simpa using hb
    | succ i =>
      simp only [List.getElem_cons_succ]
      exact ih hv i (by simpa using h1) (by simpa using h2)

theorem drain_some {k : Nat} {l : List α} (h : k ≤ l.length) : drain k l = some (l.take k, l.drop k) := by
  unfold drain; rw [if_pos h]

end

section
variable {F : Type} [Field F]

theorem list_range_sum (m : Nat) (f : Nat → F) : ((List.range m).map f).sum = ∑ i ∈ Finset.range m, f i := by
  induction m with
  | zero => simp
  | succ m ih => rw [List.range_succ, List.map_append, List.sum_append, ih, Finset.sum_range_succ]; simp

theorem dot_tab (m : Nat) (f g : Nat → F) :
    dot ((List.range m).map f) ((List.range m).map g) = ∑ i ∈ Finset.range m, f i * g i := by
  rw [dot_map_left_right, list_range_sum]

theorem vadd_map {ι : Type} (l : List ι) (f g : ι → F) :
    vadd (l.map f) (l.map g) = l.map fun i => f i + g i := by
  unfold vadd
  induction l with
  | nil => simp
  | cons x l ih => simp [ih]

theorem vsub_map {ι : Type} (l : List ι) (f g : ι → F) :
    vsub (l.map f) (l.map g) = l.map fun i => f i - g i := by
  unfold vsub
  induction l with
  | nil => simp
  | cons x l ih => simp [ih]

end

end Verif
