import Verif.Props.GenSup

/-!
# Property C121: the rule of `README.md` for the choice of a matrix (lines 73 to 77)
-/

open Verif

namespace Verif.Props

/-- The rule of `README.md` (lines 74 to 77) for `n` parties and the threshold `t`, if the script prints the maximum number of corruptions `T`
(and with it the minimum number of honest parties `n - T`). -/
def ReadmeRule (n t T : Nat) : Prop := T ≤ t ∧ n - t ≤ n - T

/-- C121, as far as it holds: with the opposite inequality the matrix can be used. -/
theorem C121_rule_partial {F : Type} [Field F] {text : List Char} {n k T : Nat} (h : TextGood F text n k T) (t : Nat) (ht : t ≤ T) : TextGood F text n k t := by
  obtain ⟨M, h1, h2, h3, h4, h5⟩ := h
  exact ⟨M, h1, h2, h3, fun T' hT' => h4 T' (hT'.trans ht), fun T' hT' => h5 T' (hT'.trans ht)⟩

/-- C121. If the script printed the exact bound, the rule would be right for the threshold equal to the bound, and for no other. -/
theorem C121_iff {F : Type} [Field F] {text : List Char} {n k T : Nat} (h : TextGood F text n k T) (hmax : ¬ TextGood F text n k (T + 1)) (t : Nat)
    (hr : ReadmeRule n t T) : TextGood F text n k t ↔ t = T := by
  constructor
  · intro h'
    by_contra hne
    exact hmax (C121_rule_partial h' _ (by have := hr.1; omega))
  · rintro rfl
    exact h

/-- C121 is false: the rule allows `n128_t31.txt`, which really is good for 31 corrupt parties, for the threshold 40, but some 40 parties know the
sum of some of the random bits. -/
theorem C121_false {F : Type} [Field F] [CharP F 2] : ∃ f n k T t, GoodFor F f n k T ∧ ReadmeRule n t T ∧ BadFor F f n k t :=
  ⟨Binsup.n128_t31, 128, 14, 31, 40, C12_n128_t31.1, ⟨by omega, by omega⟩, C12_n128_t31_exact.2⟩

/-- The exact bound of `n128_t31.txt`: the rule is right for the threshold 39 only. -/
example {F : Type} [Field F] [CharP F 2] (t : Nat) (hr : ReadmeRule 128 t 39) : TextGood F (binText Binsup.n128_t31) 128 14 t ↔ t = 39 := by
  refine C121_iff C12_n128_t31_exact.1 ?_ t hr
  rintro ⟨M, h1, -, -, h4, -⟩
  obtain ⟨M', h1', -, -, -, h4', -⟩ := C12_n128_t31_exact (F := F).2
  rw [h1] at h1'
  cases h1'
  exact h4' h4

end Verif.Props
