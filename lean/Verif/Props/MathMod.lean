import Verif.MathModLemmas
import Verif.GF

/-!
# Properties C08-C11 and C13: `src/math/mod.rs`
-/

open Polynomial

namespace Verif.Props

open Verif

variable {F : Type}

/-! ### C08: interpolation -/

/-- C08. For distinct current positions, the matrix returned by `lagrange_coeffs` maps the evaluations
of every polynomial of degree below `cpos.len()` at `cpos` to its evaluations at `npos` (whether or not
some positions occur in both lists); it has `npos.len()` rows of `cpos.len()` entries. -/
theorem C08_lagrange_interpolates [Field F] [DecidableEq F] (cpos npos : List F) (hn : cpos.Nodup)
    (p : F[X]) (hp : p.degree < cpos.length) :
    (lagrangeCoeffs cpos npos).mulVec (cpos.map fun x => p.eval x)
      = some (npos.map fun x => p.eval x) ∧
    (lagrangeCoeffs cpos npos).rows.length = npos.length ∧
    (∀ r ∈ (lagrangeCoeffs cpos npos).rows, r.length = cpos.length) := by
  refine ⟨?_, by simp [lagrangeCoeffs], ?_⟩
  · unfold Mat.mulVec lagrangeCoeffs
    simp only [List.length_map, if_true, List.map_map]
    congr 1
    apply List.map_congr_left
    intro v _
    exact dot_lagrangeRow cpos hn v p hp
  · intro r hr
    simp only [lagrangeCoeffs, List.mem_map] at hr
    obtain ⟨v, _, rfl⟩ := hr
    exact lagrangeRow_length cpos v

/-- C08. No division performed by `lagrange_coeffs` has a zero divisor (so the code's treatment of a
zero divisor never shows), even for repeated positions. -/
theorem C08_no_zero_division [Field F] [DecidableEq F] (cpos : List F) (v x y : F)
    (hv : v ∉ cpos) (hx : x ∈ cpos) : (v - x) * lagrangeDenom cpos y ≠ 0 := by
  apply mul_ne_zero
  · intro h
    rw [sub_eq_zero] at h
    exact hv (h ▸ hx)
  · exact lagrangeDenom_ne_zero cpos y

/-- A concrete case in GF(16): three positions, the polynomial `X^2`, and a new position. -/
example : (([0, 1, CodeField.ofU32 2] : List (GF 4)).Nodup) ∧
    (X ^ 2 : (GF 4)[X]).degree < ([0, 1, CodeField.ofU32 2] : List (GF 4)).length := by
  refine ⟨by decide +kernel, ?_⟩
  rw [degree_X_pow]; norm_num

example : (lagrangeCoeffs ([0, 1, CodeField.ofU32 2] : List (GF 4)) [CodeField.ofU32 3, 1]).mulVec
    [0, 1, CodeField.ofU32 4] = some [CodeField.ofU32 5, 1] := by decide +kernel

/-! ### C09: super-invertible matrices -/

/-- C09. Fix any `num_out` distinct columns `J`, and arbitrary values `base` for the inputs.  For every
output vector `y` there is exactly one input vector which agrees with `base` outside `J` and is mapped
to `y`: the outputs are a bijective function of the inputs in `J`. -/
theorem C09_super_invertible [CodeField F] (numInp numOut : Nat) (hk : 1 ≤ numOut)
    (hn : numInp < CodeField.order F) (J : List Nat) (hJ : J.Nodup) (hJlen : J.length = numOut)
    (hJlt : ∀ j ∈ J, j < numInp) (base : List F) (hbase : base.length = numInp)
    (y : List F) (hy : y.length = numOut) :
    ∃ M : Mat F, superInvMatrix numInp numOut = some M ∧
      ∃! x : List F, x.length = numInp ∧ (∀ i, i ∉ J → x[i]? = base[i]?) ∧ M.mulVec x = some y := by
  refine ⟨_, by rw [superInvMatrix, rsGenCols_eq hk hn]; rfl, ?_⟩
  -- entries of the product
  have hrow : ∀ (x : List F), x.length = numInp → ∀ r,
      dot ((rsPts numInp).map (· ^ (r + 1))) x
        = ∑ i ∈ Finset.range numInp, (CodeField.ofU32 (i + 1) : F) ^ (r + 1) * x.getD i 0 := by
    intro x hx r
    have hx' : x = (List.range numInp).map fun i => x.getD i 0 := by
      apply List.ext_getElem (by simp [hx])
      intro i h1 h2
      simp [h1]
    conv_lhs => rw [hx']
    rw [rsPts, List.map_map, dot_map_left_right, ← List.sum_toFinset _ List.nodup_range]
    have : (List.range numInp).toFinset = Finset.range numInp := by ext; simp
    rw [this]
    rfl
  have hmul : ∀ x : List F, x.length = numInp →
      ((({ ncols := numInp, rows := (List.range numOut).map fun r =>
          (rsPts numInp).map (· ^ (r + 1)) } : Mat F).mulVec x = some y) ↔
        ∀ r, r < numOut → ∑ i ∈ Finset.range numInp,
          (CodeField.ofU32 (i + 1) : F) ^ (r + 1) * x.getD i 0 = y.getD r 0) := by
    intro x hx
    unfold Mat.mulVec
    simp only [hx, if_true, Option.some.injEq, List.map_map]
    constructor
    · intro h r hr
      rw [← hrow x hx r, ← h]
      simp [hr]
    · intro h
      apply List.ext_getElem (by simp [hy])
      intro r h1 h2
      simp only [List.length_map, List.length_range] at h1
      have := h r h1
      rw [← hrow x hx r] at this
      simp only [List.getElem_map, List.getElem_range, Function.comp]
      rw [this]
      simp [h2]
  have hsub : J.toFinset ⊆ Finset.range numInp := by
    intro j hj
    simpa using hJlt j (List.mem_toFinset.1 hj)
  have hsplit : ∀ f : Nat → F, ∑ i ∈ Finset.range numInp, f i
      = (∑ j : Fin numOut, f (J[j.1]'(by omega))) + ∑ i ∈ Finset.range numInp \ J.toFinset, f i := by
    intro f
    rw [← Finset.sum_sdiff hsub, add_comm]
    congr 1
    rw [List.sum_toFinset _ hJ]
    subst hJlen
    rw [← Fin.sum_univ_fun_getElem]
  -- the square system
  let α : Fin numOut → F := fun j => CodeField.ofU32 (J[j.1]'(by omega) + 1)
  have hα : Function.Injective α := by
    intro a b h
    have h1 := hJlt _ (List.getElem_mem (show a.1 < J.length by omega))
    have h2 := hJlt _ (List.getElem_mem (show b.1 < J.length by omega))
    have h3 := CodeField.ofU32_inj _ _ (by omega) (by omega) h
    have h4 : J[a.1]'(by omega) = J[b.1]'(by omega) := by omega
    exact Fin.ext ((hJ.getElem_inj_iff).1 h4)
  have hα0 : ∀ j, α j ≠ 0 := by
    intro j h
    have h1 := hJlt _ (List.getElem_mem (show j.1 < J.length by omega))
    rw [← CodeField.ofU32_zero] at h
    have := CodeField.ofU32_inj _ _ (by omega) (by have := CodeField.one_lt_order (F := F); omega) h
    omega
  obtain ⟨z, hz, hzu⟩ := powers_bijective α hα hα0 (fun r => y.getD r.1 0 -
    ∑ i ∈ Finset.range numInp \ J.toFinset, (CodeField.ofU32 (i + 1) : F) ^ (r.1 + 1) * base.getD i 0)
  simp only [] at hz hzu
  let x0 : List F := (List.range numInp).map fun i =>
    if h : J.idxOf i < numOut then z ⟨J.idxOf i, h⟩ else base.getD i 0
  have hx0len : x0.length = numInp := by simp [x0]
  have hx0J : ∀ j : Fin numOut, x0.getD (J[j.1]'(by omega)) 0 = z j := by
    intro j
    have h1 := hJlt _ (List.getElem_mem (show j.1 < J.length by omega))
    have h2 : J.idxOf (J[j.1]'(by omega)) = j.1 := hJ.idxOf_getElem j.1 (by omega)
    simp only [x0, List.getD_eq_getElem?_getD, List.getElem?_map, List.getElem?_range h1,
      Option.map_some, Option.getD_some, h2]
    rw [dif_pos j.2]
  have hx0n : ∀ i, i ∉ J → x0[i]? = base[i]? := by
    intro i hi
    by_cases hin : i < numInp
    · simp only [x0, List.getElem?_map, List.getElem?_range hin, Option.map_some]
      rw [dif_neg (by rw [List.idxOf_eq_length hi]; omega),
        List.getElem?_eq_getElem (by omega : i < base.length), List.getD_eq_getElem?_getD,
        List.getElem?_eq_getElem (by omega : i < base.length)]
      rfl
    · rw [List.getElem?_eq_none (by omega), List.getElem?_eq_none (by omega)]
  refine ⟨x0, ⟨hx0len, hx0n, ?_⟩, ?_⟩
  · rw [hmul x0 hx0len]
    intro r hr
    rw [hsplit]
    have h1 := hz ⟨r, hr⟩
    simp only [α] at h1
    have h2 : ∑ i ∈ Finset.range numInp \ J.toFinset,
        (CodeField.ofU32 (i + 1) : F) ^ (r + 1) * x0.getD i 0
        = ∑ i ∈ Finset.range numInp \ J.toFinset,
        (CodeField.ofU32 (i + 1) : F) ^ (r + 1) * base.getD i 0 := by
      apply Finset.sum_congr rfl
      intro i hi
      have hi2 : i ∉ J := by simpa using (Finset.mem_sdiff.1 hi).2
      rw [List.getD_eq_getElem?_getD, hx0n i hi2, ← List.getD_eq_getElem?_getD]
    rw [h2]
    simp only [hx0J]
    rw [h1]
    ring
  · intro x ⟨hxlen, hxn, hx⟩
    rw [hmul x hxlen] at hx
    have hzx : (fun j : Fin numOut => x.getD (J[j.1]'(by omega)) 0) = z := by
      apply hzu
      intro r
      have := hx r.1 r.2
      rw [hsplit] at this
      have h2 : ∑ i ∈ Finset.range numInp \ J.toFinset,
          (CodeField.ofU32 (i + 1) : F) ^ (r.1 + 1) * x.getD i 0
          = ∑ i ∈ Finset.range numInp \ J.toFinset,
          (CodeField.ofU32 (i + 1) : F) ^ (r.1 + 1) * base.getD i 0 := by
        apply Finset.sum_congr rfl
        intro i hi
        have hi2 : i ∉ J := by simpa using (Finset.mem_sdiff.1 hi).2
        rw [List.getD_eq_getElem?_getD, hxn i hi2, ← List.getD_eq_getElem?_getD]
      rw [h2] at this
      rw [← this]
      simp [α]
    apply List.ext_getElem?
    intro i
    by_cases hi : i ∈ J
    · obtain ⟨j, hj, rfl⟩ := List.mem_iff_getElem.1 hi
      have hlt := hJlt _ hi
      have h1 := congrFun hzx ⟨j, by omega⟩
      have h2 := hx0J ⟨j, by omega⟩
      simp only [List.getD_eq_getElem?_getD] at h1 h2
      rw [List.getElem?_eq_getElem (by omega : J[j] < x.length)] at h1 ⊢
      rw [List.getElem?_eq_getElem (by omega : J[j] < x0.length)] at h2 ⊢
      simp only [Option.getD_some] at h1 h2
      rw [h1, h2]
    · rw [hxn i hi, hx0n i hi]

/-- Five inputs, three outputs over GF(16): columns 4, 0, 2 are admissible. -/
example : ([4, 0, 2] : List Nat).Nodup ∧ (∀ j ∈ [4, 0, 2], j < 5) ∧ 5 < CodeField.order (GF 4) := by
  refine ⟨by decide, by decide, ?_⟩
  show 5 < 2 ^ 4
  norm_num

/-! ### C10: Reed-Solomon distance -/

/-- C10. Codewords of two different messages differ in at least `code_len - mssg_len + 1` places. -/
theorem C10_distance [CodeField F] [DecidableEq F] (k n : Nat) (hk : 1 ≤ k) (hkn : k ≤ n)
    (hn : n < CodeField.order F) (m m' : List F) (hm : m.length = k) (hm' : m'.length = k)
    (hne : m ≠ m') :
    ∃ G : Mat F, rsGenMat k n = some G ∧ ∃ c c', G.mulVec m = some c ∧ G.mulVec m' = some c' ∧
      c.length = n ∧ c'.length = n ∧ n - k + 1 ≤ hdist c c' := by
  refine ⟨_, rsGenMat_eq hk hn, _, _, by rw [Mat.mulVec, if_pos hm], by rw [Mat.mulVec, if_pos hm'],
    by simp [rsPts], by simp [rsPts], ?_⟩
  simp only [List.map_map]
  rw [hdist_map]
  let p : F[X] := ∑ r ∈ Finset.range k, C (m.getD r 0) * X ^ r
  let p' : F[X] := ∑ r ∈ Finset.range k, C (m'.getD r 0) * X ^ r
  have hpp : p ≠ p' := by
    intro h
    apply hne
    apply List.ext_getElem (by omega)
    intro i h1 h2
    have := congrArg (fun q => q.coeff i) h
    simp only [p, p', coeff_msgPoly m k i (by omega), coeff_msgPoly m' k i (by omega)] at this
    simpa [h1, h2] using this
  have hag := agree_lt (rsPts n) (rsPts_nodup hn) p p' (degree_msgPoly_lt m k) (degree_msgPoly_lt m' k) hpp
  have hf : (rsPts n : List F).filter (fun x => decide (
      ((fun r => dot r m) ∘ fun x => (List.range k).map fun r => x ^ (r + 1)) x =
      ((fun r => dot r m') ∘ fun x => (List.range k).map fun r => x ^ (r + 1)) x))
      = (rsPts n).filter fun x => decide (p.eval x = p'.eval x) := by
    apply List.filter_congr
    intro x hx
    simp only [Function.comp, dot_powers m x k hm, dot_powers m' x k hm', decide_eq_decide]
    exact mul_right_inj' (rsPts_ne_zero hn x hx)
  rw [hf, rsPts_length]
  omega

/-- C10. A word with fewer than half the distance many errors determines the message: at most one
message has a codeword within distance `e` of `w` when `2e < code_len - mssg_len + 1`. -/
theorem C10_unique_decoding [CodeField F] [DecidableEq F] (k n e : Nat) (hk : 1 ≤ k) (hkn : k ≤ n)
    (hn : n < CodeField.order F) (he : 2 * e < n - k + 1) (G : Mat F) (hG : rsGenMat k n = some G)
    (w m m' c c' : List F) (hw : w.length = n) (hm : m.length = k) (hm' : m'.length = k)
    (hc : G.mulVec m = some c) (hc' : G.mulVec m' = some c') (hd : hdist c w ≤ e)
    (hd' : hdist c' w ≤ e) : m = m' := by
  by_contra hne
  obtain ⟨G', hG', d, d', h1, h2, h3, h4, h5⟩ := C10_distance k n hk hkn hn m m' hm hm' hne
  rw [hG] at hG'
  injection hG' with hGG
  subst hGG
  rw [hc] at h1; rw [hc'] at h2
  injection h1 with h1; injection h2 with h2
  subst h1 h2
  have := hdist_triangle c w c' (by omega) (by omega)
  rw [hdist_comm w c'] at this
  omega

/-- Message length 2, code length 5 over GF(16): distance 4, one error is correctable. -/
example : (rsGenMat 2 5 : Option (Mat (GF 4))).bind (·.mulVec [1, 1])
      = some [0, CodeField.ofU32 6, CodeField.ofU32 6, CodeField.ofU32 7, CodeField.ofU32 7] ∧
    2 * 1 < 5 - 2 + 1 := by
  refine ⟨by decide +kernel, by norm_num⟩

/-! ### C11: reading binary matrices -/

/-- Text of a 0/1 matrix: entries separated by single spaces, lines terminated by newlines. -/
def renderLine : List Bool → List Char
  | [] => []
  | [b] => [if b then '1' else '0']
  | b :: bs => (if b then '1' else '0') :: ' ' :: renderLine bs

/-- Text of the whole file. -/
def renderMatrix (rows : List (List Bool)) : List Char := rows.flatMap fun r => renderLine r ++ ['\n']

theorem split_renderLine (r : List Bool) (hr : r ≠ []) :
    splitOnChar ' ' (renderLine r) = r.map fun b => [if b then '1' else '0'] := by
  induction r with
  | nil => exact absurd rfl hr
  | cons b bs ih =>
    cases bs with
    | nil => cases b <;> simp [renderLine, splitOnChar]
    | cons b' bs =>
      have := ih (by simp)
      cases b <;> simp [renderLine, splitOnChar, this]

theorem renderLine_no_newline (r : List Bool) : '\n' ∉ renderLine r := by
  induction r with
  | nil => simp [renderLine]
  | cons b bs ih =>
    cases bs with
    | nil => cases b <;> simp [renderLine]
    | cons b' bs => cases b <;> simp [renderLine, ih]

theorem renderLine_last (r : List Bool) : (renderLine r).getLast? ≠ some '\r' := by
  induction r with
  | nil => simp [renderLine]
  | cons b bs ih =>
    cases bs with
    | nil => cases b <;> simp [renderLine]
    | cons b' bs =>
      have h0 : renderLine (b' :: bs) ≠ [] := by cases bs <;> simp [renderLine]
      simp only [renderLine]
      rw [List.getLast?_cons_of_ne_nil (by simp), List.getLast?_cons_of_ne_nil h0]
      exact ih

theorem split_line (sep : Char) (l rest : List Char) (h : sep ∉ l) :
    splitOnChar sep (l ++ sep :: rest) = l :: splitOnChar sep rest := by
  induction l with
  | nil => simp [splitOnChar]
  | cons c l ih =>
    simp only [List.mem_cons, not_or] at h
    simp [splitOnChar, Ne.symm h.1, ih h.2]

theorem splitOnChar_ne_nil (sep : Char) (l : List Char) : splitOnChar sep l ≠ [] := by
  cases l with
  | nil => simp [splitOnChar]
  | cons c l =>
    rw [splitOnChar]
    split
    · simp
    · split <;> simp

theorem readLines_render (rows : List (List Bool)) :
    readLines (renderMatrix rows) = rows.map renderLine := by
  have h : splitOnChar '\n' (renderMatrix rows) = rows.map renderLine ++ [[]] := by
    induction rows with
    | nil => rfl
    | cons r rows ih =>
      rw [renderMatrix, List.flatMap_cons, List.append_assoc, List.singleton_append,
        split_line _ _ _ (renderLine_no_newline r)]
      rw [renderMatrix] at ih
      rw [ih]
      rfl
  unfold readLines
  simp only [h, List.dropLast_concat, List.getLast?_append, List.getLast?_singleton, Option.some_or,
    List.append_nil, List.map_map]
  apply List.map_congr_left
  intro r _
  simp [renderLine_last r]

theorem reshape_flatten {T : Type} (c : Nat) (rows : List (List T)) (h : ∀ r ∈ rows, r.length = c) :
    reshape c rows.length rows.flatten = rows := by
  induction rows with
  | nil => rfl
  | cons r rows ih =>
    have hr := h r (by simp)
    simp only [List.length_cons, reshape, List.flatten_cons]
    rw [← hr, List.take_left, List.drop_left, hr, ih (fun x hx => h x (by simp [hx]))]

/-- C11. Reading a rectangular 0/1 file with `r ≥ 1` lines of `c ≥ 1` entries returns the transposed
matrix (row `j` lists the `j`-th entries of the lines). -/
theorem C11_read_rectangular [Field F] (rows : List (List Bool)) (c : Nat) (hc : 1 ≤ c)
    (hr : rows ≠ []) (hlen : ∀ r ∈ rows, r.length = c) :
    binarySuperInvMatrix (F := F) (renderMatrix rows) = some
      { ncols := rows.length
        rows := (List.range c).map fun j => rows.map fun r => if r.getD j false then 1 else 0 } := by
  unfold binarySuperInvMatrix
  simp only [readLines_render]
  have h1 : (rows.map renderLine).flatMap (splitOnChar ' ')
      = rows.flatten.map fun b => [if b then '1' else '0'] := by
    rw [List.map_flatten, List.flatMap_map, List.flatMap_def]
    congr 1
    apply List.map_congr_left
    intro r hrm
    exact split_renderLine r (by intro h; have := hlen r hrm; rw [h] at this; simp at this; omega)
  have h2 : (rows.flatten.map fun b => [if b then '1' else '0']).mapM (binaryEntry (F := F))
      = some (rows.flatten.map fun b => if b then (1 : F) else 0) := by
    rw [List.mapM_map]
    apply mapM_some_map
    intro b _
    cases b <;> simp [binaryEntry]
  have hpos : rows.length ≠ 0 := by simpa using hr
  have hflen : rows.flatten.length = rows.length * c := by
    rw [List.length_flatten]
    have : rows.map List.length = rows.map fun _ => c := List.map_congr_left hlen
    rw [this]; simp
  rw [h1, h2]
  simp only [Option.bind_some, List.length_map, if_neg hpos, hflen,
    Nat.mul_div_cancel_left c (Nat.pos_of_ne_zero hpos), if_true, Option.some.injEq, Mat.mk.injEq,
    true_and]
  apply List.map_congr_left
  intro j hj
  have h3 : reshape c rows.length (rows.flatten.map fun b => if b then (1 : F) else 0)
      = rows.map fun r => r.map fun b => if b then (1 : F) else 0 := by
    have := reshape_flatten c (rows.map fun r => r.map fun b => if b then (1 : F) else 0) (by
      intro r hr
      simp only [List.mem_map] at hr
      obtain ⟨r', hr', rfl⟩ := hr
      simpa using hlen r' hr')
    rw [List.length_map, ← List.map_flatten] at this
    exact this
  rw [h3, List.map_map]
  apply List.map_congr_left
  intro r hrm
  have hjr : j < r.length := by rw [hlen r hrm]; simpa using hj
  simp [hjr]

/-- C11. A file containing any entry other than `0` and `1` (in particular an empty one, from a double
space or an empty line) is rejected. -/
theorem C11_reject_other [Field F] (file line piece : List Char) (hl : line ∈ readLines file)
    (hp : piece ∈ splitOnChar ' ' line) (h0 : piece ≠ ['0']) (h1 : piece ≠ ['1']) :
    binarySuperInvMatrix (F := F) file = none := by
  unfold binarySuperInvMatrix
  simp only []
  rw [mapM_none_of_mem _ _ piece (List.mem_flatMap.2 ⟨line, hl, hp⟩) (by simp [binaryEntry, h0, h1])]
  rfl

/-- C11 is false for ragged files: a file with lines of three and one entries is accepted (as a 2 x 2
matrix). -/
theorem C11_reject_ragged_false [Field F] :
    ¬ ∀ file : List Char, (∃ l ∈ readLines file, ∃ l' ∈ readLines file,
        (splitOnChar ' ' l).length ≠ (splitOnChar ' ' l').length) →
      binarySuperInvMatrix (F := F) file = none := by
  intro h
  have hr : readLines ['0', ' ', '1', ' ', '1', '\n', '0', '\n'] = [['0', ' ', '1', ' ', '1'], ['0']] := by
    decide
  have hs1 : splitOnChar ' ' ['0', ' ', '1', ' ', '1'] = [['0'], ['1'], ['1']] := by decide
  have hs2 : splitOnChar ' ' ['0'] = [['0']] := by decide
  have := h ['0', ' ', '1', ' ', '1', '\n', '0', '\n'] ⟨['0', ' ', '1', ' ', '1'], by simp [hr], ['0'],
    by simp [hr], by simp [hs1, hs2]⟩
  unfold binarySuperInvMatrix at this
  simp [hr, hs1, hs2, binaryEntry] at this

/-- C11, the part that holds: whenever a file is accepted, all entries are 0 or 1 and the number of
entries is a multiple of the number of lines. -/
theorem C11_accept_partial [Field F] (file : List Char) (M : Mat F)
    (h : binarySuperInvMatrix file = some M) :
    (∀ l ∈ readLines file, ∀ p ∈ splitOnChar ' ' l, p = ['0'] ∨ p = ['1']) ∧
    M.ncols = (readLines file).length ∧ M.ncols ≠ 0 ∧
    M.ncols * M.rows.length = ((readLines file).flatMap (splitOnChar ' ')).length := by
  have h1 : ∀ l ∈ readLines file, ∀ p ∈ splitOnChar ' ' l, p = ['0'] ∨ p = ['1'] := by
    intro l hl p hp
    by_contra hc
    push Not at hc
    rw [C11_reject_other file l p hl hp hc.1 hc.2] at h
    simp at h
  refine ⟨h1, ?_⟩
  unfold binarySuperInvMatrix at h
  simp only [] at h
  rw [mapM_some_map binaryEntry (fun p => if p = ['0'] then (0 : F) else 1) _ (by
    intro p hp
    obtain ⟨l, hl, hpl⟩ := List.mem_flatMap.1 hp
    rcases h1 l hl p hpl with rfl | rfl <;> simp [binaryEntry])] at h
  simp only [Option.bind_some, List.length_map] at h
  split at h
  · simp at h
  · split at h
    · rename_i hz heq
      simp only [Option.some.injEq] at h
      subst h
      exact ⟨rfl, hz, by simpa using heq⟩
    · simp at h

example : binarySuperInvMatrix (F := GF 2) (renderMatrix [[true, false, true], [false, true, true]])
    = some ⟨2, [[1, 0], [0, 1], [1, 1]]⟩ := by
  rw [C11_read_rectangular _ 3 (by norm_num) (by simp) (by simp)]
  rfl

/-! ### C13: combinations -/

/-- C13. If every wanted element occurs in the instance, the inferred combination exists, has the right
length, and reproduces the selection on every relabelling of the instance. -/
theorem C13_from_instance {T S : Type} [DecidableEq T] (inp out : List T)
    (h : ∀ v ∈ out, v ∈ inp) :
    ∃ c, Combination.fromInstance inp out = some c ∧ c.len = out.length ∧
      ∀ f : T → S, c.apply (inp.map f) = some (out.map f) := by
  have hg : ∀ v ∈ out, instanceLookup inp v = some ((instanceLookup inp v).getD 0) := by
    intro v hv
    obtain ⟨i, hi, _⟩ := instanceLookup_some inp v (h v hv)
    rw [hi]; rfl
  refine ⟨⟨out.map fun v => (instanceLookup inp v).getD 0⟩, ?_, by simp [Combination.len], ?_⟩
  · unfold Combination.fromInstance
    rw [mapM_some_map _ _ _ hg]
    rfl
  · intro f
    unfold Combination.apply
    simp only [List.mapM_map]
    apply mapM_some_map
    intro v hv
    obtain ⟨i, hi, hget⟩ := instanceLookup_some inp v (h v hv)
    simp [hi, hget]

/-- C13. A missing element makes the construction panic. -/
theorem C13_missing {T : Type} [DecidableEq T] (inp out : List T) (v : T) (hv : v ∈ out)
    (hn : v ∉ inp) : Combination.fromInstance inp out = none := by
  unfold Combination.fromInstance
  rw [mapM_none_of_mem _ _ v hv (instanceLookup_none inp v hn)]
  rfl

example : (Combination.fromInstance [10, 20, 10] [20, 10]).bind (·.apply ['a', 'b', 'c'])
    = some ['b', 'c'] := by decide

end Verif.Props
