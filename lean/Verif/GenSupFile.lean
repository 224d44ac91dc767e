import Verif.GenSupCode
import Verif.CoreLemmas
import Verif.Props.Binsup

/-!
# Helper lemmas: the file written by `scripts/gen_binary_supmat.py`, and inner codes
-/

namespace Verif

open Verif.Props

theorem intersperse_line (l : List Bool) :
    ((l.map fun b => [if b then '1' else '0']).intersperse [' ']).flatten = renderLine l := by
  induction l with
  | nil => rfl
  | cons b l ih =>
    cases l with
    | nil => rfl
    | cons b' l =>
      rw [List.map_cons] at ih
      rw [List.map_cons, List.map_cons, List.intersperse_cons_cons, List.flatten_cons, List.flatten_cons, ih]
      rfl

theorem saveTxt_eq (n : Nat) (M : List (List (ZMod 2))) :
    saveTxt n M = renderMatrix ((List.range n).map fun p => M.map fun row => decide (row.getD p 0 ≠ 0)) := by
  unfold saveTxt renderMatrix
  rw [List.flatMap_map]
  refine List.flatMap_congr fun p _ => ?_
  rw [← intersperse_line, List.map_map]
  congr 4
  funext row
  by_cases h : row.getD p 0 = 0 <;> simp

section
variable {K : Type} [Field K] {k : Nat} {B : BinField K k}

/-- The file as a table of numbers. -/
noncomputable def genFile (hB : B.Ok) (kr nRs nBin : Nat) (gBch : List (List (ZMod 2))) : BinFile where
  k := kr * k
  blocks := [(List.range (nBin * nRs)).map fun p => Nat.ofBits fun x : Fin (kr * k) =>
    decide (bitHom hB kr gBch (p / nBin) (p % nBin) (fun y => if y = x then 1 else 0) ≠ 0)]

theorem genFile_lines (hB : B.Ok) (kr nRs nBin : Nat) (gBch : List (List (ZMod 2))) :
    (genFile hB kr nRs nBin gBch).lines.length = nBin * nRs := by
  simp [genFile, BinFile.lines]

theorem genFile_bit (hB : B.Ok) (kr nRs nBin : Nat) (gBch : List (List (ZMod 2))) {p x : Nat} (hp : p < nBin * nRs)
    (hx : x < kr * k) : ((genFile hB kr nRs nBin gBch).lines.getD p 0).testBit x
      = decide (bitHom hB kr gBch (p / nBin) (p % nBin) (fun y => if y = x then 1 else 0) ≠ 0) := by
  unfold genFile BinFile.lines
  simp only [List.flatten_cons, List.flatten_nil, List.append_nil]
  rw [getD_map_range _ _ _ hp, Nat.testBit_ofBits_lt _ _ hx]

theorem bz_decide (a : ZMod 2) : bz (decide (a ≠ 0)) = a := by
  revert a
  decide

theorem genFile_coef (hB : B.Ok) (kr nRs nBin : Nat) (gBch : List (List (ZMod 2))) (u : Nat → Bool) {p : Nat} (hp : p < nBin * nRs) :
    (genFile hB kr nRs nBin gBch).coef u p = bitHom hB kr gBch (p / nBin) (p % nBin) fun x => bz (u x) := by
  rw [bitHom_sum]
  unfold BinFile.coef
  refine Finset.sum_congr rfl fun x hx => ?_
  rw [genFile_bit hB kr nRs nBin gBch hp (Finset.mem_range.1 hx), bz_decide]

/-- What the program writes. -/
theorem genMatConcat_file (hB : B.Ok) {nRs kRs nBin : Nat} (hk : 1 ≤ kRs) {gRs : List (List K)}
    (hg : genMatRs B nRs kRs = some gRs) {gBch : List (List (ZMod 2))} (hb : gBch.length = k) :
    ∃ M, genMatConcat B nRs nBin gRs gBch = some M ∧ saveTxt (nBin * nRs) M = binText (genFile hB kRs nRs nBin gBch) := by
  have hlen := (genMatRs_get hk hg).2.1
  have henc := fun i => encodeConcat_get hB (nBin := nBin) hk hg hb ((List.range (kRs * k)).map fun j => if j = i then 1 else 0) (by simp)
  choose w h1 h2 h3 using henc
  refine ⟨(List.range (kRs * k)).map w, ?_, ?_⟩
  · unfold genMatConcat
    rw [hlen, hb]
    exact mapM_range_some _ _ _ fun i _ => h1 i
  · rw [saveTxt_eq]
    unfold binText BinFile.bits
    congr 1
    have hl := genFile_lines hB kRs nRs nBin gBch
    refine List.ext_getElem (by simp [hl]) fun p hp hp' => ?_
    have hpn : p < nBin * nRs := by simpa using hp
    rw [List.getElem_map, List.getElem_map, List.getElem_range, List.map_map]
    change _ = List.map _ (List.range (kRs * k))
    refine List.map_congr_left fun x hx => ?_
    rw [List.mem_range] at hx
    have := genFile_bit hB kRs nRs nBin gBch hpn hx
    rw [List.getD_eq_getElem _ _ (by omega)] at this
    rw [this]
    have hnb : 0 < nBin := by
      rcases Nat.eq_zero_or_pos nBin with h | h
      · rw [h, Nat.zero_mul] at hpn
        omega
      · exact h
    have h4 := h3 x (p / nBin) (Nat.div_lt_of_lt_mul hpn) (p % nBin) (Nat.mod_lt _ hnb)
    rw [Nat.div_add_mod] at h4
    simp only [Function.comp_apply]
    rw [h4, bitHom_sum, bitHom_sum hB kRs gBch _ _ (fun y => if y = x then 1 else 0)]
    congr 2
    refine Finset.sum_congr rfl fun y hy => ?_
    rw [getD_map_range _ _ _ (Finset.mem_range.1 hy)]

end

/-! ### Inner codes with one more bit -/

theorem ext_word (G : List (List (ZMod 2))) (n k : Nat) (hr : G.length = k) (hc : ∀ row ∈ G, row.length = n) (e : List (ZMod 2) → ZMod 2)
    (u : Nat → ZMod 2) :
    ((List.range (n + 1)).map fun c => ∑ i ∈ Finset.range k, u i * ((G.map fun row => row ++ [e row]).getD i []).getD c 0)
      = ((List.range n).map fun c => ∑ i ∈ Finset.range k, u i * (G.getD i []).getD c 0)
        ++ [∑ i ∈ Finset.range k, u i * e (G.getD i [])] := by
  have hrow : ∀ i, i < k → (G.map fun row => row ++ [e row]).getD i [] = G.getD i [] ++ [e (G.getD i [])] ∧ (G.getD i []).length = n := by
    intro i hi
    rw [List.getD_eq_getElem _ _ (by simpa [hr] using hi), List.getElem_map, List.getD_eq_getElem _ _ (by omega)]
    exact ⟨rfl, hc _ (List.getElem_mem _)⟩
  rw [List.range_succ, List.map_append, List.map_singleton]
  congr 1
  · refine List.map_congr_left fun c hc' => Finset.sum_congr rfl fun i hi => ?_
    obtain ⟨h1, h2⟩ := hrow i (Finset.mem_range.1 hi)
    rw [h1, List.getD_append _ _ _ _ (by rw [h2]; exact List.mem_range.1 hc')]
  · congr 1
    refine Finset.sum_congr rfl fun i hi => ?_
    obtain ⟨h1, h2⟩ := hrow i (Finset.mem_range.1 hi)
    rw [h1, List.getD_append_right _ _ _ _ (by omega), h2, Nat.sub_self]
    rfl

theorem weight_append (l : List (ZMod 2)) (a : ZMod 2) : weight (l ++ [a]) = weight l + if a = 0 then 0 else 1 := by
  unfold weight
  rw [List.filter_append, List.length_append]
  congr 1
  by_cases h : a = 0 <;> simp [h]

/-- The sum of the entries counts the ones. -/
theorem sum_eq_weight (l : List (ZMod 2)) : l.sum = (weight l : ZMod 2) := by
  induction l with
  | nil => rfl
  | cons a l ih =>
    have h : weight (a :: l) = (if a = 0 then 0 else 1) + weight l := by
      unfold weight
      by_cases h : a = 0 <;> simp [h, Nat.add_comm]
    rw [List.sum_cons, ih, h, Nat.cast_add]
    congr 1
    clear h ih
    revert a
    decide

theorem sum_map_range (n : Nat) (g : Nat → ZMod 2) : ((List.range n).map g).sum = ∑ c ∈ Finset.range n, g c := by
  induction n with
  | zero => rfl
  | succ n ih => rw [List.range_succ, List.map_append, List.sum_append, ih, Finset.sum_range_succ]; simp

theorem generates_ext {G : List (List (ZMod 2))} {n k d : Nat} (h : Generates G n k d) (e : List (ZMod 2) → ZMod 2) :
    Generates (G.map fun row => row ++ [e row]) (n + 1) k d := by
  refine ⟨by rw [List.length_map, h.rows], ?_, fun u hu => ?_⟩
  · intro row hrow
    obtain ⟨row', hr, rfl⟩ := List.mem_map.1 hrow
    rw [List.length_append, h.cols _ hr]
    rfl
  · rw [ext_word G n k h.rows h.cols, weight_append]
    exact (h.dist u hu).trans (Nat.le_add_right _ _)

/-- A parity bit makes an odd distance larger. -/
theorem generates_parity {G : List (List (ZMod 2))} {n k d : Nat} (h : Generates G n k d) (hd : d % 2 = 1) :
    Generates (G.map fun row => row ++ [row.sum]) (n + 1) k (d + 1) := by
  obtain ⟨h1, h2, _⟩ := generates_ext h List.sum
  refine ⟨h1, h2, fun u hu => ?_⟩
  rw [ext_word G n k h.rows h.cols, weight_append]
  have hw := h.dist u hu
  have hsum : ∑ i ∈ Finset.range k, u i * (G.getD i []).sum
      = ((List.range n).map fun c => ∑ i ∈ Finset.range k, u i * (G.getD i []).getD c 0).sum := by
    rw [sum_map_range, Finset.sum_comm]
    refine Finset.sum_congr rfl fun i hi => ?_
    rw [← Finset.mul_sum]
    congr 1
    have hi' : i < G.length := by rw [h.rows]; exact Finset.mem_range.1 hi
    have hlen : (G.getD i []).length = n := by
      rw [List.getD_eq_getElem _ _ hi']
      exact h.cols _ (List.getElem_mem _)
    rw [← sum_map_range, ← hlen]
    congr 1
    refine List.ext_getElem (by simp) fun c hc hc' => ?_
    rw [List.getElem_map, List.getElem_range, List.getD_eq_getElem _ _ hc]
  rw [hsum, sum_eq_weight]
  generalize weight ((List.range n).map fun c => ∑ i ∈ Finset.range k, u i * (G.getD i []).getD c 0) = w at hw
  by_cases he : w = d
  · rw [if_neg]
    · omega
    · rw [he, ZMod.natCast_eq_zero_iff]
      omega
  · split <;> omega

/-! ### One block -/

/-- With one block the matrix is the inner code. -/
theorem genMatConcat_one {K : Type} [Field K] {k : Nat} {B : BinField K k} (hB : B.Ok) (hk : 1 ≤ k) {nBin : Nat}
    {gBch : List (List (ZMod 2))} (hr : gBch.length = k) (hc : ∀ row ∈ gBch, row.length = nBin) :
    ∃ gRs, genMatRs B 1 1 = some gRs ∧ genMatConcat B 1 nBin gRs gBch = some gBch := by
  have hg : genMatRs B 1 1 = some [[1]] := by
    unfold genMatRs
    rw [if_pos (Nat.one_lt_two_pow (by omega))]
    rfl
  refine ⟨_, hg, ?_⟩
  have henc := fun i => encodeConcat_get hB (nBin := nBin) le_rfl hg hr ((List.range (1 * k)).map fun j => if j = i then 1 else 0) (by simp)
  choose w h1 h2 h3 using henc
  have e : (List.range (1 * k)).map w = gBch := by
    refine List.ext_getElem (by simp [hr]) fun i hi hi' => ?_
    rw [List.getElem_map, List.getElem_range]
    have hik : i < k := by omega
    have hl := hc _ (List.getElem_mem hi')
    refine List.ext_getElem (by rw [h2, hl, Nat.mul_one]) fun c hc1 hc2 => ?_
    have h4 := h3 i 0 (by omega) c (by omega)
    rw [Nat.mul_zero, Nat.zero_add, List.getD_eq_getElem _ _ hc1] at h4
    rw [h4, bitHom_apply, Finset.sum_eq_single i]
    · rw [outHom_apply, Finset.sum_range_one, pow_zero, mul_one]
      change hB.coord i (B.ofVec ((List.range k).map _)) * _ = _
      rw [hB.coord_ofVec _ hik, Nat.zero_add, Nat.mul_one]
      beta_reduce
      rw [getD_map_range _ _ _ (by omega), if_pos rfl, one_mul,
        List.getD_eq_getElem _ _ hi', List.getD_eq_getElem _ _ hc2]
    · intro r hr' hne
      rw [Finset.mem_range] at hr'
      rw [outHom_apply, Finset.sum_range_one, pow_zero, mul_one]
      change hB.coord r (B.ofVec ((List.range k).map _)) * _ = _
      rw [hB.coord_ofVec _ hr', Nat.zero_add, Nat.mul_one]
      beta_reduce
      rw [getD_map_range _ _ _ (by omega), if_neg hne, zero_mul]
    · intro h
      exact absurd (Finset.mem_range.2 hik) h
  unfold genMatConcat
  rw [hr]
  exact (mapM_range_some _ _ w fun i _ => h1 i).trans (congrArg some e)

/-! ### The fields of the code as fields of the program -/

/-- `GF W` with its elements written as bits. -/
def gfBin (W : Nat) : BinField (GF W) W where
  vec x := (List.range W).map fun j => bz (x.val.testBit (W - 1 - j))
  ofVec l := ⟨Nat.ofBits fun i : Fin W => decide (l.getD (W - 1 - i) 0 ≠ 0), Nat.ofBits_lt_two_pow _⟩

theorem gfBin_ok (W : Nat) [Width W] : (gfBin W).Ok where
  len x := by simp [gfBin]
  left x := by
    refine GF.ext (Nat.eq_of_testBit_eq fun b => ?_)
    change (Nat.ofBits _).testBit b = _
    by_cases hb : b < W
    · rw [Nat.testBit_ofBits_lt _ _ hb]
      have e : ((gfBin W).vec x).getD (W - 1 - b) 0 = bz (x.val.testBit b) := by
        simp only [gfBin]
        rw [getD_map_range _ _ _ (by omega), show W - 1 - (W - 1 - b) = b by omega]
      simp only [e]
      cases x.val.testBit b <;> decide
    · rw [Nat.testBit_ofBits_ge _ _ (by omega), Nat.testBit_lt_two_pow (lt_of_lt_of_le x.lt (Nat.pow_le_pow_right (by norm_num) (by omega)))]
  right l hl := by
    refine List.ext_getElem (by simp [gfBin, hl]) fun i h1 h2 => ?_
    simp only [gfBin, List.getElem_map, List.getElem_range]
    rw [Nat.testBit_ofBits_lt _ _ (by omega), bz_decide]
    simp only [show W - 1 - (W - 1 - i) = i by omega]
    rw [List.getD_eq_getElem _ _ h2]
  add x y := by
    simp only [gfBin]
    rw [List.zipWith_map_left, List.zipWith_map_right, List.zipWith_self]
    refine List.map_congr_left fun j _ => ?_
    rw [← bz_xor, ← Nat.testBit_xor]
    rfl

end Verif
