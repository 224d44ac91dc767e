import Verif.GenSupFile
import Verif.GenSupLemmas

/-!
# The generator of matrices for random bits
-/

open Verif

namespace Verif.Props

/-! ### Parameters -/

/-- C87: the parameters found serve the number of parties and the ratio given, and no others have a larger dimension; the
message that there are none is correct. -/
theorem C87_params (N T : Nat) (hN : 1 ≤ N) (hT : 1 ≤ T) :
    (∀ p, findBchRs N T = some p → p.Fits N T ∧ ∀ q : SupParams, q.Fits N T → q.kRs * q.kBin ≤ p.kRs * p.kBin) ∧
      (findBchRs N T = none → ∀ q : SupParams, ¬ q.Fits N T) := by
  obtain ⟨h1, -, h3⟩ := mLoop_spec hN hT (List.range' 1 10) (by intro m hm; rw [List.mem_range'_1] at hm; omega) (0, none) rfl
  have hall : ∀ q : SupParams, q.Fits N T → q.kRs * q.kBin ≤
      ((List.range' 1 10).foldl (fun best m => tLoop N T m ((2 ^ m - 1) / m) best) (0, none)).1 := by
    intro q hq
    obtain ⟨m, t, hm, hm', ht, e1, e2, e3⟩ := hq.inner
    exact h3 m (by rw [List.mem_range'_1]; omega) t ht (by omega) q hq e1 e3
  unfold findBchRs
  rw [if_neg (by omega)]
  generalize (List.range' 1 10).foldl (fun best m => tLoop N T m ((2 ^ m - 1) / m) best) (0, none) = best at h1 hall
  obtain ⟨b1, b2⟩ := best
  unfold BestOk at h1
  refine ⟨fun p hp => ?_, fun hn q hq => ?_⟩
  · simp only at hp
    subst hp
    simp only at h1
    exact ⟨h1.1, fun q hq => h1.2 ▸ hall q hq⟩
  · simp only at hn
    subst hn
    simp only at h1
    have := hall q hq
    simp only [h1] at this
    have h2 := Nat.mul_le_mul hq.dim hq.two
    omega

example : findBchRs 16 3 = some ⟨1, 1, 1, 16, 7, 6⟩ ∧ findBchRs 256 6 = some ⟨16, 6, 11, 16, 11, 4⟩ ∧ findBchRs 16 1 = none := by
  decide +kernel

/-- The matrix may be for more parties than asked for: 24 instead of 17. -/
example : findBchRs 17 3 = some ⟨3, 2, 2, 8, 4, 4⟩ := by decide +kernel

/-! ### The matrix -/

/-- What the reader makes of a text is good for up to `t` corrupt parties, see C12. -/
def TextGood (F : Type) [Field F] (text : List Char) (n k t : Nat) : Prop :=
  ∃ M : Mat F, binarySuperInvMatrix text = some M ∧ M.ncols = n ∧ M.rows.length = k ∧ M.AllOutputs t ∧ M.UniformBits t

example (F : Type) [Field F] (f : BinFile) (n k t : Nat) : TextGood F (binText f) n k t ↔ GoodFor F f n k t := Iff.rfl

section
variable {K : Type} [Field K] {k : Nat} {B : BinField K k}

/-- C87: for any inner code the program writes a matrix which is good for fewer corrupt parties than the product of the
distances. -/
theorem C87_concat {F : Type} [Field F] [CharP F 2] (hB : B.Ok) {nRs kRs nBin d : Nat} (hk : 1 ≤ kRs) (hn : 1 ≤ nRs) (hb : 1 ≤ nBin)
    (hk1 : 1 ≤ k) {gRs : List (List K)} (hg : genMatRs B nRs kRs = some gRs) {gBch : List (List (ZMod 2))} (hG : Generates gBch nBin k d) :
    ∃ M, genMatConcat B nRs nBin gRs gBch = some M ∧
      ∀ t, t < (nRs + 1 - kRs) * d → TextGood F (saveTxt (nBin * nRs) M) (nBin * nRs) (kRs * k) t := by
  obtain ⟨M, h1, h2⟩ := genMatConcat_file hB (nBin := nBin) hk hg hG.rows
  refine ⟨M, h1, fun t ht => ?_⟩
  rw [h2]
  set f := genFile hB kRs nRs nBin gBch with hf
  have hlen : f.lines.length = nBin * nRs := genFile_lines hB kRs nRs nBin gBch
  have hfk : f.k = kRs * k := rfl
  have hpos : 0 < nBin * nRs := Nat.mul_pos hb hn
  have hsize : nRs < 2 ^ k := by
    unfold genMatRs at hg
    by_contra hc
    rw [if_neg hc] at hg
    cases hg
  have hD : ∀ u : Nat → Bool, (∃ x < f.k, u x = true) →
      (nRs + 1 - kRs) * d ≤ ((Finset.range f.lines.length).filter fun p => f.coef u p ≠ 0).card := by
    rintro u ⟨x, hx, hux⟩
    refine (concat_distance hB hsize hG (fun x => bz (u x)) hx (by rw [hux]; decide)).trans (le_of_eq ?_)
    rw [hlen]
    congr 1
    refine Finset.filter_congr fun p hp => ?_
    rw [hf, genFile_coef hB kRs nRs nBin gBch u (Finset.mem_range.1 hp)]
  refine ⟨f.mat F, read_binText f (by rw [hfk]; exact Nat.mul_pos hk hk1) ?_, by rw [f.ncols_mat, hlen], by rw [f.rows_mat, hfk],
    f.allOutputs _ t hD ht, f.uniformBits _ t hD ht⟩
  intro h0
  rw [h0] at hlen
  simp at hlen
  omega

end

/-! ### The last column -/

/-- A column of ones keeps the distance. -/
theorem C87_ones {G : List (List (ZMod 2))} {n k d : Nat} (h : Generates G n k d) : Generates (genMatBch G) (n + 1) k d :=
  generates_ext h fun _ => 1

/-- C87: a column with the parities of the rows makes an odd distance larger. -/
theorem C87_parity {G : List (List (ZMod 2))} {n k d : Nat} (h : Generates G n k d) (hd : d % 2 = 1) :
    Generates (G.map fun row => row ++ [row.sum]) (n + 1) k (d + 1) :=
  generates_parity h hd

/-- The generator matrix of the BCH code with length 15 and dimension 7. -/
def bch15x7 : List (List (ZMod 2)) :=
  [[1, 0, 0, 0, 0, 0, 0, 1, 1, 1, 0, 1, 0, 0, 0],
   [0, 1, 0, 0, 0, 0, 0, 0, 1, 1, 1, 0, 1, 0, 0],
   [0, 0, 1, 0, 0, 0, 0, 0, 0, 1, 1, 1, 0, 1, 0],
   [0, 0, 0, 1, 0, 0, 0, 0, 0, 0, 1, 1, 1, 0, 1],
   [0, 0, 0, 0, 1, 0, 0, 1, 1, 1, 0, 0, 1, 1, 0],
   [0, 0, 0, 0, 0, 1, 0, 0, 1, 1, 1, 0, 0, 1, 1],
   [0, 0, 0, 0, 0, 0, 1, 1, 1, 0, 1, 0, 0, 0, 1]]

/-- Its distance, by going through all messages. -/
theorem bch15x7_generates : Generates bch15x7 15 7 5 := by
  refine ⟨by decide, by decide +kernel, fun u hu => ?_⟩
  have key : ∀ a < 2 ^ 7, a ≠ 0 →
      5 ≤ weight ((List.range 15).map fun c => ∑ i ∈ Finset.range 7, bz (a.testBit i) * (bch15x7.getD i []).getD c 0) := by
    decide +kernel
  set a := Nat.ofBits fun i : Fin 7 => decide (u i ≠ 0) with ha
  have hbit : ∀ i < 7, bz (a.testBit i) = u i := by
    intro i hi
    rw [ha, Nat.testBit_ofBits_lt _ _ hi, bz_decide]
  have hne : a ≠ 0 := by
    intro h0
    obtain ⟨i, hi, hui⟩ := hu
    have := hbit i hi
    rw [h0, Nat.zero_testBit] at this
    exact hui this.symm
  refine (key a (Nat.ofBits_lt_two_pow _) hne).trans (le_of_eq ?_)
  congr 1
  refine List.map_congr_left fun c _ => Finset.sum_congr rfl fun i hi => ?_
  rw [hbit i (Finset.mem_range.1 hi)]

example : Generates (bch15x7.map fun row => row ++ [row.sum]) 16 7 6 := C87_parity bch15x7_generates rfl

/-! ### The program -/

section
variable {K : Nat → Type} [∀ k, Field (K k)] (B : ∀ k, BinField (K k) k) (bch : Nat → Nat → Option (List (List (ZMod 2))))

/-- C87: given a library with fields and BCH codes as documented, the file is good for at least `N` parties and for
`dRs * (dBin - 1) - 1` corrupt parties.  Missing: the program says `dRs * dBin - 1`, which is false
(`C87_script_false`). -/
theorem C87_script_partial {F : Type} [Field F] [CharP F 2] (N T : Nat) (hN : 1 ≤ N) (hT : 1 ≤ T) (p : SupParams) (text : List Char)
    (h : genBinarySupmat B bch N T = some (p, text)) (hB : (B p.kBin).Ok)
    (hbch : ∀ G, bch (p.nBin - 1) p.kBin = some G → Generates G (p.nBin - 1) p.kBin (p.dBin - 1)) :
    p.Fits N T ∧ N ≤ p.nBin * p.nRs ∧
      ∀ t, t < p.dRs * (p.dBin - 1) → TextGood F text (p.nBin * p.nRs) (p.kRs * p.kBin) t := by
  unfold genBinarySupmat at h
  obtain ⟨p', hp, h⟩ := Option.bind_eq_some_iff.1 h
  obtain ⟨gRs, hg, h⟩ := Option.bind_eq_some_iff.1 h
  obtain ⟨G, hG, h⟩ := Option.bind_eq_some_iff.1 h
  obtain ⟨gCc, hcc, h⟩ := Option.map_eq_some_iff.1 h
  obtain ⟨rfl, rfl⟩ := Prod.mk.injEq .. ▸ h
  have hfit := ((C87_params N T hN hT).1 _ hp).1
  have hpar := hfit.parties
  have hnb : 1 ≤ p'.nBin := by
    obtain ⟨m, t, hm, _, _, e1, _⟩ := hfit.inner
    rw [e1]
    exact Nat.one_le_two_pow
  have hnr : 1 ≤ p'.nRs := by
    rcases Nat.eq_zero_or_pos p'.nRs with h0 | h0
    · rw [h0] at hpar
      omega
    · exact h0
  refine ⟨hfit, by rw [Nat.mul_comm]; exact hpar, ?_⟩
  have hgen := C87_ones (hbch G hG)
  rw [Nat.sub_add_cancel hnb] at hgen
  obtain ⟨M, h1, h2⟩ := C87_concat (F := F) hB hfit.dim hnr hnb (by have := hfit.two; omega) hg hgen
  rw [hcc] at h1
  cases h1
  have e : p'.nRs + 1 - p'.kRs = p'.dRs := by
    have := hfit.dist
    omega
  rw [e] at h2
  exact h2

/-- C87: with a parity column instead of the ones, the number of corrupt parties which the program prints is right. -/
theorem C87_script_fixed {F : Type} [Field F] [CharP F 2] (N T : Nat) (hN : 1 ≤ N) (hT : 1 ≤ T) (p : SupParams)
    (hp : findBchRs N T = some p) (hB : (B p.kBin).Ok) (gRs : List (List (K p.kBin))) (hg : genMatRs (B p.kBin) p.nRs p.kRs = some gRs)
    (G : List (List (ZMod 2))) (hG : Generates G (p.nBin - 1) p.kBin (p.dBin - 1)) :
    ∃ M, genMatConcat (B p.kBin) p.nRs p.nBin gRs (G.map fun row => row ++ [row.sum]) = some M ∧
      ∀ t, t ≤ p.dRs * p.dBin - 1 → TextGood F (saveTxt (p.nBin * p.nRs) M) (p.nBin * p.nRs) (p.kRs * p.kBin) t := by
  have hfit := ((C87_params N T hN hT).1 _ hp).1
  have hpar := hfit.parties
  obtain ⟨m, t, hm, _, ht, e1, _, e3⟩ := hfit.inner
  have hnb : 1 ≤ p.nBin := by
    rw [e1]
    exact Nat.one_le_two_pow
  have hnr : 1 ≤ p.nRs := by
    rcases Nat.eq_zero_or_pos p.nRs with h0 | h0
    · rw [h0] at hpar
      omega
    · exact h0
  have hgen := C87_parity hG (by omega)
  rw [Nat.sub_add_cancel hnb, Nat.sub_add_cancel (by omega)] at hgen
  obtain ⟨M, h1, h2⟩ := C87_concat (F := F) hB hfit.dim hnr hnb (by have := hfit.two; omega) hg hgen
  refine ⟨M, h1, fun t ht => h2 t ?_⟩
  have e : p.nRs + 1 - p.kRs = p.dRs := by
    have := hfit.dist
    omega
  rw [e]
  have hdr : 0 < p.dRs := by
    rcases Nat.eq_zero_or_pos p.dRs with h0 | h0
    · have := hfit.ratio
      rw [h0] at this
      simp at this
      omega
    · exact h0
  have : 0 < p.dRs * p.dBin := Nat.mul_pos hdr (by omega)
  omega

/-- C87 is false: for 16 parties and ratio 3 the program says 5 corrupt parties and writes the file `n16_t5.txt` of the
repository, which is bad for 5 corrupt parties, although the library gives a code with the distance documented. -/
theorem C87_script_false {F : Type} [Field F] [CharP F 2] (hB : (B 7).Ok) (hb : bch 15 7 = some bch15x7) :
    ∃ p text, genBinarySupmat B bch 16 3 = some (p, text) ∧ (p.nBin * p.nRs, p.kRs * p.kBin, p.dRs * p.dBin - 1) = (16, 7, 5) ∧
      Generates bch15x7 (p.nBin - 1) p.kBin (p.dBin - 1) ∧ text = binText Binsup.n16_t5 ∧ BadFor F Binsup.n16_t5 16 7 5 ∧
      ¬ TextGood F text 16 7 5 := by
  have hbad : BadFor F Binsup.n16_t5 16 7 5 := C12_n16_t5_false
  refine ⟨⟨1, 1, 1, 16, 7, 6⟩, binText Binsup.n16_t5, ?_, rfl, bch15x7_generates, rfl, hbad, ?_⟩
  · unfold genBinarySupmat
    rw [show findBchRs 16 3 = some ⟨1, 1, 1, 16, 7, 6⟩ by decide +kernel, Option.bind_some]
    obtain ⟨gRs, h1, h2⟩ := genMatConcat_one (nBin := 16) (gBch := genMatBch bch15x7) hB (by omega) (by decide +kernel) (by decide +kernel)
    simp only [h1, hb, h2, Option.bind_some, Option.map_some]
    congr 2
  · rintro ⟨M, h1, -, -, h4, -⟩
    obtain ⟨M', h1', -, -, -, h4', -⟩ := hbad
    rw [h1] at h1'
    cases h1'
    exact h4' h4

/-- C87: the program writes a file whenever there are fewer blocks than field elements and the library has the BCH code.
Missing: `check_rs` also admits as many blocks as field elements, see `C87_assert_false`. -/
theorem C87_assert_partial (N T : Nat) (hN : 1 ≤ N) (hT : 1 ≤ T) (p : SupParams) (hp : findBchRs N T = some p) (hB : (B p.kBin).Ok)
    (hlt : p.nRs < 2 ^ p.kBin) (G : List (List (ZMod 2))) (hG : bch (p.nBin - 1) p.kBin = some G) (hrows : G.length = p.kBin) :
    ∃ text, genBinarySupmat B bch N T = some (p, text) := by
  have hfit := ((C87_params N T hN hT).1 _ hp).1
  have hg : ∃ gRs, genMatRs (B p.kBin) p.nRs p.kRs = some gRs := by
    unfold genMatRs
    rw [if_pos hlt]
    exact ⟨_, rfl⟩
  obtain ⟨gRs, hg⟩ := hg
  obtain ⟨M, h1, -⟩ := genMatConcat_file hB (nBin := p.nBin) hfit.dim hg (gBch := genMatBch G) (by simp [genMatBch, hrows])
  unfold genBinarySupmat
  refine ⟨saveTxt (p.nBin * p.nRs) M, ?_⟩
  rw [hp, Option.bind_some, hg, Option.bind_some, hG, Option.bind_some, h1]
  rfl

/-- C87 is false: for 128 parties and ratio 4 there are parameters, but an assertion fails, whatever the library does. -/
theorem C87_assert_false : findBchRs 128 4 = some ⟨16, 9, 8, 8, 4, 4⟩ ∧ genBinarySupmat B bch 128 4 = none := by
  have h : findBchRs 128 4 = some ⟨16, 9, 8, 8, 4, 4⟩ := by decide +kernel
  refine ⟨h, ?_⟩
  unfold genBinarySupmat
  rw [h, Option.bind_some]
  simp [genMatRs]

end

/-- The fields of the code satisfy the assumptions; the matrix is the one of `n16_t5.txt`. -/
example {F : Type} [Field F] [CharP F 2] :
    ∃ (B : ∀ k, BinField ((fun _ => GF 7) k : Type) k) (bch : Nat → Nat → Option (List (List (ZMod 2)))),
      (B 7).Ok ∧ ∃ p text, genBinarySupmat B bch 16 3 = some (p, text) ∧ TextGood F text 16 7 4 ∧ ¬ TextGood F text 16 7 5 := by
  refine ⟨fun k => ⟨fun x => if k = 7 then (gfBin 7).vec x else [], (gfBin 7).ofVec⟩, fun _ _ => some bch15x7, ?_, ?_⟩
  · exact gfBin_ok 7
  · have hB := gfBin_ok 7
    obtain ⟨p, text, h1, -, -, h4, -, h6⟩ := C87_script_false (F := F) (K := fun _ => GF 7)
      (fun k => ⟨fun x => if k = 7 then (gfBin 7).vec x else [], (gfBin 7).ofVec⟩) (fun _ _ => some bch15x7) (gfBin_ok 7) rfl
    exact ⟨p, text, h1, h4 ▸ C12_n16_t5_partial, h6⟩

end Verif.Props
