import Verif.BinsupWeight
import Verif.Props.MathMod
import Verif.Props.Preproc

/-!
# The matrices for random bits

`data/binsup_mat/n<N>_t<T>.txt` is used by `randbit` with `N` parties, up to `T` of which are corrupt.
-/

open Verif

namespace Verif.Props

variable {F : Type} [Field F]

/-- The text of a file. -/
def binText (f : BinFile) : List Char := renderMatrix f.bits

example : binText Binsup.n16_t5 = ("1 0 0 0 0 0 0\n0 1 0 0 0 0 0\n0 0 1 0 0 0 0\n0 0 0 1 0 0 0\n0 0 0 0 1 0 0\n" ++
    "0 0 0 0 0 1 0\n0 0 0 0 0 0 1\n1 0 0 0 1 0 1\n1 1 0 0 1 1 1\n1 1 1 0 1 1 0\n0 1 1 1 0 1 1\n1 0 1 1 0 0 0\n" ++
    "0 1 0 1 1 0 0\n0 0 1 0 1 1 0\n0 0 0 1 0 1 1\n1 1 1 1 1 1 1\n").toList := by decide +kernel

/-- The reader makes the matrix with the columns given by the lines. -/
theorem read_binText (f : BinFile) (hk : 1 ≤ f.k) (hl : f.lines ≠ []) :
    binarySuperInvMatrix (F := F) (binText f) = some (f.mat F) := by
  refine C11_read_rectangular f.bits f.k hk ?_ ?_
  · unfold BinFile.bits
    simpa using hl
  · intro r hr
    unfold BinFile.bits at hr
    obtain ⟨v, _, rfl⟩ := List.mem_map.1 hr
    simp

/-- What the reader returns for the file is good for up to `t` corrupt parties (and has `n` columns and `k` rows). -/
def GoodFor (F : Type) [Field F] (f : BinFile) (n k t : Nat) : Prop :=
  ∃ M : Mat F, binarySuperInvMatrix (binText f) = some M ∧ M.ncols = n ∧ M.rows.length = k ∧ M.AllOutputs t ∧
    M.UniformBits t

/-- What the reader returns for the file is bad for `t` corrupt parties: some `t` parties know the sum of some outputs (not
the empty sum); hence not all outputs are possible for all choices of these parties, and output bits are not uniform. -/
def BadFor (F : Type) [Field F] (f : BinFile) (n k t : Nat) : Prop :=
  ∃ M : Mat F, binarySuperInvMatrix (binText f) = some M ∧ M.ncols = n ∧ M.rows.length = k ∧
    (∃ T U : Finset Nat, T ⊆ Finset.range n ∧ T.card ≤ t ∧ U ⊆ Finset.range k ∧ U.Nonempty ∧ M.Leaks T U) ∧
    ¬ M.AllOutputs t ∧ ¬ M.UniformBits t

section
variable [CharP F 2]

theorem goodFor_of_check (f : BinFile) (c : Cert) (h : c.check f = true) (hk : 1 ≤ f.k) (n k t : Nat)
    (hlen : f.lines.length = n) (hn : 16 * f.blocks.length = n) (hpos : 0 < n) (hfk : f.k = k)
    (ht : t < c.d * (f.blocks.length - (c.kr - 1))) : GoodFor F f n k t := by
  have hD : ∀ u : Nat → Bool, (∃ x < f.k, u x = true) → c.d * (f.blocks.length - (c.kr - 1)) ≤
      ((Finset.range f.lines.length).filter fun p => f.coef u p ≠ 0).card := by
    intro u hu
    have := Cert.weight_ge h u hu
    rwa [hn, ← hlen] at this
  refine ⟨f.mat F, read_binText f hk ?_, by rw [f.ncols_mat, hlen], by rw [f.rows_mat, hfk], f.allOutputs _ t hD ht,
    f.uniformBits _ t hD ht⟩
  intro h0
  rw [h0] at hlen
  simp at hlen
  omega

theorem goodFor_of_weight (f : BinFile) (D : Nat) (h : f.weightCheck D = true) (hk : 1 ≤ f.k) (n k t : Nat) (hlen : f.lines.length = n) (hpos : 0 < n)
    (hfk : f.k = k) (ht : t < D) : GoodFor F f n k t := by
  have hD := f.weight_ge D h
  refine ⟨f.mat F, read_binText f hk ?_, by rw [f.ncols_mat, hlen], by rw [f.rows_mat, hfk], f.allOutputs _ t hD ht, f.uniformBits _ t hD ht⟩
  intro h0
  rw [h0] at hlen
  simp at hlen
  omega

theorem badFor_of_check (f : BinFile) (um tm : Nat) (h : f.leakCheck um tm = true) (n k t : Nat) (hlen : f.lines.length = n)
    (hpos : 0 < n) (hfk : f.k = k) (hu : ((List.range k).any fun j => um.testBit j) = true)
    (ht : ((List.range n).filter fun p => tm.testBit p).length ≤ t) : BadFor F f n k t := by
  have hleak := f.leaks_of_check (F := F) um tm h
  rw [hlen, hfk] at hleak
  rw [List.any_eq_true] at hu
  obtain ⟨u0, hu0, hu1⟩ := hu
  rw [List.mem_range] at hu0
  have hcard : ((Finset.range n).filter fun p => tm.testBit p = true).card ≤ t := by
    refine le_trans (le_of_eq ?_) ht
    rw [← List.toFinset_card_of_nodup (List.Nodup.filter _ List.nodup_range)]
    congr 1
    ext p
    simp
  have hne : ((Finset.range k).filter fun j => um.testBit j = true).Nonempty :=
    ⟨u0, Finset.mem_filter.2 ⟨Finset.mem_range.2 hu0, hu1⟩⟩
  refine ⟨f.mat F, read_binText f (by omega) ?_, by rw [f.ncols_mat, hlen], by rw [f.rows_mat, hfk],
    ⟨_, _, Finset.filter_subset _ _, hcard, Finset.filter_subset _ _, hne, hleak⟩,
    hleak.not_allOutputs hcard hne (by rw [f.rows_mat, hfk]; exact Finset.filter_subset _ _),
    hleak.not_uniformBits hcard (by rw [f.ncols_mat, hlen]; exact Finset.filter_subset _ _) hne
      (by rw [f.rows_mat, hfk]; exact Finset.filter_subset _ _)⟩
  intro h0
  rw [h0] at hlen
  simp at hlen
  omega

end

/-- The Reed-Solomon code over GF(2^7) with `nr` points and `kr` coefficients, symbols encoded with a [16, 7, 5] code. -/
def cert7 (nr kr : Nat) : Cert where
  w := 7
  kr := kr
  A := [1, 14, 15, 84, 85, 90, 91, 110, 111, 96, 97, 58, 59, 52, 53, 48, 49, 62, 63, 100, 101, 106, 107, 94, 95, 80, 81, 10,
    11, 4, 5, 50].take nr
  B := [46, 50, 48, 110, 84, 14, 1]
  E := [0xc5c0, 0x3906, 0x26bc, 0xf89a, 0xc2a5, 0x6ca1, 0x5789]
  d := 5

/-- The Reed-Solomon code over GF(2^11) with 16 points and 6 coefficients, symbols encoded with a [16, 11, 3] code. -/
def cert11 : Cert where
  w := 11
  kr := 6
  A := (List.range 16).map (· + 1)
  B := [1024, 512, 256, 128, 64, 32, 16, 8, 4, 2, 1]
  E := [0xe400, 0xb200, 0x9900, 0xe880, 0xd040, 0xa820, 0xf010, 0xb808, 0xf804, 0xd802, 0xc801]
  d := 3

variable [CharP F 2]

/-- C12 for `n128_t31.txt`: as claimed, even for 34 corrupt parties. -/
theorem C12_n128_t31 : GoodFor F Binsup.n128_t31 128 14 31 ∧ GoodFor F Binsup.n128_t31 128 14 34 :=
  have h : (cert7 8 2).check Binsup.n128_t31 = true := by decide +kernel
  ⟨goodFor_of_check _ _ h (by decide +kernel) _ _ _ (by decide +kernel) (by decide +kernel) (by decide +kernel) (by decide +kernel) (by decide +kernel),
    goodFor_of_check _ _ h (by decide +kernel) _ _ _ (by decide +kernel) (by decide +kernel) (by decide +kernel) (by decide +kernel) (by decide +kernel)⟩

/-- The exact bound for `n128_t31.txt`: it is good for 39 corrupt parties, and 40 parties know the sum of the outputs 0, 2, 4 and 8. -/
theorem C12_n128_t31_exact : GoodFor F Binsup.n128_t31 128 14 39 ∧ BadFor F Binsup.n128_t31 128 14 40 :=
  ⟨goodFor_of_weight _ 40 (by decide +kernel) (by decide +kernel) _ _ _ (by decide +kernel) (by decide +kernel) (by decide +kernel) (by decide +kernel),
    badFor_of_check _ 0x115 0x1170117011701170117011701170117 (by decide +kernel) _ _ _ (by decide +kernel) (by decide +kernel) (by decide +kernel)
      (by decide +kernel) (by decide +kernel)⟩

/-- C12 is false for `n16_t5.txt`: parties 0, 4, 11, 12 and 13 know the sum of the outputs 0 and 4. -/
theorem C12_n16_t5_false : BadFor F Binsup.n16_t5 16 7 5 :=
  badFor_of_check _ 0x11 0x3811 (by decide +kernel) _ _ _ (by decide +kernel) (by decide +kernel) (by decide +kernel) (by decide +kernel) (by decide +kernel)

/-- C12 for `n16_t5.txt`, with 4 instead of 5 corrupt parties. -/
theorem C12_n16_t5_partial : GoodFor F Binsup.n16_t5 16 7 4 :=
  goodFor_of_check _ (cert7 1 1) (by decide +kernel) (by decide +kernel) _ _ _ (by decide +kernel) (by decide +kernel) (by decide +kernel) (by decide +kernel) (by decide +kernel)

/-- C12 is false for `n256_t43.txt`: 41 parties know the sum of some outputs. -/
theorem C12_n256_t43_false : BadFor F Binsup.n256_t43 256 66 41 :=
  badFor_of_check _ 0x483494194500413 0x9114000041021003510110035101000041021003510100004102000041021003 (by decide +kernel)
    _ _ _ (by decide +kernel) (by decide +kernel) (by decide +kernel) (by decide +kernel) (by decide +kernel)

/-- C12 for `n256_t43.txt`, with up to 32 instead of 43 corrupt parties. -/
theorem C12_n256_t43_partial : GoodFor F Binsup.n256_t43 256 66 32 :=
  goodFor_of_check _ cert11 (by decide +kernel) (by decide +kernel) _ _ _ (by decide +kernel) (by decide +kernel) (by decide +kernel) (by decide +kernel) (by decide +kernel)

/-- C12 is false for `n256_t53.txt`: 50 parties know the sum of some outputs. -/
theorem C12_n256_t53_false : BadFor F Binsup.n256_t53 256 56 50 :=
  badFor_of_check _ 0x4f673f2ba0c608 0xdc082492045c000024920000000000004e4100000000045cae04045c0000a961 (by decide +kernel)
    _ _ _ (by decide +kernel) (by decide +kernel) (by decide +kernel) (by decide +kernel) (by decide +kernel)

/-- C12 for `n256_t53.txt`, with up to 44 instead of 53 corrupt parties. -/
theorem C12_n256_t53_partial : GoodFor F Binsup.n256_t53 256 56 44 :=
  goodFor_of_check _ (cert7 16 8) (by decide +kernel) (by decide +kernel) _ _ _ (by decide +kernel) (by decide +kernel) (by decide +kernel) (by decide +kernel) (by decide +kernel)

/-- C12 is false for `n256_t65.txt`: 62 parties know the sum of some outputs. -/
theorem C12_n256_t65_false : BadFor F Binsup.n256_t65 256 42 62 :=
  badFor_of_check _ 0x2bb0c50e48b 0xe0450000ae04381106727022000038112492702222e0c2a50000c2a5 (by decide +kernel)
    _ _ _ (by decide +kernel) (by decide +kernel) (by decide +kernel) (by decide +kernel) (by decide +kernel)

/-- C12 for `n256_t65.txt`, with up to 54 instead of 65 corrupt parties. -/
theorem C12_n256_t65_partial : GoodFor F Binsup.n256_t65 256 42 54 :=
  goodFor_of_check _ (cert7 16 6) (by decide +kernel) (by decide +kernel) _ _ _ (by decide +kernel) (by decide +kernel) (by decide +kernel) (by decide +kernel) (by decide +kernel)

/-- C12 is false for `n256_t89.txt`: 80 parties know the sum of the outputs 0 and 8. -/
theorem C12_n256_t89_false : BadFor F Binsup.n256_t89 256 14 80 :=
  badFor_of_check _ 0x101 0x3811381138113811381138113811381138113811381138113811381138113811 (by decide +kernel)
    _ _ _ (by decide +kernel) (by decide +kernel) (by decide +kernel) (by decide +kernel) (by decide +kernel)

/-- C12 for `n256_t89.txt`, with up to 79 instead of 89 corrupt parties (by `C12_n256_t89_false`, not for 80). -/
theorem C12_n256_t89_partial : GoodFor F Binsup.n256_t89 256 14 79 :=
  goodFor_of_weight _ 80 (by decide +kernel) (by decide +kernel) _ _ _ (by decide +kernel) (by decide +kernel) (by decide +kernel) (by decide +kernel)

/-- C12 is false for `n512_t131.txt`: 127 parties know the sum of some outputs. -/
theorem C12_n512_t131_false : BadFor F Binsup.n512_t131 512 77 127 :=
  badFor_of_check _ 0x18e90cd6fc4e4d10b449
    0xde2600004924000049240000492400004924000024922585011725850117000024926ca1022e4a1d24924a1d24926ca1022e0000033903390000033900000000
    (by decide +kernel) _ _ _ (by decide +kernel) (by decide +kernel) (by decide +kernel) (by decide +kernel) (by decide +kernel)

/-- C12 for `n512_t131.txt`, with up to 109 instead of 131 corrupt parties. -/
theorem C12_n512_t131_partial : GoodFor F Binsup.n512_t131 512 77 109 :=
  goodFor_of_check _ (cert7 32 11) (by decide +kernel) (by decide +kernel) _ _ _ (by decide +kernel) (by decide +kernel) (by decide +kernel) (by decide +kernel) (by decide +kernel)

/-- C12, consequences for `randbit`: for each batch `b` and position `i`, the secret bits of the outputs are the product of the
matrix with the bits chosen by the parties.  So with a matrix which is `UniformBits` they are uniform, and with one which
`Leaks` the parties in `T` know the sum of the secrets of the outputs in `U`. -/
theorem C12_randbit {F : Type} [CodeField F] [DecidableEq F] (ctx : Ctx F) (h : ctx.Good) (m : Mat F) (hm : DealMat ctx.n m) (num batches : Nat)
    (hb : numBatches num m.rows.length = some batches) (bits : List (List (List Bool)))
    (hbits : TapeShape ctx.n batches ctx.l bits) (tapes : List (List (List F)))
    (ht : TapeShape ctx.n batches ctx.t tapes) :
    ∃ outs secrets, randbit ctx m num bits tapes = some outs ∧
      VecSharing ctx.n (ctx.t + ctx.l) (defaultPos ctx.n ctx.l) secrets outs ∧
      ∀ b < batches, ∀ i < ctx.l,
        m.mulVec (bitList F fun p : Fin m.ncols => ((bits.getD p []).getD b []).getD i false)
          = some ((List.range m.rows.length).map fun r => (secrets.getD (r * batches + b) []).getD i 0) ∧
        ∀ T U : Finset Nat, T ⊆ Finset.range ctx.n → U ⊆ Finset.range m.rows.length → m.Leaks T U →
          ∑ u ∈ U, (secrets.getD (u * batches + b) []).getD i 0
            = ∑ p ∈ T, bitVal F (((bits.getD p []).getD b []).getD i false) := by
  obtain ⟨outs, secrets, h1, h2, h3, _, _⟩ := C47_randbit ctx h m hm num batches hb bits hbits tapes ht
  refine ⟨outs, secrets, h1, h2, fun b hbl i hi => ?_⟩
  have hsec : ∀ r, r < m.rows.length → (secrets.getD (r * batches + b) []).getD i 0 =
      ∑ p ∈ Finset.range ctx.n, (m.rows.getD r []).getD p 0 * bitVal F (((bits.getD p []).getD b []).getD i false) := by
    intro r hr
    have hlt : r * batches + b < m.rows.length * batches := by
      calc r * batches + b < r * batches + batches := by omega
        _ = (r + 1) * batches := by rw [Nat.succ_mul]
        _ ≤ m.rows.length * batches := Nat.mul_le_mul_right _ hr
    have hd : (r * batches + b) / batches = r := by
      rw [Nat.mul_comm, Nat.mul_add_div (by omega), Nat.div_eq_of_lt hbl, Nat.add_zero]
    have hmod : (r * batches + b) % batches = b := by
      rw [Nat.mul_comm, Nat.mul_add_mod, Nat.mod_eq_of_lt hbl]
    rw [h3]
    simp only [List.getD_eq_getElem?_getD (l := List.map _ _), List.getElem?_map, List.getElem?_range hlt,
      List.getElem?_range hi, Option.map_some, Option.getD_some]
    rw [hd, hmod]
  have hmul : m.mulVec (bitList F fun p : Fin m.ncols => ((bits.getD p []).getD b []).getD i false)
      = some ((List.range m.rows.length).map fun r => (secrets.getD (r * batches + b) []).getD i 0) := by
    unfold Mat.mulVec
    rw [if_pos (by rw [bitList, List.length_ofFn]), Option.some.injEq]
    apply List.ext_getElem (by simp)
    intro r hr1 hr2
    have hr : r < m.rows.length := by simpa using hr1
    simp only [List.getElem_map, List.getElem_range]
    rw [hsec r hr, dot_sum (hm.1 _ (List.getElem_mem hr)) (by rw [bitList, List.length_ofFn]), hm.2.1]
    refine Finset.sum_congr rfl fun p hp => ?_
    rw [List.getD_eq_getElem?_getD (l := m.rows), List.getElem?_eq_getElem hr, Option.getD_some]
    congr 1
    rw [bitList, List.getD_eq_getElem?_getD, List.getElem?_ofFn, dif_pos (Finset.mem_range.1 hp), Option.getD_some]
  refine ⟨hmul, fun T U hT hU hleak => ?_⟩
  have hl := hleak _ _ hmul
  have e1 : ∑ u ∈ U, ((List.range m.rows.length).map fun r => (secrets.getD (r * batches + b) []).getD i 0).getD u 0
      = ∑ u ∈ U, (secrets.getD (u * batches + b) []).getD i 0 := by
    refine Finset.sum_congr rfl fun u hu => ?_
    have := Finset.mem_range.1 (hU hu)
    rw [List.getD_eq_getElem?_getD (l := List.map _ _), List.getElem?_map, List.getElem?_range this]
    rfl
  have e2 : ∑ p ∈ T, (bitList F fun p : Fin m.ncols => ((bits.getD p []).getD b []).getD i false).getD p 0
      = ∑ p ∈ T, bitVal F (((bits.getD p []).getD b []).getD i false) := by
    refine Finset.sum_congr rfl fun p hp => ?_
    have hp' : p < m.ncols := by rw [hm.2.1]; exact Finset.mem_range.1 (hT hp)
    rw [bitList, List.getD_eq_getElem?_getD, List.getElem?_ofFn, dif_pos hp', Option.getD_some]
  rw [← e1, ← e2]
  exact hl

/-- The fields of the code have characteristic 2. -/
theorem charP_codeField (F : Type) [CodeField F] : CharP F 2 :=
  CharTwo.of_one_ne_zero_of_two_eq_zero one_ne_zero (by rw [← one_add_one_eq_two]; exact CodeField.add_self 1)

/-- The field of the binaries: the example of the README (16 parties, threshold 5, this file). -/
example : BadFor (GF 18) Binsup.n16_t5 16 7 5 :=
  have := charP_codeField (GF 18)
  C12_n16_t5_false

/-- The reason: `scripts/gen_binary_supmat.py` extends the inner code by a column of ones.  With the parity of the other columns
instead (the extended code, which the file names assume) the distance of the inner code would be 6 and not 5. -/
example : ∀ s ∈ List.range 128, s = 0 ∨
    6 ≤ ((List.range 15).filter fun r => ((cert7 1 1).enc s).testBit r).length
      + ((List.range 15).filter fun r => ((cert7 1 1).enc s).testBit r).length % 2 := by
  decide +kernel

/-- The notions are not trivial: the matrix with a single row of ones is good for `n - 1` corrupt parties only. -/
example : Mat.Leaks (⟨2, [[1, 1]]⟩ : Mat F) {0, 1} {0} := by
  intro x y h
  unfold Mat.mulVec at h
  split at h
  · rename_i hx
    simp only [Option.some.injEq] at h
    subst h
    match x, hx with
    | [a, b], _ => simp [dot]
  · cases h

end Verif.Props
