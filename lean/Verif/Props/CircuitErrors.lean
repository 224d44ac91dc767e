import Verif.CircErrLemmas
import Verif.Props.LpnErrors

/-!
# C103: undecodable rows in a whole garbled circuit
-/

namespace Verif.Props

section
variable {F : Type} [CodeField F] [DecidableEq F] [Finite F] {c : Codec F} {ctx : Ctx F} {m mb : Mat F} {d : PreProcCount}

/-- C103. The probability that some row of the garbled circuit gets more than `e` errors: the circuit, however it is packed, has four rows for each
AND and XOR gate and two for each INV gate, and the rows fail independently. -/
theorem C103_rows (P : PreParams c ctx m mb d) (hm : m.AllOutputs ctx.t) (hmb : mb.UniformBits ctx.t) {circ : Circuit} {p : PackedCircuit}
    {lpn : LpnParams} (hp : circ.pack ctx.l = some p) (hd : p.describe ctx.n ctx.t ctx.l lpn = some d) (e : Nat) :
    tapeFraction ctx m mb d (SomeRowFails ctx m mb d p lpn.mssgLen e)
      = 1 - (1 - binomTail e lpn.mssgLen (((Nat.card F - 1 : Nat) : ℚ) / (4 * Nat.card F : Nat))) ^
          (4 * numKind circ.gates .and + 4 * numKind circ.gates .xor + 2 * numKind circ.gates .inv) := by
  rw [rows_fraction P hm hmb hd (pack_out_le hp) e, pack_rows hp, numRows_eq]

/-- C103. So it is at most the number of rows times `correctness_error(lpn_mssg_len, lpn_key_len + 1, 2)`. -/
theorem C103_bound (P : PreParams c ctx m mb d) (hm : m.AllOutputs ctx.t) (hmb : mb.UniformBits ctx.t) {circ : Circuit} {p : PackedCircuit}
    {lpn : LpnParams} (hp : circ.pack ctx.l = some p) (hd : p.describe ctx.n ctx.t ctx.l lpn = some d) :
    tapeFraction ctx m mb d (SomeRowFails ctx m mb d p lpn.mssgLen ((lpn.mssgLen - lpn.keyLen - 1) / 2))
      ≤ (4 * numKind circ.gates .and + 4 * numKind circ.gates .xor + 2 * numKind circ.gates .inv : Nat) *
          correctnessError lpn.mssgLen (lpn.keyLen + 1) 2 := by
  rw [C103_rows P hm hmb hp hd, error_tail, show lpn.mssgLen - (lpn.keyLen + 1) = lpn.mssgLen - lpn.keyLen - 1 by omega]
  refine le_trans (union_bound ?_ _) (mul_le_mul_of_nonneg_left prob_le (Nat.cast_nonneg _))
  refine tail_le_one (by positivity) ?_
  have hpos : 0 < Nat.card F := Nat.card_pos
  rw [div_le_one (by positivity)]
  exact_mod_cast (show Nat.card F - 1 ≤ 4 * Nat.card F by omega)

end

/-- C103. With the default parameters of the binaries a garbled AES circuit has a row with more errors than can be corrected with a probability above
`2^-23`.  The script's error for these parameters is less than `2^-40`. -/
theorem C103_default {ctx : Ctx (GF 18)} {m mb : Mat (GF 18)} {seahash : List Nat → Nat} {lead : ProtocolID → Nat} {id id' : ProtocolID}
    (R : RunParams ctx ⟨127, 555⟩ 36919 m mb seahash lead id id') (hm : m.AllOutputs ctx.t) (hmb : mb.UniformBits ctx.t) :
    correctnessError 555 127 2 ≤ 1 / (2 ^ 40 : Nat) ∧ (∀ e, Corrects (GF 18) (127 + 1) 555 e ↔ e ≤ 213) ∧
    ∃ circ p desc, fromBristol aesText.toList = some circ ∧ circ.pack ctx.l = some p ∧ p.describe ctx.n ctx.t ctx.l ⟨127, 555⟩ = some desc ∧
      1 / (2 ^ 23 : Nat) < tapeFraction ctx m mb desc (SomeRowFails ctx m mb desc p 555 213) := by
  have ho : CodeField.order (GF 18) = 2 ^ 18 := rfl
  refine ⟨default_error, fun e => C99_radius (by norm_num) (by rw [ho]; norm_num) e, ?_⟩
  obtain ⟨p, desc, g, h1, h2, h3, h4, P, -⟩ := net_params aes_small aes_checked aes_text aes_counts (by simp [aesNet]) R (fun x => x) (fun _ _ => 0)
  refine ⟨aesNet.circuit, p, desc, h1, h2, h3, ?_⟩
  rw [C103_rows P hm hmb h2 h3 213, C03_card, aes_counts.1, aes_counts.2.1, aes_counts.2.2]
  have hpos : (0 : ℚ) ≤ ((2 ^ 18 - 1 : Nat) : ℚ) / (4 * 2 ^ 18 : Nat) := by positivity
  have hle : ((2 ^ 18 - 1 : Nat) : ℚ) / (4 * 2 ^ 18 : Nat) ≤ 1 := by norm_num
  have h40 := default_tail
  have hone := tail_le_one (e := 213) (N := 555) hpos hle
  revert h40 hone
  generalize binomTail 213 555 _ = x
  intro h40 hone
  have h0 : (0 : ℚ) ≤ x := le_trans (by positivity) h40.le
  refine lt_of_lt_of_le ?_ (lower_bound h0 hone _)
  rw [lt_sub_iff_add_lt, add_comm, ← lt_sub_iff_add_lt, div_lt_iff₀ (by positivity)]
  norm_num at h40 ⊢
  linarith

/-- 16 parties, 4 of them corrupted: with rows of 652 elements the probability is at most `2^-40` for AES. -/
example : ∃ (ctx : Ctx (GF 18)) (m mb : Mat (GF 18)) (circ : Circuit) (p : PackedCircuit) (desc : PreProcCount),
    ctx.n = 16 ∧ ctx.t = 4 ∧ ctx.l = 3 ∧ fromBristol aesText.toList = some circ ∧
    circ.pack ctx.l = some p ∧ p.describe ctx.n ctx.t ctx.l ⟨127, 652⟩ = some desc ∧
      tapeFraction ctx m mb desc (SomeRowFails ctx m mb desc p 652 262) ≤ 1 / (2 ^ 40 : Nat) := by
  obtain ⟨ctx, m, mb, hn, ht, hl, -, -, hm, hmb, R⟩ := private_params 36919 (by norm_num) ⟨127, 652⟩ (by norm_num) (by norm_num)
  obtain ⟨p, desc, g, h1, h2, h3, h4, P, -⟩ := net_params aes_small aes_checked aes_text aes_counts (by simp [aesNet]) R (fun x => x) (fun _ _ => 0)
  have hb := C103_bound P hm hmb h2 h3
  simp only [Nat.reduceSub, Nat.reduceDiv, Nat.reduceAdd] at hb
  refine ⟨ctx, m, mb, aesNet.circuit, p, desc, hn, ht, hl, h1, h2, h3, le_trans hb ?_⟩
  rw [aes_counts.1, aes_counts.2.1, aes_counts.2.2]
  have h : correctnessError 652 128 2 ≤ 1 / (2 ^ 40 * 142478 : Nat) := by
    rw [error_tail, show (1 : ℚ) / 2 ^ 2 = ((1 : Nat) : ℚ) / (4 : Nat) by norm_num]
    exact tail_le (by decide) (by decide) (by decide) (by decide) (by decide +kernel)
  refine le_trans (mul_le_mul_of_nonneg_left h (by positivity)) ?_
  norm_num

end Verif.Props
