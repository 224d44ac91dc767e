import Verif.LpnErrLemmas
import Verif.Props.ShippedPrivacy

/-!
# C99: the correctness error of `scripts/gen_lpn_params.py`
-/

namespace Verif.Props

section
variable {F : Type} [CodeField F] [DecidableEq F]

/-- C99. How many errors are corrected: a row has `lpn_mssg_len` entries and encodes a label and a mask, `lpn_key_len + 1` elements.  Up to
`(lpn_mssg_len - lpn_key_len - 1) / 2` errors can be corrected whatever they are, and no more. -/
theorem C99_radius {K Q : Nat} (h : K + 1 ≤ Q) (hQ : Q < CodeField.order F) (e : Nat) :
    Corrects F (K + 1) Q e ↔ e ≤ (Q - K - 1) / 2 := by
  rw [corrects_iff (by omega) h hQ]
  omega

section
variable [Finite F] {c : Codec F} {ctx : Ctx F} {m mb : Mat F} {d : PreProcCount}

/-- C99. The number of nonzero errors among any errors of `preproc`, in a slot, is binomially distributed: each is nonzero with probability
`(q - 1) / 4q`, independently. -/
theorem C99_binomial (P : PreParams c ctx m mb d) (hm : m.AllOutputs ctx.t) (hmb : mb.UniformBits ctx.t) (I : Finset Nat)
    (hI : ∀ a ∈ I, a < d.errors) (x : Nat) (hx : x < ctx.l) (e : Nat) :
    tapeFraction ctx m mb d (ManyErrors ctx m mb d I x e) = binomTail e I.card (((Nat.card F - 1 : Nat) : ℚ) / (4 * Nat.card F : Nat)) :=
  many_errors_fraction P hm hmb I hI x hx e

theorem prob_le : binomTail e N (((Nat.card F - 1 : Nat) : ℚ) / (4 * Nat.card F : Nat)) ≤ binomTail e N (1 / 2 ^ 2) := by
  have hpos : 0 < Nat.card F := Nat.card_pos
  have h := tail_mono (b := Nat.card F - 1) (c := Nat.card F) (T := 4 * Nat.card F) (e := e) (N := N) (by omega) (by omega) (by omega)
  have h0 : (Nat.card F : ℚ) ≠ 0 := by exact_mod_cast hpos.ne'
  have h4 : (Nat.card F : ℚ) / (4 * Nat.card F : Nat) = 1 / 2 ^ 2 := by
    push_cast
    field_simp
    norm_num
  rwa [h4] at h

/-- C99, with the number of elements that a row encodes: the probability that a row of a garbled table has more errors than can be corrected
is at most `correctness_error(lpn_mssg_len, lpn_key_len + 1, 2)`; and the script's `correctness_error(lpn_mssg_len, lpn_key_len, 2)` is a bound
too if `lpn_mssg_len - lpn_key_len` is odd.  Missing for the full claim: even differences, for which it is false
(`C99_default_false`). -/
theorem C99_correctness_partial (P : PreParams c ctx m mb d) (hm : m.AllOutputs ctx.t) (hmb : mb.UniformBits ctx.t) {p : PackedCircuit} {lpn : LpnParams}
    (hd : p.describe ctx.n ctx.t ctx.l lpn = some d) {gid : Nat} {gate : PackedGate} (hg : p.gates[gid]? = some gate) {r : Nat}
    (hr : r < gate.kind.numRows) {x : Nat} (hx : x < ctx.l) :
    tapeFraction ctx m mb d (ManyErrors ctx m mb d (p.rowErrors lpn.mssgLen gid r) x ((lpn.mssgLen - lpn.keyLen - 1) / 2))
      ≤ correctnessError lpn.mssgLen (lpn.keyLen + 1) 2 ∧
    ((lpn.mssgLen - lpn.keyLen) % 2 = 1 →
      tapeFraction ctx m mb d (ManyErrors ctx m mb d (p.rowErrors lpn.mssgLen gid r) x ((lpn.mssgLen - lpn.keyLen - 1) / 2))
        ≤ correctnessError lpn.mssgLen lpn.keyLen 2) := by
  rw [C99_binomial P hm hmb _ (rowErrors_lt hd hg hr) x hx, rowErrors_card, error_tail, error_tail,
    show lpn.mssgLen - (lpn.keyLen + 1) = lpn.mssgLen - lpn.keyLen - 1 by omega]
  refine ⟨prob_le, fun h => ?_⟩
  rw [show (lpn.mssgLen - lpn.keyLen) / 2 = (lpn.mssgLen - lpn.keyLen - 1) / 2 by omega]
  exact prob_le

end

end

instance finite_GF (W : Nat) : Finite (GF W) := Nat.finite_of_card_ne_zero (by rw [C03_card]; positivity)

theorem aes_gates {l : Nat} (hl : 1 ≤ l) {p : PackedCircuit} (h : aesNet.circuit.pack l = some p) : p.gates ≠ [] := by
  have hcnt := (pack_counts h).2.2.1
  rw [aes_counts.1] at hcnt
  rintro h0
  rw [h0] at hcnt
  have hpos : 0 < cdiv 6400 l := (Nat.div_pos_iff.2 (by omega))
  simp only [List.map_nil, List.count_nil] at hcnt
  omega

/-- C99 is false for the default parameters of the binaries, labels of 127 and rows of 555 elements: when AES is garbled with them the
probability that a row has more errors than can be corrected is above `2^-40`, for each row.  The script's error for these parameters is less
than `2^-40`. -/
theorem C99_default_false {ctx : Ctx (GF 18)} {m mb : Mat (GF 18)} {seahash : List Nat → Nat} {lead : ProtocolID → Nat} {id id' : ProtocolID}
    (R : RunParams ctx ⟨127, 555⟩ 36919 m mb seahash lead id id') (hm : m.AllOutputs ctx.t) (hmb : mb.UniformBits ctx.t) :
    correctnessError 555 127 2 ≤ 1 / (2 ^ 40 : Nat) ∧ (∀ e, Corrects (GF 18) (127 + 1) 555 e ↔ e ≤ 213) ∧
    ∃ circ p desc, fromBristol aesText.toList = some circ ∧ circ.pack ctx.l = some p ∧
      p.describe ctx.n ctx.t ctx.l ⟨127, 555⟩ = some desc ∧ p.gates ≠ [] ∧
      ∀ gid gate, p.gates[gid]? = some gate → ∀ r < gate.kind.numRows, ∀ x < ctx.l,
        1 / (2 ^ 40 : Nat) < tapeFraction ctx m mb desc (ManyErrors ctx m mb desc (p.rowErrors 555 gid r) x 213) := by
  have ho : CodeField.order (GF 18) = 2 ^ 18 := rfl
  refine ⟨default_error, fun e => C99_radius (by norm_num) (by rw [ho]; norm_num) e, ?_⟩
  obtain ⟨p, desc, g, h1, h2, h3, h4, P, -⟩ := net_params aes_small aes_checked aes_text aes_counts (by simp [aesNet]) R (fun x => x) (fun _ _ => 0)
  refine ⟨aesNet.circuit, p, desc, h1, h2, h3, aes_gates R.good.posL h2, fun gid gate hg r hr x hx => ?_⟩
  · rw [C99_binomial P hm hmb _ (rowErrors_lt h3 hg hr) x hx, rowErrors_card, C03_card]
    exact default_tail

/-- 16 parties, 4 of them corrupted, garble AES with the default parameters. -/
example : ∃ ctx m mb, ctx.n = 16 ∧ ctx.t = 4 ∧ ctx.l = 3 ∧ m.AllOutputs ctx.t ∧ mb.UniformBits ctx.t ∧
    RunParams ctx ⟨127, 555⟩ 36919 m mb List.sum (fun id => id.sum % 16) [1] [2] := by
  obtain ⟨ctx, m, mb, h1, h2, h3, -, -, hm, hmb, R⟩ := private_params 36919 (by norm_num) ⟨127, 555⟩ (by norm_num) (by norm_num)
  exact ⟨ctx, m, mb, h1, h2, h3, hm, hmb, R⟩

/-- With rows of one element more the bound holds. -/
example {ctx : Ctx (GF 18)} {m mb : Mat (GF 18)} {seahash : List Nat → Nat} {lead : ProtocolID → Nat} {id id' : ProtocolID}
    (R : RunParams ctx ⟨127, 556⟩ 36919 m mb seahash lead id id') (hm : m.AllOutputs ctx.t) (hmb : mb.UniformBits ctx.t) :
    ∃ circ p desc, fromBristol aesText.toList = some circ ∧ circ.pack ctx.l = some p ∧
      p.describe ctx.n ctx.t ctx.l ⟨127, 556⟩ = some desc ∧
      ∀ gid gate, p.gates[gid]? = some gate → ∀ r < gate.kind.numRows, ∀ x < ctx.l,
        tapeFraction ctx m mb desc (ManyErrors ctx m mb desc (p.rowErrors 556 gid r) x 214) ≤ 1 / (2 ^ 40 : Nat) := by
  obtain ⟨p, desc, g, h1, h2, h3, h4, P, -⟩ := net_params aes_small aes_checked aes_text aes_counts (by simp [aesNet]) R (fun x => x) (fun _ _ => 0)
  refine ⟨aesNet.circuit, p, desc, h1, h2, h3, fun gid gate hg r hr x hx => ?_⟩
  refine le_trans (C99_correctness_partial P hm hmb h3 hg hr hx).1 ?_
  show correctnessError 556 128 2 ≤ _
  rw [error_tail, show (1 : ℚ) / 2 ^ 2 = ((1 : Nat) : ℚ) / (4 : Nat) by norm_num]
  exact tail_le (by decide) (by decide) (by decide) (by decide) (by decide +kernel)

end Verif.Props
