import Verif.LabelChance
import Verif.EvalSpec
import Verif.CircErrLemmas
import Verif.Props.LpnErrors
import Verif.Props.ShippedPrivacy

/-!
# C57: how likely it is that the next gate uses the right labels
-/

namespace Verif.Props

open Verif

section
variable {F : Type} [CodeField F] [DecidableEq F] [Finite F] {c : Codec F} {ctx : Ctx F} {m mb : Mat F} {d : PreProcCount}

/-- C57 fails with overwhelming probability.  The probability, over the randomness of `preproc`, that a label of a wire is the one which the gates
which read the wire use is exactly `q^-v`, where `v` is the number of the entries of the label which have different numbers in the array of
keys as it is written and as it is read. -/
theorem C57_probability (P : PreParams c ctx m mb d) (hm : m.AllOutputs ctx.t) (hmb : mb.UniformBits ctx.t) {p : PackedCircuit} {lpn : LpnParams}
    (hd : p.describe ctx.n ctx.t ctx.l lpn = some d) {blk bit s : Nat} (hblk : blk < p.blocks.length) (hbit : bit < 2) (hs : s < ctx.l) :
    tapeFraction ctx m mb d (SameLabel ctx m mb d lpn.keyLen p.blocks.length blk bit s)
      = (1 / Nat.card F : ℚ) ^ ((Finset.range lpn.keyLen).filter fun j =>
          (bit * lpn.keyLen + j) * p.blocks.length + blk ≠ blk * (2 * lpn.keyLen) + (bit * lpn.keyLen + j)).card := by
  classical
  have hF : Fintype F := Fintype.ofFinite F
  obtain ⟨_, _, -, -, -, hk, -⟩ := describe_eq hd
  have hnum : d.numKeys = 2 * lpn.keyLen * p.blocks.length := by
    unfold PreProcCount.numKeys
    rw [hk]
  set k := lpn.keyLen with hkdef
  set B := p.blocks.length with hB
  have lt1 : ∀ j < k, bit * k + j < 2 * k := fun j hj => by
    have := Nat.mul_le_mul_right k (show bit ≤ 1 by omega)
    omega
  have b1 : ∀ j < k, (bit * k + j) * B + blk < d.numKeys := fun j hj => by
    have := Nat.mul_le_mul_right B (show bit * k + j + 1 ≤ 2 * k from lt1 j hj)
    rw [Nat.add_mul _ 1, Nat.one_mul] at this
    omega
  have b2 : ∀ j < k, blk * (2 * k) + (bit * k + j) < d.numKeys := fun j hj => by
    have := Nat.mul_le_mul_right (2 * k) (show blk + 1 ≤ B from hblk)
    rw [Nat.add_mul, Nat.one_mul, Nat.mul_comm B] at this
    have := lt1 j hj
    omega
  set S := (Finset.range k).filter fun j => (bit * k + j) * B + blk ≠ blk * (2 * k) + (bit * k + j) with hSdef
  have hSk : ∀ j ∈ S, j < k := fun j hj => Finset.mem_range.1 (Finset.mem_filter.1 hj).1
  -- places in the array of keys
  by_cases hk0 : k = 0
  · have h0 : S = ∅ := by
      rw [hSdef, hk0]
      rfl
    have h1 := keys_fraction P hm hmb (fun f => ∀ j < k, f (blk * (2 * k) + (bit * k + j)) s = f ((bit * k + j) * B + blk) s) (fun _ => True)
      (fun f => by simp [hk0])
    have : tapeFraction ctx m mb d (SameLabel ctx m mb d k B blk bit s) = _ := h1
    rw [this, h0, Nat.card_congr (Equiv.subtypeUnivEquiv fun g => trivial), Finset.card_empty, pow_zero]
    refine div_self ?_
    exact_mod_cast (Nat.card_pos (α := Fin d.numKeys × Fin ctx.l → F)).ne'
  have hpos : 0 < d.numKeys := lt_of_le_of_lt (Nat.zero_le _) (b1 0 (by omega))
  let pl : Nat → Fin d.numKeys × Fin ctx.l := fun i => (if h : i < d.numKeys then ⟨i, h⟩ else ⟨0, hpos⟩, ⟨s, hs⟩)
  have pl_num : ∀ i < d.numKeys, (pl i).1.1 = i := fun i hi => by simp [pl, hi]
  let x : Nat → Fin d.numKeys × Fin ctx.l := fun j => pl (blk * (2 * k) + (bit * k + j))
  let y : Nat → Fin d.numKeys × Fin ctx.l := fun j => pl ((bit * k + j) * B + blk)
  have h1 := keys_fraction P hm hmb (fun f => ∀ j < k, f (blk * (2 * k) + (bit * k + j)) s = f ((bit * k + j) * B + blk) s)
    (fun g => ∀ j ∈ S, g (x j) = g (y j)) (fun f => by
      simp only [x, y]
      constructor
      · intro h j hj
        have := h j (hSk j hj)
        rw [pl_num _ (b1 j (hSk j hj)), pl_num _ (b2 j (hSk j hj))]
        exact this
      · intro h j hj
        by_cases he : (bit * k + j) * B + blk = blk * (2 * k) + (bit * k + j)
        · rw [he]
        · have := h j (Finset.mem_filter.2 ⟨Finset.mem_range.2 hj, he⟩)
          rw [pl_num _ (b1 j hj), pl_num _ (b2 j hj)] at this
          exact this)
  have this : tapeFraction ctx m mb d (SameLabel ctx m mb d k B blk bit s) = _ := h1
  have hBpos : 0 < B := by omega
  have hcard := card_equations (F := F) x y S (increasing_solvable (fun q => q.1.1) x y S
    (fun i hi j hj hij => by
      simp only [x]
      rw [pl_num _ (b2 i (hSk i hi)), pl_num _ (b2 j (hSk j hj))]
      omega)
    (fun i hi j hj hij => by
      simp only [y]
      rw [pl_num _ (b1 i (hSk i hi)), pl_num _ (b1 j (hSk j hj))]
      have := Nat.mul_lt_mul_of_pos_right (show bit * k + i < bit * k + j by omega) hBpos
      omega)
    (fun i hi => by
      simp only [x, y]
      rw [pl_num _ (b1 i (hSk i hi)), pl_num _ (b2 i (hSk i hi))]
      exact ((Finset.mem_filter.1 hi).2).symm))
  rw [this, ← hcard]
  have hq : (Nat.card F : ℚ) ≠ 0 := by exact_mod_cast (Nat.card_pos (α := F)).ne'
  have hN : (Nat.card {g : Fin d.numKeys × Fin ctx.l → F // ∀ j ∈ S, g (x j) = g (y j)} : ℚ) ≠ 0 := by
    have : Nonempty {g : Fin d.numKeys × Fin ctx.l → F // ∀ j ∈ S, g (x j) = g (y j)} := ⟨⟨fun _ => 0, fun _ _ => rfl⟩⟩
    exact_mod_cast (Nat.card_pos (α := {g : Fin d.numKeys × Fin ctx.l → F // ∀ j ∈ S, g (x j) = g (y j)})).ne'
  push_cast
  rw [div_pow, one_pow]
  field_simp

omit [CodeField F] [DecidableEq F] [Finite F] in
theorem blocks_two {circ : Circuit} {l : Nat} {p : PackedCircuit} (hp : circ.pack l = some p) (hin : circ.inputs.flatten ≠ [])
    (hg : circ.gates ≠ []) : 2 ≤ p.blocks.length := by
  obtain ⟨hperm, -⟩ := C23_partition circ l p hp
  have h1 : p.gates ≠ [] := by
    rintro h
    rw [h] at hperm
    exact hg (List.nil_perm.1 hperm)
  have h2 : p.inputs ≠ [] := by
    unfold Circuit.pack at hp
    simp only [Option.bind_eq_some_iff, Option.map_eq_some_iff] at hp
    obtain ⟨_, -, _, -, _, -, i, hi, _, -, rfl⟩ := hp
    intro h0
    have h3 : i = [] := h0
    subst h3
    unfold chunks? at hi
    split at hi
    · cases hi
    · rename_i hk
      have := congrArg List.flatten (Option.some.inj hi)
      rw [chunks_flatten _ _ hk] at this
      exact hin this
  unfold PackedCircuit.blocks
  rw [List.length_append, List.length_map]
  have := List.length_pos_of_ne_nil h1
  have := List.length_pos_of_ne_nil h2
  omega

/-- C57. At most one entry of a label has the same number in both, so that the probability is at most `q^-(k-1)`, for every wire of every circuit with
inputs and gates. -/
theorem C57_probability_le (P : PreParams c ctx m mb d) (hm : m.AllOutputs ctx.t) (hmb : mb.UniformBits ctx.t) {circ : Circuit} {p : PackedCircuit}
    {lpn : LpnParams} (hp : circ.pack ctx.l = some p) (hin : circ.inputs.flatten ≠ []) (hg : circ.gates ≠ [])
    (hd : p.describe ctx.n ctx.t ctx.l lpn = some d) {blk bit s : Nat} (hblk : blk < p.blocks.length) (hbit : bit < 2) (hs : s < ctx.l) :
    tapeFraction ctx m mb d (SameLabel ctx m mb d lpn.keyLen p.blocks.length blk bit s) ≤ (1 / Nat.card F : ℚ) ^ (lpn.keyLen - 1) := by
  rw [C57_probability P hm hmb hd hblk hbit hs]
  have hB := blocks_two hp hin hg
  have hq : (1 : ℚ) ≤ Nat.card F := by exact_mod_cast (Nat.card_pos (α := F))
  refine pow_le_pow_of_le_one (by positivity) (by rw [div_le_one (by linarith)]; exact hq) ?_
  set k := lpn.keyLen
  set B := p.blocks.length
  have h1 := Finset.card_filter_add_card_filter_not (s := Finset.range k) (fun j => (bit * k + j) * B + blk ≠ blk * (2 * k) + (bit * k + j))
  have h2 : ((Finset.range k).filter fun j => ¬ (bit * k + j) * B + blk ≠ blk * (2 * k) + (bit * k + j)).card ≤ 1 := by
    refine Finset.card_le_one.2 fun i hi j hj => ?_
    have hi := not_not.1 (Finset.mem_filter.1 hi).2
    have hj := not_not.1 (Finset.mem_filter.1 hj).2
    obtain ⟨C, hC⟩ : ∃ C, B = C + 2 := ⟨B - 2, by omega⟩
    rw [hC] at hi hj
    by_contra hne
    rcases Nat.lt_or_gt_of_ne hne with h | h
    · have := Nat.mul_le_mul_right (C + 1) (show bit * k + i + 1 ≤ bit * k + j by omega)
      nlinarith
    · have := Nat.mul_le_mul_right (C + 1) (show bit * k + j + 1 ≤ bit * k + i by omega)
      nlinarith
  rw [Finset.card_range] at h1
  omega

end

/-- 16 parties, 4 of them corrupted, and the default LPN parameters: for any wire of the AES circuit the probability is at most `2^-2268`. -/
example : ∃ (ctx : Ctx (GF 18)) (m mb : Mat (GF 18)) (circ : Circuit) (p : PackedCircuit) (desc : PreProcCount),
    ctx.n = 16 ∧ ctx.t = 4 ∧ ctx.l = 3 ∧ fromBristol aesText.toList = some circ ∧
    circ.pack ctx.l = some p ∧ p.describe ctx.n ctx.t ctx.l ⟨127, 555⟩ = some desc ∧ 0 < p.blocks.length ∧
    ∀ blk < p.blocks.length, ∀ bit < 2, ∀ s < 3,
      tapeFraction ctx m mb desc (SameLabel ctx m mb desc 127 p.blocks.length blk bit s) ≤ (1 / 2 ^ 18) ^ 126 := by
  obtain ⟨ctx, m, mb, hn, ht, hl, -, -, hm, hmb, R⟩ := private_params 36919 (by norm_num) ⟨127, 555⟩ (by norm_num) (by norm_num)
  obtain ⟨p, desc, g, h1, h2, h3, h4, P, -⟩ := net_params aes_small aes_checked aes_text aes_counts (by simp [aesNet]) R (fun x => x) (fun _ _ => 0)
  have hgates : aesNet.circuit.gates ≠ [] := fun h => by
    have := aes_counts.1
    rw [h] at this
    simp [numKind] at this
  have hin : aesNet.circuit.inputs.flatten ≠ [] := by
    simp [Net.circuit, aesNet]
  have h2' := blocks_two h2 hin hgates
  refine ⟨ctx, m, mb, aesNet.circuit, p, desc, hn, ht, hl, h1, h2, h3, by omega, fun blk hblk bit hbit s hs => ?_⟩
  have := C57_probability_le P hm hmb h2 hin hgates h3 hblk hbit (by omega : s < ctx.l)
  rw [C03_card] at this
  exact_mod_cast this

end Verif.Props
