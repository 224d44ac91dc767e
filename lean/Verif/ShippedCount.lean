import Verif.Sub64Lemmas
import Verif.AesMain
import Verif.ShaMain
import Verif.EstimatesLemmas

/-!
# The numbers of gates of the circuits shipped in `data/circ`
-/

namespace Verif

open Props

/-- One for an AND gate, `2 ^ 20` for an INV gate. -/
noncomputable def Net.weight (N : Net) (q : Nat) : Nat :=
  bsel (Nat.blt q N.numGates) (bsel (Nat.beq (codeKind (N.slot q)) 0) 0
    (bsel (Nat.beq (codeKind (N.slot q)) 1) 1 1048576)) 0

/-- The sum of the weights of `2 ^ s` gates, from gate `j * 2 ^ s` on. -/
noncomputable def Net.weights (N : Net) (s j : Nat) : Nat :=
  Nat.rec (fun j => N.weight j) (fun _ r j => Nat.add (r (Nat.mul 2 j)) (r (Nat.add (Nat.mul 2 j) 1))) s j

theorem Net.weights_eq (N : Net) (s j : Nat) : N.weights s j = ((List.range' (j * 2 ^ s) (2 ^ s)).map N.weight).sum := by
  induction s generalizing j with
  | zero => simp [Net.weights]
  | succ s ih =>
    change N.weights s (2 * j) + N.weights s (2 * j + 1) = _
    rw [ih, ih, pow_succ, Nat.mul_two, ← List.range'_append_1, List.map_append, List.sum_append,
      show 2 * j * 2 ^ s = j * (2 ^ s + 2 ^ s) by ring, show (2 * j + 1) * 2 ^ s = j * (2 ^ s + 2 ^ s) + 2 ^ s by ring]

theorem numKind_cons (g : Gate) (gs : List Gate) (κ : GateKind) :
    numKind (g :: gs) κ = (if g.kind = κ then 1 else 0) + numKind gs κ := by
  unfold numKind
  rw [List.filter_cons]
  cases g <;> cases κ <;> simp [Gate.kind, Nat.add_comm]

theorem weight_kind (N : Net) (q : Nat) (h : q < N.numGates) :
    N.weight q = (if (decodeGate (N.slot q)).kind = .and then 1 else 0)
      + 1048576 * (if (decodeGate (N.slot q)).kind = .inv then 1 else 0) ∧
    (if (decodeGate (N.slot q)).kind = .and then 1 else 0) + (if (decodeGate (N.slot q)).kind = .xor then 1 else 0)
      + (if (decodeGate (N.slot q)).kind = .inv then 1 else 0) = 1 := by
  unfold Net.weight decodeGate mkCode
  rw [blt_of_lt h, bsel_true]
  by_cases c0 : codeKind (N.slot q) = 0
  · rw [if_pos c0, c0]
    simp [Gate.kind]
  · rw [beq_of_ne c0, bsel_false, if_neg c0]
    by_cases c1 : codeKind (N.slot q) = 1
    · rw [if_pos c1, c1]
      simp [Gate.kind]
    · rw [beq_of_ne c1, bsel_false, if_neg c1]
      simp [Gate.kind]

theorem weights_sum (N : Net) (l : List Nat) (h : ∀ q ∈ l, q < N.numGates) :
    (l.map N.weight).sum = numKind (l.map fun q => decodeGate (N.slot q)) .and
      + 1048576 * numKind (l.map fun q => decodeGate (N.slot q)) .inv ∧
    l.length = numKind (l.map fun q => decodeGate (N.slot q)) .and
      + numKind (l.map fun q => decodeGate (N.slot q)) .xor + numKind (l.map fun q => decodeGate (N.slot q)) .inv := by
  induction l with
  | nil => exact ⟨rfl, rfl⟩
  | cons q l ih =>
    obtain ⟨h1, h2⟩ := ih fun x hx => h x (List.mem_cons_of_mem _ hx)
    obtain ⟨h3, h4⟩ := weight_kind N q (h q List.mem_cons_self)
    simp only [List.map_cons, List.sum_cons, List.length_cons, numKind_cons, h1, h3]
    omega

theorem weight_out (N : Net) (q : Nat) (h : N.numGates ≤ q) : N.weight q = 0 := by
  unfold Net.weight
  rw [blt_of_not (by omega)]
  rfl

/-- The numbers of AND, XOR and INV gates. -/
theorem Net.counts (N : Net) (s a v : Nat) (hs : N.numGates ≤ 2 ^ s) (h : N.weights s 0 = a + 1048576 * v)
    (ha : a < 1048576) (hg : N.numGates < 1048576) :
    numKind N.circuit.gates .and = a ∧ numKind N.circuit.gates .inv = v ∧
      numKind N.circuit.gates .xor = N.numGates - a - v := by
  obtain ⟨h1, h2⟩ := weights_sum N (List.range N.numGates) fun q hq => List.mem_range.1 hq
  have h3 : N.weights s 0 = ((List.range N.numGates).map N.weight).sum := by
    rw [Net.weights_eq, Nat.zero_mul]
    conv_lhs => rw [show 2 ^ s = N.numGates + (2 ^ s - N.numGates) by omega]
    rw [← List.range'_append_1, List.map_append, List.sum_append, List.range_eq_range', Nat.zero_add]
    have : ((List.range' N.numGates (2 ^ s - N.numGates)).map N.weight).sum = 0 := by
      rw [List.sum_eq_zero_iff]
      intro x hx
      obtain ⟨q, hq, rfl⟩ := List.mem_map.1 hx
      exact weight_out N q (List.mem_range'_1.1 hq).1
    omega
  rw [List.length_range] at h2
  change numKind N.gates .and = a ∧ numKind N.gates .inv = v ∧ numKind N.gates .xor = _
  unfold Net.gates
  omega

theorem sub64_counts : numKind sub64Net.circuit.gates .and = 63 ∧ numKind sub64Net.circuit.gates .inv = 63 ∧
    numKind sub64Net.circuit.gates .xor = 313 :=
  Net.counts sub64Net 9 63 63 (by simp [sub64Net]) (by decide +kernel) (by norm_num) (by simp [sub64Net])

theorem aes_counts : numKind aesNet.circuit.gates .and = 6400 ∧ numKind aesNet.circuit.gates .inv = 2087 ∧
    numKind aesNet.circuit.gates .xor = 28176 :=
  Net.counts aesNet 16 6400 2087 (by simp [aesNet]) (by decide +kernel) (by norm_num) (by simp [aesNet])

theorem sha_counts : numKind shaNet.circuit.gates .and = 22573 ∧ numKind shaNet.circuit.gates .inv = 1856 ∧
    numKind shaNet.circuit.gates .xor = 110644 :=
  Net.counts shaNet 18 22573 1856 (by simp [shaNet]) (by decide +kernel) (by norm_num) (by simp [shaNet])

end Verif
