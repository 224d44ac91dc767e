import Verif.Data.Sub64SortCheck
import Verif.Data.AesSortCheck
import Verif.Data.ShaSortCheck
import Verif.NetSortLemmas
import Verif.ShippedCount

/-!
# The order in which the gates of the circuits shipped in `data/circ` are packed
-/

namespace Verif

open Props

/-- The numbers of gates of the classes. -/
theorem Net.idx_length (N : Net) : (N.idx 0).length = numKind N.circuit.gates .xor ∧ (N.idx 1).length = numKind N.circuit.gates .and ∧
    (N.idx 2).length = numKind N.circuit.gates .inv := by
  obtain ⟨h1, h2, h3⟩ := numKind_eq N.gates
  obtain ⟨e0, e1, e2⟩ := N.gates_class
  rw [e0, List.length_map] at h2
  rw [e1, List.length_map] at h1
  rw [e2, List.length_map] at h3
  exact ⟨h2.symm, h1.symm, h3.symm⟩

theorem sub64_sort : sub64Sort.Ok sub64Net := by
  obtain ⟨h0, h1, h2⟩ := sub64Net.idx_length
  obtain ⟨c1, c2, c0⟩ := sub64_counts
  have hg : sub64Net.numGates < 2 ^ 19 := by simp [sub64Net]
  exact ⟨⟨h0.trans c0 |>.symm, sub64_xor_reads, sub64_xor_order, Or.inr rfl, hg⟩, ⟨h1.trans c1 |>.symm, sub64_and_reads, sub64_and_order, Or.inr rfl, hg⟩,
    ⟨h2.trans c2 |>.symm, sub64_inv_reads, sub64_inv_order, Or.inl rfl, hg⟩, ⟨rfl, rfl, rfl⟩, ⟨rfl, rfl, rfl⟩⟩

theorem aes_sort : aesSort.Ok aesNet := by
  obtain ⟨h0, h1, h2⟩ := aesNet.idx_length
  obtain ⟨c1, c2, c0⟩ := aes_counts
  have hg : aesNet.numGates < 2 ^ 19 := by simp [aesNet]
  exact ⟨⟨h0.trans c0 |>.symm, aes_xor_reads, aes_xor_order, Or.inr rfl, hg⟩, ⟨h1.trans c1 |>.symm, aes_and_reads, aes_and_order, Or.inr rfl, hg⟩,
    ⟨h2.trans c2 |>.symm, aes_inv_reads, aes_inv_order, Or.inl rfl, hg⟩, ⟨rfl, rfl, rfl⟩, ⟨rfl, rfl, rfl⟩⟩

theorem sha_sort : shaSort.Ok shaNet := by
  obtain ⟨h0, h1, h2⟩ := shaNet.idx_length
  obtain ⟨c1, c2, c0⟩ := sha_counts
  have hg : shaNet.numGates < 2 ^ 19 := by simp [shaNet]
  exact ⟨⟨h0.trans c0 |>.symm, sha_xor_reads, sha_xor_order, Or.inr rfl, hg⟩, ⟨h1.trans c1 |>.symm, sha_and_reads, sha_and_order, Or.inr rfl, hg⟩,
    ⟨h2.trans c2 |>.symm, sha_inv_reads, sha_inv_order, Or.inl rfl, hg⟩, ⟨rfl, rfl, rfl⟩, ⟨rfl, rfl, rfl⟩⟩

/-! ## Packing parameters for which no gate input which is not full has a wire twice -/

/-- The packing parameters for `sub64.txt`. -/
def sub64Distinct : List Nat := [1, 2, 3, 4, 6, 8, 12, 13, 24]

/-- The packing parameters for `aes_128.txt`. -/
def aesDistinct : List Nat := [1, 2, 3, 4, 5, 8, 16, 25]

/-- The packing parameters for `sha256.txt`. -/
def shaDistinct : List Nat := [1, 2, 3, 4]

theorem sub64_distinctOk : ∀ l ∈ sub64Distinct, sub64Sort.distinctOk sub64Net l = true := by decide +kernel

theorem aes_distinctOk : ∀ l ∈ aesDistinct, aesSort.distinctOk aesNet l = true := by decide +kernel

theorem sha_distinctOk : ∀ l ∈ shaDistinct, shaSort.distinctOk shaNet l = true := by decide +kernel

/-! ## Packing parameters for which one has -/

theorem sub64_leakOk : ∀ l ∈ [5, 10], sub64Sort.leakCode sub64Net l 2 (sub64Leak l) = true := by decide +kernel

/-- All packing parameters below 193 which are not in `aesDistinct`, except 146 and 173. -/
noncomputable def aesLeaky (l : Nat) : Bool :=
  bsel (Nat.ble l 5) false (bsel (Nat.beq l 8) false (bsel (Nat.beq l 16) false (bsel (Nat.beq l 25) false
    (bsel (Nat.beq l 146) false (bsel (Nat.beq l 173) false true)))))

theorem aes_leakOk : allFrom (fun l => bsel (aesLeaky l) (aesSort.leakCode aesNet l 2 (aesLeak l)) true) 1 192 = true := by
  decide +kernel

theorem aes_leakOk173 : aesSort.leakOk aesNet 173 1 1 0 (Nat.mod (Nat.div (aesLeak 173) 4) 1048576) (Nat.div (aesLeak 173) 4194304) = true := by
  decide +kernel

/-- 58 different wires. -/
theorem aes_card173 : (aesSort.tailWires aesNet 173 1 0).toFinset.card = 58 := by
  rw [List.card_toFinset]
  decide +kernel

theorem sha_leakOk1 : allFrom (fun l => shaSort.leakCode shaNet l 2 (shaLeak l)) 5 195 = true := by decide +kernel

theorem sha_leakOk2 : allFrom (fun l => shaSort.leakCode shaNet l 2 (shaLeak l)) 200 171 = true := by decide +kernel

end Verif
