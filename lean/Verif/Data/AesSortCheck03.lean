import Verif.Aes
import Verif.Data.AesSortData
import Verif.CutLemmas

/-!
# Checks of the order of the gates of `data/circ/aes_128.txt`, part 4 of 4

Generated by `tools/gen_circuits.py`.
-/

namespace Verif

open Data

theorem aes_and_reads03_0 : allFrom (aesSort.and.readOk aesNet) 0 2048 = true := by
  decide +kernel

theorem aes_and_reads03_1 : allFrom (aesSort.and.readOk aesNet) 2048 2048 = true := by
  decide +kernel

theorem aes_and_reads03_2 : allFrom (aesSort.and.readOk aesNet) 4096 2048 = true := by
  decide +kernel

theorem aes_and_reads03_3 : allFrom (aesSort.and.readOk aesNet) 6144 2048 = true := by
  decide +kernel

theorem aes_and_reads03_4 : allFrom (aesSort.and.readOk aesNet) 8192 2048 = true := by
  decide +kernel

theorem aes_and_reads03_5 : allFrom (aesSort.and.readOk aesNet) 10240 2048 = true := by
  decide +kernel

theorem aes_and_reads03_6 : allFrom (aesSort.and.readOk aesNet) 12288 512 = true := by
  decide +kernel

theorem aes_and_reads03 (j : Nat) (h1 : 0 ≤ j) (h2 : j < 12800) : aesSort.and.readOk aesNet j = true := by
  by_cases c0 : j < 2048
  · exact allFrom_iff aes_and_reads03_0 j (by omega) (by omega)
  by_cases c1 : j < 4096
  · exact allFrom_iff aes_and_reads03_1 j (by omega) (by omega)
  by_cases c2 : j < 6144
  · exact allFrom_iff aes_and_reads03_2 j (by omega) (by omega)
  by_cases c3 : j < 8192
  · exact allFrom_iff aes_and_reads03_3 j (by omega) (by omega)
  by_cases c4 : j < 10240
  · exact allFrom_iff aes_and_reads03_4 j (by omega) (by omega)
  by_cases c5 : j < 12288
  · exact allFrom_iff aes_and_reads03_5 j (by omega) (by omega)
  exact allFrom_iff aes_and_reads03_6 j (by omega) (by omega)

theorem aes_and_order03_0 : allFrom (aesSort.and.orderOk aesNet aesSort.pos) 0 2048 = true := by
  decide +kernel

theorem aes_and_order03_1 : allFrom (aesSort.and.orderOk aesNet aesSort.pos) 2048 2048 = true := by
  decide +kernel

theorem aes_and_order03_2 : allFrom (aesSort.and.orderOk aesNet aesSort.pos) 4096 2048 = true := by
  decide +kernel

theorem aes_and_order03_3 : allFrom (aesSort.and.orderOk aesNet aesSort.pos) 6144 256 = true := by
  decide +kernel

theorem aes_and_order03 (j : Nat) (h1 : 0 ≤ j) (h2 : j < 6400) : aesSort.and.orderOk aesNet aesSort.pos j = true := by
  by_cases c0 : j < 2048
  · exact allFrom_iff aes_and_order03_0 j (by omega) (by omega)
  by_cases c1 : j < 4096
  · exact allFrom_iff aes_and_order03_1 j (by omega) (by omega)
  by_cases c2 : j < 6144
  · exact allFrom_iff aes_and_order03_2 j (by omega) (by omega)
  exact allFrom_iff aes_and_order03_3 j (by omega) (by omega)

theorem aes_inv_reads03_0 : allFrom (aesSort.inv.readOk aesNet) 0 2048 = true := by
  decide +kernel

theorem aes_inv_reads03_1 : allFrom (aesSort.inv.readOk aesNet) 2048 39 = true := by
  decide +kernel

theorem aes_inv_reads03 (j : Nat) (h1 : 0 ≤ j) (h2 : j < 2087) : aesSort.inv.readOk aesNet j = true := by
  by_cases c0 : j < 2048
  · exact allFrom_iff aes_inv_reads03_0 j (by omega) (by omega)
  exact allFrom_iff aes_inv_reads03_1 j (by omega) (by omega)

theorem aes_inv_order03_0 : allFrom (aesSort.inv.orderOk aesNet aesSort.pos) 0 2048 = true := by
  decide +kernel

theorem aes_inv_order03_1 : allFrom (aesSort.inv.orderOk aesNet aesSort.pos) 2048 39 = true := by
  decide +kernel

theorem aes_inv_order03 (j : Nat) (h1 : 0 ≤ j) (h2 : j < 2087) : aesSort.inv.orderOk aesNet aesSort.pos j = true := by
  by_cases c0 : j < 2048
  · exact allFrom_iff aes_inv_order03_0 j (by omega) (by omega)
  exact allFrom_iff aes_inv_order03_1 j (by omega) (by omega)

end Verif
