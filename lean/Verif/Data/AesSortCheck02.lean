import Verif.Aes
import Verif.Data.AesSortData
import Verif.CutLemmas

/-!
# Checks of the order of the gates of `data/circ/aes_128.txt`, part 3 of 4

Generated by `tools/gen_circuits.py`.
-/

namespace Verif

open Data

theorem aes_xor_order02_0 : allFrom (aesSort.xor.orderOk aesNet aesSort.pos) 0 2048 = true := by
  decide +kernel

theorem aes_xor_order02_1 : allFrom (aesSort.xor.orderOk aesNet aesSort.pos) 2048 2048 = true := by
  decide +kernel

theorem aes_xor_order02_2 : allFrom (aesSort.xor.orderOk aesNet aesSort.pos) 4096 2048 = true := by
  decide +kernel

theorem aes_xor_order02_3 : allFrom (aesSort.xor.orderOk aesNet aesSort.pos) 6144 2048 = true := by
  decide +kernel

theorem aes_xor_order02_4 : allFrom (aesSort.xor.orderOk aesNet aesSort.pos) 8192 2048 = true := by
  decide +kernel

theorem aes_xor_order02_5 : allFrom (aesSort.xor.orderOk aesNet aesSort.pos) 10240 2048 = true := by
  decide +kernel

theorem aes_xor_order02_6 : allFrom (aesSort.xor.orderOk aesNet aesSort.pos) 12288 2048 = true := by
  decide +kernel

theorem aes_xor_order02_7 : allFrom (aesSort.xor.orderOk aesNet aesSort.pos) 14336 2048 = true := by
  decide +kernel

theorem aes_xor_order02_8 : allFrom (aesSort.xor.orderOk aesNet aesSort.pos) 16384 2048 = true := by
  decide +kernel

theorem aes_xor_order02_9 : allFrom (aesSort.xor.orderOk aesNet aesSort.pos) 18432 2048 = true := by
  decide +kernel

theorem aes_xor_order02_10 : allFrom (aesSort.xor.orderOk aesNet aesSort.pos) 20480 2048 = true := by
  decide +kernel

theorem aes_xor_order02_11 : allFrom (aesSort.xor.orderOk aesNet aesSort.pos) 22528 2048 = true := by
  decide +kernel

theorem aes_xor_order02_12 : allFrom (aesSort.xor.orderOk aesNet aesSort.pos) 24576 2048 = true := by
  decide +kernel

theorem aes_xor_order02_13 : allFrom (aesSort.xor.orderOk aesNet aesSort.pos) 26624 1552 = true := by
  decide +kernel

theorem aes_xor_order02 (j : Nat) (h1 : 0 ≤ j) (h2 : j < 28176) : aesSort.xor.orderOk aesNet aesSort.pos j = true := by
  by_cases c0 : j < 2048
  · exact allFrom_iff aes_xor_order02_0 j (by omega) (by omega)
  by_cases c1 : j < 4096
  · exact allFrom_iff aes_xor_order02_1 j (by omega) (by omega)
  by_cases c2 : j < 6144
  · exact allFrom_iff aes_xor_order02_2 j (by omega) (by omega)
  by_cases c3 : j < 8192
  · exact allFrom_iff aes_xor_order02_3 j (by omega) (by omega)
  by_cases c4 : j < 10240
  · exact allFrom_iff aes_xor_order02_4 j (by omega) (by omega)
  by_cases c5 : j < 12288
  · exact allFrom_iff aes_xor_order02_5 j (by omega) (by omega)
  by_cases c6 : j < 14336
  · exact allFrom_iff aes_xor_order02_6 j (by omega) (by omega)
  by_cases c7 : j < 16384
  · exact allFrom_iff aes_xor_order02_7 j (by omega) (by omega)
  by_cases c8 : j < 18432
  · exact allFrom_iff aes_xor_order02_8 j (by omega) (by omega)
  by_cases c9 : j < 20480
  · exact allFrom_iff aes_xor_order02_9 j (by omega) (by omega)
  by_cases c10 : j < 22528
  · exact allFrom_iff aes_xor_order02_10 j (by omega) (by omega)
  by_cases c11 : j < 24576
  · exact allFrom_iff aes_xor_order02_11 j (by omega) (by omega)
  by_cases c12 : j < 26624
  · exact allFrom_iff aes_xor_order02_12 j (by omega) (by omega)
  exact allFrom_iff aes_xor_order02_13 j (by omega) (by omega)

end Verif
