import Verif.Aes
import Verif.Data.AesSortData
import Verif.CutLemmas

/-!
# Checks of the order of the gates of `data/circ/aes_128.txt`, part 2 of 4

Generated by `tools/gen_circuits.py`.
-/

namespace Verif

open Data

theorem aes_xor_reads01_0 : allFrom (aesSort.xor.readOk aesNet) 32768 2048 = true := by
  decide +kernel

theorem aes_xor_reads01_1 : allFrom (aesSort.xor.readOk aesNet) 34816 2048 = true := by
  decide +kernel

theorem aes_xor_reads01_2 : allFrom (aesSort.xor.readOk aesNet) 36864 2048 = true := by
  decide +kernel

theorem aes_xor_reads01_3 : allFrom (aesSort.xor.readOk aesNet) 38912 2048 = true := by
  decide +kernel

theorem aes_xor_reads01_4 : allFrom (aesSort.xor.readOk aesNet) 40960 2048 = true := by
  decide +kernel

theorem aes_xor_reads01_5 : allFrom (aesSort.xor.readOk aesNet) 43008 2048 = true := by
  decide +kernel

theorem aes_xor_reads01_6 : allFrom (aesSort.xor.readOk aesNet) 45056 2048 = true := by
  decide +kernel

theorem aes_xor_reads01_7 : allFrom (aesSort.xor.readOk aesNet) 47104 2048 = true := by
  decide +kernel

theorem aes_xor_reads01_8 : allFrom (aesSort.xor.readOk aesNet) 49152 2048 = true := by
  decide +kernel

theorem aes_xor_reads01_9 : allFrom (aesSort.xor.readOk aesNet) 51200 2048 = true := by
  decide +kernel

theorem aes_xor_reads01_10 : allFrom (aesSort.xor.readOk aesNet) 53248 2048 = true := by
  decide +kernel

theorem aes_xor_reads01_11 : allFrom (aesSort.xor.readOk aesNet) 55296 1056 = true := by
  decide +kernel

theorem aes_xor_reads01 (j : Nat) (h1 : 32768 ≤ j) (h2 : j < 56352) : aesSort.xor.readOk aesNet j = true := by
  by_cases c0 : j < 34816
  · exact allFrom_iff aes_xor_reads01_0 j (by omega) (by omega)
  by_cases c1 : j < 36864
  · exact allFrom_iff aes_xor_reads01_1 j (by omega) (by omega)
  by_cases c2 : j < 38912
  · exact allFrom_iff aes_xor_reads01_2 j (by omega) (by omega)
  by_cases c3 : j < 40960
  · exact allFrom_iff aes_xor_reads01_3 j (by omega) (by omega)
  by_cases c4 : j < 43008
  · exact allFrom_iff aes_xor_reads01_4 j (by omega) (by omega)
  by_cases c5 : j < 45056
  · exact allFrom_iff aes_xor_reads01_5 j (by omega) (by omega)
  by_cases c6 : j < 47104
  · exact allFrom_iff aes_xor_reads01_6 j (by omega) (by omega)
  by_cases c7 : j < 49152
  · exact allFrom_iff aes_xor_reads01_7 j (by omega) (by omega)
  by_cases c8 : j < 51200
  · exact allFrom_iff aes_xor_reads01_8 j (by omega) (by omega)
  by_cases c9 : j < 53248
  · exact allFrom_iff aes_xor_reads01_9 j (by omega) (by omega)
  by_cases c10 : j < 55296
  · exact allFrom_iff aes_xor_reads01_10 j (by omega) (by omega)
  exact allFrom_iff aes_xor_reads01_11 j (by omega) (by omega)

end Verif
