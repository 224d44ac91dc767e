import Verif.Aes
import Verif.Data.AesSortData
import Verif.CutLemmas

/-!
# Checks of the order of the gates of `data/circ/aes_128.txt`, part 1 of 4

Generated by `tools/gen_circuits.py`.
-/

namespace Verif

open Data

theorem aes_xor_reads00_0 : allFrom (aesSort.xor.readOk aesNet) 0 2048 = true := by
  decide +kernel

theorem aes_xor_reads00_1 : allFrom (aesSort.xor.readOk aesNet) 2048 2048 = true := by
  decide +kernel

theorem aes_xor_reads00_2 : allFrom (aesSort.xor.readOk aesNet) 4096 2048 = true := by
  decide +kernel

theorem aes_xor_reads00_3 : allFrom (aesSort.xor.readOk aesNet) 6144 2048 = true := by
  decide +kernel

theorem aes_xor_reads00_4 : allFrom (aesSort.xor.readOk aesNet) 8192 2048 = true := by
  decide +kernel

theorem aes_xor_reads00_5 : allFrom (aesSort.xor.readOk aesNet) 10240 2048 = true := by
  decide +kernel

theorem aes_xor_reads00_6 : allFrom (aesSort.xor.readOk aesNet) 12288 2048 = true := by
  decide +kernel

theorem aes_xor_reads00_7 : allFrom (aesSort.xor.readOk aesNet) 14336 2048 = true := by
  decide +kernel

theorem aes_xor_reads00_8 : allFrom (aesSort.xor.readOk aesNet) 16384 2048 = true := by
  decide +kernel

theorem aes_xor_reads00_9 : allFrom (aesSort.xor.readOk aesNet) 18432 2048 = true := by
  decide +kernel

theorem aes_xor_reads00_10 : allFrom (aesSort.xor.readOk aesNet) 20480 2048 = true := by
  decide +kernel

theorem aes_xor_reads00_11 : allFrom (aesSort.xor.readOk aesNet) 22528 2048 = true := by
  decide +kernel

theorem aes_xor_reads00_12 : allFrom (aesSort.xor.readOk aesNet) 24576 2048 = true := by
  decide +kernel

theorem aes_xor_reads00_13 : allFrom (aesSort.xor.readOk aesNet) 26624 2048 = true := by
  decide +kernel

theorem aes_xor_reads00_14 : allFrom (aesSort.xor.readOk aesNet) 28672 2048 = true := by
  decide +kernel

theorem aes_xor_reads00_15 : allFrom (aesSort.xor.readOk aesNet) 30720 2048 = true := by
  decide +kernel

theorem aes_xor_reads00 (j : Nat) (h1 : 0 ≤ j) (h2 : j < 32768) : aesSort.xor.readOk aesNet j = true := by
  by_cases c0 : j < 2048
  · exact allFrom_iff aes_xor_reads00_0 j (by omega) (by omega)
  by_cases c1 : j < 4096
  · exact allFrom_iff aes_xor_reads00_1 j (by omega) (by omega)
  by_cases c2 : j < 6144
  · exact allFrom_iff aes_xor_reads00_2 j (by omega) (by omega)
  by_cases c3 : j < 8192
  · exact allFrom_iff aes_xor_reads00_3 j (by omega) (by omega)
  by_cases c4 : j < 10240
  · exact allFrom_iff aes_xor_reads00_4 j (by omega) (by omega)
  by_cases c5 : j < 12288
  · exact allFrom_iff aes_xor_reads00_5 j (by omega) (by omega)
  by_cases c6 : j < 14336
  · exact allFrom_iff aes_xor_reads00_6 j (by omega) (by omega)
  by_cases c7 : j < 16384
  · exact allFrom_iff aes_xor_reads00_7 j (by omega) (by omega)
  by_cases c8 : j < 18432
  · exact allFrom_iff aes_xor_reads00_8 j (by omega) (by omega)
  by_cases c9 : j < 20480
  · exact allFrom_iff aes_xor_reads00_9 j (by omega) (by omega)
  by_cases c10 : j < 22528
  · exact allFrom_iff aes_xor_reads00_10 j (by omega) (by omega)
  by_cases c11 : j < 24576
  · exact allFrom_iff aes_xor_reads00_11 j (by omega) (by omega)
  by_cases c12 : j < 26624
  · exact allFrom_iff aes_xor_reads00_12 j (by omega) (by omega)
  by_cases c13 : j < 28672
  · exact allFrom_iff aes_xor_reads00_13 j (by omega) (by omega)
  by_cases c14 : j < 30720
  · exact allFrom_iff aes_xor_reads00_14 j (by omega) (by omega)
  exact allFrom_iff aes_xor_reads00_15 j (by omega) (by omega)

end Verif
