import Verif.Sha
import Verif.Data.ShaSortData
import Verif.CutLemmas

/-!
# Checks of the order of the gates of `data/circ/sha256.txt`, part 1 of 10

Generated by `tools/gen_circuits.py`.
-/

namespace Verif

open Data

theorem sha_xor_reads00_0 : allFrom (shaSort.xor.readOk shaNet) 0 2048 = true := by
  decide +kernel

theorem sha_xor_reads00_1 : allFrom (shaSort.xor.readOk shaNet) 2048 2048 = true := by
  decide +kernel

theorem sha_xor_reads00_2 : allFrom (shaSort.xor.readOk shaNet) 4096 2048 = true := by
  decide +kernel

theorem sha_xor_reads00_3 : allFrom (shaSort.xor.readOk shaNet) 6144 2048 = true := by
  decide +kernel

theorem sha_xor_reads00_4 : allFrom (shaSort.xor.readOk shaNet) 8192 2048 = true := by
  decide +kernel

theorem sha_xor_reads00_5 : allFrom (shaSort.xor.readOk shaNet) 10240 2048 = true := by
  decide +kernel

theorem sha_xor_reads00_6 : allFrom (shaSort.xor.readOk shaNet) 12288 2048 = true := by
  decide +kernel

theorem sha_xor_reads00_7 : allFrom (shaSort.xor.readOk shaNet) 14336 2048 = true := by
  decide +kernel

theorem sha_xor_reads00_8 : allFrom (shaSort.xor.readOk shaNet) 16384 2048 = true := by
  decide +kernel

theorem sha_xor_reads00_9 : allFrom (shaSort.xor.readOk shaNet) 18432 2048 = true := by
  decide +kernel

theorem sha_xor_reads00_10 : allFrom (shaSort.xor.readOk shaNet) 20480 2048 = true := by
  decide +kernel

theorem sha_xor_reads00_11 : allFrom (shaSort.xor.readOk shaNet) 22528 2048 = true := by
  decide +kernel

theorem sha_xor_reads00_12 : allFrom (shaSort.xor.readOk shaNet) 24576 2048 = true := by
  decide +kernel

theorem sha_xor_reads00_13 : allFrom (shaSort.xor.readOk shaNet) 26624 2048 = true := by
  decide +kernel

theorem sha_xor_reads00_14 : allFrom (shaSort.xor.readOk shaNet) 28672 2048 = true := by
  decide +kernel

theorem sha_xor_reads00_15 : allFrom (shaSort.xor.readOk shaNet) 30720 2048 = true := by
  decide +kernel

theorem sha_xor_reads00_16 : allFrom (shaSort.xor.readOk shaNet) 32768 2048 = true := by
  decide +kernel

theorem sha_xor_reads00_17 : allFrom (shaSort.xor.readOk shaNet) 34816 2048 = true := by
  decide +kernel

theorem sha_xor_reads00_18 : allFrom (shaSort.xor.readOk shaNet) 36864 2048 = true := by
  decide +kernel

theorem sha_xor_reads00_19 : allFrom (shaSort.xor.readOk shaNet) 38912 2048 = true := by
  decide +kernel

theorem sha_xor_reads00_20 : allFrom (shaSort.xor.readOk shaNet) 40960 2048 = true := by
  decide +kernel

theorem sha_xor_reads00_21 : allFrom (shaSort.xor.readOk shaNet) 43008 2048 = true := by
  decide +kernel

theorem sha_xor_reads00_22 : allFrom (shaSort.xor.readOk shaNet) 45056 2048 = true := by
  decide +kernel

theorem sha_xor_reads00_23 : allFrom (shaSort.xor.readOk shaNet) 47104 2048 = true := by
  decide +kernel

theorem sha_xor_reads00 (j : Nat) (h1 : 0 ≤ j) (h2 : j < 49152) : shaSort.xor.readOk shaNet j = true := by
  by_cases c0 : j < 2048
  · exact allFrom_iff sha_xor_reads00_0 j (by omega) (by omega)
  by_cases c1 : j < 4096
  · exact allFrom_iff sha_xor_reads00_1 j (by omega) (by omega)
  by_cases c2 : j < 6144
  · exact allFrom_iff sha_xor_reads00_2 j (by omega) (by omega)
  by_cases c3 : j < 8192
  · exact allFrom_iff sha_xor_reads00_3 j (by omega) (by omega)
  by_cases c4 : j < 10240
  · exact allFrom_iff sha_xor_reads00_4 j (by omega) (by omega)
  by_cases c5 : j < 12288
  · exact allFrom_iff sha_xor_reads00_5 j (by omega) (by omega)
  by_cases c6 : j < 14336
  · exact allFrom_iff sha_xor_reads00_6 j (by omega) (by omega)
  by_cases c7 : j < 16384
  · exact allFrom_iff sha_xor_reads00_7 j (by omega) (by omega)
  by_cases c8 : j < 18432
  · exact allFrom_iff sha_xor_reads00_8 j (by omega) (by omega)
  by_cases c9 : j < 20480
  · exact allFrom_iff sha_xor_reads00_9 j (by omega) (by omega)
  by_cases c10 : j < 22528
  · exact allFrom_iff sha_xor_reads00_10 j (by omega) (by omega)
  by_cases c11 : j < 24576
  · exact allFrom_iff sha_xor_reads00_11 j (by omega) (by omega)
  by_cases c12 : j < 26624
  · exact allFrom_iff sha_xor_reads00_12 j (by omega) (by omega)
  by_cases c13 : j < 28672
  · exact allFrom_iff sha_xor_reads00_13 j (by omega) (by omega)
  by_cases c14 : j < 30720
  · exact allFrom_iff sha_xor_reads00_14 j (by omega) (by omega)
  by_cases c15 : j < 32768
  · exact allFrom_iff sha_xor_reads00_15 j (by omega) (by omega)
  by_cases c16 : j < 34816
  · exact allFrom_iff sha_xor_reads00_16 j (by omega) (by omega)
  by_cases c17 : j < 36864
  · exact allFrom_iff sha_xor_reads00_17 j (by omega) (by omega)
  by_cases c18 : j < 38912
  · exact allFrom_iff sha_xor_reads00_18 j (by omega) (by omega)
  by_cases c19 : j < 40960
  · exact allFrom_iff sha_xor_reads00_19 j (by omega) (by omega)
  by_cases c20 : j < 43008
  · exact allFrom_iff sha_xor_reads00_20 j (by omega) (by omega)
  by_cases c21 : j < 45056
  · exact allFrom_iff sha_xor_reads00_21 j (by omega) (by omega)
  by_cases c22 : j < 47104
  · exact allFrom_iff sha_xor_reads00_22 j (by omega) (by omega)
  exact allFrom_iff sha_xor_reads00_23 j (by omega) (by omega)

end Verif
