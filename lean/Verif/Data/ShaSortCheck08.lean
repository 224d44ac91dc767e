import Verif.Sha
import Verif.Data.ShaSortData
import Verif.CutLemmas

/-!
# Checks of the order of the gates of `data/circ/sha256.txt`, part 9 of 10

Generated by `tools/gen_circuits.py`.
-/

namespace Verif

open Data

theorem sha_and_reads08_0 : allFrom (shaSort.and.readOk shaNet) 0 2048 = true := by
  decide +kernel

theorem sha_and_reads08_1 : allFrom (shaSort.and.readOk shaNet) 2048 2048 = true := by
  decide +kernel

theorem sha_and_reads08_2 : allFrom (shaSort.and.readOk shaNet) 4096 2048 = true := by
  decide +kernel

theorem sha_and_reads08_3 : allFrom (shaSort.and.readOk shaNet) 6144 2048 = true := by
  decide +kernel

theorem sha_and_reads08_4 : allFrom (shaSort.and.readOk shaNet) 8192 2048 = true := by
  decide +kernel

theorem sha_and_reads08_5 : allFrom (shaSort.and.readOk shaNet) 10240 2048 = true := by
  decide +kernel

theorem sha_and_reads08_6 : allFrom (shaSort.and.readOk shaNet) 12288 2048 = true := by
  decide +kernel

theorem sha_and_reads08_7 : allFrom (shaSort.and.readOk shaNet) 14336 2048 = true := by
  decide +kernel

theorem sha_and_reads08_8 : allFrom (shaSort.and.readOk shaNet) 16384 2048 = true := by
  decide +kernel

theorem sha_and_reads08_9 : allFrom (shaSort.and.readOk shaNet) 18432 2048 = true := by
  decide +kernel

theorem sha_and_reads08_10 : allFrom (shaSort.and.readOk shaNet) 20480 2048 = true := by
  decide +kernel

theorem sha_and_reads08_11 : allFrom (shaSort.and.readOk shaNet) 22528 2048 = true := by
  decide +kernel

theorem sha_and_reads08_12 : allFrom (shaSort.and.readOk shaNet) 24576 2048 = true := by
  decide +kernel

theorem sha_and_reads08_13 : allFrom (shaSort.and.readOk shaNet) 26624 2048 = true := by
  decide +kernel

theorem sha_and_reads08_14 : allFrom (shaSort.and.readOk shaNet) 28672 2048 = true := by
  decide +kernel

theorem sha_and_reads08_15 : allFrom (shaSort.and.readOk shaNet) 30720 2048 = true := by
  decide +kernel

theorem sha_and_reads08_16 : allFrom (shaSort.and.readOk shaNet) 32768 2048 = true := by
  decide +kernel

theorem sha_and_reads08_17 : allFrom (shaSort.and.readOk shaNet) 34816 2048 = true := by
  decide +kernel

theorem sha_and_reads08_18 : allFrom (shaSort.and.readOk shaNet) 36864 2048 = true := by
  decide +kernel

theorem sha_and_reads08_19 : allFrom (shaSort.and.readOk shaNet) 38912 2048 = true := by
  decide +kernel

theorem sha_and_reads08_20 : allFrom (shaSort.and.readOk shaNet) 40960 2048 = true := by
  decide +kernel

theorem sha_and_reads08_21 : allFrom (shaSort.and.readOk shaNet) 43008 2048 = true := by
  decide +kernel

theorem sha_and_reads08_22 : allFrom (shaSort.and.readOk shaNet) 45056 90 = true := by
  decide +kernel

theorem sha_and_reads08 (j : Nat) (h1 : 0 ≤ j) (h2 : j < 45146) : shaSort.and.readOk shaNet j = true := by
  by_cases c0 : j < 2048
  · exact allFrom_iff sha_and_reads08_0 j (by omega) (by omega)
  by_cases c1 : j < 4096
  · exact allFrom_iff sha_and_reads08_1 j (by omega) (by omega)
  by_cases c2 : j < 6144
  · exact allFrom_iff sha_and_reads08_2 j (by omega) (by omega)
  by_cases c3 : j < 8192
  · exact allFrom_iff sha_and_reads08_3 j (by omega) (by omega)
  by_cases c4 : j < 10240
  · exact allFrom_iff sha_and_reads08_4 j (by omega) (by omega)
  by_cases c5 : j < 12288
  · exact allFrom_iff sha_and_reads08_5 j (by omega) (by omega)
  by_cases c6 : j < 14336
  · exact allFrom_iff sha_and_reads08_6 j (by omega) (by omega)
  by_cases c7 : j < 16384
  · exact allFrom_iff sha_and_reads08_7 j (by omega) (by omega)
  by_cases c8 : j < 18432
  · exact allFrom_iff sha_and_reads08_8 j (by omega) (by omega)
  by_cases c9 : j < 20480
  · exact allFrom_iff sha_and_reads08_9 j (by omega) (by omega)
  by_cases c10 : j < 22528
  · exact allFrom_iff sha_and_reads08_10 j (by omega) (by omega)
  by_cases c11 : j < 24576
  · exact allFrom_iff sha_and_reads08_11 j (by omega) (by omega)
  by_cases c12 : j < 26624
  · exact allFrom_iff sha_and_reads08_12 j (by omega) (by omega)
  by_cases c13 : j < 28672
  · exact allFrom_iff sha_and_reads08_13 j (by omega) (by omega)
  by_cases c14 : j < 30720
  · exact allFrom_iff sha_and_reads08_14 j (by omega) (by omega)
  by_cases c15 : j < 32768
  · exact allFrom_iff sha_and_reads08_15 j (by omega) (by omega)
  by_cases c16 : j < 34816
  · exact allFrom_iff sha_and_reads08_16 j (by omega) (by omega)
  by_cases c17 : j < 36864
  · exact allFrom_iff sha_and_reads08_17 j (by omega) (by omega)
  by_cases c18 : j < 38912
  · exact allFrom_iff sha_and_reads08_18 j (by omega) (by omega)
  by_cases c19 : j < 40960
  · exact allFrom_iff sha_and_reads08_19 j (by omega) (by omega)
  by_cases c20 : j < 43008
  · exact allFrom_iff sha_and_reads08_20 j (by omega) (by omega)
  by_cases c21 : j < 45056
  · exact allFrom_iff sha_and_reads08_21 j (by omega) (by omega)
  exact allFrom_iff sha_and_reads08_22 j (by omega) (by omega)

end Verif
