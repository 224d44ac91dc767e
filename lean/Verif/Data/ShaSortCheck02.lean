import Verif.Sha
import Verif.Data.ShaSortData
import Verif.CutLemmas

/-!
# Checks of the order of the gates of `data/circ/sha256.txt`, part 3 of 10

Generated by `tools/gen_circuits.py`.
-/

namespace Verif

open Data

theorem sha_xor_reads02_0 : allFrom (shaSort.xor.readOk shaNet) 98304 2048 = true := by
  decide +kernel

theorem sha_xor_reads02_1 : allFrom (shaSort.xor.readOk shaNet) 100352 2048 = true := by
  decide +kernel

theorem sha_xor_reads02_2 : allFrom (shaSort.xor.readOk shaNet) 102400 2048 = true := by
  decide +kernel

theorem sha_xor_reads02_3 : allFrom (shaSort.xor.readOk shaNet) 104448 2048 = true := by
  decide +kernel

theorem sha_xor_reads02_4 : allFrom (shaSort.xor.readOk shaNet) 106496 2048 = true := by
  decide +kernel

theorem sha_xor_reads02_5 : allFrom (shaSort.xor.readOk shaNet) 108544 2048 = true := by
  decide +kernel

theorem sha_xor_reads02_6 : allFrom (shaSort.xor.readOk shaNet) 110592 2048 = true := by
  decide +kernel

theorem sha_xor_reads02_7 : allFrom (shaSort.xor.readOk shaNet) 112640 2048 = true := by
  decide +kernel

theorem sha_xor_reads02_8 : allFrom (shaSort.xor.readOk shaNet) 114688 2048 = true := by
  decide +kernel

theorem sha_xor_reads02_9 : allFrom (shaSort.xor.readOk shaNet) 116736 2048 = true := by
  decide +kernel

theorem sha_xor_reads02_10 : allFrom (shaSort.xor.readOk shaNet) 118784 2048 = true := by
  decide +kernel

theorem sha_xor_reads02_11 : allFrom (shaSort.xor.readOk shaNet) 120832 2048 = true := by
  decide +kernel

theorem sha_xor_reads02_12 : allFrom (shaSort.xor.readOk shaNet) 122880 2048 = true := by
  decide +kernel

theorem sha_xor_reads02_13 : allFrom (shaSort.xor.readOk shaNet) 124928 2048 = true := by
  decide +kernel

theorem sha_xor_reads02_14 : allFrom (shaSort.xor.readOk shaNet) 126976 2048 = true := by
  decide +kernel

theorem sha_xor_reads02_15 : allFrom (shaSort.xor.readOk shaNet) 129024 2048 = true := by
  decide +kernel

theorem sha_xor_reads02_16 : allFrom (shaSort.xor.readOk shaNet) 131072 2048 = true := by
  decide +kernel

theorem sha_xor_reads02_17 : allFrom (shaSort.xor.readOk shaNet) 133120 2048 = true := by
  decide +kernel

theorem sha_xor_reads02_18 : allFrom (shaSort.xor.readOk shaNet) 135168 2048 = true := by
  decide +kernel

theorem sha_xor_reads02_19 : allFrom (shaSort.xor.readOk shaNet) 137216 2048 = true := by
  decide +kernel

theorem sha_xor_reads02_20 : allFrom (shaSort.xor.readOk shaNet) 139264 2048 = true := by
  decide +kernel

theorem sha_xor_reads02_21 : allFrom (shaSort.xor.readOk shaNet) 141312 2048 = true := by
  decide +kernel

theorem sha_xor_reads02_22 : allFrom (shaSort.xor.readOk shaNet) 143360 2048 = true := by
  decide +kernel

theorem sha_xor_reads02_23 : allFrom (shaSort.xor.readOk shaNet) 145408 2048 = true := by
  decide +kernel

theorem sha_xor_reads02 (j : Nat) (h1 : 98304 ≤ j) (h2 : j < 147456) : shaSort.xor.readOk shaNet j = true := by
  by_cases c0 : j < 100352
  · exact allFrom_iff sha_xor_reads02_0 j (by omega) (by omega)
  by_cases c1 : j < 102400
  · exact allFrom_iff sha_xor_reads02_1 j (by omega) (by omega)
  by_cases c2 : j < 104448
  · exact allFrom_iff sha_xor_reads02_2 j (by omega) (by omega)
  by_cases c3 : j < 106496
  · exact allFrom_iff sha_xor_reads02_3 j (by omega) (by omega)
  by_cases c4 : j < 108544
  · exact allFrom_iff sha_xor_reads02_4 j (by omega) (by omega)
  by_cases c5 : j < 110592
  · exact allFrom_iff sha_xor_reads02_5 j (by omega) (by omega)
  by_cases c6 : j < 112640
  · exact allFrom_iff sha_xor_reads02_6 j (by omega) (by omega)
  by_cases c7 : j < 114688
  · exact allFrom_iff sha_xor_reads02_7 j (by omega) (by omega)
  by_cases c8 : j < 116736
  · exact allFrom_iff sha_xor_reads02_8 j (by omega) (by omega)
  by_cases c9 : j < 118784
  · exact allFrom_iff sha_xor_reads02_9 j (by omega) (by omega)
  by_cases c10 : j < 120832
  · exact allFrom_iff sha_xor_reads02_10 j (by omega) (by omega)
  by_cases c11 : j < 122880
  · exact allFrom_iff sha_xor_reads02_11 j (by omega) (by omega)
  by_cases c12 : j < 124928
  · exact allFrom_iff sha_xor_reads02_12 j (by omega) (by omega)
  by_cases c13 : j < 126976
  · exact allFrom_iff sha_xor_reads02_13 j (by omega) (by omega)
  by_cases c14 : j < 129024
  · exact allFrom_iff sha_xor_reads02_14 j (by omega) (by omega)
  by_cases c15 : j < 131072
  · exact allFrom_iff sha_xor_reads02_15 j (by omega) (by omega)
  by_cases c16 : j < 133120
  · exact allFrom_iff sha_xor_reads02_16 j (by omega) (by omega)
  by_cases c17 : j < 135168
  · exact allFrom_iff sha_xor_reads02_17 j (by omega) (by omega)
  by_cases c18 : j < 137216
  · exact allFrom_iff sha_xor_reads02_18 j (by omega) (by omega)
  by_cases c19 : j < 139264
  · exact allFrom_iff sha_xor_reads02_19 j (by omega) (by omega)
  by_cases c20 : j < 141312
  · exact allFrom_iff sha_xor_reads02_20 j (by omega) (by omega)
  by_cases c21 : j < 143360
  · exact allFrom_iff sha_xor_reads02_21 j (by omega) (by omega)
  by_cases c22 : j < 145408
  · exact allFrom_iff sha_xor_reads02_22 j (by omega) (by omega)
  exact allFrom_iff sha_xor_reads02_23 j (by omega) (by omega)

end Verif
