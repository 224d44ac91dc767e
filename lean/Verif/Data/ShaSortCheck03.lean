import Verif.Sha
import Verif.Data.ShaSortData
import Verif.CutLemmas

/-!
# Checks of the order of the gates of `data/circ/sha256.txt`, part 4 of 10

Generated by `tools/gen_circuits.py`.
-/

namespace Verif

open Data

theorem sha_xor_reads03_0 : allFrom (shaSort.xor.readOk shaNet) 147456 2048 = true := by
  decide +kernel

theorem sha_xor_reads03_1 : allFrom (shaSort.xor.readOk shaNet) 149504 2048 = true := by
  decide +kernel

theorem sha_xor_reads03_2 : allFrom (shaSort.xor.readOk shaNet) 151552 2048 = true := by
  decide +kernel

theorem sha_xor_reads03_3 : allFrom (shaSort.xor.readOk shaNet) 153600 2048 = true := by
  decide +kernel

theorem sha_xor_reads03_4 : allFrom (shaSort.xor.readOk shaNet) 155648 2048 = true := by
  decide +kernel

theorem sha_xor_reads03_5 : allFrom (shaSort.xor.readOk shaNet) 157696 2048 = true := by
  decide +kernel

theorem sha_xor_reads03_6 : allFrom (shaSort.xor.readOk shaNet) 159744 2048 = true := by
  decide +kernel

theorem sha_xor_reads03_7 : allFrom (shaSort.xor.readOk shaNet) 161792 2048 = true := by
  decide +kernel

theorem sha_xor_reads03_8 : allFrom (shaSort.xor.readOk shaNet) 163840 2048 = true := by
  decide +kernel

theorem sha_xor_reads03_9 : allFrom (shaSort.xor.readOk shaNet) 165888 2048 = true := by
  decide +kernel

theorem sha_xor_reads03_10 : allFrom (shaSort.xor.readOk shaNet) 167936 2048 = true := by
  decide +kernel

theorem sha_xor_reads03_11 : allFrom (shaSort.xor.readOk shaNet) 169984 2048 = true := by
  decide +kernel

theorem sha_xor_reads03_12 : allFrom (shaSort.xor.readOk shaNet) 172032 2048 = true := by
  decide +kernel

theorem sha_xor_reads03_13 : allFrom (shaSort.xor.readOk shaNet) 174080 2048 = true := by
  decide +kernel

theorem sha_xor_reads03_14 : allFrom (shaSort.xor.readOk shaNet) 176128 2048 = true := by
  decide +kernel

theorem sha_xor_reads03_15 : allFrom (shaSort.xor.readOk shaNet) 178176 2048 = true := by
  decide +kernel

theorem sha_xor_reads03_16 : allFrom (shaSort.xor.readOk shaNet) 180224 2048 = true := by
  decide +kernel

theorem sha_xor_reads03_17 : allFrom (shaSort.xor.readOk shaNet) 182272 2048 = true := by
  decide +kernel

theorem sha_xor_reads03_18 : allFrom (shaSort.xor.readOk shaNet) 184320 2048 = true := by
  decide +kernel

theorem sha_xor_reads03_19 : allFrom (shaSort.xor.readOk shaNet) 186368 2048 = true := by
  decide +kernel

theorem sha_xor_reads03_20 : allFrom (shaSort.xor.readOk shaNet) 188416 2048 = true := by
  decide +kernel

theorem sha_xor_reads03_21 : allFrom (shaSort.xor.readOk shaNet) 190464 2048 = true := by
  decide +kernel

theorem sha_xor_reads03_22 : allFrom (shaSort.xor.readOk shaNet) 192512 2048 = true := by
  decide +kernel

theorem sha_xor_reads03_23 : allFrom (shaSort.xor.readOk shaNet) 194560 2048 = true := by
  decide +kernel

theorem sha_xor_reads03 (j : Nat) (h1 : 147456 ≤ j) (h2 : j < 196608) : shaSort.xor.readOk shaNet j = true := by
  by_cases c0 : j < 149504
  · exact allFrom_iff sha_xor_reads03_0 j (by omega) (by omega)
  by_cases c1 : j < 151552
  · exact allFrom_iff sha_xor_reads03_1 j (by omega) (by omega)
  by_cases c2 : j < 153600
  · exact allFrom_iff sha_xor_reads03_2 j (by omega) (by omega)
  by_cases c3 : j < 155648
  · exact allFrom_iff sha_xor_reads03_3 j (by omega) (by omega)
  by_cases c4 : j < 157696
  · exact allFrom_iff sha_xor_reads03_4 j (by omega) (by omega)
  by_cases c5 : j < 159744
  · exact allFrom_iff sha_xor_reads03_5 j (by omega) (by omega)
  by_cases c6 : j < 161792
  · exact allFrom_iff sha_xor_reads03_6 j (by omega) (by omega)
  by_cases c7 : j < 163840
  · exact allFrom_iff sha_xor_reads03_7 j (by omega) (by omega)
  by_cases c8 : j < 165888
  · exact allFrom_iff sha_xor_reads03_8 j (by omega) (by omega)
  by_cases c9 : j < 167936
  · exact allFrom_iff sha_xor_reads03_9 j (by omega) (by omega)
  by_cases c10 : j < 169984
  · exact allFrom_iff sha_xor_reads03_10 j (by omega) (by omega)
  by_cases c11 : j < 172032
  · exact allFrom_iff sha_xor_reads03_11 j (by omega) (by omega)
  by_cases c12 : j < 174080
  · exact allFrom_iff sha_xor_reads03_12 j (by omega) (by omega)
  by_cases c13 : j < 176128
  · exact allFrom_iff sha_xor_reads03_13 j (by omega) (by omega)
  by_cases c14 : j < 178176
  · exact allFrom_iff sha_xor_reads03_14 j (by omega) (by omega)
  by_cases c15 : j < 180224
  · exact allFrom_iff sha_xor_reads03_15 j (by omega) (by omega)
  by_cases c16 : j < 182272
  · exact allFrom_iff sha_xor_reads03_16 j (by omega) (by omega)
  by_cases c17 : j < 184320
  · exact allFrom_iff sha_xor_reads03_17 j (by omega) (by omega)
  by_cases c18 : j < 186368
  · exact allFrom_iff sha_xor_reads03_18 j (by omega) (by omega)
  by_cases c19 : j < 188416
  · exact allFrom_iff sha_xor_reads03_19 j (by omega) (by omega)
  by_cases c20 : j < 190464
  · exact allFrom_iff sha_xor_reads03_20 j (by omega) (by omega)
  by_cases c21 : j < 192512
  · exact allFrom_iff sha_xor_reads03_21 j (by omega) (by omega)
  by_cases c22 : j < 194560
  · exact allFrom_iff sha_xor_reads03_22 j (by omega) (by omega)
  exact allFrom_iff sha_xor_reads03_23 j (by omega) (by omega)

end Verif
