import Verif.Sha
import Verif.Data.ShaSortData
import Verif.CutLemmas

/-!
# Checks of the order of the gates of `data/circ/sha256.txt`, part 7 of 10

Generated by `tools/gen_circuits.py`.
-/

namespace Verif

open Data

theorem sha_xor_order06_0 : allFrom (shaSort.xor.orderOk shaNet shaSort.pos) 49152 2048 = true := by
  decide +kernel

theorem sha_xor_order06_1 : allFrom (shaSort.xor.orderOk shaNet shaSort.pos) 51200 2048 = true := by
  decide +kernel

theorem sha_xor_order06_2 : allFrom (shaSort.xor.orderOk shaNet shaSort.pos) 53248 2048 = true := by
  decide +kernel

theorem sha_xor_order06_3 : allFrom (shaSort.xor.orderOk shaNet shaSort.pos) 55296 2048 = true := by
  decide +kernel

theorem sha_xor_order06_4 : allFrom (shaSort.xor.orderOk shaNet shaSort.pos) 57344 2048 = true := by
  decide +kernel

theorem sha_xor_order06_5 : allFrom (shaSort.xor.orderOk shaNet shaSort.pos) 59392 2048 = true := by
  decide +kernel

theorem sha_xor_order06_6 : allFrom (shaSort.xor.orderOk shaNet shaSort.pos) 61440 2048 = true := by
  decide +kernel

theorem sha_xor_order06_7 : allFrom (shaSort.xor.orderOk shaNet shaSort.pos) 63488 2048 = true := by
  decide +kernel

theorem sha_xor_order06_8 : allFrom (shaSort.xor.orderOk shaNet shaSort.pos) 65536 2048 = true := by
  decide +kernel

theorem sha_xor_order06_9 : allFrom (shaSort.xor.orderOk shaNet shaSort.pos) 67584 2048 = true := by
  decide +kernel

theorem sha_xor_order06_10 : allFrom (shaSort.xor.orderOk shaNet shaSort.pos) 69632 2048 = true := by
  decide +kernel

theorem sha_xor_order06_11 : allFrom (shaSort.xor.orderOk shaNet shaSort.pos) 71680 2048 = true := by
  decide +kernel

theorem sha_xor_order06_12 : allFrom (shaSort.xor.orderOk shaNet shaSort.pos) 73728 2048 = true := by
  decide +kernel

theorem sha_xor_order06_13 : allFrom (shaSort.xor.orderOk shaNet shaSort.pos) 75776 2048 = true := by
  decide +kernel

theorem sha_xor_order06_14 : allFrom (shaSort.xor.orderOk shaNet shaSort.pos) 77824 2048 = true := by
  decide +kernel

theorem sha_xor_order06_15 : allFrom (shaSort.xor.orderOk shaNet shaSort.pos) 79872 2048 = true := by
  decide +kernel

theorem sha_xor_order06_16 : allFrom (shaSort.xor.orderOk shaNet shaSort.pos) 81920 2048 = true := by
  decide +kernel

theorem sha_xor_order06_17 : allFrom (shaSort.xor.orderOk shaNet shaSort.pos) 83968 2048 = true := by
  decide +kernel

theorem sha_xor_order06_18 : allFrom (shaSort.xor.orderOk shaNet shaSort.pos) 86016 2048 = true := by
  decide +kernel

theorem sha_xor_order06_19 : allFrom (shaSort.xor.orderOk shaNet shaSort.pos) 88064 2048 = true := by
  decide +kernel

theorem sha_xor_order06_20 : allFrom (shaSort.xor.orderOk shaNet shaSort.pos) 90112 2048 = true := by
  decide +kernel

theorem sha_xor_order06_21 : allFrom (shaSort.xor.orderOk shaNet shaSort.pos) 92160 2048 = true := by
  decide +kernel

theorem sha_xor_order06_22 : allFrom (shaSort.xor.orderOk shaNet shaSort.pos) 94208 2048 = true := by
  decide +kernel

theorem sha_xor_order06_23 : allFrom (shaSort.xor.orderOk shaNet shaSort.pos) 96256 2048 = true := by
  decide +kernel

theorem sha_xor_order06 (j : Nat) (h1 : 49152 ≤ j) (h2 : j < 98304) : shaSort.xor.orderOk shaNet shaSort.pos j = true := by
  by_cases c0 : j < 51200
  · exact allFrom_iff sha_xor_order06_0 j (by omega) (by omega)
  by_cases c1 : j < 53248
  · exact allFrom_iff sha_xor_order06_1 j (by omega) (by omega)
  by_cases c2 : j < 55296
  · exact allFrom_iff sha_xor_order06_2 j (by omega) (by omega)
  by_cases c3 : j < 57344
  · exact allFrom_iff sha_xor_order06_3 j (by omega) (by omega)
  by_cases c4 : j < 59392
  · exact allFrom_iff sha_xor_order06_4 j (by omega) (by omega)
  by_cases c5 : j < 61440
  · exact allFrom_iff sha_xor_order06_5 j (by omega) (by omega)
  by_cases c6 : j < 63488
  · exact allFrom_iff sha_xor_order06_6 j (by omega) (by omega)
  by_cases c7 : j < 65536
  · exact allFrom_iff sha_xor_order06_7 j (by omega) (by omega)
  by_cases c8 : j < 67584
  · exact allFrom_iff sha_xor_order06_8 j (by omega) (by omega)
  by_cases c9 : j < 69632
  · exact allFrom_iff sha_xor_order06_9 j (by omega) (by omega)
  by_cases c10 : j < 71680
  · exact allFrom_iff sha_xor_order06_10 j (by omega) (by omega)
  by_cases c11 : j < 73728
  · exact allFrom_iff sha_xor_order06_11 j (by omega) (by omega)
  by_cases c12 : j < 75776
  · exact allFrom_iff sha_xor_order06_12 j (by omega) (by omega)
  by_cases c13 : j < 77824
  · exact allFrom_iff sha_xor_order06_13 j (by omega) (by omega)
  by_cases c14 : j < 79872
  · exact allFrom_iff sha_xor_order06_14 j (by omega) (by omega)
  by_cases c15 : j < 81920
  · exact allFrom_iff sha_xor_order06_15 j (by omega) (by omega)
  by_cases c16 : j < 83968
  · exact allFrom_iff sha_xor_order06_16 j (by omega) (by omega)
  by_cases c17 : j < 86016
  · exact allFrom_iff sha_xor_order06_17 j (by omega) (by omega)
  by_cases c18 : j < 88064
  · exact allFrom_iff sha_xor_order06_18 j (by omega) (by omega)
  by_cases c19 : j < 90112
  · exact allFrom_iff sha_xor_order06_19 j (by omega) (by omega)
  by_cases c20 : j < 92160
  · exact allFrom_iff sha_xor_order06_20 j (by omega) (by omega)
  by_cases c21 : j < 94208
  · exact allFrom_iff sha_xor_order06_21 j (by omega) (by omega)
  by_cases c22 : j < 96256
  · exact allFrom_iff sha_xor_order06_22 j (by omega) (by omega)
  exact allFrom_iff sha_xor_order06_23 j (by omega) (by omega)

end Verif
