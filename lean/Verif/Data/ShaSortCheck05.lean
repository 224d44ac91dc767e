import Verif.Sha
import Verif.Data.ShaSortData
import Verif.CutLemmas

/-!
# Checks of the order of the gates of `data/circ/sha256.txt`, part 6 of 10

Generated by `tools/gen_circuits.py`.
-/

namespace Verif

open Data

theorem sha_xor_order05_0 : allFrom (shaSort.xor.orderOk shaNet shaSort.pos) 0 2048 = true := by
  decide +kernel

theorem sha_xor_order05_1 : allFrom (shaSort.xor.orderOk shaNet shaSort.pos) 2048 2048 = true := by
  decide +kernel

theorem sha_xor_order05_2 : allFrom (shaSort.xor.orderOk shaNet shaSort.pos) 4096 2048 = true := by
  decide +kernel

theorem sha_xor_order05_3 : allFrom (shaSort.xor.orderOk shaNet shaSort.pos) 6144 2048 = true := by
  decide +kernel

theorem sha_xor_order05_4 : allFrom (shaSort.xor.orderOk shaNet shaSort.pos) 8192 2048 = true := by
  decide +kernel

theorem sha_xor_order05_5 : allFrom (shaSort.xor.orderOk shaNet shaSort.pos) 10240 2048 = true := by
  decide +kernel

theorem sha_xor_order05_6 : allFrom (shaSort.xor.orderOk shaNet shaSort.pos) 12288 2048 = true := by
  decide +kernel

theorem sha_xor_order05_7 : allFrom (shaSort.xor.orderOk shaNet shaSort.pos) 14336 2048 = true := by
  decide +kernel

theorem sha_xor_order05_8 : allFrom (shaSort.xor.orderOk shaNet shaSort.pos) 16384 2048 = true := by
  decide +kernel

theorem sha_xor_order05_9 : allFrom (shaSort.xor.orderOk shaNet shaSort.pos) 18432 2048 = true := by
  decide +kernel

theorem sha_xor_order05_10 : allFrom (shaSort.xor.orderOk shaNet shaSort.pos) 20480 2048 = true := by
  decide +kernel

theorem sha_xor_order05_11 : allFrom (shaSort.xor.orderOk shaNet shaSort.pos) 22528 2048 = true := by
  decide +kernel

theorem sha_xor_order05_12 : allFrom (shaSort.xor.orderOk shaNet shaSort.pos) 24576 2048 = true := by
  decide +kernel

theorem sha_xor_order05_13 : allFrom (shaSort.xor.orderOk shaNet shaSort.pos) 26624 2048 = true := by
  decide +kernel

theorem sha_xor_order05_14 : allFrom (shaSort.xor.orderOk shaNet shaSort.pos) 28672 2048 = true := by
  decide +kernel

theorem sha_xor_order05_15 : allFrom (shaSort.xor.orderOk shaNet shaSort.pos) 30720 2048 = true := by
  decide +kernel

theorem sha_xor_order05_16 : allFrom (shaSort.xor.orderOk shaNet shaSort.pos) 32768 2048 = true := by
  decide +kernel

theorem sha_xor_order05_17 : allFrom (shaSort.xor.orderOk shaNet shaSort.pos) 34816 2048 = true := by
  decide +kernel

theorem sha_xor_order05_18 : allFrom (shaSort.xor.orderOk shaNet shaSort.pos) 36864 2048 = true := by
  decide +kernel

theorem sha_xor_order05_19 : allFrom (shaSort.xor.orderOk shaNet shaSort.pos) 38912 2048 = true := by
  decide +kernel

theorem sha_xor_order05_20 : allFrom (shaSort.xor.orderOk shaNet shaSort.pos) 40960 2048 = true := by
  decide +kernel

theorem sha_xor_order05_21 : allFrom (shaSort.xor.orderOk shaNet shaSort.pos) 43008 2048 = true := by
  decide +kernel

theorem sha_xor_order05_22 : allFrom (shaSort.xor.orderOk shaNet shaSort.pos) 45056 2048 = true := by
  decide +kernel

theorem sha_xor_order05_23 : allFrom (shaSort.xor.orderOk shaNet shaSort.pos) 47104 2048 = true := by
  decide +kernel

theorem sha_xor_order05 (j : Nat) (h1 : 0 ≤ j) (h2 : j < 49152) : shaSort.xor.orderOk shaNet shaSort.pos j = true := by
  by_cases c0 : j < 2048
  · exact allFrom_iff sha_xor_order05_0 j (by omega) (by omega)
  by_cases c1 : j < 4096
  · exact allFrom_iff sha_xor_order05_1 j (by omega) (by omega)
  by_cases c2 : j < 6144
  · exact allFrom_iff sha_xor_order05_2 j (by omega) (by omega)
  by_cases c3 : j < 8192
  · exact allFrom_iff sha_xor_order05_3 j (by omega) (by omega)
  by_cases c4 : j < 10240
  · exact allFrom_iff sha_xor_order05_4 j (by omega) (by omega)
  by_cases c5 : j < 12288
  · exact allFrom_iff sha_xor_order05_5 j (by omega) (by omega)
  by_cases c6 : j < 14336
  · exact allFrom_iff sha_xor_order05_6 j (by omega) (by omega)
  by_cases c7 : j < 16384
  · exact allFrom_iff sha_xor_order05_7 j (by omega) (by omega)
  by_cases c8 : j < 18432
  · exact allFrom_iff sha_xor_order05_8 j (by omega) (by omega)
  by_cases c9 : j < 20480
  · exact allFrom_iff sha_xor_order05_9 j (by omega) (by omega)
  by_cases c10 : j < 22528
  · exact allFrom_iff sha_xor_order05_10 j (by omega) (by omega)
  by_cases c11 : j < 24576
  · exact allFrom_iff sha_xor_order05_11 j (by omega) (by omega)
  by_cases c12 : j < 26624
  · exact allFrom_iff sha_xor_order05_12 j (by omega) (by omega)
  by_cases c13 : j < 28672
  · exact allFrom_iff sha_xor_order05_13 j (by omega) (by omega)
  by_cases c14 : j < 30720
  · exact allFrom_iff sha_xor_order05_14 j (by omega) (by omega)
  by_cases c15 : j < 32768
  · exact allFrom_iff sha_xor_order05_15 j (by omega) (by omega)
  by_cases c16 : j < 34816
  · exact allFrom_iff sha_xor_order05_16 j (by omega) (by omega)
  by_cases c17 : j < 36864
  · exact allFrom_iff sha_xor_order05_17 j (by omega) (by omega)
  by_cases c18 : j < 38912
  · exact allFrom_iff sha_xor_order05_18 j (by omega) (by omega)
  by_cases c19 : j < 40960
  · exact allFrom_iff sha_xor_order05_19 j (by omega) (by omega)
  by_cases c20 : j < 43008
  · exact allFrom_iff sha_xor_order05_20 j (by omega) (by omega)
  by_cases c21 : j < 45056
  · exact allFrom_iff sha_xor_order05_21 j (by omega) (by omega)
  by_cases c22 : j < 47104
  · exact allFrom_iff sha_xor_order05_22 j (by omega) (by omega)
  exact allFrom_iff sha_xor_order05_23 j (by omega) (by omega)

end Verif
