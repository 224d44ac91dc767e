import Verif.Sha
import Verif.Data.ShaSortData
import Verif.CutLemmas

/-!
# Checks of the order of the gates of `data/circ/sha256.txt`, part 5 of 10

Generated by `tools/gen_circuits.py`.
-/

namespace Verif

open Data

theorem sha_xor_reads04_0 : allFrom (shaSort.xor.readOk shaNet) 196608 2048 = true := by
  decide +kernel

theorem sha_xor_reads04_1 : allFrom (shaSort.xor.readOk shaNet) 198656 2048 = true := by
  decide +kernel

theorem sha_xor_reads04_2 : allFrom (shaSort.xor.readOk shaNet) 200704 2048 = true := by
  decide +kernel

theorem sha_xor_reads04_3 : allFrom (shaSort.xor.readOk shaNet) 202752 2048 = true := by
  decide +kernel

theorem sha_xor_reads04_4 : allFrom (shaSort.xor.readOk shaNet) 204800 2048 = true := by
  decide +kernel

theorem sha_xor_reads04_5 : allFrom (shaSort.xor.readOk shaNet) 206848 2048 = true := by
  decide +kernel

theorem sha_xor_reads04_6 : allFrom (shaSort.xor.readOk shaNet) 208896 2048 = true := by
  decide +kernel

theorem sha_xor_reads04_7 : allFrom (shaSort.xor.readOk shaNet) 210944 2048 = true := by
  decide +kernel

theorem sha_xor_reads04_8 : allFrom (shaSort.xor.readOk shaNet) 212992 2048 = true := by
  decide +kernel

theorem sha_xor_reads04_9 : allFrom (shaSort.xor.readOk shaNet) 215040 2048 = true := by
  decide +kernel

theorem sha_xor_reads04_10 : allFrom (shaSort.xor.readOk shaNet) 217088 2048 = true := by
  decide +kernel

theorem sha_xor_reads04_11 : allFrom (shaSort.xor.readOk shaNet) 219136 2048 = true := by
  decide +kernel

theorem sha_xor_reads04_12 : allFrom (shaSort.xor.readOk shaNet) 221184 104 = true := by
  decide +kernel

theorem sha_xor_reads04 (j : Nat) (h1 : 196608 ≤ j) (h2 : j < 221288) : shaSort.xor.readOk shaNet j = true := by
  by_cases c0 : j < 198656
  · exact allFrom_iff sha_xor_reads04_0 j (by omega) (by omega)
  by_cases c1 : j < 200704
  · exact allFrom_iff sha_xor_reads04_1 j (by omega) (by omega)
  by_cases c2 : j < 202752
  · exact allFrom_iff sha_xor_reads04_2 j (by omega) (by omega)
  by_cases c3 : j < 204800
  · exact allFrom_iff sha_xor_reads04_3 j (by omega) (by omega)
  by_cases c4 : j < 206848
  · exact allFrom_iff sha_xor_reads04_4 j (by omega) (by omega)
  by_cases c5 : j < 208896
  · exact allFrom_iff sha_xor_reads04_5 j (by omega) (by omega)
  by_cases c6 : j < 210944
  · exact allFrom_iff sha_xor_reads04_6 j (by omega) (by omega)
  by_cases c7 : j < 212992
  · exact allFrom_iff sha_xor_reads04_7 j (by omega) (by omega)
  by_cases c8 : j < 215040
  · exact allFrom_iff sha_xor_reads04_8 j (by omega) (by omega)
  by_cases c9 : j < 217088
  · exact allFrom_iff sha_xor_reads04_9 j (by omega) (by omega)
  by_cases c10 : j < 219136
  · exact allFrom_iff sha_xor_reads04_10 j (by omega) (by omega)
  by_cases c11 : j < 221184
  · exact allFrom_iff sha_xor_reads04_11 j (by omega) (by omega)
  exact allFrom_iff sha_xor_reads04_12 j (by omega) (by omega)

end Verif
