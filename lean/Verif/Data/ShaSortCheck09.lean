import Verif.Sha
import Verif.Data.ShaSortData
import Verif.CutLemmas

/-!
# Checks of the order of the gates of `data/circ/sha256.txt`, part 10 of 10

Generated by `tools/gen_circuits.py`.
-/

namespace Verif

open Data

theorem sha_and_order09_0 : allFrom (shaSort.and.orderOk shaNet shaSort.pos) 0 2048 = true := by
  decide +kernel

theorem sha_and_order09_1 : allFrom (shaSort.and.orderOk shaNet shaSort.pos) 2048 2048 = true := by
  decide +kernel

theorem sha_and_order09_2 : allFrom (shaSort.and.orderOk shaNet shaSort.pos) 4096 2048 = true := by
  decide +kernel

theorem sha_and_order09_3 : allFrom (shaSort.and.orderOk shaNet shaSort.pos) 6144 2048 = true := by
  decide +kernel

theorem sha_and_order09_4 : allFrom (shaSort.and.orderOk shaNet shaSort.pos) 8192 2048 = true := by
  decide +kernel

theorem sha_and_order09_5 : allFrom (shaSort.and.orderOk shaNet shaSort.pos) 10240 2048 = true := by
  decide +kernel

theorem sha_and_order09_6 : allFrom (shaSort.and.orderOk shaNet shaSort.pos) 12288 2048 = true := by
  decide +kernel

theorem sha_and_order09_7 : allFrom (shaSort.and.orderOk shaNet shaSort.pos) 14336 2048 = true := by
  decide +kernel

theorem sha_and_order09_8 : allFrom (shaSort.and.orderOk shaNet shaSort.pos) 16384 2048 = true := by
  decide +kernel

theorem sha_and_order09_9 : allFrom (shaSort.and.orderOk shaNet shaSort.pos) 18432 2048 = true := by
  decide +kernel

theorem sha_and_order09_10 : allFrom (shaSort.and.orderOk shaNet shaSort.pos) 20480 2048 = true := by
  decide +kernel

theorem sha_and_order09_11 : allFrom (shaSort.and.orderOk shaNet shaSort.pos) 22528 45 = true := by
  decide +kernel

theorem sha_and_order09 (j : Nat) (h1 : 0 ≤ j) (h2 : j < 22573) : shaSort.and.orderOk shaNet shaSort.pos j = true := by
  by_cases c0 : j < 2048
  · exact allFrom_iff sha_and_order09_0 j (by omega) (by omega)
  by_cases c1 : j < 4096
  · exact allFrom_iff sha_and_order09_1 j (by omega) (by omega)
  by_cases c2 : j < 6144
  · exact allFrom_iff sha_and_order09_2 j (by omega) (by omega)
  by_cases c3 : j < 8192
  · exact allFrom_iff sha_and_order09_3 j (by omega) (by omega)
  by_cases c4 : j < 10240
  · exact allFrom_iff sha_and_order09_4 j (by omega) (by omega)
  by_cases c5 : j < 12288
  · exact allFrom_iff sha_and_order09_5 j (by omega) (by omega)
  by_cases c6 : j < 14336
  · exact allFrom_iff sha_and_order09_6 j (by omega) (by omega)
  by_cases c7 : j < 16384
  · exact allFrom_iff sha_and_order09_7 j (by omega) (by omega)
  by_cases c8 : j < 18432
  · exact allFrom_iff sha_and_order09_8 j (by omega) (by omega)
  by_cases c9 : j < 20480
  · exact allFrom_iff sha_and_order09_9 j (by omega) (by omega)
  by_cases c10 : j < 22528
  · exact allFrom_iff sha_and_order09_10 j (by omega) (by omega)
  exact allFrom_iff sha_and_order09_11 j (by omega) (by omega)

theorem sha_inv_reads09_0 : allFrom (shaSort.inv.readOk shaNet) 0 1856 = true := by
  decide +kernel

theorem sha_inv_reads09 (j : Nat) (h1 : 0 ≤ j) (h2 : j < 1856) : shaSort.inv.readOk shaNet j = true := by
  exact allFrom_iff sha_inv_reads09_0 j (by omega) (by omega)

theorem sha_inv_order09_0 : allFrom (shaSort.inv.orderOk shaNet shaSort.pos) 0 1856 = true := by
  decide +kernel

theorem sha_inv_order09 (j : Nat) (h1 : 0 ≤ j) (h2 : j < 1856) : shaSort.inv.orderOk shaNet shaSort.pos j = true := by
  exact allFrom_iff sha_inv_order09_0 j (by omega) (by omega)

end Verif
