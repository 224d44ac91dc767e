import Verif.Sha
import Verif.Data.ShaSortData
import Verif.CutLemmas

/-!
# Checks of the order of the gates of `data/circ/sha256.txt`, part 8 of 10

Generated by `tools/gen_circuits.py`.
-/

namespace Verif

open Data

theorem sha_xor_order07_0 : allFrom (shaSort.xor.orderOk shaNet shaSort.pos) 98304 2048 = true := by
  decide +kernel

theorem sha_xor_order07_1 : allFrom (shaSort.xor.orderOk shaNet shaSort.pos) 100352 2048 = true := by
  decide +kernel

theorem sha_xor_order07_2 : allFrom (shaSort.xor.orderOk shaNet shaSort.pos) 102400 2048 = true := by
  decide +kernel

theorem sha_xor_order07_3 : allFrom (shaSort.xor.orderOk shaNet shaSort.pos) 104448 2048 = true := by
  decide +kernel

theorem sha_xor_order07_4 : allFrom (shaSort.xor.orderOk shaNet shaSort.pos) 106496 2048 = true := by
  decide +kernel

theorem sha_xor_order07_5 : allFrom (shaSort.xor.orderOk shaNet shaSort.pos) 108544 2048 = true := by
  decide +kernel

theorem sha_xor_order07_6 : allFrom (shaSort.xor.orderOk shaNet shaSort.pos) 110592 52 = true := by
  decide +kernel

theorem sha_xor_order07 (j : Nat) (h1 : 98304 ≤ j) (h2 : j < 110644) : shaSort.xor.orderOk shaNet shaSort.pos j = true := by
  by_cases c0 : j < 100352
  · exact allFrom_iff sha_xor_order07_0 j (by omega) (by omega)
  by_cases c1 : j < 102400
  · exact allFrom_iff sha_xor_order07_1 j (by omega) (by omega)
  by_cases c2 : j < 104448
  · exact allFrom_iff sha_xor_order07_2 j (by omega) (by omega)
  by_cases c3 : j < 106496
  · exact allFrom_iff sha_xor_order07_3 j (by omega) (by omega)
  by_cases c4 : j < 108544
  · exact allFrom_iff sha_xor_order07_4 j (by omega) (by omega)
  by_cases c5 : j < 110592
  · exact allFrom_iff sha_xor_order07_5 j (by omega) (by omega)
  exact allFrom_iff sha_xor_order07_6 j (by omega) (by omega)

end Verif
