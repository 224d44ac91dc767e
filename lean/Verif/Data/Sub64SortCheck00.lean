import Verif.Sub64
import Verif.Data.Sub64SortData
import Verif.CutLemmas

/-!
# Checks of the order of the gates of `data/circ/sub64.txt`, part 1 of 1

Generated by `tools/gen_circuits.py`.
-/

namespace Verif

open Data

theorem sub64_xor_reads00_0 : allFrom (sub64Sort.xor.readOk sub64Net) 0 512 = true := by
  decide +kernel

theorem sub64_xor_reads00_1 : allFrom (sub64Sort.xor.readOk sub64Net) 512 114 = true := by
  decide +kernel

theorem sub64_xor_reads00 (j : Nat) (h1 : 0 ≤ j) (h2 : j < 626) : sub64Sort.xor.readOk sub64Net j = true := by
  by_cases c0 : j < 512
  · exact allFrom_iff sub64_xor_reads00_0 j (by omega) (by omega)
  exact allFrom_iff sub64_xor_reads00_1 j (by omega) (by omega)

theorem sub64_xor_order00_0 : allFrom (sub64Sort.xor.orderOk sub64Net sub64Sort.pos) 0 313 = true := by
  decide +kernel

theorem sub64_xor_order00 (j : Nat) (h1 : 0 ≤ j) (h2 : j < 313) : sub64Sort.xor.orderOk sub64Net sub64Sort.pos j = true := by
  exact allFrom_iff sub64_xor_order00_0 j (by omega) (by omega)

theorem sub64_and_reads00_0 : allFrom (sub64Sort.and.readOk sub64Net) 0 126 = true := by
  decide +kernel

theorem sub64_and_reads00 (j : Nat) (h1 : 0 ≤ j) (h2 : j < 126) : sub64Sort.and.readOk sub64Net j = true := by
  exact allFrom_iff sub64_and_reads00_0 j (by omega) (by omega)

theorem sub64_and_order00_0 : allFrom (sub64Sort.and.orderOk sub64Net sub64Sort.pos) 0 63 = true := by
  decide +kernel

theorem sub64_and_order00 (j : Nat) (h1 : 0 ≤ j) (h2 : j < 63) : sub64Sort.and.orderOk sub64Net sub64Sort.pos j = true := by
  exact allFrom_iff sub64_and_order00_0 j (by omega) (by omega)

theorem sub64_inv_reads00_0 : allFrom (sub64Sort.inv.readOk sub64Net) 0 63 = true := by
  decide +kernel

theorem sub64_inv_reads00 (j : Nat) (h1 : 0 ≤ j) (h2 : j < 63) : sub64Sort.inv.readOk sub64Net j = true := by
  exact allFrom_iff sub64_inv_reads00_0 j (by omega) (by omega)

theorem sub64_inv_order00_0 : allFrom (sub64Sort.inv.orderOk sub64Net sub64Sort.pos) 0 63 = true := by
  decide +kernel

theorem sub64_inv_order00 (j : Nat) (h1 : 0 ≤ j) (h2 : j < 63) : sub64Sort.inv.orderOk sub64Net sub64Sort.pos j = true := by
  exact allFrom_iff sub64_inv_order00_0 j (by omega) (by omega)

end Verif
