import Verif.Data.Sub64SortCheck00

/-!
# Checks of the order of the gates of `data/circ/sub64.txt`

Generated by `tools/gen_circuits.py`.
-/

namespace Verif

theorem sub64_xor_reads (j : Nat) (h : j < 626) : sub64Sort.xor.readOk sub64Net j = true := by
  exact sub64_xor_reads00 j (by omega) (by omega)

theorem sub64_xor_order (j : Nat) (h : j < 313) : sub64Sort.xor.orderOk sub64Net sub64Sort.pos j = true := by
  exact sub64_xor_order00 j (by omega) (by omega)

theorem sub64_and_reads (j : Nat) (h : j < 126) : sub64Sort.and.readOk sub64Net j = true := by
  exact sub64_and_reads00 j (by omega) (by omega)

theorem sub64_and_order (j : Nat) (h : j < 63) : sub64Sort.and.orderOk sub64Net sub64Sort.pos j = true := by
  exact sub64_and_order00 j (by omega) (by omega)

theorem sub64_inv_reads (j : Nat) (h : j < 63) : sub64Sort.inv.readOk sub64Net j = true := by
  exact sub64_inv_reads00 j (by omega) (by omega)

theorem sub64_inv_order (j : Nat) (h : j < 63) : sub64Sort.inv.orderOk sub64Net sub64Sort.pos j = true := by
  exact sub64_inv_order00 j (by omega) (by omega)

end Verif
