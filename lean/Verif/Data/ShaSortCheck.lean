import Verif.Data.ShaSortCheck00
import Verif.Data.ShaSortCheck01
import Verif.Data.ShaSortCheck02
import Verif.Data.ShaSortCheck03
import Verif.Data.ShaSortCheck04
import Verif.Data.ShaSortCheck05
import Verif.Data.ShaSortCheck06
import Verif.Data.ShaSortCheck07
import Verif.Data.ShaSortCheck08
import Verif.Data.ShaSortCheck09

/-!
# Checks of the order of the gates of `data/circ/sha256.txt`

Generated by `tools/gen_circuits.py`.
-/

namespace Verif

theorem sha_xor_reads (j : Nat) (h : j < 221288) : shaSort.xor.readOk shaNet j = true := by
  by_cases c0 : j < 49152
  · exact sha_xor_reads00 j (by omega) (by omega)
  by_cases c1 : j < 98304
  · exact sha_xor_reads01 j (by omega) (by omega)
  by_cases c2 : j < 147456
  · exact sha_xor_reads02 j (by omega) (by omega)
  by_cases c3 : j < 196608
  · exact sha_xor_reads03 j (by omega) (by omega)
  exact sha_xor_reads04 j (by omega) (by omega)

theorem sha_xor_order (j : Nat) (h : j < 110644) : shaSort.xor.orderOk shaNet shaSort.pos j = true := by
  by_cases c0 : j < 49152
  · exact sha_xor_order05 j (by omega) (by omega)
  by_cases c1 : j < 98304
  · exact sha_xor_order06 j (by omega) (by omega)
  exact sha_xor_order07 j (by omega) (by omega)

theorem sha_and_reads (j : Nat) (h : j < 45146) : shaSort.and.readOk shaNet j = true := by
  exact sha_and_reads08 j (by omega) (by omega)

theorem sha_and_order (j : Nat) (h : j < 22573) : shaSort.and.orderOk shaNet shaSort.pos j = true := by
  exact sha_and_order09 j (by omega) (by omega)

theorem sha_inv_reads (j : Nat) (h : j < 1856) : shaSort.inv.readOk shaNet j = true := by
  exact sha_inv_reads09 j (by omega) (by omega)

theorem sha_inv_order (j : Nat) (h : j < 1856) : shaSort.inv.orderOk shaNet shaSort.pos j = true := by
  exact sha_inv_order09 j (by omega) (by omega)

end Verif
