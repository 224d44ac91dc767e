import Verif.Data.AesSortCheck00
import Verif.Data.AesSortCheck01
import Verif.Data.AesSortCheck02
import Verif.Data.AesSortCheck03

/-!
# Checks of the order of the gates of `data/circ/aes_128.txt`

Generated by `tools/gen_circuits.py`.
-/

namespace Verif

theorem aes_xor_reads (j : Nat) (h : j < 56352) : aesSort.xor.readOk aesNet j = true := by
  by_cases c0 : j < 32768
  · exact aes_xor_reads00 j (by omega) (by omega)
  exact aes_xor_reads01 j (by omega) (by omega)

theorem aes_xor_order (j : Nat) (h : j < 28176) : aesSort.xor.orderOk aesNet aesSort.pos j = true := by
  exact aes_xor_order02 j (by omega) (by omega)

theorem aes_and_reads (j : Nat) (h : j < 12800) : aesSort.and.readOk aesNet j = true := by
  exact aes_and_reads03 j (by omega) (by omega)

theorem aes_and_order (j : Nat) (h : j < 6400) : aesSort.and.orderOk aesNet aesSort.pos j = true := by
  exact aes_and_order03 j (by omega) (by omega)

theorem aes_inv_reads (j : Nat) (h : j < 2087) : aesSort.inv.readOk aesNet j = true := by
  exact aes_inv_reads03 j (by omega) (by omega)

theorem aes_inv_order (j : Nat) (h : j < 2087) : aesSort.inv.orderOk aesNet aesSort.pos j = true := by
  exact aes_inv_order03 j (by omega) (by omega)

end Verif
