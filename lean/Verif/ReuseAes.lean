import Verif.ReuseCheck
import Verif.ShippedSort

/-!
# Two gates of the shipped AES circuit which use the same LPN matrix
-/

namespace Verif

/-- Block, input, slot, wire, and how often the blocks up to this one read the wire in this slot: for block 54 of `aes_128.txt`, of AND gates, and block
548, of XOR gates, with 16 gates per block. -/
def aesReads : List (Nat × Nat × Nat × Nat × Nat) := [
  (54, 0, 0, 1970, 2), (54, 0, 1, 2014, 1), (54, 0, 2, 1969, 1), (54, 0, 3, 2015, 1), (54, 0, 4, 1967, 1), (54, 0, 5, 2109, 1),
  (54, 0, 6, 2107, 1), (54, 0, 7, 2110, 1), (54, 0, 8, 2111, 1), (54, 0, 9, 2115, 1), (54, 0, 10, 2108, 1), (54, 0, 11, 2146, 1),
  (54, 0, 12, 2115, 1), (54, 0, 13, 2112, 1), (54, 0, 14, 2148, 1), (54, 0, 15, 2145, 1), (54, 1, 0, 2013, 1), (54, 1, 1, 1999, 1),
  (54, 1, 2, 2014, 1), (54, 1, 3, 2000, 1), (54, 1, 4, 2015, 1), (54, 1, 5, 2139, 1), (54, 1, 6, 2140, 1), (54, 1, 7, 2142, 1),
  (54, 1, 8, 2143, 1), (54, 1, 9, 2144, 1), (54, 1, 10, 2145, 1), (54, 1, 11, 2144, 1), (54, 1, 12, 2146, 1), (54, 1, 13, 2147, 1),
  (54, 1, 14, 2141, 1), (54, 1, 15, 2149, 1), (548, 0, 0, 2013, 2), (548, 0, 1, 2022, 1), (548, 0, 2, 2026, 1), (548, 0, 3, 2026, 1),
  (548, 0, 4, 2048, 1), (548, 0, 5, 2048, 1), (548, 0, 6, 2037, 1), (548, 0, 7, 2082, 1), (548, 0, 8, 2064, 1), (548, 0, 9, 2028, 1),
  (548, 0, 10, 2066, 1), (548, 0, 11, 2097, 1), (548, 0, 12, 2067, 1), (548, 0, 13, 2105, 1), (548, 0, 14, 2069, 1), (548, 0, 15, 2069, 1),
  (548, 1, 0, 1936, 1), (548, 1, 1, 2023, 1), (548, 1, 2, 2027, 1), (548, 1, 3, 2029, 1), (548, 1, 4, 2092, 1), (548, 1, 5, 2053, 1),
  (548, 1, 6, 2062, 1), (548, 1, 7, 2063, 1), (548, 1, 8, 2062, 1), (548, 1, 9, 2064, 1), (548, 1, 10, 2043, 1), (548, 1, 11, 2066, 1),
  (548, 1, 12, 2038, 1), (548, 1, 13, 2067, 1), (548, 1, 14, 2032, 1), (548, 1, 15, 2030, 1)]

theorem aes_claims : ∀ x ∈ aesReads, aesSort.claimOk aesNet 16 400 x = true := by decide +kernel

end Verif
