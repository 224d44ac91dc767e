import Verif.RowKeyLemmas
import Verif.AesMain
import Verif.ShaMain
import Verif.Sub64Lemmas

/-!
# No gate of the shipped circuits reads the same wire twice
-/

namespace Verif

theorem sub64_distinct : sub64Net.allDistinct 1 = true := by decide +kernel

theorem aes_distinct : aesNet.allDistinct 36 = true := by decide +kernel

theorem sha_distinct : shaNet.allDistinct 132 = true := by decide +kernel

end Verif
