import Verif.Aes
import Verif.CutLemmas
import Verif.KernelRfl

/-!
# Checks of the gates 27648 to 36662 of the circuit in `Aes`

Generated by `tools/gen_circuits.py`.
-/

namespace Verif

open Data

theorem aes_blocks03 : aesBlocks03 = (List.range' 216 71).map (aesNet.block 128) := by krfl

theorem aes_gates03_0 : allFrom (fun q => aesCert.okCode (aesNet.slot q)) 27648 2304 = true := by
  decide +kernel

theorem aes_gates03_1 : allFrom (fun q => aesCert.okCode (aesNet.slot q)) 29952 2304 = true := by
  decide +kernel

theorem aes_gates03_2 : allFrom (fun q => aesCert.okCode (aesNet.slot q)) 32256 2304 = true := by
  decide +kernel

theorem aes_gates03_3 : allFrom (fun q => aesCert.okCode (aesNet.slot q)) 34560 2103 = true := by
  decide +kernel

theorem aes_gates03 (q : Nat) (h1 : 27648 ≤ q) (h2 : q < 36663) : aesCert.okCode (aesNet.slot q) = true := by
  by_cases c0 : q < 29952
  · exact allFrom_iff aes_gates03_0 q (by omega) (by omega)
  by_cases c1 : q < 32256
  · exact allFrom_iff aes_gates03_1 q (by omega) (by omega)
  by_cases c2 : q < 34560
  · exact allFrom_iff aes_gates03_2 q (by omega) (by omega)
  exact allFrom_iff aes_gates03_3 q (by omega) (by omega)

theorem aes_topo03_0 : allFrom (aesNet.gateOk aesRank) 27648 2304 = true := by
  decide +kernel

theorem aes_topo03_1 : allFrom (aesNet.gateOk aesRank) 29952 2304 = true := by
  decide +kernel

theorem aes_topo03_2 : allFrom (aesNet.gateOk aesRank) 32256 2304 = true := by
  decide +kernel

theorem aes_topo03_3 : allFrom (aesNet.gateOk aesRank) 34560 2103 = true := by
  decide +kernel

theorem aes_topo03 (q : Nat) (h1 : 27648 ≤ q) (h2 : q < 36663) : aesNet.gateOk aesRank q = true := by
  by_cases c0 : q < 29952
  · exact allFrom_iff aes_topo03_0 q (by omega) (by omega)
  by_cases c1 : q < 32256
  · exact allFrom_iff aes_topo03_1 q (by omega) (by omega)
  by_cases c2 : q < 34560
  · exact allFrom_iff aes_topo03_2 q (by omega) (by omega)
  exact allFrom_iff aes_topo03_3 q (by omega) (by omega)

end Verif
