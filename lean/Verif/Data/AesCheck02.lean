import Verif.Aes
import Verif.CutLemmas
import Verif.KernelRfl

/-!
# Checks of the gates 18432 to 27647 of the circuit in `Aes`

Generated by `tools/gen_circuits.py`.
-/

namespace Verif

open Data

theorem aes_blocks02 : aesBlocks02 = (List.range' 144 72).map (aesNet.block 128) := by krfl

theorem aes_gates02_0 : allFrom (fun q => aesCert.okCode (aesNet.slot q)) 18432 2304 = true := by
  decide +kernel

theorem aes_gates02_1 : allFrom (fun q => aesCert.okCode (aesNet.slot q)) 20736 2304 = true := by
  decide +kernel

theorem aes_gates02_2 : allFrom (fun q => aesCert.okCode (aesNet.slot q)) 23040 2304 = true := by
  decide +kernel

theorem aes_gates02_3 : allFrom (fun q => aesCert.okCode (aesNet.slot q)) 25344 2304 = true := by
  decide +kernel

theorem aes_gates02 (q : Nat) (h1 : 18432 ≤ q) (h2 : q < 27648) : aesCert.okCode (aesNet.slot q) = true := by
  by_cases c0 : q < 20736
  · exact allFrom_iff aes_gates02_0 q (by omega) (by omega)
  by_cases c1 : q < 23040
  · exact allFrom_iff aes_gates02_1 q (by omega) (by omega)
  by_cases c2 : q < 25344
  · exact allFrom_iff aes_gates02_2 q (by omega) (by omega)
  exact allFrom_iff aes_gates02_3 q (by omega) (by omega)

theorem aes_topo02_0 : allFrom (aesNet.gateOk aesRank) 18432 2304 = true := by
  decide +kernel

theorem aes_topo02_1 : allFrom (aesNet.gateOk aesRank) 20736 2304 = true := by
  decide +kernel

theorem aes_topo02_2 : allFrom (aesNet.gateOk aesRank) 23040 2304 = true := by
  decide +kernel

theorem aes_topo02_3 : allFrom (aesNet.gateOk aesRank) 25344 2304 = true := by
  decide +kernel

theorem aes_topo02 (q : Nat) (h1 : 18432 ≤ q) (h2 : q < 27648) : aesNet.gateOk aesRank q = true := by
  by_cases c0 : q < 20736
  · exact allFrom_iff aes_topo02_0 q (by omega) (by omega)
  by_cases c1 : q < 23040
  · exact allFrom_iff aes_topo02_1 q (by omega) (by omega)
  by_cases c2 : q < 25344
  · exact allFrom_iff aes_topo02_2 q (by omega) (by omega)
  exact allFrom_iff aes_topo02_3 q (by omega) (by omega)

end Verif
