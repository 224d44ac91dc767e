import Verif.Aes
import Verif.CutLemmas
import Verif.KernelRfl

/-!
# Checks of the gates 9216 to 18431 of the circuit in `Aes`

Generated by `tools/gen_circuits.py`.
-/

namespace Verif

open Data

theorem aes_blocks01 : aesBlocks01 = (List.range' 72 72).map (aesNet.block 128) := by krfl

theorem aes_gates01_0 : allFrom (fun q => aesCert.okCode (aesNet.slot q)) 9216 2304 = true := by
  decide +kernel

theorem aes_gates01_1 : allFrom (fun q => aesCert.okCode (aesNet.slot q)) 11520 2304 = true := by
  decide +kernel

theorem aes_gates01_2 : allFrom (fun q => aesCert.okCode (aesNet.slot q)) 13824 2304 = true := by
  decide +kernel

theorem aes_gates01_3 : allFrom (fun q => aesCert.okCode (aesNet.slot q)) 16128 2304 = true := by
  decide +kernel

theorem aes_gates01 (q : Nat) (h1 : 9216 ≤ q) (h2 : q < 18432) : aesCert.okCode (aesNet.slot q) = true := by
  by_cases c0 : q < 11520
  · exact allFrom_iff aes_gates01_0 q (by omega) (by omega)
  by_cases c1 : q < 13824
  · exact allFrom_iff aes_gates01_1 q (by omega) (by omega)
  by_cases c2 : q < 16128
  · exact allFrom_iff aes_gates01_2 q (by omega) (by omega)
  exact allFrom_iff aes_gates01_3 q (by omega) (by omega)

theorem aes_topo01_0 : allFrom (aesNet.gateOk aesRank) 9216 2304 = true := by
  decide +kernel

theorem aes_topo01_1 : allFrom (aesNet.gateOk aesRank) 11520 2304 = true := by
  decide +kernel

theorem aes_topo01_2 : allFrom (aesNet.gateOk aesRank) 13824 2304 = true := by
  decide +kernel

theorem aes_topo01_3 : allFrom (aesNet.gateOk aesRank) 16128 2304 = true := by
  decide +kernel

theorem aes_topo01 (q : Nat) (h1 : 9216 ≤ q) (h2 : q < 18432) : aesNet.gateOk aesRank q = true := by
  by_cases c0 : q < 11520
  · exact allFrom_iff aes_topo01_0 q (by omega) (by omega)
  by_cases c1 : q < 13824
  · exact allFrom_iff aes_topo01_1 q (by omega) (by omega)
  by_cases c2 : q < 16128
  · exact allFrom_iff aes_topo01_2 q (by omega) (by omega)
  exact allFrom_iff aes_topo01_3 q (by omega) (by omega)

end Verif
