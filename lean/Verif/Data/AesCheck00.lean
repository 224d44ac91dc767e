import Verif.Aes
import Verif.CutLemmas
import Verif.KernelRfl

/-!
# Checks of the gates 0 to 9215 of the circuit in `Aes`

Generated by `tools/gen_circuits.py`.
-/

namespace Verif

open Data

theorem aes_blocks00 : aesBlocks00 = (List.range' 0 72).map (aesNet.block 128) := by krfl

theorem aes_gates00_0 : allFrom (fun q => aesCert.okCode (aesNet.slot q)) 0 2304 = true := by
  decide +kernel

theorem aes_gates00_1 : allFrom (fun q => aesCert.okCode (aesNet.slot q)) 2304 2304 = true := by
  decide +kernel

theorem aes_gates00_2 : allFrom (fun q => aesCert.okCode (aesNet.slot q)) 4608 2304 = true := by
  decide +kernel

theorem aes_gates00_3 : allFrom (fun q => aesCert.okCode (aesNet.slot q)) 6912 2304 = true := by
  decide +kernel

theorem aes_gates00 (q : Nat) (h1 : 0 ≤ q) (h2 : q < 9216) : aesCert.okCode (aesNet.slot q) = true := by
  by_cases c0 : q < 2304
  · exact allFrom_iff aes_gates00_0 q (by omega) (by omega)
  by_cases c1 : q < 4608
  · exact allFrom_iff aes_gates00_1 q (by omega) (by omega)
  by_cases c2 : q < 6912
  · exact allFrom_iff aes_gates00_2 q (by omega) (by omega)
  exact allFrom_iff aes_gates00_3 q (by omega) (by omega)

theorem aes_topo00_0 : allFrom (aesNet.gateOk aesRank) 0 2304 = true := by
  decide +kernel

theorem aes_topo00_1 : allFrom (aesNet.gateOk aesRank) 2304 2304 = true := by
  decide +kernel

theorem aes_topo00_2 : allFrom (aesNet.gateOk aesRank) 4608 2304 = true := by
  decide +kernel

theorem aes_topo00_3 : allFrom (aesNet.gateOk aesRank) 6912 2304 = true := by
  decide +kernel

theorem aes_topo00 (q : Nat) (h1 : 0 ≤ q) (h2 : q < 9216) : aesNet.gateOk aesRank q = true := by
  by_cases c0 : q < 2304
  · exact allFrom_iff aes_topo00_0 q (by omega) (by omega)
  by_cases c1 : q < 4608
  · exact allFrom_iff aes_topo00_1 q (by omega) (by omega)
  by_cases c2 : q < 6912
  · exact allFrom_iff aes_topo00_2 q (by omega) (by omega)
  exact allFrom_iff aes_topo00_3 q (by omega) (by omega)

end Verif
