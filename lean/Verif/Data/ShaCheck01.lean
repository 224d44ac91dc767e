import Verif.Sha
import Verif.CutLemmas
import Verif.KernelRfl

/-!
# Checks of the gates 12288 to 24575 of the circuit in `Sha`

Generated by `tools/gen_circuits.py`.
-/

namespace Verif

open Data

theorem sha_blocks01 : shaBlocks01 = (List.range' 96 96).map (shaNet.block 128) := by krfl

theorem sha_gates01_0 : allFrom (fun q => shaCert.okCode (shaNet.slot q)) 12288 2048 = true := by
  decide +kernel

theorem sha_gates01_1 : allFrom (fun q => shaCert.okCode (shaNet.slot q)) 14336 2048 = true := by
  decide +kernel

theorem sha_gates01_2 : allFrom (fun q => shaCert.okCode (shaNet.slot q)) 16384 2048 = true := by
  decide +kernel

theorem sha_gates01_3 : allFrom (fun q => shaCert.okCode (shaNet.slot q)) 18432 2048 = true := by
  decide +kernel

theorem sha_gates01_4 : allFrom (fun q => shaCert.okCode (shaNet.slot q)) 20480 2048 = true := by
  decide +kernel

theorem sha_gates01_5 : allFrom (fun q => shaCert.okCode (shaNet.slot q)) 22528 2048 = true := by
  decide +kernel

theorem sha_gates01 (q : Nat) (h1 : 12288 ≤ q) (h2 : q < 24576) : shaCert.okCode (shaNet.slot q) = true := by
  by_cases c0 : q < 14336
  · exact allFrom_iff sha_gates01_0 q (by omega) (by omega)
  by_cases c1 : q < 16384
  · exact allFrom_iff sha_gates01_1 q (by omega) (by omega)
  by_cases c2 : q < 18432
  · exact allFrom_iff sha_gates01_2 q (by omega) (by omega)
  by_cases c3 : q < 20480
  · exact allFrom_iff sha_gates01_3 q (by omega) (by omega)
  by_cases c4 : q < 22528
  · exact allFrom_iff sha_gates01_4 q (by omega) (by omega)
  exact allFrom_iff sha_gates01_5 q (by omega) (by omega)

theorem sha_topo01_0 : allFrom (shaNet.gateOk shaRank) 12288 2048 = true := by
  decide +kernel

theorem sha_topo01_1 : allFrom (shaNet.gateOk shaRank) 14336 2048 = true := by
  decide +kernel

theorem sha_topo01_2 : allFrom (shaNet.gateOk shaRank) 16384 2048 = true := by
  decide +kernel

theorem sha_topo01_3 : allFrom (shaNet.gateOk shaRank) 18432 2048 = true := by
  decide +kernel

theorem sha_topo01_4 : allFrom (shaNet.gateOk shaRank) 20480 2048 = true := by
  decide +kernel

theorem sha_topo01_5 : allFrom (shaNet.gateOk shaRank) 22528 2048 = true := by
  decide +kernel

theorem sha_topo01 (q : Nat) (h1 : 12288 ≤ q) (h2 : q < 24576) : shaNet.gateOk shaRank q = true := by
  by_cases c0 : q < 14336
  · exact allFrom_iff sha_topo01_0 q (by omega) (by omega)
  by_cases c1 : q < 16384
  · exact allFrom_iff sha_topo01_1 q (by omega) (by omega)
  by_cases c2 : q < 18432
  · exact allFrom_iff sha_topo01_2 q (by omega) (by omega)
  by_cases c3 : q < 20480
  · exact allFrom_iff sha_topo01_3 q (by omega) (by omega)
  by_cases c4 : q < 22528
  · exact allFrom_iff sha_topo01_4 q (by omega) (by omega)
  exact allFrom_iff sha_topo01_5 q (by omega) (by omega)

end Verif
