import Verif.Sha
import Verif.CutLemmas
import Verif.KernelRfl

/-!
# Checks of the gates 61440 to 73727 of the circuit in `Sha`

Generated by `tools/gen_circuits.py`.
-/

namespace Verif

open Data

theorem sha_blocks05 : shaBlocks05 = (List.range' 480 96).map (shaNet.block 128) := by krfl

theorem sha_gates05_0 : allFrom (fun q => shaCert.okCode (shaNet.slot q)) 61440 2048 = true := by
  decide +kernel

theorem sha_gates05_1 : allFrom (fun q => shaCert.okCode (shaNet.slot q)) 63488 2048 = true := by
  decide +kernel

theorem sha_gates05_2 : allFrom (fun q => shaCert.okCode (shaNet.slot q)) 65536 2048 = true := by
  decide +kernel

theorem sha_gates05_3 : allFrom (fun q => shaCert.okCode (shaNet.slot q)) 67584 2048 = true := by
  decide +kernel

theorem sha_gates05_4 : allFrom (fun q => shaCert.okCode (shaNet.slot q)) 69632 2048 = true := by
  decide +kernel

theorem sha_gates05_5 : allFrom (fun q => shaCert.okCode (shaNet.slot q)) 71680 2048 = true := by
  decide +kernel

theorem sha_gates05 (q : Nat) (h1 : 61440 ≤ q) (h2 : q < 73728) : shaCert.okCode (shaNet.slot q) = true := by
  by_cases c0 : q < 63488
  · exact allFrom_iff sha_gates05_0 q (by omega) (by omega)
  by_cases c1 : q < 65536
  · exact allFrom_iff sha_gates05_1 q (by omega) (by omega)
  by_cases c2 : q < 67584
  · exact allFrom_iff sha_gates05_2 q (by omega) (by omega)
  by_cases c3 : q < 69632
  · exact allFrom_iff sha_gates05_3 q (by omega) (by omega)
  by_cases c4 : q < 71680
  · exact allFrom_iff sha_gates05_4 q (by omega) (by omega)
  exact allFrom_iff sha_gates05_5 q (by omega) (by omega)

theorem sha_topo05_0 : allFrom (shaNet.gateOk shaRank) 61440 2048 = true := by
  decide +kernel

theorem sha_topo05_1 : allFrom (shaNet.gateOk shaRank) 63488 2048 = true := by
  decide +kernel

theorem sha_topo05_2 : allFrom (shaNet.gateOk shaRank) 65536 2048 = true := by
  decide +kernel

theorem sha_topo05_3 : allFrom (shaNet.gateOk shaRank) 67584 2048 = true := by
  decide +kernel

theorem sha_topo05_4 : allFrom (shaNet.gateOk shaRank) 69632 2048 = true := by
  decide +kernel

theorem sha_topo05_5 : allFrom (shaNet.gateOk shaRank) 71680 2048 = true := by
  decide +kernel

theorem sha_topo05 (q : Nat) (h1 : 61440 ≤ q) (h2 : q < 73728) : shaNet.gateOk shaRank q = true := by
  by_cases c0 : q < 63488
  · exact allFrom_iff sha_topo05_0 q (by omega) (by omega)
  by_cases c1 : q < 65536
  · exact allFrom_iff sha_topo05_1 q (by omega) (by omega)
  by_cases c2 : q < 67584
  · exact allFrom_iff sha_topo05_2 q (by omega) (by omega)
  by_cases c3 : q < 69632
  · exact allFrom_iff sha_topo05_3 q (by omega) (by omega)
  by_cases c4 : q < 71680
  · exact allFrom_iff sha_topo05_4 q (by omega) (by omega)
  exact allFrom_iff sha_topo05_5 q (by omega) (by omega)

end Verif
