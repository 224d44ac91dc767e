import Verif.Sha
import Verif.CutLemmas
import Verif.KernelRfl

/-!
# Checks of the gates 73728 to 86015 of the circuit in `Sha`

Generated by `tools/gen_circuits.py`.
-/

namespace Verif

open Data

theorem sha_blocks06 : shaBlocks06 = (List.range' 576 96).map (shaNet.block 128) := by krfl

theorem sha_gates06_0 : allFrom (fun q => shaCert.okCode (shaNet.slot q)) 73728 2048 = true := by
  decide +kernel

theorem sha_gates06_1 : allFrom (fun q => shaCert.okCode (shaNet.slot q)) 75776 2048 = true := by
  decide +kernel

theorem sha_gates06_2 : allFrom (fun q => shaCert.okCode (shaNet.slot q)) 77824 2048 = true := by
  decide +kernel

theorem sha_gates06_3 : allFrom (fun q => shaCert.okCode (shaNet.slot q)) 79872 2048 = true := by
  decide +kernel

theorem sha_gates06_4 : allFrom (fun q => shaCert.okCode (shaNet.slot q)) 81920 2048 = true := by
  decide +kernel

theorem sha_gates06_5 : allFrom (fun q => shaCert.okCode (shaNet.slot q)) 83968 2048 = true := by
  decide +kernel

theorem sha_gates06 (q : Nat) (h1 : 73728 ≤ q) (h2 : q < 86016) : shaCert.okCode (shaNet.slot q) = true := by
  by_cases c0 : q < 75776
  · exact allFrom_iff sha_gates06_0 q (by omega) (by omega)
  by_cases c1 : q < 77824
  · exact allFrom_iff sha_gates06_1 q (by omega) (by omega)
  by_cases c2 : q < 79872
  · exact allFrom_iff sha_gates06_2 q (by omega) (by omega)
  by_cases c3 : q < 81920
  · exact allFrom_iff sha_gates06_3 q (by omega) (by omega)
  by_cases c4 : q < 83968
  · exact allFrom_iff sha_gates06_4 q (by omega) (by omega)
  exact allFrom_iff sha_gates06_5 q (by omega) (by omega)

theorem sha_topo06_0 : allFrom (shaNet.gateOk shaRank) 73728 2048 = true := by
  decide +kernel

theorem sha_topo06_1 : allFrom (shaNet.gateOk shaRank) 75776 2048 = true := by
  decide +kernel

theorem sha_topo06_2 : allFrom (shaNet.gateOk shaRank) 77824 2048 = true := by
  decide +kernel

theorem sha_topo06_3 : allFrom (shaNet.gateOk shaRank) 79872 2048 = true := by
  decide +kernel

theorem sha_topo06_4 : allFrom (shaNet.gateOk shaRank) 81920 2048 = true := by
  decide +kernel

theorem sha_topo06_5 : allFrom (shaNet.gateOk shaRank) 83968 2048 = true := by
  decide +kernel

theorem sha_topo06 (q : Nat) (h1 : 73728 ≤ q) (h2 : q < 86016) : shaNet.gateOk shaRank q = true := by
  by_cases c0 : q < 75776
  · exact allFrom_iff sha_topo06_0 q (by omega) (by omega)
  by_cases c1 : q < 77824
  · exact allFrom_iff sha_topo06_1 q (by omega) (by omega)
  by_cases c2 : q < 79872
  · exact allFrom_iff sha_topo06_2 q (by omega) (by omega)
  by_cases c3 : q < 81920
  · exact allFrom_iff sha_topo06_3 q (by omega) (by omega)
  by_cases c4 : q < 83968
  · exact allFrom_iff sha_topo06_4 q (by omega) (by omega)
  exact allFrom_iff sha_topo06_5 q (by omega) (by omega)

end Verif
