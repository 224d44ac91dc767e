import Verif.Sha
import Verif.CutLemmas
import Verif.KernelRfl

/-!
# Checks of the gates 86016 to 98303 of the circuit in `Sha`

Generated by `tools/gen_circuits.py`.
-/

namespace Verif

open Data

theorem sha_blocks07 : shaBlocks07 = (List.range' 672 96).map (shaNet.block 128) := by krfl

theorem sha_gates07_0 : allFrom (fun q => shaCert.okCode (shaNet.slot q)) 86016 2048 = true := by
  decide +kernel

theorem sha_gates07_1 : allFrom (fun q => shaCert.okCode (shaNet.slot q)) 88064 2048 = true := by
  decide +kernel

theorem sha_gates07_2 : allFrom (fun q => shaCert.okCode (shaNet.slot q)) 90112 2048 = true := by
  decide +kernel

theorem sha_gates07_3 : allFrom (fun q => shaCert.okCode (shaNet.slot q)) 92160 2048 = true := by
  decide +kernel

theorem sha_gates07_4 : allFrom (fun q => shaCert.okCode (shaNet.slot q)) 94208 2048 = true := by
  decide +kernel

theorem sha_gates07_5 : allFrom (fun q => shaCert.okCode (shaNet.slot q)) 96256 2048 = true := by
  decide +kernel

theorem sha_gates07 (q : Nat) (h1 : 86016 ≤ q) (h2 : q < 98304) : shaCert.okCode (shaNet.slot q) = true := by
  by_cases c0 : q < 88064
  · exact allFrom_iff sha_gates07_0 q (by omega) (by omega)
  by_cases c1 : q < 90112
  · exact allFrom_iff sha_gates07_1 q (by omega) (by omega)
  by_cases c2 : q < 92160
  · exact allFrom_iff sha_gates07_2 q (by omega) (by omega)
  by_cases c3 : q < 94208
  · exact allFrom_iff sha_gates07_3 q (by omega) (by omega)
  by_cases c4 : q < 96256
  · exact allFrom_iff sha_gates07_4 q (by omega) (by omega)
  exact allFrom_iff sha_gates07_5 q (by omega) (by omega)

theorem sha_topo07_0 : allFrom (shaNet.gateOk shaRank) 86016 2048 = true := by
  decide +kernel

theorem sha_topo07_1 : allFrom (shaNet.gateOk shaRank) 88064 2048 = true := by
  decide +kernel

theorem sha_topo07_2 : allFrom (shaNet.gateOk shaRank) 90112 2048 = true := by
  decide +kernel

theorem sha_topo07_3 : allFrom (shaNet.gateOk shaRank) 92160 2048 = true := by
  decide +kernel

theorem sha_topo07_4 : allFrom (shaNet.gateOk shaRank) 94208 2048 = true := by
  decide +kernel

theorem sha_topo07_5 : allFrom (shaNet.gateOk shaRank) 96256 2048 = true := by
  decide +kernel

theorem sha_topo07 (q : Nat) (h1 : 86016 ≤ q) (h2 : q < 98304) : shaNet.gateOk shaRank q = true := by
  by_cases c0 : q < 88064
  · exact allFrom_iff sha_topo07_0 q (by omega) (by omega)
  by_cases c1 : q < 90112
  · exact allFrom_iff sha_topo07_1 q (by omega) (by omega)
  by_cases c2 : q < 92160
  · exact allFrom_iff sha_topo07_2 q (by omega) (by omega)
  by_cases c3 : q < 94208
  · exact allFrom_iff sha_topo07_3 q (by omega) (by omega)
  by_cases c4 : q < 96256
  · exact allFrom_iff sha_topo07_4 q (by omega) (by omega)
  exact allFrom_iff sha_topo07_5 q (by omega) (by omega)

end Verif
