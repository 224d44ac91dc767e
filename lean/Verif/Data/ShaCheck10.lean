import Verif.Sha
import Verif.CutLemmas
import Verif.KernelRfl

/-!
# Checks of the gates 122880 to 135072 of the circuit in `Sha`

Generated by `tools/gen_circuits.py`.
-/

namespace Verif

open Data

theorem sha_blocks10 : shaBlocks10 = (List.range' 960 96).map (shaNet.block 128) := by krfl

theorem sha_gates10_0 : allFrom (fun q => shaCert.okCode (shaNet.slot q)) 122880 2048 = true := by
  decide +kernel

theorem sha_gates10_1 : allFrom (fun q => shaCert.okCode (shaNet.slot q)) 124928 2048 = true := by
  decide +kernel

theorem sha_gates10_2 : allFrom (fun q => shaCert.okCode (shaNet.slot q)) 126976 2048 = true := by
  decide +kernel

theorem sha_gates10_3 : allFrom (fun q => shaCert.okCode (shaNet.slot q)) 129024 2048 = true := by
  decide +kernel

theorem sha_gates10_4 : allFrom (fun q => shaCert.okCode (shaNet.slot q)) 131072 2048 = true := by
  decide +kernel

theorem sha_gates10_5 : allFrom (fun q => shaCert.okCode (shaNet.slot q)) 133120 1953 = true := by
  decide +kernel

theorem sha_gates10 (q : Nat) (h1 : 122880 ≤ q) (h2 : q < 135073) : shaCert.okCode (shaNet.slot q) = true := by
  by_cases c0 : q < 124928
  · exact allFrom_iff sha_gates10_0 q (by omega) (by omega)
  by_cases c1 : q < 126976
  · exact allFrom_iff sha_gates10_1 q (by omega) (by omega)
  by_cases c2 : q < 129024
  · exact allFrom_iff sha_gates10_2 q (by omega) (by omega)
  by_cases c3 : q < 131072
  · exact allFrom_iff sha_gates10_3 q (by omega) (by omega)
  by_cases c4 : q < 133120
  · exact allFrom_iff sha_gates10_4 q (by omega) (by omega)
  exact allFrom_iff sha_gates10_5 q (by omega) (by omega)

theorem sha_topo10_0 : allFrom (shaNet.gateOk shaRank) 122880 2048 = true := by
  decide +kernel

theorem sha_topo10_1 : allFrom (shaNet.gateOk shaRank) 124928 2048 = true := by
  decide +kernel

theorem sha_topo10_2 : allFrom (shaNet.gateOk shaRank) 126976 2048 = true := by
  decide +kernel

theorem sha_topo10_3 : allFrom (shaNet.gateOk shaRank) 129024 2048 = true := by
  decide +kernel

theorem sha_topo10_4 : allFrom (shaNet.gateOk shaRank) 131072 2048 = true := by
  decide +kernel

theorem sha_topo10_5 : allFrom (shaNet.gateOk shaRank) 133120 1953 = true := by
  decide +kernel

theorem sha_topo10 (q : Nat) (h1 : 122880 ≤ q) (h2 : q < 135073) : shaNet.gateOk shaRank q = true := by
  by_cases c0 : q < 124928
  · exact allFrom_iff sha_topo10_0 q (by omega) (by omega)
  by_cases c1 : q < 126976
  · exact allFrom_iff sha_topo10_1 q (by omega) (by omega)
  by_cases c2 : q < 129024
  · exact allFrom_iff sha_topo10_2 q (by omega) (by omega)
  by_cases c3 : q < 131072
  · exact allFrom_iff sha_topo10_3 q (by omega) (by omega)
  by_cases c4 : q < 133120
  · exact allFrom_iff sha_topo10_4 q (by omega) (by omega)
  exact allFrom_iff sha_topo10_5 q (by omega) (by omega)

end Verif
