import Verif.Sha
import Verif.CutLemmas
import Verif.KernelRfl

/-!
# Checks of the gates 110592 to 122879 of the circuit in `Sha`

Generated by `tools/gen_circuits.py`.
-/

namespace Verif

open Data

theorem sha_blocks09 : shaBlocks09 = (List.range' 864 96).map (shaNet.block 128) := by krfl

theorem sha_gates09_0 : allFrom (fun q => shaCert.okCode (shaNet.slot q)) 110592 2048 = true := by
  decide +kernel

theorem sha_gates09_1 : allFrom (fun q => shaCert.okCode (shaNet.slot q)) 112640 2048 = true := by
  decide +kernel

theorem sha_gates09_2 : allFrom (fun q => shaCert.okCode (shaNet.slot q)) 114688 2048 = true := by
  decide +kernel

theorem sha_gates09_3 : allFrom (fun q => shaCert.okCode (shaNet.slot q)) 116736 2048 = true := by
  decide +kernel

theorem sha_gates09_4 : allFrom (fun q => shaCert.okCode (shaNet.slot q)) 118784 2048 = true := by
  decide +kernel

theorem sha_gates09_5 : allFrom (fun q => shaCert.okCode (shaNet.slot q)) 120832 2048 = true := by
  decide +kernel

theorem sha_gates09 (q : Nat) (h1 : 110592 ≤ q) (h2 : q < 122880) : shaCert.okCode (shaNet.slot q) = true := by
  by_cases c0 : q < 112640
  · exact allFrom_iff sha_gates09_0 q (by omega) (by omega)
  by_cases c1 : q < 114688
  · exact allFrom_iff sha_gates09_1 q (by omega) (by omega)
  by_cases c2 : q < 116736
  · exact allFrom_iff sha_gates09_2 q (by omega) (by omega)
  by_cases c3 : q < 118784
  · exact allFrom_iff sha_gates09_3 q (by omega) (by omega)
  by_cases c4 : q < 120832
  · exact allFrom_iff sha_gates09_4 q (by omega) (by omega)
  exact allFrom_iff sha_gates09_5 q (by omega) (by omega)

theorem sha_topo09_0 : allFrom (shaNet.gateOk shaRank) 110592 2048 = true := by
  decide +kernel

theorem sha_topo09_1 : allFrom (shaNet.gateOk shaRank) 112640 2048 = true := by
  decide +kernel

theorem sha_topo09_2 : allFrom (shaNet.gateOk shaRank) 114688 2048 = true := by
  decide +kernel

theorem sha_topo09_3 : allFrom (shaNet.gateOk shaRank) 116736 2048 = true := by
  decide +kernel

theorem sha_topo09_4 : allFrom (shaNet.gateOk shaRank) 118784 2048 = true := by
  decide +kernel

theorem sha_topo09_5 : allFrom (shaNet.gateOk shaRank) 120832 2048 = true := by
  decide +kernel

theorem sha_topo09 (q : Nat) (h1 : 110592 ≤ q) (h2 : q < 122880) : shaNet.gateOk shaRank q = true := by
  by_cases c0 : q < 112640
  · exact allFrom_iff sha_topo09_0 q (by omega) (by omega)
  by_cases c1 : q < 114688
  · exact allFrom_iff sha_topo09_1 q (by omega) (by omega)
  by_cases c2 : q < 116736
  · exact allFrom_iff sha_topo09_2 q (by omega) (by omega)
  by_cases c3 : q < 118784
  · exact allFrom_iff sha_topo09_3 q (by omega) (by omega)
  by_cases c4 : q < 120832
  · exact allFrom_iff sha_topo09_4 q (by omega) (by omega)
  exact allFrom_iff sha_topo09_5 q (by omega) (by omega)

end Verif
