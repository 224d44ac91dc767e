import Verif.Sha
import Verif.CutLemmas
import Verif.KernelRfl

/-!
# Checks of the gates 24576 to 36863 of the circuit in `Sha`

Generated by `tools/gen_circuits.py`.
-/

namespace Verif

open Data

theorem sha_blocks02 : shaBlocks02 = (List.range' 192 96).map (shaNet.block 128) := by krfl

theorem sha_gates02_0 : allFrom (fun q => shaCert.okCode (shaNet.slot q)) 24576 2048 = true := by
  decide +kernel

theorem sha_gates02_1 : allFrom (fun q => shaCert.okCode (shaNet.slot q)) 26624 2048 = true := by
  decide +kernel

theorem sha_gates02_2 : allFrom (fun q => shaCert.okCode (shaNet.slot q)) 28672 2048 = true := by
  decide +kernel

theorem sha_gates02_3 : allFrom (fun q => shaCert.okCode (shaNet.slot q)) 30720 2048 = true := by
  decide +kernel

theorem sha_gates02_4 : allFrom (fun q => shaCert.okCode (shaNet.slot q)) 32768 2048 = true := by
  decide +kernel

theorem sha_gates02_5 : allFrom (fun q => shaCert.okCode (shaNet.slot q)) 34816 2048 = true := by
  decide +kernel

theorem sha_gates02 (q : Nat) (h1 : 24576 ≤ q) (h2 : q < 36864) : shaCert.okCode (shaNet.slot q) = true := by
  by_cases c0 : q < 26624
  · exact allFrom_iff sha_gates02_0 q (by omega) (by omega)
  by_cases c1 : q < 28672
  · exact allFrom_iff sha_gates02_1 q (by omega) (by omega)
  by_cases c2 : q < 30720
  · exact allFrom_iff sha_gates02_2 q (by omega) (by omega)
  by_cases c3 : q < 32768
  · exact allFrom_iff sha_gates02_3 q (by omega) (by omega)
  by_cases c4 : q < 34816
  · exact allFrom_iff sha_gates02_4 q (by omega) (by omega)
  exact allFrom_iff sha_gates02_5 q (by omega) (by omega)

theorem sha_topo02_0 : allFrom (shaNet.gateOk shaRank) 24576 2048 = true := by
  decide +kernel

theorem sha_topo02_1 : allFrom (shaNet.gateOk shaRank) 26624 2048 = true := by
  decide +kernel

theorem sha_topo02_2 : allFrom (shaNet.gateOk shaRank) 28672 2048 = true := by
  decide +kernel

theorem sha_topo02_3 : allFrom (shaNet.gateOk shaRank) 30720 2048 = true := by
  decide +kernel

theorem sha_topo02_4 : allFrom (shaNet.gateOk shaRank) 32768 2048 = true := by
  decide +kernel

theorem sha_topo02_5 : allFrom (shaNet.gateOk shaRank) 34816 2048 = true := by
  decide +kernel

theorem sha_topo02 (q : Nat) (h1 : 24576 ≤ q) (h2 : q < 36864) : shaNet.gateOk shaRank q = true := by
  by_cases c0 : q < 26624
  · exact allFrom_iff sha_topo02_0 q (by omega) (by omega)
  by_cases c1 : q < 28672
  · exact allFrom_iff sha_topo02_1 q (by omega) (by omega)
  by_cases c2 : q < 30720
  · exact allFrom_iff sha_topo02_2 q (by omega) (by omega)
  by_cases c3 : q < 32768
  · exact allFrom_iff sha_topo02_3 q (by omega) (by omega)
  by_cases c4 : q < 34816
  · exact allFrom_iff sha_topo02_4 q (by omega) (by omega)
  exact allFrom_iff sha_topo02_5 q (by omega) (by omega)

end Verif
