import Verif.Sha
import Verif.CutLemmas
import Verif.KernelRfl

/-!
# Checks of the gates 98304 to 110591 of the circuit in `Sha`

Generated by `tools/gen_circuits.py`.
-/

namespace Verif

open Data

theorem sha_blocks08 : shaBlocks08 = (List.range' 768 96).map (shaNet.block 128) := by krfl

theorem sha_gates08_0 : allFrom (fun q => shaCert.okCode (shaNet.slot q)) 98304 2048 = true := by
  decide +kernel

theorem sha_gates08_1 : allFrom (fun q => shaCert.okCode (shaNet.slot q)) 100352 2048 = true := by
  decide +kernel

theorem sha_gates08_2 : allFrom (fun q => shaCert.okCode (shaNet.slot q)) 102400 2048 = true := by
  decide +kernel

theorem sha_gates08_3 : allFrom (fun q => shaCert.okCode (shaNet.slot q)) 104448 2048 = true := by
  decide +kernel

theorem sha_gates08_4 : allFrom (fun q => shaCert.okCode (shaNet.slot q)) 106496 2048 = true := by
  decide +kernel

theorem sha_gates08_5 : allFrom (fun q => shaCert.okCode (shaNet.slot q)) 108544 2048 = true := by
  decide +kernel

theorem sha_gates08 (q : Nat) (h1 : 98304 ≤ q) (h2 : q < 110592) : shaCert.okCode (shaNet.slot q) = true := by
  by_cases c0 : q < 100352
  · exact allFrom_iff sha_gates08_0 q (by omega) (by omega)
  by_cases c1 : q < 102400
  · exact allFrom_iff sha_gates08_1 q (by omega) (by omega)
  by_cases c2 : q < 104448
  · exact allFrom_iff sha_gates08_2 q (by omega) (by omega)
  by_cases c3 : q < 106496
  · exact allFrom_iff sha_gates08_3 q (by omega) (by omega)
  by_cases c4 : q < 108544
  · exact allFrom_iff sha_gates08_4 q (by omega) (by omega)
  exact allFrom_iff sha_gates08_5 q (by omega) (by omega)

theorem sha_topo08_0 : allFrom (shaNet.gateOk shaRank) 98304 2048 = true := by
  decide +kernel

theorem sha_topo08_1 : allFrom (shaNet.gateOk shaRank) 100352 2048 = true := by
  decide +kernel

theorem sha_topo08_2 : allFrom (shaNet.gateOk shaRank) 102400 2048 = true := by
  decide +kernel

theorem sha_topo08_3 : allFrom (shaNet.gateOk shaRank) 104448 2048 = true := by
  decide +kernel

theorem sha_topo08_4 : allFrom (shaNet.gateOk shaRank) 106496 2048 = true := by
  decide +kernel

theorem sha_topo08_5 : allFrom (shaNet.gateOk shaRank) 108544 2048 = true := by
  decide +kernel

theorem sha_topo08 (q : Nat) (h1 : 98304 ≤ q) (h2 : q < 110592) : shaNet.gateOk shaRank q = true := by
  by_cases c0 : q < 100352
  · exact allFrom_iff sha_topo08_0 q (by omega) (by omega)
  by_cases c1 : q < 102400
  · exact allFrom_iff sha_topo08_1 q (by omega) (by omega)
  by_cases c2 : q < 104448
  · exact allFrom_iff sha_topo08_2 q (by omega) (by omega)
  by_cases c3 : q < 106496
  · exact allFrom_iff sha_topo08_3 q (by omega) (by omega)
  by_cases c4 : q < 108544
  · exact allFrom_iff sha_topo08_4 q (by omega) (by omega)
  exact allFrom_iff sha_topo08_5 q (by omega) (by omega)

end Verif
