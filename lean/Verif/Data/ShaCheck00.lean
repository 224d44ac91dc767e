import Verif.Sha
import Verif.CutLemmas
import Verif.KernelRfl

/-!
# Checks of the gates 0 to 12287 of the circuit in `Sha`

Generated by `tools/gen_circuits.py`.
-/

namespace Verif

open Data

theorem sha_blocks00 : shaBlocks00 = (List.range' 0 96).map (shaNet.block 128) := by krfl

theorem sha_gates00_0 : allFrom (fun q => shaCert.okCode (shaNet.slot q)) 0 2048 = true := by
  decide +kernel

theorem sha_gates00_1 : allFrom (fun q => shaCert.okCode (shaNet.slot q)) 2048 2048 = true := by
  decide +kernel

theorem sha_gates00_2 : allFrom (fun q => shaCert.okCode (shaNet.slot q)) 4096 2048 = true := by
  decide +kernel

theorem sha_gates00_3 : allFrom (fun q => shaCert.okCode (shaNet.slot q)) 6144 2048 = true := by
  decide +kernel

theorem sha_gates00_4 : allFrom (fun q => shaCert.okCode (shaNet.slot q)) 8192 2048 = true := by
  decide +kernel

theorem sha_gates00_5 : allFrom (fun q => shaCert.okCode (shaNet.slot q)) 10240 2048 = true := by
  decide +kernel

theorem sha_gates00 (q : Nat) (h1 : 0 ≤ q) (h2 : q < 12288) : shaCert.okCode (shaNet.slot q) = true := by
  by_cases c0 : q < 2048
  · exact allFrom_iff sha_gates00_0 q (by omega) (by omega)
  by_cases c1 : q < 4096
  · exact allFrom_iff sha_gates00_1 q (by omega) (by omega)
  by_cases c2 : q < 6144
  · exact allFrom_iff sha_gates00_2 q (by omega) (by omega)
  by_cases c3 : q < 8192
  · exact allFrom_iff sha_gates00_3 q (by omega) (by omega)
  by_cases c4 : q < 10240
  · exact allFrom_iff sha_gates00_4 q (by omega) (by omega)
  exact allFrom_iff sha_gates00_5 q (by omega) (by omega)

theorem sha_topo00_0 : allFrom (shaNet.gateOk shaRank) 0 2048 = true := by
  decide +kernel

theorem sha_topo00_1 : allFrom (shaNet.gateOk shaRank) 2048 2048 = true := by
  decide +kernel

theorem sha_topo00_2 : allFrom (shaNet.gateOk shaRank) 4096 2048 = true := by
  decide +kernel

theorem sha_topo00_3 : allFrom (shaNet.gateOk shaRank) 6144 2048 = true := by
  decide +kernel

theorem sha_topo00_4 : allFrom (shaNet.gateOk shaRank) 8192 2048 = true := by
  decide +kernel

theorem sha_topo00_5 : allFrom (shaNet.gateOk shaRank) 10240 2048 = true := by
  decide +kernel

theorem sha_topo00 (q : Nat) (h1 : 0 ≤ q) (h2 : q < 12288) : shaNet.gateOk shaRank q = true := by
  by_cases c0 : q < 2048
  · exact allFrom_iff sha_topo00_0 q (by omega) (by omega)
  by_cases c1 : q < 4096
  · exact allFrom_iff sha_topo00_1 q (by omega) (by omega)
  by_cases c2 : q < 6144
  · exact allFrom_iff sha_topo00_2 q (by omega) (by omega)
  by_cases c3 : q < 8192
  · exact allFrom_iff sha_topo00_3 q (by omega) (by omega)
  by_cases c4 : q < 10240
  · exact allFrom_iff sha_topo00_4 q (by omega) (by omega)
  exact allFrom_iff sha_topo00_5 q (by omega) (by omega)

end Verif
