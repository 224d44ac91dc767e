import Verif.Sha
import Verif.CutLemmas
import Verif.KernelRfl

/-!
# Checks of the gates 36864 to 49151 of the circuit in `Sha`

Generated by `tools/gen_circuits.py`.
-/

namespace Verif

open Data

theorem sha_blocks03 : shaBlocks03 = (List.range' 288 96).map (shaNet.block 128) := by krfl

theorem sha_gates03_0 : allFrom (fun q => shaCert.okCode (shaNet.slot q)) 36864 2048 = true := by
  decide +kernel

theorem sha_gates03_1 : allFrom (fun q => shaCert.okCode (shaNet.slot q)) 38912 2048 = true := by
  decide +kernel

theorem sha_gates03_2 : allFrom (fun q => shaCert.okCode (shaNet.slot q)) 40960 2048 = true := by
  decide +kernel

theorem sha_gates03_3 : allFrom (fun q => shaCert.okCode (shaNet.slot q)) 43008 2048 = true := by
  decide +kernel

theorem sha_gates03_4 : allFrom (fun q => shaCert.okCode (shaNet.slot q)) 45056 2048 = true := by
  decide +kernel

theorem sha_gates03_5 : allFrom (fun q => shaCert.okCode (shaNet.slot q)) 47104 2048 = true := by
  decide +kernel

theorem sha_gates03 (q : Nat) (h1 : 36864 ≤ q) (h2 : q < 49152) : shaCert.okCode (shaNet.slot q) = true := by
  by_cases c0 : q < 38912
  · exact allFrom_iff sha_gates03_0 q (by omega) (by omega)
  by_cases c1 : q < 40960
  · exact allFrom_iff sha_gates03_1 q (by omega) (by omega)
  by_cases c2 : q < 43008
  · exact allFrom_iff sha_gates03_2 q (by omega) (by omega)
  by_cases c3 : q < 45056
  · exact allFrom_iff sha_gates03_3 q (by omega) (by omega)
  by_cases c4 : q < 47104
  · exact allFrom_iff sha_gates03_4 q (by omega) (by omega)
  exact allFrom_iff sha_gates03_5 q (by omega) (by omega)

theorem sha_topo03_0 : allFrom (shaNet.gateOk shaRank) 36864 2048 = true := by
  decide +kernel

theorem sha_topo03_1 : allFrom (shaNet.gateOk shaRank) 38912 2048 = true := by
  decide +kernel

theorem sha_topo03_2 : allFrom (shaNet.gateOk shaRank) 40960 2048 = true := by
  decide +kernel

theorem sha_topo03_3 : allFrom (shaNet.gateOk shaRank) 43008 2048 = true := by
  decide +kernel

theorem sha_topo03_4 : allFrom (shaNet.gateOk shaRank) 45056 2048 = true := by
  decide +kernel

theorem sha_topo03_5 : allFrom (shaNet.gateOk shaRank) 47104 2048 = true := by
  decide +kernel

theorem sha_topo03 (q : Nat) (h1 : 36864 ≤ q) (h2 : q < 49152) : shaNet.gateOk shaRank q = true := by
  by_cases c0 : q < 38912
  · exact allFrom_iff sha_topo03_0 q (by omega) (by omega)
  by_cases c1 : q < 40960
  · exact allFrom_iff sha_topo03_1 q (by omega) (by omega)
  by_cases c2 : q < 43008
  · exact allFrom_iff sha_topo03_2 q (by omega) (by omega)
  by_cases c3 : q < 45056
  · exact allFrom_iff sha_topo03_3 q (by omega) (by omega)
  by_cases c4 : q < 47104
  · exact allFrom_iff sha_topo03_4 q (by omega) (by omega)
  exact allFrom_iff sha_topo03_5 q (by omega) (by omega)

end Verif
