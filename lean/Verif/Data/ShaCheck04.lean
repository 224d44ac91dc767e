import Verif.Sha
import Verif.CutLemmas
import Verif.KernelRfl

/-!
# Checks of the gates 49152 to 61439 of the circuit in `Sha`

Generated by `tools/gen_circuits.py`.
-/

namespace Verif

open Data

theorem sha_blocks04 : shaBlocks04 = (List.range' 384 96).map (shaNet.block 128) := by krfl

theorem sha_gates04_0 : allFrom (fun q => shaCert.okCode (shaNet.slot q)) 49152 2048 = true := by
  decide +kernel

theorem sha_gates04_1 : allFrom (fun q => shaCert.okCode (shaNet.slot q)) 51200 2048 = true := by
  decide +kernel

theorem sha_gates04_2 : allFrom (fun q => shaCert.okCode (shaNet.slot q)) 53248 2048 = true := by
  decide +kernel

theorem sha_gates04_3 : allFrom (fun q => shaCert.okCode (shaNet.slot q)) 55296 2048 = true := by
  decide +kernel

theorem sha_gates04_4 : allFrom (fun q => shaCert.okCode (shaNet.slot q)) 57344 2048 = true := by
  decide +kernel

theorem sha_gates04_5 : allFrom (fun q => shaCert.okCode (shaNet.slot q)) 59392 2048 = true := by
  decide +kernel

theorem sha_gates04 (q : Nat) (h1 : 49152 ≤ q) (h2 : q < 61440) : shaCert.okCode (shaNet.slot q) = true := by
  by_cases c0 : q < 51200
  · exact allFrom_iff sha_gates04_0 q (by omega) (by omega)
  by_cases c1 : q < 53248
  · exact allFrom_iff sha_gates04_1 q (by omega) (by omega)
  by_cases c2 : q < 55296
  · exact allFrom_iff sha_gates04_2 q (by omega) (by omega)
  by_cases c3 : q < 57344
  · exact allFrom_iff sha_gates04_3 q (by omega) (by omega)
  by_cases c4 : q < 59392
  · exact allFrom_iff sha_gates04_4 q (by omega) (by omega)
  exact allFrom_iff sha_gates04_5 q (by omega) (by omega)

theorem sha_topo04_0 : allFrom (shaNet.gateOk shaRank) 49152 2048 = true := by
  decide +kernel

theorem sha_topo04_1 : allFrom (shaNet.gateOk shaRank) 51200 2048 = true := by
  decide +kernel

theorem sha_topo04_2 : allFrom (shaNet.gateOk shaRank) 53248 2048 = true := by
  decide +kernel

theorem sha_topo04_3 : allFrom (shaNet.gateOk shaRank) 55296 2048 = true := by
  decide +kernel

theorem sha_topo04_4 : allFrom (shaNet.gateOk shaRank) 57344 2048 = true := by
  decide +kernel

theorem sha_topo04_5 : allFrom (shaNet.gateOk shaRank) 59392 2048 = true := by
  decide +kernel

theorem sha_topo04 (q : Nat) (h1 : 49152 ≤ q) (h2 : q < 61440) : shaNet.gateOk shaRank q = true := by
  by_cases c0 : q < 51200
  · exact allFrom_iff sha_topo04_0 q (by omega) (by omega)
  by_cases c1 : q < 53248
  · exact allFrom_iff sha_topo04_1 q (by omega) (by omega)
  by_cases c2 : q < 55296
  · exact allFrom_iff sha_topo04_2 q (by omega) (by omega)
  by_cases c3 : q < 57344
  · exact allFrom_iff sha_topo04_3 q (by omega) (by omega)
  by_cases c4 : q < 59392
  · exact allFrom_iff sha_topo04_4 q (by omega) (by omega)
  exact allFrom_iff sha_topo04_5 q (by omega) (by omega)

end Verif
