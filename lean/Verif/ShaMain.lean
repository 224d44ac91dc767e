import Verif.ShaLemmas
import Verif.Data.ShaCheck00
import Verif.Data.ShaCheck01
import Verif.Data.ShaCheck02
import Verif.Data.ShaCheck03
import Verif.Data.ShaCheck04
import Verif.Data.ShaCheck05
import Verif.Data.ShaCheck06
import Verif.Data.ShaCheck07
import Verif.Data.ShaCheck08
import Verif.Data.ShaCheck09
import Verif.Data.ShaCheck10
import Verif.KernelRfl
import Verif.ShippedSpec

/-!
# The circuit `data/circ/sha256.txt` computes the compression function of SHA-256
-/

namespace Verif

open Data Sha

theorem sha_gates (q : Nat) (h : q < 135073) : shaCert.okCode (shaNet.slot q) = true := by
  by_cases c0 : q < 12288
  · exact sha_gates00 q (by omega) c0
  by_cases c1 : q < 24576
  · exact sha_gates01 q (by omega) c1
  by_cases c2 : q < 36864
  · exact sha_gates02 q (by omega) c2
  by_cases c3 : q < 49152
  · exact sha_gates03 q (by omega) c3
  by_cases c4 : q < 61440
  · exact sha_gates04 q (by omega) c4
  by_cases c5 : q < 73728
  · exact sha_gates05 q (by omega) c5
  by_cases c6 : q < 86016
  · exact sha_gates06 q (by omega) c6
  by_cases c7 : q < 98304
  · exact sha_gates07 q (by omega) c7
  by_cases c8 : q < 110592
  · exact sha_gates08 q (by omega) c8
  by_cases c9 : q < 122880
  · exact sha_gates09 q (by omega) c9
  exact sha_gates10 q (by omega) h

theorem sha_topo (q : Nat) (h : q < 135073) : shaNet.gateOk shaRank q = true := by
  by_cases c0 : q < 12288
  · exact sha_topo00 q (by omega) c0
  by_cases c1 : q < 24576
  · exact sha_topo01 q (by omega) c1
  by_cases c2 : q < 36864
  · exact sha_topo02 q (by omega) c2
  by_cases c3 : q < 49152
  · exact sha_topo03 q (by omega) c3
  by_cases c4 : q < 61440
  · exact sha_topo04 q (by omega) c4
  by_cases c5 : q < 73728
  · exact sha_topo05 q (by omega) c5
  by_cases c6 : q < 86016
  · exact sha_topo06 q (by omega) c6
  by_cases c7 : q < 98304
  · exact sha_topo07 q (by omega) c7
  by_cases c8 : q < 110592
  · exact sha_topo08 q (by omega) c8
  by_cases c9 : q < 122880
  · exact sha_topo09 q (by omega) c9
  exact sha_topo10 q (by omega) h

theorem sha_outs : allFrom (shaNet.wireOk shaRank 135073) 135585 256 = true := by
  decide +kernel

theorem sha_head : shaHead = String.ofList shaNet.headText := by krfl

theorem sha_blocks : shaBlocks00 ++ shaBlocks01 ++ shaBlocks02 ++ shaBlocks03 ++ shaBlocks04 ++ shaBlocks05
    ++ shaBlocks06 ++ shaBlocks07 ++ shaBlocks08 ++ shaBlocks09 ++ shaBlocks10
    = (List.range 1056).map (shaNet.block 128) := by
  rw [sha_blocks00, sha_blocks01, sha_blocks02, sha_blocks03, sha_blocks04, sha_blocks05, sha_blocks06,
    sha_blocks07, sha_blocks08, sha_blocks09, sha_blocks10, List.range_eq_range',
    show (1056 : Nat) = 96 + 96 + 96 + 96 + 96 + 96 + 96 + 96 + 96 + 96 + 96 from rfl]
  simp only [← List.range'_append_1, List.map_append]

theorem sha_checked : shaNet.Checked shaRank where
  gate q hq := sha_topo q hq
  outs w h1 h2 := allFrom_iff sha_outs w h1 h2
  wires := by simp [shaNet]
  outsLe := by simp [shaNet]

theorem sha_small : shaNet.Small := by
  constructor <;> simp [shaNet]

theorem sha_text : shaText.toList = shaNet.text shaTail.toList :=
  Net.text_blocks sha_small sha_checked 128 1056 (by norm_num) (by simp [shaNet]) _ _ _ sha_head sha_blocks

theorem sha_parse : fromBristol shaText.toList = some shaNet.circuit := by
  rw [sha_text]
  exact Net.parse sha_small sha_checked _

theorem sha_proper : ProperFile shaText := by
  refine ⟨shaNet.desc, ?_, Net.proper sha_small sha_checked⟩
  rw [sha_text]
  exact Net.isFile sha_small _

/-- Signals of the input wires. -/
noncomputable def shaInSig (w : Nat) : Nat :=
  bsel (Nat.blt w 512) (shaBit (shaNum (Nat.sub 15 (Nat.div w 32)) 0) (Nat.mod w 32))
    (bsel (Nat.blt w 640) (shaBit (shaNum (Nat.sub (Nat.div w 32) 16) 6) (Nat.mod w 32))
      (shaBit (shaNum (Nat.sub (Nat.div w 32) 20) 5) (Nat.mod w 32)))

/-- Signals of the output wires. -/
def shaOutSig (i : Nat) : Nat := shaBit (shaNum (Nat.sub 7 (Nat.div i 32)) 1) (Nat.mod i 32)

theorem sha_inputs : allFrom (fun w => shaCert.isSig w (shaInSig w)) 0 768 = true := by
  decide +kernel

theorem sha_outputs : allFrom (fun i => shaCert.isSig (Nat.add 135585 i) (shaOutSig i)) 0 256 = true := by
  decide +kernel

/-- The normal form of bit `k` of word `s` of group `u`. -/
theorem shaNf_num {block : BitVec 512} {hash : BitVec 256} (u s k : Nat) (hu : u < 68) (hs : s < 16) (hk : k < 32) :
    shaPar block hash (shaNf (shaBit (shaNum u s) k)) = (shaValAt block hash u s).getLsbD k := by
  have e : shaBit (shaNum u s) k = 32 * (16 * u + s) + k := rfl
  rw [shaNf_par _ (by rw [e]; omega), shaSig_self _ (by rw [e]; omega), ← shaVal_num u s hs,
    show shaBit (shaNum u s) k / 32 = shaNum u s by rw [e]; change _ = 16 * u + s; omega,
    show shaBit (shaNum u s) k % 32 = k by rw [e]; omega]

theorem sha_eval (block : BitVec 512) (hash : BitVec 256) :
    shaNet.circuit.eval [bitsOf block, bitsOf hash] = some [bitsOf (compress block hash)] := by
  refine Net.eval_cert (N := shaNet) (x := block) (y := hash) (z := compress block hash) sha_checked
    (sha_sound (block := block) (hash := hash)) sha_gates shaInSig shaOutSig
    (fun w hw => allFrom_iff sha_inputs w (Nat.zero_le w) hw)
    (fun i hi => allFrom_iff sha_outputs i (Nat.zero_le i) hi) ?_ ?_ ?_
  · intro i hi
    have hi : i < 512 := hi
    unfold shaInSig
    rw [blt_of_lt hi, bsel_true]
    change shaPar block hash (shaNf (shaBit (shaNum (15 - i / 32) 0) (i % 32))) = _
    rw [shaNf_num _ _ _ (by omega) (by norm_num) (by omega)]
    change (shaW block (15 - i / 32)).getLsbD (i % 32) = _
    unfold shaW
    rw [msgWord_lt (wordsOf_length 16 block) _ (by omega), at_wordsOf]
    · congr 1
      omega
    · omega
    · omega
  · intro i hi
    have hi : i < 256 := hi
    change shaPar block hash (shaNf (shaInSig (512 + i))) = _
    unfold shaInSig
    rw [blt_of_not (by omega), bsel_false]
    by_cases c : i < 128
    · rw [blt_of_lt (by omega), bsel_true]
      change shaPar block hash (shaNf (shaBit (shaNum ((512 + i) / 32 - 16) 6) ((512 + i) % 32))) = _
      rw [shaNf_num _ _ _ (by omega) (by norm_num) (by omega)]
      change (shaE block hash ((512 + i) / 32 - 16)).getLsbD _ = _
      rw [show (512 + i) / 32 - 16 = 7 - (7 - i / 32) by omega, shaE_low _ (by omega) (by omega), at_wordsOf]
      · congr 1
        omega
      · omega
      · omega
    · rw [blt_of_not (by omega), bsel_false]
      change shaPar block hash (shaNf (shaBit (shaNum ((512 + i) / 32 - 20) 5) ((512 + i) % 32))) = _
      rw [shaNf_num _ _ _ (by omega) (by norm_num) (by omega)]
      change (shaA block hash ((512 + i) / 32 - 20)).getLsbD _ = _
      rw [show (512 + i) / 32 - 20 = 3 - (7 - i / 32) by omega, shaA_low _ (by omega), at_wordsOf]
      · congr 1
        omega
      · omega
      · omega
  · intro i hi
    have hi : i < 256 := hi
    change shaPar block hash (shaNf (shaBit (shaNum (7 - i / 32) 1) (i % 32))) = _
    rw [shaNf_num _ _ _ (by omega) (by norm_num) (by omega)]
    change (if 7 - i / 32 < 8 then at' (compressWords (wordsOf 16 block) (wordsOf 8 hash)) (7 - i / 32)
      else _).getLsbD (i % 32) = _
    rw [if_pos (by omega)]
    exact (getLsbD_ofWords _ (compress_length _ _ (wordsOf_length 8 hash)) i hi).symm

end Verif
