import Verif.AesLemmas
import Verif.Data.AesCheck00
import Verif.Data.AesCheck01
import Verif.Data.AesCheck02
import Verif.Data.AesCheck03
import Verif.KernelRfl
import Verif.ShippedSpec

/-!
# The circuit `data/circ/aes_128.txt` computes AES-128
-/

namespace Verif

open Data Aes

theorem aes_gates (q : Nat) (h : q < 36663) : aesCert.okCode (aesNet.slot q) = true := by
  by_cases c0 : q < 9216
  · exact aes_gates00 q (by omega) c0
  by_cases c1 : q < 18432
  · exact aes_gates01 q (by omega) c1
  by_cases c2 : q < 27648
  · exact aes_gates02 q (by omega) c2
  exact aes_gates03 q (by omega) h

theorem aes_topo (q : Nat) (h : q < 36663) : aesNet.gateOk aesRank q = true := by
  by_cases c0 : q < 9216
  · exact aes_topo00 q (by omega) c0
  by_cases c1 : q < 18432
  · exact aes_topo01 q (by omega) c1
  by_cases c2 : q < 27648
  · exact aes_topo02 q (by omega) c2
  exact aes_topo03 q (by omega) h

theorem aes_outs : allFrom (aesNet.wireOk aesRank 36663) 36791 128 = true := by
  decide +kernel

theorem aes_head : aesHead = String.ofList aesNet.headText := by krfl

theorem aes_blocks : aesBlocks00 ++ aesBlocks01 ++ aesBlocks02 ++ aesBlocks03
    = (List.range 287).map (aesNet.block 128) := by
  rw [aes_blocks00, aes_blocks01, aes_blocks02, aes_blocks03, List.range_eq_range',
    show (287 : Nat) = 72 + 72 + 72 + 71 from rfl]
  simp only [← List.range'_append_1, List.map_append]

theorem aes_checked : aesNet.Checked aesRank where
  gate q hq := aes_topo q hq
  outs w h1 h2 := allFrom_iff aes_outs w h1 h2
  wires := by simp [aesNet]
  outsLe := by simp [aesNet]

theorem aes_small : aesNet.Small := by
  constructor <;> simp [aesNet]

theorem aes_text : aesText.toList = aesNet.text aesTail.toList :=
  Net.text_blocks aes_small aes_checked 128 287 (by norm_num) (by simp [aesNet]) _ _ _ aes_head aes_blocks

theorem aes_parse : fromBristol aesText.toList = some aesNet.circuit := by
  rw [aes_text]
  exact Net.parse aes_small aes_checked _

theorem aes_proper : ProperFile aesText := by
  refine ⟨aesNet.desc, ?_, Net.proper aes_small aes_checked⟩
  rw [aes_text]
  exact Net.isFile aes_small _

/-- Signals of the input wires. -/
noncomputable def aesInSig (w : Nat) : Nat :=
  bsel (Nat.blt w 128) (sRK 0 (Nat.sub 15 (Nat.div w 8)) (Nat.mod w 8))
    (sPT (Nat.sub 31 (Nat.div w 8)) (Nat.mod w 8))

/-- Signals of the output wires. -/
def aesOutSig (i : Nat) : Nat := sX 10 (Nat.sub 15 (Nat.div i 8)) (Nat.mod i 8)

theorem aes_inputs : allFrom (fun w => aesCert.isSig w (aesInSig w)) 0 256 = true := by
  decide +kernel

theorem aes_outputs : allFrom (fun i => aesCert.isSig (Nat.add 36791 i) (aesOutSig i)) 0 128 = true := by
  decide +kernel

theorem keyByte_zero (key : BitVec 128) (i : Nat) (hi : i < 16) : keyByte key 0 i = at' (bytesOf key) i := by
  have hk := bytesOf_length key
  unfold keyByte
  rw [at_roundKey hk 0 i (by omega) hi]
  unfold wordAt
  rw [ke_stable _ 0 40 _ (by omega) (by omega)]
  generalize bytesOf key = l at hk
  unfold keyExpansion at'
  interval_cases i <;> simp [hk, List.getD_eq_getElem?_getD]

theorem aes_eval (key pt : BitVec 128) :
    aesNet.circuit.eval [bitsOf key, bitsOf pt] = some [bitsOf (aes128 key pt)] := by
  refine Net.eval_cert (N := aesNet) (x := key) (y := pt) (z := aes128 key pt) aes_checked
    (aes_sound (key := key) (pt := pt)) aes_gates aesInSig aesOutSig
    (fun w hw => allFrom_iff aes_inputs w (Nat.zero_le w) hw)
    (fun i hi => allFrom_iff aes_outputs i (Nat.zero_le i) hi) ?_ ?_ ?_
  · intro i hi
    have hi : i < 128 := hi
    unfold aesInSig
    rw [blt_of_lt hi, bsel_true]
    change aesPar key pt (aesNf (sRK 0 (15 - i / 8) (i % 8))) = _
    rw [aesNf_RK _ _ _ (by norm_num) (by omega) (by omega), keyByte_zero _ _ (by omega), at_bytesOf]
    · congr 1
      omega
    · omega
    · omega
  · intro i hi
    have hi : i < 128 := hi
    change aesPar key pt (aesNf (aesInSig (128 + i))) = _
    unfold aesInSig
    rw [blt_of_not (by omega), bsel_false]
    change aesPar key pt (aesNf (sPT (31 - (128 + i) / 8) ((128 + i) % 8))) = _
    rw [aesNf_base _ (by rw [sPT_eq]; omega) (by rw [sPT_eq]; omega), base_PT _ _ (by omega) (by omega),
      at_bytesOf]
    · congr 1
      omega
    · omega
    · omega
  · intro i hi
    have hi : i < 128 := hi
    change aesPar key pt (aesNf (sX 10 (15 - i / 8) (i % 8))) = _
    rw [aesNf_X _ _ _ (by norm_num) (by omega) (by omega), stateByte, if_neg (by norm_num)]
    exact (getLsbD_ofBytes _ (cipher_length (bytesOf_length key)) i hi).symm

end Verif
