import Verif.Sub64Lemmas
import Verif.AesMain
import Verif.ShaMain

/-!
# Properties C94-C96: the circuits shipped in `data/circ`
-/

namespace Verif.Props

/-! ### C94: subtraction -/

/-- C94. `data/circ/sub64.txt` is accepted by `from_bristol_fashion`, and for all 64-bit inputs the resulting
circuit evaluates to the difference of the first and the second. -/
theorem C94_sub64 : Computes (n1 := 64) (n2 := 64) (m := 64) sub64Text fun x y => x - y :=
  ⟨sub64Net.circuit, sub64_parse, sub64_eval⟩

/-- C94. The file satisfies the hypotheses of the theorems about `preproc` and `garble`. -/
theorem C94_proper : ProperFile sub64Text := sub64_proper

/-- 5 - 7, read off the theorem. -/
example : ∃ c, fromBristol sub64Text.toList = some c ∧
    c.eval [bitsOf (5 : BitVec 64), bitsOf (7 : BitVec 64)] = some [bitsOf (0xfffffffffffffffe : BitVec 64)] := by
  obtain ⟨c, h1, h2⟩ := C94_sub64
  exact ⟨c, h1, h2 5 7⟩

/-! ### C95: AES-128 -/

/-- C95. `data/circ/aes_128.txt` is accepted by `from_bristol_fashion`, and for all keys (first input) and
plaintexts (second input) the resulting circuit evaluates to the AES-128 encryption as FIPS 197 defines it;
blocks and keys are read as 128-bit numbers with the first byte in the most significant position. -/
theorem C95_aes : Computes (n1 := 128) (n2 := 128) (m := 128) aesText Aes.aes128 :=
  ⟨aesNet.circuit, aes_parse, aes_eval⟩

/-- C95. The file satisfies the hypotheses of the theorems about `preproc` and `garble`. -/
theorem C95_proper : ProperFile aesText := aes_proper

/-- The example of appendix C.1 of FIPS 197. -/
theorem aes_fips : Aes.aes128 0x000102030405060708090a0b0c0d0e0f 0x00112233445566778899aabbccddeeff
    = 0x69c4e0d86a7b0430d8cdb78070b4c55a := by
  decide +kernel

example : ∃ c, fromBristol aesText.toList = some c ∧
    c.eval [bitsOf (0x000102030405060708090a0b0c0d0e0f : BitVec 128),
      bitsOf (0x00112233445566778899aabbccddeeff : BitVec 128)]
    = some [bitsOf (0x69c4e0d86a7b0430d8cdb78070b4c55a : BitVec 128)] := by
  obtain ⟨c, h1, h2⟩ := C95_aes
  exact ⟨c, h1, by rw [h2, aes_fips]⟩

/-- The specification's inverse is the inverse in the field with 256 elements. -/
example : ∀ a : Aes.Byte, a ≠ 0 → Aes.gmul a (Aes.ginv a) = 1 := by
  decide +kernel

/-- The S-box of `53` (figure 7 of FIPS 197). -/
example : Aes.sbox 0x53 = 0xed := by
  decide +kernel

/-! ### C96: SHA-256 -/

/-- C96. `data/circ/sha256.txt` is accepted by `from_bristol_fashion`, and for all message blocks (first input) and
hash values (second input) the resulting circuit evaluates to the next hash value as FIPS 180-4 defines it; blocks
and hash values are read as numbers with the first byte in the most significant position. -/
theorem C96_sha : Computes (n1 := 512) (n2 := 256) (m := 256) shaText Sha.compress :=
  ⟨shaNet.circuit, sha_parse, sha_eval⟩

/-- C96. The file satisfies the hypotheses of the theorems about `preproc` and `garble`. -/
theorem C96_proper : ProperFile shaText := sha_proper

/-- Evaluate a circuit with a message block and a hash value. -/
def hashStep (c : Circuit) (h : List Bool) (block : BitVec 512) : Option (List Bool) :=
  (c.eval [bitsOf block, h]).bind List.head?

/-- C96. Running the circuit over the blocks of a padded message, starting from the initial hash value, yields the
SHA-256 digest, for messages of any length. -/
theorem C96_digest : ∃ c, fromBristol shaText.toList = some c ∧ ∀ msg : List (BitVec 8),
    (Sha.blocks (Sha.pad msg) ((Sha.pad msg).length / 64)).foldlM (hashStep c) (bitsOf Sha.initial)
      = some (bitsOf (Sha.sha256 msg)) := by
  obtain ⟨c, h1, h2⟩ := C96_sha
  refine ⟨c, h1, fun msg => ?_⟩
  have key : ∀ (l : List (BitVec 512)) (h : BitVec 256), l.foldlM (hashStep c) (bitsOf h)
      = some (bitsOf (l.foldl (fun hash block => Sha.compress block hash) h)) := by
    intro l
    induction l with
    | nil => intro h; rfl
    | cons b l ih =>
      intro h
      have e : hashStep c (bitsOf h) b = some (bitsOf (Sha.compress b h)) := by
        unfold hashStep
        rw [h2]
        rfl
      rw [List.foldlM_cons, e]
      exact ih _
  exact key _ _

/-- The example of the standard, "abc". -/
theorem sha_abc : Sha.sha256 [0x61, 0x62, 0x63]
    = 0xba7816bf8f01cfea414140de5dae2223b00361a396177a9cb410ff61f20015ad := by
  decide +kernel

example : ∃ c, fromBristol shaText.toList = some c ∧
    (Sha.blocks (Sha.pad [0x61, 0x62, 0x63]) 1).foldlM (hashStep c) (bitsOf Sha.initial)
      = some (bitsOf (0xba7816bf8f01cfea414140de5dae2223b00361a396177a9cb410ff61f20015ad : BitVec 256)) := by
  obtain ⟨c, h1, h2⟩ := C96_digest
  refine ⟨c, h1, ?_⟩
  have := h2 [0x61, 0x62, 0x63]
  rwa [sha_abc] at this

/-- Padded messages are whole blocks. -/
example (msg : List (BitVec 8)) : (Sha.pad msg).length % 64 = 0 := by
  simp [Sha.pad]
  omega

/-- The first 64 primes. -/
def firstPrimes : List Nat := (List.range 312).filter fun n => 2 ≤ n ∧ ∀ d ∈ List.range n, 2 ≤ d → ¬ d ∣ n

theorem sha_roots : firstPrimes.length = 64 ∧ ∀ i < 64,
    (fun p r => r ^ 3 ≤ p * 2 ^ 96 ∧ p * 2 ^ 96 < (r + 1) ^ 3) (firstPrimes.getD i 0)
      (((List.range 7).filter fun c => 1 ≤ c ∧ c ^ 3 ≤ firstPrimes.getD i 0).length * 2 ^ 32
        + (Sha.at' Sha.constants i).toNat) := by
  decide +kernel

/-- The constants are the first 32 bits of the fractional parts of the cube roots of the first 64 primes. -/
example : firstPrimes.length = 64 ∧ ∀ i < 64, ∃ r,
    r ^ 3 ≤ firstPrimes.getD i 0 * 2 ^ 96 ∧ firstPrimes.getD i 0 * 2 ^ 96 < (r + 1) ^ 3 ∧
      (Sha.at' Sha.constants i).toNat = r % 2 ^ 32 := by
  refine ⟨sha_roots.1, fun i hi => ⟨_, (sha_roots.2 i hi).1, (sha_roots.2 i hi).2, ?_⟩⟩
  rw [Nat.mul_add_mod_self_right, Nat.mod_eq_of_lt (BitVec.isLt _)]

/-- The initial hash value: the same with square roots, of the first eight primes. -/
example : ∀ i < 8, (fun p r => r ^ 2 ≤ p * 2 ^ 64 ∧ p * 2 ^ 64 < (r + 1) ^ 2) (firstPrimes.getD i 0)
      (((List.range 5).filter fun c => 1 ≤ c ∧ c ^ 2 ≤ firstPrimes.getD i 0).length * 2 ^ 32
        + (Sha.at' (Sha.wordsOf 8 Sha.initial) i).toNat) := by
  decide +kernel

end Verif.Props
