import Verif.Aes
import Verif.AesSpecLemmas
import Verif.CutLemmas

/-!
# The values of the signals of the AES circuit
-/

namespace Verif

open Data Aes

section
variable (key pt : BitVec 128)

/-- Byte `i` of round key `r`. -/
def keyByte (r i : Nat) : Byte := at' (roundKey (keyExpansion (bytesOf key) 40) r) i

/-- Byte `i` before SubBytes in round `r + 1`; for `r = 10` the ciphertext. -/
def stateByte (r i : Nat) : Byte :=
  if r < 10 then at' (rounds (keyExpansion (bytesOf key) 40) (bytesOf pt) r) i
  else at' (cipher (bytesOf key) (bytesOf pt)) i

/-- Values of the base signals. -/
def aesBase (v : Nat) : Bool :=
  if v < 2048 then (keyByte key (v / 128) (v / 8 % 16)).getLsbD (v % 8)
  else if v < 4096 then false
  else if v < 6144 then (sbox (stateByte key pt (v / 128 - 32) (v / 8 % 16))).getLsbD (v % 8)
  else if v < 8192 then (sbox (keyByte key (v / 128 - 48) (12 + (v / 8 % 16 + 1) % 4))).getLsbD (v % 8)
  else if v < 8320 then (at' (bytesOf pt) (v / 8 % 16)).getLsbD (v % 8)
  else true

/-- Input byte of a box. -/
def aesBoxByte (b : Nat) : Byte :=
  if b < 160 then stateByte key pt (b / 16) (b % 16)
  else keyByte key ((b - 160) / 4) (12 + (b + 1) % 4)

/-- Exclusive or of the base signals in a set. -/
def aesPar (m : Nat) : Bool := par (aesBase key pt) 8321 m

variable {key pt}

theorem aesPar_xor (a b : Nat) : aesPar key pt (Nat.xor a b) = xor (aesPar key pt a) (aesPar key pt b) :=
  par_xor _ _ _ _

theorem aesPar_bit (v : Nat) (h : v < 8321) : aesPar key pt (sBit v) = aesBase key pt v := par_bit _ _ _ h

theorem aesPar_if (b : Bool) (v : Nat) (h : v < 8321) :
    aesPar key pt (sIf b v) = (b && aesBase key pt v) := by
  cases b
  · exact par_zero _ _
  · exact aesPar_bit v h

theorem sRK_eq (r i k : Nat) : sRK r i k = 128 * r + (8 * i + k) := rfl

theorem sY_eq (r i k : Nat) : sY r i k = 4096 + (128 * r + (8 * i + k)) := rfl

theorem sKS_eq (r i k : Nat) : sKS r i k = 6144 + (128 * r + (8 * i + k)) := rfl

theorem sX_eq (r i k : Nat) : sX r i k = 2048 + (128 * r + (8 * i + k)) := rfl

theorem sPT_eq (i k : Nat) : sPT i k = 8192 + (8 * i + k) := by
  show 8192 + (128 * 0 + (8 * i + k)) = _
  omega

theorem base_RK (i k : Nat) (hi : i < 16) (hk : k < 8) :
    aesPar key pt (sBit (sRK 0 i k)) = (keyByte key 0 i).getLsbD k := by
  rw [sRK_eq, aesPar_bit _ (by omega), aesBase, if_pos (by omega)]
  have e1 : (128 * 0 + (8 * i + k)) / 128 = 0 := by omega
  have e2 : (128 * 0 + (8 * i + k)) / 8 % 16 = i := by omega
  have e3 : (128 * 0 + (8 * i + k)) % 8 = k := by omega
  rw [e1, e2, e3]

theorem base_Y (r i k : Nat) (hr : r < 16) (hi : i < 16) (hk : k < 8) :
    aesBase key pt (sY r i k) = (sbox (stateByte key pt r i)).getLsbD k := by
  rw [sY_eq, aesBase, if_neg (by omega), if_neg (by omega), if_pos (by omega)]
  have e1 : (4096 + (128 * r + (8 * i + k))) / 128 - 32 = r := by omega
  have e2 : (4096 + (128 * r + (8 * i + k))) / 8 % 16 = i := by omega
  have e3 : (4096 + (128 * r + (8 * i + k))) % 8 = k := by omega
  rw [e1, e2, e3]

theorem base_KS (r j k : Nat) (hr : r < 16) (hj : j < 4) (hk : k < 8) :
    aesBase key pt (sKS r j k) = (sbox (keyByte key r (12 + (j + 1) % 4))).getLsbD k := by
  rw [sKS_eq, aesBase, if_neg (by omega), if_neg (by omega), if_neg (by omega), if_pos (by omega)]
  have e1 : (6144 + (128 * r + (8 * j + k))) / 128 - 48 = r := by omega
  have e2 : (6144 + (128 * r + (8 * j + k))) / 8 % 16 = j := by omega
  have e3 : (6144 + (128 * r + (8 * j + k))) % 8 = k := by omega
  rw [e1, e2, e3]

theorem base_PT (i k : Nat) (hi : i < 16) (hk : k < 8) :
    aesBase key pt (sPT i k) = (at' (bytesOf pt) i).getLsbD k := by
  rw [sPT_eq, aesBase, if_neg (by omega), if_neg (by omega), if_neg (by omega), if_neg (by omega),
    if_pos (by omega)]
  have e2 : (8192 + (8 * i + k)) / 8 % 16 = i := by omega
  have e3 : (8192 + (8 * i + k)) % 8 = k := by omega
  rw [e2, e3]

/-! ## Round keys -/

theorem rcon_bits : ∀ r < 10, ∀ k < 8, nBit (xPow r) k = (at' (rcon (r + 1)) 0).getLsbD k := by
  decide +kernel

theorem rcon_at (r j : Nat) (h : 0 < j) (hj : j < 4) : at' (rcon r) j = 0 := by
  interval_cases j <;> rfl

theorem keyByte_succ (r i : Nat) (hr : r < 10) (hi : i < 16) :
    keyByte key (r + 1) i = keyByte key r i ^^^ (if i < 4 then
      sbox (keyByte key r (12 + (i + 1) % 4)) ^^^ at' (rcon (r + 1)) i else keyByte key (r + 1) (i - 4)) :=
  roundKey_succ (bytesOf_length key) r i hr hi

theorem rkRow_succ {j k r a b c d : Nat} (h : rkRow j k r = (a, b, c, d)) :
    rkRow j k (r + 1) =
      (let a' := Nat.xor a (Nat.xor (sBit (sKS r j k)) (sIf (bsel (Nat.beq j 0) (nBit (xPow r) k) false) sOne))
      let b' := Nat.xor b a'
      let c' := Nat.xor c b'
      (a', b', c', Nat.xor d c')) := by
  have step : rkRow j k (r + 1) = Prod.rec (motive := fun _ => Nat × Nat × Nat × Nat) (fun a p =>
      Prod.rec (motive := fun _ => Nat × Nat × Nat × Nat) (fun b p =>
      Prod.rec (motive := fun _ => Nat × Nat × Nat × Nat) (fun c d =>
    (fun a => (fun b => (fun c => (a, b, c, Nat.xor d c)) (Nat.xor c b)) (Nat.xor b a))
      (Nat.xor a (Nat.xor (sBit (sKS r j k)) (sIf (bsel (Nat.beq j 0) (nBit (xPow r) k) false) sOne))))
    p) p) (rkRow j k r) := rfl
  rw [step, h]

theorem rkRow_par (j k r : Nat) (hj : j < 4) (hk : k < 8) (hr : r ≤ 10) {a b c d : Nat}
    (h : rkRow j k r = (a, b, c, d)) :
    aesPar key pt a = (keyByte key r j).getLsbD k ∧ aesPar key pt b = (keyByte key r (4 + j)).getLsbD k ∧
      aesPar key pt c = (keyByte key r (8 + j)).getLsbD k ∧
      aesPar key pt d = (keyByte key r (12 + j)).getLsbD k := by
  induction r generalizing a b c d with
  | zero =>
    have h0 : rkRow j k 0 = (sBit (sRK 0 j k), sBit (sRK 0 (4 + j) k), sBit (sRK 0 (8 + j) k),
      sBit (sRK 0 (12 + j) k)) := rfl
    rw [h0] at h
    simp only [Prod.mk.injEq] at h
    obtain ⟨rfl, rfl, rfl, rfl⟩ := h
    exact ⟨base_RK j k (by omega) hk, base_RK _ k (by omega) hk, base_RK _ k (by omega) hk,
      base_RK _ k (by omega) hk⟩
  | succ r ih =>
    rcases h' : rkRow j k r with ⟨a0, b0, c0, d0⟩
    obtain ⟨i1, i2, i3, i4⟩ := ih (by omega) h'
    rw [rkRow_succ h'] at h
    simp only [Prod.mk.injEq] at h
    obtain ⟨ha, hb, hc, hd⟩ := h
    rw [ha] at hb hc hd
    rw [hb] at hc hd
    rw [hc] at hd
    have one : aesBase key pt sOne = true := rfl
    have pa : aesPar key pt a = (keyByte key (r + 1) j).getLsbD k := by
      rw [← ha, aesPar_xor, aesPar_xor, aesPar_bit _ (by rw [sKS_eq]; omega), aesPar_if _ _ (by decide), one,
        i1, base_KS r j k (by omega) hj hk, keyByte_succ r j (by omega) (by omega), if_pos hj,
        BitVec.getLsbD_xor, BitVec.getLsbD_xor]
      suffices e : (bsel (Nat.beq j 0) (nBit (xPow r) k) false && true) = (at' (rcon (r + 1)) j).getLsbD k by
        rw [e]
      by_cases h0 : j = 0
      · subst h0
        rw [← rcon_bits r (by omega) k hk]
        simp
      · have e0 : Nat.beq j 0 = false := by
          cases e : Nat.beq j 0
          · rfl
          · exact absurd (Nat.eq_of_beq_eq_true e) h0
        rw [e0, rcon_at _ _ (by omega) hj]
        simp
    have nxt : ∀ c, c < 4 → 1 ≤ c → ∀ x y, aesPar key pt x = (keyByte key r (4 * c + j)).getLsbD k →
        aesPar key pt y = (keyByte key (r + 1) (4 * (c - 1) + j)).getLsbD k →
        aesPar key pt (Nat.xor x y) = (keyByte key (r + 1) (4 * c + j)).getLsbD k := by
      intro c hc hc1 x y hx hy
      have e := keyByte_succ (key := key) r (4 * c + j) (by omega) (by omega)
      rw [if_neg (by omega), show 4 * c + j - 4 = 4 * (c - 1) + j by omega] at e
      rw [aesPar_xor, hx, hy, e, BitVec.getLsbD_xor]
    have pb : aesPar key pt b = (keyByte key (r + 1) (4 + j)).getLsbD k := by
      rw [← hb]
      exact nxt 1 (by omega) (by omega) _ _ i2 (by simpa using pa)
    have pc : aesPar key pt c = (keyByte key (r + 1) (8 + j)).getLsbD k := by
      rw [← hc]
      exact nxt 2 (by omega) (by omega) _ _ i3 pb
    have pd : aesPar key pt d = (keyByte key (r + 1) (12 + j)).getLsbD k := by
      rw [← hd]
      exact nxt 3 (by omega) (by omega) _ _ i4 pc
    exact ⟨pa, pb, pc, pd⟩

theorem nfRK_par (r i k : Nat) (hr : r ≤ 10) (hi : i < 16) (hk : k < 8) :
    aesPar key pt (nfRK r i k) = (keyByte key r i).getLsbD k := by
  unfold nfRK
  have hm : Nat.mod i 4 = i % 4 := rfl
  rw [hm]
  rcases h : rkRow (i % 4) k r with ⟨a, b, c, d⟩
  obtain ⟨h1, h2, h3, h4⟩ := rkRow_par (key := key) (pt := pt) (i % 4) k r (by omega) hk hr h
  simp only
  by_cases c1 : i < 4
  · rw [blt_of_lt c1, bsel_true, h1, show i % 4 = i by omega]
  · rw [blt_of_not c1, bsel_false]
    by_cases c2 : i < 8
    · rw [blt_of_lt c2, bsel_true, h2, show 4 + i % 4 = i by omega]
    · rw [blt_of_not c2, bsel_false]
      by_cases c3 : i < 12
      · rw [blt_of_lt c3, bsel_true, h3, show 8 + i % 4 = i by omega]
      · rw [blt_of_not c3, bsel_false, h4, show 12 + i % 4 = i by omega]

/-! ## State -/

theorem stateByte_zero (i : Nat) (h : i < 16) :
    stateByte key pt 0 i = at' (bytesOf pt) i ^^^ keyByte key 0 i := by
  rw [stateByte, if_pos (by norm_num), rounds_zero (bytesOf_length key) (bytesOf_length pt) i h]
  rfl

theorem stateByte_ten (i : Nat) (h : i < 16) :
    stateByte key pt 10 i = sbox (stateByte key pt 9 (shiftSrc i)) ^^^ keyByte key 10 i := by
  rw [stateByte, if_neg (by norm_num), cipher_at (bytesOf_length key) (bytesOf_length pt) i h, stateByte,
    if_pos (by norm_num)]
  rfl

theorem stateByte_succ (r i : Nat) (hr : r < 9) (h : i < 16) :
    stateByte key pt (r + 1) i = xtime (sbox (stateByte key pt r (mixSrc i 0))) ^^^
      (xtime (sbox (stateByte key pt r (mixSrc i 1))) ^^^ sbox (stateByte key pt r (mixSrc i 1))) ^^^
      sbox (stateByte key pt r (mixSrc i 2)) ^^^ sbox (stateByte key pt r (mixSrc i 3)) ^^^
      keyByte key (r + 1) i := by
  rw [stateByte, if_pos (by omega), rounds_succ (bytesOf_length key) (bytesOf_length pt) r i hr h]
  simp only [stateByte, if_pos (show r < 10 by omega)]
  rfl

theorem shiftSrc_lt (i : Nat) : shiftSrc i < 16 := Nat.mod_lt _ (by norm_num)

theorem mixSrc_lt (i d : Nat) : mixSrc i d < 16 := shiftSrc_lt _

theorem xtime_bit : ∀ (a : Byte) (k : Nat), k < 8 →
    (xtime a).getLsbD k = xor (!(Nat.beq k 0) && a.getLsbD (k - 1)) (nBit 0x1b k && a.getLsbD 7) := by
  decide +kernel

theorem nfX2_par (r i k : Nat) (hr : r < 16) (hi : i < 16) (hk : k < 8) :
    aesPar key pt (nfX2 r i k) = (xtime (sbox (stateByte key pt r i))).getLsbD k := by
  unfold nfX2
  rw [aesPar_xor, aesPar_if _ _ (by rw [sY_eq]; omega), base_Y r i 7 hr hi (by norm_num), xtime_bit _ k hk]
  suffices e : aesPar key pt (bsel (Nat.beq k 0) 0 (sBit (sY r i (Nat.sub k 1))))
      = (!(Nat.beq k 0) && (sbox (stateByte key pt r i)).getLsbD (k - 1)) by
    rw [e]
  by_cases h0 : k = 0
  · subst h0
    exact par_zero _ _
  · rw [beq_of_ne h0, bsel_false,
      aesPar_bit _ (by rw [sY_eq]; change 4096 + (128 * r + (8 * i + (k - 1))) < _; omega)]
    change aesBase key pt (sY r i (k - 1)) = _
    rw [base_Y r i (k - 1) hr hi (by omega)]
    simp

theorem nfX_par (r i k : Nat) (hr : r ≤ 10) (hi : i < 16) (hk : k < 8) :
    aesPar key pt (nfX r i k) = (stateByte key pt r i).getLsbD k := by
  unfold nfX
  have bY : ∀ r i, r < 16 → i < 16 → aesPar key pt (sBit (sY r i k)) = (sbox (stateByte key pt r i)).getLsbD k := by
    intro r i hr hi
    rw [aesPar_bit _ (by rw [sY_eq]; omega), base_Y r i k hr hi hk]
  by_cases h0 : r = 0
  · subst h0
    change aesPar key pt (Nat.xor (sBit (sPT i k)) (sBit (sRK 0 i k))) = _
    rw [aesPar_xor, aesPar_bit _ (by rw [sPT_eq]; omega), base_PT i k hi hk, base_RK i k hi hk,
      stateByte_zero i hi, BitVec.getLsbD_xor]
  · rw [beq_of_ne h0, bsel_false]
    by_cases h10 : r = 10
    · subst h10
      change aesPar key pt (Nat.xor (sBit (sY 9 (shiftSrc i) k)) (nfRK 10 i k)) = _
      rw [aesPar_xor, bY 9 _ (by norm_num) (shiftSrc_lt i), nfRK_par 10 i k (by norm_num) hi hk,
        stateByte_ten i hi, BitVec.getLsbD_xor]
    · rw [beq_of_ne h10, bsel_false]
      obtain ⟨r, rfl⟩ : ∃ r', r = r' + 1 := ⟨r - 1, by omega⟩
      change aesPar key pt (Nat.xor (nfX2 r (mixSrc i 0) k) (Nat.xor (nfX2 r (mixSrc i 1) k)
        (Nat.xor (sBit (sY r (mixSrc i 1) k)) (Nat.xor (sBit (sY r (mixSrc i 2) k))
        (Nat.xor (sBit (sY r (mixSrc i 3) k)) (nfRK (r + 1) i k)))))) = _
      rw [stateByte_succ r i (by omega) hi]
      simp only [aesPar_xor, BitVec.getLsbD_xor]
      rw [nfX2_par r _ k (by omega) (mixSrc_lt i 0) hk, nfX2_par r _ k (by omega) (mixSrc_lt i 1) hk,
        bY r _ (by omega) (mixSrc_lt i 1), bY r _ (by omega) (mixSrc_lt i 2), bY r _ (by omega) (mixSrc_lt i 3),
        nfRK_par (r + 1) i k hr hi hk]
      simp only [Bool.xor_assoc]

/-! ## Normal forms -/

theorem aesNf_RK (r i k : Nat) (hr : r ≤ 10) (hi : i < 16) (hk : k < 8) :
    aesPar key pt (aesNf (sRK r i k)) = (keyByte key r i).getLsbD k := by
  rw [sRK_eq]
  unfold aesNf
  rw [blt_of_lt (by omega), bsel_true]
  have e1 : Nat.div (128 * r + (8 * i + k)) 128 = r := by
    change (128 * r + (8 * i + k)) / 128 = r; omega
  have e2 : Nat.mod (Nat.div (128 * r + (8 * i + k)) 8) 16 = i := by
    change (128 * r + (8 * i + k)) / 8 % 16 = i; omega
  have e3 : Nat.mod (128 * r + (8 * i + k)) 8 = k := by
    change (128 * r + (8 * i + k)) % 8 = k; omega
  rw [e1, e2, e3]
  exact nfRK_par r i k hr hi hk

theorem aesNf_X (r i k : Nat) (hr : r ≤ 10) (hi : i < 16) (hk : k < 8) :
    aesPar key pt (aesNf (sX r i k)) = (stateByte key pt r i).getLsbD k := by
  rw [sX_eq]
  unfold aesNf
  rw [blt_of_not (by omega), bsel_false, blt_of_lt (by omega), bsel_true]
  have e1 : Nat.sub (Nat.div (2048 + (128 * r + (8 * i + k))) 128) 16 = r := by
    change (2048 + (128 * r + (8 * i + k))) / 128 - 16 = r; omega
  have e2 : Nat.mod (Nat.div (2048 + (128 * r + (8 * i + k))) 8) 16 = i := by
    change (2048 + (128 * r + (8 * i + k))) / 8 % 16 = i; omega
  have e3 : Nat.mod (2048 + (128 * r + (8 * i + k))) 8 = k := by
    change (2048 + (128 * r + (8 * i + k))) % 8 = k; omega
  rw [e1, e2, e3]
  exact nfX_par r i k hr hi hk

theorem aesNf_base (v : Nat) (h : 4096 ≤ v) (h' : v < 8321) :
    aesPar key pt (aesNf v) = aesBase key pt v := by
  unfold aesNf
  rw [blt_of_not (by omega), bsel_false, blt_of_not (by omega), bsel_false]
  exact aesPar_bit v h'

/-! ## Boxes -/

theorem aesBoxIn_nf (b k : Nat) (hb : b < 200) (hk : k < 8) :
    aesPar key pt (aesNf (aesBoxIn b + k)) = (aesBoxByte key pt b).getLsbD k := by
  unfold aesBoxIn aesBoxByte
  by_cases h : b < 160
  · rw [blt_of_lt h, bsel_true, if_pos h]
    have e : Nat.add 2048 (Nat.mul 8 b) + k = sX (b / 16) (b % 16) k := by
      rw [sX_eq]
      change 2048 + 8 * b + k = _
      omega
    rw [e]
    exact aesNf_X _ _ k (by omega) (by omega) hk
  · rw [blt_of_not h, bsel_false, if_neg h]
    have e : sRK (Nat.div (Nat.sub b 160) 4) (Nat.add 12 (Nat.mod (Nat.add b 1) 4)) 0 + k
        = sRK ((b - 160) / 4) (12 + (b + 1) % 4) k := by
      change 128 * ((b - 160) / 4) + (8 * (12 + (b + 1) % 4) + 0) + k = _
      rw [sRK_eq]
      omega
    rw [e]
    exact aesNf_RK _ _ k (by omega) (by omega) hk

theorem aesBoxOut_nf (b k : Nat) (hb : b < 200) (hk : k < 8) :
    aesPar key pt (aesNf (aesBoxOut b + k)) = (sbox (aesBoxByte key pt b)).getLsbD k := by
  unfold aesBoxOut aesBoxByte
  by_cases h : b < 160
  · rw [blt_of_lt h, bsel_true, if_pos h]
    have e : Nat.add 4096 (Nat.mul 8 b) + k = sY (b / 16) (b % 16) k := by
      rw [sY_eq]
      change 4096 + 8 * b + k = _
      omega
    rw [e, aesNf_base _ (by rw [sY_eq]; omega) (by rw [sY_eq]; omega)]
    exact base_Y _ _ k (by omega) (by omega) hk
  · rw [blt_of_not h, bsel_false, if_neg h]
    have e : sKS (Nat.div (Nat.sub b 160) 4) (Nat.mod b 4) 0 + k = sKS ((b - 160) / 4) (b % 4) k := by
      change 6144 + (128 * ((b - 160) / 4) + (8 * (b % 4) + 0)) + k = _
      rw [sKS_eq]
      omega
    rw [e, aesNf_base _ (by rw [sKS_eq]; omega) (by rw [sKS_eq]; omega), base_KS _ _ k (by omega) (by omega) hk]
    rw [show (b % 4 + 1) % 4 = (b + 1) % 4 by omega]

/-- The tables of the input bits. -/
theorem aes_coords : ∀ k < 8, ∀ a : Byte, (aesTableTree.leaf (16 + k)).testBit a.toNat = a.getLsbD k := by
  decide +kernel

/-- The tables of the S-box. -/
theorem aes_sbox : ∀ a : Byte, ∀ k < 8, (aesTableTree.leaf k).testBit a.toNat = (sbox a).getLsbD k := by
  decide +kernel

/-- The tables of the complements of the S-box. -/
theorem aes_sbox_not : ∀ a : Byte, ∀ k < 8, (aesTableTree.leaf (8 + k)).testBit a.toNat = !(sbox a).getLsbD k := by
  decide +kernel

theorem aes_sound : aesCert.Sound (aesBase key pt) (fun b => (aesBoxByte key pt b).toNat) where
  one := by
    change aesPar key pt (aesNf 8320) = true
    rw [aesNf_base _ (by norm_num) (by norm_num)]
    rfl
  full b := by
    change Nat.testBit (2 ^ 256 - 1) _ = true
    rw [Nat.testBit_two_pow_sub_one]
    have := (aesBoxByte key pt b).isLt
    simp only [decide_eq_true_eq]
    omega
  inp b v n h := by
    change aesIn b v = some n at h
    change (aesTableTree.leaf n).testBit _ = aesPar key pt (aesNf v)
    unfold aesIn at h
    by_cases hb : b < 200
    · rw [blt_of_lt hb, bsel_true] at h
      cases e1 : Nat.ble (aesBoxIn b) v with
      | false => rw [e1] at h; cases h
      | true =>
        rw [e1, bsel_true] at h
        have h1 := Nat.le_of_ble_eq_true e1
        by_cases h2 : v < aesBoxIn b + 8
        · rw [show Nat.blt v (Nat.add (aesBoxIn b) 8) = true from blt_of_lt h2] at h
          cases h
          obtain ⟨k, rfl⟩ : ∃ k, v = aesBoxIn b + k := ⟨v - aesBoxIn b, by omega⟩
          have e : Nat.add 16 (Nat.sub (aesBoxIn b + k) (aesBoxIn b)) = 16 + k := by
            change 16 + (aesBoxIn b + k - aesBoxIn b) = _
            omega
          rw [e, aes_coords k (by omega), aesBoxIn_nf b k hb (by omega)]
        · rw [show Nat.blt v (Nat.add (aesBoxIn b) 8) = false from blt_of_not h2] at h
          cases h
    · rw [blt_of_not hb] at h
      cases h
  out b n L h := by
    change aesOut b n = some L at h
    change (aesTableTree.leaf n).testBit _ = aesPar key pt (aesCert.mask L)
    unfold aesOut at h
    by_cases hb : b < 200
    · rw [blt_of_lt hb, bsel_true] at h
      by_cases h1 : n < 8
      · rw [blt_of_lt h1] at h
        cases h
        rw [WireCert.mask_single]
        change _ = aesPar key pt (aesNf (aesBoxOut b + n))
        rw [aesBoxOut_nf b n hb h1, aes_sbox _ n h1]
      · rw [blt_of_not h1, bsel_false] at h
        by_cases h2 : n < 16
        · rw [blt_of_lt h2] at h
          cases h
          obtain ⟨k, rfl⟩ : ∃ k, n = 8 + k := ⟨n - 8, by omega⟩
          rw [WireCert.mask_cons, WireCert.mask_single, aesPar_xor]
          have e : Nat.add (aesBoxOut b) (Nat.sub (8 + k) 8) = aesBoxOut b + k := by
            change aesBoxOut b + (8 + k - 8) = _
            omega
          rw [e]
          change _ = xor (aesPar key pt (aesNf (aesBoxOut b + k))) (aesPar key pt (aesNf 8320))
          rw [aesBoxOut_nf b k hb (by omega), aesNf_base 8320 (by norm_num) (by norm_num),
            aes_sbox_not _ k (by omega)]
          have : aesBase key pt 8320 = true := rfl
          rw [this]
          simp
        · rw [blt_of_not h2] at h
          cases h
    · rw [blt_of_not hb] at h
      cases h

end

end Verif
