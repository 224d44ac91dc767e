import Verif.AesSpec
import Mathlib.Tactic.IntervalCases
import Mathlib.Data.List.GetD

namespace Verif.Aes

theorem at_zip (a b : List Byte) (i : Nat) (ha : i < a.length) (hb : i < b.length) :
    at' (List.zipWith (· ^^^ ·) a b) i = at' a i ^^^ at' b i := by
  unfold at'
  rw [List.getD_eq_getElem _ _ (by simp; omega), List.getD_eq_getElem _ _ ha, List.getD_eq_getElem _ _ hb]
  simp

theorem at_map (f : Nat → Byte) (n i : Nat) (h : i < n) : at' ((List.range n).map f) i = f i := by
  unfold at'
  rw [List.getD_eq_getElem _ _ (by simpa using h)]
  simp

theorem at_sub (s : List Byte) (i : Nat) (h : i < s.length) : at' (subBytes s) i = sbox (at' s i) := by
  unfold at' subBytes
  rw [List.getD_eq_getElem _ _ (by simpa using h), List.getD_eq_getElem _ _ h]
  simp

/-! ## Key expansion -/

section
variable (key : List Byte)

theorem ke_length (n : Nat) : (keyExpansion key n).length = n + 4 := by
  induction n with
  | zero => rfl
  | succ n ih => simp [keyExpansion, ih]

theorem ke_stable (n m i : Nat) (h : i < n + 4) (hm : n ≤ m) :
    (keyExpansion key m).getD i [] = (keyExpansion key n).getD i [] := by
  induction m with
  | zero =>
    obtain rfl : n = 0 := by omega
    rfl
  | succ m ih =>
    by_cases hn : n = m + 1
    · subst hn; rfl
    · rw [← ih (by omega)]
      simp only [keyExpansion]
      rw [List.getD_append _ _ _ _ (by rw [ke_length]; omega)]

/-- Word `i` of the key schedule. -/
def wordAt (i : Nat) : List Byte := (keyExpansion key 40).getD i []

theorem wordAt_succ (n : Nat) (h : n < 40) :
    wordAt key (n + 4) = List.zipWith (· ^^^ ·) (wordAt key n) (if n % 4 = 0 then
      List.zipWith (· ^^^ ·) (subBytes (rotWord (wordAt key (n + 3)))) (rcon (n / 4 + 1))
      else wordAt key (n + 3)) := by
  unfold wordAt
  rw [ke_stable key (n + 1) 40 (n + 4) (by omega) (by omega), ke_stable key n 40 n (by omega) (by omega),
    ke_stable key n 40 (n + 3) (by omega) (by omega)]
  conv_lhs => rw [keyExpansion]
  have hl := ke_length key n
  rw [List.getD_append_right _ _ _ _ (by omega), hl, Nat.sub_self]
  rfl

variable {key} (hk : key.length = 16)
include hk

theorem wordAt_length (i : Nat) (h : i < 44) : (wordAt key i).length = 4 := by
  induction i using Nat.strong_induction_on with
  | _ i ih =>
    by_cases hi : i < 4
    · unfold wordAt
      rw [ke_stable key 0 40 i (by omega) (by omega)]
      unfold keyExpansion
      interval_cases i <;> simp [hk]
    · obtain ⟨n, rfl⟩ : ∃ n, i = n + 4 := ⟨i - 4, by omega⟩
      rw [wordAt_succ key n (by omega), List.length_zipWith, ih n (by omega) (by omega)]
      split
      · simp [subBytes, rotWord, rcon, ih (n + 3) (by omega) (by omega)]
      · simp [ih (n + 3) (by omega) (by omega)]

omit hk in
theorem at_rot (w : List Byte) (hw : w.length = 4) (j : Nat) (h : j < 4) :
    at' (rotWord w) j = at' w ((j + 1) % 4) := by
  match w, hw with
  | [a, b, c, d], _ => interval_cases j <;> rfl

theorem at_word (n j : Nat) (h : n < 40) (hj : j < 4) :
    at' (wordAt key (n + 4)) j = at' (wordAt key n) j ^^^ (if n % 4 = 0 then
      sbox (at' (wordAt key (n + 3)) ((j + 1) % 4)) ^^^ at' (rcon (n / 4 + 1)) j
      else at' (wordAt key (n + 3)) j) := by
  have h0 := wordAt_length hk n (by omega)
  have h3 := wordAt_length hk (n + 3) (by omega)
  have hr : (rotWord (wordAt key (n + 3))).length = 4 := by simp [rotWord, h3]
  have hc : (rcon (n / 4 + 1)).length = 4 := rfl
  rw [wordAt_succ key n h, at_zip _ _ _ (by omega) (by
    split
    · simp [subBytes, hr, hc]; omega
    · omega)]
  refine congrArg (fun z => at' (wordAt key n) j ^^^ z) ?_
  split
  · rw [at_zip _ _ _ (by simp [subBytes, hr]; omega) (by omega), at_sub _ _ (by omega), at_rot _ h3 j hj]
  · rfl

theorem at_roundKey (r i : Nat) (hr : r ≤ 10) (hi : i < 16) :
    at' (roundKey (keyExpansion key 40) r) i = at' (wordAt key (4 * r + i / 4)) (i % 4) := by
  have hl := ke_length key 40
  have e : (List.drop (4 * r) (keyExpansion key 40)).take 4
      = [wordAt key (4 * r), wordAt key (4 * r + 1), wordAt key (4 * r + 2), wordAt key (4 * r + 3)] := by
    apply List.ext_getElem
    · simp [hl]; omega
    · intro j h1 h2
      simp only [List.length_cons, List.length_nil] at h2
      simp only [List.getElem_take, List.getElem_drop]
      interval_cases j <;> simp only [List.getElem_cons_zero, List.getElem_cons_succ, wordAt] <;>
        (rw [List.getD_eq_getElem _ _ (by omega)]; try rfl)
  unfold roundKey
  rw [e]
  have l0 := wordAt_length hk (4 * r) (by omega)
  have l1 := wordAt_length hk (4 * r + 1) (by omega)
  have l2 := wordAt_length hk (4 * r + 2) (by omega)
  have l3 := wordAt_length hk (4 * r + 3) (by omega)
  have aux : ∀ w0 w1 w2 w3 : List Byte, w0.length = 4 → w1.length = 4 → w2.length = 4 → w3.length = 4 →
      ∀ i < 16, at' [w0, w1, w2, w3].flatten i
        = at' (if i / 4 = 0 then w0 else if i / 4 = 1 then w1 else if i / 4 = 2 then w2 else w3) (i % 4) := by
    intro w0 w1 w2 w3 h0 h1 h2 h3 i hi
    match w0, w1, w2, w3, h0, h1, h2, h3 with
    | [_, _, _, _], [_, _, _, _], [_, _, _, _], [_, _, _, _], _, _, _, _ => interval_cases i <;> rfl
  rw [aux _ _ _ _ l0 l1 l2 l3 i hi]
  have : i / 4 < 4 := by omega
  obtain ⟨c, hc⟩ : ∃ c, i / 4 = c := ⟨_, rfl⟩
  rw [hc] at this ⊢
  interval_cases c <;> rfl

theorem roundKey_length (r : Nat) (hr : r ≤ 10) : (roundKey (keyExpansion key 40) r).length = 16 := by
  have hl := ke_length key 40
  unfold roundKey
  rw [List.length_flatten]
  have : ((List.drop (4 * r) (keyExpansion key 40)).take 4).map List.length = List.replicate 4 4 := by
    apply List.ext_getElem
    · simp [hl]; omega
    · intro j h1 h2
      simp only [List.length_replicate] at h2
      simp only [List.getElem_map, List.getElem_take, List.getElem_drop, List.getElem_replicate]
      have := wordAt_length hk (4 * r + j) (by omega)
      unfold wordAt at this
      rwa [List.getD_eq_getElem _ _ (by omega)] at this
  rw [this]
  rfl

/-- The recurrence of the round keys, byte by byte. -/
theorem roundKey_succ (r i : Nat) (hr : r < 10) (hi : i < 16) :
    at' (roundKey (keyExpansion key 40) (r + 1)) i = at' (roundKey (keyExpansion key 40) r) i ^^^
      (if i < 4 then sbox (at' (roundKey (keyExpansion key 40) r) (12 + (i + 1) % 4)) ^^^ at' (rcon (r + 1)) i
        else at' (roundKey (keyExpansion key 40) (r + 1)) (i - 4)) := by
  rw [at_roundKey hk _ _ (by omega) hi, at_roundKey hk _ _ (by omega) hi,
    show 4 * (r + 1) + i / 4 = (4 * r + i / 4) + 4 by omega, at_word hk _ _ (by omega) (by omega)]
  refine congrArg (fun z => at' (wordAt key (4 * r + i / 4)) (i % 4) ^^^ z) ?_
  by_cases h : i < 4
  · rw [if_pos h, if_pos (by omega), at_roundKey hk _ _ (by omega) (by omega)]
    have e1 : (12 + (i + 1) % 4) / 4 = 3 := by omega
    have e2 : (12 + (i + 1) % 4) % 4 = (i + 1) % 4 := by omega
    have e3 : i / 4 = 0 := by omega
    have e4 : i % 4 = i := by omega
    have e5 : 4 * r / 4 = r := by omega
    simp only [e1, e2, e3, e4, e5, Nat.add_zero]
  · rw [if_neg h, if_neg (by omega), at_roundKey hk _ _ (by omega) (by omega)]
    have e1 : 4 * r + i / 4 + 3 = 4 * (r + 1) + (i - 4) / 4 := by omega
    have e2 : (i - 4) % 4 = i % 4 := by omega
    rw [e1, e2]

/-! ## Rounds -/

variable {inp : List Byte} (hi : inp.length = 16)
include hi

theorem rounds_length (r : Nat) (hr : r ≤ 9) : (rounds (keyExpansion key 40) inp r).length = 16 := by
  cases r with
  | zero => simp [rounds, addRoundKey, hi, roundKey_length hk 0 (by omega)]
  | succ r =>
    have := roundKey_length hk (r + 1) (by omega)
    simp [rounds, addRoundKey, mixColumns, this]

theorem rounds_zero (i : Nat) (h : i < 16) : at' (rounds (keyExpansion key 40) inp 0) i
    = at' inp i ^^^ at' (roundKey (keyExpansion key 40) 0) i := by
  have := roundKey_length hk 0 (by omega)
  rw [rounds, addRoundKey, at_zip _ _ _ (by omega) (by omega)]

omit hk hi in
/-- The byte that ShiftRows moves to byte `i`. -/
theorem at_shiftRows (s : List Byte) (hs : s.length = 16) (i : Nat) (h : i < 16) :
    at' (shiftRows (subBytes s)) i = sbox (at' s ((i + 4 * (i % 4)) % 16)) := by
  rw [shiftRows, at_map _ _ _ h, at_sub _ _ (by omega)]

omit hk hi in
theorem gmul_two (a : Byte) : gmul 2 a = xtime a := by
  revert a
  decide +kernel

omit hk hi in
theorem gmul_three (a : Byte) : gmul 3 a = xtime a ^^^ a := by
  revert a
  decide +kernel

theorem rounds_succ (r i : Nat) (hr : r < 9) (h : i < 16) :
    at' (rounds (keyExpansion key 40) inp (r + 1)) i =
      (let y := fun d => sbox (at' (rounds (keyExpansion key 40) inp r)
        (((4 * (i / 4) + (i + d) % 4) + 4 * ((4 * (i / 4) + (i + d) % 4) % 4)) % 16))
      xtime (y 0) ^^^ (xtime (y 1) ^^^ y 1) ^^^ y 2 ^^^ y 3 ^^^ at' (roundKey (keyExpansion key 40) (r + 1)) i) := by
  have hl := roundKey_length hk (r + 1) (by omega)
  have hs := rounds_length hk hi r (by omega)
  rw [rounds, addRoundKey, at_zip _ _ _ (by simp [mixColumns]; omega) (by omega), mixColumns, at_map _ _ _ h]
  simp only
  rw [at_shiftRows _ hs _ (by omega), at_shiftRows _ hs _ (by omega), at_shiftRows _ hs _ (by omega),
    at_shiftRows _ hs _ (by omega), gmul_two, gmul_three]

theorem cipher_at (i : Nat) (h : i < 16) :
    at' (cipher key inp) i = sbox (at' (rounds (keyExpansion key 40) inp 9) ((i + 4 * (i % 4)) % 16))
      ^^^ at' (roundKey (keyExpansion key 40) 10) i := by
  have hl := roundKey_length hk 10 (by omega)
  have hs := rounds_length hk hi 9 (by omega)
  unfold cipher
  simp only
  rw [addRoundKey, at_zip _ _ _ (by simp [shiftRows]; omega) (by omega), at_shiftRows _ hs _ h]

omit hi in
theorem cipher_length : (cipher key inp).length = 16 := by
  have hl := roundKey_length hk 10 (by omega)
  simp [cipher, addRoundKey, shiftRows, hl]

end

/-! ## Bytes of numbers -/

theorem bytesOf_length (x : BitVec 128) : (bytesOf x).length = 16 := by simp [bytesOf]

theorem at_bytesOf (x : BitVec 128) (i k : Nat) (hi : i < 16) (hk : k < 8) :
    (at' (bytesOf x) i).getLsbD k = x.getLsbD (8 * (15 - i) + k) := by
  rw [bytesOf, at_map _ _ _ hi, BitVec.getLsbD_extractLsb']
  simp [hk]

theorem getLsbD_fold (l : List Byte) (acc : BitVec 128) (w : Nat) (hw : w < 128) :
    (l.foldl (fun (acc : BitVec 128) b => (acc <<< 8) ||| b.setWidth 128) acc).getLsbD w
      = if w < 8 * l.length then (at' l (l.length - 1 - w / 8)).getLsbD (w % 8)
        else acc.getLsbD (w - 8 * l.length) := by
  induction l generalizing acc with
  | nil => simp
  | cons b l ih =>
    rw [List.foldl_cons, ih]
    simp only [List.length_cons]
    by_cases h1 : w < 8 * l.length
    · rw [if_pos h1, if_pos (by omega)]
      congr 1
      have e : l.length + 1 - 1 - w / 8 = (l.length - 1 - w / 8) + 1 := by omega
      rw [e]
      rfl
    · rw [if_neg h1]
      rw [BitVec.getLsbD_or, BitVec.getLsbD_shiftLeft, BitVec.getLsbD_setWidth]
      by_cases h2 : w < 8 * (l.length + 1)
      · rw [if_pos h2]
        have e : l.length + 1 - 1 - w / 8 = 0 := by omega
        have e2 : w % 8 = w - 8 * l.length := by omega
        have h3 : w - 8 * l.length < 8 := by omega
        have h4 : w - 8 * l.length < 128 := by omega
        rw [e, e2]
        simp [h3, h4, at']
      · rw [if_neg h2]
        have h3 : ¬ w - 8 * l.length < 8 := by omega
        have h4 : w - 8 * l.length < 128 := by omega
        have h5 : w - 8 * (l.length + 1) = w - 8 * l.length - 8 := by omega
        simp [h3, h4, h5, BitVec.getLsbD_of_ge b (w - 8 * l.length) (by omega)]

theorem getLsbD_ofBytes (l : List Byte) (hl : l.length = 16) (w : Nat) (hw : w < 128) :
    (ofBytes l).getLsbD w = (at' l (15 - w / 8)).getLsbD (w % 8) := by
  rw [ofBytes, getLsbD_fold l 0 w hw, if_pos (by omega), hl]

end Verif.Aes
