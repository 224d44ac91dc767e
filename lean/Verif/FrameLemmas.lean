import Verif.FrameSpec
import Verif.NetworkLemmas

/-!
# Lemmas about arbitrary bytes on a connection
-/

namespace Verif

theorem leBytes_ofLeBytes (bs : List Nat) (h : ∀ b ∈ bs, b < 256) : leBytes bs.length (ofLeBytes bs) = bs := by
  induction bs with
  | nil => rfl
  | cons b bs ih =>
    have hb := h b (by simp)
    rw [List.length_cons, leBytes, ofLeBytes, show (b + 256 * ofLeBytes bs) % 256 = b by omega,
      show (b + 256 * ofLeBytes bs) / 256 = ofLeBytes bs by omega, ih fun x hx => h x (by simp [hx])]

theorem decodedLen_le (b : Nat) : 1 ≤ vintDecodedLen b ∧ vintDecodedLen b ≤ 9 := by
  unfold vintDecodedLen trailingZeros
  split_ifs <;> simp

theorem decodedLen_mod (b : Nat) (h8 : vintDecodedLen b ≠ 9) : b % 2 ^ vintDecodedLen b = 2 ^ (vintDecodedLen b - 1) := by
  unfold vintDecodedLen trailingZeros at *
  split_ifs with h1 h2 h3 h4 h5 h6 h7 h0
  · simpa using h1
  · simpa using h2
  · simpa using h3
  · simpa using h4
  · simpa using h5
  · simpa using h6
  · simpa using h7
  · simpa using h0
  · simp [h1, h2, h3, h4, h5, h6, h7, h0] at h8

theorem decodedLen_nine (b : Nat) (hb : b < 256) (h : vintDecodedLen b = 9) : b = 0 := by
  have key : ∀ b : Fin 256, vintDecodedLen b = 9 → (b : Nat) = 0 := by decide +kernel
  exact key ⟨b, hb⟩ h

theorem vintLen_of (v k : Nat) (h1 : 1 ≤ k) (h8 : k ≤ 8) (hlow : k = 1 ∨ 2 ^ (7 * (k - 1)) ≤ v) (hhi : v < 2 ^ (7 * k)) : vintLen v = k := by
  have hup : ∀ a b : Nat, a ≤ b → (2 : Nat) ^ a ≤ 2 ^ b := fun a b h => Nat.pow_le_pow_right (by norm_num) h
  have low : vintLen v = 1 ∨ 2 ^ (7 * (vintLen v - 1)) ≤ v := by
    rcases vintLen_cases v with h | h | h | h | h | h | h | h | h <;> rw [h.1]
    · exact Or.inl rfl
    · exact Or.inr (by simpa using h.2.1)
    · exact Or.inr (by simpa using h.2.1)
    · exact Or.inr (by simpa using h.2.1)
    · exact Or.inr (by simpa using h.2.1)
    · exact Or.inr (by simpa using h.2.1)
    · exact Or.inr (by simpa using h.2.1)
    · exact Or.inr (by simpa using h.2.1)
    · exact Or.inr (by simpa using h.2)
  have high : vintLen v = 9 ∨ v < 2 ^ (7 * vintLen v) := by
    rcases vintLen_cases v with h | h | h | h | h | h | h | h | h <;> rw [h.1]
    · exact Or.inr (by simpa using h.2)
    · exact Or.inr (by simpa using h.2.2)
    · exact Or.inr (by simpa using h.2.2)
    · exact Or.inr (by simpa using h.2.2)
    · exact Or.inr (by simpa using h.2.2)
    · exact Or.inr (by simpa using h.2.2)
    · exact Or.inr (by simpa using h.2.2)
    · exact Or.inr (by simpa using h.2.2)
    · exact Or.inl rfl
  have pos : 1 ≤ vintLen v := by rcases vintLen_cases v with h | h | h | h | h | h | h | h | h <;> omega
  rcases lt_trichotomy (vintLen v) k with h | h | h
  · have := hup (7 * vintLen v) (7 * (k - 1)) (by omega)
    rcases high with e | e
    · omega
    · rcases hlow with f | f <;> omega
  · exact h
  · have := hup (7 * k) (7 * (vintLen v - 1)) (by omega)
    rcases low with e | e <;> omega

/-- Only the encodings which `vint64::encode` produces are accepted. -/
theorem vint_canonical {b : Nat} {t : List Nat} {v : Nat} (hb : ∀ x ∈ b :: t, x < 256) (hl : (b :: t).length = vintDecodedLen b)
    (h : vintDecode (b :: t) = some v) : vintEncode v = b :: t ∧ v < 2 ^ 64 := by
  have hle := ofLeBytes_lt (b :: t) hb
  have hback := leBytes_ofLeBytes (b :: t) hb
  unfold vintDecode at h
  simp only at h
  obtain ⟨k1, k9⟩ := decodedLen_le b
  by_cases h9 : vintDecodedLen b = 9
  · simp only [h9, if_true] at h
    split_ifs at h with hc
    rw [Option.some.injEq] at h
    have h0 := decodedLen_nine b (hb b (by simp)) h9
    subst h0
    have hc : 2 ^ (7 * (9 - 1)) ≤ ofLeBytes t := hc.resolve_left (by omega)
    have ht : t.length = 8 := by
      rw [List.length_cons, h9] at hl
      omega
    have hlt := ofLeBytes_lt t fun x hx => hb x (by simp [hx])
    rw [ht] at hlt
    have hlen : vintLen v = 9 := by
      rcases vintLen_cases v with h' | h' | h' | h' | h' | h' | h' | h' | h' <;> norm_num at h' hc <;> omega
    refine ⟨?_, by rw [← h]; norm_num at hlt ⊢; omega⟩
    unfold vintEncode
    simp only [hlen, if_true]
    rw [← h, ← ht, leBytes_ofLeBytes t fun x hx => hb x (by simp [hx])]
  · have hm := decodedLen_mod b h9
    rw [if_neg h9] at h
    split_ifs at h with hc
    rw [Option.some.injEq] at h
    set k := vintDecodedLen b with hk
    set X := ofLeBytes (b :: t) with hX
    have hXm : X % 2 ^ k = 2 ^ (k - 1) := by
      have h256 : (256 : Nat) = 2 ^ k * 2 ^ (8 - k) := by
        rw [← pow_add, show k + (8 - k) = 8 by omega]; norm_num
      rw [← hm, hX, ofLeBytes, h256, mul_assoc, Nat.add_mul_mod_self_left]
    have hXe : X = (v * 2 + 1) * 2 ^ (k - 1) := by
      have h1 := Nat.div_add_mod X (2 ^ k)
      rw [h, hXm] at h1
      have hpow : (2 : Nat) ^ k = 2 * 2 ^ (k - 1) := by
        rw [← pow_succ', Nat.sub_add_cancel k1]
      rw [← h1, hpow]
      ring
    have hv : v < 2 ^ (7 * k) := by
      rw [← h, Nat.div_lt_iff_lt_mul (by positivity), ← pow_add, show 7 * k + k = 8 * k by omega]
      rw [hl, show (256 : Nat) = 2 ^ 8 by norm_num, ← pow_mul] at hle
      exact hle
    have hlow : k = 1 ∨ 2 ^ (7 * (k - 1)) ≤ v := by rwa [h] at hc
    have hlen := vintLen_of v k k1 (by omega) hlow hv
    refine ⟨?_, lt_of_lt_of_le hv (Nat.pow_le_pow_right (by norm_num) (by omega))⟩
    unfold vintEncode
    simp only [hlen]
    rw [if_neg h9, ← hXe, ← hl, hback]

/-- A message is taken only from the bytes which `party_sender` writes for it. -/
theorem recvFrame_canonical {bytes rest : List Nat} {m : NetMsg} (hb : ∀ x ∈ bytes, x < 256) (h : recvFrame bytes = .message m rest) :
    ∃ frame, encodeFrame m = some frame ∧ bytes = frame ++ rest ∧ m.Ok ∧ m.Bytes := by
  cases bytes with
  | nil => simp [recvFrame] at h
  | cons b t =>
    unfold recvFrame at h
    simp only at h
    split at h
    · simp at h
    · rename_i hlen
      split at h
      · simp at h
      · rename_i len hdec
        split at h
        · simp at h
        · rename_i hbody
          have hcut : (b :: t).take (vintDecodedLen b) = b :: t.take (vintDecodedLen b - 1) := by
            obtain ⟨k, hk⟩ : ∃ k, vintDecodedLen b = k + 1 := ⟨vintDecodedLen b - 1, by have := (decodedLen_le b).1; omega⟩
            rw [hk, List.take_succ_cons, Nat.add_sub_cancel]
          obtain ⟨henc, hlt⟩ := vint_canonical (b := b) (t := t.take (vintDecodedLen b - 1))
            (fun x hx => hb x (by rw [← hcut] at hx; exact List.mem_of_mem_take hx))
            (by rw [← hcut, List.length_take]; omega) (by rw [← hcut]; exact hdec)
          split at h
          · simp at h
          · rename_i idLen mssg hm
            split at h
            · rename_i hid
              simp only [RecvStep.message.injEq] at h
              obtain ⟨rfl, rfl⟩ := h
              have hml : mssg.length + 1 = len := by
                have := congrArg List.length hm
                rw [List.length_take, List.length_cons] at this
                omega
              have hidb : idLen < 256 := hb idLen (List.mem_of_mem_drop (List.mem_of_mem_take (by rw [hm]; simp)))
              have hmb : ∀ x ∈ mssg, x < 256 := fun x hx =>
                hb x (List.mem_of_mem_drop (List.mem_of_mem_take (by rw [hm]; simp [hx])))
              have hl1 : (mssg.take idLen).length = idLen := by rw [List.length_take]; omega
              have hl2 : (mssg.take idLen).length + (mssg.drop idLen).length + 1 = len := by
                rw [← List.length_append, List.take_append_drop]; exact hml
              refine ⟨b :: t.take (vintDecodedLen b - 1) ++ idLen :: mssg, ?_, ?_, ⟨by rw [hl1]; omega, by rw [hl2]; exact hlt⟩,
                fun x hx => hmb x (List.mem_of_mem_take hx), fun x hx => hmb x (List.mem_of_mem_drop hx)⟩
              · unfold encodeFrame
                rw [if_pos (by rw [hl1]; omega), hl2, henc, hl1, List.take_append_drop]
              · rw [← hm, ← hcut, List.append_assoc, List.take_append_drop, List.take_append_drop]
            · simp at h

theorem encodeFrame_length {m : NetMsg} {frame : List Nat} (h : encodeFrame m = some frame) : 0 < frame.length := by
  unfold encodeFrame at h
  split_ifs at h
  rw [Option.some.injEq] at h
  rw [← h]
  simp

theorem recvFrame_shorter {bytes rest : List Nat} {m : NetMsg} (h : recvFrame bytes = .message m rest) : rest.length < bytes.length := by
  cases bytes with
  | nil => simp [recvFrame] at h
  | cons b t =>
    unfold recvFrame at h
    simp only at h
    split at h
    · simp at h
    · split at h
      · simp at h
      · split at h
        · simp at h
        · split at h
          · simp at h
          · split at h
            · simp only [RecvStep.message.injEq] at h
              rw [← h.2]
              simp only [List.length_drop]
              have := (decodedLen_le b).1
              simp only [List.length_cons]
              omega
            · simp at h

/-- More bytes do not change what is done with the first ones. -/
theorem recvFrame_append {bytes more : List Nat} : (recvFrame bytes = .panic → recvFrame (bytes ++ more) = .panic) ∧
    ∀ m rest, recvFrame bytes = .message m rest → recvFrame (bytes ++ more) = .message m (rest ++ more) := by
  cases bytes with
  | nil => simp [recvFrame]
  | cons b t =>
    have key : recvFrame (b :: t) ≠ .wait → recvFrame (b :: t ++ more) = match recvFrame (b :: t) with
        | .message m rest => .message m (rest ++ more)
        | s => s := by
      intro hw
      unfold recvFrame at hw ⊢
      simp only [List.cons_append] at hw ⊢
      by_cases h1 : (b :: t).length < vintDecodedLen b
      · rw [if_pos h1] at hw
        exact absurd rfl hw
      · rw [if_neg h1] at hw ⊢
        rw [if_neg (by simp only [List.length_cons, List.length_append] at h1 ⊢; omega)]
        have e1 : (b :: (t ++ more)).take (vintDecodedLen b) = (b :: t).take (vintDecodedLen b) := by
          rw [← List.cons_append, List.take_append_of_le_length (by omega)]
        have e2 : (b :: (t ++ more)).drop (vintDecodedLen b) = (b :: t).drop (vintDecodedLen b) ++ more := by
          rw [← List.cons_append, List.drop_append_of_le_length (by omega)]
        rw [e1, e2]
        cases hd : vintDecode ((b :: t).take (vintDecodedLen b)) with
        | none => rfl
        | some len =>
          rw [hd] at hw
          simp only at hw ⊢
          by_cases h3 : ((b :: t).drop (vintDecodedLen b)).length < len
          · rw [if_pos h3] at hw
            exact absurd rfl hw
          · rw [if_neg h3] at hw ⊢
            rw [if_neg (by rw [List.length_append]; omega)]
            rw [List.take_append_of_le_length (by omega), List.drop_append_of_le_length (by omega)]
            cases ((b :: t).drop (vintDecodedLen b)).take len with
            | nil => rfl
            | cons x y =>
              simp only
              split_ifs <;> rfl
    constructor
    · intro h
      rw [key (by rw [h]; simp), h]
    · intro m rest h
      rw [key (by rw [h]; simp), h]

/-- More fuel than bytes changes nothing. -/
theorem recvRun_fuel {f : Nat} {bytes : List Nat} (h : bytes.length ≤ f) : recvRun f bytes = recvBytes bytes := by
  unfold recvBytes
  induction f using Nat.strong_induction_on generalizing bytes with
  | _ f ih =>
    cases f with
    | zero =>
      have : bytes = [] := List.eq_nil_of_length_eq_zero (by omega)
      subst this
      rfl
    | succ f =>
      cases hl : bytes.length with
      | zero =>
        have : bytes = [] := List.eq_nil_of_length_eq_zero hl
        subst this
        rfl
      | succ n =>
        unfold recvRun
        cases hr : recvFrame bytes with
        | wait => rfl
        | panic => rfl
        | message m rest =>
          have := recvFrame_shorter hr
          simp only
          rw [ih f (by omega) (bytes := rest) (by omega), ← ih n (by omega) (bytes := rest) (by omega)]

theorem recvBytes_step (bytes : List Nat) : recvBytes bytes = match recvFrame bytes with
    | .wait => ([], some bytes)
    | .panic => ([], none)
    | .message m rest => (m :: (recvBytes rest).1, (recvBytes rest).2) := by
  rw [← recvRun_fuel (f := bytes.length + 1) (by omega)]
  conv_lhs => unfold recvRun
  cases hr : recvFrame bytes with
  | wait => rfl
  | panic => rfl
  | message m rest =>
    have := recvFrame_shorter hr
    simp only
    rw [recvRun_fuel (by omega)]

theorem recvBytes_append (bytes more : List Nat) : recvBytes (bytes ++ more) = recvPiece (recvBytes bytes) more := by
  induction h : bytes.length using Nat.strong_induction_on generalizing bytes with
  | _ n ih =>
    rw [recvBytes_step bytes]
    cases hr : recvFrame bytes with
    | wait => simp [recvPiece]
    | panic =>
      rw [recvBytes_step, recvFrame_append.1 hr]
      rfl
    | message m rest =>
      rw [recvBytes_step, recvFrame_append.2 m rest hr]
      have := recvFrame_shorter hr
      simp only
      rw [ih rest.length (by omega) rest rfl]
      unfold recvPiece
      cases h2 : (recvBytes rest).2 <;> simp [h2]

/-! ## Limited memory -/

theorem recvFrame_announced {bytes : List Nat} : (recvFrame bytes = .wait ∨ recvFrame bytes = .panic ∨ ∃ m rest, recvFrame bytes = .message m rest ∧
    announced bytes = some m.size) := by
  cases bytes with
  | nil => exact Or.inl rfl
  | cons b t =>
    unfold recvFrame announced NetMsg.size
    simp only
    split
    · exact Or.inl rfl
    · split
      · exact Or.inr (Or.inl rfl)
      · rename_i len hd
        split
        · exact Or.inl rfl
        · rename_i hl
          split
          · exact Or.inr (Or.inl rfl)
          · rename_i x y hx
            split
            · refine Or.inr (Or.inr ⟨_, _, rfl, ?_⟩)
              rw [hd]
              have := congrArg List.length hx
              rw [List.length_take, List.length_cons] at this
              rw [Option.some.injEq, ← List.length_append, List.take_append_drop]
              omega
            · exact Or.inr (Or.inl rfl)

theorem announced_append {bytes more : List Nat} {len : Nat} (h : announced bytes = some len) : announced (bytes ++ more) = some len := by
  cases bytes with
  | nil => simp [announced] at h
  | cons b t =>
    unfold announced at h ⊢
    simp only [List.cons_append] at h ⊢
    split_ifs at h with hl
    rw [if_neg (by simp only [List.length_cons, List.length_append] at hl ⊢; omega), ← List.cons_append,
      List.take_append_of_le_length (by omega), h]

theorem recvRunMem_fuel {M f : Nat} {bytes : List Nat} (h : bytes.length ≤ f) : recvRunMem M f bytes = recvMem M bytes := by
  unfold recvMem
  induction f using Nat.strong_induction_on generalizing bytes with
  | _ f ih =>
    cases f with
    | zero =>
      have : bytes = [] := List.eq_nil_of_length_eq_zero (by omega)
      subst this
      rfl
    | succ f =>
      cases hl : bytes.length with
      | zero =>
        have : bytes = [] := List.eq_nil_of_length_eq_zero hl
        subst this
        simp [recvRunMem, announced, recvFrame]
      | succ n =>
        unfold recvRunMem
        cases hr : recvFrame bytes with
        | wait => rfl
        | panic => rfl
        | message m rest =>
          have := recvFrame_shorter hr
          simp only
          rw [ih f (by omega) (bytes := rest) (by omega), ← ih n (by omega) (bytes := rest) (by omega)]

theorem recvMem_step (M : Nat) (bytes : List Nat) : recvMem M bytes =
    if ∃ len ∈ announced bytes, 2 ^ 63 ≤ len then ([], .panicked)
    else if ∃ len ∈ announced bytes, M < len then ([], .aborted)
    else match recvFrame bytes with
      | .wait => ([], .held bytes)
      | .panic => ([], .panicked)
      | .message m rest => (m :: (recvMem M rest).1, (recvMem M rest).2) := by
  rw [← recvRunMem_fuel (f := bytes.length + 1) (by omega)]
  conv_lhs => unfold recvRunMem
  split
  · rfl
  · split
    · rfl
    · cases hr : recvFrame bytes with
      | wait => rfl
      | panic => rfl
      | message m rest =>
        have := recvFrame_shorter hr
        simp only
        rw [recvRunMem_fuel (by omega)]

end Verif
