import Verif.NetworkSpec
import Verif.GFSerLemmas

/-!
# Helper lemmas about the network model
-/

namespace Verif

/-! ### Framing -/

theorem vint_small (k v : Nat) (hk : vintLen v = k) (hk8 : k ≤ 8) (h1 : 1 ≤ k) (hv : v < 2 ^ (7 * k)) :
    ofLeBytes (vintEncode v) = (v * 2 + 1) * 2 ^ (k - 1) ∧ (vintEncode v).length = k := by
  have hlt : (v * 2 + 1) * 2 ^ (k - 1) < 256 ^ k := by
    have h2 : v * 2 + 1 < 2 ^ (7 * k + 1) := by rw [pow_succ]; omega
    calc (v * 2 + 1) * 2 ^ (k - 1) < 2 ^ (7 * k + 1) * 2 ^ (k - 1) := by
          exact Nat.mul_lt_mul_of_pos_right h2 (by positivity)
      _ = 256 ^ k := by
          rw [← pow_add, show (256 : Nat) = 2 ^ 8 by norm_num, ← pow_mul]
          congr 1; omega
  unfold vintEncode
  simp only [hk]
  rw [if_neg (by omega)]
  exact ⟨ofLeBytes_leBytes _ _ hlt, leBytes_length _ _⟩

theorem vintLen_cases (v : Nat) : (vintLen v = 1 ∧ v < 2 ^ 7) ∨ (vintLen v = 2 ∧ 2 ^ 7 ≤ v ∧ v < 2 ^ 14) ∨
    (vintLen v = 3 ∧ 2 ^ 14 ≤ v ∧ v < 2 ^ 21) ∨ (vintLen v = 4 ∧ 2 ^ 21 ≤ v ∧ v < 2 ^ 28) ∨
    (vintLen v = 5 ∧ 2 ^ 28 ≤ v ∧ v < 2 ^ 35) ∨ (vintLen v = 6 ∧ 2 ^ 35 ≤ v ∧ v < 2 ^ 42) ∨
    (vintLen v = 7 ∧ 2 ^ 42 ≤ v ∧ v < 2 ^ 49) ∨ (vintLen v = 8 ∧ 2 ^ 49 ≤ v ∧ v < 2 ^ 56) ∨
    (vintLen v = 9 ∧ 2 ^ 56 ≤ v) := by
  unfold vintLen
  split_ifs <;> omega

theorem vintDecodedLen_of_mod (b k : Nat) (h1 : 1 ≤ k) (h8 : k ≤ 8) (h : b % 2 ^ k = 2 ^ (k - 1)) :
    vintDecodedLen b = k := by
  unfold vintDecodedLen trailingZeros
  interval_cases k <;> norm_num at h <;> split_ifs <;> omega

theorem vint_roundtrip_small (v k : Nat) (hk : vintLen v = k) (h8 : k ≤ 8) (h1 : 1 ≤ k)
    (hlow : k = 1 ∨ 2 ^ (7 * (k - 1)) ≤ v) (hhi : v < 2 ^ (7 * k)) :
    ∃ b rest, vintEncode v = b :: rest ∧ (vintEncode v).length = vintLen v ∧ vintDecodedLen b = vintLen v ∧
      vintDecode (vintEncode v) = some v := by
  obtain ⟨e1, e2⟩ := vint_small k v hk h8 h1 hhi
  obtain ⟨b, rest, hb⟩ : ∃ b rest, vintEncode v = b :: rest := by
    cases h : vintEncode v with
    | nil => rw [h] at e2; simp at e2; omega
    | cons b rest => exact ⟨b, rest, rfl⟩
  have hpow : (2 : Nat) ^ k = 2 * 2 ^ (k - 1) := by
    rw [← pow_succ']; congr 1; omega
  have hX : (v * 2 + 1) * 2 ^ (k - 1) = b + 256 * ofLeBytes rest := by
    rw [← e1, hb]; rfl
  have hbl : vintDecodedLen b = k := by
    apply vintDecodedLen_of_mod b k h1 h8
    have h256 : (256 : Nat) = 2 ^ k * 2 ^ (8 - k) := by
      rw [← pow_add, show k + (8 - k) = 8 by omega]; norm_num
    have hm : (b + 256 * ofLeBytes rest) % 2 ^ k = b % 2 ^ k := by
      rw [h256, mul_assoc, Nat.add_mul_mod_self_left]
    rw [← hm, ← hX, hpow, Nat.mul_mod_mul_right]
    rw [show (v * 2 + 1) % 2 = 1 by omega, one_mul]
  have hdiv : (v * 2 + 1) * 2 ^ (k - 1) / 2 ^ k = v := by
    rw [hpow, Nat.mul_div_mul_right _ _ (by positivity)]
    omega
  refine ⟨b, rest, hb, by rw [e2, hk], by rw [hbl, hk], ?_⟩
  unfold vintDecode
  rw [hb]
  simp only [hbl]
  rw [← hb, e1, hdiv, if_neg (show ¬ k = 9 by omega), if_pos hlow]

/-- The first byte of an encoding determines its length, and decoding gives back the value. -/
theorem vint_roundtrip (v : Nat) (hv : v < 2 ^ 64) : ∃ b rest, vintEncode v = b :: rest ∧
    (vintEncode v).length = vintLen v ∧ vintDecodedLen b = vintLen v ∧ vintDecode (vintEncode v) = some v := by
  rcases vintLen_cases v with h | h | h | h | h | h | h | h | h
  · exact vint_roundtrip_small v 1 h.1 (by omega) (by omega) (Or.inl rfl) h.2
  · exact vint_roundtrip_small v 2 h.1 (by omega) (by omega) (Or.inr h.2.1) h.2.2
  · exact vint_roundtrip_small v 3 h.1 (by omega) (by omega) (Or.inr h.2.1) h.2.2
  · exact vint_roundtrip_small v 4 h.1 (by omega) (by omega) (Or.inr h.2.1) h.2.2
  · exact vint_roundtrip_small v 5 h.1 (by omega) (by omega) (Or.inr h.2.1) h.2.2
  · exact vint_roundtrip_small v 6 h.1 (by omega) (by omega) (Or.inr h.2.1) h.2.2
  · exact vint_roundtrip_small v 7 h.1 (by omega) (by omega) (Or.inr h.2.1) h.2.2
  · exact vint_roundtrip_small v 8 h.1 (by omega) (by omega) (Or.inr h.2.1) h.2.2
  · refine ⟨0, leBytes 8 v, ?_, ?_, ?_, ?_⟩
    · unfold vintEncode; simp [h.1]
    · unfold vintEncode; simp [h.1, leBytes_length]
    · rw [h.1]; rfl
    · unfold vintEncode vintDecode
      simp only [h.1, if_true]
      rw [show vintDecodedLen 0 = 9 from rfl]
      simp only [if_true]
      rw [ofLeBytes_leBytes 8 v (by norm_num; omega), if_pos (Or.inr h.2)]

/-- A message the frame format can carry. -/
def NetMsg.Ok (m : NetMsg) : Prop := m.protoId.length ≤ 255 ∧ m.protoId.length + m.data.length + 1 < 2 ^ 64

/-- The receiver reads back one frame. -/
theorem recvFrame_encode (m : NetMsg) (h : m.Ok) (frame rest : List Nat) (he : encodeFrame m = some frame) :
    recvFrame (frame ++ rest) = .message m rest := by
  unfold encodeFrame at he
  rw [if_pos h.1, Option.some.injEq] at he
  obtain ⟨b, t, hb, hlen, hdl, hdec⟩ := vint_roundtrip _ h.2
  have hall : frame ++ rest = b :: (t ++ (m.protoId.length :: (m.protoId ++ m.data)) ++ rest) := by
    rw [← he, hb]; simp
  have hall' : frame ++ rest = vintEncode (m.protoId.length + m.data.length + 1) ++
      ((m.protoId.length :: (m.protoId ++ m.data)) ++ rest) := by rw [← he]; simp
  rw [hall]
  unfold recvFrame
  simp only [hdl]
  rw [← hall, hall']
  rw [if_neg (by simp [hlen]), ← hlen, List.take_left, hdec]
  simp only [List.drop_left]
  have hl2 : (m.protoId.length :: (m.protoId ++ m.data)).length = m.protoId.length + m.data.length + 1 := by simp
  rw [if_neg (by simp), ← hl2, List.take_left, List.drop_left]
  simp only
  rw [if_pos (by simp), List.take_left, List.drop_left]

/-- On part of a frame the receiver waits. -/
theorem recvFrame_prefix (m : NetMsg) (h : m.Ok) (frame pre post : List Nat) (he : encodeFrame m = some frame)
    (hp : frame = pre ++ post) (hpost : post ≠ []) : recvFrame pre = .wait := by
  unfold encodeFrame at he
  rw [if_pos h.1, Option.some.injEq] at he
  obtain ⟨b, t, hb, hlen, hdl, hdec⟩ := vint_roundtrip _ h.2
  have hplen : 0 < post.length := List.length_pos_iff.2 hpost
  cases pre with
  | nil => rfl
  | cons c pre =>
    have hfl : frame.length = vintLen (m.protoId.length + m.data.length + 1) + (m.protoId.length + m.data.length + 1) := by
      rw [← he]; simp [hlen]
    have hpl := congrArg List.length hp
    rw [List.length_append] at hpl
    have hc : c = b := by
      rw [hb] at he
      rw [hp] at he
      simp at he
      exact he.1.symm
    subst hc
    unfold recvFrame
    simp only [hdl]
    split
    · rfl
    · rename_i hge
      have hge : vintLen (m.protoId.length + m.data.length + 1) ≤ (c :: pre).length := by omega
      have htake : (c :: pre).take (vintLen (m.protoId.length + m.data.length + 1)) = vintEncode (m.protoId.length + m.data.length + 1) := by
        have h1 : frame.take (vintLen (m.protoId.length + m.data.length + 1)) = vintEncode (m.protoId.length + m.data.length + 1) := by
          rw [← he, ← hlen, List.take_left]
        rw [hp, List.take_append_of_le_length hge] at h1
        exact h1
      rw [htake, hdec]
      simp only
      rw [if_pos]
      simp only [List.length_drop]
      omega

theorem encodeFrame_ok {m : NetMsg} (h : m.Ok) : ∃ f, encodeFrame m = some f ∧ f ≠ [] := by
  unfold encodeFrame
  rw [if_pos h.1]
  refine ⟨_, rfl, ?_⟩
  simp

theorem encodeFrames_ok {ms : List NetMsg} (h : ∀ m ∈ ms, m.Ok) : ∃ b, encodeFrames ms = some b := by
  induction ms with
  | nil => exact ⟨[], rfl⟩
  | cons m ms ih =>
    obtain ⟨f, hf, _⟩ := encodeFrame_ok (h m (by simp))
    obtain ⟨b, hb⟩ := ih fun m hm => h m (by simp [hm])
    exact ⟨f ++ b, by simp [encodeFrames, hf, hb]⟩

theorem encodeFrames_snoc {ms : List NetMsg} {m : NetMsg} {b f : List Nat} (h : encodeFrames ms = some b)
    (hf : encodeFrame m = some f) : encodeFrames (ms ++ [m]) = some (b ++ f) := by
  induction ms generalizing b with
  | nil => simp [encodeFrames] at h; subst h; simp [encodeFrames, hf]
  | cons a ms ih =>
    rw [encodeFrames] at h
    obtain ⟨fa, hfa, h⟩ := Option.bind_eq_some_iff.1 h
    obtain ⟨b', hb', h⟩ := Option.map_eq_some_iff.1 h
    rw [List.cons_append, encodeFrames, hfa, ih hb']
    simp [← h]

/-- Whatever part of the stream has arrived, the receiver has extracted the messages whose frames are
complete, and waits. -/
theorem recvFrames_prefix (ms : List NetMsg) (h : ∀ m ∈ ms, m.Ok) (bytes pre post : List Nat)
    (he : encodeFrames ms = some bytes) (hp : bytes = pre ++ post) (fuel : Nat) (hf : ms.length < fuel) :
    ∃ k rest, k ≤ ms.length ∧ recvFrames fuel pre = some (ms.take k, rest) ∧
      ∃ b, encodeFrames (ms.drop k) = some b ∧ b = rest ++ post ∧ (post = [] → k = ms.length ∧ rest = []) ∧
        recvFrame rest = .wait := by
  induction ms generalizing bytes pre fuel with
  | nil =>
    simp only [encodeFrames, Option.some.injEq] at he
    subst he
    have hpp := List.append_eq_nil_iff.1 hp.symm
    obtain ⟨fuel, rfl⟩ : ∃ f, fuel = f + 1 := ⟨fuel - 1, by simp at hf; omega⟩
    refine ⟨0, [], le_refl _, ?_, [], rfl, by simp [hpp.2], ?_, rfl⟩
    · rw [hpp.1]; rfl
    · intro _; exact ⟨rfl, rfl⟩
  | cons m ms ih =>
    obtain ⟨fuel, rfl⟩ : ∃ f, fuel = f + 1 := ⟨fuel - 1, by simp at hf; omega⟩
    rw [encodeFrames] at he
    obtain ⟨f, hfr, he⟩ := Option.bind_eq_some_iff.1 he
    obtain ⟨b, hb, he⟩ := Option.map_eq_some_iff.1 he
    have hm := h m (by simp)
    have hsplit : f ++ b = pre ++ post := by rw [he, hp]
    rcases List.append_eq_append_iff.1 hsplit with ⟨a', h1, h2⟩ | ⟨c', h1, h2⟩
    · -- the whole frame is there
      have hr := recvFrame_encode m hm f a' hfr
      rw [h1]
      obtain ⟨k, rest, hk, hk1, b', hb', hk2, hk3, hk4⟩ := ih (fun m hm => h m (by simp [hm])) b a' hb h2 fuel
        (by simp at hf; omega)
      refine ⟨k + 1, rest, by simp; omega, ?_, b', ?_, hk2, ?_, hk4⟩
      · rw [recvFrames, hr]
        simp only [hk1, Option.map_some, List.take_succ_cons]
      · simpa using hb'
      · intro hpost
        have := hk3 hpost
        exact ⟨by simp [this.1], this.2⟩
    · by_cases hc : c' = []
      · -- exactly the frame
        subst hc
        have h1' : pre = f := by simpa using h1.symm
        have h2' : post = b := by simpa using h2
        have hr := recvFrame_encode m hm f [] hfr
        rw [List.append_nil] at hr
        obtain ⟨k, rest, hk, hk1, b', hb', hk2, hk3, hk4⟩ := ih (fun m hm => h m (by simp [hm])) b [] hb
          (by rw [h2']; rfl) fuel (by simp at hf; omega)
        refine ⟨k + 1, rest, by simp; omega, ?_, b', by simpa using hb', hk2, ?_, hk4⟩
        · rw [h1', recvFrames, hr]
          simp only [hk1, Option.map_some, List.take_succ_cons]
        · intro hpost
          have := hk3 hpost
          exact ⟨by simp [this.1], this.2⟩
      · -- part of the frame
        have hw := recvFrame_prefix m hm f pre c' hfr h1 hc
        refine ⟨0, pre, Nat.zero_le _, ?_, f ++ b, ?_, hsplit, ?_, hw⟩
        · rw [recvFrames, hw]; rfl
        · simp [encodeFrames, hfr, hb]
        · intro hpost
          exfalso
          rw [hpost] at h2
          have := (List.append_eq_nil_iff.1 h2.symm).1
          exact hc this

end Verif
