import Verif.GF

/-! # Helper lemmas: little-endian bytes and vector encoding -/

namespace Verif

theorem leBytes_length (k v : Nat) : (leBytes k v).length = k := by
  induction k generalizing v with
  | zero => rfl
  | succ k ih => simp [leBytes, ih]

theorem ofLeBytes_leBytes (k v : Nat) (h : v < 256 ^ k) : ofLeBytes (leBytes k v) = v := by
  induction k generalizing v with
  | zero => simp at h; simp [leBytes, ofLeBytes, h]
  | succ k ih =>
    rw [leBytes, ofLeBytes, ih (v / 256) (by rw [pow_succ] at h; omega)]
    omega

theorem leBytes_byte (k v : Nat) : ∀ b ∈ leBytes k v, b < 256 := by
  induction k generalizing v with
  | zero => simp [leBytes]
  | succ k ih =>
    intro b hb
    rw [leBytes, List.mem_cons] at hb
    rcases hb with rfl | hb
    · omega
    · exact ih _ b hb

theorem ofLeBytes_append (a b : List Nat) :
    ofLeBytes (a ++ b) = ofLeBytes a + 256 ^ a.length * ofLeBytes b := by
  induction a with
  | nil => simp [ofLeBytes]
  | cons x a ih => simp only [List.cons_append, ofLeBytes, ih, List.length_cons, pow_succ]; ring

theorem ofLeBytes_replicate_zero (k : Nat) : ofLeBytes (List.replicate k 0) = 0 := by
  induction k with
  | zero => rfl
  | succ k ih => simp [List.replicate_succ, ofLeBytes, ih]

theorem ofLeBytes_lt (bs : List Nat) (h : ∀ b ∈ bs, b < 256) : ofLeBytes bs < 256 ^ bs.length := by
  induction bs with
  | nil => simp [ofLeBytes]
  | cons b bs ih =>
    have h1 := h b (by simp)
    have h2 := ih (fun x hx => h x (by simp [hx]))
    simp only [ofLeBytes, List.length_cons, pow_succ]
    omega

theorem leBytes_take (j k v : Nat) (h : j ≤ k) : (leBytes k v).take j = leBytes j v := by
  induction j generalizing k v with
  | zero => simp [leBytes]
  | succ j ih =>
    cases k with
    | zero => omega
    | succ k => simp [leBytes, ih k (v / 256) (by omega)]

theorem two_pow_le_bytes (W : Nat) : 2 ^ W ≤ 256 ^ numBytes W := by
  rw [show (256 : Nat) = 2 ^ 8 by norm_num, ← pow_mul]
  exact Nat.pow_le_pow_right (by norm_num) (by unfold numBytes; omega)

theorem gf_roundtrip (W v : Nat) (hW : W ≤ 32) (hv : v < 2 ^ W) (rest : List Nat) :
    (gfSerialize W v).length = numBytes W ∧
    gfDeserialize W (gfSerialize W v ++ rest) = some (v, rest) := by
  have hnb : numBytes W ≤ 4 := by unfold numBytes; omega
  have hs : gfSerialize W v = leBytes (numBytes W) v := by
    rw [gfSerialize, leBytes_take _ _ _ hnb]
  have hlen : (gfSerialize W v).length = numBytes W := by rw [hs, leBytes_length]
  refine ⟨hlen, ?_⟩
  unfold gfDeserialize
  rw [if_pos (by simp [hlen])]
  have h1 : (gfSerialize W v ++ rest).take (numBytes W) = gfSerialize W v := by
    rw [← hlen, List.take_left]
  have h2 : (gfSerialize W v ++ rest).drop (numBytes W) = rest := by
    rw [← hlen, List.drop_left]
  rw [h1, h2, ofLeBytes_append, ofLeBytes_replicate_zero, hs,
    ofLeBytes_leBytes _ _ (lt_of_lt_of_le hv (two_pow_le_bytes W))]
  simp

theorem elems_roundtrip (W : Nat) (hW : W ≤ 32) (vs rest : List Nat) (hv : ∀ v ∈ vs, v < 2 ^ W) :
    elemsDeserialize W vs.length (vs.flatMap (gfSerialize W) ++ rest) = some vs := by
  induction vs with
  | nil => rfl
  | cons v vs ih =>
    rw [List.length_cons, elemsDeserialize, List.flatMap_cons, List.append_assoc,
      (gf_roundtrip W v hW (hv v (by simp)) _).2]
    simp [ih (fun x hx => hv x (by simp [hx]))]

end Verif
