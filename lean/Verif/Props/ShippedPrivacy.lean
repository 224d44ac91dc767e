import Verif.ShippedPrivacyLemmas
import Verif.Props.ShippedRun

/-!
# Privacy of garbling the circuits shipped in `data/circ`
-/

open Verif

namespace Verif.Props

section
variable {ctx : Ctx (GF 18)} {lpn : LpnParams} {m mb : Mat (GF 18)} {seahash : List Nat → Nat} {lead : ProtocolID → Nat}
  {id id' : ProtocolID}

/-- C98 for `sub64.txt`, for the packing parameters for which no gate input which is not full has a wire twice, or what is seen of the last XOR
block too much is hidden by its own masks. -/
theorem C98_sub64_partial (R : RunParams ctx lpn 567 m mb seahash lead id id') (hm : m.AllOutputs ctx.t) (hmb : mb.UniformBits ctx.t)
    (hl : Sub64Private ctx.n ctx.l) (hash : List Nat → List Nat) (rng : List Nat → Nat → GF 18) :
    FilePrivate hash rng ctx lpn m mb lead id id' sub64Text.toList := by
  have hpar := R.parties
  have hfit := R.fit
  refine net_private sub64_small sub64_checked sub64_text sub64_counts (by simp [sub64Net]) R
    ((sub64_ids ctx.l R.good.posL).2 (by unfold Sub64Private at hl; simp at hl; omega)) hm hmb (fun p hp => ?_) hash rng
  have hide : ∀ x ∈ sub64Hide, ctx.l = x.1 → ctx.n ∉ x.2.2.2.2 → p.Hides ctx := fun x hx h hb =>
    sub64_hides hx h (by omega) (by omega) hb p hp
  have hD : ctx.l ∈ [1, 2, 3, 4, 6, 8, 12, 13, 24] → p.Hides ctx := fun h => .inl (sub64_sort.distinct hp (sub64_distinctOk _ h))
  rcases hl with hl | ⟨hl, hb⟩ | ⟨hl, hb⟩
  · by_cases h : ctx.l ∈ [1, 2, 3, 4, 6, 8, 12, 13, 24]
    · exact hD h
    · have : ctx.l = 7 ∨ ctx.l = 9 ∨ ctx.l = 15 ∨ ctx.l = 21 := by
        simp only [List.mem_cons, List.not_mem_nil, or_false] at hl h
        omega
      rcases this with h | h | h | h
      · exact hide _ (List.getElem_mem (show 0 < sub64Hide.length by decide)) h (by simp [sub64Hide])
      · exact hide _ (List.getElem_mem (show 1 < sub64Hide.length by decide)) h (by simp [sub64Hide])
      · exact hide _ (List.getElem_mem (show 2 < sub64Hide.length by decide)) h (by simp [sub64Hide])
      · exact hide _ (List.getElem_mem (show 4 < sub64Hide.length by decide)) h (by simp [sub64Hide])
  · exact hide _ (List.getElem_mem (show 3 < sub64Hide.length by decide)) hl hb
  · exact hide _ (List.getElem_mem (show 5 < sub64Hide.length by decide)) hl hb

/-- C98 is false for `sub64.txt` with the packing parameters 20 and 23 and certain numbers of parties, for which the masks of the last XOR block
do not contribute to what some coalition sees. -/
theorem C98_sub64_rare_false (R : RunParams ctx lpn 567 m mb seahash lead id id') (ht : 2 ≤ ctx.t) (hl : ctx.l = 20 ∨ ctx.l = 23)
    (hn : ¬ Sub64Private ctx.n ctx.l) (hash : List Nat → List Nat) (rng : List Nat → Nat → GF 18) :
    FileLeaks hash rng ctx lpn m mb lead id id' sub64Text.toList := by
  have hfit := R.fit
  refine net_leaks_of sub64_small sub64_checked sub64_text sub64_counts (by simp [sub64Net]) R (fun p hp => ?_) hash rng
  rcases hl with hl | hl
  · refine sub64_rareLeak (List.getElem_mem (show 3 < sub64Hide.length by decide)) hl (by omega) ?_ ht R.parties p hp
    by_contra hb
    exact hn (Or.inr (Or.inl ⟨hl, hb⟩))
  · refine sub64_rareLeak (List.getElem_mem (show 5 < sub64Hide.length by decide)) hl (by omega) ?_ ht R.parties p hp
    by_contra hb
    exact hn (Or.inr (Or.inr ⟨hl, hb⟩))

/-- C98 is false for `sub64.txt` with the packing parameters 5 and 10. -/
theorem C98_sub64_false (R : RunParams ctx lpn 567 m mb seahash lead id id') (ht : 2 ≤ ctx.t) (hl : ctx.l = 5 ∨ ctx.l = 10)
    (hash : List Nat → List Nat) (rng : List Nat → Nat → GF 18) : FileLeaks hash rng ctx lpn m mb lead id id' sub64Text.toList := by
  refine net_leaks sub64_small sub64_checked sub64_text sub64_counts (by simp [sub64Net]) R ht (fun p hp => ?_) hash rng
  obtain ⟨i, ws, h1, h2, h3, h4⟩ := sub64_sort.leakCode sub64_checked hp (sub64_leakOk ctx.l (by simpa using hl))
  exact ⟨i, ws, h1, h3, h4, Or.inl h2⟩

/-- C98 is false for `sub64.txt` with further packing parameters, if three parties may be corrupted: the last XOR block reads wires of its own
gates, and the argument needs the leaders of its input and of its output. -/
theorem C98_sub64_self_false (R : RunParams ctx lpn 567 m mb seahash lead id id') (ht : 3 ≤ ctx.t)
    (hl : ctx.l ∈ [11, 14, 17, 18, 19, 22] ∨ ctx.l = 16 ∧ ctx.n ≠ 41)
    (hash : List Nat → List Nat) (rng : List Nat → Nat → GF 18) : FileLeaks hash rng ctx lpn m mb lead id id' sub64Text.toList :=
  net_leaks_of sub64_small sub64_checked sub64_text sub64_counts (by simp [sub64Net]) R (sub64_leaky3 ht R.parties hl) hash rng

/-- C98 for `sub64.txt`: exactly these parameters, of those with which it is garbled at all, are private, if three parties may be corrupted;
one case is left open. -/
theorem C98_sub64_iff (R : RunParams ctx lpn 567 m mb seahash lead id id') (hm : m.AllOutputs ctx.t) (hmb : mb.UniformBits ctx.t)
    (ht : 3 ≤ ctx.t) (hl : ctx.l < 25) (h41 : ¬ (ctx.l = 16 ∧ ctx.n = 41)) (hash : List Nat → List Nat) (rng : List Nat → Nat → GF 18) :
    FilePrivate hash rng ctx lpn m mb lead id id' sub64Text.toList ↔ Sub64Private ctx.n ctx.l := by
  refine ⟨fun h => ?_, fun h => C98_sub64_partial R hm hmb h hash rng⟩
  by_contra hn
  refine private_not_leaks h ?_
  by_cases h1 : ctx.l = 20 ∨ ctx.l = 23
  · exact C98_sub64_rare_false R (by omega) h1 hn hash rng
  · by_cases h2 : ctx.l = 5 ∨ ctx.l = 10
    · exact C98_sub64_false R (by omega) h2 hash rng
    · refine C98_sub64_self_false R ht ?_ hash rng
      have := R.good.posL
      unfold Sub64Private at hn
      simp only [List.mem_cons, List.not_mem_nil, or_false, not_or] at hn ⊢
      omega

theorem aes_leaky (hn : ctx.t + 2 * ctx.l ≤ ctx.n) (h0 : 0 < ctx.l) (hl : ctx.l < 193) (h146 : ctx.l ≠ 146)
    (hD : ctx.l ∉ [1, 2, 3, 4, 5, 8, 16, 25]) (p : PackedCircuit) (hp : aesNet.circuit.pack ctx.l = some p) :
    ∃ i : Nat, ∃ ws : List Nat, (p.gates.flatMap PackedGate.inps)[i]? = some ws ∧ ¬ ws.Nodup ∧
      (∀ w ∈ ws, ∀ bs ∈ p.blocks, w ∈ bs → bs.length = ctx.l) ∧
      (ws.length + 2 ≤ ctx.l ∨ ws.length + 1 ≤ ctx.l ∧ ws.length - ws.toFinset.card ≠ i % ctx.n) := by
  simp only [List.mem_cons, List.not_mem_nil, or_false, not_or] at hD
  by_cases h : ctx.l = 173
  · rw [h] at hp ⊢
    obtain ⟨h1, h2, h3, h4⟩ := aes_sort.leak aes_checked hp (by norm_num) (by norm_num) aes_leakOk173
    refine ⟨2 * (6400 / 173) + 0, _, aes_sort.andInp hp (by norm_num) (by decide +kernel), h3, h4, Or.inr ⟨h2, ?_⟩⟩
    rw [aes_card173, Nat.mod_eq_of_lt (by omega),
      show (aesSort.tailWires aesNet 173 1 0).length = 172 by simp only [SortCert.tailWires, List.length_map, List.length_range']; decide +kernel]
    norm_num
  · have := allFrom_iff aes_leakOk ctx.l (by omega) (by omega)
    have hb : aesLeaky ctx.l = true := by
      unfold aesLeaky
      rw [show Nat.ble ctx.l 5 = false by rw [← Bool.not_eq_true, Nat.ble_eq]; omega, beq_of_ne hD.2.2.2.2.2.1, beq_of_ne hD.2.2.2.2.2.2.1,
        beq_of_ne hD.2.2.2.2.2.2.2, beq_of_ne h146, beq_of_ne h]
      rfl
    rw [hb, bsel_true] at this
    obtain ⟨i, ws, h1, h2, h3, h4⟩ := aes_sort.leakCode aes_checked hp this
    exact ⟨i, ws, h1, h3, h4, Or.inl h2⟩

/-- C98 for `aes_128.txt`, for the packing parameters for which no gate input which is not full has a wire twice. -/
theorem C98_aes_partial (R : RunParams ctx lpn 36919 m mb seahash lead id id') (hm : m.AllOutputs ctx.t) (hmb : mb.UniformBits ctx.t)
    (hl : ctx.l ∈ [1, 2, 3, 4, 5, 8, 16, 25]) (hash : List Nat → List Nat) (rng : List Nat → Nat → GF 18) :
    FilePrivate hash rng ctx lpn m mb lead id id' aesText.toList :=
  net_private aes_small aes_checked aes_text aes_counts (by simp [aesNet]) R
    ((aes_ids ctx.l R.good.posL).2 (by simp at hl; omega)) hm hmb (fun p hp => .inl (aes_sort.distinct hp (aes_distinctOk _ hl))) hash rng

/-- C98 is false for `aes_128.txt` with all other packing parameters with which it is garbled at all (C97). -/
theorem C98_aes_false (R : RunParams ctx lpn 36919 m mb seahash lead id id') (ht : 2 ≤ ctx.t) (hl : ctx.l < 193 ∧ ctx.l ≠ 146)
    (hl' : ctx.l ∉ [1, 2, 3, 4, 5, 8, 16, 25]) (hash : List Nat → List Nat) (rng : List Nat → Nat → GF 18) :
    FileLeaks hash rng ctx lpn m mb lead id id' aesText.toList :=
  net_leaks aes_small aes_checked aes_text aes_counts (by simp [aesNet]) R ht (aes_leaky R.parties R.good.posL hl.1 hl.2 hl') hash rng

/-- C98 for `aes_128.txt`: exactly these packing parameters, of those with which it is garbled at all, are private. -/
theorem C98_aes_iff (R : RunParams ctx lpn 36919 m mb seahash lead id id') (hm : m.AllOutputs ctx.t) (hmb : mb.UniformBits ctx.t)
    (ht : 2 ≤ ctx.t) (hl : ctx.l < 193 ∧ ctx.l ≠ 146) (hash : List Nat → List Nat) (rng : List Nat → Nat → GF 18) :
    FilePrivate hash rng ctx lpn m mb lead id id' aesText.toList ↔ ctx.l ∈ [1, 2, 3, 4, 5, 8, 16, 25] := by
  refine ⟨fun h => ?_, fun h => C98_aes_partial R hm hmb h hash rng⟩
  by_contra hn
  exact private_not_leaks h (C98_aes_false R ht hl hn hash rng)

/-- C98 for `sha256.txt`, for packing parameters up to 4. -/
theorem C98_sha_partial (R : RunParams ctx lpn 135841 m mb seahash lead id id') (hm : m.AllOutputs ctx.t) (hmb : mb.UniformBits ctx.t)
    (hl : ctx.l ≤ 4) (hash : List Nat → List Nat) (rng : List Nat → Nat → GF 18) :
    FilePrivate hash rng ctx lpn m mb lead id id' shaText.toList :=
  net_private sha_small sha_checked sha_text sha_counts (by simp [shaNet]) R
    ((sha_ids ctx.l R.good.posL).2 (by omega)) hm hmb (fun p hp => .inl (sha_sort.distinct hp
    (sha_distinctOk _ (by have := R.good.posL; simp only [shaDistinct, List.mem_cons, List.not_mem_nil, or_false]; omega)))) hash rng

/-- C98 is false for `sha256.txt` with all packing parameters from 5 on with which it is garbled at all (C97). -/
theorem C98_sha_false (R : RunParams ctx lpn 135841 m mb seahash lead id id') (ht : 2 ≤ ctx.t) (hl : 5 ≤ ctx.l ∧ ctx.l < 371)
    (hash : List Nat → List Nat) (rng : List Nat → Nat → GF 18) : FileLeaks hash rng ctx lpn m mb lead id id' shaText.toList := by
  refine net_leaks sha_small sha_checked sha_text sha_counts (by simp [shaNet]) R ht (fun p hp => ?_) hash rng
  have : shaSort.leakCode shaNet ctx.l 2 (shaLeak ctx.l) = true := by
    by_cases h : ctx.l < 200
    · exact allFrom_iff sha_leakOk1 ctx.l (by omega) (by omega)
    · exact allFrom_iff sha_leakOk2 ctx.l (by omega) (by omega)
  obtain ⟨i, ws, h1, h2, h3, h4⟩ := sha_sort.leakCode sha_checked hp this
  exact ⟨i, ws, h1, h3, h4, Or.inl h2⟩

/-- C98 for `sha256.txt`: exactly the packing parameters up to 4, of those with which it is garbled at all, are private. -/
theorem C98_sha_iff (R : RunParams ctx lpn 135841 m mb seahash lead id id') (hm : m.AllOutputs ctx.t) (hmb : mb.UniformBits ctx.t)
    (ht : 2 ≤ ctx.t) (hl : ctx.l < 371) (hash : List Nat → List Nat) (rng : List Nat → Nat → GF 18) :
    FilePrivate hash rng ctx lpn m mb lead id id' shaText.toList ↔ ctx.l ≤ 4 := by
  refine ⟨fun h => ?_, fun h => C98_sha_partial R hm hmb h hash rng⟩
  by_contra hn
  exact private_not_leaks h (C98_sha_false R ht ⟨by omega, hl⟩ hash rng)

end

/-- The matrices of the next example. -/
theorem private_params (wires : Nat) (h : wires ≤ 2 ^ 18 - 19) (lpn : LpnParams) (hK : lpn.keyLen < 2 ^ 18) (hQ : lpn.mssgLen < 2 ^ 18) :
    ∃ ctx m mb, ctx.n = 16 ∧ ctx.t = 4 ∧ ctx.l = 3 ∧ superInvMatrix 16 12 = some m ∧
      binarySuperInvMatrix (F := GF 18) (binText Binsup.n16_t5) = some mb ∧ m.AllOutputs ctx.t ∧ mb.UniformBits ctx.t ∧
      RunParams ctx lpn wires m mb List.sum (fun id => id.sum % 16) [1] [2] := by
  have ho : CodeField.order (GF 18) = 2 ^ 18 := rfl
  obtain ⟨ctx, hg, hn, ht, hl⟩ := ctx18 16 4 3 (by norm_num) (by norm_num) (by norm_num)
  obtain ⟨m, hm⟩ : ∃ m : Mat (GF 18), superInvMatrix 16 12 = some m := by
    rw [superInvMatrix, rsGenCols_eq (by norm_num) (by rw [ho]; norm_num)]
    exact ⟨_, rfl⟩
  have := charP_codeField (GF 18)
  obtain ⟨mb, hmb, h3, h4, h5, h6⟩ := C12_n16_t5_partial (F := GF 18)
  have g1 := superInv_good (n := 16) (t := 4) (by norm_num) (by rw [ho]; norm_num) hm
  have g2 := read_good Binsup.n16_t5 (by decide +kernel) (by decide +kernel) hmb
  rw [show Binsup.n16_t5.lines.length = 16 by decide +kernel] at g2
  refine ⟨ctx, m, mb, hn, ht, hl, hm, hmb, by rw [ht]; exact g1.2, by rw [ht]; exact h6, hg, by omega, by omega, by omega, hK, hQ, by rw [hn]; exact g1.1,
    by rw [hn]; exact g2.1, g2.2, fun id => ?_, by decide, by decide⟩
  unfold chooseLeader leaderFromProtoId
  have := Nat.mod_lt id.sum (show 16 > 0 by omega)
  simp only [hn]
  rw [if_neg (by omega), if_pos (by omega)]

/-- 16 parties, 4 of them corrupted, with three secrets per sharing and the matrix in `data/binsup_mat/n16_t5.txt`: the three circuits are garbled
privately. -/
example (hash : List Nat → List Nat) (rng : List Nat → Nat → GF 18) : ∀ s ∈ [sub64Text, aesText, shaText],
    ∃ ctx m mb, ctx.n = 16 ∧ ctx.t = 4 ∧ ctx.l = 3 ∧ FilePrivate hash rng ctx ⟨3, 5⟩ m mb (fun id => id.sum % 16) [1] [2] s.toList := by
  intro s hs
  simp only [List.mem_cons, List.not_mem_nil, or_false] at hs
  rcases hs with rfl | rfl | rfl
  · obtain ⟨ctx, m, mb, h1, h2, h3, -, -, hm, hmb, R⟩ := private_params 567 (by norm_num) ⟨3, 5⟩ (by norm_num) (by norm_num)
    exact ⟨ctx, m, mb, h1, h2, h3, C98_sub64_partial R hm hmb (by rw [h3]; left; decide) hash rng⟩
  · obtain ⟨ctx, m, mb, h1, h2, h3, -, -, hm, hmb, R⟩ := private_params 36919 (by norm_num) ⟨3, 5⟩ (by norm_num) (by norm_num)
    exact ⟨ctx, m, mb, h1, h2, h3, C98_aes_partial R hm hmb (by rw [h3]; decide) hash rng⟩
  · obtain ⟨ctx, m, mb, h1, h2, h3, -, -, hm, hmb, R⟩ := private_params 135841 (by norm_num) ⟨3, 5⟩ (by norm_num) (by norm_num)
    exact ⟨ctx, m, mb, h1, h2, h3, C98_sha_partial R hm hmb (by omega) hash rng⟩

/-- 128 parties, 31 of them corrupted, with 20 secrets per sharing and the matrix in `data/binsup_mat/n128_t31.txt`: `sub64.txt` is garbled
privately, though the last XOR block reads wires several times. -/
example (hash : List Nat → List Nat) (rng : List Nat → Nat → GF 18) :
    ∃ ctx m mb, ctx.n = 128 ∧ ctx.t = 31 ∧ ctx.l = 20 ∧ binarySuperInvMatrix (F := GF 18) (binText Binsup.n128_t31) = some mb ∧
      FilePrivate hash rng ctx ⟨3, 5⟩ m mb (fun id => id.sum % 128) [1] [2] sub64Text.toList := by
  have ho : CodeField.order (GF 18) = 2 ^ 18 := rfl
  obtain ⟨ctx, hg, hn, ht, hl⟩ := ctx18 128 31 20 (by norm_num) (by norm_num) (by norm_num)
  obtain ⟨m, hm⟩ : ∃ m : Mat (GF 18), superInvMatrix 128 97 = some m := by
    rw [superInvMatrix, rsGenCols_eq (by norm_num) (by rw [ho]; norm_num)]
    exact ⟨_, rfl⟩
  have := charP_codeField (GF 18)
  obtain ⟨mb, hmb, -, -, -, h6⟩ := (C12_n128_t31 (F := GF 18)).1
  have g1 := superInv_good (n := 128) (t := 31) (by norm_num) (by rw [ho]; norm_num) hm
  have g2 := read_good Binsup.n128_t31 (by decide +kernel) (by decide +kernel) hmb
  rw [show Binsup.n128_t31.lines.length = 128 by decide +kernel] at g2
  refine ⟨ctx, m, mb, hn, ht, hl, hmb, C98_sub64_partial (seahash := List.sum) ⟨hg, by omega, by omega, by omega, by norm_num, by norm_num,
    by rw [hn]; exact g1.1, by rw [hn]; exact g2.1, g2.2, fun id => ?_, by decide, by decide⟩ (by rw [ht]; exact g1.2) (by rw [ht]; exact h6)
    (by rw [hn, hl]; right; left; decide) hash rng⟩
  unfold chooseLeader leaderFromProtoId
  have := Nat.mod_lt id.sum (show 128 > 0 by omega)
  simp only [hn]
  rw [if_neg (by omega), if_pos (by omega)]

/-- 128 parties, 31 of them corrupted, and 33 secrets per sharing, the parameters of the README's estimates: whatever the matrices, AES and
SHA-256 are not garbled privately. -/
theorem C98_readme_false {ctx : Ctx (GF 18)} (hg : ctx.Good) (hn : ctx.n = 128) (ht : ctx.t = 31) (hl : ctx.l = 33) {m mb : Mat (GF 18)}
    (hm : DealMat 128 m) (hmb : DealMat 128 mb) (hb : mb.Binary) (lpn : LpnParams) (hK : lpn.keyLen < 2 ^ 18) (hQ : lpn.mssgLen < 2 ^ 18)
    {seahash : List Nat → Nat} {lead : ProtocolID → Nat} (hlead : ∀ id, chooseLeader seahash id none 128 = some (lead id))
    {id id' : ProtocolID} (hid : id.length ≤ 250) (hid' : id'.length ≤ 239) (hash : List Nat → List Nat) (rng : List Nat → Nat → GF 18) :
    FileLeaks hash rng ctx lpn m mb lead id id' aesText.toList ∧ FileLeaks hash rng ctx lpn m mb lead id id' shaText.toList := by
  have R : ∀ wires, wires ≤ 2 ^ 18 - 161 → RunParams ctx lpn wires m mb seahash lead id id' := fun wires hw =>
    ⟨hg, by omega, by omega, by omega, hK, hQ, by rw [hn]; exact hm, by rw [hn]; exact hmb, hb, by rw [hn]; exact hlead, hid, hid'⟩
  exact ⟨C98_aes_false (R 36919 (by norm_num)) (by omega) (by omega) (by rw [hl]; decide) hash rng,
    C98_sha_false (R 135841 (by norm_num)) (by omega) (by omega) hash rng⟩

/-- 128 parties, 31 of them corrupted, 22 secrets per sharing and the matrix in `data/binsup_mat/n128_t31.txt`: `sub64.txt` is not garbled
privately. -/
example (hash : List Nat → List Nat) (rng : List Nat → Nat → GF 18) :
    ∃ ctx m mb, ctx.n = 128 ∧ ctx.t = 31 ∧ ctx.l = 22 ∧ binarySuperInvMatrix (F := GF 18) (binText Binsup.n128_t31) = some mb ∧
      FileLeaks hash rng ctx ⟨3, 5⟩ m mb (fun id => id.sum % 128) [1] [2] sub64Text.toList := by
  have ho : CodeField.order (GF 18) = 2 ^ 18 := rfl
  obtain ⟨ctx, hg, hn, ht, hl⟩ := ctx18 128 31 22 (by norm_num) (by norm_num) (by norm_num)
  obtain ⟨m, hm⟩ : ∃ m : Mat (GF 18), superInvMatrix 128 97 = some m := by
    rw [superInvMatrix, rsGenCols_eq (by norm_num) (by rw [ho]; norm_num)]
    exact ⟨_, rfl⟩
  have g1 := superInv_good (n := 128) (t := 31) (by norm_num) (by rw [ho]; norm_num) hm
  have hmb := read_binText (F := GF 18) Binsup.n128_t31 (by decide +kernel) (by decide +kernel)
  have g2 := read_good Binsup.n128_t31 (by decide +kernel) (by decide +kernel) hmb
  rw [show Binsup.n128_t31.lines.length = 128 by decide +kernel] at g2
  refine ⟨ctx, m, _, hn, ht, hl, hmb, C98_sub64_self_false (seahash := List.sum) ⟨hg, by omega, by omega, by omega, by norm_num, by norm_num,
    by rw [hn]; exact g1.1, by rw [hn]; exact g2.1, g2.2, fun id => ?_, by decide, by decide⟩ (by omega) (Or.inl (by rw [hl]; decide)) hash rng⟩
  unfold chooseLeader leaderFromProtoId
  have := Nat.mod_lt id.sum (show 128 > 0 by omega)
  simp only [hn]
  rw [if_neg (by omega), if_pos (by omega)]

end Verif.Props
