import Verif.ShippedRunLemmas
import Verif.Props.PrivacyPreproc

/-!
# Garbling the circuits shipped in `data/circ`
-/

open Verif

namespace Verif.Props

section
variable {ctx : Ctx (GF 18)} {lpn : LpnParams} {m mb : Mat (GF 18)} {seahash : List Nat → Nat} {lead : ProtocolID → Nat}
  {id id' : ProtocolID}

/-- C97 for `sub64.txt`, for packing parameters below 25. -/
theorem C97_sub64_partial (R : RunParams ctx lpn 567 m mb seahash lead id id') (hl : ctx.l < 25) (hash : List Nat → List Nat)
    (rng : List Nat → Nat → GF 18) :
    ∃ d, IsBristolFile d sub64Text.toList ∧ FileGarbled hash rng ctx lpn m mb lead id id' d sub64Text.toList :=
  net_garbled sub64_small sub64_checked sub64_text sub64_counts (by simp [sub64Net]) R
    ((sub64_ids ctx.l R.good.posL).2 hl) hash rng

/-- C97 for `aes_128.txt`, for packing parameters below 193 except 146. -/
theorem C97_aes_partial (R : RunParams ctx lpn 36919 m mb seahash lead id id') (hl : ctx.l < 193 ∧ ctx.l ≠ 146)
    (hash : List Nat → List Nat) (rng : List Nat → Nat → GF 18) :
    ∃ d, IsBristolFile d aesText.toList ∧ FileGarbled hash rng ctx lpn m mb lead id id' d aesText.toList :=
  net_garbled aes_small aes_checked aes_text aes_counts (by simp [aesNet]) R
    ((aes_ids ctx.l R.good.posL).2 hl) hash rng

/-- C97 for `sha256.txt`, for packing parameters below 371. -/
theorem C97_sha_partial (R : RunParams ctx lpn 135841 m mb seahash lead id id') (hl : ctx.l < 371)
    (hash : List Nat → List Nat) (rng : List Nat → Nat → GF 18) :
    ∃ d, IsBristolFile d shaText.toList ∧ FileGarbled hash rng ctx lpn m mb lead id id' d shaText.toList :=
  net_garbled sha_small sha_checked sha_text sha_counts (by simp [shaNet]) R
    ((sha_ids ctx.l R.good.posL).2 hl) hash rng

end

/-- C97 is false: `sub64.txt` is garbled with no packing parameter from 25 on. -/
theorem C97_sub64_false (l : Nat) (hl : 25 ≤ l) : FilePanics l sub64Text.toList :=
  net_panics sub64_small sub64_checked sub64_text sub64_counts (by omega)
    (mt (sub64_ids l (by omega)).1 (by omega))

/-- C97 is false: `aes_128.txt` is not garbled with the packing parameter 146, and with none from 193 on. -/
theorem C97_aes_false (l : Nat) (hl : l = 146 ∨ 193 ≤ l) : FilePanics l aesText.toList :=
  net_panics aes_small aes_checked aes_text aes_counts (by omega)
    (mt (aes_ids l (by omega)).1 (by omega))

/-- C97 is false: `sha256.txt` is garbled with no packing parameter from 371 on. -/
theorem C97_sha_false (l : Nat) (hl : 371 ≤ l) : FilePanics l shaText.toList :=
  net_panics sha_small sha_checked sha_text sha_counts (by omega)
    (mt (sha_ids l (by omega)).1 (by omega))

/-- The parameters of the README for a circuit of `wires` wires: 16 parties, 5 of them corrupt, 3 secrets per sharing; the matrices are the
one which `preproc` computes and the one in `data/binsup_mat/n16_t5.txt`. -/
theorem readme_params (wires : Nat) (h : wires ≤ 2 ^ 18 - 19) (lpn : LpnParams) (hK : lpn.keyLen < 2 ^ 18) (hQ : lpn.mssgLen < 2 ^ 18) :
    ∃ ctx m mb, ctx.n = 16 ∧ ctx.t = 5 ∧ ctx.l = 3 ∧ superInvMatrix 16 11 = some m ∧
      binarySuperInvMatrix (F := GF 18) (binText Binsup.n16_t5) = some mb ∧
      RunParams ctx lpn wires m mb List.sum (fun id => id.sum % 16) [1] [2] := by
  have ho : CodeField.order (GF 18) = 2 ^ 18 := rfl
  obtain ⟨ctx, hg, hn, ht, hl⟩ := ctx18 16 5 3 (by norm_num) (by norm_num) (by norm_num)
  obtain ⟨m, hm⟩ : ∃ m : Mat (GF 18), superInvMatrix 16 11 = some m := by
    rw [superInvMatrix, rsGenCols_eq (by norm_num) (by rw [ho]; norm_num)]
    exact ⟨_, rfl⟩
  have := charP_codeField (GF 18)
  obtain ⟨mb, hmb, -⟩ := C12_n16_t5_partial (F := GF 18)
  have g1 := superInv_good (n := 16) (t := 5) (by norm_num) (by rw [ho]; norm_num) hm
  have g2 := read_good Binsup.n16_t5 (by decide +kernel) (by decide +kernel) hmb
  rw [show Binsup.n16_t5.lines.length = 16 by decide +kernel] at g2
  refine ⟨ctx, m, mb, hn, ht, hl, hm, hmb, hg, by omega, by omega, by omega, hK, hQ, by rw [hn]; exact g1.1, by rw [hn]; exact g2.1,
    g2.2, fun id => ?_, by decide, by decide⟩
  unfold chooseLeader leaderFromProtoId
  have := Nat.mod_lt id.sum (show 16 > 0 by omega)
  simp only [hn]
  rw [if_neg (by omega), if_pos (by omega)]

/-- The three circuits with the parameters of the README (its key length is 3 and its message length 5). -/
example (hash : List Nat → List Nat) (rng : List Nat → Nat → GF 18) : ∀ s ∈ [sub64Text, aesText, shaText],
    ∃ ctx m mb d, ctx.n = 16 ∧ ctx.t = 5 ∧ ctx.l = 3 ∧ IsBristolFile d s.toList ∧
      FileGarbled hash rng ctx ⟨3, 5⟩ m mb (fun id => id.sum % 16) [1] [2] d s.toList := by
  intro s hs
  simp only [List.mem_cons, List.not_mem_nil, or_false] at hs
  rcases hs with rfl | rfl | rfl
  · obtain ⟨ctx, m, mb, h1, h2, h3, -, -, R⟩ := readme_params 567 (by norm_num) ⟨3, 5⟩ (by norm_num) (by norm_num)
    obtain ⟨d, k1, k2⟩ := C97_sub64_partial R (by omega) hash rng
    exact ⟨ctx, m, mb, d, h1, h2, h3, k1, k2⟩
  · obtain ⟨ctx, m, mb, h1, h2, h3, -, -, R⟩ := readme_params 36919 (by norm_num) ⟨3, 5⟩ (by norm_num) (by norm_num)
    obtain ⟨d, k1, k2⟩ := C97_aes_partial R (by omega) hash rng
    exact ⟨ctx, m, mb, d, h1, h2, h3, k1, k2⟩
  · obtain ⟨ctx, m, mb, h1, h2, h3, -, -, R⟩ := readme_params 135841 (by norm_num) ⟨3, 5⟩ (by norm_num) (by norm_num)
    obtain ⟨d, k1, k2⟩ := C97_sha_partial R (by omega) hash rng
    exact ⟨ctx, m, mb, d, h1, h2, h3, k1, k2⟩

/-- 128 parties, 31 of them corrupt, and 33 secrets per sharing, the parameters of the README's estimates for AES: all other conditions hold, but
`sub64.txt` makes `garble` panic. -/
example : ∃ ctx : Ctx (GF 18), ctx.Good ∧ ctx.n = 128 ∧ ctx.t = 31 ∧ ctx.l = 33 ∧ ctx.t + 2 * ctx.l ≤ ctx.n ∧
    2 * (ctx.t + ctx.l - 1) < ctx.n ∧ FilePanics ctx.l sub64Text.toList := by
  obtain ⟨ctx, hg, hn, ht, hl⟩ := ctx18 128 31 33 (by norm_num) (by norm_num) (by norm_num)
  exact ⟨ctx, hg, hn, ht, hl, by omega, by omega, C97_sub64_false _ (by omega)⟩

end Verif.Props
