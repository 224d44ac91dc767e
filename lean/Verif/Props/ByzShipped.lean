import Verif.ByzShippedSpec
import Verif.Props.ByzMix
import Verif.Props.ShippedPrivacy

/-! # C133: the circuits shipped in `data/circ`, with parties which do not follow the protocols -/

open Verif

namespace Verif.Props

section
variable {N : Net} {rank : Nat → Nat} (hs : N.Small) (hc : N.Checked rank) {text : String} {tail : List Char}
  (ht : text.toList = N.text tail)
include hs hc ht

/-- C133 for a file of a net. -/
theorem net_secret {a x v : Nat} (hcnt : numKind N.circuit.gates .and = a ∧ numKind N.circuit.gates .inv = v ∧
      numKind N.circuit.gates .xor = x) (hsum : N.n1 + N.n2 + a + x + v ≤ N.numWires)
    {ctx : Ctx (GF 18)} {lpn : LpnParams} {m mb : Mat (GF 18)} {seahash : List Nat → Nat} {lead : ProtocolID → Nat} {id id' : ProtocolID}
    (R : RunParams ctx lpn N.numWires m mb seahash lead id id') (hm : superInvMatrix ctx.n (ctx.n - ctx.t) = some m)
    (hD : ∀ p, N.circuit.pack ctx.l = some p → p.Distinct ctx.l)
    (hash : List Nat → List Nat) (rng : List Nat → Nat → GF 18) : FileSecret hash rng ctx lpn m lead text.toList := by
  obtain ⟨p, desc, g, h1, h2, h3, h4, -, G, -⟩ := net_params hs hc ht hcnt hsum R hash rng
  have hne : ctx.l ≠ 0 := Nat.ne_of_gt R.good.posL
  have ch : ∀ tfs : List (SharingTransform (GF 18)), ∃ gs, chunks? ctx.l tfs = some gs := by
    intro tfs
    unfold chunks?
    rw [if_neg hne]
    exact ⟨_, rfl⟩
  obtain ⟨go, hgo⟩ := ch g.tfOut
  obtain ⟨gi, hgi⟩ := ch g.tfInp
  exact ⟨N.circuit, p, desc, g, go, gi, h1, h2, h3, h4, hgo, hgi, fun gtp hgtp Cs hC ids br bz b b' hr hz sec sec' σ =>
    C132_garble_partial (gfCodec 18) (G gtp hgtp) (hD p h2) go gi hgo hgi Cs hC m hm lead ids br bz b b' hr hz sec sec' σ⟩

end

variable {ctx : Ctx (GF 18)} {lpn : LpnParams} {m mb : Mat (GF 18)} {seahash : List Nat → Nat} {lead : ProtocolID → Nat}
  {id id' : ProtocolID}

/-- C133 for `sub64.txt` (missing: the packing parameters 7, 9, 15, 20, 21, 23, with which parties which follow the protocols learn nothing either, see `C98_sub64_iff`). -/
theorem C133_sub64_partial (R : RunParams ctx lpn 567 m mb seahash lead id id') (hm : superInvMatrix ctx.n (ctx.n - ctx.t) = some m)
    (hl : ctx.l ∈ [1, 2, 3, 4, 6, 8, 12, 13, 24]) (hash : List Nat → List Nat) (rng : List Nat → Nat → GF 18) :
    FileSecret hash rng ctx lpn m lead sub64Text.toList :=
  net_secret sub64_small sub64_checked sub64_text sub64_counts (by simp [sub64Net]) R hm
    (fun p hp => sub64_sort.distinct hp (sub64_distinctOk _ hl)) hash rng

/-- C133 for `aes_128.txt`, with all packing parameters with which parties which follow the protocols learn nothing (`C98_aes_iff`). -/
theorem C133_aes_partial (R : RunParams ctx lpn 36919 m mb seahash lead id id') (hm : superInvMatrix ctx.n (ctx.n - ctx.t) = some m)
    (hl : ctx.l ∈ [1, 2, 3, 4, 5, 8, 16, 25]) (hash : List Nat → List Nat) (rng : List Nat → Nat → GF 18) :
    FileSecret hash rng ctx lpn m lead aesText.toList :=
  net_secret aes_small aes_checked aes_text aes_counts (by simp [aesNet]) R hm
    (fun p hp => aes_sort.distinct hp (aes_distinctOk _ hl)) hash rng

/-- C133 for `sha256.txt`, with all packing parameters with which parties which follow the protocols learn nothing (`C98_sha_iff`). -/
theorem C133_sha_partial (R : RunParams ctx lpn 135841 m mb seahash lead id id') (hm : superInvMatrix ctx.n (ctx.n - ctx.t) = some m)
    (hl : ctx.l ≤ 4) (hash : List Nat → List Nat) (rng : List Nat → Nat → GF 18) : FileSecret hash rng ctx lpn m lead shaText.toList :=
  net_secret sha_small sha_checked sha_text sha_counts (by simp [shaNet]) R hm (fun p hp => sha_sort.distinct hp
    (sha_distinctOk _ (by have := R.good.posL; simp only [shaDistinct, List.mem_cons, List.not_mem_nil, or_false]; omega))) hash rng

/-- 16 parties, 4 of which deviate, with three secrets per sharing: they learn nothing about the secrets when the three circuits are garbled. -/
example (hash : List Nat → List Nat) (rng : List Nat → Nat → GF 18) : ∀ s ∈ [sub64Text, aesText, shaText],
    ∃ ctx m, ctx.n = 16 ∧ ctx.t = 4 ∧ ctx.l = 3 ∧ superInvMatrix 16 12 = some m ∧ FileSecret hash rng ctx ⟨3, 5⟩ m (fun id => id.sum % 16) s.toList := by
  intro s hs
  simp only [List.mem_cons, List.not_mem_nil, or_false] at hs
  rcases hs with rfl | rfl | rfl
  · obtain ⟨ctx, m, mb, h1, h2, h3, h4, -, -, -, R⟩ := private_params 567 (by norm_num) ⟨3, 5⟩ (by norm_num) (by norm_num)
    exact ⟨ctx, m, h1, h2, h3, h4, C133_sub64_partial R (by rw [h1, h2]; exact h4) (by rw [h3]; decide) hash rng⟩
  · obtain ⟨ctx, m, mb, h1, h2, h3, h4, -, -, -, R⟩ := private_params 36919 (by norm_num) ⟨3, 5⟩ (by norm_num) (by norm_num)
    exact ⟨ctx, m, h1, h2, h3, h4, C133_aes_partial R (by rw [h1, h2]; exact h4) (by rw [h3]; decide) hash rng⟩
  · obtain ⟨ctx, m, mb, h1, h2, h3, h4, -, -, -, R⟩ := private_params 135841 (by norm_num) ⟨3, 5⟩ (by norm_num) (by norm_num)
    exact ⟨ctx, m, h1, h2, h3, h4, C133_sha_partial R (by rw [h1, h2]; exact h4) (by omega) hash rng⟩

end Verif.Props
