import Verif.Props.Sharing

/-! # C134: sharing and reconstructing with coefficients (`compute_share_coeffs` … `recon_using_coeffs`, `src/sharing.rs:36-84`) -/

open Polynomial

namespace Verif.Props

open CodeField (ofU32)

variable {F : Type} [CodeField F] [DecidableEq F]

/-- C134: the coefficients are those of `PackedSharing::new` with the same parameters, so that everything about `share` and `semihon_recon` (C14 to C19) holds for sharing and
reconstructing with coefficients. -/
theorem C134_same (d n : Nat) (pos : List F) (ps : PackedSharing F) (h : PackedSharing.new d n pos = some ps) :
    computeShareCoeffs d n pos = some ps.shareCoeffs ∧ computeReconCoeffs d n pos = some ps.secretCoeffs ∧
      (∀ secrets tape, shareUsingCoeffs secrets ps.shareCoeffs pos.length tape = ps.share secrets tape) ∧
      ∀ shares : List F, shares.length = n → reconUsingCoeffs shares ps.secretCoeffs = ps.semihonRecon shares := by
  obtain ⟨hdn, hn, hnp, hpl, hsc, hrc, _⟩ := new_eq h
  have hnc : ps.reconCoeffs.ncols = d + 1 := by
    rw [hrc]
    show ((pos ++ sharePos n).drop _).length = _
    rw [List.length_drop, List.length_append, sharePos_length]
    omega
  refine ⟨?_, ?_, fun secrets tape => ?_, fun shares hs => ?_⟩
  · unfold computeShareCoeffs
    simp only
    rw [if_pos (by rw [List.length_append, sharePos_length]; omega), hsc]
  · unfold computeReconCoeffs PackedSharing.secretCoeffs
    simp only
    rw [if_pos (by omega), hrc, hpl]
    unfold lagrangeCoeffs
    simp only [Option.some.injEq, Mat.mk.injEq, true_and]
    rw [← List.map_take, List.take_take, Nat.min_eq_left (by omega)]
  · rw [PackedSharing.share, hpl]
  · unfold reconUsingCoeffs PackedSharing.semihonRecon
    have : ps.secretCoeffs.ncols = d + 1 := hnc
    simp only
    rw [this, hs, hn, hnp, if_pos hdn, if_pos (by omega)]

/-- C134, sharing: with admissible positions and degrees from `l - 1` to `n + l - 1` (of which `new` accepts those below `n`) the shares are those of a polynomial of
degree at most `d` with the secrets at their positions. -/
theorem C134_share (d n : Nat) (pos : List F) (hg : GoodPos n pos) (hl : pos.length ≤ d + 1) (hd : d + 1 ≤ pos.length + n) :
    ∃ c, computeShareCoeffs d n pos = some c ∧ ∀ secrets tape : List F, secrets.length = pos.length → tape.length = d + 1 - pos.length →
      ∃ shares, shareUsingCoeffs secrets c pos.length tape = some shares ∧ IsSharing n (d + 1) pos secrets shares := by
  have hlen : ((pos ++ sharePos n).take (d + 1)).length = d + 1 := by
    rw [List.length_take, List.length_append, sharePos_length]
    omega
  refine ⟨_, by
    unfold computeShareCoeffs
    simp only
    rw [if_pos (by rw [List.length_append, sharePos_length]; omega)], fun secrets tape hs ht => ?_⟩
  have hnd := (allPos_nodup hg).sublist (List.take_sublist (d + 1) (pos ++ sharePos n))
  have htake : (pos ++ sharePos n).take (d + 1) = pos ++ (sharePos n).take (d + 1 - pos.length) := by
    rw [List.take_append, List.take_of_length_le hl]
  have hdrop : (pos ++ sharePos n).drop (d + 1) = (sharePos n).drop (d + 1 - pos.length) := by
    rw [List.drop_append, List.drop_eq_nil_of_le hl, List.nil_append]
  obtain ⟨p, hp, hv⟩ := exists_poly_of_values _ hnd (secrets ++ tape) (by rw [hlen, List.length_append]; omega)
  have hv2 := hv
  rw [htake, List.map_append] at hv2
  obtain ⟨h1, h2⟩ := List.append_inj hv2 (by rw [List.length_map, hs])
  refine ⟨(sharePos n).map fun x => p.eval x, ?_, p, by rw [← hlen]; exact hp, (range_map_eval n p).symm, h1.symm⟩
  unfold shareUsingCoeffs
  have hnc : (lagrangeCoeffs ((pos ++ sharePos n).take (d + 1)) ((pos ++ sharePos n).drop (d + 1))).ncols = d + 1 := hlen
  simp only [hnc]
  rw [if_pos (by omega), List.take_of_length_le (l := tape) (by omega), List.drop_eq_nil_of_le (as := tape) (by omega), List.append_nil,
    List.take_of_length_le (l := secrets) (by omega), ← hv, lagrangeCoeffs_mulVec _ _ hnd p hp, Option.map_some, Option.some.injEq, hdrop, ← h2, ← List.map_append,
    List.take_append_drop]

/-- C134, reconstruction: from `n` shares of a polynomial of degree at most `d < n` one gets its values at any positions, also if some of these are positions of shares or equal. -/
theorem C134_recon (d n : Nat) (pos : List F) (hsm : n ≤ CodeField.order F) (hd : d + 1 ≤ n) :
    ∃ c, computeReconCoeffs d n pos = some c ∧ ∀ k secrets shares, k ≤ d + 1 → IsSharing n k pos secrets shares → reconUsingCoeffs shares c = some secrets := by
  refine ⟨_, by
    unfold computeReconCoeffs
    simp only
    rw [if_pos (by omega)], fun k secrets shares hk ⟨p, hp, h1, h2⟩ => ?_⟩
  rw [range_map_eval] at h1
  have hlen : ((sharePos n).drop (n - (d + 1)) : List F).length = d + 1 := by
    rw [List.length_drop, sharePos_length]
    omega
  have hnd := (sharePos_nodup (F := F) hsm).sublist (List.drop_sublist (n - (d + 1)) _)
  rw [drop_allPos pos hd, List.take_left, h1, h2]
  unfold reconUsingCoeffs
  have hnc : (lagrangeCoeffs ((sharePos n).drop (n - (d + 1))) pos).ncols = d + 1 := hlen
  simp only [hnc, List.length_map, sharePos_length]
  rw [if_pos hd, ← List.map_drop]
  exact lagrangeCoeffs_mulVec _ _ hnd p (lt_of_lt_of_le hp (by rw [hlen]; exact_mod_cast hk))

/-- C134: other parameters.  The functions panic if the degree is too large for the number of points, or smaller than what the secrets fix; coefficients for reconstruction of
degree `n` or more are computed from the positions of the secrets, but no `n` shares are accepted with them. -/
theorem C134_panics (d n : Nat) (pos : List F) :
    (computeShareCoeffs d n pos = none ↔ pos.length + n < d + 1) ∧ (computeReconCoeffs d n pos = none ↔ pos.length + n < d + 1) ∧
    (∀ c secrets tape, computeShareCoeffs d n pos = some c → d + 1 < pos.length → shareUsingCoeffs secrets c pos.length tape = none) ∧
    ∀ c (shares : List F), computeReconCoeffs d n pos = some c → n < d + 1 → shares.length = n → reconUsingCoeffs shares c = none := by
  have hal : (pos ++ sharePos n : List F).length = pos.length + n := by rw [List.length_append, sharePos_length]
  refine ⟨?_, ?_, fun c secrets tape hc hl => ?_, fun c shares hc hd hs => ?_⟩
  · unfold computeShareCoeffs
    simp only [hal]
    split
    · simp only [reduceCtorEq, false_iff]
      omega
    · simp only [true_iff]
      omega
  · unfold computeReconCoeffs
    simp only
    split
    · simp only [reduceCtorEq, false_iff]
      omega
    · simp only [true_iff]
      omega
  · unfold computeShareCoeffs at hc
    simp only [hal] at hc
    rw [if_pos (by omega), Option.some.injEq] at hc
    have hnc : c.ncols = d + 1 := by
      rw [← hc]
      show ((pos ++ sharePos n).take (d + 1)).length = _
      rw [List.length_take, hal]
      omega
    unfold shareUsingCoeffs
    simp only [hnc]
    split
    · rename_i ht
      unfold Mat.mulVec
      rw [hnc, if_neg, Option.map_none]
      simp only [List.length_append, List.length_take, List.length_drop]
      omega
    · rfl
  · unfold computeReconCoeffs at hc
    simp only at hc
    split at hc
    · rw [Option.some.injEq] at hc
      have hnc : c.ncols = d + 1 := by
        rw [← hc]
        show ((pos ++ sharePos n).drop _).length = _
        rw [List.length_drop, hal]
        omega
      unfold reconUsingCoeffs
      simp only [hnc, hs]
      rw [if_neg (by omega)]
    · cases hc

/-- 7 parties share two secrets with a polynomial of degree 3; their values are also reconstructed at the positions of shares. -/
example : ∃ c c', computeShareCoeffs (F := GF 4) 3 7 [ofU32 7, ofU32 8] = some c ∧ computeReconCoeffs (F := GF 4) 3 7 [ofU32 7, ofU32 8] = some c' ∧
    ∀ secrets tape : List (GF 4), secrets.length = 2 → tape.length = 2 → ∃ shares, shareUsingCoeffs secrets c 2 tape = some shares ∧
      reconUsingCoeffs shares c' = some secrets ∧ shares.take 2 = tape := by
  obtain ⟨c, h1, h2⟩ := C134_share 3 7 _ examplePos (by decide) (by decide)
  obtain ⟨c', h3, h4⟩ := C134_recon (F := GF 4) 3 7 [ofU32 7, ofU32 8] examplePos.small (by decide)
  refine ⟨c, c', h1, h3, fun secrets tape hs ht => ?_⟩
  obtain ⟨shares, h5, h6⟩ := h2 secrets tape hs ht
  refine ⟨shares, h5, h4 4 _ _ le_rfl h6, ?_⟩
  unfold computeShareCoeffs at h1
  simp only at h1
  rw [if_pos (by decide), Option.some.injEq] at h1
  have hnc : c.ncols = 4 := by
    rw [← h1]
    rfl
  unfold shareUsingCoeffs at h5
  simp only [List.length_cons, List.length_nil, hnc] at h5
  rw [if_pos (by omega), Option.map_eq_some_iff] at h5
  obtain ⟨r, _, rfl⟩ := h5
  simp only [List.take_of_length_le (l := tape) (i := 4 - (0 + 1 + 1)) (by omega)]
  rw [List.take_left' ht]

/-- Degree 8 with 7 parties and two secrets: shares of degree at most 8, which `new` refuses. -/
example : (computeShareCoeffs (F := GF 4) 8 7 [ofU32 7, ofU32 8]).isSome ∧ (PackedSharing.new (F := GF 4) 8 7 [ofU32 7, ofU32 8]).isNone := by
  decide +kernel

end Verif.Props
