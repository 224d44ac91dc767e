import Verif.Sharing
import Verif.SharingSpec
import Verif.LagrangeLemmas

/-!
# Helper lemmas for packed sharings
-/

open Polynomial

namespace Verif

variable {F : Type} [CodeField F]

open CodeField (ofU32)

theorem range_map_eval (n : Nat) (p : F[X]) :
    (List.range n).map (fun i => p.eval (ofU32 i)) = (sharePos n).map (fun x => p.eval x) := by
  simp [sharePos]

theorem sharePos_length (n : Nat) : (sharePos n : List F).length = n := by simp [sharePos]

theorem sharePos_nodup {n : Nat} (h : n ≤ CodeField.order F) : (sharePos n : List F).Nodup := by
  unfold sharePos
  apply List.Nodup.map_on _ List.nodup_range
  intro a ha b hb hab
  exact CodeField.ofU32_inj a b (by simp at ha; omega) (by simp at hb; omega) hab

theorem allPos_nodup {n : Nat} {pos : List F} (h : GoodPos n pos) :
    (pos ++ sharePos n).Nodup := by
  apply List.Nodup.append h.nodup (sharePos_nodup h.small)
  intro x hx hy
  simp only [sharePos, List.mem_map, List.mem_range] at hy
  obtain ⟨i, hi, rfl⟩ := hy
  exact h.disj i hi hx

variable [DecidableEq F]

/-- Multiplying a Lagrange matrix with evaluations. -/
theorem lagrangeCoeffs_mulVec (cpos npos : List F) (hn : cpos.Nodup) (p : F[X])
    (hp : p.degree < cpos.length) :
    (lagrangeCoeffs cpos npos).mulVec (cpos.map fun x => p.eval x)
      = some (npos.map fun x => p.eval x) := by
  unfold Mat.mulVec lagrangeCoeffs
  simp only [List.length_map, if_true, List.map_map]
  congr 1
  apply List.map_congr_left
  intro v _
  exact dot_lagrangeRow cpos hn v p hp

theorem new_eq {d n : Nat} {pos : List F} {ps : PackedSharing F}
    (h : PackedSharing.new d n pos = some ps) :
    d + 1 ≤ n ∧ ps.n = n ∧ ps.np = d + 1 ∧ ps.l = pos.length ∧
    ps.shareCoeffs = lagrangeCoeffs ((pos ++ sharePos n).take (d + 1)) ((pos ++ sharePos n).drop (d + 1)) ∧
    ps.reconCoeffs = lagrangeCoeffs ((pos ++ sharePos n).drop (pos.length + n - (d + 1)))
      ((pos ++ sharePos n).take (pos.length + n - (d + 1))) ∧
    ps.randCoeffs = lagrangeCoeffs ((sharePos n).take (d + 1)) ((sharePos n).drop (d + 1)) := by
  unfold PackedSharing.new at h
  simp only at h
  split at h
  · simp only [Option.some.injEq] at h
    subst h
    refine ⟨by assumption, rfl, rfl, rfl, rfl, rfl, rfl⟩
  · exact absurd h (by simp)

omit [DecidableEq F] in
theorem drop_allPos {n k : Nat} (pos : List F) (hk : k ≤ n) :
    (pos ++ sharePos n).drop (pos.length + n - k) = (sharePos n).drop (n - k) := by
  rw [show pos.length + n - k = pos.length + (n - k) by omega, List.drop_length_add_append]

/-- `share` as evaluation of the polynomial through secrets and random shares. -/
theorem share_eq_eval {d n : Nat} {pos : List F} {ps : PackedSharing F}
    (h : PackedSharing.new d n pos = some ps) (hg : GoodPos n pos) (hl : pos.length ≤ d + 1)
    (secrets tape : List F) (hs : secrets.length ≤ pos.length)
    (ht : tape.length = (d + 1 - pos.length) + (pos.length - secrets.length)) :
    ∃ p : F[X], p.degree < (d + 1 : Nat) ∧
      ps.share secrets tape = some ((sharePos n).map fun x => p.eval x) ∧
      pos.map (fun x => p.eval x) = secrets ++ tape.drop (d + 1 - pos.length) ∧
      ((sharePos n).take (d + 1 - pos.length)).map (fun x => p.eval x)
        = tape.take (d + 1 - pos.length) := by
  obtain ⟨hdn, hn, hnp, hpl, hsc, _, _⟩ := new_eq h
  set k := d + 1 with hk
  have hnd := allPos_nodup hg
  have htake : (pos ++ sharePos n).take k = pos ++ (sharePos n).take (k - pos.length) := by
    rw [List.take_append, List.take_of_length_le hl]
  have hdrop : (pos ++ sharePos n).drop k = (sharePos n).drop (k - pos.length) := by
    rw [List.drop_append, List.drop_eq_nil_of_le hl, List.nil_append]
  have hlen : ((pos ++ sharePos n).take k).length = k := by
    simp [sharePos_length]; omega
  obtain ⟨p, hp, hv⟩ := exists_poly_of_values ((pos ++ sharePos n).take k)
    (hnd.sublist (List.take_sublist _ _))
    ((secrets ++ tape.drop (k - pos.length)) ++ tape.take (k - pos.length)) (by
      rw [hlen]; simp; omega)
  rw [hlen] at hp
  have hv2 := hv
  rw [htake, List.map_append] at hv2
  obtain ⟨h1, h2⟩ := List.append_inj hv2 (by simp; omega)
  refine ⟨p, hp, ?_, h1, h2⟩
  unfold PackedSharing.share shareUsingCoeffs
  have hnc : ps.shareCoeffs.ncols = k := by rw [hsc]; exact hlen
  simp only [hnc, hpl]
  rw [if_pos ht, List.take_of_length_le (l := secrets ++ _) (by simp; omega), ← hv, hsc,
    lagrangeCoeffs_mulVec _ _ (hnd.sublist (List.take_sublist _ _)) p (by rw [hlen]; exact hp)]
  simp only [Option.map_some, Option.some.injEq]
  rw [hdrop, ← h2, ← List.map_append, List.take_append_drop]

/-- `rand` as evaluation. -/
theorem rand_eq_eval {d n : Nat} {pos : List F} {ps : PackedSharing F}
    (h : PackedSharing.new d n pos = some ps) (hsm : n ≤ CodeField.order F)
    (tape : List F) (ht : tape.length = d + 1) :
    ∃ p : F[X], p.degree < (d + 1 : Nat) ∧
      ps.rand tape = some ((sharePos n).map fun x => p.eval x) ∧
      ((sharePos n).take (d + 1)).map (fun x => p.eval x) = tape := by
  obtain ⟨hdn, hn, hnp, hpl, _, _, hrc⟩ := new_eq h
  have hnd : ((sharePos n).take (d + 1) : List F).Nodup := (sharePos_nodup hsm).sublist (List.take_sublist _ _)
  have hlen : ((sharePos n).take (d + 1) : List F).length = d + 1 := by
    simp [sharePos_length]; omega
  obtain ⟨p, hp, hv⟩ := exists_poly_of_values _ hnd tape (by rw [hlen]; exact ht)
  refine ⟨p, by rwa [hlen] at hp, ?_, hv⟩
  unfold PackedSharing.rand
  rw [hnp, if_pos ht, hrc]
  conv_lhs => rw [← hv]
  rw [lagrangeCoeffs_mulVec _ _ hnd p hp]
  simp only [Option.map_some]
  rw [← List.map_append, List.take_append_drop]

theorem reconCoeffs_eval {d n : Nat} {pos : List F} {ps : PackedSharing F}
    (h : PackedSharing.new d n pos = some ps) (hsm : n ≤ CodeField.order F)
    (p : F[X]) (hp : p.degree < (d + 1 : Nat)) :
    ps.reconCoeffs.mulVec (((sharePos n).drop (n - (d + 1))).map fun x => p.eval x)
      = some ((pos ++ (sharePos n).take (n - (d + 1))).map fun x => p.eval x) := by
  obtain ⟨hdn, hn, hnp, hpl, _, hrc, _⟩ := new_eq h
  rw [hrc, drop_allPos pos hdn]
  have hlen : ((sharePos n).drop (n - (d + 1)) : List F).length = d + 1 := by
    simp [sharePos_length]; omega
  rw [lagrangeCoeffs_mulVec _ _ (sharePos_nodup hsm |>.sublist (List.drop_sublist _ _)) p
    (by rw [hlen]; exact hp)]
  congr 2
  rw [List.take_append, List.take_of_length_le (by omega)]
  congr 2
  omega

theorem semihonRecon_eval {d n : Nat} {pos : List F} {ps : PackedSharing F}
    (h : PackedSharing.new d n pos = some ps) (hsm : n ≤ CodeField.order F)
    (p : F[X]) (hp : p.degree < (d + 1 : Nat)) :
    ps.semihonRecon ((sharePos n).map fun x => p.eval x) = some (pos.map fun x => p.eval x) := by
  have hev := reconCoeffs_eval h hsm p hp
  obtain ⟨hdn, hn, hnp, hpl, _, _, _⟩ := new_eq h
  unfold PackedSharing.semihonRecon PackedSharing.secretCoeffs
  rw [hn, hnp, if_pos (by simp [sharePos_length])]
  rw [← List.map_drop]
  unfold Mat.mulVec at hev ⊢
  split at hev
  · rename_i hc
    rw [if_pos hc]
    simp only [Option.some.injEq] at hev ⊢
    rw [List.map_take, hev, hpl, ← List.map_take, List.take_left]
  · exact absurd hev (by simp)

theorem recon_eval {d n : Nat} {pos : List F} {ps : PackedSharing F}
    (h : PackedSharing.new d n pos = some ps) (hsm : n ≤ CodeField.order F)
    (shares : List F) (hlen : shares.length = n)
    (p : F[X]) (hp : p.degree < (d + 1 : Nat))
    (hps : shares.drop (n - (d + 1)) = ((sharePos n).drop (n - (d + 1))).map fun x => p.eval x) :
    ps.recon shares = some (if shares = (sharePos n).map (fun x => p.eval x)
      then .ok (pos.map fun x => p.eval x) else .error .maliciousBehavior) := by
  have hev := reconCoeffs_eval h hsm p hp
  obtain ⟨hdn, hn, hnp, hpl, _, _, _⟩ := new_eq h
  unfold PackedSharing.recon
  rw [hn, hnp, if_neg (by simpa using hlen), hps, hev]
  simp only [Option.map_some, hpl, Option.some.injEq]
  have e1 : List.drop pos.length ((pos ++ (sharePos n).take (n - (d + 1))).map fun x => p.eval x)
      = ((sharePos n).take (n - (d + 1))).map fun x => p.eval x := by
    rw [← List.map_drop, List.drop_left]
  have e2 : List.take pos.length ((pos ++ (sharePos n).take (n - (d + 1))).map fun x => p.eval x)
      = pos.map fun x => p.eval x := by
    rw [← List.map_take, List.take_left]
  rw [e1, e2]
  congr 1
  simp only [List.all_eq_true, decide_eq_true_eq, Prod.forall, eq_iff_iff]
  constructor
  · intro hall
    rw [← List.take_append_drop (n - (d + 1)) shares, hps,
      ← List.take_append_drop (n - (d + 1)) (sharePos n), List.map_append]
    congr 1
    · apply List.ext_getElem
      · simp [hlen, sharePos_length]
      · intro i h1 h2
        have h3 : i < (((sharePos n).take (n - (d + 1))).map fun x => p.eval x).length := h2
        have := hall _ i (List.mem_zipIdx_iff_getElem?.2 (List.getElem?_eq_getElem h3))
        rw [List.getElem_take]
        have hi : i < shares.length := by simp at h1; omega
        rw [List.getElem?_eq_getElem hi] at this
        simpa using this
    · rw [List.take_append_drop]
  · intro hall v i hmem
    have := List.mem_zipIdx_iff_getElem?.1 hmem
    simp only at this
    rw [hall]
    rw [List.getElem?_map, List.getElem?_take] at this
    split at this
    · rw [List.getElem?_map]; exact this
    · simp at this

end Verif
