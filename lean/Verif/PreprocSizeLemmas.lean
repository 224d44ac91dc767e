import Verif.PreprocSize
import Verif.AsyncCommLemmas
import Verif.Props.Preproc

/-!
# Lemmas about the size of preprocessing material
-/

open Polynomial
open Verif.CodeField (ofU32)

namespace Verif

theorem elemsRead_roundtrip (W : Nat) (hW : W ≤ 32) (vs rest : List Nat) (hv : ∀ v ∈ vs, v < 2 ^ W) :
    elemsRead W vs.length (vs.flatMap (gfSerialize W) ++ rest) = some (vs, rest) := by
  induction vs with
  | nil => rfl
  | cons v vs ih =>
    rw [List.length_cons, elemsRead, List.flatMap_cons, List.append_assoc, (gf_roundtrip W v hW (hv v (by simp)) _).2,
      Option.bind_some]
    simp only []
    rw [ih fun x hx => hv x (by simp [hx])]
    rfl

theorem vecRead_roundtrip (W : Nat) (hW : W ≤ 32) (vs : List (GF W)) (rest : List Nat) (hk : vs.length < 2 ^ 64) :
    vecRead W ((gfCodec W).enc vs ++ rest) = some (vs.map (·.val), rest) := by
  have hlen : (leBytes 8 (vs.map (·.val)).length).length = 8 := leBytes_length 8 _
  unfold vecRead gfCodec vecSerialize
  simp only []
  rw [if_pos (by rw [List.length_append, List.length_append, hlen]; omega), List.append_assoc]
  have h1 : ∀ l : List Nat, (leBytes 8 (vs.map (·.val)).length ++ l).take 8 = leBytes 8 (vs.map (·.val)).length := by
    intro l
    conv_lhs => rw [← hlen]
    exact List.take_left
  have h2 : ∀ l : List Nat, (leBytes 8 (vs.map (·.val)).length ++ l).drop 8 = l := by
    intro l
    conv_lhs => rw [← hlen]
    exact List.drop_left
  rw [h1, h2, ofLeBytes_leBytes 8 _ (by rw [List.length_map]; exact lt_of_lt_of_eq hk (by norm_num))]
  refine elemsRead_roundtrip W hW _ _ fun v hv => ?_
  obtain ⟨x, _, rfl⟩ := List.mem_map.1 hv
  exact x.lt

theorem bytes_length {F : Type} {c : Codec F} {B : Nat} (hw : c.Width B) (s : PreProcSer F) :
    (s.bytes c).length
      = 40 + B * (s.masks.length + s.keys.length + s.randoms.length + s.zeros.length + s.errors.length) := by
  have hw : ∀ v : List F, (c.enc v).length = 8 + B * v.length := hw
  unfold PreProcSer.bytes
  simp only [List.length_append, hw]
  ring

variable {F : Type} [CodeField F] [DecidableEq F]

/-- The exact numbers of the shares which `preproc` makes. -/
theorem preproc_lengths (ctx : Ctx F) (h : ctx.Good) (hd : 2 * (ctx.t + ctx.l - 1) < ctx.n) (m mb : Mat F)
    (hm : DealMat ctx.n m) (hmb : DealMat ctx.n mb) (desc : PreProcCount) (tp : PreTapes F)
    (ht : tp.Ok ctx.n ctx.t ctx.l m mb desc) :
    ∃ outs br bz, preproc ctx m mb desc tp = some outs ∧ outs.length = ctx.n ∧
      numBatches (desc.numKeys + desc.randoms + 3 * desc.errors) m.rows.length = some br ∧
      numBatches (desc.zeros + 2 * desc.errors) m.rows.length = some bz ∧
      ∀ o ∈ outs, o.masks.length = desc.masks ∧ o.keys.flat.length = desc.numKeys ∧
        o.randoms.length = m.rows.length * br - 3 * desc.errors - desc.numKeys ∧
        o.zeros.length = m.rows.length * bz - 2 * desc.errors ∧ o.errors.length = desc.errors := by
  have hr0 : 0 < m.rows.length := List.length_pos_of_ne_nil hm.2.2
  have hb0 : 0 < mb.rows.length := List.length_pos_of_ne_nil hmb.2.2
  obtain ⟨br, hbr⟩ := numBatches_some (desc.numKeys + desc.randoms + 3 * desc.errors) hr0
  obtain ⟨bz, hbz⟩ := numBatches_some (desc.zeros + 2 * desc.errors) hr0
  obtain ⟨bb, hbb⟩ := numBatches_some (desc.masks + 2 * desc.errors) hb0
  obtain ⟨q, q1, q2⟩ := rand_tab h hm.1 hm.2.1 hbr (ht.rand _ hbr)
  obtain ⟨z, z1, z2⟩ := zero_tab h hm.1 hm.2.1 hbz (ht.zero _ hbz)
  obtain ⟨c, c1, c2⟩ := randbit_tab h hmb.1 hmb.2.1 hbb (ht.bits _ hbb) (ht.rbit _ hbb)
  have hR := dealPoly_degree m q fun p hp b hb' => (q1 p hp b hb').1
  have hZ := dealPoly_degree m z fun p hp b hb' => (z1 p hp b hb').1
  have hB := dealPoly_degree mb c fun p hp b hb' => (c1 p hp b hb').1
  have hZ0 : ∀ k < m.rows.length * bz, ∀ x ∈ defaultPos ctx.n ctx.l, (dealPoly ctx.n bz m z k).eval x = 0 := by
    intro k hk x hx
    rw [dealPoly_eval]
    apply Finset.sum_eq_zero
    intro p hp
    rw [(z1 p (Finset.mem_range.1 hp) _ (Nat.mod_lt _ (Nat.pos_of_ne_zero (by rintro rfl; simp at hk)))).2.1 x hx, mul_zero]
  obtain ⟨w, w1, w2, w3⟩ := preproc_tab h hd ht hbr hbz hbb _ _ _ hR hZ hZ0 hB q2 z2 c2
  refine ⟨_, br, bz, w3, by simp, hbr, hbz, ?_⟩
  intro o ho
  obtain ⟨i, _, rfl⟩ := List.mem_map.1 ho
  simp

/-- How much is left of the last batch. -/
theorem surplus_eq {num rows b : Nat} (h : numBatches num rows = some b) :
    rows * b = num + (rows - num % rows) % rows := by
  unfold numBatches at h
  split at h
  · cases h
  · next hr =>
    rw [Option.some.injEq] at h
    have hr : 0 < rows := by omega
    obtain ⟨q, r, hlt, rfl⟩ : ∃ q r, r < rows ∧ num = rows * q + r :=
      ⟨num / rows, num % rows, Nat.mod_lt num hr, (Nat.div_add_mod num rows).symm⟩
    rw [Nat.mul_add_mod, Nat.mod_eq_of_lt hlt]
    rcases Nat.eq_zero_or_pos r with rfl | h0
    · rw [Nat.add_zero, Nat.add_sub_assoc (by omega), Nat.mul_add_div hr, Nat.div_eq_of_lt (by omega)] at h
      rw [← h, Nat.sub_zero, Nat.mod_self]
      rfl
    · rw [show rows * q + r + rows - 1 = rows * (q + 1) + (r - 1) by rw [Nat.mul_add]; omega, Nat.mul_add_div hr,
        Nat.div_eq_of_lt (show r - 1 < rows by omega)] at h
      rw [Nat.mod_eq_of_lt (show rows - r < rows by omega), ← h, Nat.add_zero, Nat.mul_add, Nat.mul_one]
      omega

end Verif
