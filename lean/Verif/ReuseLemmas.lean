import Verif.ReuseSpec
import Verif.EvalLemmas
import Mathlib.Algebra.Order.Chebyshev

/-!
# Lemmas about LPN matrices which are used for two gates
-/

namespace Verif

/-- Sets of at least `A` places, of which any two have at most `k` places in common, are few. -/
theorem few_sets {ι α : Type*} [DecidableEq α] (C : Finset ι) (T : ι → Finset α) (U : Finset α) {A k : Nat} (hkA : k ≤ A)
    (hsub : ∀ i ∈ C, T i ⊆ U) (hA : ∀ i ∈ C, A ≤ (T i).card) (hk : ∀ i ∈ C, ∀ j ∈ C, i ≠ j → (T i ∩ T j).card ≤ k)
    (hJ : U.card * k ≤ A ^ 2) : C.card * (A ^ 2 - U.card * k) ≤ U.card * (A - k) := by
  classical
  have hex : ∀ i, ∃ B : Finset α, i ∈ C → B ⊆ T i ∧ B.card = A := by
    intro i
    by_cases h : i ∈ C
    · obtain ⟨B, h1, h2⟩ := Finset.exists_subset_card_eq (hA i h)
      exact ⟨B, fun _ => ⟨h1, h2⟩⟩
    · exact ⟨∅, fun h' => absurd h' h⟩
  choose B hB using hex
  set N := U.card with hN
  set L := C.card with hL
  rcases Nat.eq_zero_or_pos L with h0 | hpos
  · rw [h0, Nat.zero_mul]
    exact Nat.zero_le _
  let d : α → Nat := fun a => (C.filter fun i => a ∈ B i).card
  have hd : ∀ a, d a = ∑ i ∈ C, if a ∈ B i then 1 else 0 := fun a => Finset.card_filter _ _
  have hsum : ∑ a ∈ U, d a = L * A := by
    simp only [hd]
    rw [Finset.sum_comm]
    rw [Finset.sum_congr rfl (g := fun _ => A) fun i hi => ?_, Finset.sum_const, smul_eq_mul]
    rw [← Finset.card_filter, Finset.filter_mem_eq_inter, Finset.inter_eq_right.2 ((hB i hi).1.trans (hsub i hi))]
    exact (hB i hi).2
  have hsq : ∑ a ∈ U, d a ^ 2 ≤ L * (A + (L - 1) * k) := by
    have e1 : ∀ a, d a ^ 2 = ∑ i ∈ C, ∑ j ∈ C, if a ∈ B i ∩ B j then 1 else 0 := by
      intro a
      rw [sq, hd, Finset.sum_mul_sum]
      refine Finset.sum_congr rfl fun i _ => Finset.sum_congr rfl fun j _ => ?_
      by_cases h1 : a ∈ B i <;> by_cases h2 : a ∈ B j <;> simp [h1, h2]
    simp only [e1]
    rw [Finset.sum_comm]
    have e2 : ∀ i ∈ C, ∑ a ∈ U, ∑ j ∈ C, (if a ∈ B i ∩ B j then 1 else 0) ≤ A + (L - 1) * k := by
      intro i hi
      rw [Finset.sum_comm, ← Finset.add_sum_erase _ _ hi]
      refine Nat.add_le_add ?_ ?_
      · rw [← Finset.card_filter, Finset.inter_self]
        refine le_trans (Finset.card_le_card fun a ha => (Finset.mem_filter.1 ha).2) (hB i hi).2.le
      · refine le_trans (Finset.sum_le_card_nsmul _ _ k fun j hj => ?_) ?_
        · rw [← Finset.card_filter]
          refine le_trans (Finset.card_le_card fun a ha => ?_) (hk i hi j (Finset.mem_of_mem_erase hj) (Finset.ne_of_mem_erase hj).symm)
          have := Finset.mem_inter.1 (Finset.mem_filter.1 ha).2
          exact Finset.mem_inter.2 ⟨(hB i hi).1 this.1, (hB j (Finset.mem_of_mem_erase hj)).1 this.2⟩
        · rw [smul_eq_mul, Finset.card_erase_of_mem hi]
    refine le_trans (Finset.sum_le_sum e2) ?_
    rw [Finset.sum_const, smul_eq_mul]
  have hcs : (∑ a ∈ U, d a) ^ 2 ≤ N * ∑ a ∈ U, d a ^ 2 := sq_sum_le_card_mul_sum_sq
  rw [hsum] at hcs
  have h1 : (L * A) ^ 2 ≤ N * (L * (A + (L - 1) * k)) := hcs.trans (Nat.mul_le_mul_left _ hsq)
  obtain ⟨M, hM⟩ : ∃ M, L = M + 1 := ⟨L - 1, by omega⟩
  obtain ⟨D, hD⟩ : ∃ D, A ^ 2 = N * k + D := ⟨A ^ 2 - N * k, by omega⟩
  obtain ⟨E, hE⟩ : ∃ E, A = k + E := ⟨A - k, by omega⟩
  rw [hD, Nat.add_sub_cancel_left, show A - k = E by omega]
  have h2 : L * (L * (N * k + D)) ≤ L * (N * (A + (L - 1) * k)) := by
    rw [← hD]
    calc L * (L * A ^ 2) = (L * A) ^ 2 := by ring
      _ ≤ _ := h1
      _ = _ := by ring
  have h3 := Nat.le_of_mul_le_mul_left h2 hpos
  rw [hE, hM, Nat.add_sub_cancel] at h3
  rw [hM]
  nlinarith [h3]

section
variable {F : Type} [CodeField F] [DecidableEq F]
variable {hash : List Nat → List Nat} {rng : List Nat → Nat → F} {ctx : Ctx F} {lpn : LpnParams} {enc : Mat F} {p : PackedCircuit} {S : Scheme F}
  {errors : List (List F)} {place : Nat → Nat × Nat} {mask : Nat → Nat} {results : List (List (List (List F)))}

omit [CodeField F] [DecidableEq F] in
/-- The key of a row, from the label of one input wire and what the other wire contributes. -/
theorem row_key [Field F] (S : Scheme F) {gt : Gate} {i w b o : Nat} (hw : gt.inWires[i]? = some w) (hb : b < 2) (ho : o < 2)
    (K : Nat → Nat → F) (hK : K = fun r => match gt.kind with
      | .inv => S.key (gt.inWires.getD 0 0) r
      | _ => fun b => S.key (gt.inWires.getD 0 0) (r / 2) b + S.key (gt.inWires.getD 1 0) (r % 2) b) (j : Nat) :
    K (readRow gt.kind i b o) j = S.key w b j + (match gt.kind with
      | .inv => 0
      | _ => S.key (gt.inWires.getD (1 - i) 0) o j) ∧ readRow gt.kind i b o < gt.kind.numRows := by
  subst hK
  have hlt : i < gt.inWires.length := (List.getElem?_eq_some_iff.1 hw).1
  have hq : ∀ p q : Nat, q < 2 → (2 * p + q) / 2 = p ∧ (2 * p + q) % 2 = q := by omega
  cases gt with
  | inv g =>
    have hi : i = 0 := by simp [Gate.inWires] at hlt; exact hlt
    subst hi
    simp only [Gate.inWires, List.getElem?_cons_zero, Option.some.injEq] at hw
    subst hw
    simp [Gate.kind, Gate.inWires, readRow, GateKind.numRows, hb]
  | and g =>
    have hi : i = 0 ∨ i = 1 := by simp [Gate.inWires] at hlt; omega
    rcases hi with rfl | rfl <;> simp [Gate.inWires] at hw <;> subst hw <;>
      simp only [Gate.kind, Gate.inWires, readRow, GateKind.numRows, if_true, one_ne_zero, if_false, hq _ _ hb, hq _ _ ho] <;>
      refine ⟨?_, by omega⟩ <;> simp [add_comm]
  | xor g =>
    have hi : i = 0 ∨ i = 1 := by simp [Gate.inWires] at hlt; omega
    rcases hi with rfl | rfl <;> simp [Gate.inWires] at hw <;> subst hw <;>
      simp only [Gate.kind, Gate.inWires, readRow, GateKind.numRows, if_true, one_ne_zero, if_false, hq _ _ hb, hq _ _ ho] <;>
      refine ⟨?_, by omega⟩ <;> simp [add_comm]

/-- A row which is opened, with the key as the label of one input wire and what the other wire contributes. -/
theorem open_row {gt : Gate} (h : HoldsGate hash rng ctx lpn enc p S errors place mask results gt) {gid x : Nat}
    (hp : place gt.outWire = (p.inputs.length + gid, x)) {i w b o : Nat} (hw : gt.inWires[i]? = some w) (hb : b < 2) (ho : o < 2)
    (hpos : 0 < lpn.mssgLen) :
    ∃ ws, p.blocks[p.inputs.length + gid]? = some ws ∧
      openRow ctx lpn.mssgLen ws.length results gid (readRow gt.kind i b o) x = some ((List.range lpn.mssgLen).map fun a =>
        rowSecret rng ctx.l lpn enc (hash (p.nonceString ctx.l gid)) (fun j => S.key w b j + partnerKey S gt i o j)
          (S.msg gt.outWire (S.row gt.kind (readRow gt.kind i b o) (mask (gt.inWires.getD 0 0)) (mask (gt.inWires.getD 1 0)) (mask gt.outWire)))
          (at2 errors (p.errorIdx lpn.mssgLen gid (readRow gt.kind i b o) a) x) (readRow gt.kind i b o) a x) := by
  obtain ⟨gid', x', ws, h1, h2, h3⟩ := h
  rw [hp, Prod.mk.injEq] at h1
  obtain ⟨e1, rfl⟩ := h1
  obtain rfl : gid = gid' := by omega
  have hr := (row_key S hw hb ho _ rfl 0).2
  obtain ⟨_, ps, _, _, hps, _⟩ := h3 _ hr 0 hpos
  refine ⟨ws, h2, openRow_eq ⟨ps, hps⟩ fun a ha => ?_⟩
  obtain ⟨shares, ps', secrets, k1, k2, k3, k4⟩ := h3 _ hr a ha
  refine ⟨shares, ps', secrets, k1, k2, k3, k4.trans ?_⟩
  congr 2
  funext j
  exact (row_key S hw hb ho _ rfl j).1

/-- The difference of two rows which are encrypted with the same matrix, when the keys contain the same label of a wire. -/
theorem diff_rows {gt1 gt2 : Gate} (h1 : HoldsGate hash rng ctx lpn enc p S errors place mask results gt1)
    (h2 : HoldsGate hash rng ctx lpn enc p S errors place mask results gt2) {g1 g2 x : Nat}
    (hp1 : place gt1.outWire = (p.inputs.length + g1, x)) (hp2 : place gt2.outWire = (p.inputs.length + g2, x))
    (hn : p.nonceString ctx.l g1 = p.nonceString ctx.l g2) {i1 i2 w b o1 o2 r : Nat} (hw1 : gt1.inWires[i1]? = some w)
    (hw2 : gt2.inWires[i2]? = some w) (hb : b < 2) (ho1 : o1 < 2) (ho2 : o2 < 2) (hr1 : r = readRow gt1.kind i1 b o1)
    (hr2 : r = readRow gt2.kind i2 b o2) (hpos : 0 < lpn.mssgLen) :
    ∃ ws1 ws2 row1 row2, p.blocks[p.inputs.length + g1]? = some ws1 ∧ p.blocks[p.inputs.length + g2]? = some ws2 ∧
      openRow ctx lpn.mssgLen ws1.length results g1 r x = some row1 ∧ openRow ctx lpn.mssgLen ws2.length results g2 r x = some row2 ∧
      unmaskRow rng ctx.l lpn (hash (p.nonceString ctx.l g1)) (fun j => partnerKey S gt1 i1 o1 j - partnerKey S gt2 i2 o2 j) r x
          (List.zipWith (· - ·) row1 row2)
        = (List.range lpn.mssgLen).map fun a =>
          ∑ j ∈ Finset.range (lpn.keyLen + 1), enc.entry a j *
              (S.msg gt1.outWire (S.row gt1.kind r (mask (gt1.inWires.getD 0 0)) (mask (gt1.inWires.getD 1 0)) (mask gt1.outWire)) j
                - S.msg gt2.outWire (S.row gt2.kind r (mask (gt2.inWires.getD 0 0)) (mask (gt2.inWires.getD 1 0)) (mask gt2.outWire)) j)
            + (at2 errors (p.errorIdx lpn.mssgLen g1 r a) x - at2 errors (p.errorIdx lpn.mssgLen g2 r a) x) := by
  obtain ⟨ws1, a1, a2⟩ := open_row h1 hp1 hw1 hb ho1 hpos
  obtain ⟨ws2, b1, b2⟩ := open_row h2 hp2 hw2 hb ho2 hpos
  rw [← hr1] at a2
  rw [← hr2] at b2
  refine ⟨ws1, ws2, _, _, a1, b1, a2, b2, ?_⟩
  rw [List.zipWith_map, List.zipWith_self, unmask_map, ← hn]
  refine List.map_congr_left fun a _ => ?_
  unfold rowSecret
  simp only [mul_add, mul_sub, Finset.sum_add_distrib, Finset.sum_sub_distrib]
  ring

end

end Verif
