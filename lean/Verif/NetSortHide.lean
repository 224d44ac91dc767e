import Verif.NetSortTail

/-!
# Circuits of which only the last XOR block may have a wire twice in an input
-/

namespace Verif

open Props

/-- Where an input of gates with two inputs comes from. -/
theorem flatMap_two_at (gs : List PackedGate) (h2 : ∀ x ∈ gs, x.inps.length = 2) {j : Nat} {ws : List Nat}
    (h : (gs.flatMap PackedGate.inps)[j]? = some ws) : ∃ gate, gs[j / 2]? = some gate ∧ gate.inps[j % 2]? = some ws := by
  induction gs generalizing j with
  | nil => simp at h
  | cons x gs ih =>
    have hx := h2 x List.mem_cons_self
    rw [List.flatMap_cons] at h
    rcases Nat.lt_or_ge j 2 with hj | hj
    · rw [List.getElem?_append_left (by omega)] at h
      refine ⟨x, ?_, ?_⟩
      · rw [Nat.div_eq_of_lt hj]
        rfl
      · rwa [Nat.mod_eq_of_lt hj]
    · rw [List.getElem?_append_right (by omega), hx] at h
      obtain ⟨gate, g1, g2⟩ := ih (fun y hy => h2 y (List.mem_cons_of_mem _ hy)) h
      refine ⟨gate, ?_, ?_⟩
      · rw [show j / 2 = (j - 2) / 2 + 1 by omega, List.getElem?_cons_succ]
        exact g1
      · rwa [show j % 2 = (j - 2) % 2 by omega]

/-- The output wires of the last XOR block. -/
noncomputable def SortCert.tailOuts (N : Net) (S : SortCert) (l : Nat) : List Nat :=
  (List.range' (fullPart S.xor.cnt l) (S.xor.cnt - fullPart S.xor.cnt l)).map fun r => codeO (N.slot (S.xor.order r))

/-- No input of a last block has a wire twice, but perhaps the second one of the last XOR block. -/
noncomputable def SortCert.restOk (N : Net) (S : SortCert) (l : Nat) : Bool :=
  bsel (S.nodupOk N l 0 0) (bsel (S.nodupOk N l 1 0) (bsel (S.nodupOk N l 1 1) (S.nodupOk N l 2 0) false) false) false

section
variable {N : Net} {S : SortCert} (h : S.Ok N)
include h

/-- The last XOR block. -/
theorem SortCert.Ok.xorBlock {l : Nat} {p : PackedCircuit} (hp : N.circuit.pack l = some p) (hlt : fullPart S.xor.cnt l < S.xor.cnt) :
    p.blocks[S.xorTail N l]? = some (S.tailOuts N l) := by
  obtain ⟨hl0, hg, hin, -⟩ := pack_some hp
  have hl : 0 < l := by omega
  obtain ⟨s0, s1, -⟩ := h.sorted
  change p.gates = (chunks l (sortGates (andGates N.gates))).map _ ++ (chunks l (sortGates (xorGates N.gates))).map _
    ++ (chunks l (sortGates (invGates N.gates))).map _ at hg
  rw [s0, s1] at hg
  have hlast := chunks_last l hl ((List.range S.xor.cnt).map fun r => N.info2 (S.xor.order r)) (by
    rw [List.length_map, List.length_range]
    exact hlt)
  rw [List.length_map, List.length_range, drop_range_tab] at hlast
  have hins : N.circuit.inputs.flatten = List.range (N.n1 + N.n2) := by
    simp only [Net.circuit, List.flatten_cons, List.flatten_nil, List.append_nil]
    rw [List.range_eq_range']
    simpa using List.range'_append (s := 0) (m := N.n1) (n := N.n2) (step := 1)
  have hil : p.inputs.length = (N.n1 + N.n2 + l - 1) / l := by rw [hin, hins, chunks_length _ _ hl0, List.length_range]
  have hal : ((chunks l ((List.range S.and.cnt).map fun r => N.info2 (S.and.order r))).map
      fun gs => PackedGate.and (.ofGates gs)).length = (S.and.cnt + l - 1) / l := by
    rw [List.length_map, chunks_length _ _ hl0, List.length_map, List.length_range]
  unfold PackedCircuit.blocks SortCert.xorTail
  rw [List.getElem?_append_right (by rw [hil]; exact (Nat.le_add_right ..).trans (Nat.le_add_right ..)), hil, Nat.add_assoc, Nat.add_sub_cancel_left, List.getElem?_map, hg, List.append_assoc,
    List.getElem?_append_right (by rw [hal]; exact Nat.le_add_right ..), hal, Nat.add_sub_cancel_left, List.getElem?_append_left, List.getElem?_map, hlast]
  · simp only [Option.map_some, Option.some.injEq]
    change List.map _ _ = _
    rw [List.map_map]
    rfl
  · rw [List.length_map]
    exact (List.getElem?_eq_some_iff.1 hlast).1

/-- No other input which is not full has a wire twice. -/
theorem SortCert.Ok.rest {l : Nat} {p : PackedCircuit} (hp : N.circuit.pack l = some p) (hc : S.restOk N l = true) {j : Nat} {ws : List Nat}
    (hj : (p.gates.flatMap PackedGate.inps)[j]? = some ws) (hne : j ≠ 2 * ((S.and.cnt + l - 1) / l + S.xor.cnt / l) + 1) :
    ws.Nodup ∨ ws.length = l := by
  obtain ⟨hl0, hg, -⟩ := pack_some hp
  have hl : 0 < l := by omega
  obtain ⟨s0, s1, s2⟩ := h.sorted
  change p.gates = (chunks l (sortGates (andGates N.gates))).map _ ++ (chunks l (sortGates (xorGates N.gates))).map _
    ++ (chunks l (sortGates (invGates N.gates))).map _ at hg
  rw [s0, s1, s2] at hg
  unfold SortCert.restOk at hc
  obtain ⟨n00, hc⟩ := bsel_and.1 hc
  obtain ⟨n10, hc⟩ := bsel_and.1 hc
  obtain ⟨n11, n20⟩ := bsel_and.1 hc
  have nd := @SortCert.nodupOk_tail N S l
  have hal : ((chunks l ((List.range S.and.cnt).map fun r => N.info2 (S.and.order r))).map
      fun gs => PackedGate.and (.ofGates gs)).length = (S.and.cnt + l - 1) / l := by
    rw [List.length_map, chunks_length _ _ hl0, List.length_map, List.length_range]
  have hand : ∀ x ∈ (chunks l ((List.range S.and.cnt).map fun r => N.info2 (S.and.order r))).map
      (fun gs => PackedGate.and (.ofGates gs)) ++ (chunks l ((List.range S.xor.cnt).map fun r => N.info2 (S.xor.order r))).map
      (fun gs => PackedGate.xor (.ofGates gs)), x.inps.length = 2 := by
    intro x hx
    rcases List.mem_append.1 hx with hx | hx <;>
    · obtain ⟨gs, _, rfl⟩ := List.mem_map.1 hx
      simp [PackedGate.inps]
  rw [hg, List.flatMap_append] at hj
  rcases Nat.lt_or_ge j (List.flatMap PackedGate.inps ((chunks l ((List.range S.and.cnt).map fun r => N.info2 (S.and.order r))).map
      (fun gs => PackedGate.and (.ofGates gs)) ++ (chunks l ((List.range S.xor.cnt).map fun r => N.info2 (S.xor.order r))).map
      (fun gs => PackedGate.xor (.ofGates gs)))).length with hlt | hge
  · rw [List.getElem?_append_left hlt] at hj
    obtain ⟨gate, g1, g2⟩ := flatMap_two_at _ hand hj
    rcases Nat.lt_or_ge (j / 2) ((S.and.cnt + l - 1) / l) with ha | ha
    · rw [List.getElem?_append_left (by omega), List.getElem?_map] at g1
      obtain ⟨c, hc, rfl⟩ := Option.map_eq_some_iff.1 g1
      obtain ⟨k, hk, rfl⟩ := mem_ofGates c ws (List.mem_of_getElem? g2)
      rcases chunks_tail l hl _ c (List.mem_of_getElem? hc) with h1 | h1
      · right
        rw [List.length_map, h1]
      · left
        rw [h1, List.length_map, List.length_range, drop_range_tab, List.map_map]
        rw [List.map_congr_left (g := fun r => N.wireAt (S.and.order r) k) fun r _ => (show ((fun g => g.inp[k]) ∘ fun r => N.info2 (S.and.order r)) r = _ from N.info2_inp _ k hk)]
        have : k = 0 ∨ k = 1 := by omega
        rcases this with rfl | rfl
        · exact nd 1 0 n10
        · exact nd 1 1 n11
    · rw [List.getElem?_append_right (by omega), hal, List.getElem?_map] at g1
      obtain ⟨c, hc, rfl⟩ := Option.map_eq_some_iff.1 g1
      have hw : ∃ hk : j % 2 < 2, ws = c.map fun g => g.inp[j % 2] := by
        refine ⟨by omega, ?_⟩
        have hk : j % 2 < 2 := by omega
        simp only [PackedGate.inps, PackedGateInfo.ofGates, Vector.getElem?_toList, Vector.getElem?_ofFn, dif_pos hk, Option.some.injEq] at g2
        exact g2.symm
      obtain ⟨hk, rfl⟩ := hw
      rcases chunks_tail_at l hl _ _ c hc with h1 | ⟨h0, h1⟩
      · right
        rw [List.length_map, h1]
      · left
        rw [List.length_map, List.length_range] at h0
        rw [h1, List.length_map, List.length_range, drop_range_tab, List.map_map]
        rw [List.map_congr_left (g := fun r => N.wireAt (S.xor.order r) (j % 2)) fun r _ => (show ((fun g => g.inp[j % 2]) ∘ fun r => N.info2 (S.xor.order r)) r = _ from N.info2_inp _ (j % 2) hk)]
        rw [show j % 2 = 0 by omega]
        exact nd 0 0 n00
  · rw [List.getElem?_append_right hge] at hj
    obtain ⟨gate, hgate, hws⟩ := List.mem_flatMap.1 (List.mem_of_getElem? hj)
    obtain ⟨c, hc, rfl⟩ := List.mem_map.1 hgate
    obtain ⟨k, hk, rfl⟩ := mem_ofGates c ws hws
    rcases chunks_tail l hl _ c hc with h1 | h1
    · right
      rw [List.length_map, h1]
    · left
      rw [h1, List.length_map, List.length_range, drop_range_tab, List.map_map]
      rw [List.map_congr_left (g := fun r => N.wireAt (S.inv.order r) k) fun r _ => (show ((fun g => g.inp[k]) ∘ fun r => N.info1 (S.inv.order r)) r = _ from N.info1_inp _ k hk)]
      obtain rfl : k = 0 := by omega
      exact nd 2 0 n20

end

end Verif
