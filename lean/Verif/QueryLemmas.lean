import Verif.QuerySpec
import Verif.CircErrLemmas
import Verif.PackLemmas
import Verif.Props.Circuit
import Verif.EstimatesLemmas

/-!
# Counting the reads of a wire
-/

namespace Verif

open Props

theorem card_index_eq_count (ws : List Nat) (l w : Nat) (h : ws.length ≤ l) :
    ((Finset.range l).filter fun x => ws[x]? = some w).card = ws.count w := by
  induction ws generalizing l with
  | nil => simp
  | cons a ws ih =>
    obtain ⟨l, rfl⟩ : ∃ l', l = l' + 1 := ⟨l - 1, by simp at h; omega⟩
    rw [Finset.card_filter, Finset.sum_range_succ', List.count_cons, ← ih l (by simpa using h), Finset.card_filter]
    congr 1
    by_cases haw : a = w <;> simp [haw]

theorem inps_two (g : PackedGateInfo 2) : g.inp.toList = [g.inp[0], g.inp[1]] := by
  apply List.ext_getElem
  · simp
  · intro i h1 h2
    simp at h1
    match i, h1 with
    | 0, _ => simp
    | 1, _ => simp

theorem inps_one (g : PackedGateInfo 1) : g.inp.toList = [g.inp[0]] := by
  apply List.ext_getElem
  · simp
  · intro i h1 h2
    simp at h1
    subst h1
    simp

theorem readSet_card (c : PackedCircuit) (l w : Nat) (h : ∀ g ∈ c.gates, ∀ ws ∈ g.inps, ws.length ≤ l) :
    (c.readSet l w).card = ((c.gates.flatMap fun g => g.inps.flatten)).count w := by
  unfold PackedCircuit.readSet
  rw [Finset.card_filter, Finset.sum_product]
  have hg : ∀ gid (hlt : gid < c.gates.length), (∑ y ∈ Finset.range l ×ˢ Finset.range 2, if (c.inpWires gid y.2)[y.1]? = some w then 1 else 0)
      = c.gates[gid].inps.flatten.count w := by
    intro gid hlt
    have hin : ∀ i, c.inpWires gid i = c.gates[gid].inps.getD i [] := by
      intro i
      unfold PackedCircuit.inpWires
      rw [List.getElem?_eq_getElem hlt]
      rfl
    rw [Finset.sum_product_right, Finset.sum_range_succ, Finset.sum_range_one]
    simp only [hin]
    rw [← Finset.card_filter, ← Finset.card_filter]
    have hl := h _ (List.getElem_mem hlt)
    revert hl
    cases c.gates[gid] with
    | xor g | and g =>
      intro hl
      have e := inps_two g
      simp only [PackedGate.inps, e] at hl ⊢
      simp only [List.getD_cons_zero, List.getD_cons_succ, List.flatten_cons, List.flatten_nil, List.append_nil, List.count_append]
      rw [card_index_eq_count _ _ _ (hl _ (by simp)), card_index_eq_count _ _ _ (hl _ (by simp))]
    | inv g =>
      intro hl
      have e := inps_one g
      simp only [PackedGate.inps, e] at hl ⊢
      simp only [List.getD_cons_zero, List.flatten_cons, List.flatten_nil, List.append_nil]
      rw [card_index_eq_count _ _ _ (hl _ (by simp))]
      simp
  rw [List.count_flatMap, ← Fin.sum_univ_fun_getElem, Finset.sum_range]
  exact Finset.sum_congr rfl fun gid _ => hg gid gid.2

theorem count_two (gs : List (GateInfo 2)) (mk : GateInfo 2 → Gate) (hmk : ∀ g, (mk g).inWires = [g.inp[0], g.inp[1]]) (w : Nat) :
    ((gs.map mk).flatMap Gate.inWires).count w = (gs.map fun g => g.inp[0]).count w + (gs.map fun g => g.inp[1]).count w := by
  induction gs with
  | nil => rfl
  | cons g gs ih =>
    simp only [List.map_cons, List.flatMap_cons, List.count_append, hmk, ih, List.count_cons, List.count_nil]
    omega

theorem count_one (gs : List (GateInfo 1)) (w : Nat) :
    ((gs.map Gate.inv).flatMap Gate.inWires).count w = (gs.map fun g => g.inp[0]).count w := by
  induction gs with
  | nil => rfl
  | cons g gs ih =>
    simp only [List.map_cons, List.flatMap_cons, List.count_append, Gate.inWires, ih, List.count_cons, List.count_nil]
    omega

/-- Packing does not change how often a wire is read. -/
theorem pack_reads {c : Circuit} {l : Nat} {p : PackedCircuit} (h : c.pack l = some p) (w : Nat) : (p.readSet l w).card = c.numReads w := by
  have hpart := C23_partition c l p h
  rw [readSet_card]
  · unfold Circuit.numReads
    rw [← (hpart.1.flatMap_right Gate.inWires).count_eq w, List.flatMap_assoc, List.count_flatMap, List.count_flatMap]
    congr 1
    refine List.map_congr_left fun g hg => ?_
    simp only [Function.comp_apply]
    obtain ⟨-, hgs, -⟩ := pack_some h
    rw [hgs, List.mem_append, List.mem_append, List.mem_map, List.mem_map, List.mem_map] at hg
    rcases hg with (⟨gs, -, rfl⟩ | ⟨gs, -, rfl⟩) | ⟨gs, -, rfl⟩
    · rw [unpack_and, count_two gs .and (fun g => rfl)]
      simp only [PackedGate.inps, inps_two]
      simp [PackedGateInfo.ofGates]
    · rw [unpack_xor, count_two gs .xor (fun g => rfl)]
      simp only [PackedGate.inps, inps_two]
      simp [PackedGateInfo.ofGates]
    · rw [unpack_inv, count_one gs]
      simp only [PackedGate.inps, inps_one]
      simp [PackedGateInfo.ofGates]
  · intro g hg ws hws
    obtain ⟨ha, -, hb⟩ := hpart.2 g hg
    cases g with
    | xor g =>
      simp only [PackedGate.inps, inps_two, List.mem_cons, List.not_mem_nil, or_false] at hws
      simp only [Aligned, blockSize] at ha hb
      rcases hws with rfl | rfl <;> omega
    | and g =>
      simp only [PackedGate.inps, inps_two, List.mem_cons, List.not_mem_nil, or_false] at hws
      simp only [Aligned, blockSize] at ha hb
      rcases hws with rfl | rfl <;> omega
    | inv g =>
      simp only [PackedGate.inps, inps_one, List.mem_cons, List.not_mem_nil, or_false] at hws
      simp only [Aligned, blockSize] at ha hb
      subst hws
      omega

theorem inWires_length (gs : List Gate) : (gs.flatMap Gate.inWires).length = 2 * numKind gs .and + 2 * numKind gs .xor + numKind gs .inv := by
  induction gs with
  | nil => rfl
  | cons g gs ih =>
    rw [List.flatMap_cons, List.length_append, ih]
    unfold numKind
    cases g <;> simp [Gate.inWires, Gate.kind, List.filter_cons] <;> omega

/-- If more wires are read than there are, some wire is read twice. -/
theorem exists_shared {c : Circuit} (hc : c.WF) (h : c.numWires < 2 * numKind c.gates .and + 2 * numKind c.gates .xor + numKind c.gates .inv) :
    ∃ w < c.numWires, 2 ≤ c.numReads w := by
  by_contra hno
  have hno : ∀ w < c.numWires, c.numReads w ≤ 1 := fun w hw => by
    by_contra hlt
    exact hno ⟨w, hw, by omega⟩
  have hmem : ∀ w ∈ c.gates.flatMap Gate.inWires, w < c.numWires := by
    intro w hw
    obtain ⟨g, hg, hw⟩ := List.mem_flatMap.1 hw
    rcases (topological_outs hc.topo).2.2 g hg w hw with h | h
    · exact hc.inRange w h
    · obtain ⟨g', hg', rfl⟩ := List.mem_map.1 h
      exact hc.gateRange g' hg'
  have hlen : (c.gates.flatMap Gate.inWires).length ≤ c.numWires := by
    have h1 : (c.gates.flatMap Gate.inWires).Nodup := by
      rw [List.nodup_iff_count_le_one]
      intro w
      by_cases hw : w ∈ c.gates.flatMap Gate.inWires
      · exact hno w (hmem w hw)
      · rw [List.count_eq_zero_of_not_mem hw]
        omega
    rw [← List.toFinset_card_of_nodup h1]
    have : (c.gates.flatMap Gate.inWires).toFinset ⊆ Finset.range c.numWires := fun w hw =>
      Finset.mem_range.2 (hmem w (List.mem_toFinset.1 hw))
    simpa using Finset.card_le_card this
  rw [inWires_length] at hlen
  omega

/-- Gates `qs` of a circuit given by codes read the wire this often. -/
theorem Net.reads_ge (N : Net) (qs : List Nat) (hq : qs.Pairwise (· < ·)) (hlt : ∀ q ∈ qs, q < N.numGates) (w : Nat) :
    (qs.flatMap fun q => (decodeGate (N.slot q)).inWires).count w ≤ N.circuit.numReads w := by
  have hsub : List.Sublist qs (List.range N.numGates) :=
    List.sublist_of_subperm_of_pairwise (r := (· < ·)) (List.subperm_of_subset (hq.imp fun h => Nat.ne_of_lt h) fun q h => List.mem_range.2 (hlt q h)) hq
      List.pairwise_lt_range
  have h1 : N.circuit.gates.flatMap Gate.inWires = (List.range N.numGates).flatMap fun q => (decodeGate (N.slot q)).inWires := by
    show N.gates.flatMap Gate.inWires = _
    unfold Net.gates
    rw [List.flatMap_map]
  unfold Circuit.numReads
  rw [h1]
  exact (hsub.flatMap _).count_le w

end Verif
