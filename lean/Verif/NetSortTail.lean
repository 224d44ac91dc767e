import Verif.NetSortLemmas

/-!
# The last XOR block of a circuit

It is the only block which is not full and contains a wire of its own last gates; if such a wire is also read by the block itself,
the argument of `PackedCircuit.LeakyInput` needs the block's leader, too.
-/

namespace Verif

open Props

/-- A chunk is full, or it is the last one. -/
theorem chunks_tail_at {α : Type} (k : Nat) (hk : 0 < k) (l : List α) (j : Nat) (c : List α) (h : (chunks k l)[j]? = some c) :
    c.length = k ∨ j = l.length / k ∧ c = l.drop (l.length / k * k) := by
  induction hl : l.length using Nat.strong_induction_on generalizing l j with
  | _ n ih =>
    subst hl
    rw [chunks_eq k l (by omega)] at h
    split at h
    · simp at h
    · rename_i hne
      have hpos : 0 < l.length := List.length_pos_iff.2 hne
      rcases Nat.lt_or_ge l.length k with hlt | hge
      · rw [List.drop_eq_nil_of_le hlt.le, List.take_of_length_le hlt.le, chunks_eq k _ (by omega), if_pos rfl] at h
        right
        rw [Nat.div_eq_of_lt hlt, Nat.zero_mul, List.drop_zero]
        cases j with
        | zero => exact ⟨rfl, by simpa using h.symm⟩
        | succ j => simp at h
      · cases j with
        | zero =>
          left
          rw [List.getElem?_cons_zero] at h
          rw [← Option.some.inj h, List.length_take]
          omega
        | succ j =>
          rw [List.getElem?_cons_succ] at h
          obtain ⟨m, hm⟩ : ∃ m, l.length = m + k := ⟨l.length - k, by omega⟩
          have hd : (l.drop k).length = m := by rw [List.length_drop]; omega
          rcases ih (l.drop k).length (by omega) (l.drop k) j h rfl with h1 | ⟨h1, h2⟩
          · exact Or.inl h1
          · right
            rw [hd] at h1 h2
            rw [hm, Nat.add_div_right _ hk, Nat.succ_mul, h2, List.drop_drop, h1]
            exact ⟨rfl, by rw [Nat.add_comm k]⟩

/-- The index of the last XOR block. -/
def SortCert.xorTail (N : Net) (S : SortCert) (l : Nat) : Nat :=
  (N.n1 + N.n2 + l - 1) / l + (S.and.cnt + l - 1) / l + S.xor.cnt / l

/-- The wires which the last XOR block reads as input `k` are in full blocks or wires of XOR gates. -/
noncomputable def SortCert.selfLeakOk (N : Net) (S : SortCert) (l k : Nat) : Bool :=
  allFrom (fun r => bsel (S.wireFull N l (N.wireAt (S.xor.order r) k)) true
      (bsel (Nat.ble (Nat.add N.n1 N.n2) (N.wireAt (S.xor.order r) k)) (Nat.beq (Nat.mod (S.pos (N.wireAt (S.xor.order r) k)) 4) 0) false))
    (fullPart S.xor.cnt l) (Nat.sub S.xor.cnt (fullPart S.xor.cnt l))

section
variable {N : Net} {S : SortCert} (h : S.Ok N)
include h

/-- A wire of an XOR gate is in a full block or in the last XOR block. -/
theorem SortCert.Ok.inXorTail {l : Nat} {p : PackedCircuit} (hp : N.circuit.pack l = some p) {w : Nat}
    (hge : N.n1 + N.n2 ≤ w) (hpos : S.pos w % 4 = 0) {b : Nat} {bs : List Nat} (hbs : p.blocks[b]? = some bs) (hwb : w ∈ bs) :
    bs.length = l ∨ b = S.xorTail N l ∧ bs.length = S.xor.cnt - S.xor.cnt / l * l := by
  obtain ⟨hl0, hg, hin, -⟩ := pack_some hp
  have hl : 0 < l := by omega
  obtain ⟨s0, s1, s2⟩ := h.sorted
  obtain ⟨c0, c1, c2⟩ := h.cls
  change p.gates = (chunks l (sortGates (andGates N.gates))).map _ ++ (chunks l (sortGates (xorGates N.gates))).map _
    ++ (chunks l (sortGates (invGates N.gates))).map _ at hg
  rw [s0, s1, s2] at hg
  have hins : N.circuit.inputs.flatten = List.range (N.n1 + N.n2) := by
    simp only [Net.circuit, List.flatten_cons, List.flatten_nil, List.append_nil]
    rw [List.range_eq_range']
    simpa using List.range'_append (s := 0) (m := N.n1) (n := N.n2) (step := 1)
  rw [hins] at hin
  have hil : p.inputs.length = (N.n1 + N.n2 + l - 1) / l := by rw [hin, chunks_length _ _ hl0, List.length_range]
  -- a wire of a gate of another class
  have key : ∀ (C : KindCert), C.Ok N S.pos → 0 < C.cls → C.cls < 4 → ∀ r, r < C.cnt → w = codeO (N.slot (C.order r)) → False := by
    intro C hC h0 h4 r h2 hwr
    have := hC.pos_order h2
    rw [← hwr] at this
    omega
  unfold PackedCircuit.blocks at hbs
  rcases Nat.lt_or_ge b p.inputs.length with hb | hb
  · exfalso
    rw [List.getElem?_append_left hb, hin] at hbs
    have := chunks_flatten l (List.range (N.n1 + N.n2)) hl0
    have hm : w ∈ (chunks l (List.range (N.n1 + N.n2))).flatten := List.mem_flatten.2 ⟨bs, List.mem_of_getElem? hbs, hwb⟩
    rw [this, List.mem_range] at hm
    omega
  · rw [List.getElem?_append_right hb, List.getElem?_map] at hbs
    obtain ⟨gate, hgate, rfl⟩ := Option.map_eq_some_iff.1 hbs
    rw [hg, List.append_assoc] at hgate
    generalize hj : b - p.inputs.length = j at hgate
    have hal : ((chunks l ((List.range S.and.cnt).map fun r => N.info2 (S.and.order r))).map
        fun gs => PackedGate.and (.ofGates gs)).length = (S.and.cnt + l - 1) / l := by
      rw [List.length_map, chunks_length _ _ hl0, List.length_map, List.length_range]
    rcases Nat.lt_or_ge j ((S.and.cnt + l - 1) / l) with hja | hja
    · rw [List.getElem?_append_left (by omega), List.getElem?_map] at hgate
      obtain ⟨c, hc, rfl⟩ := Option.map_eq_some_iff.1 hgate
      rcases chunks_tail_at l hl _ j c hc with h1 | ⟨-, h1⟩
      · left
        change (c.map _).length = l
        rw [List.length_map, h1]
      · exfalso
        change w ∈ c.map _ at hwb
        rw [h1, List.length_map, List.length_range, drop_range_tab, List.map_map] at hwb
        obtain ⟨r, hr, e⟩ := List.mem_map.1 hwb
        have hr := List.mem_range'_1.1 hr
        exact key S.and h.and (by omega) (by omega) r (by omega) e.symm
    · rw [List.getElem?_append_right (by omega), hal] at hgate
      generalize hj' : j - (S.and.cnt + l - 1) / l = j' at hgate
      rcases Nat.lt_or_ge j' ((chunks l ((List.range S.xor.cnt).map fun r => N.info2 (S.xor.order r))).map
        fun gs => PackedGate.xor (.ofGates gs)).length with hjx | hjx
      · rw [List.getElem?_append_left hjx, List.getElem?_map] at hgate
        obtain ⟨c, hc, rfl⟩ := Option.map_eq_some_iff.1 hgate
        rcases chunks_tail_at l hl _ j' c hc with h1 | ⟨h0, h1⟩
        · left
          change (c.map _).length = l
          rw [List.length_map, h1]
        · right
          rw [List.length_map, List.length_range] at h0 h1
          refine ⟨?_, ?_⟩
          · unfold SortCert.xorTail
            omega
          · change (c.map _).length = _
            rw [h1, List.length_map, List.length_drop, List.length_map, List.length_range]
      · rw [List.getElem?_append_right hjx, List.getElem?_map] at hgate
        obtain ⟨c, hc, rfl⟩ := Option.map_eq_some_iff.1 hgate
        rcases chunks_tail_at l hl _ _ c hc with h1 | ⟨-, h1⟩
        · left
          change (c.map _).length = l
          rw [List.length_map, h1]
        · exfalso
          change w ∈ c.map _ at hwb
          rw [h1, List.length_map, List.length_range, drop_range_tab, List.map_map] at hwb
          obtain ⟨r, hr, e⟩ := List.mem_map.1 hwb
          have hr := List.mem_range'_1.1 hr
          exact key S.inv h.inv (by omega) (by omega) r (by omega) e.symm

/-- The index of input `k` of the last XOR block. -/
theorem SortCert.Ok.xorInp {l : Nat} {p : PackedCircuit} (hp : N.circuit.pack l = some p) {k : Nat} (hk : k < 2)
    (hlt : fullPart S.xor.cnt l < S.xor.cnt) :
    (p.gates.flatMap PackedGate.inps)[2 * ((S.and.cnt + l - 1) / l + S.xor.cnt / l) + k]? = some (S.tailWires N l 0 k) := by
  obtain ⟨hl0, hg, -⟩ := pack_some hp
  have hl : 0 < l := by omega
  obtain ⟨s0, s1, -⟩ := h.sorted
  change p.gates = (chunks l (sortGates (andGates N.gates))).map _ ++ (chunks l (sortGates (xorGates N.gates))).map _
    ++ (chunks l (sortGates (invGates N.gates))).map _ at hg
  rw [s0, s1] at hg
  have hlast := chunks_last l hl ((List.range S.xor.cnt).map fun r => N.info2 (S.xor.order r)) (by
    rw [List.length_map, List.length_range]
    exact hlt)
  rw [List.length_map, List.length_range, drop_range_tab] at hlast
  have two : ∀ (gs : List PackedGate) (j : Nat) (gate : PackedGate), (∀ x ∈ gs, x.inps.length = 2) → gs[j]? = some gate →
      (gs.flatMap PackedGate.inps)[2 * j + k]? = gate.inps[k]? := by
    intro gs
    induction gs with
    | nil => intro j gate _ h; cases h
    | cons x gs ih =>
      intro j gate h2 hj
      have hx := h2 x List.mem_cons_self
      rw [List.flatMap_cons]
      cases j with
      | zero =>
        cases hj
        rw [List.getElem?_append_left (by omega), Nat.mul_zero, Nat.zero_add]
      | succ j =>
        rw [List.getElem?_append_right (by omega), hx, show 2 * (j + 1) + k - 2 = 2 * j + k by omega]
        exact ih j gate (fun y hy => h2 y (List.mem_cons_of_mem _ hy)) hj
  rw [hg, List.flatMap_append]
  have hand : ∀ x ∈ (chunks l ((List.range S.and.cnt).map fun r => N.info2 (S.and.order r))).map
      (fun gs => PackedGate.and (.ofGates gs)) ++ (chunks l ((List.range S.xor.cnt).map fun r => N.info2 (S.xor.order r))).map
      (fun gs => PackedGate.xor (.ofGates gs)), x.inps.length = 2 := by
    intro x hx
    rcases List.mem_append.1 hx with hx | hx <;>
    · obtain ⟨gs, _, rfl⟩ := List.mem_map.1 hx
      simp [PackedGate.inps]
  have hal : ((chunks l ((List.range S.and.cnt).map fun r => N.info2 (S.and.order r))).map
      fun gs => PackedGate.and (.ofGates gs)).length = (S.and.cnt + l - 1) / l := by
    rw [List.length_map, chunks_length _ _ hl0, List.length_map, List.length_range]
  have e := two _ ((S.and.cnt + l - 1) / l + S.xor.cnt / l) _ hand (by
    rw [List.getElem?_append_right (by rw [hal]; exact Nat.le_add_right _ _), hal, Nat.add_sub_cancel_left, List.getElem?_map, hlast]; rfl)
  have hv : ((PackedGate.xor (.ofGates ((List.range' (S.xor.cnt / l * l) (S.xor.cnt - S.xor.cnt / l * l)).map
      fun r => N.info2 (S.xor.order r)))).inps)[k]? = some (S.tailWires N l 0 k) := by
    have hk' : k = 0 ∨ k = 1 := by omega
    unfold SortCert.tailWires
    rcases hk' with rfl | rfl <;>
      simp only [PackedGate.inps, PackedGateInfo.ofGates, Vector.getElem?_toList, Vector.getElem?_ofFn] <;>
      simp only [Nat.lt_add_one, Nat.zero_lt_two, dif_pos, List.map_map] <;> rfl
  rw [hv] at e
  obtain ⟨hlt', -⟩ := List.getElem?_eq_some_iff.1 e
  rw [List.getElem?_append_left hlt']
  exact e

/-- The wires which the last XOR block reads are in full blocks or in the block itself. -/
theorem SortCert.Ok.selfLeak {rank : Nat → Nat} (hck : N.Checked rank) {l : Nat} {p : PackedCircuit} (hp : N.circuit.pack l = some p) {k : Nat}
    (hc : S.selfLeakOk N l k = true) : ∀ w ∈ S.tailWires N l 0 k, ∀ b bs, p.blocks[b]? = some bs → w ∈ bs →
      bs.length = l ∨ b = S.xorTail N l ∧ bs.length = (S.tailWires N l 0 k).length := by
  intro w hw b bs hb hm
  have hlen : (S.tailWires N l 0 k).length = S.xor.cnt - S.xor.cnt / l * l := by
    unfold SortCert.tailWires
    rw [List.length_map, List.length_range']
    rfl
  obtain ⟨r, hr, rfl⟩ := List.mem_map.1 hw
  have hr := List.mem_range'_1.1 hr
  have := allFrom_iff hc r hr.1 hr.2
  by_cases hf : S.wireFull N l (N.wireAt (S.xor.order r) k) = true
  · exact Or.inl (h.notFull hck hp hf bs (List.mem_of_getElem? hb) hm)
  · rw [Bool.not_eq_true] at hf
    rw [hf, bsel_false] at this
    obtain ⟨h1, h2⟩ := bsel_and.1 this
    rw [hlen]
    exact h.inXorTail hp (Nat.ble_eq.mp h1) (Nat.beq_eq.mp h2) hb hm

end

end Verif
