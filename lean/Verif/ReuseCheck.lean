import Verif.ReuseSpec
import Verif.NetSortLemmas
import Verif.LpnLemmas

/-!
# The strings which the gates of a shipped circuit hash
-/

namespace Verif

/-! ## Blocks in terms of a certificate -/

/-- The wire which block `j` reads in slot `s` as input `k`; there are `nA` blocks of AND gates, followed by blocks of XOR gates. -/
noncomputable def SortCert.blockRead (N : Net) (S : SortCert) (l nA j k s : Nat) : Nat :=
  bsel (Nat.blt j nA) (N.wireAt (S.and.order (Nat.add (Nat.mul j l) s)) k) (N.wireAt (S.xor.order (Nat.add (Nat.mul (Nat.sub j nA) l) s)) k)

/-- How often the first `m` blocks read wire `w` in slot `s`. -/
noncomputable def SortCert.readsBy (N : Net) (S : SortCert) (l nA s w m : Nat) : Nat :=
  Nat.rec 0 (fun j acc => Nat.add acc (Nat.add (bsel (Nat.beq (S.blockRead N l nA j 0 s) w) 1 0) (bsel (Nat.beq (S.blockRead N l nA j 1 s) w) 1 0))) m

/-- The check for a claim (block, input, slot, wire and number of reads up to this block). -/
noncomputable def SortCert.claimOk (N : Net) (S : SortCert) (l nA : Nat) : Nat × Nat × Nat × Nat × Nat → Bool
  | (g, k, s, w, n) => bsel (Nat.beq (S.blockRead N l nA g k s) w) (Nat.beq (S.readsBy N l nA s w (Nat.succ g)) n) false

theorem chunks_getElem? {α : Type} {k : Nat} (hk : 0 < k) (xs : List α) {j : Nat} (hj : j * k < xs.length) :
    (chunks k xs)[j]? = some ((xs.drop (j * k)).take k) := by
  induction j generalizing xs with
  | zero =>
    rw [chunks_eq k xs (by omega), if_neg (by intro e; rw [e] at hj; simp at hj)]
    simp
  | succ j ih =>
    have hs : (j + 1) * k = j * k + k := by ring
    rw [chunks_eq k xs (by omega), if_neg (by intro e; rw [e] at hj; simp at hj), List.getElem?_cons_succ,
      ih (xs.drop k) (by rw [List.length_drop]; omega), List.drop_drop, hs, Nat.add_comm k]

theorem take_drop_range {α : Type} (f : Nat → α) {c i k : Nat} (h : i + k ≤ c) :
    (((List.range c).map f).drop i).take k = (List.range k).map fun s => f (i + s) := by
  apply List.ext_getElem
  · simp; omega
  · intro n h1 h2
    simp

section
variable {N : Net} {S : SortCert} (h : S.Ok N)
include h

/-- The block `j` of a packed circuit, if it is a full block of AND or XOR gates. -/
theorem SortCert.Ok.blockAt {l : Nat} {p : PackedCircuit} (hp : N.circuit.pack l = some p) {nA : Nat} (hA : nA * l = S.and.cnt) {j : Nat}
    (hj : j < nA ∨ (j - nA + 1) * l ≤ S.xor.cnt) :
    p.gates[j]? = some (if j < nA then .and (.ofGates ((List.range l).map fun s => N.info2 (S.and.order (j * l + s))))
      else .xor (.ofGates ((List.range l).map fun s => N.info2 (S.xor.order ((j - nA) * l + s))))) := by
  obtain ⟨hl, hg, -⟩ := pack_some hp
  have hl : 0 < l := by omega
  obtain ⟨s0, s1, -⟩ := h.sorted
  change p.gates = (chunks l (sortGates (andGates N.gates))).map _ ++ (chunks l (sortGates (xorGates N.gates))).map _
    ++ (chunks l (sortGates (invGates N.gates))).map _ at hg
  rw [s0, s1, List.append_assoc] at hg
  have hlen : (chunks l ((List.range S.and.cnt).map fun r => N.info2 (S.and.order r))).length = nA := by
    rw [chunks_length _ _ (by omega), List.length_map, List.length_range, ← hA, Nat.mul_comm, Nat.add_sub_assoc hl,
      Nat.mul_add_div hl, Nat.div_eq_of_lt (by omega), Nat.add_zero]
  rw [hg]
  by_cases hlt : j < nA
  · have hb : (j + 1) * l ≤ S.and.cnt := by rw [← hA]; exact Nat.mul_le_mul_right l hlt
    have hs : (j + 1) * l = j * l + l := by ring
    rw [if_pos hlt, List.getElem?_append_left (by rw [List.length_map, hlen]; exact hlt), List.getElem?_map,
      chunks_getElem? hl _ (by rw [List.length_map, List.length_range]; omega), take_drop_range _ (by omega)]
    rfl
  · have hb := hj.resolve_left hlt
    have hs : (j - nA + 1) * l = (j - nA) * l + l := by ring
    rw [if_neg hlt, List.getElem?_append_right (by rw [List.length_map, hlen]; omega), List.length_map, hlen, List.getElem?_append_left,
      List.getElem?_map, chunks_getElem? hl _ (by rw [List.length_map, List.length_range]; omega), take_drop_range _ (by omega)]
    · rfl
    · rw [List.length_map]
      have := chunks_getElem? hl ((List.range S.xor.cnt).map fun r => N.info2 (S.xor.order r)) (j := j - nA)
        (by rw [List.length_map, List.length_range]; omega)
      exact (List.getElem?_eq_some_iff.1 this).1

/-- The wires which a block reads. -/
theorem SortCert.Ok.blockInp {l : Nat} {p : PackedCircuit} (hp : N.circuit.pack l = some p) {nA : Nat} (hA : nA * l = S.and.cnt) {j : Nat}
    (hj : j < nA ∨ (j - nA + 1) * l ≤ S.xor.cnt) : ∃ gate, p.gates[j]? = some gate ∧
      gate.inps = [(List.range l).map (S.blockRead N l nA j 0), (List.range l).map (S.blockRead N l nA j 1)] := by
  refine ⟨_, h.blockAt hp hA hj, ?_⟩
  unfold SortCert.blockRead
  by_cases hlt : j < nA
  · rw [if_pos hlt]
    simp only [blt_of_lt hlt, bsel_true]
    simp only [PackedGate.inps, PackedGateInfo.ofGates, List.map_map]
    rfl
  · rw [if_neg hlt]
    have : Nat.blt j nA = false := by
      rw [← Bool.not_eq_true, Nat.blt_eq]
      exact hlt
    simp only [this, bsel_false]
    simp only [PackedGate.inps, PackedGateInfo.ofGates, List.map_map]
    rfl

/-- The wire which a block reads in a slot. -/
theorem SortCert.Ok.inpWires_block {l : Nat} {p : PackedCircuit} (hp : N.circuit.pack l = some p) {nA : Nat} (hA : nA * l = S.and.cnt) {j : Nat}
    (hj : j < nA ∨ (j - nA + 1) * l ≤ S.xor.cnt) {k s : Nat} (hk : k < 2) (hs : s < l) :
    (p.inpWires j k)[s]? = some (S.blockRead N l nA j k s) := by
  obtain ⟨gate, h1, h2⟩ := h.blockInp hp hA hj
  unfold PackedCircuit.inpWires
  rw [h1, Option.map_some, Option.getD_some, h2]
  have : k = 0 ∨ k = 1 := by omega
  rcases this with rfl | rfl <;> simp [hs]

/-- The number of reads. -/
theorem SortCert.Ok.reads {l : Nat} {p : PackedCircuit} (hp : N.circuit.pack l = some p) {nA : Nat} (hA : nA * l = S.and.cnt) {m : Nat}
    (hm : m ≤ nA ∨ (m - nA) * l ≤ S.xor.cnt) {s w : Nat} (hs : s < l) :
    ((p.gates.take m).flatMap PackedGate.inps).countP (fun ws => ws[s]? = some w) = S.readsBy N l nA s w m := by
  induction m with
  | zero => rfl
  | succ m ih =>
    have hj : m < nA ∨ (m - nA + 1) * l ≤ S.xor.cnt := by
      rcases Nat.lt_or_ge m nA with h1 | h1
      · exact Or.inl h1
      · rcases hm with h2 | h2
        · omega
        · right
          rwa [show m - nA + 1 = m + 1 - nA by omega]
    have hm' : m ≤ nA ∨ (m - nA) * l ≤ S.xor.cnt := by
      rcases hj with h1 | h1
      · exact Or.inl h1.le
      · right
        exact le_trans (Nat.mul_le_mul_right l (by omega)) h1
    obtain ⟨gate, h1, h2⟩ := h.blockInp hp hA hj
    rw [List.take_add_one, h1, List.flatMap_append, List.countP_append, ih hm']
    show _ = S.readsBy N l nA s w m + ((bsel (Nat.beq (S.blockRead N l nA m 0 s) w) 1 0) + (bsel (Nat.beq (S.blockRead N l nA m 1 s) w) 1 0))
    congr 1
    simp only [Option.toList_some, List.flatMap_cons, List.flatMap_nil, List.append_nil, h2, List.countP_cons, List.countP_nil, Nat.zero_add]
    rw [Nat.add_comm]
    congr 1 <;>
    · rw [List.getElem?_map, List.getElem?_range hs, Option.map_some]
      cases hb : Nat.beq _ w
      · rw [← Bool.not_eq_true, Nat.beq_eq] at hb
        simp [hb]
      · rw [Nat.beq_eq] at hb
        simp [hb]

/-- The number in the string of a gate, from a claim which has been checked. -/
theorem SortCert.Ok.word {l : Nat} {p : PackedCircuit} (hp : N.circuit.pack l = some p) {nA : Nat} (hA : nA * l = S.and.cnt) {g k s w n : Nat}
    (hj : g < nA ∨ (g - nA + 1) * l ≤ S.xor.cnt) (hk : k < 2) (hs : s < l) (hc : S.claimOk N l nA (g, k, s, w, n) = true) :
    (p.inpWires g k)[s]? = some w ∧ p.nonceWord g k s = n - 1 := by
  obtain ⟨h1, h2⟩ := bsel_and.1 hc
  rw [Nat.beq_eq] at h1 h2
  have e := h.inpWires_block hp hA hj hk hs
  rw [h1] at e
  refine ⟨e, ?_⟩
  unfold PackedCircuit.nonceWord
  rw [e]
  show p.readsUpTo s w g - 1 = _
  unfold PackedCircuit.readsUpTo
  rw [h.reads hp hA (m := g + 1) (by
    rcases hj with h3 | h3
    · exact Or.inl h3
    · rcases Nat.lt_or_ge g nA with h4 | h4
      · exact Or.inl h4
      · right
        rwa [show g + 1 - nA = g - nA + 1 by omega]) hs]
  rw [h2]

end

/-- Strings with the same numbers are the same. -/
theorem nonceString_congr {p : PackedCircuit} {l g g' : Nat} (h : ∀ k < 2, ∀ s < l, p.nonceWord g k s = p.nonceWord g' k s) :
    p.nonceString l g = p.nonceString l g' := by
  unfold PackedCircuit.nonceString
  congr 1 <;> refine List.flatMap_congr fun s hs => ?_
  · rw [h 0 (by omega) s (List.mem_range.1 hs)]
  · rw [h 1 (by omega) s (List.mem_range.1 hs)]

theorem Net.and_mem {N : Net} {q : Nat} (hq : q < N.numGates) (h : N.cls q = 1) : Gate.and (N.info2 q) ∈ N.circuit.gates := by
  refine List.mem_map.2 ⟨q, List.mem_range.2 hq, ?_⟩
  rcases N.cls_cases q with h' | h' | h'
  · rw [h'.1] at h; exact absurd h (by norm_num)
  · exact h'.2
  · rw [h'.1] at h; exact absurd h (by norm_num)

theorem Net.xor_mem {N : Net} {q : Nat} (hq : q < N.numGates) (h : N.cls q = 0) : Gate.xor (N.info2 q) ∈ N.circuit.gates := by
  refine List.mem_map.2 ⟨q, List.mem_range.2 hq, ?_⟩
  rcases N.cls_cases q with h' | h' | h'
  · exact h'.2
  · rw [h'.1] at h; exact absurd h (by norm_num)
  · rw [h'.1] at h; exact absurd h (by norm_num)

end Verif
