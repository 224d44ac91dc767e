import Verif.NetSort
import Verif.CutLemmas
import Verif.SortLemmas
import Verif.EstimatesLemmas
import Verif.PrivacyGarbleSpec

/-!
# What a certificate for the order of the gates shows
-/

namespace Verif

open Props

theorem bsel_and {a b : Bool} : bsel a b false = true ↔ a = true ∧ b = true := by cases a <;> simp

theorem bsel_not {a : Bool} : bsel a false true = true ↔ a = false := by cases a <;> simp

/-- The gates of a class. -/
noncomputable def Net.idx (N : Net) (κ : Nat) : List Nat := (List.range N.numGates).filter fun q => N.cls q = κ

theorem Net.mem_idx {N : Net} {κ q : Nat} : q ∈ N.idx κ ↔ q < N.numGates ∧ N.cls q = κ := by
  unfold Net.idx
  rw [List.mem_filter, List.mem_range, decide_eq_true_eq]

theorem Net.idx_sorted (N : Net) (κ : Nat) : (N.idx κ).Pairwise (· < ·) := List.pairwise_lt_range.filter _

theorem KindCert.has_iff {N : Net} {C : KindCert} {q : Nat} : C.has N q = true ↔ q ∈ N.idx C.cls := by
  unfold KindCert.has
  rw [bsel_and, Net.mem_idx, Nat.blt_eq, Nat.beq_eq]

theorem KindCert.other_iff {N : Net} {C : KindCert} {w j : Nat} : C.other N w j = true ↔ N.readAt (C.reads j) ≠ w := by
  unfold KindCert.other
  rw [bsel_not, ← Bool.not_eq_true, Nat.beq_eq]

/-- The checks of a class. -/
structure KindCert.Ok (N : Net) (pos : Nat → Nat) (C : KindCert) : Prop where
  cnt : C.cnt = (N.idx C.cls).length
  reads : ∀ j < C.K * C.cnt, C.readOk N j = true
  order : ∀ r < C.cnt, C.orderOk N pos r = true
  arity : C.K = 1 ∨ C.K = 2
  gates : N.numGates < 2 ^ 19

section
variable {N : Net} {pos : Nat → Nat} {C : KindCert} (h : C.Ok N pos)
include h

theorem KindCert.Ok.fanCert : FanCert (N.idx C.cls) C.K N.wireAt C.reads C.fan := by
  have hc := h.cnt
  have hT : C.total = C.K * (N.idx C.cls).length := by rw [← hc]; rfl
  refine ⟨fun j hj => ?_, fun q hq => (Net.mem_idx.1 hq).1.trans h.gates, fun j hj => ?_, fun j hj w hw hs => ?_⟩
  · have h1 := h.reads j (by rw [hc]; exact hj)
    unfold KindCert.readOk at h1
    obtain ⟨h1, h2⟩ := bsel_and.1 h1
    exact ⟨KindCert.has_iff.1 h1, Nat.blt_eq.mp (bsel_and.1 h2).1⟩
  · have h1 := h.reads j (by rw [hc]; omega)
    unfold KindCert.readOk at h1
    have h2 := (bsel_and.1 (bsel_and.1 (bsel_and.1 h1).2).2).1
    unfold KindCert.nextOk at h2
    rw [blt_of_lt (by rw [hT]; exact hj), bsel_true, Nat.blt_eq] at h2
    exact h2
  · have h1 := h.reads j (by rw [hc]; exact hj)
    unfold KindCert.readOk at h1
    have h2 := (bsel_and.1 (bsel_and.1 (bsel_and.1 h1).2).2).2
    rw [show N.readAt (C.reads j) = w from hw] at h2
    unfold KindCert.runOk at h2
    have hst : bsel (Nat.beq j 0) true (C.other N w (Nat.sub j 1)) = true := by
      rcases hs with rfl | hs
      · rfl
      · have : C.other N w (Nat.sub j 1) = true := KindCert.other_iff.2 hs
        rw [this]
        cases Nat.beq j 0 <;> rfl
    rw [hst, bsel_true] at h2
    obtain ⟨h3, h2⟩ := bsel_and.1 h2
    obtain ⟨h4, h2⟩ := bsel_and.1 h2
    rw [Nat.blt_eq] at h3
    rw [Nat.ble_eq, hT] at h4
    have h5 : C.other N w (Nat.sub (Nat.add j (C.fan w)) 1) = false := by
      by_contra hne
      rw [Bool.not_eq_false] at hne
      rw [hne] at h2
      cases h2
    rw [h5, bsel_false] at h2
    refine ⟨h3, h4, ?_, ?_⟩
    · by_contra hne
      rw [show C.other N w (Nat.sub (Nat.add j (C.fan w)) 1) = true from KindCert.other_iff.2 hne] at h5
      cases h5
    · rw [hT] at h2
      rcases Nat.decEq (j + C.fan w) (C.K * (N.idx C.cls).length) with h6 | h6
      · rw [show Nat.beq (Nat.add j (C.fan w)) (C.K * (N.idx C.cls).length) = false from beq_of_ne h6, bsel_false] at h2
        exact Or.inr (KindCert.other_iff.1 h2)
      · exact Or.inl h6

theorem KindCert.Ok.key_eq (q : Nat) : C.key N q = wireKey C.fan ((List.range C.K).map (N.wireAt q)) := by
  unfold KindCert.key wireKey
  have he : ∀ w, C.enc w = C.fan w * 2 ^ 20 + w := fun _ => rfl
  rcases h.arity with hK | hK
  · rw [hK]
    simp [he]
  · rw [hK, beq_of_ne (by norm_num), bsel_false]
    simp only [he, List.range_succ, List.range_zero, List.nil_append, List.map_append, List.map_cons, List.map_nil, List.foldl_append,
      List.foldl_cons, List.foldl_nil, Nat.zero_max]
    by_cases hlt : C.fan (N.wireAt q 0) * 2 ^ 20 + N.wireAt q 0 < C.fan (N.wireAt q 1) * 2 ^ 20 + N.wireAt q 1
    · rw [blt_of_lt hlt, bsel_true]
      omega
    · rw [blt_of_not hlt, bsel_false]
      omega

theorem KindCert.Ok.has_order {r : Nat} (hr : r < C.cnt) : C.order r ∈ N.idx C.cls := by
  have h1 := h.order r hr
  unfold KindCert.orderOk at h1
  exact KindCert.has_iff.1 (bsel_and.1 h1).1

theorem KindCert.Ok.pos_order {r : Nat} (hr : r < C.cnt) : pos (codeO (N.slot (C.order r))) = 4 * r + C.cls := by
  have h1 := h.order r hr
  unfold KindCert.orderOk at h1
  exact Nat.beq_eq.mp (bsel_and.1 (bsel_and.1 h1).2).1

theorem KindCert.Ok.orderCert : OrderCert (N.idx C.cls) C.K N.wireAt C.fan C.order := by
  have hc := h.cnt
  refine ⟨fun r hr => h.has_order (by omega), fun r hr => ?_, fun q _ k _ => ?_⟩
  · have h1 := h.order r (by omega)
    unfold KindCert.orderOk at h1
    have h2 := (bsel_and.1 (bsel_and.1 h1).2).2
    rw [blt_of_lt (show r + 1 < C.cnt by omega), bsel_true, Nat.blt_eq] at h2
    rw [← h.key_eq, ← h.key_eq]
    exact h2
  · unfold Net.wireAt codeA codeB
    have h1 : Nat.mod (Nat.shiftRight (N.slot q) 2) 262144 < 262144 := Nat.mod_lt _ (by norm_num)
    have h2 : Nat.mod (Nat.shiftRight (N.slot q) 20) 262144 < 262144 := Nat.mod_lt _ (by norm_num)
    cases Nat.beq k 0
    · rw [bsel_false]; omega
    · rw [bsel_true]; omega

end

/-! ## The gates of the net by class -/

/-- A gate with two inputs. -/
noncomputable def Net.info2 (N : Net) (q : Nat) : GateInfo 2 := ⟨#v[N.wireAt q 0, N.wireAt q 1], codeO (N.slot q)⟩

/-- A gate with one input. -/
noncomputable def Net.info1 (N : Net) (q : Nat) : GateInfo 1 := ⟨#v[N.wireAt q 0], codeO (N.slot q)⟩

theorem Net.cls_cases (N : Net) (q : Nat) : (N.cls q = 0 ∧ decodeGate (N.slot q) = .xor (N.info2 q)) ∨
    (N.cls q = 1 ∧ decodeGate (N.slot q) = .and (N.info2 q)) ∨ (N.cls q = 2 ∧ decodeGate (N.slot q) = .inv (N.info1 q)) := by
  unfold Net.cls decodeGate mkCode Net.info2 Net.info1 Net.wireAt
  generalize codeKind (N.slot q) = k
  by_cases h0 : k = 0
  · left
    rw [h0]
    exact ⟨rfl, rfl⟩
  · by_cases h1 : k = 1
    · right; left
      rw [h1]
      exact ⟨rfl, rfl⟩
    · right; right
      rw [blt_of_not (by omega), if_neg h0, if_neg h1]
      exact ⟨rfl, rfl⟩

theorem Net.gates_class (N : Net) : xorGates N.gates = (N.idx 0).map N.info2 ∧ andGates N.gates = (N.idx 1).map N.info2 ∧
    invGates N.gates = (N.idx 2).map N.info1 := by
  unfold Net.gates Net.idx
  induction List.range N.numGates with
  | nil => exact ⟨rfl, rfl, rfl⟩
  | cons q l ih =>
    unfold xorGates andGates invGates at *
    simp only [List.map_cons, List.filterMap_cons, List.filter_cons]
    rcases N.cls_cases q with ⟨h1, h2⟩ | ⟨h1, h2⟩ | ⟨h1, h2⟩ <;> rw [h1, h2] <;> simp [ih]

/-- The checks of a certificate. -/
structure SortCert.Ok (N : Net) (S : SortCert) : Prop where
  xor : S.xor.Ok N S.pos
  and : S.and.Ok N S.pos
  inv : S.inv.Ok N S.pos
  cls : S.xor.cls = 0 ∧ S.and.cls = 1 ∧ S.inv.cls = 2
  arity : S.xor.K = 2 ∧ S.and.K = 2 ∧ S.inv.K = 1

/-- The wires which the last block of class `κ` reads as input `k`. -/
noncomputable def SortCert.tailWires (N : Net) (S : SortCert) (l κ k : Nat) : List Nat :=
  (List.range' (fullPart (S.kind κ).cnt l) ((S.kind κ).cnt - fullPart (S.kind κ).cnt l)).map fun r => N.wireAt ((S.kind κ).order r) k

/-- The last block of a class. -/
theorem drop_range_tab {α : Type} (f : Nat → α) (c m : Nat) : ((List.range c).map f).drop m = (List.range' m (c - m)).map f := by
  rw [← List.map_drop, List.range_eq_range', List.drop_range', Nat.mul_one, Nat.zero_add]

theorem ofGates_inps2 (gs : List (GateInfo 2)) (k : Nat) (hk : k < 2) :
    gs.map (fun g => g.inp[k]) ∈ (PackedGateInfo.ofGates gs).inp.toList := by
  unfold PackedGateInfo.ofGates
  rw [Vector.mem_toList_iff, Vector.mem_ofFn]
  exact ⟨⟨k, hk⟩, rfl⟩

theorem mem_ofGates {K : Nat} (gs : List (GateInfo K)) (ws : List Nat) (h : ws ∈ (PackedGateInfo.ofGates gs).inp.toList) :
    ∃ k, ∃ hk : k < K, ws = gs.map fun g => g.inp[k] := by
  unfold PackedGateInfo.ofGates at h
  rw [Vector.mem_toList_iff, Vector.mem_ofFn] at h
  obtain ⟨k, hk⟩ := h
  exact ⟨k.1, k.2, hk.symm⟩

theorem Net.info2_inp (N : Net) (q k : Nat) (hk : k < 2) : (N.info2 q).inp[k] = N.wireAt q k := by
  have : k = 0 ∨ k = 1 := by omega
  rcases this with rfl | rfl <;> rfl

theorem Net.info1_inp (N : Net) (q k : Nat) (hk : k < 1) : (N.info1 q).inp[k] = N.wireAt q k := by
  obtain rfl : k = 0 := by omega
  rfl

section
variable {N : Net} {S : SortCert} (h : S.Ok N)
include h

theorem SortCert.Ok.sorted :
    sortGates (xorGates N.gates) = (List.range S.xor.cnt).map (fun r => N.info2 (S.xor.order r)) ∧
    sortGates (andGates N.gates) = (List.range S.and.cnt).map (fun r => N.info2 (S.and.order r)) ∧
    sortGates (invGates N.gates) = (List.range S.inv.cnt).map (fun r => N.info1 (S.inv.order r)) := by
  obtain ⟨e0, e1, e2⟩ := N.gates_class
  obtain ⟨c0, c1, c2⟩ := h.cls
  obtain ⟨a0, a1, a2⟩ := h.arity
  have f0 := h.xor.fanCert
  have o0 := h.xor.orderCert
  have f1 := h.and.fanCert
  have o1 := h.and.orderCert
  have f2 := h.inv.fanCert
  have o2 := h.inv.orderCert
  have n0 := h.xor.cnt
  have n1 := h.and.cnt
  have n2 := h.inv.cnt
  rw [c0] at n0
  rw [c1] at n1
  rw [c2] at n2
  rw [c0, a0] at f0 o0
  rw [c1, a1] at f1 o1
  rw [c2, a2] at f2 o2
  have i2 : ∀ q, (N.info2 q).inp.toList = (List.range 2).map (N.wireAt q) := fun q => by
    simp [Net.info2, List.range_succ]
  have i1 : ∀ q, (N.info1 q).inp.toList = (List.range 1).map (N.wireAt q) := fun q => by
    simp [Net.info1]
  rw [e0, e1, e2, n0, n1, n2]
  exact ⟨OrderCert.sortGates f0 o0 le_rfl (N.idx_sorted 0) fun q _ => i2 q,
    OrderCert.sortGates f1 o1 le_rfl (N.idx_sorted 1) fun q _ => i2 q,
    OrderCert.sortGates f2 o2 (by norm_num) (N.idx_sorted 2) fun q _ => i1 q⟩


/-- The wires of the blocks which are not full. -/
theorem SortCert.Ok.notFull {rank : Nat → Nat} (hck : N.Checked rank) {l : Nat} {p : PackedCircuit} (hp : N.circuit.pack l = some p) {w : Nat}
    (hw : S.wireFull N l w = true) (bs : List Nat) (hbs : bs ∈ p.blocks) (hwb : w ∈ bs) : bs.length = l := by
  obtain ⟨hl, hg, hin, -⟩ := pack_some hp
  have hl : 0 < l := by omega
  obtain ⟨s0, s1, s2⟩ := h.sorted
  obtain ⟨c0, c1, c2⟩ := h.cls
  change p.gates = (chunks l (sortGates (andGates N.gates))).map _ ++ (chunks l (sortGates (xorGates N.gates))).map _
    ++ (chunks l (sortGates (invGates N.gates))).map _ at hg
  rw [s0, s1, s2] at hg
  have hins : N.circuit.inputs.flatten = List.range (N.n1 + N.n2) := by
    simp only [Net.circuit, List.flatten_cons, List.flatten_nil, List.append_nil]
    rw [List.range_eq_range']
    simpa using List.range'_append (s := 0) (m := N.n1) (n := N.n2) (step := 1)
  rw [hins] at hin
  -- a gate in the last block
  have key : ∀ (C : KindCert), C.Ok N S.pos → S.kind C.cls = C → C.cls < 4 → ∀ r, fullPart C.cnt l ≤ r → r < C.cnt →
      w = codeO (N.slot (C.order r)) → False := by
    intro C hC hS h4 r h1 h2 hwr
    have hpos := hC.pos_order h2
    rw [← hwr] at hpos
    obtain ⟨-, hge, -⟩ := gateOk_iff (hck.gate _ (Net.mem_idx.1 (hC.has_order h2)).1)
    rw [← hwr] at hge
    unfold SortCert.wireFull at hw
    rw [blt_of_not (show ¬ w < Nat.add N.n1 N.n2 from Nat.not_lt.2 hge), bsel_false, hpos, Nat.blt_eq,
      show Nat.div (4 * r + C.cls) 4 = r by change (4 * r + C.cls) / 4 = r; omega,
      show Nat.mod (4 * r + C.cls) 4 = C.cls by change (4 * r + C.cls) % 4 = C.cls; omega, hS] at hw
    omega
  unfold PackedCircuit.blocks at hbs
  rcases List.mem_append.1 hbs with hbs | hbs
  · rw [hin] at hbs
    rcases chunks_tail l hl _ bs hbs with h1 | h1
    · exact h1
    · exfalso
      rw [h1, List.length_range, List.range_eq_range', List.drop_range', List.mem_range'_1] at hwb
      unfold SortCert.wireFull at hw
      rw [blt_of_lt (show w < Nat.add N.n1 N.n2 by change w < N.n1 + N.n2; omega), bsel_true, Nat.blt_eq] at hw
      change w < (N.n1 + N.n2) / l * l at hw
      omega
  · obtain ⟨gate, hgate, rfl⟩ := List.mem_map.1 hbs
    rw [hg] at hgate
    rcases List.mem_append.1 hgate with hgate | hgate
    · rcases List.mem_append.1 hgate with hgate | hgate
      · obtain ⟨c, hc, rfl⟩ := List.mem_map.1 hgate
        rcases chunks_tail l hl _ c hc with h1 | h1
        · change (c.map _).length = l
          rw [List.length_map, h1]
        · exfalso
          change w ∈ c.map _ at hwb
          rw [h1, List.length_map, List.length_range, drop_range_tab, List.map_map] at hwb
          obtain ⟨r, hr, e⟩ := List.mem_map.1 hwb
          have hr := List.mem_range'_1.1 hr
          refine key S.and h.and (by rw [c1]; rfl) (by rw [c1]; norm_num) r hr.1 (by omega) e.symm
      · obtain ⟨c, hc, rfl⟩ := List.mem_map.1 hgate
        rcases chunks_tail l hl _ c hc with h1 | h1
        · change (c.map _).length = l
          rw [List.length_map, h1]
        · exfalso
          change w ∈ c.map _ at hwb
          rw [h1, List.length_map, List.length_range, drop_range_tab, List.map_map] at hwb
          obtain ⟨r, hr, e⟩ := List.mem_map.1 hwb
          have hr := List.mem_range'_1.1 hr
          refine key S.xor h.xor (by rw [c0]; rfl) (by rw [c0]; norm_num) r hr.1 (by omega) e.symm
    · obtain ⟨c, hc, rfl⟩ := List.mem_map.1 hgate
      rcases chunks_tail l hl _ c hc with h1 | h1
      · change (c.map _).length = l
        rw [List.length_map, h1]
      · exfalso
        change w ∈ c.map _ at hwb
        rw [h1, List.length_map, List.length_range, drop_range_tab, List.map_map] at hwb
        obtain ⟨r, hr, e⟩ := List.mem_map.1 hwb
        have hr := List.mem_range'_1.1 hr
        refine key S.inv h.inv (by rw [c2]; rfl) (by rw [c2]; norm_num) r hr.1 (by omega) e.symm

/-- The inputs of the last block of a class with two inputs. -/
theorem SortCert.Ok.lastInp {l : Nat} {p : PackedCircuit} (hp : N.circuit.pack l = some p) {κ k : Nat} (hκ : κ < 2) (hk : k < 2)
    (hlt : fullPart (S.kind κ).cnt l < (S.kind κ).cnt) :
    S.tailWires N l κ k ∈ p.gates.flatMap PackedGate.inps := by
  unfold SortCert.tailWires
  obtain ⟨hl, hg, -⟩ := pack_some hp
  have hl : 0 < l := by omega
  obtain ⟨s0, s1, -⟩ := h.sorted
  change p.gates = (chunks l (sortGates (andGates N.gates))).map _ ++ (chunks l (sortGates (xorGates N.gates))).map _
    ++ (chunks l (sortGates (invGates N.gates))).map _ at hg
  rw [s0, s1] at hg
  have tail : ∀ (C : KindCert), fullPart C.cnt l < C.cnt → ∃ gs ∈ chunks l ((List.range C.cnt).map fun r => N.info2 (C.order r)),
      (List.range' (fullPart C.cnt l) (C.cnt - fullPart C.cnt l)).map (fun r => N.wireAt (C.order r) k) = gs.map fun g => g.inp[k] := by
    intro C hC
    have := chunks_last l hl ((List.range C.cnt).map fun r => N.info2 (C.order r)) (by
      rw [List.length_map, List.length_range]
      exact hC)
    refine ⟨_, List.mem_of_getElem? this, ?_⟩
    rw [List.length_map, List.length_range, drop_range_tab, List.map_map]
    apply List.map_congr_left
    intro r _
    exact (N.info2_inp _ k hk).symm
  rw [List.mem_flatMap]
  have : κ = 0 ∨ κ = 1 := by omega
  rcases this with rfl | rfl
  · obtain ⟨gs, h1, h2⟩ := tail S.xor hlt
    refine ⟨.xor (.ofGates gs), ?_, ?_⟩
    · rw [hg]
      exact List.mem_append_left _ (List.mem_append_right _ (List.mem_map.2 ⟨gs, h1, rfl⟩))
    · rw [show S.kind 0 = S.xor from rfl, h2]
      exact ofGates_inps2 gs k hk
  · obtain ⟨gs, h1, h2⟩ := tail S.and hlt
    refine ⟨.and (.ofGates gs), ?_, ?_⟩
    · rw [hg]
      exact List.mem_append_left _ (List.mem_append_left _ (List.mem_map.2 ⟨gs, h1, rfl⟩))
    · rw [show S.kind 1 = S.and from rfl, h2]
      exact ofGates_inps2 gs k hk

/-- The index of input `k` of the last AND block. -/
theorem SortCert.Ok.andInp {l : Nat} {p : PackedCircuit} (hp : N.circuit.pack l = some p) {k : Nat} (hk : k < 2)
    (hlt : fullPart S.and.cnt l < S.and.cnt) :
    (p.gates.flatMap PackedGate.inps)[2 * (S.and.cnt / l) + k]? = some (S.tailWires N l 1 k) := by
  obtain ⟨hl, hg, -⟩ := pack_some hp
  have hl : 0 < l := by omega
  obtain ⟨-, s1, -⟩ := h.sorted
  change p.gates = (chunks l (sortGates (andGates N.gates))).map _ ++ (chunks l (sortGates (xorGates N.gates))).map _
    ++ (chunks l (sortGates (invGates N.gates))).map _ at hg
  rw [s1, List.append_assoc] at hg
  have hlast := chunks_last l hl ((List.range S.and.cnt).map fun r => N.info2 (S.and.order r)) (by
    rw [List.length_map, List.length_range]
    exact hlt)
  rw [List.length_map, List.length_range, drop_range_tab] at hlast
  have two : ∀ (gs : List PackedGate) (j : Nat) (gate : PackedGate), (∀ x ∈ gs, x.inps.length = 2) → gs[j]? = some gate →
      (gs.flatMap PackedGate.inps)[2 * j + k]? = gate.inps[k]? := by
    intro gs
    induction gs with
    | nil => intro j gate _ h; cases h
    | cons x gs ih =>
      intro j gate h2 hj
      have hx := h2 x List.mem_cons_self
      rw [List.flatMap_cons]
      cases j with
      | zero =>
        cases hj
        rw [List.getElem?_append_left (by omega), Nat.mul_zero, Nat.zero_add]
      | succ j =>
        rw [List.getElem?_append_right (by omega), hx, show 2 * (j + 1) + k - 2 = 2 * j + k by omega]
        exact ih j gate (fun y hy => h2 y (List.mem_cons_of_mem _ hy)) hj
  rw [hg, List.flatMap_append]
  have hand : ∀ x ∈ (chunks l ((List.range S.and.cnt).map fun r => N.info2 (S.and.order r))).map
      (fun gs => PackedGate.and (.ofGates gs)), x.inps.length = 2 := by
    intro x hx
    obtain ⟨gs, _, rfl⟩ := List.mem_map.1 hx
    simp [PackedGate.inps]
  have e := two _ (S.and.cnt / l) _ hand (by rw [List.getElem?_map, hlast]; rfl)
  have hv : ((PackedGate.and (.ofGates ((List.range' (S.and.cnt / l * l) (S.and.cnt - S.and.cnt / l * l)).map
      fun r => N.info2 (S.and.order r)))).inps)[k]? = some (S.tailWires N l 1 k) := by
    have hk' : k = 0 ∨ k = 1 := by omega
    unfold SortCert.tailWires
    rcases hk' with rfl | rfl <;>
      simp only [PackedGate.inps, PackedGateInfo.ofGates, Vector.getElem?_toList, Vector.getElem?_ofFn] <;>
      simp only [Nat.lt_add_one, Nat.zero_lt_two, Nat.one_lt_two, dif_pos, List.map_map] <;> rfl
  rw [hv] at e
  obtain ⟨hlt', -⟩ := List.getElem?_eq_some_iff.1 e
  rw [List.getElem?_append_left hlt']
  exact e

/-- A gate input which is not full, has a wire twice, and all wires of which come from full blocks. -/
theorem SortCert.Ok.leak {rank : Nat → Nat} (hck : N.Checked rank) {l : Nat} {p : PackedCircuit} (hp : N.circuit.pack l = some p)
    {free κ k r1 r2 : Nat} (hκ : κ < 2) (hk : k < 2) (hc : S.leakOk N l free κ k r1 r2 = true) :
    S.tailWires N l κ k ∈ p.gates.flatMap PackedGate.inps ∧ (S.tailWires N l κ k).length + free ≤ l ∧ ¬ (S.tailWires N l κ k).Nodup ∧
      ∀ w ∈ S.tailWires N l κ k, ∀ bs ∈ p.blocks, w ∈ bs → bs.length = l := by
  unfold SortCert.leakOk at hc
  obtain ⟨h1, hc⟩ := bsel_and.1 hc
  obtain ⟨h2, hc⟩ := bsel_and.1 hc
  obtain ⟨h3, hc⟩ := bsel_and.1 hc
  obtain ⟨h4, hc⟩ := bsel_and.1 hc
  obtain ⟨h5, hc⟩ := bsel_and.1 hc
  rw [Nat.ble_eq] at h1 h2
  rw [Nat.blt_eq] at h3 h4
  rw [Nat.beq_eq] at h5
  have hmem := h.lastInp hp hκ hk (by omega)
  refine ⟨hmem, by simpa [SortCert.tailWires] using h1, fun hnd => ?_, fun w hw bs hbs hwb => ?_⟩
  · have := (List.nodup_map_iff_inj_on List.nodup_range').1 hnd r1 (List.mem_range'_1.2 (by omega)) r2 (List.mem_range'_1.2 (by omega)) h5
    omega
  · obtain ⟨r, hr, rfl⟩ := List.mem_map.1 hw
    have hr := List.mem_range'_1.1 hr
    exact h.notFull hck hp (allFrom_iff hc r hr.1 hr.2) bs hbs hwb

/-- The same, from a code. -/
theorem SortCert.Ok.leakCode {rank : Nat → Nat} (hck : N.Checked rank) {l : Nat} {p : PackedCircuit} (hp : N.circuit.pack l = some p)
    {free c : Nat} (hc : S.leakCode N l free c = true) :
    ∃ i : Nat, ∃ ws : List Nat, (p.gates.flatMap PackedGate.inps)[i]? = some ws ∧ ws.length + free ≤ l ∧ ¬ ws.Nodup ∧
      ∀ w ∈ ws, ∀ bs ∈ p.blocks, w ∈ bs → bs.length = l := by
  obtain ⟨h1, h2⟩ := h.leak hck hp (Nat.mod_lt _ (by norm_num)) (Nat.mod_lt _ (by norm_num)) hc
  obtain ⟨i, hi⟩ := List.mem_iff_getElem?.1 h1
  exact ⟨i, _, hi, h2⟩

omit h in
theorem SortCert.nodupOk_tail {l : Nat} (κ k : Nat) (hn : S.nodupOk N l κ k = true) :
    ((List.range' (fullPart (S.kind κ).cnt l) ((S.kind κ).cnt - fullPart (S.kind κ).cnt l)).map
      fun r => N.wireAt ((S.kind κ).order r) k).Nodup := by
  unfold SortCert.nodupOk at hn
  have : ∀ r r', fullPart (S.kind κ).cnt l ≤ r → r < r' → r' < (S.kind κ).cnt →
      N.wireAt ((S.kind κ).order r) k ≠ N.wireAt ((S.kind κ).order r') k := by
    intro r r' h1 h2 h3
    have := allFrom_iff (allFrom_iff hn r h1 (by
      change r < _ + (_ - _)
      omega)) r' h2 (by
      change r' < r + 1 + (_ - (r + 1))
      omega)
    rw [bsel_not, ← Bool.not_eq_true, Nat.beq_eq] at this
    exact this
  rw [List.nodup_map_iff_inj_on List.nodup_range']
  intro a ha b hb hab
  have ha := List.mem_range'_1.1 ha
  have hb := List.mem_range'_1.1 hb
  by_contra hne
  rcases Nat.lt_or_gt_of_ne hne with hlt | hlt
  · exact this a b ha.1 hlt (by omega) hab
  · exact this b a hb.1 hlt (by omega) hab.symm

/-- No gate input which is not full has a wire twice. -/
theorem SortCert.Ok.distinct {l : Nat} {p : PackedCircuit} (hp : N.circuit.pack l = some p) (hc : S.distinctOk N l = true) : p.Distinct l := by
  obtain ⟨hl, hg, -⟩ := pack_some hp
  have hl : 0 < l := by omega
  obtain ⟨s0, s1, s2⟩ := h.sorted
  change p.gates = (chunks l (sortGates (andGates N.gates))).map _ ++ (chunks l (sortGates (xorGates N.gates))).map _
    ++ (chunks l (sortGates (invGates N.gates))).map _ at hg
  rw [s0, s1, s2] at hg
  unfold SortCert.distinctOk at hc
  obtain ⟨n00, hc⟩ := bsel_and.1 hc
  obtain ⟨n01, hc⟩ := bsel_and.1 hc
  obtain ⟨n10, hc⟩ := bsel_and.1 hc
  obtain ⟨n11, n20⟩ := bsel_and.1 hc
  have nd := @SortCert.nodupOk_tail N S l
  intro gate hgate ws hws
  rw [hg] at hgate
  rcases List.mem_append.1 hgate with hgate | hgate
  · rcases List.mem_append.1 hgate with hgate | hgate
    · obtain ⟨c, hc, rfl⟩ := List.mem_map.1 hgate
      obtain ⟨k, hk, rfl⟩ := mem_ofGates c ws hws
      rcases chunks_tail l hl _ c hc with h1 | h1
      · right
        rw [List.length_map, h1]
      · left
        rw [h1, List.length_map, List.length_range, drop_range_tab, List.map_map]
        rw [List.map_congr_left (g := fun r => N.wireAt (S.and.order r) k) fun r _ => (show ((fun g => g.inp[k]) ∘ fun r => N.info2 (S.and.order r)) r = _ from N.info2_inp _ k hk)]
        have : k = 0 ∨ k = 1 := by omega
        rcases this with rfl | rfl
        · exact nd 1 0 n10
        · exact nd 1 1 n11
    · obtain ⟨c, hc, rfl⟩ := List.mem_map.1 hgate
      obtain ⟨k, hk, rfl⟩ := mem_ofGates c ws hws
      rcases chunks_tail l hl _ c hc with h1 | h1
      · right
        rw [List.length_map, h1]
      · left
        rw [h1, List.length_map, List.length_range, drop_range_tab, List.map_map]
        rw [List.map_congr_left (g := fun r => N.wireAt (S.xor.order r) k) fun r _ => (show ((fun g => g.inp[k]) ∘ fun r => N.info2 (S.xor.order r)) r = _ from N.info2_inp _ k hk)]
        have : k = 0 ∨ k = 1 := by omega
        rcases this with rfl | rfl
        · exact nd 0 0 n00
        · exact nd 0 1 n01
  · obtain ⟨c, hc, rfl⟩ := List.mem_map.1 hgate
    obtain ⟨k, hk, rfl⟩ := mem_ofGates c ws hws
    rcases chunks_tail l hl _ c hc with h1 | h1
    · right
      rw [List.length_map, h1]
    · left
      rw [h1, List.length_map, List.length_range, drop_range_tab, List.map_map]
      rw [List.map_congr_left (g := fun r => N.wireAt (S.inv.order r) k) fun r _ => (show ((fun g => g.inp[k]) ∘ fun r => N.info1 (S.inv.order r)) r = _ from N.info1_inp _ k hk)]
      obtain rfl : k = 0 := by omega
      exact nd 2 0 n20

end

end Verif
