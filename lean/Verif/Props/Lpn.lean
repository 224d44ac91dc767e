import Verif.PackLemmas
import Mathlib.LinearAlgebra.LinearIndependent.Basic
import Mathlib.Algebra.Field.ZMod

/-!
# Properties of the wire-to-block map and of the choice of LPN matrices: C54, C64, C65, C75
-/

namespace Verif.Props
open Verif

/-! ### C54: the wire-to-block map -/

/-- C54. If no wire is driven twice, the map sends a wire to block `b` exactly if block `b` carries it. -/
theorem C54_map (c : PackedCircuit) (h : c.blocks.flatten.Nodup) (w b : Nat) :
    wireToBlock c w = some b ↔ ∃ s, c.Drives b s w := by
  constructor
  · intro hw
    by_cases hm : w ∈ c.blocks.flatten
    · obtain ⟨ws, hws, hwm⟩ := List.mem_flatten.1 hm
      obtain ⟨i, hi, rfl⟩ := List.mem_iff_getElem.1 hws
      have := wireToBlock_some h (List.getElem?_eq_getElem hi) hwm
      rw [this, Option.some.injEq] at hw
      subst hw
      obtain ⟨s, hs, hse⟩ := List.mem_iff_getElem.1 hwm
      exact ⟨s, _, List.getElem?_eq_getElem hi, by rw [List.getElem?_eq_getElem hs, hse]⟩
    · rw [wireToBlock_none hm] at hw
      exact absurd hw (by simp)
  · rintro ⟨s, ws, h1, h2⟩
    exact wireToBlock_some h h1 (List.mem_of_getElem? h2)

/-- C54. Circuit inputs come first. -/
theorem C54_inputs (c : PackedCircuit) (h : c.blocks.flatten.Nodup) (b : Nat) (ws : List Nat)
    (hb : c.inputs[b]? = some ws) (w : Nat) (hw : w ∈ ws) : wireToBlock c w = some b := by
  obtain ⟨hlt, _⟩ := List.getElem?_eq_some_iff.1 hb
  refine wireToBlock_some h (b := ws) ?_ hw
  unfold PackedCircuit.blocks
  rw [List.getElem?_append_left hlt, hb]

/-- C54. The outputs of gate `g` are found at `g`, counted after the inputs. -/
theorem C54_gates (c : PackedCircuit) (h : c.blocks.flatten.Nodup) (g : Nat) (gate : PackedGate)
    (hg : c.gates[g]? = some gate) (w : Nat) (hw : w ∈ gate.out) :
    wireToBlock c w = some (c.inputs.length + g) := by
  refine wireToBlock_some h (b := gate.out) ?_ hw
  unfold PackedCircuit.blocks
  rw [List.getElem?_append_right (by omega), Nat.add_sub_cancel_left, List.getElem?_map, hg, Option.map_some]

/-- C54. In a packed well-formed circuit every wire read by a gate is found, in the only block and slot which carries
it. -/
theorem C54_found (c : Circuit) (hc : c.WF) (l : Nat) (p : PackedCircuit) (hp : c.pack l = some p)
    (g i s w : Nat) (hw : (p.inpWires g i)[s]? = some w) :
    ∃ b, wireToBlock p w = some b ∧ (∃ s', p.Drives b s' w) ∧ ∀ b' s', p.Drives b' s' w → b' = b := by
  have ok := pack_ok hc hp
  obtain ⟨hg, hm⟩ := reads_mem hw
  have hd := ok.driven _ (List.getElem_mem hg) _ hm w (List.mem_of_getElem? hw)
  obtain ⟨ws, hws, hwm⟩ := List.mem_flatten.1 hd
  obtain ⟨b, hb, rfl⟩ := List.mem_iff_getElem.1 hws
  have h1 := wireToBlock_some ok.nodup (List.getElem?_eq_getElem hb) hwm
  refine ⟨b, h1, (C54_map p ok.nodup w b).1 h1, fun b' s' hd' => ?_⟩
  have := (C54_map p ok.nodup w b').2 ⟨s', hd'⟩
  rw [h1, Option.some.injEq] at this
  exact this.symm

/-- A packed circuit with two input blocks and two gates, the second of which reads an output of the first. -/
def exPacked : PackedCircuit where
  gates := [.and ⟨#v[[0, 1], [2, 3]], [4, 5]⟩, .xor ⟨#v[[4, 0], [0, 5]], [6, 7]⟩]
  inputs := [[0, 1], [2, 3]]
  outputs := [[6, 7]]
  numWires := 8
  gatesPerBlock := 2

example : exPacked.blocks.flatten.Nodup ∧ wireToBlock exPacked 3 = some 1 ∧ wireToBlock exPacked 5 = some 2
    ∧ wireToBlock exPacked 6 = some 3 ∧ wireToBlock exPacked 8 = none := by decide +kernel

/-! ### C65: the table of nonces -/

/-- C65. `compute_lookup` never fails.  It gives each gate an index of a nonce, and the nonce there is the hash of the
gate's string; two gates have the same index exactly if these hashes are equal; no nonce is unused. -/
theorem C65_lookup (hash : List Nat → List Nat) (l : Nat) (c : PackedCircuit) :
    ∃ nonces lk, computeLookup hash l c = some (nonces, lk) ∧ lk.length = c.gates.length ∧
      (∀ g i, lk[g]? = some i → nonces[i]? = some (hash (c.nonceString l g))) ∧
      (∀ g g' i i', lk[g]? = some i → lk[g']? = some i' →
        (i = i' ↔ hash (c.nonceString l g) = hash (c.nonceString l g'))) ∧
      ∀ i < nonces.length, ∃ g : Nat, lk[g]? = some i := by
  obtain ⟨nonces, lk, h1, h2, h3, h4, h5⟩ := computeLookup_spec hash l c
  have hget : ∀ g i, lk[g]? = some i → nonces[i]? = some (hash (c.nonceString l g)) := by
    intro g i hg
    obtain ⟨hlt, rfl⟩ := List.getElem?_eq_some_iff.1 hg
    exact h4 g hlt
  refine ⟨nonces, lk, h1, h3, hget, ?_, ?_⟩
  · intro g g' i i' hg hg'
    have e := hget g i hg
    have e' := hget g' i' hg'
    constructor
    · rintro rfl
      rw [e, Option.some.injEq] at e'
      exact e'
    · intro he
      rw [← he] at e'
      obtain ⟨hi, hie⟩ := List.getElem?_eq_some_iff.1 e
      obtain ⟨hi', hie'⟩ := List.getElem?_eq_some_iff.1 e'
      exact (List.Nodup.getElem_inj_iff h2).1 (hie.trans hie'.symm)
  · intro i hi
    obtain ⟨g, hg, he⟩ := List.mem_iff_getElem.1 (h5 i hi)
    exact ⟨g, by rw [List.getElem?_eq_getElem hg, he]⟩

/-- C65. The order in which the entries of the hash map are visited does not matter. -/
theorem C65_order (hash : List Nat → List Nat) (l : Nat) (c : PackedCircuit) (s : LookupState)
    (h : lookupLoop hash l c = some s) (es : List (List Nat × Nat)) (hp : es.Perm s.entries) :
    noncesOf es = noncesOf s.entries := by
  obtain ⟨s', h1, h2⟩ := lookupLoop_inv hash l c
  rw [h1, Option.some.injEq] at h
  subst h
  rw [noncesOf_eq hp h2.idx, noncesOf_eq (List.Perm.refl _) h2.idx]

/-- In slot 0 the second gate reads wire 0 for the second time. -/
example : computeLookup id 2 exPacked
    = some ([List.replicate 32 0, List.replicate 23 0 ++ [1] ++ List.replicate 8 0], [0, 1]) := by
  decide +kernel

/-! ### C64, C75: no re-use of a matrix with the same key -/

/-- The hash does not collide on the strings hashed. -/
def NoCollision (hash : List Nat → List Nat) (l : Nat) (c : PackedCircuit) : Prop :=
  Set.InjOn hash {x | ∃ g < c.gates.length, x = c.nonceString l g}

/-- Gates with the same matrix have the same numbers in their strings. -/
theorem same_words {hash : List Nat → List Nat} {l : Nat} {c : PackedCircuit} {nonces : List (List Nat)} {lk : List Nat}
    (hl : computeLookup hash l c = some (nonces, lk)) (hc : NoCollision hash l c)
    (hb : (c.gates.flatMap PackedGate.inps).length < 2 ^ 64) {g g' x : Nat} (h : lk[g]? = some x)
    (h' : lk[g']? = some x) : ∀ i < 2, ∀ s < l, c.nonceWord g i s = c.nonceWord g' i s := by
  obtain ⟨nonces', lk', h1, h2, _, h4, _⟩ := C65_lookup hash l c
  rw [hl, Option.some.injEq, Prod.mk.injEq] at h1
  obtain ⟨rfl, rfl⟩ := h1
  obtain ⟨hg, _⟩ := List.getElem?_eq_some_iff.1 h
  obtain ⟨hg', _⟩ := List.getElem?_eq_some_iff.1 h'
  have hh := (h4 g g' x x h h').1 rfl
  have := hc ⟨g, by omega, rfl⟩ ⟨g', by omega, rfl⟩ hh
  exact nonceString_inj (nonceWord_lt hb) this

/-- C64. Two gates which read the same wire in the same slot at the same side have different matrices. -/
theorem C64_same_side (hash : List Nat → List Nat) (l : Nat) (c : PackedCircuit) (nonces : List (List Nat))
    (lk : List Nat) (hl : computeLookup hash l c = some (nonces, lk)) (hc : NoCollision hash l c)
    (hb : (c.gates.flatMap PackedGate.inps).length < 2 ^ 64) (g g' x x' : Nat) (hne : g ≠ g')
    (h : lk[g]? = some x) (h' : lk[g']? = some x') (i s w : Nat) (hi : i < 2) (hs : s < l)
    (hw : (c.inpWires g i)[s]? = some w) (hw' : (c.inpWires g' i)[s]? = some w) : x ≠ x' := by
  rintro rfl
  have := same_words hl hc hb h h' i hi s hs
  have e := nonceWord_reads hw
  have e' := nonceWord_reads hw'
  rcases Nat.lt_or_gt_of_ne hne with hlt | hlt
  · have := readsUpTo_lt hlt hw'; omega
  · have := readsUpTo_lt hlt hw; omega

/-- C64. Two gates which read the same pair of wires in the same slot, in either order, have different matrices. -/
theorem C64_same_pair (hash : List Nat → List Nat) (l : Nat) (c : PackedCircuit) (nonces : List (List Nat))
    (lk : List Nat) (hl : computeLookup hash l c = some (nonces, lk)) (hc : NoCollision hash l c)
    (hb : (c.gates.flatMap PackedGate.inps).length < 2 ^ 64) (g g' x x' : Nat) (hne : g ≠ g')
    (h : lk[g]? = some x) (h' : lk[g']? = some x') (s u v : Nat) (hs : s < l)
    (hu : (c.inpWires g 0)[s]? = some u) (hv : (c.inpWires g 1)[s]? = some v)
    (hw : (c.inpWires g' 0)[s]? = some u ∧ (c.inpWires g' 1)[s]? = some v
      ∨ (c.inpWires g' 0)[s]? = some v ∧ (c.inpWires g' 1)[s]? = some u) : x ≠ x' := by
  rcases hw with hw | hw
  · exact C64_same_side hash l c nonces lk hl hc hb g g' x x' hne h h' 0 s u (by omega) hs hu hw.1
  · rintro rfl
    have a0 := same_words hl hc hb h h' 0 (by omega) s hs
    have a1 := same_words hl hc hb h h' 1 (by omega) s hs
    have e0 := nonceWord_reads hu
    have e1 := nonceWord_reads hv
    have e2 := nonceWord_reads hw.1
    have e3 := nonceWord_reads hw.2
    rcases Nat.lt_or_gt_of_ne hne with hlt | hlt
    · have := readsUpTo_lt hlt hw.1
      have := readsUpTo_lt hlt hw.2
      omega
    · have := readsUpTo_lt hlt hu
      have := readsUpTo_lt hlt hv
      omega

/-- C75. Among gates which share a matrix there is one whose left wire (in a given slot) is read by no other of these
gates in this slot. -/
theorem C75_unshared (hash : List Nat → List Nat) (l : Nat) (c : PackedCircuit) (nonces : List (List Nat))
    (lk : List Nat) (hl : computeLookup hash l c = some (nonces, lk)) (hc : NoCollision hash l c)
    (hb : (c.gates.flatMap PackedGate.inps).length < 2 ^ 64) (s : Nat) (hs : s < l) (x : Nat) (S : Finset Nat)
    (hS : S.Nonempty) (hx : ∀ g ∈ S, lk[g]? = some x) (left : Nat → Nat)
    (hleft : ∀ g ∈ S, (c.inpWires g 0)[s]? = some (left g)) :
    ∃ g ∈ S, ∀ g' ∈ S, g' ≠ g → ∀ i < 2, (c.inpWires g' i)[s]? ≠ some (left g) := by
  obtain ⟨g0, hg0⟩ := hS
  rcases Nat.lt_or_ge (c.nonceWord g0 0 s) (c.nonceWord g0 1 s) with hxy | hxy
  · refine ⟨S.max' ⟨g0, hg0⟩, S.max'_mem _, fun g' hg' hne i hi hw => ?_⟩
    generalize hm : S.max' ⟨g0, hg0⟩ = m at *
    have hmS : m ∈ S := hm ▸ S.max'_mem _
    have hlt : g' < m := lt_of_le_of_ne (hm ▸ S.le_max' _ hg') hne
    have h0 := same_words hl hc hb (hx m hmS) (hx g0 hg0) 0 (by omega) s hs
    have hi' := same_words hl hc hb (hx g' hg') (hx g0 hg0) i hi s hs
    have e := nonceWord_reads (hleft m hmS)
    have e' := nonceWord_reads hw
    have := readsUpTo_lt hlt (hleft m hmS)
    interval_cases i <;> omega
  · refine ⟨S.min' ⟨g0, hg0⟩, S.min'_mem _, fun g' hg' hne i hi hw => ?_⟩
    generalize hm : S.min' ⟨g0, hg0⟩ = m at *
    have hmS : m ∈ S := hm ▸ S.min'_mem _
    have hlt : m < g' := lt_of_le_of_ne (hm ▸ S.min'_le _ hg') hne.symm
    have h0 := same_words hl hc hb (hx m hmS) (hx g0 hg0) 0 (by omega) s hs
    have hi' := same_words hl hc hb (hx g' hg') (hx g0 hg0) i hi s hs
    have e := nonceWord_reads (hleft m hmS)
    have e' := nonceWord_reads hw
    have := readsUpTo_lt hlt hw
    interval_cases i <;> omega

/-- The key of a row of gate `g` in slot `s`, as a formal sum of labels (wire and bit): the label `p` of the left wire,
plus the label `q` of the right wire if there is one. -/
noncomputable def formalKey (K : Type) [Field K] (c : PackedCircuit) (s g : Nat) (p q : Bool) : (Nat × Bool) →₀ K :=
  ((c.inpWires g 0)[s]?.elim 0 fun w => Finsupp.single (w, p) 1)
    + ((c.inpWires g 1)[s]?.elim 0 fun w => Finsupp.single (w, q) 1)

/-- C75. The keys used with one matrix in one slot are linearly independent combinations of the labels, provided no
gate reads the same wire at both sides: so for independent uniform labels they are independent and uniform. -/
theorem C75_independent (K : Type) [Field K] (hash : List Nat → List Nat) (l : Nat) (c : PackedCircuit)
    (nonces : List (List Nat)) (lk : List Nat) (hl : computeLookup hash l c = some (nonces, lk))
    (hc : NoCollision hash l c) (hb : (c.gates.flatMap PackedGate.inps).length < 2 ^ 64) (s : Nat) (hs : s < l)
    (x : Nat) (hdiff : ∀ g w, (c.inpWires g 0)[s]? = some w → (c.inpWires g 1)[s]? ≠ some w) (p q : Nat → Bool) :
    LinearIndependent K fun g : {g // lk[g]? = some x ∧ ((c.inpWires g 0)[s]?).isSome} =>
      formalKey K c s g (p g) (q g) := by
  classical
  rw [linearIndependent_iff']
  intro T a hsum g hg
  by_contra hne
  obtain ⟨left, hleft⟩ : ∃ left : Nat → Nat, ∀ g, ((c.inpWires g 0)[s]?).isSome → (c.inpWires g 0)[s]? = some (left g) :=
    ⟨fun g => ((c.inpWires g 0)[s]?).getD 0, fun g hg => by
      obtain ⟨w, hw⟩ := Option.isSome_iff_exists.1 hg
      simp [hw]⟩
  obtain ⟨m, hm, hun⟩ := C75_unshared hash l c nonces lk hl hc hb s hs x
    ((T.filter fun g => a g ≠ 0).image Subtype.val) ⟨g, by
      simp only [Finset.mem_image, Finset.mem_filter]
      exact ⟨g, ⟨hg, hne⟩, rfl⟩⟩
    (by
      intro g' hg'
      obtain ⟨y, _, rfl⟩ := Finset.mem_image.1 hg'
      exact y.2.1) left (by
      intro g' hg'
      obtain ⟨y, _, rfl⟩ := Finset.mem_image.1 hg'
      exact hleft _ y.2.2)
  obtain ⟨y, hy, rfl⟩ := Finset.mem_image.1 hm
  obtain ⟨hyT, hya⟩ := Finset.mem_filter.1 hy
  have hev := congrArg (fun f : (Nat × Bool) →₀ K => f (left y, p y)) hsum
  simp only [Finsupp.coe_finsetSum, Finset.sum_apply, Finsupp.smul_apply, smul_eq_mul, Finsupp.coe_zero,
    Pi.zero_apply] at hev
  rw [Finset.sum_eq_single_of_mem y hyT] at hev
  · have h1 : formalKey K c s y (p y) (q y) (left y, p y) = 1 := by
      unfold formalKey
      rw [hleft _ y.2.2]
      have hr := hdiff y (left y) (hleft _ y.2.2)
      cases hq : (c.inpWires y 1)[s]? with
      | none => simp
      | some v =>
        have hv : v ≠ left y := fun h => hr (by rw [hq, h])
        simp [hv]
    rw [h1, mul_one] at hev
    exact hya hev
  · intro z hz hzy
    by_cases hza : a z = 0
    · rw [hza, zero_mul]
    · have hzm : (z : Nat) ∈ (T.filter fun g => a g ≠ 0).image Subtype.val :=
        Finset.mem_image.2 ⟨z, Finset.mem_filter.2 ⟨hz, hza⟩, rfl⟩
      have hzn : (z : Nat) ≠ y := fun h => hzy (Subtype.ext h)
      have h0 := hun z hzm hzn 0 (by omega)
      have h1 := hun z hzm hzn 1 (by omega)
      have : formalKey K c s z (p z) (q z) (left y, p y) = 0 := by
        unfold formalKey
        have e : ∀ (o : Option Nat) (b : Bool), o ≠ some (left y) →
            (o.elim (0 : (Nat × Bool) →₀ K) fun w => Finsupp.single (w, b) 1) (left y, p y) = 0 := by
          intro o b ho
          cases o with
          | none => simp
          | some v =>
            have : v ≠ left y := fun h => ho (by rw [h])
            simp [this]
        rw [Finsupp.add_apply, e _ _ h0, e _ _ h1, add_zero]
      rw [this, mul_zero]

/-- Three gates with one slot: the first two share a matrix, and the second reads on the left what the first reads on
the right; the third, which reads the first pair of wires in the other order, has another matrix. -/
def exShared : PackedCircuit where
  gates := [.and ⟨#v[[0], [1]], [3]⟩, .inv ⟨#v[[2]], [4]⟩, .xor ⟨#v[[1], [0]], [5]⟩]
  inputs := [[0], [1], [2]]
  outputs := [[5]]
  numWires := 6
  gatesPerBlock := 1

theorem exShared_lookup : computeLookup id 1 exShared
    = some ([List.replicate 16 0, List.replicate 7 0 ++ [1] ++ List.replicate 7 0 ++ [1]], [0, 0, 1]) := by
  decide +kernel

example : LinearIndependent (ZMod 2)
    fun g : {g : Nat // [0, 0, 1][g]? = some 0 ∧ ((exShared.inpWires g 0)[0]?).isSome} =>
      formalKey (ZMod 2) exShared 0 g (g.1 = 0) false := by
  haveI : Fact (Nat.Prime 2) := ⟨Nat.prime_two⟩
  refine C75_independent (ZMod 2) id 1 exShared _ _ exShared_lookup (fun a _ b _ h => h) (by decide) 0 (by omega) 0 ?_
    (fun g => g = 0) (fun _ => false)
  intro g w
  match g with
  | 0 => simp [exShared, PackedCircuit.inpWires, PackedGate.inps]; omega
  | 1 => simp [exShared, PackedCircuit.inpWires, PackedGate.inps]
  | 2 => simp [exShared, PackedCircuit.inpWires, PackedGate.inps]; omega
  | n + 3 => simp [exShared, PackedCircuit.inpWires]

end Verif.Props
