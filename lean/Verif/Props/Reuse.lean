import Verif.ReuseLemmas
import Verif.ReuseAes
import Verif.Props.EndToEnd
import Verif.Props.Eval
import Verif.Props.Lpn
import Verif.Props.Shipped

/-!
# C117: LPN matrices which are used with two keys that contain the same label
-/

open Verif

namespace Verif.Props

/-- C117, what holds: in each slot, a matrix is used for at most one gate which reads a given wire as its first input, and at most one which reads
it as its second input.  Missing: that it is used for at most one gate which reads the wire; this fails (`C117_false`). -/
theorem C117_sides_partial (hash : List Nat → List Nat) (l : Nat) (c : PackedCircuit) (nonces : List (List Nat)) (lk : List Nat)
    (hl : computeLookup hash l c = some (nonces, lk)) (hc : NoCollision hash l c) (hb : (c.gates.flatMap PackedGate.inps).length < 2 ^ 64)
    (x s w : Nat) (hs : s < l) :
    ((Finset.range c.gates.length).filter fun g => lk[g]? = some x ∧ ((c.inpWires g 0)[s]? = some w ∨ (c.inpWires g 1)[s]? = some w)).card ≤ 2 ∧
    ∀ i < 2, ∀ i' < 2, ∀ g g', g ≠ g' → lk[g]? = some x → lk[g']? = some x → (c.inpWires g i)[s]? = some w → (c.inpWires g' i')[s]? = some w →
      i ≠ i' := by
  have key : ∀ i < 2, ∀ g g', g ≠ g' → lk[g]? = some x → lk[g']? = some x → (c.inpWires g i)[s]? = some w → (c.inpWires g' i)[s]? ≠ some w :=
    fun i hi g g' hne h1 h2 h3 h4 => C64_same_side hash l c nonces lk hl hc hb g g' x x hne h1 h2 i s w hi hs h3 h4 rfl
  refine ⟨?_, ?_⟩
  · have one : ∀ i < 2, ((Finset.range c.gates.length).filter fun g => lk[g]? = some x ∧ (c.inpWires g i)[s]? = some w).card ≤ 1 := by
      intro i hi
      refine Finset.card_le_one.2 fun g hg g' hg' => ?_
      rw [Finset.mem_filter] at hg hg'
      by_contra hne
      exact key i hi g g' hne hg.2.1 hg'.2.1 hg.2.2 hg'.2.2
    refine le_trans (Finset.card_le_card (t := ((Finset.range c.gates.length).filter fun g => lk[g]? = some x ∧ (c.inpWires g 0)[s]? = some w)
      ∪ ((Finset.range c.gates.length).filter fun g => lk[g]? = some x ∧ (c.inpWires g 1)[s]? = some w)) fun g hg => ?_) ?_
    · rw [Finset.mem_filter] at hg
      rw [Finset.mem_union, Finset.mem_filter, Finset.mem_filter]
      rcases hg.2.2 with h | h
      · exact Or.inl ⟨hg.1, hg.2.1, h⟩
      · exact Or.inr ⟨hg.1, hg.2.1, h⟩
    · refine le_trans (Finset.card_union_le _ _) ?_
      have := one 0 (by omega)
      have := one 1 (by omega)
      omega
  · intro i hi i' hi' g g' hne h1 h2 h3 h4 he
    subst he
    exact key i hi g g' hne h1 h2 h3 h4

/-- C117, a sufficient condition: if no wire is read both as a first and as a second input, matrices are used only once with labels of a wire. -/
theorem C117_one_side (l : Nat) (c : PackedCircuit) (hb : (c.gates.flatMap PackedGate.inps).length < 2 ^ 64)
    (hside : ∀ g g' x w : Nat, (c.inpWires g 0)[x]? = some w → (c.inpWires g' 1)[x]? ≠ some w) : c.MatrixOnce l := by
  intro g g' i i' x w hne hx hw hw' he
  have hlt : ∀ {g i : Nat}, (c.inpWires g i)[x]? = some w → i < 2 := by
    intro g i h
    by_contra hge
    unfold PackedCircuit.inpWires at h
    cases hg : c.gates[g]? with
    | none => rw [hg] at h; simp at h
    | some gate =>
      have hlen : gate.inps.length ≤ 2 := by cases gate <;> simp [PackedGate.inps]
      rw [hg, Option.map_some, Option.getD_some, List.getD_eq_getElem?_getD, List.getElem?_eq_none (l := gate.inps) (i := i) (by omega)] at h
      simp at h
  have hi := hlt hw
  have hi' := hlt hw'
  have hii : i = i' := by
    rcases Nat.lt_trichotomy i i' with h | h | h
    · obtain ⟨rfl, rfl⟩ : i = 0 ∧ i' = 1 := by omega
      exact absurd hw' (hside _ _ _ _ hw)
    · exact h
    · obtain ⟨rfl, rfl⟩ : i' = 0 ∧ i = 1 := by omega
      exact absurd hw (hside _ _ _ _ hw')
  subst hii
  have := nonceString_inj (nonceWord_lt hb) he i hi x hx
  have e := nonceWord_reads hw
  have e' := nonceWord_reads hw'
  rcases Nat.lt_or_gt_of_ne hne with h | h
  · have := readsUpTo_lt h hw'; omega
  · have := readsUpTo_lt h hw; omega

/-- Three gates: the second and the third one both read wire 0, as first and as second input, and hash the same string. -/
def exReuse : PackedCircuit :=
  ⟨[.and ⟨#v[[2], [1]], [4]⟩, .and ⟨#v[[0], [1]], [5]⟩, .xor ⟨#v[[3], [0]], [6]⟩], [[0], [1], [2], [3]], [[6]], 7, 1⟩

example : ¬ exReuse.MatrixOnce 1 := fun h => h 1 2 0 1 0 0 (by decide) (by decide) (by decide) (by decide) (by decide +kernel)

/-- With the inputs of the XOR gate exchanged, no wire is read on both sides. -/
example : (⟨[.and ⟨#v[[2], [1]], [4]⟩, .and ⟨#v[[0], [1]], [5]⟩, .xor ⟨#v[[0], [3]], [6]⟩], [[0], [1], [2], [3]], [[6]], 7, 1⟩ : PackedCircuit).MatrixOnce 1 := by
  refine C117_one_side 1 _ (by decide) fun g g' x w h1 h2 => ?_
  match g, g' with
  | 0, 0 | 0, 1 | 0, 2 | 1, 0 | 1, 1 | 1, 2 | 2, 0 | 2, 1 | 2, 2 =>
    match x with
    | 0 => simp [PackedCircuit.inpWires, PackedGate.inps] at h1 h2; omega
    | x + 1 => simp [PackedCircuit.inpWires, PackedGate.inps] at h1
  | g + 3, _ => simp [PackedCircuit.inpWires] at h1
  | _, g' + 3 => simp [PackedCircuit.inpWires] at h2

/-- C117 is false for the shipped AES circuit with 16 gates per block (a packing parameter for which C98 holds): an AND gate and an XOR gate, in the same
slot, use the same LPN matrix, and both read wire 2013. -/
theorem C117_false : ∃ c p, fromBristol aesText.toList = some c ∧ c.pack 16 = some p ∧ ¬ p.MatrixOnce 16 ∧
    ∃ gt1 ∈ c.gates, ∃ gt2 ∈ c.gates, gt1.kind = .and ∧ gt2.kind = .xor ∧ gt1.inWires = [1970, 2013] ∧ gt2.inWires = [2013, 1936] ∧
      ∀ place, Places aesNet.desc p place → SameMatrix p 16 place gt1 gt2 54 548 0 1 0 2013 := by
  obtain ⟨p, hp⟩ : ∃ p, aesNet.circuit.pack 16 = some p := Option.isSome_iff_exists.1 ((C23_pack_total aesNet.circuit 16).2 (by norm_num))
  have hA : 400 * 16 = aesSort.and.cnt := rfl
  have hj1 : 54 < 400 ∨ (54 - 400 + 1) * 16 ≤ aesSort.xor.cnt := Or.inl (by norm_num)
  have hj2 : 548 < 400 ∨ (548 - 400 + 1) * 16 ≤ aesSort.xor.cnt := Or.inr (by
    rw [show aesSort.xor.cnt = 28176 from rfl]
    norm_num)
  have hcl : ∀ g k s w n, (g, k, s, w, n) ∈ aesReads → aesSort.claimOk aesNet 16 400 (g, k, s, w, n) = true := fun g k s w n h => aes_claims _ h
  have hnonce : p.nonceString 16 54 = p.nonceString 16 548 := by
    refine nonceString_congr fun k hk s hs => ?_
    have hex : ∀ k < 2, ∀ s < 16, ∃ x ∈ aesReads, ∃ y ∈ aesReads, x.1 = 54 ∧ y.1 = 548 ∧ x.2.1 = k ∧ y.2.1 = k ∧ x.2.2.1 = s ∧ y.2.2.1 = s ∧
        x.2.2.2.2 = y.2.2.2.2 := by decide +kernel
    obtain ⟨⟨g, k', s', w, n⟩, hx, ⟨g', k'', s'', w', n'⟩, hy, e1, e2, e3, e4, e5, e6, e7⟩ := hex k hk s hs
    simp only at e1 e2 e3 e4 e5 e6 e7
    subst e1 e2 e3 e5 e7
    subst e4 e6
    rw [(aes_sort.word hp hA hj1 hk hs (hcl _ _ _ _ _ hx)).2, (aes_sort.word hp hA hj2 hk hs (hcl _ _ _ _ _ hy)).2]
  have hw1 := (aes_sort.word hp hA hj1 (k := 1) (s := 0) (by norm_num) (by norm_num) (hcl 54 1 0 2013 1 (by decide))).1
  have hw2 := (aes_sort.word hp hA hj2 (k := 0) (s := 0) (by norm_num) (by norm_num) (hcl 548 0 0 2013 2 (by decide))).1
  have hr : ∀ {g k s w n}, (g, k, s, w, n) ∈ aesReads → aesSort.blockRead aesNet 16 400 g k s = w :=
    fun h => Nat.beq_eq.mp (bsel_and.1 (hcl _ _ _ _ _ h)).1
  obtain ⟨c0, c1, -⟩ := aes_sort.cls
  have q1 := aes_sort.and.has_order (r := 864) (by rw [← hA]; norm_num)
  have q2 := aes_sort.xor.has_order (r := 2368) (by rw [show aesSort.xor.cnt = 28176 from rfl]; norm_num)
  rw [c1, Net.mem_idx] at q1
  rw [c0, Net.mem_idx] at q2
  have hmem1 : Gate.and (aesNet.info2 (aesSort.and.order 864)) ∈ aesNet.circuit.gates := Net.and_mem q1.1 q1.2
  have hmem2 : Gate.xor (aesNet.info2 (aesSort.xor.order 2368)) ∈ aesNet.circuit.gates := Net.xor_mem q2.1 q2.2
  have e10 : aesNet.wireAt (aesSort.and.order 864) 0 = 1970 := hr (g := 54) (k := 0) (s := 0) (n := 2) (by decide)
  have e11 : aesNet.wireAt (aesSort.and.order 864) 1 = 2013 := hr (g := 54) (k := 1) (s := 0) (n := 1) (by decide)
  have e20 : aesNet.wireAt (aesSort.xor.order 2368) 0 = 2013 := hr (g := 548) (k := 0) (s := 0) (n := 2) (by decide)
  have e21 : aesNet.wireAt (aesSort.xor.order 2368) 1 = 1936 := hr (g := 548) (k := 1) (s := 0) (n := 1) (by decide)
  have hin1 : (Gate.and (aesNet.info2 (aesSort.and.order 864))).inWires = [1970, 2013] := by
    show [aesNet.wireAt (aesSort.and.order 864) 0, aesNet.wireAt (aesSort.and.order 864) 1] = _
    rw [e10, e11]
  have hin2 : (Gate.xor (aesNet.info2 (aesSort.xor.order 2368))).inWires = [2013, 1936] := by
    show [aesNet.wireAt (aesSort.xor.order 2368) 0, aesNet.wireAt (aesSort.xor.order 2368) 1] = _
    rw [e20, e21]
  have hb1 := aes_sort.blockAt hp hA hj1
  have hb2 := aes_sort.blockAt hp hA hj2
  rw [if_pos (by norm_num)] at hb1
  rw [if_neg (by norm_num)] at hb2
  refine ⟨_, p, aes_parse, hp, fun h => h 54 548 1 0 0 2013 (by norm_num) (by norm_num) hw1 hw2 hnonce, _, hmem1, _, hmem2, rfl, rfl, hin1, hin2,
    fun place hplace => ?_⟩
  have nodup := (pack_ok (Net.wf aes_checked) hp).nodup
  have hdrive : ∀ {gid : Nat} {gate : PackedGate} {w : Nat}, p.gates[gid]? = some gate → gate.out[0]? = some w →
      p.Drives (p.inputs.length + gid) 0 w := by
    intro gid gate w h1 h2
    refine ⟨gate.out, ?_, h2⟩
    unfold PackedCircuit.blocks
    rw [List.getElem?_append_right (by omega), Nat.add_sub_cancel_left, List.getElem?_map, h1, Option.map_some]
  refine ⟨?_, ?_, hnonce, by rw [hin1]; rfl, by rw [hin2]; rfl⟩
  · obtain ⟨a1, a2⟩ := drives_unique nodup (hplace _ (Or.inr ⟨_, hmem1, rfl⟩)) (hdrive hb1 rfl)
    exact Prod.ext a1 a2
  · obtain ⟨a1, a2⟩ := drives_unique nodup (hplace _ (Or.inr ⟨_, hmem2, rfl⟩)) (hdrive hb2 rfl)
    exact Prod.ext a1 a2

section
variable {F : Type} [CodeField F] [DecidableEq F]
variable {hash : List Nat → List Nat} {rng : List Nat → Nat → F} {ctx : Ctx F} {lpn : LpnParams} {enc : Mat F} {p : PackedCircuit} {S : Scheme F}
  {errors : List (List F)} {place : Nat → Nat × Nat} {mask : Nat → Nat} {results : List (List (List (List F)))}

/-- C117, what follows when a matrix is used twice: in the difference of two rows the labels of the common wire cancel, whichever of its labels it
is.  There remain, besides labels of the other wires, the difference of the messages, encoded, and the difference of the errors.  So the message
of one row follows from the message of the other row without any label of the common wire. -/
theorem C117_difference {gt1 gt2 : Gate} (h1 : HoldsGate hash rng ctx lpn enc p S errors place mask results gt1)
    (h2 : HoldsGate hash rng ctx lpn enc p S errors place mask results gt2) {g1 g2 x i1 i2 w : Nat}
    (hs : SameMatrix p ctx.l place gt1 gt2 g1 g2 x i1 i2 w) {b o1 o2 r : Nat} (hb : b < 2) (ho1 : o1 < 2) (ho2 : o2 < 2)
    (hr1 : r = readRow gt1.kind i1 b o1) (hr2 : r = readRow gt2.kind i2 b o2) (hpos : 0 < lpn.mssgLen) :
    ∃ ws1 ws2 row1 row2, p.blocks[p.inputs.length + g1]? = some ws1 ∧ p.blocks[p.inputs.length + g2]? = some ws2 ∧
      openRow ctx lpn.mssgLen ws1.length results g1 r x = some row1 ∧ openRow ctx lpn.mssgLen ws2.length results g2 r x = some row2 ∧
      unmaskRow rng ctx.l lpn (hash (p.nonceString ctx.l g1)) (fun j => partnerKey S gt1 i1 o1 j - partnerKey S gt2 i2 o2 j) r x
          (List.zipWith (· - ·) row1 row2)
        = (List.range lpn.mssgLen).map fun a =>
          ∑ j ∈ Finset.range (lpn.keyLen + 1), enc.entry a j *
              (S.msg gt1.outWire (S.row gt1.kind r (mask (gt1.inWires.getD 0 0)) (mask (gt1.inWires.getD 1 0)) (mask gt1.outWire)) j
                - S.msg gt2.outWire (S.row gt2.kind r (mask (gt2.inWires.getD 0 0)) (mask (gt2.inWires.getD 1 0)) (mask gt2.outWire)) j)
            + (at2 errors (p.errorIdx lpn.mssgLen g1 r a) x - at2 errors (p.errorIdx lpn.mssgLen g2 r a) x) :=
  diff_rows h1 h2 hs.place1 hs.place2 hs.nonce hs.read1 hs.read2 hb ho1 ho2 hr1 hr2 hpos

omit [CodeField F] [DecidableEq F] in
theorem map_getD_range [Zero F] (m : List F) : (List.range m.length).map (fun j => m.getD j 0) = m := by
  apply List.ext_getElem
  · simp
  · intro n h1 h2
    simp [h2]

/-- Which messages fit, in terms of the rows' contents. -/
theorem fits_iff (henc : rsGenMat (lpn.keyLen + 1) lpn.mssgLen = some enc) (hcode : lpn.mssgLen < CodeField.order F)
    {gt1 gt2 : Gate} (h1 : HoldsGate hash rng ctx lpn enc p S errors place mask results gt1)
    (h2 : HoldsGate hash rng ctx lpn enc p S errors place mask results gt2) {g1 g2 x i1 i2 w : Nat}
    (hs : SameMatrix p ctx.l place gt1 gt2 g1 g2 x i1 i2 w) {b o1 o2 r : Nat} (hb : b < 2) (ho1 : o1 < 2) (ho2 : o2 < 2)
    (hr1 : r = readRow gt1.kind i1 b o1) (hr2 : r = readRow gt2.kind i2 b o2) (hpos : 0 < lpn.mssgLen) (k1 k2 : Nat → F)
    (hk : ∀ j < lpn.keyLen, k1 j = partnerKey S gt1 i1 o1 j ∧ k2 j = partnerKey S gt2 i2 o2 j) (e : Nat) (m : List F) :
    DiffDecrypts hash rng ctx lpn enc p place results e gt1 gt2 r k1 k2
        ((List.range (lpn.keyLen + 1)).map (S.msg gt1.outWire
          (S.row gt1.kind r (mask (gt1.inWires.getD 0 0)) (mask (gt1.inWires.getD 1 0)) (mask gt1.outWire)))) m ↔
      m.length = lpn.keyLen + 1 ∧
      ((List.range lpn.mssgLen).filter fun a => ∑ j ∈ Finset.range (lpn.keyLen + 1), enc.entry a j * m.getD j 0
        ≠ ∑ j ∈ Finset.range (lpn.keyLen + 1), enc.entry a j *
            S.msg gt2.outWire (S.row gt2.kind r (mask (gt2.inWires.getD 0 0)) (mask (gt2.inWires.getD 1 0)) (mask gt2.outWire)) j
          + (at2 errors (p.errorIdx lpn.mssgLen g2 r a) x - at2 errors (p.errorIdx lpn.mssgLen g1 r a) x)).length ≤ e := by
  obtain ⟨ws1, ws2, row1, row2, d1, d2, d3, d4, d5⟩ := C117_difference h1 h2 hs hb ho1 ho2 hr1 hr2 hpos
  set m1 := S.msg gt1.outWire (S.row gt1.kind r (mask (gt1.inWires.getD 0 0)) (mask (gt1.inWires.getD 1 0)) (mask gt1.outWire))
  set m2 := S.msg gt2.outWire (S.row gt2.kind r (mask (gt2.inWires.getD 0 0)) (mask (gt2.inWires.getD 1 0)) (mask gt2.outWire))
  have hkk : ∀ row : List F, unmaskRow rng ctx.l lpn (hash (p.nonceString ctx.l g1)) (fun j => k1 j - k2 j) r x row
      = unmaskRow rng ctx.l lpn (hash (p.nonceString ctx.l g1)) (fun j => partnerKey S gt1 i1 o1 j - partnerKey S gt2 i2 o2 j) r x row := by
    intro row
    unfold unmaskRow
    refine List.map_congr_left fun v _ => ?_
    congr 1
    refine Finset.sum_congr rfl fun j hj => ?_
    simp only [(hk j (Finset.mem_range.1 hj)).1, (hk j (Finset.mem_range.1 hj)).2]
  have hz : m.length = lpn.keyLen + 1 → List.zipWith (· - ·) ((List.range (lpn.keyLen + 1)).map m1) m
      = (List.range (lpn.keyLen + 1)).map fun j => m1 j - m.getD j 0 := by
    intro hm
    apply List.ext_getElem
    · simp [hm]
    · intro n q1 q2
      simp only [List.getElem_zipWith, List.getElem_map, List.getElem_range]
      rw [List.getD_eq_getElem _ _ (by simp at q2; omega)]
  have hcount : ∀ a, (∑ j ∈ Finset.range (lpn.keyLen + 1), enc.entry a j * (m1 j - m.getD j 0)
      ≠ ∑ j ∈ Finset.range (lpn.keyLen + 1), enc.entry a j * (m1 j - m2 j)
        + (at2 errors (p.errorIdx lpn.mssgLen g1 r a) x - at2 errors (p.errorIdx lpn.mssgLen g2 r a) x)) ↔
      (∑ j ∈ Finset.range (lpn.keyLen + 1), enc.entry a j * m.getD j 0
        ≠ ∑ j ∈ Finset.range (lpn.keyLen + 1), enc.entry a j * m2 j
          + (at2 errors (p.errorIdx lpn.mssgLen g2 r a) x - at2 errors (p.errorIdx lpn.mssgLen g1 r a) x)) := by
    intro a
    refine not_congr ?_
    simp only [mul_sub, Finset.sum_sub_distrib]
    constructor <;> intro hh
    · linear_combination -hh
    · linear_combination -hh
  have hfil : m.length = lpn.keyLen + 1 → hdist ((List.range lpn.mssgLen).map fun a => ∑ j ∈ Finset.range (lpn.keyLen + 1), enc.entry a j * (m1 j - m.getD j 0))
      ((List.range lpn.mssgLen).map fun a =>
          ∑ j ∈ Finset.range (lpn.keyLen + 1), enc.entry a j * (m1 j - m2 j)
            + (at2 errors (p.errorIdx lpn.mssgLen g1 r a) x - at2 errors (p.errorIdx lpn.mssgLen g2 r a) x))
      = ((List.range lpn.mssgLen).filter fun a => ∑ j ∈ Finset.range (lpn.keyLen + 1), enc.entry a j * m.getD j 0
        ≠ ∑ j ∈ Finset.range (lpn.keyLen + 1), enc.entry a j * m2 j
          + (at2 errors (p.errorIdx lpn.mssgLen g2 r a) x - at2 errors (p.errorIdx lpn.mssgLen g1 r a) x)).length := by
    intro _
    rw [hdist_tab]
    congr 1
    refine List.filter_congr fun a _ => ?_
    rw [decide_eq_decide]
    exact hcount a
  have hmul := mulVec_entry henc hcode fun j => m1 j - m.getD j 0
  constructor
  · rintro ⟨g1', g2', x', ws1', ws2', row1', row2', code, c1, c2, c3, c4, c5, c6, c7, c8, c9⟩
    rw [hs.place1, Prod.mk.injEq] at c1
    obtain ⟨q1, rfl⟩ := c1
    obtain rfl : g1 = g1' := by omega
    rw [hs.place2, Prod.mk.injEq] at c2
    obtain rfl : g2 = g2' := by omega
    rw [d1, Option.some.injEq] at c3
    subst c3
    rw [d2, Option.some.injEq] at c4
    subst c4
    rw [d3, Option.some.injEq] at c5
    subst c5
    rw [d4, Option.some.injEq] at c6
    subst c6
    rw [hz c7, hmul, Option.some.injEq] at c8
    subst c8
    refine ⟨c7, ?_⟩
    rw [← hfil c7, ← d5, ← hkk]
    exact c9
  · rintro ⟨c7, c9⟩
    refine ⟨g1, g2, x, ws1, ws2, row1, row2, _, hs.place1, hs.place2, d1, d2, d3, d4, c7, by rw [hz c7]; exact hmul, ?_⟩
    rw [hkk, d5, hfil c7]
    exact c9

/-- C117. If at most `e` of the errors of the two rows differ, fewer than half the distance of the code, then the message of the one row is the only
one which fits. -/
theorem C117_message (henc : rsGenMat (lpn.keyLen + 1) lpn.mssgLen = some enc) (hcode : lpn.mssgLen < CodeField.order F)
    (hlen : lpn.keyLen + 1 ≤ lpn.mssgLen) {gt1 gt2 : Gate} (h1 : HoldsGate hash rng ctx lpn enc p S errors place mask results gt1)
    (h2 : HoldsGate hash rng ctx lpn enc p S errors place mask results gt2) {g1 g2 x i1 i2 w : Nat}
    (hs : SameMatrix p ctx.l place gt1 gt2 g1 g2 x i1 i2 w) {b o1 o2 r : Nat} (hb : b < 2) (ho1 : o1 < 2) (ho2 : o2 < 2)
    (hr1 : r = readRow gt1.kind i1 b o1) (hr2 : r = readRow gt2.kind i2 b o2) (k1 k2 : Nat → F)
    (hk : ∀ j < lpn.keyLen, k1 j = partnerKey S gt1 i1 o1 j ∧ k2 j = partnerKey S gt2 i2 o2 j) {e : Nat} (he : 2 * e < lpn.mssgLen - lpn.keyLen)
    (hfew : ((List.range lpn.mssgLen).filter fun a =>
      at2 errors (p.errorIdx lpn.mssgLen g1 r a) x ≠ at2 errors (p.errorIdx lpn.mssgLen g2 r a) x).length ≤ e) (m : List F) :
    DiffDecrypts hash rng ctx lpn enc p place results e gt1 gt2 r k1 k2
        ((List.range (lpn.keyLen + 1)).map (S.msg gt1.outWire
          (S.row gt1.kind r (mask (gt1.inWires.getD 0 0)) (mask (gt1.inWires.getD 1 0)) (mask gt1.outWire)))) m ↔
      m = (List.range (lpn.keyLen + 1)).map (S.msg gt2.outWire
          (S.row gt2.kind r (mask (gt2.inWires.getD 0 0)) (mask (gt2.inWires.getD 1 0)) (mask gt2.outWire))) := by
  rw [fits_iff henc hcode h1 h2 hs hb ho1 ho2 hr1 hr2 (by omega) k1 k2 hk]
  set m2 := S.msg gt2.outWire (S.row gt2.kind r (mask (gt2.inWires.getD 0 0)) (mask (gt2.inWires.getD 1 0)) (mask gt2.outWire))
  set d := fun a => at2 errors (p.errorIdx lpn.mssgLen g2 r a) x - at2 errors (p.errorIdx lpn.mssgLen g1 r a) x with hd
  have hself : ((List.range lpn.mssgLen).filter fun a => ∑ j ∈ Finset.range (lpn.keyLen + 1), enc.entry a j * m2 j
      ≠ ∑ j ∈ Finset.range (lpn.keyLen + 1), enc.entry a j * m2 j + d a).length ≤ e := by
    refine le_of_eq_of_le ?_ hfew
    congr 1
    refine List.filter_congr fun a _ => ?_
    rw [decide_eq_decide]
    refine not_congr ?_
    rw [hd, left_eq_add, sub_eq_zero, eq_comm]
  have hmulOf : ∀ m : List F, m.length = lpn.keyLen + 1 →
      enc.mulVec m = some ((List.range lpn.mssgLen).map fun a => ∑ j ∈ Finset.range (lpn.keyLen + 1), enc.entry a j * m.getD j 0) := by
    intro m hm
    have := mulVec_entry henc hcode fun j => m.getD j 0
    rwa [← hm, map_getD_range, hm] at this
  constructor
  · rintro ⟨c7, c9⟩
    refine C10_unique_decoding (lpn.keyLen + 1) lpn.mssgLen e (by omega) hlen hcode (by omega) enc henc
      ((List.range lpn.mssgLen).map fun a => ∑ j ∈ Finset.range (lpn.keyLen + 1), enc.entry a j * m2 j + d a) _ _ _ _ (by simp) c7
      (by simp) (hmulOf m c7) (mulVec_entry henc hcode m2) ?_ ?_
    · rw [hdist_tab]
      exact c9
    · rw [hdist_tab]
      exact hself
  · rintro rfl
    refine ⟨by simp, ?_⟩
    refine le_of_eq_of_le ?_ hself
    congr 1
    refine List.filter_congr fun a _ => ?_
    rw [decide_eq_decide]
    refine not_congr ?_
    rw [Finset.sum_congr rfl fun j hj => ?_]
    rw [List.getD_eq_getElem _ _ (by simpa using hj), List.getElem_map, List.getElem_range]

/-- C117. Even if more errors differ, only few messages fit: at most `N (N - f - k) / ((N - f)² - N k)` for rows of `N` elements, keys of `k` elements, and
`f` errors which differ, if `N k < (N - f)²`; and the message of the row is one of them. -/
theorem C117_list (henc : rsGenMat (lpn.keyLen + 1) lpn.mssgLen = some enc) (hcode : lpn.mssgLen < CodeField.order F)
    (hlen : lpn.keyLen + 1 ≤ lpn.mssgLen) {gt1 gt2 : Gate} (h1 : HoldsGate hash rng ctx lpn enc p S errors place mask results gt1)
    (h2 : HoldsGate hash rng ctx lpn enc p S errors place mask results gt2) {g1 g2 x i1 i2 w : Nat}
    (hs : SameMatrix p ctx.l place gt1 gt2 g1 g2 x i1 i2 w) {b o1 o2 r : Nat} (hb : b < 2) (ho1 : o1 < 2) (ho2 : o2 < 2)
    (hr1 : r = readRow gt1.kind i1 b o1) (hr2 : r = readRow gt2.kind i2 b o2) (k1 k2 : Nat → F)
    (hk : ∀ j < lpn.keyLen, k1 j = partnerKey S gt1 i1 o1 j ∧ k2 j = partnerKey S gt2 i2 o2 j) {f : Nat}
    (hf : lpn.mssgLen * lpn.keyLen < (lpn.mssgLen - f) ^ 2)
    (hfew : ((List.range lpn.mssgLen).filter fun a =>
      at2 errors (p.errorIdx lpn.mssgLen g1 r a) x ≠ at2 errors (p.errorIdx lpn.mssgLen g2 r a) x).length ≤ f) :
    (∀ C : Finset (List F), (∀ m ∈ C, DiffDecrypts hash rng ctx lpn enc p place results f gt1 gt2 r k1 k2
        ((List.range (lpn.keyLen + 1)).map (S.msg gt1.outWire
          (S.row gt1.kind r (mask (gt1.inWires.getD 0 0)) (mask (gt1.inWires.getD 1 0)) (mask gt1.outWire)))) m) →
      C.card * ((lpn.mssgLen - f) ^ 2 - lpn.mssgLen * lpn.keyLen) ≤ lpn.mssgLen * (lpn.mssgLen - f - lpn.keyLen)) ∧
    DiffDecrypts hash rng ctx lpn enc p place results f gt1 gt2 r k1 k2
        ((List.range (lpn.keyLen + 1)).map (S.msg gt1.outWire
          (S.row gt1.kind r (mask (gt1.inWires.getD 0 0)) (mask (gt1.inWires.getD 1 0)) (mask gt1.outWire))))
        ((List.range (lpn.keyLen + 1)).map (S.msg gt2.outWire
          (S.row gt2.kind r (mask (gt2.inWires.getD 0 0)) (mask (gt2.inWires.getD 1 0)) (mask gt2.outWire)))) := by
  have hfits := fits_iff henc hcode h1 h2 hs hb ho1 ho2 hr1 hr2 (by omega) k1 k2 hk f
  set m1 := (List.range (lpn.keyLen + 1)).map (S.msg gt1.outWire
          (S.row gt1.kind r (mask (gt1.inWires.getD 0 0)) (mask (gt1.inWires.getD 1 0)) (mask gt1.outWire)))
  set m2 := S.msg gt2.outWire (S.row gt2.kind r (mask (gt2.inWires.getD 0 0)) (mask (gt2.inWires.getD 1 0)) (mask gt2.outWire))
  set d := fun a => at2 errors (p.errorIdx lpn.mssgLen g2 r a) x - at2 errors (p.errorIdx lpn.mssgLen g1 r a) x with hd
  set N := lpn.mssgLen with hN
  set k := lpn.keyLen with hkdef
  have hkf : k ≤ N - f := by
    by_contra hlt
    have : (N - f) ^ 2 ≤ N * k := by
      rw [sq]
      exact Nat.mul_le_mul (Nat.sub_le _ _) (by omega)
    omega
  refine ⟨fun C hC => ?_, ?_⟩
  · let T : List F → Finset Nat := fun m => (Finset.range N).filter fun a =>
      ∑ j ∈ Finset.range (k + 1), enc.entry a j * m.getD j 0 = ∑ j ∈ Finset.range (k + 1), enc.entry a j * m2 j + d a
    have := few_sets C T (Finset.range N) (A := N - f) (k := k) hkf (fun m _ => Finset.filter_subset _ _) (fun m hm => ?_)
      (fun m hm m' hm' hne => ?_) (by rw [Finset.card_range]; exact hf.le)
    · rwa [Finset.card_range] at this
    · have hb := ((hfits m).1 (hC m hm)).2
      have e1 : ((List.range N).filter fun a => ∑ j ∈ Finset.range (k + 1), enc.entry a j * m.getD j 0
          ≠ ∑ j ∈ Finset.range (k + 1), enc.entry a j * m2 j + d a).length
          = ((Finset.range N).filter fun a => ¬ ∑ j ∈ Finset.range (k + 1), enc.entry a j * m.getD j 0
            = ∑ j ∈ Finset.range (k + 1), enc.entry a j * m2 j + d a).card := rfl
      have e2 := Finset.card_filter_add_card_filter_not (s := Finset.range N) (fun a => ∑ j ∈ Finset.range (k + 1), enc.entry a j * m.getD j 0
            = ∑ j ∈ Finset.range (k + 1), enc.entry a j * m2 j + d a)
      rw [Finset.card_range] at e2
      have hb' := le_of_eq_of_le e1.symm hb
      show N - f ≤ (T m).card
      show N - f ≤ ((Finset.range N).filter _).card
      omega
    · have l1 := ((hfits m).1 (hC m hm)).1
      have l2 := ((hfits m').1 (hC m' hm')).1
      obtain ⟨G, hG, c, c', g1, g2, -, -, g5⟩ := C10_distance (k + 1) N (by omega) hlen hcode m m' l1 l2 hne
      rw [henc, Option.some.injEq] at hG
      subst hG
      have q1 := mulVec_entry henc hcode fun j => m.getD j 0
      have q2 := mulVec_entry henc hcode fun j => m'.getD j 0
      rw [← l1, map_getD_range, l1, g1, Option.some.injEq] at q1
      rw [← l2, map_getD_range, l2, g2, Option.some.injEq] at q2
      rw [q1, q2, hdist_tab] at g5
      have e1 : ((List.range N).filter fun a => ∑ j ∈ Finset.range (k + 1), enc.entry a j * m.getD j 0
          ≠ ∑ j ∈ Finset.range (k + 1), enc.entry a j * m'.getD j 0).length
          = ((Finset.range N).filter fun a => ¬ ∑ j ∈ Finset.range (k + 1), enc.entry a j * m.getD j 0
            = ∑ j ∈ Finset.range (k + 1), enc.entry a j * m'.getD j 0).card := rfl
      have e2 := Finset.card_filter_add_card_filter_not (s := Finset.range N) (fun a => ∑ j ∈ Finset.range (k + 1), enc.entry a j * m.getD j 0
            = ∑ j ∈ Finset.range (k + 1), enc.entry a j * m'.getD j 0)
      rw [Finset.card_range] at e2
      have g5' := le_of_le_of_eq g5 e1
      have : (T m ∩ T m').card ≤ ((Finset.range N).filter fun a => ∑ j ∈ Finset.range (k + 1), enc.entry a j * m.getD j 0
            = ∑ j ∈ Finset.range (k + 1), enc.entry a j * m'.getD j 0).card := by
        refine Finset.card_le_card fun a ha => ?_
        obtain ⟨a1, a2⟩ := Finset.mem_inter.1 ha
        have a1 := Finset.mem_filter.1 a1
        have a2 := Finset.mem_filter.1 a2
        exact Finset.mem_filter.2 ⟨a1.1, a1.2.trans a2.2.symm⟩
      omega
  · refine (hfits _).2 ⟨by simp, ?_⟩
    refine le_of_eq_of_le ?_ hfew
    congr 1
    refine List.filter_congr fun a _ => ?_
    rw [decide_eq_decide]
    refine not_congr ?_
    rw [Finset.sum_congr rfl (g := fun j => enc.entry a j * m2 j) fun j hj => ?_]
    · rw [left_eq_add, sub_eq_zero, eq_comm]
    · rw [List.getD_eq_getElem _ _ (by simpa using hj), List.getElem_map, List.getElem_range]

/-- For the default parameters, 555 elements and keys of 127 elements, and as many errors which differ as are expected for two rows, 243, at most three
messages fit. -/
example : (555 - 243) ^ 2 - 555 * 127 = 26859 ∧ 555 * (555 - 243 - 127) = 102675 ∧ ∀ c, c * 26859 ≤ 102675 → c ≤ 3 :=
  ⟨by norm_num, by norm_num, fun c h => by omega⟩

/-- C117, for tables as they should be: an AND gate and an XOR gate which use the same matrix and read the same wire on different sides.  Someone
who evaluates the circuit holds one label for each wire, the one whose number is the colour.  If the other input of the AND gate is 0,
and both other wires have the colour which the common wire does not have, they find the *other* label of the output wire of the XOR gate, too. -/
theorem C117_hidden (keys : List (List F)) (hmask : ∀ w, mask w < 2)
    (henc : rsGenMat (lpn.keyLen + 1) lpn.mssgLen = some enc) (hcode : lpn.mssgLen < CodeField.order F)
    (hlen : lpn.keyLen + 1 ≤ lpn.mssgLen) {gt1 gt2 : Gate}
    (h1 : HoldsGate hash rng ctx lpn enc p (intendedScheme lpn.keyLen p.blocks.length keys place) errors place mask results gt1)
    (h2 : HoldsGate hash rng ctx lpn enc p (intendedScheme lpn.keyLen p.blocks.length keys place) errors place mask results gt2)
    (hand : gt1.kind = .and) (hxor : gt2.kind = .xor) {g1 g2 x i1 i2 w : Nat} (hs : SameMatrix p ctx.l place gt1 gt2 g1 g2 x i1 i2 w)
    (a : Nat → Bool) (hsat1 : GateEq a gt1) (hsat2 : GateEq a gt2) (colour : Nat → Nat) (lab : Nat → Nat → F)
    (hcol : ∀ v, colour v = ((a v).toNat + mask v) % 2)
    (hlab : ∀ v, ∀ j < lpn.keyLen, lab v j = label lpn.keyLen p.blocks.length keys (place v).1 (colour v) j (place v).2) {u1 u2 : Nat}
    (hu1 : gt1.inWires[1 - i1]? = some u1) (hu2 : gt2.inWires[1 - i2]? = some u2) (hzero : a u1 = false)
    (hc1 : colour u1 = 1 - colour w) (hc2 : colour u2 = 1 - colour w) {e : Nat} (he : 2 * e < lpn.mssgLen - lpn.keyLen)
    (hfew : ((List.range lpn.mssgLen).filter fun y => at2 errors (p.errorIdx lpn.mssgLen g1 (3 * (1 - colour w)) y) x
      ≠ at2 errors (p.errorIdx lpn.mssgLen g2 (3 * (1 - colour w)) y) x).length ≤ e) (m : List F) :
    DiffDecrypts hash rng ctx lpn enc p place results e gt1 gt2 (3 * (1 - colour w)) (lab u1) (lab u2)
        ((List.range lpn.keyLen).map (lab gt1.outWire) ++ [(colour gt1.outWire : F)]) m ↔
      m = (List.range lpn.keyLen).map (fun j => label lpn.keyLen p.blocks.length keys (place gt2.outWire).1 (1 - colour gt2.outWire) j
        (place gt2.outWire).2) ++ [((1 - colour gt2.outWire : Nat) : F)] := by
  have hcl : ∀ v, colour v < 2 := fun v => by rw [hcol]; omega
  -- the rows
  have hrow : ∀ (kind : GateKind) (i b : Nat), kind ≠ .inv → readRow kind i b b = 3 * b := by
    intro kind i b hk
    cases kind
    · simp only [readRow]; split <;> omega
    · simp only [readRow]; split <;> omega
    · exact absurd rfl hk
  have hr1 : 3 * (1 - colour w) = readRow gt1.kind i1 (1 - colour w) (1 - colour w) := (hrow _ _ _ (by rw [hand]; decide)).symm
  have hr2 : 3 * (1 - colour w) = readRow gt2.kind i2 (1 - colour w) (1 - colour w) := (hrow _ _ _ (by rw [hxor]; decide)).symm
  have hw := hcl w
  -- the labels of the other wires
  have hpk : ∀ (gt : Gate) (i u : Nat), gt.kind ≠ .inv → gt.inWires[1 - i]? = some u → colour u = 1 - colour w → ∀ j < lpn.keyLen,
      lab u j = partnerKey (intendedScheme lpn.keyLen p.blocks.length keys place) gt i (1 - colour w) j := by
    intro gt i u hk hu hc j hj
    have hg : gt.inWires.getD (1 - i) 0 = u := by rw [List.getD_eq_getElem?_getD, hu]; rfl
    unfold partnerKey
    rw [hg, hlab u j hj, hc]
    cases hkk : gt.kind
    · rfl
    · rfl
    · exact absurd hkk hk
  have key := C117_message (S := intendedScheme lpn.keyLen p.blocks.length keys place) (mask := mask) henc hcode hlen h1 h2 hs
    (b := 1 - colour w) (o1 := 1 - colour w) (o2 := 1 - colour w) (by omega) (by omega) (by omega) hr1 hr2 (lab u1) (lab u2)
    (fun j hj => ⟨hpk gt1 i1 u1 (by rw [hand]; decide) hu1 hc1 j hj, hpk gt2 i2 u2 (by rw [hxor]; decide) hu2 hc2 j hj⟩) he hfew m
  -- the messages
  have hm1 : intendedRow gt1.kind (3 * (1 - colour w)) (mask (gt1.inWires.getD 0 0)) (mask (gt1.inWires.getD 1 0)) (mask gt1.outWire)
      = colour gt1.outWire := by
    have hA0 : ∀ (v : Bool) (x y z : Fin 2), y.1 % 2 = 1 - (v.toNat + x) % 2 →
        intendedRow .and (3 * (1 - (v.toNat + x) % 2)) x y z = z.1 % 2 ∧ intendedRow .and (3 * (1 - (v.toNat + x) % 2)) y x z = z.1 % 2 := by
      decide
    have hr := hs.read1
    cases gt1 with
    | and g =>
      have hlt := (List.getElem?_eq_some_iff.1 hr).1
      have hi : i1 = 0 ∨ i1 = 1 := by simp [Gate.inWires] at hlt; omega
      have heq : a g.out = (a g.inp[0] && a g.inp[1]) := hsat1
      rcases hi with rfl | rfl
      · simp only [Gate.inWires, List.getElem?_cons_zero, Option.some.injEq, Nat.sub_zero, List.getElem?_cons_succ] at hr hu1
        subst hr hu1
        have A := (hA0 (a g.inp[0]) ⟨_, hmask g.inp[0]⟩ ⟨_, hmask g.inp[1]⟩ ⟨_, hmask g.out⟩ (by
          rw [hcol g.inp[1], hcol g.inp[0], hzero] at hc1
          simpa using hc1)).1
        simp only [Gate.inWires, Gate.kind, Gate.outWire, List.getD_cons_zero, List.getD_cons_succ]
        rw [hcol g.out, heq, hzero, hcol g.inp[0], Bool.and_false, Bool.toNat_false, Nat.zero_add]
        exact A
      · simp only [Gate.inWires, List.getElem?_cons_zero, Option.some.injEq, Nat.sub_self, List.getElem?_cons_succ] at hr hu1
        subst hr hu1
        have A := (hA0 (a g.inp[1]) ⟨_, hmask g.inp[1]⟩ ⟨_, hmask g.inp[0]⟩ ⟨_, hmask g.out⟩ (by
          rw [hcol g.inp[1], hcol g.inp[0], hzero] at hc1
          simpa using hc1)).2
        simp only [Gate.inWires, Gate.kind, Gate.outWire, List.getD_cons_zero, List.getD_cons_succ]
        rw [hcol g.out, heq, hzero, hcol g.inp[1], Bool.false_and, Bool.toNat_false, Nat.zero_add]
        exact A
    | xor g => simp [Gate.kind] at hand
    | inv g => simp [Gate.kind] at hand
  have hm2 : intendedRow gt2.kind (3 * (1 - colour w)) (mask (gt2.inWires.getD 0 0)) (mask (gt2.inWires.getD 1 0)) (mask gt2.outWire)
      = 1 - colour gt2.outWire := by
    have hX : ∀ (v u : Bool) (x y z : Fin 2), (u.toNat + y.1) % 2 = 1 - (v.toNat + x) % 2 →
        intendedRow .xor (3 * (1 - (v.toNat + x) % 2)) x y z = 1 - ((xor v u).toNat + z) % 2 ∧
        intendedRow .xor (3 * (1 - (v.toNat + x) % 2)) y x z = 1 - ((xor u v).toNat + z) % 2 := by
      decide
    have hr := hs.read2
    cases gt2 with
    | xor g =>
      have hlt := (List.getElem?_eq_some_iff.1 hr).1
      have hi : i2 = 0 ∨ i2 = 1 := by simp [Gate.inWires] at hlt; omega
      have heq : a g.out = xor (a g.inp[0]) (a g.inp[1]) := hsat2
      rcases hi with rfl | rfl
      · simp only [Gate.inWires, List.getElem?_cons_zero, Option.some.injEq, Nat.sub_zero, List.getElem?_cons_succ] at hr hu2
        subst hr hu2
        have A := (hX (a g.inp[0]) (a g.inp[1]) ⟨_, hmask g.inp[0]⟩ ⟨_, hmask g.inp[1]⟩ ⟨_, hmask g.out⟩ (by
          rw [hcol g.inp[1], hcol g.inp[0]] at hc2
          simpa using hc2)).1
        simp only [Gate.inWires, Gate.kind, Gate.outWire, List.getD_cons_zero, List.getD_cons_succ]
        rw [hcol g.out, heq, hcol g.inp[0]]
        exact A
      · simp only [Gate.inWires, List.getElem?_cons_zero, Option.some.injEq, Nat.sub_self, List.getElem?_cons_succ] at hr hu2
        subst hr hu2
        have A := (hX (a g.inp[1]) (a g.inp[0]) ⟨_, hmask g.inp[1]⟩ ⟨_, hmask g.inp[0]⟩ ⟨_, hmask g.out⟩ (by
          rw [hcol g.inp[1], hcol g.inp[0]] at hc2
          simpa using hc2)).2
        simp only [Gate.inWires, Gate.kind, Gate.outWire, List.getD_cons_zero, List.getD_cons_succ]
        rw [hcol g.out, heq, hcol g.inp[1]]
        exact A
    | and g => simp [Gate.kind] at hxor
    | inv g => simp [Gate.kind] at hxor
  have hmsg : ∀ (v b : Nat), (List.range (lpn.keyLen + 1)).map ((intendedScheme lpn.keyLen p.blocks.length keys place).msg v b)
      = (List.range lpn.keyLen).map (fun j => label lpn.keyLen p.blocks.length keys (place v).1 b j (place v).2) ++ [(b : F)] := by
    intro v b
    rw [map_succ_append]
    congr 1
    · exact List.map_congr_left fun j hj => by simp [intendedScheme, List.mem_range.1 hj]
    · simp [intendedScheme]
  rw [show (intendedScheme lpn.keyLen p.blocks.length keys place : Scheme F).row = intendedRow from rfl, hm1, hm2, hmsg, hmsg] at key
  rw [← key, List.map_congr_left fun j hj => hlab gt1.outWire j (List.mem_range.1 hj)]

/-- C117 for runs on the shipped AES circuit with 16 gates per block: all parties run `preproc` and `garble`, with whatever coins.  In row 0 and in row 3
of the tables of the two gates of `C117_false`, the same matrix is used, and the difference of the two rows contains no label of the common wire 2013: what
remains after subtracting the matrix times the difference of the labels of the wires 1970 and 1936 is the difference of the messages, encoded,
plus the difference of the errors. -/
theorem C117_run (ctx : Ctx F) (good : ctx.Good) (hl : ctx.l = 16) (parties : ctx.t + 2 * ctx.l ≤ ctx.n) (mult : 2 * (ctx.t + ctx.l - 1) < ctx.n)
    (hash : List Nat → List Nat) (rng : List Nat → Nat → F) (lpn : LpnParams) (code : lpn.mssgLen < CodeField.order F) (hpos : 0 < lpn.mssgLen)
    (fit : ctx.n + ctx.l + 36919 ≤ CodeField.order F) (m mb : Mat F) (hm : DealMat ctx.n m) (hmb : DealMat ctx.n mb) (hbin : mb.Binary) :
    ∃ circ p desc g, fromBristol aesText.toList = some circ ∧ circ.pack ctx.l = some p ∧ p.describe ctx.n ctx.t ctx.l lpn = some desc ∧
      GarbleCtx.new hash rng ctx lpn p = some g ∧
      ∀ (tp : PreTapes F), tp.Ok ctx.n ctx.t ctx.l m mb desc → ∀ (gtp : GarbleTapes F), gtp.Ok ctx g →
        ∃ pre tables st masks keys errors place mask, preproc ctx m mb desc tp = some pre ∧ garble ctx g gtp pre = some (tables, st) ∧
          VecSharing ctx.n (ctx.t + ctx.l) (defaultPos ctx.n ctx.l) masks (pre.map (·.masks)) ∧
          VecSharing ctx.n (ctx.t + ctx.l) (defaultPos ctx.n ctx.l) keys (pre.map (·.keys.flat)) ∧
          VecSharing ctx.n (ctx.t + ctx.l) (defaultPos ctx.n ctx.l) errors (pre.map (·.errors)) ∧ GoodSecrets p masks errors place mask ∧
          ∃ gt1 ∈ circ.gates, ∃ gt2 ∈ circ.gates, SameMatrix p ctx.l place gt1 gt2 54 548 0 1 0 2013 ∧
          ∀ results, (List.range ctx.n).mapM (fun i => tables.mapM fun T => T[i]?) = some results → ∀ b < 2,
            ∃ ws1 ws2 row1 row2, p.blocks[p.inputs.length + 54]? = some ws1 ∧ p.blocks[p.inputs.length + 548]? = some ws2 ∧
              openRow ctx lpn.mssgLen ws1.length results 54 (3 * b) 0 = some row1 ∧
              openRow ctx lpn.mssgLen ws2.length results 548 (3 * b) 0 = some row2 ∧
              unmaskRow rng ctx.l lpn (hash (p.nonceString ctx.l 54))
                  (fun j => readLabel lpn.keyLen keys (place 1970).1 b j (place 1970).2 - readLabel lpn.keyLen keys (place 1936).1 b j (place 1936).2)
                  (3 * b) 0 (List.zipWith (· - ·) row1 row2)
                = (List.range lpn.mssgLen).map fun a =>
                  ∑ j ∈ Finset.range (lpn.keyLen + 1), g.enc.entry a j *
                      (labelMsg lpn.keyLen p.blocks.length masks keys (place gt1.outWire).1
                          (((b + mask 1970) * (b + mask 2013) + mask gt1.outWire) % 2) j (place gt1.outWire).2
                        - labelMsg lpn.keyLen p.blocks.length masks keys (place gt2.outWire).1
                          ((b + mask 2013 + (b + mask 1936) + mask gt2.outWire) % 2) j (place gt2.outWire).2)
                    + (at2 errors (p.errorIdx lpn.mssgLen 54 (3 * b) a) 0 - at2 errors (p.errorIdx lpn.mssgLen 548 (3 * b) a) 0) := by
  obtain ⟨circ, p, desc, g, k1, k2, k3, k4, k5⟩ := C84_sequential ctx good parties mult hash rng lpn code aesNet.desc
    (Net.proper aes_small aes_checked) aesText.toList (by rw [aes_text]; exact Net.isFile aes_small _) fit m mb hm hmb hbin
  obtain ⟨c, p', f1, f2, -, gt1, hg1, gt2, hg2, q1, q2, q3, q4, hsame⟩ := C117_false
  rw [k1, Option.some.injEq] at f1
  subst f1
  rw [← hl, k2, Option.some.injEq] at f2
  subst f2
  have hgd : circ.gates = aesNet.desc.gates := by
    rw [aes_parse, Option.some.injEq] at k1
    rw [← k1]
    rfl
  refine ⟨circ, p, desc, g, k1, k2, k3, k4, fun tp htp gtp hgtp => ?_⟩
  obtain ⟨pre, tables, st, masks, keys, errors, place, mask, r1, r2, r3, r4, r5, r6, r7, r8, r9⟩ := k5 tp htp gtp hgtp
  have hs := hsame place r7
  rw [← hl] at hs
  refine ⟨pre, tables, st, masks, keys, errors, place, mask, r1, r2, r4, r5, r6, r8, gt1, hg1, gt2, hg2, hs, fun results hres b hb => ?_⟩
  have a1 := holds_code (r9 results hres gt1 (by rw [← hgd]; exact hg1))
  have a2 := holds_code (r9 results hres gt2 (by rw [← hgd]; exact hg2))
  have hr : ∀ b < 2, readRow .and 1 b b = 3 * b ∧ readRow .xor 0 b b = 3 * b := by decide
  obtain ⟨ws1, ws2, row1, row2, d1, d2, d3, d4, d5⟩ := C117_difference a1 a2 hs (b := b) (o1 := b) (o2 := b) (r := 3 * b) hb hb hb
    (by rw [q1, (hr b hb).1]) (by rw [q2, (hr b hb).2]) hpos
  refine ⟨ws1, ws2, row1, row2, d1, d2, d3, d4, ?_⟩
  have b1 : (fun j => partnerKey (codeScheme lpn.keyLen p.blocks.length masks keys place) gt1 1 b j
        - partnerKey (codeScheme lpn.keyLen p.blocks.length masks keys place) gt2 0 b j)
      = fun j => readLabel lpn.keyLen keys (place 1970).1 b j (place 1970).2 - readLabel lpn.keyLen keys (place 1936).1 b j (place 1936).2 := by
    funext j
    simp only [partnerKey, q1, q2, q3, q4]
    rfl
  rw [b1] at d5
  rw [d5, q1, q2, q3, q4]
  have hrow : ∀ x y z : Nat, rowBit .and (3 * b) x y z = ((b + x) * (b + y) + z) % 2 ∧ rowBit .xor (3 * b) x y z = (b + x + (b + y) + z) % 2 := by
    intro x y z
    obtain rfl | rfl : b = 0 ∨ b = 1 := by omega
    · simp [rowBit]
    · simp [rowBit]
  refine List.map_congr_left fun a _ => ?_
  simp only [codeScheme, List.getD_cons_zero, List.getD_cons_succ, (hrow _ _ _).1, (hrow _ _ _).2]

end

end Verif.Props
