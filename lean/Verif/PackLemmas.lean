import Verif.LpnLemmas
import Verif.Props.Circuit

/-!
# Packing a well-formed circuit gives a circuit fit for garbling
-/

namespace Verif
open Props

theorem topological_outs {known : List Nat} {gs : List Gate} (h : Topological known gs) :
    (gs.map Gate.outWire).Nodup ∧ (∀ w ∈ gs.map Gate.outWire, w ∉ known) ∧
      ∀ g ∈ gs, ∀ w ∈ g.inWires, w ∈ known ∨ w ∈ gs.map Gate.outWire := by
  induction gs generalizing known with
  | nil => simp
  | cons g gs ih =>
    obtain ⟨h1, h2, h3⟩ := h
    obtain ⟨i1, i2, i3⟩ := ih h3
    refine ⟨?_, ?_, ?_⟩
    · rw [List.map_cons, List.nodup_cons]
      exact ⟨fun hm => i2 _ hm List.mem_cons_self, i1⟩
    · intro w hw
      rw [List.map_cons, List.mem_cons] at hw
      rcases hw with rfl | hw
      · exact h2
      · exact fun hk => i2 w hw (List.mem_cons_of_mem _ hk)
    · intro g' hg' w hw
      rcases List.mem_cons.1 hg' with rfl | hg'
      · exact Or.inl (h1 w hw)
      · rcases i3 g' hg' w hw with h | h
        · rcases List.mem_cons.1 h with rfl | h
          · exact Or.inr (by simp)
          · exact Or.inl h
        · exact Or.inr (by simp [h])

theorem unpack_outs {g : PackedGate} (h : Aligned g) : (unpack g).map Gate.outWire = g.out := by
  cases g with
  | xor g =>
    obtain ⟨h0, h1⟩ := h
    apply List.ext_getElem (by simp [unpack, PackedGate.out]; omega)
    intro i hi hj
    simp [unpack, PackedGate.out, Gate.outWire]
  | and g =>
    obtain ⟨h0, h1⟩ := h
    apply List.ext_getElem (by simp [unpack, PackedGate.out]; omega)
    intro i hi hj
    simp [unpack, PackedGate.out, Gate.outWire]
  | inv g =>
    have h0 : g.inp[0].length = g.out.length := h
    apply List.ext_getElem (by simp [unpack, PackedGate.out]; omega)
    intro i hi hj
    simp [unpack, PackedGate.out, Gate.outWire]

theorem inps_unpack {g : PackedGate} (h : Aligned g) {ws : List Nat} (hw : ws ∈ g.inps) :
    ws.length = g.out.length ∧ ∀ w ∈ ws, ∃ x ∈ unpack g, w ∈ x.inWires := by
  cases g with
  | xor g =>
    obtain ⟨h0, h1⟩ := h
    have hw' : ws = g.inp[0] ∨ ws = g.inp[1] := by
      obtain ⟨i, hi, rfl⟩ := List.mem_iff_getElem.1 hw
      have hi' : i < 2 := by simpa [PackedGate.inps] using hi
      interval_cases i
      · exact Or.inl (by simp [PackedGate.inps])
      · exact Or.inr (by simp [PackedGate.inps])
    refine ⟨by rcases hw' with rfl | rfl <;> assumption, fun w hm => ?_⟩
    have hlen : ws.length = g.out.length := by rcases hw' with rfl | rfl <;> assumption
    obtain ⟨i, hi, rfl⟩ := List.mem_iff_getElem.1 hm
    have hu : i < (unpack (.xor g)).length := by simp [unpack]; omega
    refine ⟨_, List.getElem_mem hu, ?_⟩
    rcases hw' with rfl | rfl <;> simp [unpack, Gate.inWires]
  | and g =>
    obtain ⟨h0, h1⟩ := h
    have hw' : ws = g.inp[0] ∨ ws = g.inp[1] := by
      obtain ⟨i, hi, rfl⟩ := List.mem_iff_getElem.1 hw
      have hi' : i < 2 := by simpa [PackedGate.inps] using hi
      interval_cases i
      · exact Or.inl (by simp [PackedGate.inps])
      · exact Or.inr (by simp [PackedGate.inps])
    refine ⟨by rcases hw' with rfl | rfl <;> assumption, fun w hm => ?_⟩
    have hlen : ws.length = g.out.length := by rcases hw' with rfl | rfl <;> assumption
    obtain ⟨i, hi, rfl⟩ := List.mem_iff_getElem.1 hm
    have hu : i < (unpack (.and g)).length := by simp [unpack]; omega
    refine ⟨_, List.getElem_mem hu, ?_⟩
    rcases hw' with rfl | rfl <;> simp [unpack, Gate.inWires]
  | inv g =>
    have h0 : g.inp[0].length = g.out.length := h
    have hw' : ws = g.inp[0] := by
      obtain ⟨i, hi, rfl⟩ := List.mem_iff_getElem.1 hw
      have hi' : i < 1 := by simpa [PackedGate.inps] using hi
      interval_cases i
      simp [PackedGate.inps]
    subst hw'
    refine ⟨h0, fun w hm => ?_⟩
    obtain ⟨i, hi, rfl⟩ := List.mem_iff_getElem.1 hm
    have hu : i < (unpack (.inv g)).length := by simp [unpack]; omega
    refine ⟨_, List.getElem_mem hu, ?_⟩
    simp [unpack, Gate.inWires]

theorem blockSize_out (g : PackedGate) : blockSize g = g.out.length := by cases g <;> rfl

/-- A packed well-formed circuit is fit for garbling with the same number of slots. -/
theorem pack_ok {c : Circuit} (hc : c.WF) {l : Nat} {p : PackedCircuit} (h : c.pack l = some p) : p.Ok l := by
  obtain ⟨hperm, hblk⟩ := C23_partition c l p h
  obtain ⟨hin, _, hinl, _⟩ := C23_io c l p h
  obtain ⟨t1, t2, t3⟩ := topological_outs hc.topo
  have houts : p.gates.flatMap PackedGate.out = (p.gates.flatMap unpack).map Gate.outWire := by
    rw [List.map_flatMap]
    apply List.flatMap_congr
    intro b hb
    exact (unpack_outs (hblk b hb).1).symm
  have hpo : (p.gates.flatMap PackedGate.out).Perm (c.gates.map Gate.outWire) := by
    rw [houts]; exact hperm.map _
  have hfl : p.blocks.flatten = c.inputs.flatten ++ p.gates.flatMap PackedGate.out := by
    unfold PackedCircuit.blocks
    rw [List.flatten_append, hin, List.flatMap_def]
  refine ⟨?_, ?_, ?_, ?_⟩
  · rw [hfl, List.nodup_append]
    refine ⟨hc.inputsNodup, hpo.nodup_iff.2 t1, ?_⟩
    intro a ha b hb hab
    subst hab
    exact t2 a (hpo.mem_iff.1 hb) ha
  · intro b hb
    unfold PackedCircuit.blocks at hb
    rcases List.mem_append.1 hb with hb | hb
    · exact (hinl b hb).2
    · obtain ⟨g, hg, rfl⟩ := List.mem_map.1 hb
      have := (hblk g hg).2.2
      rwa [blockSize_out] at this
  · intro g hg ws hw
    exact (inps_unpack (hblk g hg).1 hw).1
  · intro g hg ws hw w hm
    obtain ⟨x, hx, hwx⟩ := (inps_unpack (hblk g hg).1 hw).2 w hm
    have hxc : x ∈ c.gates := hperm.mem_iff.1 (List.mem_flatMap.2 ⟨g, hg, hx⟩)
    rw [hfl, List.mem_append]
    rcases t3 x hxc w hwx with h | h
    · exact Or.inl h
    · exact Or.inr (hpo.mem_iff.2 h)

end Verif
