import Verif.ProtoIdLemmas

/-!
# Properties C26-C30: protocol IDs (`src/protocol/mod.rs:14-71`)
-/

namespace Verif.Props

/-! ### C26: child IDs -/

/-- Specification: the little-endian base-256 digits of `v`. -/
def digitsLE (k v : Nat) : List Nat := (List.range k).map fun j => v / 256 ^ j % 256

theorem digitsLE_eq (k v : Nat) : digitsLE k v = leDigits k v := by
  induction k generalizing v with
  | zero => rfl
  | succ k ih =>
    unfold digitsLE at ih ⊢
    rw [List.range_succ_eq_map, List.map_cons, List.map_map, leDigits, ← ih]
    simp only [pow_zero, Nat.div_one, List.cons.injEq, true_and]
    apply List.map_congr_left
    intro j _
    simp only [Function.comp, Nat.succ_eq_add_one]
    rw [pow_succ, mul_comm, Nat.div_div_eq_div_mul]

/-- The calls before the first `None` are those below `256 ^ k - 1`. -/
theorem call_before_none {parent : ProtocolID} {num : Nat} {b : IdBuilder}
    (hb : IdBuilder.new parent num = some b) (i : Nat)
    (hi : ∀ j ≤ i, (b.call j).isSome) : i + 1 < 256 ^ suffixLen num := by
  obtain ⟨_, h2, h3⟩ := new_some hb
  by_contra hc
  have hp : 0 < 256 ^ suffixLen num := by positivity
  have := hi (256 ^ suffixLen num - 1) (by omega)
  rw [call_eq b h2 0 h3, show 0 + (256 ^ suffixLen num - 1) + 1 = 256 ^ suffixLen num by omega,
    Nat.mod_self] at this
  simp at this

/-- C26. The `i`-th ID (before the first `None`) is the parent followed by the little-endian digits of
`i`, with one number of digits for the whole builder. -/
theorem C26_ids (parent : ProtocolID) (num : Nat) (b : IdBuilder)
    (hb : IdBuilder.new parent num = some b) :
    ∃ k, ∀ i, (∀ j ≤ i, (b.call j).isSome) →
      b.call i = some (parent ++ digitsLE k i) ∧ i < 256 ^ k := by
  obtain ⟨_, h2, h3⟩ := new_some hb
  refine ⟨suffixLen num, fun i hi => ?_⟩
  have hlt := call_before_none hb i hi
  rw [call_eq b h2 0 h3, Nat.zero_add, Nat.mod_eq_of_lt hlt, if_pos (by omega), digitsLE_eq]
  exact ⟨rfl, by omega⟩

/-- C26. The IDs returned before the first `None` are pairwise distinct, extend the parent, and none is a
prefix of another. -/
theorem C26_distinct (parent : ProtocolID) (num : Nat) (b : IdBuilder)
    (hb : IdBuilder.new parent num = some b) (i j : Nat) (hij : i ≠ j)
    (hall : ∀ m ≤ max i j, (b.call m).isSome) :
    ∃ x y, b.call i = some x ∧ b.call j = some y ∧ parent <+: x ∧ parent <+: y ∧
      x.length = y.length ∧ x ≠ y := by
  obtain ⟨k, h⟩ := C26_ids parent num b hb
  obtain ⟨e1, l1⟩ := h i (fun m hm => hall m (by omega))
  obtain ⟨e2, l2⟩ := h j (fun m hm => hall m (by omega))
  refine ⟨_, _, e1, e2, List.prefix_append _ _, List.prefix_append _ _, by simp [digitsLE], ?_⟩
  intro he
  rw [List.append_cancel_left_eq, digitsLE_eq, digitsLE_eq] at he
  exact hij (leDigits_inj k i j l1 l2 he)

example : (IdBuilder.new [7] 1000).map (fun b => (b.call 0, b.call 1, b.call 300))
    = some (some [7, 0, 0], some [7, 1, 0], some [7, 44, 1]) := by decide +kernel

/-! ### C27: enough IDs -/

/-- C27. Exactly which bounds are honoured: all except the powers of 256 (including `256^0 = 1`). -/
theorem C27_enough_partial (parent : ProtocolID) (num : Nat) (b : IdBuilder) (hnum : 1 ≤ num)
    (hb : IdBuilder.new parent num = some b) :
    (∀ i < num, (b.call i).isSome) ↔ ¬ ∃ k, num = 256 ^ k := by
  obtain ⟨_, h2, h3⟩ := new_some hb
  have hp : 0 < 256 ^ suffixLen num := by positivity
  have hle := pow_suffixLen num
  rw [← lt_pow_suffixLen]
  constructor
  · intro h
    have := call_before_none hb (num - 1) (fun j hj => h j (by omega))
    omega
  · intro h i hi
    rw [call_eq b h2 0 h3, Nat.zero_add, Nat.mod_eq_of_lt (by omega), if_pos (by omega)]
    rfl

/-- C27. The builder itself can be created for every bound up to `2^63` and panics above. -/
theorem C27_new (parent : ProtocolID) (num : Nat) :
    (IdBuilder.new parent num).isSome ↔ num ≤ 2 ^ 63 := by
  unfold IdBuilder.new nextPowerOfTwo
  split <;> simp_all

/-- C27. The property as documented fails: a builder for one child returns none. -/
theorem C27_enough_false : ∃ (parent : ProtocolID) (num : Nat) (b : IdBuilder), 1 ≤ num ∧
    IdBuilder.new parent num = some b ∧ ∃ i < num, b.call i = none :=
  ⟨[], 1, ⟨[], []⟩, le_refl _, by decide +kernel, 0, by norm_num, by decide +kernel⟩

/-- A second witness: the last of 256 children. -/
example : (IdBuilder.new [9] 256).map (fun b => (b.call 254, b.call 255))
    = some (some [9, 254], none) := by decide +kernel

/-! ### C28: exhaustion -/

/-- C28 as stated is false: after `None`, the builder returns IDs again, and they repeat. -/
theorem C28_exhausted_false : ∃ (parent : ProtocolID) (num : Nat) (b : IdBuilder),
    IdBuilder.new parent num = some b ∧ ∃ i j, i < j ∧ b.call i = none ∧ (b.call j).isSome ∧
      b.call j = b.call 0 := by
  refine ⟨[], 2, ⟨[], [0]⟩, by decide +kernel, 255, 256, by norm_num, ?_, ?_, ?_⟩ <;> decide +kernel

/-- C28. What holds instead: the calls are periodic; every `256 ^ k`-th call returns `None`, all others
return the ID belonging to the call number modulo `256 ^ k`.  In particular a builder without suffix bytes
(bound 0 or 1) never returns an ID. -/
theorem C28_exhausted_partial (parent : ProtocolID) (num : Nat) (b : IdBuilder)
    (hb : IdBuilder.new parent num = some b) :
    ∃ k, (∀ i, b.call i = none ↔ (i + 1) % 256 ^ k = 0) ∧
      (∀ i, b.call (i + 256 ^ k) = b.call i) := by
  obtain ⟨_, h2, h3⟩ := new_some hb
  refine ⟨suffixLen num, fun i => ?_, fun i => ?_⟩
  · rw [call_eq b h2 0 h3, Nat.zero_add]
    split <;> simp_all
  · rw [call_eq b h2 0 h3, call_eq b h2 0 h3, Nat.zero_add, Nat.zero_add]
    rw [show i + 256 ^ suffixLen num + 1 = i + 1 + 256 ^ suffixLen num by omega, Nat.add_mod_right,
      ← leDigits_mod _ (i + 256 ^ suffixLen num), Nat.add_mod_right, leDigits_mod]

/-! ### C29: distinct IDs of concurrent subprotocols -/

/-- C29. Whenever `garble` obtains its IDs, the IDs of all its subprotocols are pairwise distinct and
extend the ID `garble` was called with. -/
theorem C29_garble_distinct (id : ProtocolID) (inpBlocks l : Nat) (gates : List GateKind)
    (ids : List ProtocolID) (h : garbleIdsOf id inpBlocks l gates = some ids) :
    ids.Nodup ∧ ∀ x ∈ ids, id <+: x := by
  unfold garbleIdsOf at h
  simp only at h
  generalize (inpBlocks + gates.length + l - 1) / l = rOut at h
  generalize ((gates.map GateKind.arity).sum + l - 1) / l = rInp at h
  generalize inpBlocks + gates.length = tOut at h
  generalize (gates.map GateKind.arity).sum = tInp at h
  have hs := (garbleIds_isSome id rOut rInp tOut tInp gates).1 (by rw [h]; rfl)
  obtain ⟨h1, h2⟩ := hs (4 + gates.length) (by simp)
  rw [garbleIds_eq id _ _ _ _ gates h1 h2] at h
  simp only at h
  set k := suffixLen (4 + gates.length) with hk
  obtain ⟨l0, e0, h⟩ := Option.bind_eq_some_iff.1 h
  obtain ⟨l1, e1, h⟩ := Option.bind_eq_some_iff.1 h
  obtain ⟨l2, e2, h⟩ := Option.bind_eq_some_iff.1 h
  obtain ⟨l3, e3, h⟩ := Option.bind_eq_some_iff.1 h
  simp only [Option.some.injEq] at h
  have c0 := childIds_nodup e0
  have c1 := childIds_nodup e1
  have c2 := childIds_nodup e2
  have c3 := childIds_nodup e3
  -- prefixes: the IDs handed out by the top-level builder
  set lg := (List.zip ((List.range gates.length).map fun i => id ++ leDigits k (4 + i)) gates).map
    fun p => gateIdsSpec p.1 p.2 with hlg
  have hflat : ids = ([l0, l1, l2, l3] ++ lg).flatten := by
    rw [← h]; simp
  have hgate : ∀ (p : ProtocolID) (g : GateKind),
      (gateIdsSpec p g).Nodup ∧ ∀ x ∈ gateIdsSpec p g, p <+: x := by
    intro p g
    cases g <;> simp [gateIdsSpec, List.prefix_append]
  have hgs : ∀ (m : Nat) (gs : List GateKind), List.Forall₂ (fun (p : ProtocolID) l => l.Nodup ∧ ∀ x ∈ l, p <+: x)
      ((List.range gs.length).map fun i => id ++ leDigits k (m + i))
      ((List.zip ((List.range gs.length).map fun i => id ++ leDigits k (m + i)) gs).map
        fun p => gateIdsSpec p.1 p.2) := by
    intro m gs
    induction gs generalizing m with
    | nil => simp
    | cons g gs ih =>
      rw [List.length_cons, List.range_succ_eq_map, List.map_cons, List.map_map, List.zip_cons_cons,
        List.map_cons]
      refine List.Forall₂.cons (hgate _ _) ?_
      have := ih (m + 1)
      have he : ((fun i => id ++ leDigits k (m + i)) ∘ Nat.succ) = fun i => id ++ leDigits k (m + 1 + i) := by
        funext i
        simp only [Function.comp, Nat.succ_eq_add_one]
        rw [show m + (i + 1) = m + 1 + i by omega]
      rw [he]
      exact this
  have hF : List.Forall₂ (fun (p : ProtocolID) l => l.Nodup ∧ ∀ x ∈ l, p <+: x)
      ((List.range (4 + gates.length)).map fun i => id ++ leDigits k i) ([l0, l1, l2, l3] ++ lg) := by
    rw [List.range_add, List.map_append]
    have h4 : (List.range 4).map (fun i => id ++ leDigits k i)
        = [id ++ leDigits k 0, id ++ leDigits k 1, id ++ leDigits k 2, id ++ leDigits k 3] := rfl
    rw [h4, List.map_map]
    refine List.Forall₂.cons ⟨c0.1, c0.2.2⟩ (List.Forall₂.cons ⟨c1.1, c1.2.2⟩
      (List.Forall₂.cons ⟨c2.1, c2.2.2⟩ (List.Forall₂.cons ⟨c3.1, c3.2.2⟩ ?_)))
    exact hgs 4 gates
  constructor
  · rw [hflat]
    refine nodup_flatten_of_prefixes _ _ (id.length + k) ?_ ?_ hF
    · intro p hp
      simp only [List.mem_map] at hp
      obtain ⟨i, _, rfl⟩ := hp
      rw [List.length_append, leDigits_length]
    · apply List.Nodup.map_on _ List.nodup_range
      intro a ha b hb hab
      rw [List.append_cancel_left_eq] at hab
      simp only [List.mem_range] at ha hb
      exact leDigits_inj _ a b (by omega) (by omega) hab
  · intro x hx
    rw [hflat, List.mem_flatten] at hx
    obtain ⟨l, hl, hxl⟩ := hx
    obtain ⟨i, hi, rfl⟩ := List.getElem_of_mem hl
    have hlen := hF.length_eq
    have := (List.forall₂_iff_get.1 hF).2 i (by omega) hi
    have hpx := this.2 x (by simpa using hxl)
    refine List.IsPrefix.trans ?_ hpx
    simp only [List.get_eq_getElem, List.getElem_map]
    exact List.prefix_append _ _

/-- C29. Likewise for one call of `preproc`. -/
theorem C29_preproc_distinct (id : ProtocolID) (n : Nat) (ids : List ProtocolID)
    (h : preprocIds id n = some ids) :
    ids.Nodup ∧ ids.length = 3 + 2 * n ∧ ∀ x ∈ ids, id <+: x := by
  unfold preprocIds at h
  obtain ⟨b, hb, h⟩ := Option.bind_eq_some_iff.1 h
  obtain ⟨_, h2, h3⟩ := new_some hb
  rw [take_eq _ b h2 0 h3 (by positivity)] at h
  split at h
  · rename_i hlt
    simp only [Option.map_some, Option.some.injEq] at h
    subst h
    refine ⟨?_, by simp, ?_⟩
    · apply List.Nodup.map_on _ List.nodup_range
      intro a ha b hb hab
      rw [List.append_cancel_left_eq] at hab
      simp only [List.mem_range] at ha hb
      exact leDigits_inj (suffixLen (4 + 2 * n)) a b (by omega) (by omega) (by simpa using hab)
    · intro x hx
      simp only [List.mem_map] at hx
      obtain ⟨i, _, rfl⟩ := hx
      exact List.prefix_append _ _
  · simp at h

example : garbleIdsOf [] 2 2 [.and, .xor, .inv] =
    some [[0, 0], [0, 1], [0, 2], [1, 0], [1, 1], [1, 2], [2, 0], [2, 1], [2, 2], [2, 3], [2, 4], [3, 0],
      [3, 1], [3, 2], [3, 3], [3, 4], [4, 0], [4], [5], [6]] := by decide +kernel

/-! ### C30: running out of IDs -/

/-- C30. Exactly when `garble` obtains its IDs: none of the five numbers of children is a power of 256
(1 included). -/
theorem C30_garble_partial (id : ProtocolID) (inpBlocks l : Nat) (gates : List GateKind) :
    (garbleIdsOf id inpBlocks l gates).isSome ↔
      ∀ m ∈ [4 + gates.length, (inpBlocks + gates.length + l - 1) / l,
          ((gates.map GateKind.arity).sum + l - 1) / l, inpBlocks + gates.length,
          (gates.map GateKind.arity).sum],
        m ≤ 2 ^ 63 ∧ ¬ ∃ k, m = 256 ^ k := by
  unfold garbleIdsOf
  simp only
  rw [garbleIds_isSome]
  simp only [lt_pow_suffixLen]

/-- C30 is false: a circuit with two input blocks and three gate blocks, packing parameter 8, makes
`garble` panic, since all its output transformations form a single batch. -/
theorem C30_garble_false_small : garbleIdsOf [] 2 8 [.and, .xor, .inv] = none := by decide +kernel

/-- C30 is false: every circuit with 252 gate blocks makes `garble` panic, whatever the other numbers. -/
theorem C30_garble_false_252 (id : ProtocolID) (inpBlocks l : Nat) (gates : List GateKind)
    (h : gates.length = 252) : garbleIdsOf id inpBlocks l gates = none := by
  by_contra hc
  have hs : (garbleIdsOf id inpBlocks l gates).isSome := Option.isSome_iff_ne_none.2 hc
  rw [C30_garble_partial] at hs
  exact (hs (4 + gates.length) (by simp)).2 ⟨1, by rw [h]; norm_num⟩

example : (List.replicate 252 GateKind.xor).length = 252 := List.length_replicate

/-- C30. `preproc` always obtains its IDs (party counts fit into 32 bits). -/
theorem C30_preproc (id : ProtocolID) (n : Nat) (hn : n < 2 ^ 32) : (preprocIds id n).isSome := by
  unfold preprocIds
  obtain ⟨b, hb⟩ := new_isSome id (4 + 2 * n) (by omega)
  obtain ⟨_, h2, h3⟩ := new_some hb
  rw [hb, Option.bind_some, take_eq _ b h2 0 h3 (by positivity), if_pos]
  · rfl
  · have := pow_suffixLen (4 + 2 * n)
    omega

/-- 126 parties: `4 + 2n = 256` children are announced and 255 used. -/
example : (preprocIds [] 126).map List.length = some 255 := by decide +kernel

end Verif.Props
