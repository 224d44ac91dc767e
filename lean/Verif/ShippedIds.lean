import Verif.ShippedCount

/-!
# For which packing parameters `garble` obtains IDs for the circuits shipped in `data/circ`
-/

namespace Verif

open Props

/-- The five numbers of IDs which `garble` asks for (C30), for a circuit with `a` AND, `x` XOR and `v` INV gates and `i` input
wires. -/
def idCounts (a x v i l : Nat) : List Nat :=
  [4 + (cdiv a l + cdiv x l + cdiv v l), cdiv (cdiv i l + cdiv a l + cdiv x l + cdiv v l) l,
    cdiv (2 * cdiv a l + 2 * cdiv x l + cdiv v l) l, cdiv i l + cdiv a l + cdiv x l + cdiv v l,
    2 * cdiv a l + 2 * cdiv x l + cdiv v l]

theorem ids_iff {c : Circuit} {l : Nat} {p : PackedCircuit} (h : c.pack l = some p) (id : ProtocolID) :
    (garbleIdsOf id p.inputs.length l (p.gates.map PackedGate.kind)).isSome ↔
      ∀ m ∈ idCounts (numKind c.gates .and) (numKind c.gates .xor) (numKind c.gates .inv) c.inputs.flatten.length l,
        m ≤ 2 ^ 63 ∧ ¬ ∃ k, m = 256 ^ k := by
  obtain ⟨-, h1, h2, h3, h4⟩ := pack_counts h
  obtain ⟨a1, a2⟩ := arity_sum (p.gates.map PackedGate.kind)
  rw [C30_garble_partial, a1, a2, h1, h2, h3, h4]
  unfold idCounts
  rw [show cdiv c.inputs.flatten.length l + cdiv (numKind c.gates .and) l + cdiv (numKind c.gates .xor) l
      + cdiv (numKind c.gates .inv) l = cdiv c.inputs.flatten.length l + (cdiv (numKind c.gates .and) l
      + cdiv (numKind c.gates .xor) l + cdiv (numKind c.gates .inv) l) by omega]
  rfl

/-- The numbers are below `2 ^ 24` and not 1, 256 or 65536. -/
def idsFree (a x v i l : Nat) : Bool :=
  (idCounts a x v i l).all fun m => decide (m < 2 ^ 24) && m != 1 && m != 256 && m != 65536

theorem idsFree_sound {a x v i l : Nat} (h : idsFree a x v i l = true) :
    ∀ m ∈ idCounts a x v i l, m ≤ 2 ^ 63 ∧ ¬ ∃ k, m = 256 ^ k := by
  intro m hm
  have h' := List.all_eq_true.1 h m hm
  simp only [Bool.and_eq_true, decide_eq_true_eq, bne_iff_ne, ne_eq] at h'
  obtain ⟨⟨⟨h1, h2⟩, h3⟩, h4⟩ := h'
  refine ⟨by omega, ?_⟩
  rintro ⟨k, rfl⟩
  match k with
  | 0 => exact h2 rfl
  | 1 => exact h3 rfl
  | 2 => exact h4 rfl
  | k + 3 =>
    have : 256 ^ 3 ≤ 256 ^ (k + 3) := Nat.pow_le_pow_right (by norm_num) (by omega)
    norm_num at this h1
    omega

/-- From some packing parameter on there is a single batch of output transformations. -/
theorem idsFree_large {a x v i l l₀ : Nat} (hl₀ : 0 < l₀) (hl : l₀ ≤ l)
    (hs : cdiv i l₀ + cdiv a l₀ + cdiv x l₀ + cdiv v l₀ ≤ l₀) (hi : 0 < i) :
    ¬ ∀ m ∈ idCounts a x v i l, m ≤ 2 ^ 63 ∧ ¬ ∃ k, m = 256 ^ k := by
  intro h
  refine (h (cdiv (cdiv i l + cdiv a l + cdiv x l + cdiv v l) l) (by simp [idCounts])).2 ⟨0, ?_⟩
  have mono : ∀ y, cdiv y l ≤ cdiv y l₀ := fun y => by
    rw [cdiv_le_iff (by omega)]
    have := (cdiv_le_iff (a := y) (k := cdiv y l₀) hl₀).1 (le_refl _)
    exact this.trans (Nat.mul_le_mul_left _ hl)
  have h1 := mono i
  have h2 := mono a
  have h3 := mono x
  have h4 := mono v
  have h5 : cdiv (cdiv i l + cdiv a l + cdiv x l + cdiv v l) l ≤ 1 := by
    rw [cdiv_le_iff (by omega)]
    omega
  have h6 : 0 < cdiv i l := by
    by_contra hc
    have := (cdiv_le_iff (a := i) (k := 0) (show 0 < l by omega)).1 (by omega)
    omega
  have h7 : cdiv (cdiv i l + cdiv a l + cdiv x l + cdiv v l) l ≠ 0 := by
    intro hc
    have := (cdiv_le_iff (a := cdiv i l + cdiv a l + cdiv x l + cdiv v l) (k := 0) (show 0 < l by omega)).1 (by omega)
    omega
  rw [pow_zero]
  omega

theorem sub64_ids (l : Nat) (hl : 0 < l) : (∀ m ∈ idCounts 63 313 63 128 l, m ≤ 2 ^ 63 ∧ ¬ ∃ k, m = 256 ^ k) ↔ l < 25 := by
  constructor
  · intro h
    by_contra hc
    exact idsFree_large (l₀ := 25) (by norm_num) (by omega) (by decide) (by norm_num) h
  · intro h
    have : ∀ l < 25, 0 < l → idsFree 63 313 63 128 l = true := by decide +kernel
    exact idsFree_sound (this l h hl)

theorem aes_ids (l : Nat) (hl : 0 < l) :
    (∀ m ∈ idCounts 6400 28176 2087 256 l, m ≤ 2 ^ 63 ∧ ¬ ∃ k, m = 256 ^ k) ↔ l < 193 ∧ l ≠ 146 := by
  constructor
  · intro h
    constructor
    · by_contra hc
      exact idsFree_large (l₀ := 193) (by norm_num) (by omega) (by decide) (by norm_num) h
    · rintro rfl
      exact (h 256 (by decide +kernel)).2 ⟨1, rfl⟩
  · rintro ⟨h, h'⟩
    have : ∀ l < 193, 0 < l → l ≠ 146 → idsFree 6400 28176 2087 256 l = true := by decide +kernel
    exact idsFree_sound (this l h hl h')

theorem sha_ids (l : Nat) (hl : 0 < l) :
    (∀ m ∈ idCounts 22573 110644 1856 768 l, m ≤ 2 ^ 63 ∧ ¬ ∃ k, m = 256 ^ k) ↔ l < 371 := by
  constructor
  · intro h
    by_contra hc
    exact idsFree_large (l₀ := 371) (by norm_num) (by omega) (by decide) (by norm_num) h
  · intro h
    have : ∀ l < 371, 0 < l → idsFree 22573 110644 1856 768 l = true := by decide +kernel
    exact idsFree_sound (this l h hl)

end Verif
