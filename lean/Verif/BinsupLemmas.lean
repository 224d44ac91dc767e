import Verif.BinsupData
import Verif.GF
import Mathlib.Data.ZMod.Basic
import Mathlib.Algebra.BigOperators.Intervals
import Mathlib.Algebra.Polynomial.Roots
import Mathlib.Algebra.CharP.Two
import Mathlib.Algebra.Algebra.ZMod
import Mathlib.LinearAlgebra.Dual.Lemmas

/-!
# Distance of the binary matrices

The matrices are concatenated codes: a Reed-Solomon code over GF(2^7) or GF(2^11) whose symbols are encoded with a binary
code of length 16.  `Cert` describes this structure, `Cert.check` is a computation which compares it with all entries of a
file, and `weight_ge` says that then all non-trivial combinations of outputs involve many parties.
-/

open Polynomial

namespace Verif

instance : Width 7 := ⟨by omega, by omega⟩
instance : Width 11 := ⟨by omega, by omega⟩

/-- A bit as an element of the field with two elements. -/
def bz (b : Bool) : ZMod 2 := if b then 1 else 0

theorem bz_xor (a b : Bool) : bz (a ^^ b) = bz a + bz b := by
  cases a <;> cases b <;> decide

theorem bz_and (a b : Bool) : bz (a && b) = bz a * bz b := by
  cases a <;> cases b <;> decide

theorem bz_eq_zero {b : Bool} : bz b = 0 ↔ b = false := by
  cases b <;> decide

theorem sum_range_mul {M : Type} [AddCommMonoid M] (a b : Nat) (g : Nat → M) :
    ∑ p ∈ Finset.range (a * b), g p = ∑ j ∈ Finset.range b, ∑ i ∈ Finset.range a, g (a * j + i) := by
  induction b with
  | zero => simp
  | succ b ih => rw [Nat.mul_succ, Finset.sum_range_add, ih, Finset.sum_range_succ]

/-- Sum of the selected `g x`. -/
def xorSel : Nat → (Nat → Bool) → (Nat → Nat) → Nat
  | 0, _, _ => 0
  | k + 1, c, g => xorSel k c g ^^^ (if c k then g k else 0)

theorem bz_testBit_xorSel (k : Nat) (c : Nat → Bool) (g : Nat → Nat) (r : Nat) :
    bz ((xorSel k c g).testBit r) = ∑ x ∈ Finset.range k, bz (c x) * bz ((g x).testBit r) := by
  induction k with
  | zero => simp [xorSel, bz]
  | succ k ih =>
    rw [xorSel, Nat.testBit_xor, bz_xor, ih, Finset.sum_range_succ]
    congr 1
    cases c k <;> simp [bz]

/-- Structure of a concatenated code: the field has `2^w` elements; `A` are the evaluation points of the outer code, `B` the
values of the bits of a message symbol, `E` the inner code words of the powers of `x`, `kr` the number of message symbols, `d`
the distance of the inner code. -/
structure Cert where
  w : Nat
  kr : Nat
  A : List Nat
  B : List Nat
  E : List Nat
  d : Nat

/-- Inner encoding. -/
def Cert.enc (c : Cert) (s : Nat) : Nat := xorSel c.w (fun l => s.testBit l) (fun l => c.E.getD l 0)

/-- The conditions which are computed: the inner code has distance `d`, the bits of a message symbol are independent, the
evaluation points are different, and the entries of the file are those of the concatenated code. -/
def Cert.check (c : Cert) (f : BinFile) : Bool :=
  ((List.range (2 ^ c.w)).all fun s => s == 0 ||
    decide (c.d ≤ ((List.range 16).filter fun r => (c.enc s).testBit r).length)) &&
  ((List.range (2 ^ c.w)).all fun v => v == 0 ||
    xorSel c.w (fun j => v.testBit j) (fun j => c.B.getD j 0) != 0) &&
  (c.A.all fun a => decide (a < 2 ^ c.w)) && (c.B.all fun a => decide (a < 2 ^ c.w)) && decide c.A.Nodup &&
  decide (c.A.length = f.blocks.length) && decide (f.k = c.kr * c.w) && decide (1 ≤ c.w ∧ c.w ≤ 29) &&
  (f.blocks.all fun bl => decide (bl.length = 16)) &&
  ((f.blocks.zip c.A).all fun x => (List.range c.kr).all fun i => (List.range c.w).all fun j =>
    (List.range 16).all fun r => (x.1.getD r 0).testBit (c.kr * j + i) ==
      (c.enc (Galois.gmul c.w (c.B.getD j 0) (Galois.gpow c.w x.2 i))).testBit r)

theorem flatten_getD {blocks : List (List Nat)} (h : ∀ bl ∈ blocks, bl.length = 16) (b r : Nat) (hr : r < 16) :
    blocks.flatten.getD (16 * b + r) 0 = (blocks.getD b []).getD r 0 := by
  induction blocks generalizing b with
  | nil => simp
  | cons bl bls ih =>
    have hl := h bl (by simp)
    cases b with
    | zero =>
      simp only [Nat.mul_zero, Nat.zero_add, List.flatten_cons, List.getD_cons_zero]
      rw [List.getD_eq_getElem?_getD, List.getElem?_append_left (by omega), ← List.getD_eq_getElem?_getD]
    | succ b =>
      rw [List.flatten_cons, List.getD_eq_getElem?_getD, List.getElem?_append_right (by omega),
        ← List.getD_eq_getElem?_getD, List.getD_cons_succ, ← ih (fun x hx => h x (by simp [hx]))]
      congr 1
      omega

/-- Value of the combination `u` of outputs as a function of party `p`'s input: the coefficient of `p`. -/
def BinFile.coef (f : BinFile) (u : Nat → Bool) (p : Nat) : ZMod 2 :=
  ∑ x ∈ Finset.range f.k, bz (u x) * bz ((f.lines.getD p 0).testBit x)

namespace Cert
variable {c : Cert}

section
variable [Width c.w]

/-- The additive map "bit `r` of the encoding". -/
noncomputable def lam (c : Cert) [Width c.w] (r : Nat) : GF c.w →+ ZMod 2 where
  toFun s := ∑ l ∈ Finset.range c.w, bz (s.val.testBit l) * bz ((c.E.getD l 0).testBit r)
  map_zero' := by
    refine Finset.sum_eq_zero fun l _ => ?_
    have : ((0 : GF c.w).val).testBit l = false := by
      change (0 : Nat).testBit l = false
      simp
    rw [this]
    simp [bz]
  map_add' a b := by
    rw [← Finset.sum_add_distrib]
    refine Finset.sum_congr rfl fun l _ => ?_
    have : (a + b).val.testBit l = (a.val.testBit l ^^ b.val.testBit l) := by
      change (a.val ^^^ b.val).testBit l = _
      rw [Nat.testBit_xor]
    rw [this, bz_xor, add_mul]

theorem lam_eq (r : Nat) (s : GF c.w) : c.lam r s = bz ((c.enc s.val).testBit r) := by
  rw [Cert.enc, bz_testBit_xorSel]
  rfl

/-- A table entry as a field element. -/
noncomputable def el (c : Cert) [Width c.w] (v : Nat) : GF c.w := GF.ofU32 v

theorem el_val {v : Nat} (h : v < 2 ^ c.w) : (c.el v).val = v := Nat.mod_eq_of_lt h

theorem val_sel (k : Nat) (u : Nat → Bool) (g : Nat → Nat) (hg : ∀ j, g j < 2 ^ c.w) :
    (∑ j ∈ Finset.range k, if u j then c.el (g j) else 0).val = xorSel k u g := by
  induction k with
  | zero => rfl
  | succ k ih =>
    rw [Finset.sum_range_succ, xorSel, ← ih]
    change _ ^^^ _ = _
    congr 1
    split
    · exact el_val (hg k)
    · rfl

end

theorem getD_lt {l : List Nat} {m : Nat} (hm : 0 < m) (h : ∀ a ∈ l, a < m) (j : Nat) : l.getD j 0 < m := by
  rw [List.getD_eq_getElem?_getD]
  cases hj : l[j]? with
  | none => simpa using hm
  | some a => exact h a (List.mem_of_getElem? hj)

/-- All non-trivial combinations of outputs involve at least `d * (number of blocks - kr + 1)` parties. -/
theorem weight_ge {f : BinFile} (h : c.check f = true) (u : Nat → Bool) (hu : ∃ x < f.k, u x = true) :
    c.d * (f.blocks.length - (c.kr - 1)) ≤
      ((Finset.range (16 * f.blocks.length)).filter fun p => f.coef u p ≠ 0).card := by
  unfold check at h
  simp only [Bool.and_eq_true, List.all_eq_true, List.mem_range, Bool.or_eq_true, beq_iff_eq, decide_eq_true_eq,
    bne_iff_ne] at h
  obtain ⟨⟨⟨⟨⟨⟨⟨⟨⟨hE, hB⟩, hA1⟩, hB1⟩, hnd⟩, hAl⟩, hk⟩, hw⟩, hbl⟩, hent⟩ := h
  have : Width c.w := ⟨hw.1, hw.2⟩
  have hpos : 0 < 2 ^ c.w := by positivity
  -- the message polynomial
  set m : Nat → GF c.w := fun i => ∑ j ∈ Finset.range c.w, if u (c.kr * j + i) then c.el (c.B.getD j 0) else 0 with hm
  set P : (GF c.w)[X] := ∑ i ∈ Finset.range c.kr, C (m i) * X ^ i with hP
  have hcoeff : ∀ i, i < c.kr → P.coeff i = m i := by
    intro i hi
    rw [hP, finsetSum_coeff]
    simp only [coeff_C_mul_X_pow]
    rw [Finset.sum_eq_single i]
    · simp
    · intro b _ hb
      rw [if_neg (Ne.symm hb)]
    · intro h
      exact absurd (Finset.mem_range.2 hi) h
  have hdeg : P.degree < c.kr := by
    rw [hP]
    refine lt_of_le_of_lt (degree_sum_le _ _) ?_
    rw [Finset.sup_lt_iff (by exact WithBot.bot_lt_coe _)]
    intro i hi
    exact lt_of_le_of_lt (degree_C_mul_X_pow_le i _) (by exact_mod_cast Finset.mem_range.1 hi)
  have hP0 : P ≠ 0 := by
    obtain ⟨x0, hx0, hux⟩ := hu
    rw [hk] at hx0
    have hkr : 0 < c.kr := by
      rcases Nat.eq_zero_or_pos c.kr with h | h
      · rw [h, Nat.zero_mul] at hx0
        omega
      · exact h
    intro h0
    have h1 := hcoeff (x0 % c.kr) (Nat.mod_lt _ hkr)
    rw [h0, coeff_zero, hm] at h1
    simp only [] at h1
    have h2 := val_sel (c := c) c.w (fun j => u (c.kr * j + x0 % c.kr)) (fun j => c.B.getD j 0) (getD_lt hpos hB1)
    rw [← h1] at h2
    have hj : x0 / c.kr < c.w := Nat.div_lt_of_lt_mul hx0
    set v := Nat.ofBits (fun j : Fin c.w => u (c.kr * j + x0 % c.kr)) with hv
    have hbit : ∀ j, j < c.w → v.testBit j = u (c.kr * j + x0 % c.kr) := by
      intro j hj
      rw [hv, Nat.testBit_ofBits_lt _ _ hj]
    have hsel : xorSel c.w (fun j => v.testBit j) (fun j => c.B.getD j 0)
        = xorSel c.w (fun j => u (c.kr * j + x0 % c.kr)) (fun j => c.B.getD j 0) := by
      have : ∀ k, k ≤ c.w → xorSel k (fun j => v.testBit j) (fun j => c.B.getD j 0)
          = xorSel k (fun j => u (c.kr * j + x0 % c.kr)) (fun j => c.B.getD j 0) := by
        intro k
        induction k with
        | zero => intro _; rfl
        | succ k ih =>
          intro hk
          rw [xorSel, xorSel, ih (by omega), hbit k (by omega)]
      exact this c.w le_rfl
    rcases hB v (Nat.ofBits_lt_two_pow _) with h3 | h3
    · have := hbit (x0 / c.kr) hj
      rw [h3, Nat.div_add_mod, hux] at this
      simp at this
    · rw [hsel] at h3
      exact h3 h2.symm
  -- entries of the code word
  have hword : ∀ b r, b < f.blocks.length → r < 16 →
      f.coef u (16 * b + r) = bz ((c.enc (P.eval (c.el (c.A.getD b 0))).val).testBit r) := by
    intro b r hb hr
    rw [← lam_eq, hP, eval_finsetSum, map_sum]
    unfold BinFile.coef
    rw [hk, sum_range_mul, Finset.sum_comm]
    refine Finset.sum_congr rfl fun i hi => ?_
    rw [eval_mul, eval_C, eval_pow, eval_X, hm]
    simp only []
    rw [Finset.sum_mul, map_sum]
    refine Finset.sum_congr rfl fun j hj => ?_
    have hAb : c.A.getD b 0 < 2 ^ c.w := getD_lt hpos hA1 b
    have hBj : c.B.getD j 0 < 2 ^ c.w := getD_lt hpos hB1 j
    have hmem : (f.blocks.getD b [], c.A.getD b 0) ∈ f.blocks.zip c.A := by
      rw [List.mem_iff_getElem?]
      refine ⟨b, ?_⟩
      rw [List.getElem?_zip_eq_some]
      have hb' : b < c.A.length := by omega
      simp only [List.getD_eq_getElem?_getD, List.getElem?_eq_getElem hb, List.getElem?_eq_getElem hb', Option.getD_some,
        and_self]
    have he := hent _ hmem i (Finset.mem_range.1 hi) j (Finset.mem_range.1 hj) r hr
    simp only [] at he
    have hl : f.lines.getD (16 * b + r) 0 = (f.blocks.getD b []).getD r 0 := flatten_getD hbl b r hr
    rw [hl, he]
    cases u (c.kr * j + i) with
    | false => simp [bz]
    | true =>
      have : (c.el (c.B.getD j 0) * c.el (c.A.getD b 0) ^ i).val
          = Galois.gmul c.w (c.B.getD j 0) (Galois.gpow c.w (c.A.getD b 0) i) := by
        change Galois.gmul c.w (c.el (c.B.getD j 0)).val (Galois.gpow c.w (c.el (c.A.getD b 0)).val i) = _
        rw [el_val hAb, el_val hBj]
      rw [if_pos rfl, lam_eq, this]
      simp [bz]
  -- blocks with a zero symbol are roots
  set Z := (Finset.range f.blocks.length).filter fun b => P.eval (c.el (c.A.getD b 0)) = 0 with hZ
  have hZcard : Z.card ≤ c.kr - 1 := by
    have hinj : Set.InjOn (fun b => c.el (c.A.getD b 0)) (Z : Set Nat) := by
      intro a ha b hb hab
      rw [Finset.mem_coe, hZ, Finset.mem_filter, Finset.mem_range] at ha hb
      have h1 := congrArg GF.val hab
      simp only [el_val (getD_lt hpos hA1 _)] at h1
      have ha' : a < c.A.length := by omega
      have hb' : b < c.A.length := by omega
      rw [List.getD_eq_getElem?_getD, List.getD_eq_getElem?_getD, List.getElem?_eq_getElem ha',
        List.getElem?_eq_getElem hb'] at h1
      exact (List.Nodup.getElem_inj_iff hnd).1 h1
    have hsub : Z.image (fun b => c.el (c.A.getD b 0)) ⊆ P.roots.toFinset := by
      intro x hx
      obtain ⟨b, hb, rfl⟩ := Finset.mem_image.1 hx
      rw [hZ, Finset.mem_filter] at hb
      rw [Multiset.mem_toFinset, mem_roots hP0]
      exact hb.2
    have h1 := Finset.card_le_card hsub
    rw [Finset.card_image_of_injOn hinj] at h1
    have h2 := (Multiset.toFinset_card_le P.roots).trans (card_roots' P)
    have h3 : P.natDegree < c.kr := (natDegree_lt_iff_degree_lt hP0).2 hdeg
    omega
  -- weight of a block
  have hblock : ∀ b ∈ Finset.range f.blocks.length \ Z,
      c.d ≤ ∑ r ∈ Finset.range 16, if f.coef u (16 * b + r) ≠ 0 then 1 else 0 := by
    intro b hb
    rw [Finset.mem_sdiff, Finset.mem_range, hZ, Finset.mem_filter, Finset.mem_range] at hb
    obtain ⟨hb1, hb2⟩ := hb
    have hne : P.eval (c.el (c.A.getD b 0)) ≠ 0 := fun h => hb2 ⟨hb1, h⟩
    rcases hE _ (P.eval (c.el (c.A.getD b 0))).lt with h | h
    · exact absurd (GF.ext h) hne
    · refine h.trans (le_of_eq ?_)
      rw [← Finset.card_filter, ← List.toFinset_card_of_nodup (List.Nodup.filter _ List.nodup_range)]
      congr 1
      ext r
      simp only [List.mem_toFinset, List.mem_filter, List.mem_range, Finset.mem_filter, Finset.mem_range]
      refine and_congr_right fun hr => ?_
      rw [hword b r hb1 hr, ne_eq, bz_eq_zero, Bool.not_eq_false]
  rw [Finset.card_filter, sum_range_mul]
  calc c.d * (f.blocks.length - (c.kr - 1)) ≤ c.d * (Finset.range f.blocks.length \ Z).card := by
        refine Nat.mul_le_mul_left _ ?_
        have hsub : Z ⊆ Finset.range f.blocks.length := Finset.filter_subset _ _
        rw [Finset.card_sdiff_of_subset hsub, Finset.card_range]
        omega
    _ = ∑ b ∈ Finset.range f.blocks.length \ Z, c.d := by rw [Finset.sum_const, smul_eq_mul, Nat.mul_comm]
    _ ≤ ∑ b ∈ Finset.range f.blocks.length \ Z, ∑ r ∈ Finset.range 16, (if f.coef u (16 * b + r) ≠ 0 then 1 else 0) :=
        Finset.sum_le_sum hblock
    _ ≤ _ := Finset.sum_le_sum_of_subset Finset.sdiff_subset

end Cert

end Verif
