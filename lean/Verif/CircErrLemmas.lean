import Verif.CircErrSpec
import Verif.TapeCount
import Verif.LpnErrLemmas
import Verif.ShippedCount
import Mathlib.Algebra.Order.Ring.Pow

/-!
# Lemmas for undecodable rows in a whole circuit
-/

namespace Verif

open Props

/-! ## Counting rows -/

theorem unpack_kind {b : PackedGate} (h : Aligned b) : (unpack b).map Gate.kind = List.replicate b.out.length b.kind := by
  rw [List.eq_replicate_iff]
  refine ⟨by rw [List.length_map, ← List.length_map (f := Gate.outWire), unpack_outs h], fun k hk => ?_⟩
  obtain ⟨g, hg, rfl⟩ := List.mem_map.1 hk
  cases b <;> simp only [unpack, List.mem_iff_getElem] at hg <;> obtain ⟨i, hi, rfl⟩ := hg <;> simp [Gate.kind, PackedGate.kind]

theorem pack_rows {c : Circuit} {l : Nat} {p : PackedCircuit} (h : c.pack l = some p) :
    (p.gates.map fun b => b.kind.numRows * b.out.length).sum = c.numRows := by
  obtain ⟨hperm, hblk⟩ := C23_partition c l p h
  unfold Circuit.numRows
  rw [← (hperm.map fun g => g.kind.numRows).sum_eq, List.map_flatMap]
  have : ∀ L : List PackedGate, (∀ b ∈ L, Aligned b) → (L.map fun b => b.kind.numRows * b.out.length).sum
      = (L.flatMap fun b => (unpack b).map fun g => g.kind.numRows).sum := by
    intro L hL
    induction L with
    | nil => rfl
    | cons b L ih =>
      rw [List.map_cons, List.sum_cons, List.flatMap_cons, List.sum_append, ih fun b hb => hL b (by simp [hb])]
      congr 1
      rw [← Function.comp_def (fun k : GateKind => k.numRows), ← List.map_map, unpack_kind (hL b (by simp)), List.map_replicate, List.sum_replicate,
        smul_eq_mul, Nat.mul_comm]
  exact this _ fun b hb => (hblk b hb).1

theorem pack_out_le {c : Circuit} {l : Nat} {p : PackedCircuit} (h : c.pack l = some p) : ∀ b ∈ p.gates, b.out.length ≤ l := fun b hb => by
  obtain ⟨h1, -, h2⟩ := (C23_partition c l p h).2 b hb
  cases b <;> exact h2

theorem numRows_eq (c : Circuit) : c.numRows = 4 * numKind c.gates .and + 4 * numKind c.gates .xor + 2 * numKind c.gates .inv := by
  unfold Circuit.numRows
  induction c.gates with
  | nil => rfl
  | cons g L ih =>
    rw [List.map_cons, List.sum_cons, ih, numKind_cons, numKind_cons, numKind_cons]
    cases g <;> simp [Gate.kind, GateKind.numRows] <;> ring

theorem errorIdx_inj {c : PackedCircuit} {N gid gid' r r' a a' : Nat} {g g' : PackedGate} (hg : c.gates[gid]? = some g) (hg' : c.gates[gid']? = some g')
    (hr : r < g.kind.numRows) (hr' : r' < g'.kind.numRows) (ha : a < N) (ha' : a' < N)
    (h : c.errorIdx N gid r a = c.errorIdx N gid' r' a') : gid = gid' ∧ r = r' ∧ a = a' := by
  have key : ∀ {gid gid' r r' a a' : Nat} {g g' : PackedGate}, c.gates[gid]? = some g → c.gates[gid']? = some g' → r < g.kind.numRows → a < N →
      gid < gid' → c.errorIdx N gid r a < c.errorIdx N gid' r' a' := by
    intro gid gid' r r' a a' g g' hg hg' hr ha hlt
    have h1 : ((c.gates.take gid).map fun x => x.kind.numRows * N).sum + g.kind.numRows * N ≤ ((c.gates.take gid').map fun x => x.kind.numRows * N).sum := by
      have e1 : (c.gates.take (gid + 1)) = c.gates.take gid ++ [g] := by
        rw [List.take_add_one, hg]
        rfl
      have e2 : ((c.gates.take (gid + 1)).map fun x => x.kind.numRows * N).sum = ((c.gates.take gid).map fun x => x.kind.numRows * N).sum + g.kind.numRows * N := by
        rw [e1]
        simp
      rw [← e2]
      have e3 : c.gates.take gid' = c.gates.take (gid + 1) ++ (c.gates.drop (gid + 1)).take (gid' - (gid + 1)) := by
        rw [← List.take_add]
        congr 1
        omega
      rw [e3, List.map_append, List.sum_append]
      omega
    have h2 := Nat.mul_le_mul_right N (show r + 1 ≤ g.kind.numRows from hr)
    rw [Nat.add_mul, Nat.one_mul] at h2
    unfold PackedCircuit.errorIdx
    omega
  rcases Nat.lt_trichotomy gid gid' with hlt | heq | hlt
  · exact absurd h (key hg hg' hr ha hlt).ne
  · subst heq
    unfold PackedCircuit.errorIdx at h
    have h3 : r * N + a = r' * N + a' := by omega
    have e : r = r' := by
      have := congrArg (· / N) h3
      rwa [Nat.mul_comm r, Nat.mul_comm r', Nat.mul_add_div (by omega), Nat.mul_add_div (by omega), Nat.div_eq_of_lt ha, Nat.div_eq_of_lt ha',
        Nat.add_zero, Nat.add_zero] at this
    subst e
    exact ⟨rfl, rfl, by omega⟩
  · exact absurd h.symm (key hg' hg hr' ha' hlt).ne

/-! ## Independent groups -/

theorem card_groups {G A T : Type} [Fintype G] [Fintype A] [Fintype T] (Q : (A → T) → Prop) :
    Nat.card {h : G × A → T // ∀ g, Q fun a => h (g, a)} = Nat.card {h : A → T // Q h} ^ Fintype.card G := by
  have e : {h : G × A → T // ∀ g, Q fun a => h (g, a)} ≃ {h : G → A → T // ∀ g, Q (h g)} :=
    Equiv.subtypeEquiv (Equiv.curry _ _ _) fun h => Iff.rfl
  rw [Nat.card_congr e, Nat.card_congr (Equiv.subtypePiEquivPi (p := fun _ => Q)), Nat.card_pi, Finset.prod_const, Finset.card_univ]

theorem ratio_groups {G A T : Type} [Fintype G] [Fintype A] [DecidableEq A] [Fintype T] [Nonempty T] (B : T → Prop) [DecidablePred B] (e : Nat) :
    (Nat.card {h : G × A → T // ∃ g, e < (Finset.univ.filter fun a => B (h (g, a))).card} : ℚ) / Nat.card (G × A → T)
      = 1 - (1 - binomTail e (Fintype.card A) ((Fintype.card {t // B t} : ℚ) / Fintype.card T)) ^ Fintype.card G := by
  classical
  have hpos : (Nat.card (A → T) : ℚ) ≠ 0 := by exact_mod_cast (Nat.card_pos).ne'
  have h1 := card_gt_ratio (A := A) B e
  have h2 := card_groups (G := G) (T := T) (A := A) fun h => ¬ e < (Finset.univ.filter fun a => B (h a)).card
  have compl : ∀ {X : Type} [Fintype X] (P : X → Prop), (Nat.card {x // ¬ P x} : ℚ) = Nat.card X - Nat.card {x // P x} := by
    intro X _ P
    classical
    rw [Nat.card_eq_fintype_card, Nat.card_eq_fintype_card, Nat.card_eq_fintype_card, Fintype.card_subtype_compl,
      Nat.cast_sub (Fintype.card_subtype_le P)]
  have h3 : (Nat.card {h : A → T // ¬ e < (Finset.univ.filter fun a => B (h a)).card} : ℚ)
      = (1 - binomTail e (Fintype.card A) ((Fintype.card {t // B t} : ℚ) / Fintype.card T)) * Nat.card (A → T) := by
    rw [compl, h1]
    ring
  have h4 : Nat.card (G × A → T) = Nat.card (A → T) ^ Fintype.card G := by
    rw [Nat.card_eq_fintype_card, Nat.card_eq_fintype_card, Fintype.card_fun, Fintype.card_fun, Fintype.card_prod, ← pow_mul, Nat.mul_comm]
  have h5 := compl fun h : G × A → T => ∀ g, ¬ e < (Finset.univ.filter fun a => B (h (g, a))).card
  have h6 : Nat.card {h : G × A → T // ∃ g, e < (Finset.univ.filter fun a => B (h (g, a))).card}
      = Nat.card {h : G × A → T // ¬ ∀ g, ¬ e < (Finset.univ.filter fun a => B (h (g, a))).card} :=
    Nat.card_congr (Equiv.subtypeEquivRight fun h => by simp)
  rw [h6, h5, h2, h4]
  push_cast
  rw [h3, mul_pow, sub_div, div_self (pow_ne_zero _ hpos), mul_div_assoc, div_self (pow_ne_zero _ hpos), mul_one]

theorem tail_le_one {e N : Nat} {p : ℚ} (h0 : 0 ≤ p) (h1 : p ≤ 1) : binomTail e N p ≤ 1 := by
  refine le_trans (tail_anti (Nat.zero_le e) h0 h1) ?_
  rw [tail_eq_cdf (Nat.zero_le N)]
  have : 0 ≤ 1 - p := by linarith
  have h2 : 0 ≤ binomCdf 0 N p := Finset.sum_nonneg fun j _ => by positivity
  linarith

theorem union_bound {x : ℚ} (h1 : x ≤ 1) (R : Nat) : 1 - (1 - x) ^ R ≤ R * x := by
  have := one_add_mul_le_pow (a := -x) (by linarith) R
  rw [← sub_eq_add_neg] at this
  linarith

theorem lower_bound {x : ℚ} (h0 : 0 ≤ x) (h1 : x ≤ 1) (R : Nat) : 1 - 1 / (1 + R * x) ≤ 1 - (1 - x) ^ R := by
  have h2 := one_add_mul_le_pow (a := x) (by linarith) R
  have hp : 0 < 1 + R * x := by positivity
  have h3 : 0 ≤ (1 - x) ^ R := pow_nonneg (by linarith) R
  have h4 : (1 - x) ^ R * (1 + x) ^ R ≤ 1 := by
    rw [← mul_pow]
    refine pow_le_one₀ ?_ ?_ <;> nlinarith
  have h5 : (1 - x) ^ R * (1 + R * x) ≤ 1 := le_trans (mul_le_mul_of_nonneg_left h2 h3) h4
  have h6 : (1 - x) ^ R ≤ 1 / (1 + R * x) := by
    rw [le_div_iff₀ hp]
    exact h5
  linarith

/-! ## The rows of a circuit -/

variable {F : Type} [CodeField F] [DecidableEq F] [Finite F] {c : Codec F} {ctx : Ctx F} {m mb : Mat F} {d : PreProcCount}

omit [Finite F] in
theorem row_card {p : PackedCircuit} {N gid r : Nat} {g : PackedGate} (hg : p.gates[gid]? = some g) (hr : r < g.kind.numRows) (Q : Nat → Prop)
    [DecidablePred Q] : ((p.rowErrors N gid r).filter Q).card = (Finset.univ.filter fun a : Fin N => Q (p.errorIdx N gid r a)).card := by
  rw [← Finset.card_image_of_injective (f := fun a : Fin N => p.errorIdx N gid r a) _ fun a b h =>
    Fin.ext (errorIdx_inj hg hg hr hr a.2 b.2 h).2.2]
  congr 1
  ext k
  simp only [PackedCircuit.rowErrors, Finset.mem_filter, Finset.mem_image, Finset.mem_range, Finset.mem_univ, true_and]
  constructor
  · rintro ⟨⟨a, ha, rfl⟩, hq⟩
    exact ⟨⟨a, ha⟩, hq, rfl⟩
  · rintro ⟨a, hq, rfl⟩
    exact ⟨⟨a, a.2, rfl⟩, hq⟩

/-- The rows of all gates. -/
abbrev RowsOf (p : PackedCircuit) : Type := Σ g : Fin p.gates.length, Fin p.gates[g].kind.numRows × Fin p.gates[g].out.length

theorem card_rowsOf (p : PackedCircuit) : Fintype.card (RowsOf p) = (p.gates.map fun b => b.kind.numRows * b.out.length).sum := by
  rw [Fintype.card_sigma]
  simp only [Fintype.card_prod, Fintype.card_fin]
  rw [← List.sum_ofFn]
  congr 1
  rw [← List.ofFn_getElem_eq_map]
  rfl

theorem rows_fraction (P : PreParams c ctx m mb d) (hm : m.AllOutputs ctx.t) (hmb : mb.UniformBits ctx.t) {p : PackedCircuit} {lpn : LpnParams}
    (hd : p.describe ctx.n ctx.t ctx.l lpn = some d) (hl : ∀ gate ∈ p.gates, gate.out.length ≤ ctx.l) (e : Nat) :
    tapeFraction ctx m mb d (SomeRowFails ctx m mb d p lpn.mssgLen e)
      = 1 - (1 - binomTail e lpn.mssgLen (((Nat.card F - 1 : Nat) : ℚ) / (4 * Nat.card F : Nat))) ^
          (p.gates.map fun b => b.kind.numRows * b.out.length).sum := by
  classical
  have : Fintype F := Fintype.ofFinite F
  obtain ⟨ids, br, bz, bb, H⟩ := P.hyp []
  have hget : ∀ g : Fin p.gates.length, p.gates[g.1]? = some p.gates[g] := fun g => List.getElem?_eq_getElem g.2
  have hbd : ∀ x : RowsOf p × Fin lpn.mssgLen, p.errorIdx lpn.mssgLen x.1.1 x.1.2.1 x.2 < d.errors := fun x =>
    rowErrors_lt hd (hget x.1.1) x.1.2.1.2 _ (Finset.mem_image.2 ⟨x.2, by simp, rfl⟩)
  have hbl : ∀ x : RowsOf p × Fin lpn.mssgLen, x.1.2.2.1 < ctx.l := fun x => lt_of_lt_of_le x.1.2.2.2 (hl _ (List.getElem_mem x.1.1.2))
  let ι : RowsOf p × Fin lpn.mssgLen ↪ Fin d.errors × Fin ctx.l := ⟨fun x => (⟨_, hbd x⟩, ⟨_, hbl x⟩), by
    rintro ⟨⟨g, r, s⟩, a⟩ ⟨⟨g', r', s'⟩, a'⟩ h
    simp only [Prod.mk.injEq, Fin.mk.injEq] at h
    obtain ⟨h1, h2, h3⟩ := errorIdx_inj (hget g) (hget g') r.2 r'.2 a.2 a'.2 h.1
    obtain rfl := Fin.ext h1
    obtain rfl := Fin.ext h2
    obtain rfl := Fin.ext h3
    obtain rfl := Fin.ext h.2
    rfl⟩
  rw [errors_fraction P hm hmb H _ ι (fun h => ∃ g : RowsOf p, e < (Finset.univ.filter fun a => ErrNonzero (h (g, a))).card) fun tp ht => by
    constructor
    · rintro ⟨gid, gate, hg, r, hr, x, hx, hmany⟩
      obtain ⟨hlt, rfl⟩ := List.getElem?_eq_some_iff.1 hg
      refine ⟨⟨⟨gid, hlt⟩, ⟨r, hr⟩, ⟨x, hx⟩⟩, ?_⟩
      rw [H.manyErrors ht (rowErrors_lt hd hg hr) (lt_of_lt_of_le hx (hl _ (List.getElem_mem hlt))) e, row_card hg hr] at hmany
      exact hmany
    · rintro ⟨⟨g, r, x⟩, hmany⟩
      refine ⟨g.1, p.gates[g], hget g, r.1, r.2, x.1, x.2, ?_⟩
      rw [H.manyErrors ht (rowErrors_lt hd (hget g) r.2) (lt_of_lt_of_le x.2 (hl _ (List.getElem_mem g.2))) e, row_card (hget g) r.2]
      exact hmany]
  rw [ratio_groups ErrNonzero e, card_rowsOf, Fintype.card_fin, card_nonzero, Fintype.card_prod, Fintype.card_prod, Fintype.card_bool, ← mul_assoc,
    show 2 * 2 = 4 from rfl, ← Nat.card_eq_fintype_card (α := F)]

end Verif
