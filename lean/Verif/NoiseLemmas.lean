import Verif.TapeCount
import Verif.NoiseSpec
import Mathlib.Algebra.BigOperators.Fin
import Mathlib.Algebra.BigOperators.Field

/-!
# Lemmas for the distribution of the preprocessing material
-/

open Polynomial

namespace Verif

open CodeField (ofU32)

/-! ## Counting functions with given values -/

theorem card_fixed {A B T : Type} [Fintype A] [Fintype T] (v : T → B) (w : A → B) :
    Nat.card {f : A → T // ∀ a, v (f a) = w a} = ∏ a, Nat.card {t // v t = w a} := by
  rw [Nat.card_congr (Equiv.subtypePiEquivPi (p := fun a t => v t = w a)), Nat.card_pi]

theorem ratio_fixed {A B T : Type} [Fintype A] [Fintype T] (v : T → B) (w : A → B) :
    (Nat.card {f : A → T // ∀ a, v (f a) = w a} : ℚ) / Nat.card (A → T) = ∏ a, ((Nat.card {t // v t = w a} : ℚ) / Nat.card T) := by
  rw [card_fixed, Nat.card_pi, Nat.cast_prod, Nat.cast_prod, Finset.prod_div_distrib]

variable {F : Type} [CodeField F] [DecidableEq F]

/-- The error made from two bits and a scalar. -/
def errOf (t : Bool × Bool × F) : F := bitF t.1 * bitF t.2.1 * t.2.2

omit [DecidableEq F] in
theorem bitF_inj {a b : Bool} (h : (bitF a : F) = bitF b) : a = b := by
  cases a <;> cases b <;> simp_all [bitF]

omit [DecidableEq F] in
theorem ratio_bit [DecidableEq F] (v : F) : (Nat.card {b : Bool // bitF b = v} : ℚ) / Nat.card Bool = bitProb v := by
  have h2 : Nat.card Bool = 2 := by simp
  rw [h2]
  unfold bitProb
  by_cases h0 : v = 0
  · subst h0
    rw [if_pos (Or.inl rfl)]
    have : Nat.card {b : Bool // bitF b = (0 : F)} = 1 := by
      rw [Nat.card_eq_one_iff_unique]
      refine ⟨⟨?_⟩, ⟨⟨false, by simp [bitF]⟩⟩⟩
      exact fun a b => Subtype.ext (bitF_inj (a.2.trans b.2.symm))
    rw [this]
    norm_num
  · by_cases h1 : v = 1
    · subst h1
      rw [if_pos (Or.inr rfl)]
      have : Nat.card {b : Bool // bitF b = (1 : F)} = 1 := by
        rw [Nat.card_eq_one_iff_unique]
        refine ⟨⟨?_⟩, ⟨⟨true, by simp [bitF]⟩⟩⟩
        exact fun a b => Subtype.ext (bitF_inj (a.2.trans b.2.symm))
      rw [this]
      norm_num
    · rw [if_neg (by tauto)]
      have : IsEmpty {b : Bool // bitF b = v} := ⟨by
        rintro ⟨b, hb⟩
        cases b
        · exact h0 (by simpa [bitF] using hb.symm)
        · exact h1 (by simpa [bitF] using hb.symm)⟩
      simp

omit [DecidableEq F] in
theorem card_err_ne {v : F} (hv : v ≠ 0) : Nat.card {t : Bool × Bool × F // errOf t = v} = 1 := by
  rw [Nat.card_eq_one_iff_unique]
  refine ⟨⟨?_⟩, ⟨⟨(true, true, v), by simp [errOf, bitF]⟩⟩⟩
  have key : ∀ t : Bool × Bool × F, errOf t = v → t = (true, true, v) := by
    rintro ⟨a, b, s⟩ h
    cases a <;> cases b <;> simp_all [errOf, bitF]
  rintro ⟨a, ha⟩ ⟨b, hb⟩
  exact Subtype.ext ((key a ha).trans (key b hb).symm)

theorem card_err_zero [Finite F] : Nat.card {t : Bool × Bool × F // errOf t = 0} = 3 * Nat.card F + 1 := by
  classical
  have : Fintype F := Fintype.ofFinite F
  have h := Fintype.card_subtype_compl (fun t : Bool × Bool × F => ErrNonzero t)
  rw [card_nonzero, Fintype.card_prod, Fintype.card_prod, Fintype.card_bool] at h
  have e : {t : Bool × Bool × F // errOf t = 0} ≃ {t : Bool × Bool × F // ¬ ErrNonzero t} := Equiv.subtypeEquivRight fun t => by
    rcases t with ⟨a, b, s⟩
    cases a <;> cases b <;> simp [errOf, bitF, ErrNonzero]
  have hpos : 0 < Fintype.card F := Fintype.card_pos
  rw [Nat.card_congr e, Nat.card_eq_fintype_card, h, Nat.card_eq_fintype_card]
  omega

theorem ratio_err [Finite F] (v : F) : (Nat.card {t : Bool × Bool × F // errOf t = v} : ℚ) / Nat.card (Bool × Bool × F) = noiseProb 2 v := by
  have hc : Nat.card (Bool × Bool × F) = 4 * Nat.card F := by
    rw [Nat.card_prod, Nat.card_prod]
    simp
    ring
  have hq : (Nat.card F : ℚ) ≠ 0 := by exact_mod_cast (Nat.card_pos (α := F)).ne'
  rw [hc]
  unfold noiseProb
  by_cases hv : v = 0
  · subst hv
    rw [card_err_zero, if_pos rfl]
    push_cast
    field_simp
    ring
  · rw [card_err_ne hv, if_neg hv]
    push_cast
    field_simp
    ring

/-- Masks, labels and errors with given values. -/
def SecFun.Gives {l : Nat} {d : PreProcCount} (M : GarbleSecrets F) (f : SecFun F l d) : Prop :=
  ((∀ i x, bitF (f.1.1 i x) = at2 M.masks i x) ∧ ∀ i x, f.1.2 i x = at2 M.keys i x) ∧ ∀ p : Fin d.errors × Fin l, errOf (f.2 p) = at2 M.errors p.1 p.2

theorem ratio_gives [Finite F] (l : Nat) (d : PreProcCount) (M : GarbleSecrets F) :
    (Nat.card {f : SecFun F l d // f.Gives M} : ℚ) / Nat.card (SecFun F l d) = idealProb 2 l d M := by
  classical
  have : Fintype F := Fintype.ofFinite F
  have e : {f : SecFun F l d // f.Gives M} ≃
      ({g : Fin d.masks → Fin l → Bool // ∀ i x, bitF (g i x) = at2 M.masks i x} × {g : Fin d.numKeys → Fin l → F // ∀ i x, g i x = at2 M.keys i x}) ×
        {g : Fin d.errors × Fin l → Bool × Bool × F // ∀ p : Fin d.errors × Fin l, errOf (g p) = at2 M.errors p.1 p.2} :=
    (Equiv.subtypeProdEquivProd (p := fun g : (Fin d.masks → Fin l → Bool) × (Fin d.numKeys → Fin l → F) =>
      (∀ i x, bitF (g.1 i x) = at2 M.masks i x) ∧ ∀ i x, g.2 i x = at2 M.keys i x)
      (q := fun g : Fin d.errors × Fin l → Bool × Bool × F => ∀ p : Fin d.errors × Fin l, errOf (g p) = at2 M.errors p.1 p.2)).trans
      (Equiv.prodCongr (Equiv.subtypeProdEquivProd (p := fun g : Fin d.masks → Fin l → Bool => ∀ i x, bitF (g i x) = at2 M.masks i x)
        (q := fun g : Fin d.numKeys → Fin l → F => ∀ i x, g i x = at2 M.keys i x)) (Equiv.refl _))
  have e1 : {g : Fin d.masks → Fin l → Bool // ∀ i x, bitF (g i x) = at2 M.masks i x} ≃
      {g : Fin d.masks × Fin l → Bool // ∀ p : Fin d.masks × Fin l, bitF (g p) = at2 M.masks p.1 p.2} :=
    Equiv.subtypeEquiv (Equiv.curry _ _ _).symm fun g => ⟨fun h p => h p.1 p.2, fun h i x => h (i, x)⟩
  have e2 : {g : Fin d.numKeys → Fin l → F // ∀ i x, g i x = at2 M.keys i x} ≃
      {g : Fin d.numKeys × Fin l → F // ∀ p : Fin d.numKeys × Fin l, g p = at2 M.keys p.1 p.2} :=
    Equiv.subtypeEquiv (Equiv.curry _ _ _).symm fun g => ⟨fun h p => h p.1 p.2, fun h i x => h (i, x)⟩
  have t : SecFun F l d ≃ ((Fin d.masks × Fin l → Bool) × (Fin d.numKeys × Fin l → F)) × (Fin d.errors × Fin l → Bool × Bool × F) :=
    Equiv.prodCongr (Equiv.prodCongr (Equiv.curry _ _ _).symm (Equiv.curry _ _ _).symm) (Equiv.refl _)
  rw [Nat.card_congr e, Nat.card_congr t, Nat.card_prod, Nat.card_prod, Nat.card_prod, Nat.card_prod, Nat.card_congr e1, Nat.card_congr e2]
  have r1 := ratio_fixed (bitF (F := F)) (fun p : Fin d.masks × Fin l => at2 M.masks p.1 p.2)
  have r2 := ratio_fixed (fun v : F => v) (fun p : Fin d.numKeys × Fin l => at2 M.keys p.1 p.2)
  have r3 := ratio_fixed (errOf (F := F)) (fun p : Fin d.errors × Fin l => at2 M.errors p.1 p.2)
  simp only [ratio_bit] at r1
  simp only [ratio_err] at r3
  have hk : ∀ v : F, Nat.card {t : F // t = v} = 1 := fun v => by simp
  simp only [hk] at r2
  push_cast
  rw [mul_div_mul_comm, mul_div_mul_comm, r1, r2, r3]
  unfold idealProb
  simp only [Finset.prod_range, Fintype.prod_prod_type, Nat.cast_one]

/-! ## The material of a run -/

omit [DecidableEq F] in
theorem sharings_vec {ctx : Ctx F} {num : Nat} {secrets : List (List F)} (S : SharingsOf ctx num secrets) (h : secrets.length = num) :
    VecSharing ctx.n (ctx.t + ctx.l) (defaultPos ctx.n ctx.l) secrets ((List.range ctx.n).map S.shares) := by
  refine ⟨List.ofFn fun i => (S i).1, ?_, ?_, ?_⟩
  · intro p hp
    obtain ⟨i, rfl⟩ := (List.mem_ofFn' _ _).1 hp
    exact (S i).2.1
  · refine List.map_congr_left fun p _ => ?_
    unfold SharingsOf.shares
    rw [List.map_ofFn]
    rfl
  · rw [List.map_ofFn]
    subst h
    refine List.ext_getElem (by simp) fun i h1 h2 => ?_
    rw [List.getElem_ofFn]
    have := (S ⟨i, h1⟩).2.2
    simp only [Function.comp]
    rw [this, List.getD_eq_getElem?_getD]
    simp [h1]

section
variable {c : Codec F} {ctx : Ctx F} {m mb : Mat F} {d : PreProcCount} {id : ProtocolID} {ids : List ProtocolID}
  {br bz bb : Nat} (H : PreHyp c ctx m mb d id ids br bz bb)

include H in
/-- What the material of a run hides. -/
theorem hides_iff {tp : PreTapes F} (ht : tp.Ok ctx.n ctx.t ctx.l m mb d) (M : GarbleSecrets F) :
    Hides ctx (preproc ctx m mb d tp) M ↔ (tp.secrets ctx m mb d br bz bb).garble = M := by
  have hfit := H.secrets_fit tp
  have hg := garble_fit (nr := m.rows.length * br - 3 * d.errors - d.numKeys) (nz := m.rows.length * bz - 2 * d.errors) hfit
  let w := H.world hfit ⟨tp, ht, H.secrets_has ht⟩
  have hw : ∀ p, w.material p = tp.material ctx m mb d br bz bb p := H.world_material hfit ⟨tp, ht, H.secrets_has ht⟩
  have hpre : preproc ctx m mb d tp = some ((List.range ctx.n).map w.material) := by
    rw [H.preproc ht]
    exact congrArg some (List.map_congr_left fun p _ => (hw p).symm)
  have v1 := sharings_vec w.masks hg.masks.1
  have v2 := sharings_vec w.keys hg.keys.1
  have v3 := sharings_vec w.errors hg.errors.1
  have hord := H.good.fit
  have hle := H.good.le
  constructor
  · rintro ⟨pre, h0, h1, h2, h3⟩
    rw [hpre, Option.some.injEq] at h0
    subst h0
    rw [List.map_map] at h1 h2 h3
    have r1 := vecSharing_unique (by omega) hle H.good.posN v1 h1
    have r2 := vecSharing_unique (by omega) hle H.good.posN v2 h2
    have r3 := vecSharing_unique (by omega) hle H.good.posN v3 h3
    rcases M with ⟨M1, M2, M3⟩
    simp only at r1 r2 r3
    rw [← r1, ← r2, ← r3]
  · rintro rfl
    refine ⟨_, hpre, ?_, ?_, ?_⟩
    · rw [List.map_map]; exact v1
    · rw [List.map_map]; exact v2
    · rw [List.map_map]; exact v3

omit [DecidableEq F] in
theorem bitF_decide [DecidableEq F] {x : F} (h : x = 0 ∨ x = 1) : bitF (decide (x = 1)) = x := by
  rcases h with rfl | rfl <;> simp [bitF]

theorem garble_gives {l : Nat} {S : PreSecrets F} (h : S.Fit l d) {M : GarbleSecrets F} (hM : M.Fit l d) :
    S.garble = M ↔ SecFun.Gives M (PreSecrets.fn S : SecFun F l d) := by
  have hg : S.garble.Fit l d := garble_fit (nr := d.randoms) (nz := d.zeros) h
  have em : ∀ i x, bitF (decide (at2 S.masks i x = 1)) = at2 S.masks i x := fun i x => bitF_decide (at2_bit h.masks i x)
  have ee : ∀ (i : Fin d.errors) (x : Fin l), errOf ((PreSecrets.fn S : SecFun F l d).2 (i, x)) = at2 S.garble.errors i x := fun i x => by
    rw [garble_errors h i.2 x.2]
    show bitF (decide (at2 S.bit0 i x = 1)) * bitF (decide (at2 S.bit1 i x = 1)) * at2 S.scalars i x = _
    rw [bitF_decide (at2_bit h.bit0 i x), bitF_decide (at2_bit h.bit1 i x)]
  constructor
  · rintro rfl
    exact ⟨⟨fun i x => em i x, fun i x => rfl⟩, fun p => ee p.1 p.2⟩
  · rintro ⟨⟨h1, h2⟩, h3⟩
    have r1 : S.garble.masks = M.masks := ext_at2 hg.masks.1 hg.masks.2 hM.masks.1 hM.masks.2 fun i hi v hv =>
      (em i v).symm.trans (h1 ⟨i, hi⟩ ⟨v, hv⟩)
    have r2 : S.garble.keys = M.keys := ext_at2 hg.keys.1 hg.keys.2 hM.keys.1 hM.keys.2 fun i hi v hv => h2 ⟨i, hi⟩ ⟨v, hv⟩
    have r3 : S.garble.errors = M.errors := ext_at2 hg.errors.1 hg.errors.2 hM.errors.1 hM.errors.2 fun i hi v hv =>
      (ee ⟨i, hi⟩ ⟨v, hv⟩).symm.trans (h3 (⟨i, hi⟩, ⟨v, hv⟩))
    rcases M with ⟨M1, M2, M3⟩
    simp only at r1 r2 r3
    rw [← r1, ← r2, ← r3]

end

section
variable {c : Codec F} {ctx : Ctx F} {m mb : Mat F} {d : PreProcCount}

/-- The distribution of what the material hides, given something that does not depend on it. -/
theorem hides_fraction_and [Finite F] (P : PreParams c ctx m mb d) (W : PreTapes F → Prop)
    (hW : ∀ S S' : PreSecrets F, S.Fit ctx.l d → S'.Fit ctx.l d →
      ∃ e : TapesWith ctx m mb d S ≃ TapesWith ctx m mb d S', ∀ tp, W tp.1 ↔ W (e tp).1) {M : GarbleSecrets F} (hM : M.Fit ctx.l d) :
    tapeFraction ctx m mb d (fun tp => Hides ctx (preproc ctx m mb d tp) M ∧ W tp) = idealProb 2 ctx.l d M * tapeFraction ctx m mb d W := by
  obtain ⟨ids, br, bz, bb, H⟩ := P.hyp []
  rw [fraction_and P H W hW _ (fun S => S.garble = M) (fun f => SecFun.Gives M f) (fun tp ht => hides_iff H ht M) (fun S hS => garble_gives hS hM),
    ratio_gives]

theorem hides_fraction [Finite F] (P : PreParams c ctx m mb d) (hm : m.AllOutputs ctx.t) (hmb : mb.UniformBits ctx.t)
    {M : GarbleSecrets F} (hM : M.Fit ctx.l d) :
    tapeFraction ctx m mb d (fun tp => Hides ctx (preproc ctx m mb d tp) M) = idealProb 2 ctx.l d M := by
  obtain ⟨ids, br, bz, bb, H⟩ := P.hyp []
  rw [fraction_eq P hm hmb H _ (fun S => S.garble = M) (fun f => SecFun.Gives M f) (fun tp ht => hides_iff H ht M) (fun S hS => garble_gives hS hM),
    ratio_gives]

end

end Verif
