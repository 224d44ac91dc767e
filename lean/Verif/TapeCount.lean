import Verif.BinomLemmas
import Verif.Props.PrivacyPreproc
import Mathlib.Data.Set.Finite.List

/-!
# Counting the randomness of `preproc` by its secrets
-/

open Polynomial

namespace Verif

open CodeField (ofU32)

/-! ## Finiteness -/

theorem finite_lists {α : Type} {S : Set α} (hS : S.Finite) (n : Nat) : {l : List α | l.length = n ∧ ∀ x ∈ l, x ∈ S}.Finite := by
  have := hS.to_subtype
  refine Set.Finite.subset ((List.finite_length_eq S n).image fun l => l.map Subtype.val) ?_
  rintro l ⟨h1, h2⟩
  refine ⟨l.attachWith (· ∈ S) h2, by simpa using h1, by simp⟩

theorem finite_shape {α : Type} [Finite α] (n b k : Nat) : {x : List (List (List α)) | TapeShape n b k x}.Finite := by
  refine Set.Finite.subset (finite_lists (finite_lists (List.finite_length_eq α k) b) n) ?_
  rintro x ⟨h1, h2⟩
  exact ⟨h1, fun y hy => ⟨(h2 y hy).1, fun z hz => (h2 y hy).2 z hz⟩⟩

theorem finite_errTapes {α : Type} [Finite α] (t b : Nat) : {e : ErrTapes α | e.Ok t b}.Finite := by
  have h := finite_lists (List.finite_length_eq α t) b
  refine Set.Finite.subset ((h.prod h).image fun p => (⟨p.1, p.2⟩ : ErrTapes α)) ?_
  rintro ⟨x, y⟩ ⟨h1, h2⟩
  exact ⟨(x, y), ⟨h1, h2⟩, rfl⟩

variable {F : Type} [CodeField F]

omit [CodeField F] in
theorem finite_tapes [Finite F] (n t l : Nat) {m mb : Mat F} (hm : m.rows ≠ []) (hmb : mb.rows ≠ []) (d : PreProcCount) :
    Finite {tp : PreTapes F // tp.Ok n t l m mb d} := by
  obtain ⟨br, hbr⟩ := numBatches_some (d.numKeys + d.randoms + 3 * d.errors) (List.length_pos_iff.2 hm)
  obtain ⟨bz, hbz⟩ := numBatches_some (d.zeros + 2 * d.errors) (List.length_pos_iff.2 hm)
  obtain ⟨bb, hbb⟩ := numBatches_some (d.masks + 2 * d.errors) (List.length_pos_iff.2 hmb)
  have hE : (⋃ a ∈ Finset.range n, {e : ErrTapes F | e.Ok t (errSize d.errors n a)}).Finite :=
    Set.Finite.biUnion (Finset.finite_toSet _) fun a _ => finite_errTapes _ _
  have hfin := ((finite_shape (α := F) n br (t + l)).prod ((finite_shape (α := F) n bz (n - l)).prod
    ((finite_shape (α := Bool) n bb l).prod ((finite_shape (α := F) n bb t).prod (finite_lists hE n)))))
  refine Set.Finite.to_subtype (s := {tp | tp.Ok n t l m mb d}) (Set.Finite.subset (hfin.image fun p =>
    (⟨p.1, p.2.1, p.2.2.1, p.2.2.2.1, p.2.2.2.2⟩ : PreTapes F)) ?_)
  rintro ⟨x1, x2, x3, x4, x5⟩ h
  refine ⟨(x1, x2, x3, x4, x5), ⟨h.rand _ hbr, h.zero _ hbz, h.bits _ hbb, h.rbit _ hbb, h.errs.1, fun e he => ?_⟩, rfl⟩
  obtain ⟨a, ha⟩ := List.mem_iff_getElem?.1 he
  have hlt : a < n := by
    have := (List.getElem?_eq_some_iff.1 ha).1
    have h5 : x5.length = n := h.errs.1
    exact h5 ▸ this
  exact Set.mem_biUnion (by simpa using hlt) (h.errs.2 a e ha)

/-! ## Secrets as functions -/

theorem at2_tab2 (a l : Nat) (f : Nat → Nat → F) {i v : Nat} (hi : i < a) (hv : v < l) :
    at2 ((List.range a).map fun i => (List.range l).map (f i)) i v = f i v := by
  unfold at2
  rw [getD_tab _ _ _ hi, getD_tab _ _ _ hv]

theorem ext_at2 {x y : List (List F)} {a l : Nat} (hx : x.length = a) (hx' : ∀ z ∈ x, z.length = l) (hy : y.length = a)
    (hy' : ∀ z ∈ y, z.length = l) (h : ∀ i < a, ∀ v < l, at2 x i v = at2 y i v) : x = y := by
  apply List.ext_getElem (by omega)
  intro i h1 h2
  have lx := hx' _ (List.getElem_mem h1)
  have ly := hy' _ (List.getElem_mem h2)
  apply List.ext_getElem (by omega)
  intro v g1 g2
  have := h i (by omega) v (by omega)
  unfold at2 at this
  simpa [List.getD_eq_getElem?_getD, h1, h2, g1, g2] using this

theorem at2_bit {x : List (List F)} {a l : Nat} (h : x.length = a ∧ ∀ z ∈ x, z.length = l ∧ ∀ v ∈ z, v = 0 ∨ v = 1) (i v : Nat) :
    at2 x i v = 0 ∨ at2 x i v = 1 := by
  unfold at2
  rw [List.getD_eq_getElem?_getD, List.getD_eq_getElem?_getD]
  cases hx : x[i]? with
  | none => left; simp
  | some z =>
    rw [Option.getD_some]
    cases hz : z[v]? with
    | none => left; simp
    | some w =>
      rw [Option.getD_some]
      exact (h.2 z (List.mem_of_getElem? hx)).2 w (List.mem_of_getElem? hz)

/-- Secrets by slot. -/
abbrev SecFun (F : Type) (l : Nat) (d : PreProcCount) : Type :=
  ((Fin d.masks → Fin l → Bool) × (Fin d.numKeys → Fin l → F)) × (Fin d.errors × Fin l → Bool × Bool × F)

def bitF (b : Bool) : F := if b then 1 else 0

section
variable [DecidableEq F]

/-- The slots of secrets. -/
def PreSecrets.fn {l : Nat} {d : PreProcCount} (S : PreSecrets F) : SecFun F l d :=
  ((fun i v => decide (at2 S.masks i v = 1), fun i v => at2 S.keys i v),
    fun p => (decide (at2 S.bit0 p.1 p.2 = 1), decide (at2 S.bit1 p.1 p.2 = 1), at2 S.scalars p.1 p.2))

omit [DecidableEq F] [CodeField F] in
theorem tab_fit {a l : Nat} (f : Nat → Nat → F) : ((List.range a).map fun i => (List.range l).map (f i)).length = a ∧
    ∀ z ∈ (List.range a).map fun i => (List.range l).map (f i), z.length = l := by
  refine ⟨by simp, fun z hz => ?_⟩
  obtain ⟨i, _, rfl⟩ := List.mem_map.1 hz
  simp

omit [DecidableEq F] in
theorem tab_fit_bit {a l : Nat} (f : Nat → Nat → Bool) : ((List.range a).map fun i => (List.range l).map fun v => bitF (F := F) (f i v)).length = a ∧
    ∀ z ∈ (List.range a).map fun i => (List.range l).map fun v => bitF (F := F) (f i v), z.length = l ∧ ∀ v ∈ z, v = 0 ∨ v = 1 := by
  refine ⟨by simp, fun z hz => ?_⟩
  obtain ⟨i, _, rfl⟩ := List.mem_map.1 hz
  refine ⟨by simp, fun v hv => ?_⟩
  obtain ⟨j, _, rfl⟩ := List.mem_map.1 hv
  unfold bitF
  split
  · right; rfl
  · left; rfl

theorem decide_bitF (b : Bool) : decide (bitF b = (1 : F)) = b := by
  cases b <;> simp [bitF]

omit [DecidableEq F] in
theorem bit_eq {x y : F} [DecidableEq F] (hx : x = 0 ∨ x = 1) (hy : y = 0 ∨ y = 1) (h : decide (x = 1) = decide (y = 1)) : x = y := by
  rcases hx with rfl | rfl <;> rcases hy with rfl | rfl <;> simp_all

theorem fn_bijective (l : Nat) (d : PreProcCount) :
    Function.Bijective (fun S : {S : PreSecrets F // S.Fit l d} => (S.1.fn : SecFun F l d)) := by
  constructor
  · rintro ⟨⟨m1, k1, b1, c1, s1⟩, h1⟩ ⟨⟨m2, k2, b2, c2, s2⟩, h2⟩ h
    have h : PreSecrets.fn _ = PreSecrets.fn _ := h
    unfold PreSecrets.fn at h
    simp only [Prod.mk.injEq] at h
    obtain ⟨⟨e1, e2⟩, e3⟩ := h
    have e3 : ∀ i < d.errors, ∀ v < l, decide (at2 b1 i v = 1) = decide (at2 b2 i v = 1) ∧ decide (at2 c1 i v = 1) = decide (at2 c2 i v = 1) ∧
        at2 s1 i v = at2 s2 i v := by
      intro i hi v hv
      have := congrFun e3 (⟨i, hi⟩, ⟨v, hv⟩)
      simp only [Prod.mk.injEq] at this
      exact this
    have r1 : m1 = m2 := ext_at2 h1.masks.1 (fun z hz => (h1.masks.2 z hz).1) h2.masks.1 (fun z hz => (h2.masks.2 z hz).1)
      fun i hi v hv => bit_eq (at2_bit h1.masks i v) (at2_bit h2.masks i v) (congrFun (congrFun e1 ⟨i, hi⟩) ⟨v, hv⟩)
    have r2 : k1 = k2 := ext_at2 h1.keys.1 h1.keys.2 h2.keys.1 h2.keys.2 fun i hi v hv => congrFun (congrFun e2 ⟨i, hi⟩) ⟨v, hv⟩
    have r3 : b1 = b2 := ext_at2 h1.bit0.1 (fun z hz => (h1.bit0.2 z hz).1) h2.bit0.1 (fun z hz => (h2.bit0.2 z hz).1)
      fun i hi v hv => bit_eq (at2_bit h1.bit0 i v) (at2_bit h2.bit0 i v) (e3 i hi v hv).1
    have r4 : c1 = c2 := ext_at2 h1.bit1.1 (fun z hz => (h1.bit1.2 z hz).1) h2.bit1.1 (fun z hz => (h2.bit1.2 z hz).1)
      fun i hi v hv => bit_eq (at2_bit h1.bit1 i v) (at2_bit h2.bit1 i v) (e3 i hi v hv).2.1
    have r5 : s1 = s2 := ext_at2 h1.scalars.1 h1.scalars.2 h2.scalars.1 h2.scalars.2 fun i hi v hv => (e3 i hi v hv).2.2
    subst r1 r2 r3 r4 r5
    rfl
  · rintro ⟨⟨f1, f2⟩, f3⟩
    let S : PreSecrets F := {
      masks := (List.range d.masks).map fun i => (List.range l).map fun v => bitF (if h : i < d.masks ∧ v < l then f1 ⟨i, h.1⟩ ⟨v, h.2⟩ else false)
      keys := (List.range d.numKeys).map fun i => (List.range l).map fun v => if h : i < d.numKeys ∧ v < l then f2 ⟨i, h.1⟩ ⟨v, h.2⟩ else 0
      bit0 := (List.range d.errors).map fun i => (List.range l).map fun v => bitF (if h : i < d.errors ∧ v < l then (f3 (⟨i, h.1⟩, ⟨v, h.2⟩)).1 else false)
      bit1 := (List.range d.errors).map fun i => (List.range l).map fun v => bitF (if h : i < d.errors ∧ v < l then (f3 (⟨i, h.1⟩, ⟨v, h.2⟩)).2.1 else false)
      scalars := (List.range d.errors).map fun i => (List.range l).map fun v => if h : i < d.errors ∧ v < l then (f3 (⟨i, h.1⟩, ⟨v, h.2⟩)).2.2 else 0 }
    refine ⟨⟨S, ⟨tab_fit_bit _, tab_fit _, tab_fit_bit _, tab_fit_bit _, tab_fit _⟩⟩, ?_⟩
    show PreSecrets.fn S = _
    unfold PreSecrets.fn
    refine Prod.ext (Prod.ext ?_ ?_) ?_
    · funext i v
      show decide (at2 S.masks i v = 1) = _
      rw [at2_tab2 _ _ _ i.2 v.2, decide_bitF, dif_pos ⟨i.2, v.2⟩]
    · funext i v
      show at2 S.keys i v = _
      rw [at2_tab2 _ _ _ i.2 v.2, dif_pos ⟨i.2, v.2⟩]
    · funext p
      show (decide (at2 S.bit0 p.1 p.2 = 1), decide (at2 S.bit1 p.1 p.2 = 1), at2 S.scalars p.1 p.2) = _
      rw [at2_tab2 _ _ _ p.1.2 p.2.2, at2_tab2 _ _ _ p.1.2 p.2.2, at2_tab2 _ _ _ p.1.2 p.2.2, decide_bitF, decide_bitF,
        dif_pos ⟨p.1.2, p.2.2⟩, dif_pos ⟨p.1.2, p.2.2⟩, dif_pos ⟨p.1.2, p.2.2⟩]

/-- Choices for one error which make it nonzero. -/
def ErrNonzero (t : Bool × Bool × F) : Prop := t.1 = true ∧ t.2.1 = true ∧ t.2.2 ≠ 0

instance : DecidablePred (ErrNonzero (F := F)) := fun _ => inferInstanceAs (Decidable (_ ∧ _ ∧ _))

omit [DecidableEq F] in
theorem mul_bits {x y s : F} [DecidableEq F] (hx : x = 0 ∨ x = 1) (hy : y = 0 ∨ y = 1) :
    x * y * s ≠ 0 ↔ ErrNonzero (decide (x = 1), decide (y = 1), s) := by
  unfold ErrNonzero
  rcases hx with rfl | rfl <;> rcases hy with rfl | rfl <;> simp

theorem card_nonzero [Fintype F] : Fintype.card {t : Bool × Bool × F // ErrNonzero t} = Fintype.card F - 1 := by
  have h0 : Fintype.card {s : F // s ≠ 0} = Fintype.card F - 1 := by
    rw [Fintype.card_subtype_compl, Fintype.card_subtype_eq]
  rw [← h0]
  refine Fintype.card_congr ⟨fun t => ⟨t.1.2.2, t.2.2.2⟩, fun s => ⟨(true, true, s.1), rfl, rfl, s.2⟩, ?_, fun s => rfl⟩
  rintro ⟨⟨a, b, s⟩, h1, h2, h3⟩
  simp only at h1 h2
  subst h1 h2
  rfl

end

/-! ## Randomness and its secrets -/

section
variable [DecidableEq F] {c : Codec F} {ctx : Ctx F} {m mb : Mat F} {d : PreProcCount} {id : ProtocolID} {ids : List ProtocolID}
  {br bz bb : Nat} (H : PreHyp c ctx m mb d id ids br bz bb)

/-- The secrets of a run. -/
noncomputable def PreTapes.secrets (ctx : Ctx F) (m mb : Mat F) (d : PreProcCount) (br _bz bb : Nat) (tp : PreTapes F) : PreSecrets F where
  masks := tabSecrets (defaultPos ctx.n ctx.l) d.masks fun j => tp.outB ctx mb bb (2 * d.errors + j)
  keys := tabSecrets (defaultPos ctx.n ctx.l) d.numKeys fun j => tp.outR ctx m br (3 * d.errors + j)
  bit0 := tabSecrets (defaultPos ctx.n ctx.l) d.errors fun k => tp.outB ctx mb bb (errIdx 2 (errSizes d ctx.n) 0 k)
  bit1 := tabSecrets (defaultPos ctx.n ctx.l) d.errors fun k => tp.outB ctx mb bb (errIdx 2 (errSizes d ctx.n) 1 k)
  scalars := tabSecrets (defaultPos ctx.n ctx.l) d.errors fun k => tp.outR ctx m br (errIdx 3 (errSizes d ctx.n) 1 k)

omit [DecidableEq F] in
theorem tabSecrets_fit {n l num : Nat} (q : Nat → F[X]) : (tabSecrets (defaultPos n l) num q).length = num ∧
    ∀ z ∈ tabSecrets (defaultPos n l) num q, z.length = l := by
  unfold tabSecrets
  refine ⟨by simp, fun z hz => ?_⟩
  obtain ⟨i, _, rfl⟩ := List.mem_map.1 hz
  simp [defaultPos]

omit [DecidableEq F] in
theorem tabSecrets_bits {n l num : Nat} {q : Nat → F[X]} (h : ∀ i < num, ∀ v ∈ defaultPos n l, IsBit ((q i).eval v)) :
    (tabSecrets (defaultPos n l) num q).length = num ∧
    ∀ z ∈ tabSecrets (defaultPos n l) num q, z.length = l ∧ ∀ v ∈ z, v = 0 ∨ v = 1 := by
  refine ⟨(tabSecrets_fit q).1, fun z hz => ⟨(tabSecrets_fit q).2 z hz, fun v hv => ?_⟩⟩
  unfold tabSecrets at hz
  obtain ⟨i, hi, rfl⟩ := List.mem_map.1 hz
  obtain ⟨x, hx, rfl⟩ := List.mem_map.1 hv
  exact h i (List.mem_range.1 hi) x hx

include H

theorem PreHyp.secrets_fit (tp : PreTapes F) : (tp.secrets ctx m mb d br bz bb).Fit ctx.l d where
  masks := tabSecrets_bits fun i hi v hv => (H.res_ok tp).B0 _ (by have := H.bounds; omega) v hv
  keys := tabSecrets_fit _
  bit0 := tabSecrets_bits fun i hi v hv => (H.res_ok tp).B0 _ ((H.idx hi).1 0 (by omega)).2 v hv
  bit1 := tabSecrets_bits fun i hi v hv => (H.res_ok tp).B0 _ ((H.idx hi).1 1 (by omega)).2 v hv
  scalars := tabSecrets_fit _

theorem PreHyp.secrets_has {tp : PreTapes F} (ht : tp.Ok ctx.n ctx.t ctx.l m mb d) :
    HasSecrets ctx m mb d tp (tp.secrets ctx m mb d br bz bb) :=
  (H.hasSecrets ht (H.secrets_fit tp)).2
    ⟨fun _ hj _ hv => (at2_tab (fun j => tp.outB ctx mb bb (2 * d.errors + j)) hj hv).symm,
      fun _ hj _ hv => (at2_tab (fun j => tp.outR ctx m br (3 * d.errors + j)) hj hv).symm,
      fun _ hj _ hv => (at2_tab (fun k => tp.outB ctx mb bb (errIdx 2 (errSizes d ctx.n) 0 k)) hj hv).symm,
      fun _ hj _ hv => (at2_tab (fun k => tp.outB ctx mb bb (errIdx 2 (errSizes d ctx.n) 1 k)) hj hv).symm,
      fun _ hj _ hv => (at2_tab (fun k => tp.outR ctx m br (errIdx 3 (errSizes d ctx.n) 1 k)) hj hv).symm⟩

theorem PreHyp.secrets_unique {tp : PreTapes F} (ht : tp.Ok ctx.n ctx.t ctx.l m mb d) {S : PreSecrets F} (hS : S.Fit ctx.l d)
    (h : HasSecrets ctx m mb d tp S) : tp.secrets ctx m mb d br bz bb = S := by
  have h1 := (H.hasSecrets ht hS).1 h
  have h2 := H.secrets_fit tp
  obtain ⟨m2, k2, b2, c2, s2⟩ := S
  have r1 : (tp.secrets ctx m mb d br bz bb).masks = m2 := ext_at2 h2.masks.1 (fun z hz => (h2.masks.2 z hz).1) hS.masks.1
    (fun z hz => (hS.masks.2 z hz).1) fun i hi v hv => (at2_tab _ hi hv).trans (h1.masks i hi v hv)
  have r2 : (tp.secrets ctx m mb d br bz bb).keys = k2 := ext_at2 h2.keys.1 h2.keys.2 hS.keys.1 hS.keys.2
    fun i hi v hv => (at2_tab _ hi hv).trans (h1.keys i hi v hv)
  have r3 : (tp.secrets ctx m mb d br bz bb).bit0 = b2 := ext_at2 h2.bit0.1 (fun z hz => (h2.bit0.2 z hz).1) hS.bit0.1
    (fun z hz => (hS.bit0.2 z hz).1) fun i hi v hv => (at2_tab _ hi hv).trans (h1.bit0 i hi v hv)
  have r4 : (tp.secrets ctx m mb d br bz bb).bit1 = c2 := ext_at2 h2.bit1.1 (fun z hz => (h2.bit1.2 z hz).1) hS.bit1.1
    (fun z hz => (hS.bit1.2 z hz).1) fun i hi v hv => (at2_tab _ hi hv).trans (h1.bit1 i hi v hv)
  have r5 : (tp.secrets ctx m mb d br bz bb).scalars = s2 := ext_at2 h2.scalars.1 h2.scalars.2 hS.scalars.1 hS.scalars.2
    fun i hi v hv => (at2_tab _ hi hv).trans (h1.scalars i hi v hv)
  subst r1 r2 r3 r4 r5
  rfl

/-- The errors of a run. -/
theorem PreHyp.manyErrors {tp : PreTapes F} (ht : tp.Ok ctx.n ctx.t ctx.l m mb d) {I : Finset Nat} (hI : ∀ a ∈ I, a < d.errors) {x : Nat}
    (hx : x < ctx.l) (e : Nat) : ManyErrors ctx m mb d I x e tp ↔
      e < (I.filter fun a => ErrNonzero (decide (at2 (tp.secrets ctx m mb d br bz bb).bit0 a x = 1),
        decide (at2 (tp.secrets ctx m mb d br bz bb).bit1 a x = 1), at2 (tp.secrets ctx m mb d br bz bb).scalars a x)).card := by
  have hle := H.good.le
  have hfit := H.secrets_fit tp
  have hok := H.mat_ok hfit ⟨tp, ht, H.secrets_has ht⟩
  let E : Nat → F[X] := (tp.mat ctx m mb d br bz bb).errors
  have hshare : VecSharing ctx.n (ctx.t + ctx.l) (defaultPos ctx.n ctx.l) (tabSecrets (defaultPos ctx.n ctx.l) d.errors E)
      (((List.range ctx.n).map (tp.material ctx m mb d br bz bb)).map PreProc.errors) := by
    refine ⟨(List.range d.errors).map E, ?_, ?_, ?_⟩
    · intro p hp
      obtain ⟨k, hk, rfl⟩ := List.mem_map.1 hp
      exact (hok.errors k (List.mem_range.1 hk)).1
    · rw [List.map_map]
      refine List.map_congr_left fun i _ => ?_
      rw [List.map_map]
      rfl
    · unfold tabSecrets
      rw [List.map_map]
      rfl
  have hcount : (I.filter fun a => at2 (tabSecrets (defaultPos ctx.n ctx.l) d.errors E) a x ≠ 0)
      = I.filter fun a => ErrNonzero (decide (at2 (tp.secrets ctx m mb d br bz bb).bit0 a x = 1),
        decide (at2 (tp.secrets ctx m mb d br bz bb).bit1 a x = 1), at2 (tp.secrets ctx m mb d br bz bb).scalars a x) := by
    refine Finset.filter_congr fun a ha => ?_
    rw [at2_tab _ (hI a ha) hx, (hok.errors a (hI a ha)).2 x hx, mul_bits (at2_bit hfit.bit0 a x) (at2_bit hfit.bit1 a x)]
  rw [← hcount]
  constructor
  · rintro ⟨pre, errors, h1, h2, h3⟩
    rw [H.preproc ht, Option.some.injEq] at h1
    subst h1
    have hord := H.good.fit
    obtain rfl := vecSharing_unique (by omega) hle H.good.posN h2 hshare
    exact h3
  · exact fun h => ⟨_, _, H.preproc ht, hshare, h⟩

/-- Randomness by its secrets. -/
noncomputable def PreHyp.bySecrets (E : PreTapes F → Prop) (E' : PreSecrets F → Prop)
    (hE : ∀ tp : PreTapes F, tp.Ok ctx.n ctx.t ctx.l m mb d → (E tp ↔ E' (tp.secrets ctx m mb d br bz bb))) :
    {tp : PreTapes F // tp.Ok ctx.n ctx.t ctx.l m mb d ∧ E tp} ≃ Σ S : {S : PreSecrets F // S.Fit ctx.l d ∧ E' S}, TapesWith ctx m mb d S.1 where
  toFun tp := ⟨⟨tp.1.secrets ctx m mb d br bz bb, H.secrets_fit _, (hE _ tp.2.1).1 tp.2.2⟩, ⟨tp.1, tp.2.1, H.secrets_has tp.2.1⟩⟩
  invFun x := ⟨x.2.1, x.2.2.1, (hE _ x.2.2.1).2 (by rw [H.secrets_unique x.2.2.1 x.1.2.1 x.2.2.2]; exact x.1.2.2)⟩
  left_inv tp := rfl
  right_inv := by
    rintro ⟨⟨S, h1, h2⟩, ⟨tp, h3, h4⟩⟩
    have := H.secrets_unique h3 h1 h4
    subst this
    rfl

end

section
variable [DecidableEq F] {c : Codec F} {ctx : Ctx F} {m mb : Mat F} {d : PreProcCount}

/-- Randomness of runs with one of two properties and with some secrets. -/
noncomputable def bySecretsAnd {W : PreTapes F → Prop} {E' : PreSecrets F → Prop} :
    {x : Σ S : {S : PreSecrets F // S.Fit ctx.l d ∧ E' S}, TapesWith ctx m mb d S.1 // W x.2.1} ≃
      Σ S : {S : PreSecrets F // S.Fit ctx.l d ∧ E' S}, {tp : TapesWith ctx m mb d S.1 // W tp.1} where
  toFun x := ⟨x.1.1, ⟨x.1.2, x.2⟩⟩
  invFun y := ⟨⟨y.1, y.2.1⟩, y.2.2⟩
  left_inv _ := rfl
  right_inv _ := rfl

/-- Counting secrets instead of randomness: what does not depend on the secrets is independent of them. -/
theorem fraction_and [Finite F] (P : PreParams c ctx m mb d) {ids : List ProtocolID}
    {br bz bb : Nat} (H : PreHyp c ctx m mb d [] ids br bz bb) (W : PreTapes F → Prop)
    (hW : ∀ S S' : PreSecrets F, S.Fit ctx.l d → S'.Fit ctx.l d →
      ∃ e : TapesWith ctx m mb d S ≃ TapesWith ctx m mb d S', ∀ tp, W tp.1 ↔ W (e tp).1)
    (E : PreTapes F → Prop) (E' : PreSecrets F → Prop) (E'' : SecFun F ctx.l d → Prop)
    (h1 : ∀ tp : PreTapes F, tp.Ok ctx.n ctx.t ctx.l m mb d → (E tp ↔ E' (tp.secrets ctx m mb d br bz bb)))
    (h2 : ∀ S : PreSecrets F, S.Fit ctx.l d → (E' S ↔ E'' S.fn)) :
    tapeFraction ctx m mb d (fun tp => E tp ∧ W tp) = (Nat.card {f // E'' f} : ℚ) / Nat.card (SecFun F ctx.l d) * tapeFraction ctx m mb d W := by
  let S0 : PreSecrets F := onlyBit ctx.l d (errSizes d ctx.n) 0 0
  have hS0 : S0.Fit ctx.l d := onlyBit_fit ctx.l d (errSizes d ctx.n) 0 (Or.inl rfl)
  have hne : Nonempty (TapesWith ctx m mb d S0) := H.zero_exists
  have hfin := finite_tapes ctx.n ctx.t ctx.l P.mat.2.2 P.matb.2.2 d
  have count : ∀ (E : PreTapes F → Prop) (E' : PreSecrets F → Prop) (E'' : SecFun F ctx.l d → Prop),
      (∀ tp : PreTapes F, tp.Ok ctx.n ctx.t ctx.l m mb d → (E tp ↔ E' (tp.secrets ctx m mb d br bz bb))) →
      (∀ S : PreSecrets F, S.Fit ctx.l d → (E' S ↔ E'' S.fn)) →
      Nat.card {tp : PreTapes F // tp.Ok ctx.n ctx.t ctx.l m mb d ∧ E tp ∧ W tp}
        = Nat.card {f // E'' f} * Nat.card {tp : TapesWith ctx m mb d S0 // W tp.1} := by
    intro E E' E'' h1 h2
    have e0 : {tp : PreTapes F // tp.Ok ctx.n ctx.t ctx.l m mb d ∧ E tp ∧ W tp}
        ≃ {x : {tp : PreTapes F // tp.Ok ctx.n ctx.t ctx.l m mb d ∧ E tp} // W x.1} :=
      (Equiv.subtypeEquivRight fun _ => and_assoc.symm).trans
        (Equiv.subtypeSubtypeEquivSubtypeInter (fun tp : PreTapes F => tp.Ok ctx.n ctx.t ctx.l m mb d ∧ E tp) W).symm
    have e0' : {x : {tp : PreTapes F // tp.Ok ctx.n ctx.t ctx.l m mb d ∧ E tp} // W x.1} ≃
        {x : Σ S : {S : PreSecrets F // S.Fit ctx.l d ∧ E' S}, TapesWith ctx m mb d S.1 // W x.2.1} :=
      Equiv.subtypeEquiv (H.bySecrets E E' h1) fun _ => Iff.rfl
    rw [Nat.card_congr (e0.trans (e0'.trans bySecretsAnd))]
    have e1 : (Σ S : {S : PreSecrets F // S.Fit ctx.l d ∧ E' S}, {tp : TapesWith ctx m mb d S.1 // W tp.1})
        ≃ {S : PreSecrets F // S.Fit ctx.l d ∧ E' S} × {tp : TapesWith ctx m mb d S0 // W tp.1} :=
      (Equiv.sigmaCongrRight fun S : {S : PreSecrets F // S.Fit ctx.l d ∧ E' S} =>
        (Equiv.subtypeEquiv (hW S.1 S0 S.2.1 hS0).choose (hW S.1 S0 S.2.1 hS0).choose_spec :
          {tp : TapesWith ctx m mb d S.1 // W tp.1} ≃ {tp : TapesWith ctx m mb d S0 // W tp.1})).trans (Equiv.sigmaEquivProd _ _)
    rw [Nat.card_congr e1, Nat.card_prod]
    congr 1
    have e2 : {S : PreSecrets F // S.Fit ctx.l d ∧ E' S} ≃ {S : {S : PreSecrets F // S.Fit ctx.l d} // E' S.1} :=
      (Equiv.subtypeSubtypeEquivSubtypeInter _ _).symm
    rw [Nat.card_congr e2]
    exact Nat.card_congr (Equiv.subtypeEquiv (Equiv.ofBijective _ (fn_bijective ctx.l d))
      fun S : {S : PreSecrets F // S.Fit ctx.l d} => h2 S.1 S.2)
  have total := count (fun _ => True) (fun _ => True) (fun _ => True) (fun _ _ => Iff.rfl) (fun _ _ => Iff.rfl)
  have total' : Nat.card {tp : PreTapes F // tp.Ok ctx.n ctx.t ctx.l m mb d ∧ W tp}
      = Nat.card {tp : PreTapes F // tp.Ok ctx.n ctx.t ctx.l m mb d ∧ True ∧ W tp} :=
    Nat.card_congr (Equiv.subtypeEquivRight fun _ => and_congr_right fun _ => (true_and _).symm.to_iff)
  have p1 : (Nat.card (SecFun F ctx.l d) : ℚ) ≠ 0 := by exact_mod_cast (Nat.card_pos).ne'
  unfold tapeFraction
  rw [total', count E E' E'' h1 h2, total, Nat.card_congr (Equiv.subtypeUnivEquiv fun _ => trivial)]
  push_cast
  rw [mul_div_assoc, mul_div_assoc, div_mul_eq_mul_div, mul_div_assoc, mul_div_assoc, ← mul_div_assoc (Nat.card (SecFun F ctx.l d) : ℚ),
    mul_div_cancel_left₀ _ p1]

/-- Counting secrets instead of randomness. -/
theorem fraction_eq [Finite F] (P : PreParams c ctx m mb d) (hm : m.AllOutputs ctx.t) (hmb : mb.UniformBits ctx.t) {ids : List ProtocolID}
    {br bz bb : Nat} (H : PreHyp c ctx m mb d [] ids br bz bb) (E : PreTapes F → Prop) (E' : PreSecrets F → Prop)
    (E'' : SecFun F ctx.l d → Prop)
    (h1 : ∀ tp : PreTapes F, tp.Ok ctx.n ctx.t ctx.l m mb d → (E tp ↔ E' (tp.secrets ctx m mb d br bz bb)))
    (h2 : ∀ S : PreSecrets F, S.Fit ctx.l d → (E' S ↔ E'' S.fn)) :
    tapeFraction ctx m mb d E = (Nat.card {f // E'' f} : ℚ) / Nat.card (SecFun F ctx.l d) := by
  have priv := Props.C90_preproc_private_partial P hm hmb ∅ ⟨by simp, by simp⟩ []
  have h := fraction_and P H (fun _ => True) (fun S S' hS hS' => ⟨(priv S S' hS hS').choose, fun _ => Iff.rfl⟩) E E' E'' h1 h2
  have hfin := finite_tapes ctx.n ctx.t ctx.l P.mat.2.2 P.matb.2.2 d
  obtain ⟨tp0⟩ : Nonempty (TapesWith ctx m mb d (onlyBit ctx.l d (errSizes d ctx.n) 0 0)) := H.zero_exists
  have hne : Nonempty {tp : PreTapes F // tp.Ok ctx.n ctx.t ctx.l m mb d} := ⟨tp0.1, tp0.2.1⟩
  have h1 : tapeFraction ctx m mb d (fun _ => True) = 1 := by
    unfold tapeFraction
    rw [Nat.card_congr (Equiv.subtypeEquivRight fun _ => and_iff_left trivial)]
    exact div_self (by exact_mod_cast (Nat.card_pos).ne')
  rw [h1, mul_one] at h
  simpa only [and_true] using h

/-- The same if only the errors in some places matter. -/
theorem errors_fraction [Finite F] (P : PreParams c ctx m mb d) (hm : m.AllOutputs ctx.t) (hmb : mb.UniformBits ctx.t) {ids : List ProtocolID}
    {br bz bb : Nat} (H : PreHyp c ctx m mb d [] ids br bz bb) (E : PreTapes F → Prop) {A : Type} [Fintype A] (ι : A ↪ Fin d.errors × Fin ctx.l)
    (E' : (A → Bool × Bool × F) → Prop)
    (h : ∀ tp : PreTapes F, tp.Ok ctx.n ctx.t ctx.l m mb d →
      (E tp ↔ E' fun a => (PreSecrets.fn (l := ctx.l) (d := d) (tp.secrets ctx m mb d br bz bb)).2 (ι a))) :
    tapeFraction ctx m mb d E = (Nat.card {h // E' h} : ℚ) / Nat.card (A → Bool × Bool × F) := by
  classical
  have : Fintype F := Fintype.ofFinite F
  rw [fraction_eq P hm hmb H E (fun S => E' fun a => (PreSecrets.fn (l := ctx.l) (d := d) S).2 (ι a)) (fun f => E' (f.2 ∘ ι)) h
    fun S _ => Iff.rfl]
  have split : Nat.card {f : SecFun F ctx.l d // E' (f.2 ∘ ι)}
      = Nat.card ((Fin d.masks → Fin ctx.l → Bool) × (Fin d.numKeys → Fin ctx.l → F)) *
        Nat.card {g : Fin d.errors × Fin ctx.l → Bool × Bool × F // E' (g ∘ ι)} := by
    rw [← Nat.card_prod]
    refine Nat.card_congr ((Equiv.subtypeEquiv (Equiv.prodComm _ _) (q := fun y => E' (y.1 ∘ ι)) fun f => Iff.rfl).trans
      ((Equiv.prodSubtypeFstEquivSubtypeProd (p := fun g : Fin d.errors × Fin ctx.l → Bool × Bool × F => E' (g ∘ ι))).trans (Equiv.prodComm _ _)))
  have restrict := card_restrict ι E'
  have tot : Nat.card (SecFun F ctx.l d) = Nat.card ((Fin d.masks → Fin ctx.l → Bool) × (Fin d.numKeys → Fin ctx.l → F)) *
      Nat.card (Fin d.errors × Fin ctx.l → Bool × Bool × F) := Nat.card_prod _ _
  rw [split, tot]
  have p2 : (Nat.card ((Fin d.masks → Fin ctx.l → Bool) × (Fin d.numKeys → Fin ctx.l → F)) : ℚ) ≠ 0 := by exact_mod_cast (Nat.card_pos).ne'
  have p3 : (Nat.card (Fin d.errors × Fin ctx.l → Bool × Bool × F) : ℚ) ≠ 0 := by exact_mod_cast (Nat.card_pos).ne'
  have p4 : (Nat.card (A → Bool × Bool × F) : ℚ) ≠ 0 := by exact_mod_cast (Nat.card_pos).ne'
  have restrict' : (Nat.card {g : Fin d.errors × Fin ctx.l → Bool × Bool × F // E' (g ∘ ι)} : ℚ) * Nat.card (A → Bool × Bool × F)
      = Nat.card {h // E' h} * Nat.card (Fin d.errors × Fin ctx.l → Bool × Bool × F) := by exact_mod_cast restrict
  rw [Nat.cast_mul, Nat.cast_mul, mul_div_mul_left _ _ p2, div_eq_div_iff p3 p4, restrict']

/-- The fraction of the randomness with more than `e` nonzero errors in some places. -/
theorem many_errors_fraction [Finite F] (P : PreParams c ctx m mb d) (hm : m.AllOutputs ctx.t) (hmb : mb.UniformBits ctx.t) (I : Finset Nat)
    (hI : ∀ a ∈ I, a < d.errors) (x : Nat) (hx : x < ctx.l) (e : Nat) :
    tapeFraction ctx m mb d (ManyErrors ctx m mb d I x e) = binomTail e I.card (((Nat.card F - 1 : Nat) : ℚ) / (4 * Nat.card F : Nat)) := by
  classical
  have : Fintype F := Fintype.ofFinite F
  obtain ⟨ids, br, bz, bb, H⟩ := P.hyp []
  let ι : I ↪ Fin d.errors × Fin ctx.l := ⟨fun a => (⟨a.1, hI a.1 a.2⟩, ⟨x, hx⟩), fun a b h => by
    have : a.1 = b.1 := congrArg (fun p : Fin d.errors × Fin ctx.l => p.1.1) h
    exact Subtype.ext this⟩
  rw [errors_fraction P hm hmb H _ ι (fun h => e < (Finset.univ.filter fun a => ErrNonzero (h a)).card) fun tp ht => by
    rw [H.manyErrors ht hI hx e]
    refine Eq.to_iff (congrArg (e < ·) ?_)
    rw [← Finset.card_map (Function.Embedding.subtype (· ∈ I))]
    congr 1
    ext a
    simp only [Finset.mem_filter, Finset.mem_map, Finset.mem_univ, true_and, Function.Embedding.coe_subtype]
    constructor
    · rintro ⟨h1, h2⟩
      exact ⟨⟨a, h1⟩, h2, rfl⟩
    · rintro ⟨b, h2, rfl⟩
      exact ⟨b.2, h2⟩]
  have ratio := card_gt_ratio (A := I) (T := Bool × Bool × F) ErrNonzero e
  rw [Fintype.card_coe, card_nonzero, Fintype.card_prod, Fintype.card_prod, Fintype.card_bool, ← mul_assoc, show 2 * 2 = 4 from rfl,
    ← Nat.card_eq_fintype_card (α := F)] at ratio
  have p4 : (Nat.card (I → Bool × Bool × F) : ℚ) ≠ 0 := by exact_mod_cast (Nat.card_pos).ne'
  rw [div_eq_iff p4, ratio]

end

end Verif
