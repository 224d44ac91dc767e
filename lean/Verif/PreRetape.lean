import Verif.PreView
import Verif.BinsupSpec

/-!
# Changing the randomness of a run of `preproc` so that given sharings result
-/

open Polynomial

namespace Verif

open CodeField (ofU32)

variable {F : Type} [CodeField F] [DecidableEq F]

/-! ## Right inverses which do not use the columns of a coalition -/

/-- A right inverse of the matrix, zero for the parties of the coalition. -/
structure RightInv (Cs : Finset Nat) (m : Mat F) (N : Nat → Nat → F) : Prop where
  inv : ∀ r < m.rows.length, ∀ s < m.rows.length,
    ∑ p ∈ Finset.range m.ncols, (m.rows.getD r []).getD p 0 * N p s = if r = s then 1 else 0
  zero : ∀ p ∈ Cs, ∀ s, N p s = 0

/-- 0 or 1. -/
def IsBit (x : F) : Prop := x = 0 ∨ x = 1

omit [DecidableEq F] in
theorem IsBit.add {x y : F} (hx : IsBit x) (hy : IsBit y) : IsBit (x + y) := by
  rcases hx with rfl | rfl <;> rcases hy with rfl | rfl
  · left; simp
  · right; simp
  · right; simp
  · left; exact CodeField.add_self 1

omit [DecidableEq F] in
theorem IsBit.mul {x y : F} (hx : IsBit x) (hy : IsBit y) : IsBit (x * y) := by
  rcases hx with rfl | rfl <;> rcases hy with rfl | rfl
  · left; simp
  · left; simp
  · left; simp
  · right; simp

omit [DecidableEq F] in
theorem IsBit.neg {x : F} (hx : IsBit x) : IsBit (-x) := by
  rcases hx with rfl | rfl
  · left; simp
  · right
    exact neg_eq_of_add_eq_zero_left (CodeField.add_self 1)

omit [DecidableEq F] in
theorem IsBit.sub {x y : F} (hx : IsBit x) (hy : IsBit y) : IsBit (x - y) := by
  rw [sub_eq_add_neg]
  exact hx.add hy.neg

omit [DecidableEq F] in
theorem IsBit.sum {ι : Type} {s : Finset ι} {f : ι → F} (h : ∀ i ∈ s, IsBit (f i)) : IsBit (∑ i ∈ s, f i) := by
  classical
  induction s using Finset.induction_on with
  | empty => left; simp
  | insert a s ha ih =>
    rw [Finset.sum_insert ha]
    exact (h a (Finset.mem_insert_self _ _)).add (ih fun i hi => h i (Finset.mem_insert_of_mem hi))

omit [DecidableEq F] in
theorem bitVal_isBit (b : Bool) : IsBit (bitVal F b) := by
  cases b
  · left; rfl
  · right; rfl

omit [DecidableEq F] in
theorem rightInv_of_all {m : Mat F} (hm : m.WF) {t : Nat} (h : m.AllOutputs t) {Cs : Finset Nat} (hC : Cs.card ≤ t)
    (hCn : ∀ p ∈ Cs, p < m.ncols) : ∃ N, RightInv Cs m N := by
  have key : ∀ s : Nat, ∃ x : List F, x.length = m.ncols ∧ (∀ i ∈ Cs, x[i]? = (List.replicate m.ncols (0 : F))[i]?) ∧
      m.mulVec x = some ((List.range m.rows.length).map fun r => if r = s then 1 else 0) :=
    fun s => h Cs hC _ _ (by simp) (by simp)
  choose x x1 x2 x3 using key
  refine ⟨fun p s => (x s).getD p 0, fun r hr s hs => ?_, fun p hp s => ?_⟩
  · rw [(mulVec_iff hm (x s) _ (x1 s) (by simp)).1 (x3 s) r hr, getD_tab _ _ _ hr]
  · rw [List.getD_eq_getElem?_getD, x2 s p hp, List.getElem?_replicate, if_pos (hCn p hp)]
    rfl

omit [DecidableEq F] in
theorem bitList_length {n : Nat} (x : Fin n → Bool) : (bitList F x).length = n := by simp [bitList]

omit [DecidableEq F] in
theorem bitList_getD {n : Nat} (x : Fin n → Bool) {i : Nat} (hi : i < n) : (bitList F x).getD i 0 = bitVal F (x ⟨i, hi⟩) := by
  unfold bitList
  rw [List.getD_eq_getElem?_getD, List.getElem?_ofFn, dif_pos hi, Option.getD_some]

omit [DecidableEq F] in
theorem rightInv_of_bits {m : Mat F} (hm : m.WF) {t : Nat} (h : m.UniformBits t) {Cs : Finset Nat} (hC : Cs.card ≤ t)
    (hCn : ∀ p ∈ Cs, p < m.ncols) : ∃ N, RightInv Cs m N ∧ ∀ p s, IsBit (N p s) := by
  obtain ⟨T, hT⟩ : ∃ T : Finset (Fin m.ncols), T.card ≤ t ∧ ∀ i : Fin m.ncols, i.1 ∈ Cs → i ∈ T := by
    refine ⟨Finset.univ.filter fun i => i.1 ∈ Cs, ?_, fun i hi => by simp [hi]⟩
    refine le_trans ?_ hC
    rw [← Finset.card_map Fin.valEmbedding]
    refine Finset.card_le_card fun i hi => ?_
    obtain ⟨j, hj, rfl⟩ := Finset.mem_map.1 hi
    exact (Finset.mem_filter.1 hj).2
  have key : ∀ s : Nat, ∃ x : Fin m.ncols → Bool, (∀ i ∈ T, x i = false) ∧
      m.mulVec (bitList F x) = some (bitList F fun r : Fin m.rows.length => decide (r.1 = s)) := by
    intro s
    have hcard := h T hT.1 (fun _ => false) (fun r => decide (r.1 = s))
    by_contra hne
    push Not at hne
    have : IsEmpty {x : Fin m.ncols → Bool // (∀ i ∈ T, x i = (fun _ => false) i) ∧
        m.mulVec (bitList F x) = some (bitList F fun r : Fin m.rows.length => decide (r.1 = s))} :=
      ⟨fun x => hne x.1 x.2.1 x.2.2⟩
    rw [Nat.card_of_isEmpty, Nat.zero_mul] at hcard
    exact absurd hcard.symm (by positivity)
  choose x x1 x2 using key
  refine ⟨fun p s => (bitList F (x s)).getD p 0, ⟨fun r hr s hs => ?_, fun p hp s => ?_⟩, fun p s => ?_⟩
  · rw [(mulVec_iff hm _ _ (bitList_length _) (bitList_length _)).1 (x2 s) r hr, bitList_getD _ hr]
    simp [bitVal]
  · rw [bitList_getD _ (hCn p hp), x1 s _ (hT.2 ⟨p, hCn p hp⟩ hp)]
    rfl
  · show IsBit ((bitList F (x s)).getD p 0)
    by_cases hp : p < m.ncols
    · rw [bitList_getD _ hp]
      exact bitVal_isBit _
    · left
      rw [List.getD_eq_getElem?_getD, List.getElem?_eq_none (by rw [bitList_length]; omega)]
      rfl

/-! ## Changing what is dealt -/

/-- What the parties deal when the results shall change by `Δ`. -/
noncomputable def shiftPoly (rows batches : Nat) (N : Nat → Nat → F) (D : Nat → Nat → F[X]) (Δ : Nat → F[X]) (p b : Nat) : F[X] :=
  D p b + ∑ r ∈ Finset.range rows, C (N p r) * Δ (r * batches + b)

section shift
variable {rows batches : Nat} {N : Nat → Nat → F} {D : Nat → Nat → F[X]} {Δ : Nat → F[X]}

omit [DecidableEq F] in
theorem row_lt {r b : Nat} (hr : r < rows) (hb : b < batches) : r * batches + b < rows * batches := by
  calc r * batches + b < r * batches + batches := by omega
    _ = (r + 1) * batches := by rw [Nat.succ_mul]
    _ ≤ rows * batches := Nat.mul_le_mul_right _ hr

omit [DecidableEq F] in
theorem shiftPoly_degree {k p b : Nat} (hb : b < batches) (hD : (D p b).degree < (k : Nat))
    (hΔ : ∀ i < rows * batches, (Δ i).degree < (k : Nat)) : (shiftPoly rows batches N D Δ p b).degree < (k : Nat) :=
  degree_add_lt hD (degree_finset_sum_lt _ fun _ hr => degree_C_mul_lt _ (hΔ _ (row_lt hr hb)))

omit [DecidableEq F] in
theorem shiftPoly_eval (p b : Nat) (v : F) : (shiftPoly rows batches N D Δ p b).eval v
    = (D p b).eval v + ∑ r ∈ Finset.range rows, N p r * (Δ (r * batches + b)).eval v := by
  simp [shiftPoly, eval_finsetSum]

omit [DecidableEq F] in
theorem shiftPoly_same {p b : Nat} (hb : b < batches) {v : F} (hΔ : ∀ i < rows * batches, (Δ i).eval v = 0) :
    (shiftPoly rows batches N D Δ p b).eval v = (D p b).eval v := by
  rw [shiftPoly_eval, Finset.sum_eq_zero fun r hr => by rw [hΔ _ (row_lt (Finset.mem_range.1 hr) hb), mul_zero], add_zero]

omit [DecidableEq F] in
theorem shiftPoly_own {p b : Nat} (h : ∀ s, N p s = 0) : shiftPoly rows batches N D Δ p b = D p b := by
  unfold shiftPoly
  rw [Finset.sum_eq_zero fun r _ => by rw [h, C_0, zero_mul], add_zero]

omit [DecidableEq F] in
theorem shiftPoly_bit {p b : Nat} (hb : b < batches) {v : F} (hN : ∀ p s, IsBit (N p s)) (hD : IsBit ((D p b).eval v))
    (hΔ : ∀ i < rows * batches, IsBit ((Δ i).eval v)) : IsBit ((shiftPoly rows batches N D Δ p b).eval v) := by
  rw [shiftPoly_eval]
  exact hD.add (IsBit.sum fun r hr => (hN _ _).mul (hΔ _ (row_lt (Finset.mem_range.1 hr) hb)))

omit [DecidableEq F] in
theorem shiftPoly_back {D' : Nat → Nat → F[X]} {Δ' : Nat → F[X]} {p b : Nat} (hb : b < batches)
    (hD : D' p b = shiftPoly rows batches N D Δ p b) (hΔ : ∀ i < rows * batches, Δ' i = -Δ i) :
    shiftPoly rows batches N D' Δ' p b = D p b := by
  unfold shiftPoly at hD ⊢
  have e : ∑ r ∈ Finset.range rows, C (N p r) * Δ' (r * batches + b)
      = ∑ r ∈ Finset.range rows, -(C (N p r) * Δ (r * batches + b)) :=
    Finset.sum_congr rfl fun r hr => by rw [hΔ _ (row_lt (Finset.mem_range.1 hr) hb), mul_neg]
  rw [hD, e, Finset.sum_neg_distrib, add_neg_cancel_right]

omit [DecidableEq F] in
/-- The results change by `Δ`. -/
theorem dealPoly_shift {Cs : Finset Nat} {m : Mat F} {n : Nat} (hn : m.ncols = n) (hN : RightInv Cs m N) {k : Nat}
    (hk : k < m.rows.length * batches) :
    dealPoly n batches m (shiftPoly m.rows.length batches N D Δ) k = dealPoly n batches m D k + Δ k := by
  have hb : 0 < batches := by
    rcases Nat.eq_zero_or_pos batches with h | h
    · subst h; simp at hk
    · exact h
  have hr : k / batches < m.rows.length := by
    rw [Nat.div_lt_iff_lt_mul hb]
    exact hk
  unfold dealPoly shiftPoly
  simp only [mul_add, Finset.sum_add_distrib]
  congr 1
  simp only [Finset.mul_sum]
  rw [Finset.sum_comm]
  have h1 : ∀ s ∈ Finset.range m.rows.length,
      ∑ p ∈ Finset.range n, C ((m.rows.getD (k / batches) []).getD p 0) * (C (N p s) * Δ (s * batches + k % batches))
        = if s = k / batches then Δ k else 0 := by
    intro s hs
    have : ∀ p ∈ Finset.range n, C ((m.rows.getD (k / batches) []).getD p 0) * (C (N p s) * Δ (s * batches + k % batches))
        = C ((m.rows.getD (k / batches) []).getD p 0 * N p s) * Δ (s * batches + k % batches) := fun p _ => by
      rw [C_mul, mul_assoc]
    rw [Finset.sum_congr rfl this, ← Finset.sum_mul, ← map_sum, ← hn, hN.inv _ hr _ (Finset.mem_range.1 hs)]
    by_cases hse : s = k / batches
    · rw [if_pos hse, if_pos hse.symm, C_1, one_mul, hse, Nat.mul_comm, Nat.div_add_mod]
    · rw [if_neg hse, if_neg fun h => hse h.symm, C_0, zero_mul]
  rw [Finset.sum_congr rfl h1, Finset.sum_ite_eq', if_pos (Finset.mem_range.2 hr)]

end shift

/-! ## Tapes of given polynomials -/

/-- The tapes from which the polynomials are made: values at the first positions. -/
noncomputable def polyTapes (n batches k : Nat) (D : Nat → Nat → F[X]) : List (List (List F)) :=
  (List.range n).map fun p => (List.range batches).map fun b => (List.range k).map fun i => (D p b).eval (ofU32 i)

/-- The bits which are the secrets of the polynomials. -/
noncomputable def bitTapes (n batches l : Nat) (D : Nat → Nat → F[X]) : List (List (List Bool)) :=
  (List.range n).map fun p => (List.range batches).map fun b => (List.range l).map fun j => decide ((D p b).eval (ofU32 (n + j)) = 1)

section tapes
variable {n batches k : Nat} {D : Nat → Nat → F[X]}

omit [CodeField F] [DecidableEq F] in
theorem tab3_shape {α : Type} (f : Nat → Nat → Nat → α) :
    TapeShape n batches k ((List.range n).map fun p => (List.range batches).map fun b => (List.range k).map fun i => f p b i) := by
  refine ⟨by simp, fun tp htp => ?_⟩
  obtain ⟨p, _, rfl⟩ := List.mem_map.1 htp
  refine ⟨by simp, fun t ht => ?_⟩
  obtain ⟨b, _, rfl⟩ := List.mem_map.1 ht
  simp

omit [CodeField F] [DecidableEq F] in
theorem tab3_getD {α : Type} (f : Nat → Nat → Nat → α) {p b : Nat} (hp : p < n) (hb : b < batches) :
    (((List.range n).map fun p => (List.range batches).map fun b => (List.range k).map fun i => f p b i).getD p []).getD b []
      = (List.range k).map fun i => f p b i := by
  rw [getD_tab _ _ _ hp, getD_tab _ _ _ hb]

omit [CodeField F] [DecidableEq F] in
/-- Tapes of the right shape are tabulated. -/
theorem tab3_eq {α : Type} {tapes : List (List (List α))} (h : TapeShape n batches k tapes) (dflt : α) :
    tapes = (List.range n).map fun p => (List.range batches).map fun b => (List.range k).map fun i =>
      ((tapes.getD p []).getD b []).getD i dflt := by
  apply List.ext_getElem (by simp [h.1])
  intro p h1 h2
  have hp : p < n := by simpa using h2
  rw [List.getElem_map, List.getElem_range]
  have e1 : tapes.getD p [] = tapes[p] := by rw [List.getD_eq_getElem?_getD, List.getElem?_eq_getElem h1, Option.getD_some]
  rw [e1]
  obtain ⟨g1, g2⟩ := h.2 _ (List.getElem_mem h1)
  apply List.ext_getElem (by simp [g1])
  intro b h3 h4
  rw [List.getElem_map, List.getElem_range]
  have e2 : tapes[p].getD b [] = tapes[p][b] := by
    rw [List.getD_eq_getElem?_getD, List.getElem?_eq_getElem h3, Option.getD_some]
  rw [e2]
  have g3 := g2 _ (List.getElem_mem h3)
  apply List.ext_getElem (by simp [g3])
  intro i h5 h6
  rw [List.getElem_map, List.getElem_range, List.getD_eq_getElem?_getD, List.getElem?_eq_getElem h5, Option.getD_some]

omit [CodeField F] [DecidableEq F] in
theorem tab3_congr {α : Type} {f g : Nat → Nat → Nat → α} (h : ∀ p < n, ∀ b < batches, ∀ i < k, f p b i = g p b i) :
    ((List.range n).map fun p => (List.range batches).map fun b => (List.range k).map fun i => f p b i)
      = (List.range n).map fun p => (List.range batches).map fun b => (List.range k).map fun i => g p b i :=
  List.map_congr_left fun p hp => List.map_congr_left fun b hb => List.map_congr_left fun i hi =>
    h p (List.mem_range.1 hp) b (List.mem_range.1 hb) i (List.mem_range.1 hi)

end tapes

/-- Randomness with which the parties deal the polynomials `DR`, `DZ` and `DB`. -/
noncomputable def PreTapes.ofPolys (ctx : Ctx F) (br bz bb : Nat) (DR DZ DB : Nat → Nat → F[X]) (errs : List (ErrTapes F)) : PreTapes F where
  rand := polyTapes ctx.n br (ctx.t + ctx.l) DR
  zero := polyTapes ctx.n bz (ctx.n - ctx.l) DZ
  bits := bitTapes ctx.n bb ctx.l DB
  rbit := polyTapes ctx.n bb ctx.t DB
  errs := errs

section ofPolys
variable {ctx : Ctx F} (h : ctx.Good) {br bz bb : Nat} {DR DZ DB : Nat → Nat → F[X]} {errs : List (ErrTapes F)}
include h

theorem ofPolys_R {p b : Nat} (hp : p < ctx.n) (hb : b < br) (hd : (DR p b).degree < (ctx.t + ctx.l : Nat)) :
    (PreTapes.ofPolys ctx br bz bb DR DZ DB errs).polyR ctx p b = DR p b := by
  have hle := h.le
  have hfit := h.fit
  refine (sharePoly_unique (by omega) _ hd fun i hi => ?_).symm
  show _ = (((polyTapes ctx.n br (ctx.t + ctx.l) DR).getD p []).getD b []).getD i 0
  unfold polyTapes
  rw [tab3_getD _ hp hb, getD_tab _ _ _ hi]

theorem ofPolys_Z {p b : Nat} (hp : p < ctx.n) (hb : b < bz) (hd : (DZ p b).degree < ctx.n)
    (h0 : ∀ v ∈ defaultPos ctx.n ctx.l, (DZ p b).eval v = 0) :
    (PreTapes.ofPolys ctx br bz bb DR DZ DB errs).polyZ ctx p b = DZ p b := by
  have hle := h.le
  refine (secPoly_unique h (by omega) _ _ ?_ (fun i hi => ?_) fun j hj => ?_).symm
  · rw [show ctx.n - ctx.l + ctx.l = ctx.n by omega]
    exact hd
  · show _ = (((polyTapes ctx.n bz (ctx.n - ctx.l) DZ).getD p []).getD b []).getD i 0
    unfold polyTapes
    rw [tab3_getD _ hp hb, getD_tab _ _ _ hi]
  · rw [h0 _ (List.mem_map.2 ⟨j, List.mem_range.2 hj, rfl⟩)]
    rfl

theorem ofPolys_B {p b : Nat} (hp : p < ctx.n) (hb : b < bb) (hd : (DB p b).degree < (ctx.t + ctx.l : Nat))
    (h0 : ∀ v ∈ defaultPos ctx.n ctx.l, IsBit ((DB p b).eval v)) :
    (PreTapes.ofPolys ctx br bz bb DR DZ DB errs).polyB ctx p b = DB p b := by
  have hle := h.le
  refine (secPoly_unique h (by omega) _ _ hd (fun i hi => ?_) fun j hj => ?_).symm
  · show _ = (((polyTapes ctx.n bb ctx.t DB).getD p []).getD b []).getD i 0
    unfold polyTapes
    rw [tab3_getD _ hp hb, getD_tab _ _ _ hi]
  · show _ = ((((bitTapes ctx.n bb ctx.l DB).getD p []).getD b []).map (bitVal F)).getD j 0
    unfold bitTapes
    rw [tab3_getD _ hp hb, List.map_map, getD_tab _ _ _ hj]
    rcases h0 _ (List.mem_map.2 ⟨j, List.mem_range.2 hj, rfl⟩) with h1 | h1 <;> simp [h1, bitVal]

theorem ofPolys_of {tp : PreTapes F} (hr : TapeShape ctx.n br (ctx.t + ctx.l) tp.rand)
    (hz : TapeShape ctx.n bz (ctx.n - ctx.l) tp.zero) (hb : TapeShape ctx.n bb ctx.l tp.bits)
    (ht : TapeShape ctx.n bb ctx.t tp.rbit)
    (eR : ∀ p < ctx.n, ∀ b < br, DR p b = tp.polyR ctx p b) (eZ : ∀ p < ctx.n, ∀ b < bz, DZ p b = tp.polyZ ctx p b)
    (eB : ∀ p < ctx.n, ∀ b < bb, DB p b = tp.polyB ctx p b) :
    PreTapes.ofPolys ctx br bz bb DR DZ DB tp.errs = tp := by
  have hle := h.le
  have hfit := h.fit
  have e1 : polyTapes ctx.n br (ctx.t + ctx.l) DR = tp.rand := by
    rw [tab3_eq hr 0]
    refine tab3_congr fun p hp b hb i hi => ?_
    rw [eR p hp b hb]
    exact sharePoly_eval (by omega) _ hi
  have e2 : polyTapes ctx.n bz (ctx.n - ctx.l) DZ = tp.zero := by
    rw [tab3_eq hz 0]
    refine tab3_congr fun p hp b hb i hi => ?_
    rw [eZ p hp b hb]
    exact secPoly_share h (by omega) _ _ hi
  have e3 : bitTapes ctx.n bb ctx.l DB = tp.bits := by
    rw [tab3_eq hb false]
    refine tab3_congr fun p hp b hb' j hj => ?_
    obtain ⟨u, v, g1, g2, g3, g4⟩ := hb.get p b hp hb'
    rw [eB p hp b hb']
    unfold PreTapes.polyB
    rw [secPoly_secret h (by omega) _ _ hj, g4, List.getD_eq_getElem?_getD, List.getElem?_map,
      List.getElem?_eq_getElem (by omega), Option.map_some, Option.getD_some, List.getD_eq_getElem?_getD,
      List.getElem?_eq_getElem (by omega), Option.getD_some]
    cases v[j] <;> simp [bitVal]
  have e4 : polyTapes ctx.n bb ctx.t DB = tp.rbit := by
    rw [tab3_eq ht 0]
    refine tab3_congr fun p hp b hb i hi => ?_
    rw [eB p hp b hb]
    exact secPoly_share h (by omega) _ _ hi
  unfold PreTapes.ofPolys
  rw [e1, e2, e3, e4]

end ofPolys

/-! ## Changing the results of a run -/

/-- The sharings from `rand`, `zero` and `randbit`. -/
structure Outs (F : Type) [CodeField F] where
  R : Nat → F[X]
  Z : Nat → F[X]
  B : Nat → F[X]

/-- Sharings which a run can have. -/
structure Outs.Ok (ctx : Ctx F) (NR NZ NB : Nat) (o : Outs F) : Prop where
  R : ∀ k < NR, (o.R k).degree < (ctx.t + ctx.l : Nat)
  Z : ∀ k < NZ, (o.Z k).degree < ctx.n
  Z0 : ∀ k < NZ, ∀ v ∈ defaultPos ctx.n ctx.l, (o.Z k).eval v = 0
  B : ∀ k < NB, (o.B k).degree < (ctx.t + ctx.l : Nat)
  B0 : ∀ k < NB, ∀ v ∈ defaultPos ctx.n ctx.l, IsBit ((o.B k).eval v)

/-- The sharings of a run. -/
noncomputable def PreTapes.res (ctx : Ctx F) (m mb : Mat F) (br bz bb : Nat) (tp : PreTapes F) : Outs F :=
  ⟨tp.outR ctx m br, tp.outZ ctx m bz, tp.outB ctx mb bb⟩

/-- The randomness changed so that the sharings are `o`. -/
noncomputable def PreTapes.retape (ctx : Ctx F) (m mb : Mat F) (br bz bb : Nat) (NR NB : Nat → Nat → F) (tp : PreTapes F) (o : Outs F) :
    PreTapes F :=
  .ofPolys ctx br bz bb
    (shiftPoly m.rows.length br NR (tp.polyR ctx) fun k => o.R k - tp.outR ctx m br k)
    (shiftPoly m.rows.length bz NR (tp.polyZ ctx) fun k => o.Z k - tp.outZ ctx m bz k)
    (shiftPoly mb.rows.length bb NB (tp.polyB ctx) fun k => o.B k - tp.outB ctx mb bb k) tp.errs

section retape
variable {c : Codec F} {ctx : Ctx F} {m mb : Mat F} {d : PreProcCount} {id : ProtocolID} {ids : List ProtocolID} {br bz bb : Nat}
  (H : PreHyp c ctx m mb d id ids br bz bb)
include H

theorem PreHyp.polyR_degree (tp : PreTapes F) (p b : Nat) : (tp.polyR ctx p b).degree < (ctx.t + ctx.l : Nat) :=
  sharePoly_degree (by have := H.good.le; have := H.good.fit; omega) _

theorem PreHyp.polyZ_degree (tp : PreTapes F) (p b : Nat) : (tp.polyZ ctx p b).degree < ctx.n := by
  have := secPoly_degree H.good (k := ctx.n - ctx.l) (by omega) ((tp.zero.getD p []).getD b []) []
  have hle := H.good.le
  rwa [show ctx.n - ctx.l + ctx.l = ctx.n by omega] at this

theorem PreHyp.polyZ_zero (tp : PreTapes F) (p b : Nat) : ∀ v ∈ defaultPos ctx.n ctx.l, (tp.polyZ ctx p b).eval v = 0 := by
  intro v hv
  obtain ⟨j, hj, rfl⟩ := List.mem_map.1 hv
  unfold PreTapes.polyZ
  rw [secPoly_secret H.good (by omega) _ _ (List.mem_range.1 hj)]
  rfl

theorem PreHyp.polyB_degree (tp : PreTapes F) (p b : Nat) : (tp.polyB ctx p b).degree < (ctx.t + ctx.l : Nat) :=
  secPoly_degree H.good (by have := H.good.le; omega) _ _

theorem PreHyp.polyB_bit (tp : PreTapes F) (p b : Nat) : ∀ v ∈ defaultPos ctx.n ctx.l, IsBit ((tp.polyB ctx p b).eval v) := by
  intro v hv
  obtain ⟨j, hj, rfl⟩ := List.mem_map.1 hv
  unfold PreTapes.polyB
  rw [secPoly_secret H.good (by have := H.good.le; omega) _ _ (List.mem_range.1 hj), List.getD_eq_getElem?_getD, List.getElem?_map]
  cases ((tp.bits.getD p []).getD b [])[j]? with
  | none => left; rfl
  | some b => exact bitVal_isBit b

/-- The sharings of a run are as they should be. -/
theorem PreHyp.res_ok (tp : PreTapes F) :
    (tp.res ctx m mb br bz bb).Ok ctx (m.rows.length * br) (m.rows.length * bz) (mb.rows.length * bb) where
  R := H.degR tp
  Z := H.degZ tp
  Z0 := fun k _ => H.secZ tp k
  B := H.degB tp
  B0 := fun k hk v hv => by
    show IsBit ((dealPoly ctx.n bb mb (tp.polyB ctx) k).eval v)
    rw [dealPoly_eval]
    refine IsBit.sum fun p _ => IsBit.mul ?_ (H.polyB_bit tp _ _ v hv)
    rw [List.getD_eq_getElem?_getD]
    cases hx : (mb.rows.getD (k / bb) [])[p]? with
    | none => left; rfl
    | some x =>
      rw [List.getD_eq_getElem?_getD] at hx
      cases hr : mb.rows[k / bb]? with
      | none => rw [hr] at hx; simp at hx
      | some r =>
        rw [hr] at hx
        exact H.binary r (List.mem_of_getElem? hr) x (List.mem_of_getElem? hx)

variable {Cs : Finset Nat} {NR NB : Nat → Nat → F} (hR : RightInv Cs m NR) (hB : RightInv Cs mb NB) (hbit : ∀ p s, IsBit (NB p s))
  {tp : PreTapes F} {o : Outs F} (ho : o.Ok ctx (m.rows.length * br) (m.rows.length * bz) (mb.rows.length * bb))

include ho

theorem PreHyp.retape_R {p b : Nat} (hp : p < ctx.n) (hb : b < br) : (tp.retape ctx m mb br bz bb NR NB o).polyR ctx p b
    = shiftPoly m.rows.length br NR (tp.polyR ctx) (fun k => o.R k - tp.outR ctx m br k) p b :=
  ofPolys_R H.good hp hb (shiftPoly_degree hb (H.polyR_degree tp p b) fun i hi => degree_sub_lt' (ho.R i hi) (H.degR tp i hi))

theorem PreHyp.retape_Z {p b : Nat} (hp : p < ctx.n) (hb : b < bz) : (tp.retape ctx m mb br bz bb NR NB o).polyZ ctx p b
    = shiftPoly m.rows.length bz NR (tp.polyZ ctx) (fun k => o.Z k - tp.outZ ctx m bz k) p b :=
  ofPolys_Z H.good hp hb (shiftPoly_degree hb (H.polyZ_degree tp p b) fun i hi => degree_sub_lt' (ho.Z i hi) (H.degZ tp i hi))
    fun v hv => by
      rw [shiftPoly_same hb fun i hi => by rw [eval_sub, ho.Z0 i hi v hv, H.secZ tp i v hv, sub_zero], H.polyZ_zero tp p b v hv]

include hbit in
theorem PreHyp.retape_B {p b : Nat} (hp : p < ctx.n) (hb : b < bb) : (tp.retape ctx m mb br bz bb NR NB o).polyB ctx p b
    = shiftPoly mb.rows.length bb NB (tp.polyB ctx) (fun k => o.B k - tp.outB ctx mb bb k) p b :=
  ofPolys_B H.good hp hb (shiftPoly_degree hb (H.polyB_degree tp p b) fun i hi => degree_sub_lt' (ho.B i hi) (H.degB tp i hi))
    fun v hv => shiftPoly_bit hb hbit (H.polyB_bit tp p b v hv) fun i hi => by
      rw [eval_sub]
      exact (ho.B0 i hi v hv).sub ((H.res_ok tp).B0 i hi v hv)

omit ho H in
theorem retape_ok (H : PreHyp c ctx m mb d id ids br bz bb) (ht : tp.Ok ctx.n ctx.t ctx.l m mb d) :
    (tp.retape ctx m mb br bz bb NR NB o).Ok ctx.n ctx.t ctx.l m mb d where
  rand := fun b hb => by
    cases H.br.symm.trans hb
    exact tab3_shape _
  zero := fun b hb => by
    cases H.bz.symm.trans hb
    exact tab3_shape _
  bits := fun b hb => by
    cases H.bb.symm.trans hb
    exact tab3_shape _
  rbit := fun b hb => by
    cases H.bb.symm.trans hb
    exact tab3_shape _
  errs := ht.errs

include hR in
/-- The sharings are `o`. -/
theorem PreHyp.retape_outR {k : Nat} (hk : k < m.rows.length * br) : (tp.retape ctx m mb br bz bb NR NB o).outR ctx m br k = o.R k := by
  unfold PreTapes.outR
  rw [dealPoly_congr fun p hp b hb => H.retape_R ho hp hb, dealPoly_shift H.mat.2.1 hR hk]
  · exact add_sub_cancel _ _
  · exact hk

include hR in
theorem PreHyp.retape_outZ {k : Nat} (hk : k < m.rows.length * bz) : (tp.retape ctx m mb br bz bb NR NB o).outZ ctx m bz k = o.Z k := by
  unfold PreTapes.outZ
  rw [dealPoly_congr fun p hp b hb => H.retape_Z ho hp hb, dealPoly_shift H.mat.2.1 hR hk]
  · exact add_sub_cancel _ _
  · exact hk

include hB hbit in
theorem PreHyp.retape_outB {k : Nat} (hk : k < mb.rows.length * bb) : (tp.retape ctx m mb br bz bb NR NB o).outB ctx mb bb k = o.B k := by
  unfold PreTapes.outB
  rw [dealPoly_congr fun p hp b hb => H.retape_B hbit ho hp hb, dealPoly_shift H.matb.2.1 hB hk]
  · exact add_sub_cancel _ _
  · exact hk

include hR hB hbit in
/-- Changing the sharings back gives the first randomness. -/
theorem PreHyp.retape_back (ht : tp.Ok ctx.n ctx.t ctx.l m mb d) {o' : Outs F}
    (eR : ∀ k < m.rows.length * br, o'.R k = tp.outR ctx m br k) (eZ : ∀ k < m.rows.length * bz, o'.Z k = tp.outZ ctx m bz k)
    (eB : ∀ k < mb.rows.length * bb, o'.B k = tp.outB ctx mb bb k) :
    (tp.retape ctx m mb br bz bb NR NB o).retape ctx m mb br bz bb NR NB o' = tp := by
  refine ofPolys_of H.good (tp := tp) (ht.rand br H.br) (ht.zero bz H.bz) (ht.bits bb H.bb) (ht.rbit bb H.bb) (fun p hp b hb => ?_)
    (fun p hp b hb => ?_) fun p hp b hb => ?_
  · exact shiftPoly_back hb (H.retape_R ho hp hb) fun i hi => by rw [H.retape_outR hR ho hi, eR i hi, neg_sub]
  · exact shiftPoly_back hb (H.retape_Z ho hp hb) fun i hi => by rw [H.retape_outZ hR ho hi, eZ i hi, neg_sub]
  · exact shiftPoly_back hb (H.retape_B hbit ho hp hb) fun i hi => by rw [H.retape_outB hB hbit ho hi, eB i hi, neg_sub]

include hR hB in
omit ho in
/-- The randomness of the coalition is not changed. -/
theorem PreHyp.retape_own (ht : tp.Ok ctx.n ctx.t ctx.l m mb d) {q : Nat} (hq : q ∈ Cs) (hqn : q < ctx.n) :
    (tp.retape ctx m mb br bz bb NR NB o).own q = tp.own q := by
  have e := ofPolys_of H.good (tp := tp) (ht.rand br H.br) (ht.zero bz H.bz) (ht.bits bb H.bb) (ht.rbit bb H.bb)
    (fun _ _ _ _ => rfl) (fun _ _ _ _ => rfl) (fun _ _ _ _ => rfl)
  conv_rhs => rw [← e]
  unfold PreTapes.retape PreTapes.ofPolys PreTapes.own polyTapes bitTapes
  simp only [getElem?_tab _ _ _ hqn, shiftPoly_own (hR.zero q hq), shiftPoly_own (hB.zero q hq)]

/-- What the coalition gets when the sharings are dealt. -/
theorem PreHyp.retape_sent {v : F} (eR : ∀ k < m.rows.length * br, (o.R k).eval v = (tp.outR ctx m br k).eval v)
    (eZ : ∀ k < m.rows.length * bz, (o.Z k).eval v = (tp.outZ ctx m bz k).eval v)
    (eB : ∀ k < mb.rows.length * bb, (o.B k).eval v = (tp.outB ctx mb bb k).eval v) (hbit : ∀ p s, IsBit (NB p s)) {p : Nat} (hp : p < ctx.n) :
    (∀ b < br, ((tp.retape ctx m mb br bz bb NR NB o).polyR ctx p b).eval v = (tp.polyR ctx p b).eval v) ∧
    (∀ b < bz, ((tp.retape ctx m mb br bz bb NR NB o).polyZ ctx p b).eval v = (tp.polyZ ctx p b).eval v) ∧
    ∀ b < bb, ((tp.retape ctx m mb br bz bb NR NB o).polyB ctx p b).eval v = (tp.polyB ctx p b).eval v := by
  refine ⟨fun b hb => ?_, fun b hb => ?_, fun b hb => ?_⟩
  · rw [H.retape_R ho hp hb, shiftPoly_same hb fun i hi => by rw [eval_sub, eR i hi, sub_self]]
  · rw [H.retape_Z ho hp hb, shiftPoly_same hb fun i hi => by rw [eval_sub, eZ i hi, sub_self]]
  · rw [H.retape_B hbit ho hp hb, shiftPoly_same hb fun i hi => by rw [eval_sub, eB i hi, sub_self]]

end retape

end Verif
