import Verif.TransformLemmas
import Verif.LpnLemmas

/-!
# Lemmas about `select` and about the context of `garble`
-/

open Polynomial

namespace Verif

open CodeField (ofU32)

/-! ## Sorting -/

theorem mem_dedupAdj (l : List Nat) (w : Nat) : w ∈ dedupAdj l ↔ w ∈ l := by
  induction l using dedupAdj.induct with
  | case1 => simp [dedupAdj]
  | case2 x => simp [dedupAdj]
  | case3 x r ih =>
    rw [dedupAdj, if_pos rfl, ih]
    simp
  | case4 x y r hne ih =>
    rw [dedupAdj, if_neg hne, List.mem_cons, ih, List.mem_cons (a := w) (b := x)]

theorem dedupAdj_length (l : List Nat) : (dedupAdj l).length ≤ l.length := by
  induction l using dedupAdj.induct with
  | case1 => simp [dedupAdj]
  | case2 x => simp [dedupAdj]
  | case3 x r ih =>
    rw [dedupAdj, if_pos rfl]
    simp only [List.length_cons] at ih ⊢
    omega
  | case4 x y r hne ih =>
    rw [dedupAdj, if_neg hne]
    simp only [List.length_cons] at ih ⊢
    omega

theorem dedupAdj_nodup (l : List Nat) (h : l.Pairwise (· ≤ ·)) : (dedupAdj l).Nodup := by
  induction l using dedupAdj.induct with
  | case1 => simp [dedupAdj]
  | case2 x => simp [dedupAdj]
  | case3 x r ih =>
    rw [dedupAdj, if_pos rfl]
    exact ih (List.pairwise_cons.1 h).2
  | case4 x y r hne ih =>
    rw [dedupAdj, if_neg hne, List.nodup_cons, mem_dedupAdj]
    obtain ⟨h1, h2⟩ := List.pairwise_cons.1 h
    refine ⟨fun hm => ?_, ih h2⟩
    rcases List.mem_cons.1 hm with rfl | hm
    · exact hne rfl
    · have := (List.pairwise_cons.1 h2).1 x hm
      have := h1 y (by simp)
      omega

theorem mem_sortDedup (l : List Nat) (w : Nat) : w ∈ sortDedup l ↔ w ∈ l := by
  unfold sortDedup
  rw [mem_dedupAdj, List.mem_insertionSort]

theorem sortDedup_nodup (l : List Nat) : (sortDedup l).Nodup :=
  dedupAdj_nodup _ (List.pairwise_insertionSort _ _)

theorem sortDedup_length (l : List Nat) : (sortDedup l).length ≤ l.length := by
  unfold sortDedup
  exact le_trans (dedupAdj_length _) (by rw [List.length_insertionSort])

variable {F : Type} [CodeField F] [DecidableEq F]

/-- The position of a wire. -/
def wirePos (n l w : Nat) : F := ofU32 (w + (n + l))

omit [DecidableEq F] in
theorem wireToPos_eq (n l : Nat) (ws : List Nat) : (wireToPos n l ws : List F) = ws.map (wirePos n l) := rfl

/-- Wires whose positions exist in the field. -/
def WiresFit (F : Type) [CodeField F] (n l : Nat) (ws : List Nat) : Prop := ∀ w ∈ ws, n + l + w < CodeField.order F

omit [DecidableEq F] in
theorem wireToPos_good {n l : Nat} (h : n + l ≤ CodeField.order F) {ws : List Nat} (hn : ws.Nodup)
    (hf : WiresFit F n l ws) : GoodPos n (wireToPos n l ws : List F) :=
  Props.C20_wires_good n l (CodeField.order F - n - l) ws (by omega) hn fun w hw => by
    have := hf w hw; omega

omit [DecidableEq F] in
theorem defaultPos_take {n l k : Nat} (h : n + l ≤ CodeField.order F) (hk : k ≤ l) :
    GoodPos n ((defaultPos n l : List F).take k) ∧ ((defaultPos n l : List F).take k).length = k ∧
      ((defaultPos n l : List F).take k) = (List.range k).map fun s => ofU32 (n + s) := by
  have g := defaultPos_good (F := F) h
  refine ⟨⟨g.nodup.sublist (List.take_sublist _ _), fun i hi hm => g.disj i hi (List.mem_of_mem_take hm), g.small⟩, ?_, ?_⟩
  · rw [List.length_take, defaultPos_length]; omega
  · unfold defaultPos
    exact take_tab _ _ _ hk

/-! ## `select` -/

/-- `select` for one list of wires: the shares of a polynomial which carries each wire's value at the wire's
position. -/
theorem selectInput_tab {n l : Nat} (hn : n + l ≤ CodeField.order F) (hl : 1 ≤ l) {k : Nat} (hk : 1 ≤ k) (B cols : Nat) (lookup : Nat → Option Nat)
    (bl : Nat → Nat) (ws : List Nat) (hw : ws.length ≤ l) (hfit : WiresFit F n l ws)
    (hbl : ∀ w ∈ ws, lookup w = some (bl w) ∧ bl w < B) (Y : Nat → Nat → F[X])
    (hY : ∀ b < B, ∀ c < cols, (Y b c).degree < k) :
    ∃ S : Nat → F[X], (∀ c < cols, (S c).degree < (k + l - 1 : Nat)) ∧
      (∀ w ∈ ws, ∀ c < cols, (S c).eval (wirePos n l w) = (Y (bl w) c).eval (wirePos n l w)) ∧
      ∀ id < n, selectInput n l id cols lookup
          ((List.range B).map fun b => (List.range cols).map fun c => (Y b c).eval (ofU32 id)) ws
        = some ((List.range cols).map fun c => (S c).eval (ofU32 id)) := by
  have hfit' : WiresFit F n l (sortDedup ws) := fun w hw => hfit w ((mem_sortDedup ws w).1 hw)
  have hgood := wireToPos_good hn (sortDedup_nodup ws) hfit'
  obtain ⟨Bs, b1, b2, b3⟩ := lagrangeRow_basis (wireToPos n l (sortDedup ws) : List F) hgood.nodup
  have hlen : (wireToPos n l (sortDedup ws) : List F).length = (sortDedup ws).length := by simp [wireToPos]
  rw [hlen] at b1 b2 b3
  have hsl : (sortDedup ws).length ≤ l := le_trans (sortDedup_length ws) hw
  refine ⟨fun c => ∑ k ∈ Finset.range (sortDedup ws).length, Bs k * Y (bl ((sortDedup ws).getD k 0)) c, ?_, ?_, ?_⟩
  · intro c hc
    apply degree_finset_sum_lt
    intro i hi
    have hm : (sortDedup ws).getD i 0 ∈ ws := by
      rw [List.getD_eq_getElem _ _ hi]
      exact (mem_sortDedup _ _).1 (List.getElem_mem hi)
    have d1 : (Bs i).degree < ((l - 1) + 1 : Nat) := degree_lt_mono (b1 i hi) (by omega)
    have d2 : (Y (bl ((sortDedup ws).getD i 0)) c).degree < ((k - 1) + 1 : Nat) :=
      degree_lt_mono (hY _ (hbl _ hm).2 c hc) (by omega)
    exact degree_lt_mono (degree_mul_lt d1 d2) (by omega)
  · intro w hw c hc
    have hm : w ∈ sortDedup ws := (mem_sortDedup _ _).2 hw
    obtain ⟨m, hm1, hm2⟩ := List.mem_iff_getElem.1 hm
    rw [eval_finsetSum, Finset.sum_eq_single_of_mem m (Finset.mem_range.2 hm1)]
    · have := congrArg (fun x => x[m]?) (b2 m hm1)
      simp only [wireToPos_eq, List.map_map] at this
      rw [List.getElem?_map, List.getElem?_eq_getElem hm1, getElem?_tab _ _ _ hm1] at this
      simp only [Option.map_some, Function.comp_apply, if_true, Option.some.injEq, hm2] at this
      rw [eval_mul, this, one_mul, List.getD_eq_getElem _ _ hm1, hm2]
    · intro j hj hjm
      have hj' := Finset.mem_range.1 hj
      have := congrArg (fun x => x[m]?) (b2 j hj')
      simp only [wireToPos_eq, List.map_map] at this
      rw [List.getElem?_map, List.getElem?_eq_getElem hm1, getElem?_tab _ _ _ hm1] at this
      simp only [Option.map_some, Function.comp_apply, Option.some.injEq, hm2, if_neg hjm.symm] at this
      rw [eval_mul, this, zero_mul]
  · intro id hid
    unfold selectInput
    have hbl' : ∀ w ∈ sortDedup ws, lookup w = some (bl w) ∧ bl w < B := fun w hw => hbl w ((mem_sortDedup _ _).1 hw)
    rw [mapM_some_map _ bl _ fun w hw => (hbl' w hw).1]
    simp only [Option.bind_some]
    rw [List.mapM_map, mapM_some_map _ (fun w => (List.range cols).map fun c => (Y (bl w) c).eval (ofU32 id)) _ (by
      intro w hw
      exact getElem?_tab _ _ _ (hbl' w hw).2)]
    simp only [Option.bind_some]
    have hme : (sharePos n : List F)[id]? = some (ofU32 id) := getElem?_tab _ _ _ hid
    rw [hme]
    simp only [Option.bind_some]
    unfold Mat.mulRows lagrangeCoeffs
    rw [if_pos (by simp [wireToPos])]
    simp only [Option.bind_some, List.map_cons, List.map_nil, List.getElem?_cons_zero, Option.some.injEq]
    apply List.map_congr_left
    intro c hc
    have hc := List.mem_range.1 hc
    rw [col_map _ _ (fun w => (Y (bl w) c).eval (ofU32 id)) _ (fun w _ => getElem?_tab _ _ _ hc), b3,
      map_tab (sortDedup ws) 0, dot_tab, eval_finsetSum]
    simp only [eval_mul]

/-! ## The transformations of the context -/

omit [DecidableEq F] in
theorem tfOut_eq {n l : Nat} {c : PackedCircuit} (hb : ∀ b ∈ c.blocks, b.length ≤ l) :
    tfOut (F := F) n l c = some (c.blocks.map fun ws =>
      ⟨(defaultPos n l).take ws.length, wireToPos n l ws, ⟨List.range ws.length⟩⟩) := by
  unfold tfOut
  apply mapM_some_map
  intro ws hws
  unfold defPrefix
  rw [if_pos (hb ws hws)]
  rfl

theorem tfOut_ok {ctx : Ctx F} (h : ctx.Good) {ws : List Nat} (hl : ws.length ≤ ctx.l) (hn : ws.Nodup)
    (hf : WiresFit F ctx.n ctx.l ws) :
    SharingTransform.Ok ctx (⟨(defaultPos ctx.n ctx.l).take ws.length, wireToPos ctx.n ctx.l ws, ⟨List.range ws.length⟩⟩ :
      SharingTransform F) := by
  obtain ⟨g1, g2, _⟩ := defaultPos_take (F := F) h.fit hl
  refine ⟨g1, wireToPos_good h.fit hn hf, ?_, ?_, ?_, ?_⟩
  · simp only [g2]; exact hl
  · simp [wireToPos]; exact hl
  · simp [Combination.len, wireToPos]
  · intro i hi
    simp only [g2]
    exact List.mem_range.1 hi

/-- The transformation of a gate input. -/
structure InpTf (ctx : Ctx F) (ws : List Nat) (tr : SharingTransform F) : Prop where
  ok : tr.Ok ctx
  old : tr.oldPos = wireToPos ctx.n ctx.l (sortDedup ws)
  new : tr.newPos = (defaultPos ctx.n ctx.l).take ws.length
  act : ∀ h : Nat → F, tr.f.apply ((sortDedup ws).map h) = some (ws.map h)

theorem tfInp_one {ctx : Ctx F} (h : ctx.Good) {ws : List Nat} (hl : ws.length ≤ ctx.l)
    (hf : WiresFit F ctx.n ctx.l ws) :
    ∃ tr : SharingTransform F, ((Combination.fromInstance (sortDedup ws) ws).bind fun f =>
      (defPrefix ctx.n ctx.l ws.length).map fun d => (⟨wireToPos ctx.n ctx.l (sortDedup ws), d, f⟩ : SharingTransform F))
        = some tr ∧ InpTf ctx ws tr := by
  obtain ⟨f, f1, f2, f3⟩ := Props.C13_from_instance (S := F) (sortDedup ws) ws fun w hw => (mem_sortDedup _ _).2 hw
  obtain ⟨g1, g2, _⟩ := defaultPos_take (F := F) h.fit hl
  refine ⟨⟨wireToPos ctx.n ctx.l (sortDedup ws), (defaultPos ctx.n ctx.l).take ws.length, f⟩, ?_, ?_, rfl, rfl, f3⟩
  · rw [f1]
    unfold defPrefix
    rw [if_pos hl]
    rfl
  · refine ⟨wireToPos_good h.fit (sortDedup_nodup ws) fun w hw => hf w ((mem_sortDedup _ _).1 hw), g1, ?_, ?_, ?_, ?_⟩
    · simp only [wireToPos, List.length_map]
      exact le_trans (sortDedup_length ws) hl
    · simp only [g2]; exact hl
    · simp only [g2, f2]
    · intro i hi
      simp only [wireToPos, List.length_map]
      have hm := f3 (fun _ => 0)
      unfold Combination.apply at hm
      by_contra hlt
      rw [mapM_none_of_mem _ _ i hi (List.getElem?_eq_none (by simpa using hlt))] at hm
      exact absurd hm (by simp)

theorem tfInp_eq {ctx : Ctx F} (h : ctx.Good) {c : PackedCircuit}
    (hl : ∀ ws ∈ c.gates.flatMap PackedGate.inps, ws.length ≤ ctx.l)
    (hf : ∀ ws ∈ c.gates.flatMap PackedGate.inps, WiresFit F ctx.n ctx.l ws) :
    ∃ tr : List Nat → SharingTransform F, (∀ ws ∈ c.gates.flatMap PackedGate.inps, InpTf ctx ws (tr ws)) ∧
      tfInp ctx.n ctx.l c = some ((c.gates.flatMap PackedGate.inps).map tr) := by
  classical
  refine ⟨fun ws => if hh : ws ∈ c.gates.flatMap PackedGate.inps then
    Classical.choose (tfInp_one h (hl ws hh) (hf ws hh)) else ⟨[], [], ⟨[]⟩⟩, ?_, ?_⟩
  · intro ws hh
    simp only []
    rw [dif_pos hh]
    exact (Classical.choose_spec (tfInp_one h (hl ws hh) (hf ws hh))).2
  · unfold tfInp
    apply mapM_some_map
    intro ws hh
    rw [dif_pos hh]
    exact (Classical.choose_spec (tfInp_one h (hl ws hh) (hf ws hh))).1

/-! ## LPN matrices -/

theorem lpnShare_tab (rng : List Nat → Nat → F) {n l : Nat} (hn : n + l ≤ CodeField.order F) (lpn : LpnParams)
    (nonce : List Nat) :
    ∃ A : Nat → Nat → Nat → F[X], (∀ r a b, (A r a b).degree < l) ∧
      (∀ r a b, (defaultPos n l).map (fun v => (A r a b).eval v) = lpnSlots rng l lpn.mssgLen lpn.keyLen nonce r a b) ∧
      ∀ id < n, lpnShare rng n l lpn id nonce = some ((List.range 4).map fun r => (List.range lpn.mssgLen).map fun a =>
        (List.range lpn.keyLen).map fun b => (A r a b).eval (ofU32 id)) := by
  have hd := (defaultPos_good (F := F) hn).nodup
  have : ∀ r a b, ∃ p : F[X], p.degree < l ∧
      (defaultPos n l).map (fun v => p.eval v) = lpnSlots rng l lpn.mssgLen lpn.keyLen nonce r a b := by
    intro r a b
    obtain ⟨p, p1, p2⟩ := exists_poly_of_values (defaultPos n l : List F) hd
      (lpnSlots rng l lpn.mssgLen lpn.keyLen nonce r a b) (by simp [lpnSlots, defaultPos])
    rw [defaultPos_length] at p1
    exact ⟨p, p1, p2⟩
  choose A a1 a2 using this
  refine ⟨A, a1, a2, ?_⟩
  intro id hid
  unfold lpnShare
  have hme : (sharePos n : List F)[id]? = some (ofU32 id) := getElem?_tab _ _ _ hid
  rw [hme]
  simp only [Option.map_some, Option.some.injEq]
  apply List.map_congr_left
  intro r _
  apply List.map_congr_left
  intro a _
  apply List.map_congr_left
  intro b _
  rw [← a2, dot_lagrangeRow _ hd]
  rw [defaultPos_length]
  exact a1 r a b

end Verif
