import Verif.PrivacyParams

/-!
# How the masks of the transformations can be changed without the coalition noticing
-/

open Polynomial

namespace Verif

open CodeField (ofU32)

variable {F : Type} [CodeField F] [DecidableEq F]

omit [CodeField F] [DecidableEq F] in
/-- Where an entry is found in the chunks. -/
theorem chunks_get {α : Type} {k : Nat} (hk : 0 < k) (xs : List α) {i : Nat} (hi : i < xs.length) :
    ∃ grp, (chunks k xs)[i / k]? = some grp ∧ grp[i % k]? = xs[i]? := by
  induction h : xs.length using Nat.strong_induction_on generalizing xs i with
  | _ n ih =>
    rw [chunks_eq k xs (by omega), if_neg (by intro e; rw [e] at hi; simp at hi)]
    by_cases hik : i < k
    · refine ⟨xs.take k, by rw [Nat.div_eq_of_lt hik]; rfl, ?_⟩
      rw [Nat.mod_eq_of_lt hik, List.getElem?_take, if_pos hik]
    · obtain ⟨grp, g1, g2⟩ := ih (xs.drop k).length (by rw [List.length_drop]; omega) (xs.drop k) (i := i - k)
        (by rw [List.length_drop]; omega) rfl
      refine ⟨grp, ?_, ?_⟩
      · rw [Nat.div_eq_sub_div hk (by omega), List.getElem?_cons_succ]
        exact g1
      · rw [Nat.mod_eq_sub_mod (by omega), g2, List.getElem?_drop]
        congr 1
        omega

omit [CodeField F] [DecidableEq F] in
/-- Which entry is found in the chunks. -/
theorem chunks_entry {α : Type} {k : Nat} (hk : 0 < k) (xs : List α) {v j : Nat} {grp : List α} (hg : (chunks k xs)[v]? = some grp)
    (hj : j < grp.length) : j < k ∧ grp[j]? = xs[v * k + j]? := by
  have hgk := ((chunks_sizes k xs (by omega)).1 grp (List.mem_of_getElem? hg)).2
  refine ⟨by omega, ?_⟩
  have hv := (List.getElem?_eq_some_iff.1 hg).1
  induction h : xs.length using Nat.strong_induction_on generalizing xs v with
  | _ n ih =>
    subst h
    by_cases hx : xs = []
    · rw [chunks_eq k xs (by omega), if_pos hx] at hg
      simp at hg
    · have hlen := List.length_pos_of_ne_nil hx
      rw [chunks_eq k xs (by omega), if_neg hx] at hg
      cases v with
      | zero =>
        rw [List.getElem?_cons_zero, Option.some.injEq] at hg
        subst hg
        rw [List.getElem?_take, if_pos (by omega), Nat.zero_mul, Nat.zero_add]
      | succ v =>
        rw [List.getElem?_cons_succ] at hg
        rw [ih (xs.drop k).length (by rw [List.length_drop]; omega) (xs.drop k) hg (List.getElem?_eq_some_iff.1 hg).1 rfl,
          List.getElem?_drop]
        congr 1
        ring

/-- `select`, as a combination of the rows of the blocks. -/
theorem selectInput_basis {n l : Nat} (hn : n + l ≤ CodeField.order F) (ws : List Nat) (hfit : WiresFit F n l ws) :
    ∃ e : Nat → F[X], (∀ w ∈ ws, (e w).degree < ws.toFinset.card ∧ ∀ v ∈ ws, (e w).eval (wirePos n l v) = if v = w then 1 else 0) ∧
      ∀ (B cols : Nat) (lookup : Nat → Option Nat) (bl : Nat → Nat), (∀ w ∈ ws, lookup w = some (bl w) ∧ bl w < B) →
        ∀ (id : Nat), id < n → ∀ f : Nat → Nat → F,
          selectInput n l id cols lookup ((List.range B).map fun b => (List.range cols).map fun c => f b c) ws
            = some ((List.range cols).map fun c => ∑ w ∈ ws.toFinset, (e w).eval (ofU32 id) * f (bl w) c) := by
  have hfit' : WiresFit F n l (sortDedup ws) := fun w hw => hfit w ((mem_sortDedup ws w).1 hw)
  have hgood := wireToPos_good hn (sortDedup_nodup ws) hfit'
  obtain ⟨Bs, b1, b2, b3⟩ := lagrangeRow_basis (wireToPos n l (sortDedup ws) : List F) hgood.nodup
  have hlen : (wireToPos n l (sortDedup ws) : List F).length = (sortDedup ws).length := by simp [wireToPos]
  rw [hlen] at b1 b2 b3
  have hnd := sortDedup_nodup ws
  have hset : (sortDedup ws).toFinset = ws.toFinset := by
    ext w
    simp [mem_sortDedup]
  have hcard : ws.toFinset.card = (sortDedup ws).length := by rw [← hset, List.toFinset_card_of_nodup hnd]
  refine ⟨fun w => Bs ((sortDedup ws).idxOf w), fun w hw => ?_, fun B cols lookup bl hbl id hid f => ?_⟩
  · have hm : w ∈ sortDedup ws := (mem_sortDedup _ _).2 hw
    have hk := List.idxOf_lt_length_iff.2 hm
    refine ⟨by rw [hcard]; exact b1 _ hk, fun v hv => ?_⟩
    have hv' : v ∈ sortDedup ws := (mem_sortDedup _ _).2 hv
    have hkv := List.idxOf_lt_length_iff.2 hv'
    have := congrArg (fun x => x[(sortDedup ws).idxOf v]?) (b2 _ hk)
    simp only [wireToPos_eq, List.map_map] at this
    rw [List.getElem?_map, List.getElem?_eq_getElem hkv, getElem?_tab _ _ _ hkv, List.getElem_idxOf hkv] at this
    simp only [Option.map_some, Function.comp_apply, Option.some.injEq] at this
    rw [this]
    by_cases hvw : v = w
    · rw [hvw, if_pos rfl, if_pos rfl]
    · rw [if_neg hvw, if_neg]
      intro h
      exact hvw ((List.idxOf_inj hv').1 h)
  · unfold selectInput
    have hbl' : ∀ w ∈ sortDedup ws, lookup w = some (bl w) ∧ bl w < B := fun w hw => hbl w ((mem_sortDedup _ _).1 hw)
    rw [mapM_some_map _ bl _ fun w hw => (hbl' w hw).1]
    simp only [Option.bind_some]
    rw [List.mapM_map, mapM_some_map _ (fun w => (List.range cols).map fun c => f (bl w) c) _ (by
      intro w hw
      exact getElem?_tab _ _ _ (hbl' w hw).2)]
    simp only [Option.bind_some]
    have hme : (sharePos n : List F)[id]? = some (ofU32 id) := getElem?_tab _ _ _ hid
    rw [hme]
    simp only [Option.bind_some]
    unfold Mat.mulRows lagrangeCoeffs
    rw [if_pos (by simp [wireToPos])]
    simp only [Option.bind_some, List.map_cons, List.map_nil, List.getElem?_cons_zero, Option.some.injEq]
    apply List.map_congr_left
    intro c hc
    have hc := List.mem_range.1 hc
    rw [col_map _ _ (fun w => f (bl w) c) _ (fun w _ => getElem?_tab _ _ _ hc), b3,
      map_tab (sortDedup ws) 0, dot_tab, ← hset, List.sum_toFinset _ hnd, map_tab (sortDedup ws) 0, list_range_sum]
    refine Finset.sum_congr rfl fun k hk => ?_
    have hk := Finset.mem_range.1 hk
    rw [List.getD_eq_getElem _ _ hk, hnd.idxOf_getElem _ hk]

/-! ## Changes of the mask at the new positions -/

/-- A polynomial with the values at the new positions which follow from `δ`, and the given values `val` at the positions of the
parties in `S`. -/
noncomputable def genShift (ctx : Ctx F) (S : Finset Nat) (tf : SharingTransform F) (δ : F[X]) (val : Nat → F) : F[X] :=
  Lagrange.interpolate (Finset.range tf.newPos.length ∪ S.image (tf.newPos.length + ·))
    (fun c => (tf.newPos ++ sharePos ctx.n).getD c 0)
    (fun c => if c < tf.newPos.length then δ.eval (tf.oldPos.getD (tf.f.map.getD c 0) 0) else val (c - tf.newPos.length))

omit [DecidableEq F] in
theorem genShift_neg (ctx : Ctx F) (S : Finset Nat) (tf : SharingTransform F) (δ : F[X]) (val : Nat → F) :
    genShift ctx S tf (-δ) (fun p => -val p) = -genShift ctx S tf δ val := by
  unfold genShift
  rw [← map_neg]
  congr 1
  funext c
  simp only [Pi.neg_apply, eval_neg]
  split <;> rfl

section gen
variable {ctx : Ctx F} {S : Finset Nat} (hS : ∀ p ∈ S, p < ctx.n) {tf : SharingTransform F} (ok : tf.Ok ctx) (δ : F[X]) (val : Nat → F)
include hS ok

omit [DecidableEq F] in
theorem genShift_inj : Set.InjOn (fun c => (tf.newPos ++ sharePos ctx.n : List F).getD c 0)
    ((Finset.range tf.newPos.length ∪ S.image (tf.newPos.length + ·) : Finset Nat) : Set Nat) := by
  have hlt : ∀ a ∈ (Finset.range tf.newPos.length ∪ S.image (tf.newPos.length + ·) : Finset Nat),
      a < (tf.newPos ++ sharePos ctx.n : List F).length := by
    intro a ha
    rw [List.length_append, sharePos_length]
    rcases Finset.mem_union.1 ha with ha | ha
    · have := Finset.mem_range.1 ha
      omega
    · obtain ⟨p, hp, rfl⟩ := Finset.mem_image.1 ha
      have := hS p hp
      omega
  intro a ha b hb hab
  have ha := hlt a (Finset.mem_coe.1 ha)
  have hb := hlt b (Finset.mem_coe.1 hb)
  simp only [List.getD_eq_getElem _ _ ha, List.getD_eq_getElem _ _ hb] at hab
  exact ((allPos_nodup ok.new).getElem_inj_iff).1 hab

omit [DecidableEq F] in
theorem genShift_degree : (genShift ctx S tf δ val).degree < (tf.newPos.length + S.card : Nat) := by
  refine degree_lt_mono (Lagrange.degree_interpolate_lt _ (genShift_inj hS ok)) ?_
  refine (Finset.card_union_le _ _).trans ?_
  rw [Finset.card_range]
  have : (S.image (tf.newPos.length + ·)).card ≤ S.card := Finset.card_image_le
  omega

omit [DecidableEq F] in
theorem genShift_new {i : Nat} (hi : i < tf.newPos.length) :
    (genShift ctx S tf δ val).eval tf.newPos[i] = δ.eval (tf.oldPos.getD (tf.f.map.getD i 0) 0) := by
  have := Lagrange.eval_interpolate_at_node (fun c => if c < tf.newPos.length then δ.eval (tf.oldPos.getD (tf.f.map.getD c 0) 0)
    else val (c - tf.newPos.length)) (genShift_inj hS ok) (i := i) (Finset.mem_union_left _ (Finset.mem_range.2 hi))
  rw [if_pos hi, List.getD_eq_getElem?_getD, List.getElem?_append_left hi, List.getElem?_eq_getElem hi, Option.getD_some] at this
  exact this

omit [DecidableEq F] in
theorem genShift_share {p : Nat} (hp : p ∈ S) : (genShift ctx S tf δ val).eval (ofU32 p) = val p := by
  have := Lagrange.eval_interpolate_at_node (fun c => if c < tf.newPos.length then δ.eval (tf.oldPos.getD (tf.f.map.getD c 0) 0)
    else val (c - tf.newPos.length)) (genShift_inj hS ok) (i := tf.newPos.length + p)
    (Finset.mem_union_right _ (Finset.mem_image.2 ⟨p, hp, rfl⟩))
  rw [if_neg (by omega), Nat.add_sub_cancel_left, List.getD_eq_getElem?_getD, List.getElem?_append_right (by omega),
    Nat.add_sub_cancel_left] at this
  unfold sharePos at this
  rw [getElem?_tab _ _ _ (hS p hp), Option.getD_some] at this
  exact this

end gen

/-- Where the value of the mask at the new positions is given: at the coalition, at the free places of the block, and at `X`. -/
def shiftSet (ctx : Ctx F) (Cs X : Finset Nat) (tf : SharingTransform F) : Finset Nat := Cs ∪ Finset.range (ctx.l - tf.newPos.length) ∪ X

/-- The values: none at the coalition, those of `δ` at the free places, and `ext` elsewhere. -/
noncomputable def shiftVal (ctx : Ctx F) (Cs : Finset Nat) (tf : SharingTransform F) (δ : F[X]) (ext : Nat → F) (p : Nat) : F :=
  if p ∈ Cs then 0
  else if tf.newPos.length + p < ctx.l then δ.eval ((tf.oldPos ++ sharePos ctx.n).getD (tf.newPos.length + p) 0)
  else ext p

/-- The change of the mask at the new positions. -/
noncomputable def shiftOf (ctx : Ctx F) (Cs X : Finset Nat) (tf : SharingTransform F) (δ : F[X]) (ext : Nat → F) : F[X] :=
  genShift ctx (shiftSet ctx Cs X tf) tf δ (shiftVal ctx Cs tf δ ext)

omit [DecidableEq F] in
theorem shiftOf_neg (ctx : Ctx F) (Cs X : Finset Nat) (tf : SharingTransform F) (δ : F[X]) (ext : Nat → F) :
    shiftOf ctx Cs X tf (-δ) (fun p => -ext p) = -shiftOf ctx Cs X tf δ ext := by
  unfold shiftOf
  rw [← genShift_neg]
  congr 1
  funext p
  unfold shiftVal
  rw [eval_neg]
  split
  · rw [neg_zero]
  · split <;> rfl

section shiftOf
variable {ctx : Ctx F} (h : ctx.Good) {Cs : Finset Nat} (hC : Coalition ctx Cs) {X : Finset Nat} (hX : ∀ p ∈ X, p < ctx.n)
  {tf : SharingTransform F} (ok : tf.Ok ctx) {δ : F[X]} (ext : Nat → F)
include h hC hX

theorem shiftSet_lt {p : Nat} (hp : p ∈ shiftSet ctx Cs X tf) : p < ctx.n := by
  have hle := h.le
  unfold shiftSet at hp
  rcases Finset.mem_union.1 hp with hp | hp
  · rcases Finset.mem_union.1 hp with hp | hp
    · exact hC.parties p hp
    · have := Finset.mem_range.1 hp
      omega
  · exact hX p hp

include ok

theorem shiftOf_fits (hc : tf.newPos.length + (shiftSet ctx Cs X tf).card ≤ ctx.t + ctx.l)
    (hpad : ∀ p ∈ Cs, tf.newPos.length + p < ctx.l → δ.eval ((tf.oldPos ++ sharePos ctx.n).getD (tf.newPos.length + p) 0) = 0) :
    NewShift ctx Cs tf δ (shiftOf ctx Cs X tf δ ext) where
  deg := degree_lt_mono (genShift_degree (fun _ => shiftSet_lt h hC hX) ok _ _) hc
  new := fun _ hi => genShift_new (fun _ => shiftSet_lt h hC hX) ok _ _ hi
  pad := fun p hp => by
    unfold shiftOf
    rw [genShift_share (fun _ => shiftSet_lt h hC hX) ok _ _ (Finset.mem_union_left _ (Finset.mem_union_right _
      (Finset.mem_range.2 (by omega))))]
    unfold shiftVal
    split
    · rename_i hpC
      rw [hpad p hpC hp]
    · rfl
  coal := fun p hp => by
    unfold shiftOf
    rw [genShift_share (fun _ => shiftSet_lt h hC hX) ok _ _ (Finset.mem_union_left _ (Finset.mem_union_left _ hp))]
    unfold shiftVal
    rw [if_pos hp]

theorem shiftOf_ext {p : Nat} (hp : p ∈ X) (hpC : p ∉ Cs) (hpl : ctx.l ≤ tf.newPos.length + p) :
    (shiftOf ctx Cs X tf δ ext).eval (ofU32 p) = ext p := by
  unfold shiftOf
  rw [genShift_share (fun _ => shiftSet_lt h hC hX) ok _ _ (Finset.mem_union_right _ hp)]
  unfold shiftVal
  rw [if_neg hpC, if_neg (by omega)]

end shiftOf

omit [DecidableEq F] in
/-- Without further positions there are not too many. -/
theorem shiftSet_card {ctx : Ctx F} {Cs : Finset Nat} (hC : Coalition ctx Cs) {tf : SharingTransform F} (ok : tf.Ok ctx) :
    tf.newPos.length + (shiftSet ctx Cs ∅ tf).card ≤ ctx.t + ctx.l := by
  unfold shiftSet
  rw [Finset.union_empty]
  have h1 := Finset.card_union_le Cs (Finset.range (ctx.l - tf.newPos.length))
  rw [Finset.card_range] at h1
  have := hC.size
  have := ok.newLen
  omega

omit [DecidableEq F] in
/-- Nor with as many further positions as there are corrupted parties at the free places. -/
theorem shiftSet_card' {ctx : Ctx F} {Cs : Finset Nat} (hC : Coalition ctx Cs) {tf : SharingTransform F} (ok : tf.Ok ctx) {X : Finset Nat}
    (hX : X.card ≤ (Cs.filter fun q => tf.newPos.length + q < ctx.l).card) :
    tf.newPos.length + (shiftSet ctx Cs X tf).card ≤ ctx.t + ctx.l := by
  unfold shiftSet
  have h0 := Finset.card_union_le (Cs ∪ Finset.range (ctx.l - tf.newPos.length)) X
  have h1 := Finset.card_union_add_card_inter Cs (Finset.range (ctx.l - tf.newPos.length))
  have h2 : Cs ∩ Finset.range (ctx.l - tf.newPos.length) = Cs.filter fun q => tf.newPos.length + q < ctx.l := by
    ext q
    simp only [Finset.mem_inter, Finset.mem_range, Finset.mem_filter]
    refine and_congr_right fun _ => ⟨fun h => by omega, fun h => by omega⟩
  rw [Finset.card_range, h2] at h1
  have := hC.size
  have := ok.newLen
  omega

/-- If there are as many old as new positions, the free places get the values of the same parties. -/
theorem aligned_pad {ctx : Ctx F} (h : ctx.Good) {Cs : Finset Nat} {tf : SharingTransform F} (al : tf.Aligned ctx.l)
    {δ : F[X]} (hδ : ∀ p ∈ Cs, δ.eval (ofU32 p) = 0) (p : Nat) (hp : p ∈ Cs) (hpl : tf.newPos.length + p < ctx.l) :
    δ.eval ((tf.oldPos ++ sharePos ctx.n).getD (tf.newPos.length + p) 0) = 0 := by
  have hle := h.le
  have heq : tf.oldPos.length = tf.newPos.length := by
    rcases al with al | al
    · exact al
    · omega
  rw [List.getD_eq_getElem?_getD, List.getElem?_append_right (by omega), heq, Nat.add_sub_cancel_left]
  unfold sharePos
  rw [getElem?_tab _ _ _ (by omega), Option.getD_some, hδ p hp]

/-! ## The values of a gate input -/

section run
variable {hash : List Nat → List Nat} {rng : List Nat → Nat → F} {ctx : Ctx F} {lpn : LpnParams} {circ : PackedCircuit}
  {g : GarbleCtx F} {tp : GarbleTapes F} {d : PreProcCount} {c : Codec F} {go gi : List (List (SharingTransform F))}

/-- The block of a wire. -/
theorem GarbleParams.block (P : GarbleParams hash rng ctx lpn circ g tp d) {A : Nat → Nat → Nat → Nat → F[X]}
    (hS : CtxSpec hash rng ctx lpn circ g A) : ∀ ws ∈ circ.gates.flatMap PackedGate.inps, ∀ w ∈ ws,
      g.lookup w = some ((wireToBlock circ w).getD 0) ∧ (wireToBlock circ w).getD 0 < circ.blocks.length := by
  intro ws hws w hw
  obtain ⟨bs, hbs, hwm⟩ := List.mem_flatten.1 (inps_driven P.circ ws hws w hw)
  obtain ⟨b, hb, rfl⟩ := List.mem_iff_getElem.1 hbs
  rw [hS.lookup, wireToBlock_some P.circ.nodup (List.getElem?_eq_getElem hb) hwm]
  exact ⟨rfl, hb⟩

/-- The values of a party for a gate input, as a combination of its values for the blocks. -/
theorem inpX_at (P : GarbleParams hash rng ctx lpn circ g tp d) {A : Nat → Nat → Nat → Nat → F[X]}
    (hS : CtxSpec hash rng ctx lpn circ g A) {m : Nat} {ws : List Nat}
    (hm : (circ.gates.flatMap PackedGate.inps)[m]? = some ws) :
    ∃ e : Nat → F[X], (∀ w ∈ ws, (e w).degree < ws.toFinset.card ∧
        ∀ v ∈ ws, (e w).eval (wirePos ctx.n ctx.l v) = if v = w then 1 else 0) ∧
      ∀ (fin : List (List (GOut F))) (f : Nat → Nat → F), ∀ p < ctx.n,
        (∀ i < circ.blocks.length, outsEnv fin p (go.length + gi.length + i) = some (.vec ((List.range (gReps g)).map (f i)))) →
        inpX ctx g go gi fin p m = (List.range (gReps g)).map fun j =>
          ∑ w ∈ ws.toFinset, (e w).eval (ofU32 p) * f ((wireToBlock circ w).getD 0) j := by
  have hwm := List.mem_of_getElem? hm
  obtain ⟨e, e1, e2⟩ := selectInput_basis (F := F) P.good.fit ws fun w hw => P.fit w (inps_driven P.circ ws hwm w hw)
  refine ⟨e, e1, fun fin f p hp hfin => ?_⟩
  have hlen : g.tfOut.length = circ.blocks.length := by rw [hS.tfOut, List.length_map]
  have hl := P.good.posL
  have hr : 0 < gReps g := Nat.succ_pos _
  have h1 : transformed g.tfOut (gReps g) (go.length + gi.length) (outsEnv fin p)
      = some ((List.range circ.blocks.length).map fun b => (List.range (gReps g)).map fun j => f b j) := by
    unfold transformed vecResults
    rw [hlen, mapM_some_map _ (fun i => (List.range (gReps g)).map fun j => f i j) _ (by
      intro i hi
      rw [hfin i (List.mem_range.1 hi)]
      rfl), Option.bind_some]
    apply toRows_flatten
    · simp
    · intro x hx
      obtain ⟨m, _, rfl⟩ := List.mem_map.1 hx
      simp
  have sel : ∀ ws, ws ∈ circ.gates.flatMap PackedGate.inps → ∃ s : List F, s.length = gReps g ∧
      selectInput ctx.n ctx.l p (gReps g) g.lookup
        ((List.range circ.blocks.length).map fun b => (List.range (gReps g)).map fun j => f b j) ws = some s := by
    intro ws hws
    obtain ⟨e', -, e2'⟩ := selectInput_basis (F := F) P.good.fit ws fun w hw => P.fit w (inps_driven P.circ ws hws w hw)
    exact ⟨_, by simp, e2' _ _ _ _ (P.block hS ws hws) p hp f⟩
  choose! s s1 s2 using sel
  have h2 : selectAll ctx.n ctx.l p (gReps g) g
      ((List.range circ.blocks.length).map fun b => (List.range (gReps g)).map fun j => f b j)
      = some ((circ.gates.flatMap PackedGate.inps).map s) := by
    unfold selectAll
    rw [hS.circ, mapM_some_map _ s _ s2, Option.bind_some, if_neg (by omega)]
    have hw' : ∀ x ∈ (circ.gates.flatMap PackedGate.inps).map s, x.length = gReps g := by
      intro x hx
      obtain ⟨ws, hws, rfl⟩ := List.mem_map.1 hx
      exact s1 ws hws
    apply toRows_flatten
    · rw [flatten_length (c := gReps g) _ hw']
      exact (Nat.mul_div_cancel _ hr).symm
    · exact hw'
  unfold inpX
  rw [h1, Option.bind_some, h2, Option.bind_some, List.getElem?_map, hm, Option.map_some, Option.getD_some]
  have h3 := s2 ws hwm
  rw [e2 _ _ _ _ (P.block hS ws hwm) p hp f] at h3
  exact (Option.some.inj h3).symm

/-! ## The change of the masks -/

/-- Transformation `k` of group `v`. -/
def tfAt (go gi : List (List (SharingTransform F))) (v k : Nat) : SharingTransform F := ((go ++ gi).getD v []).getD k ⟨[], [], ⟨[]⟩⟩

/-- The change if nothing has to be hidden. -/
noncomputable def plainShift (ctx : Ctx F) (Cs : Finset Nat) (go gi : List (List (SharingTransform F))) : MaskShift F := fun d v k j =>
  shiftOf ctx Cs ∅ (tfAt go gi v k) (gDelta ctx go d v k j) fun _ => 0

omit [DecidableEq F] in
theorem plainShift_neg (ctx : Ctx F) (Cs : Finset Nat) (go gi : List (List (SharingTransform F))) (d : Nat → Nat → Nat → F) (v k j : Nat) :
    plainShift ctx Cs go gi (-d) v k j = -plainShift ctx Cs go gi d v k j := by
  unfold plainShift
  rw [gDelta_neg, ← shiftOf_neg]
  simp only [neg_zero]

/-- The transformations in a group of output wires. -/
theorem Prepared.atO (hG : Prepared ctx circ lpn g tp go gi) (hl : 0 < ctx.l) {v k : Nat} (hv : v < go.length)
    (hk : k < ((go ++ gi).getD v []).length) :
    k < ctx.l ∧ g.tfOut[v * ctx.l + k]? = some ((go ++ gi).getD v [])[k] := by
  have hgo := hG.go
  unfold chunks? at hgo
  rw [if_neg (by omega), Option.some.injEq] at hgo
  have hgv : (chunks ctx.l g.tfOut)[v]? = some ((go ++ gi).getD v []) := by
    rw [hgo, List.getD_eq_getElem?_getD, List.getElem?_append_left hv, List.getElem?_eq_getElem hv, Option.getD_some]
  obtain ⟨h1, h2⟩ := chunks_entry hl g.tfOut hgv hk
  rw [List.getElem?_eq_getElem hk] at h2
  exact ⟨h1, h2.symm⟩

/-- The transformations in a group of gate inputs. -/
theorem Prepared.atI (hG : Prepared ctx circ lpn g tp go gi) (hl : 0 < ctx.l) {u k : Nat} (hu : u < gi.length)
    (hk : k < ((go ++ gi).getD (go.length + u) []).length) :
    k < ctx.l ∧ g.tfInp[u * ctx.l + k]? = some ((go ++ gi).getD (go.length + u) [])[k] := by
  have hgi := hG.gi
  unfold chunks? at hgi
  rw [if_neg (by omega), Option.some.injEq] at hgi
  have hgv : (chunks ctx.l g.tfInp)[u]? = some ((go ++ gi).getD (go.length + u) []) := by
    rw [hgi, List.getD_eq_getElem?_getD, List.getElem?_append_right (by omega), Nat.add_sub_cancel_left, List.getElem?_eq_getElem hu,
      Option.getD_some]
  obtain ⟨h1, h2⟩ := chunks_entry hl g.tfInp hgv hk
  rw [List.getElem?_eq_getElem hk] at h2
  exact ⟨h1, h2.symm⟩

omit [CodeField F] [DecidableEq F] in
theorem tfAt_eq [CodeField F] {v k : Nat} (hk : k < ((go ++ gi).getD v []).length) : tfAt go gi v k = ((go ++ gi).getD v [])[k] := by
  unfold tfAt
  rw [List.getD_eq_getElem _ _ hk]

/-- The change fits if the free places get nothing. -/
theorem plainShift_fits (h : ctx.Good) {Cs : Finset Nat} (hC : Coalition ctx Cs) {dd : Nat → Nat → Nat → F} {v k : Nat}
    (hk : k < ((go ++ gi).getD v []).length) (j : Nat) (ok : (((go ++ gi).getD v [])[k]).Ok ctx)
    (hpad : ∀ p ∈ Cs, (((go ++ gi).getD v [])[k]).newPos.length + p < ctx.l → (gDelta ctx go dd v k j).eval
      (((((go ++ gi).getD v [])[k]).oldPos ++ sharePos ctx.n).getD ((((go ++ gi).getD v [])[k]).newPos.length + p) 0) = 0) :
    NewShift ctx Cs ((go ++ gi).getD v [])[k] (gDelta ctx go dd v k j) (plainShift ctx Cs go gi dd v k j) := by
  unfold plainShift
  rw [tfAt_eq hk]
  exact shiftOf_fits h hC (fun p hp => absurd hp (Finset.notMem_empty p)) ok _ (shiftSet_card hC ok) hpad

theorem gDelta_quiet (h : ctx.Good) {Cs : Finset Nat} (hC : Coalition ctx Cs) {dd : Nat → Nat → Nat → F} (hd : Quiet Cs dd) (v k j : Nat) :
    ∀ p ∈ Cs, (gDelta ctx go dd v k j).eval (ofU32 p) = 0 := by
  intro p hp
  rw [gDelta_eval h go dd v k j (hC.parties p hp)]
  exact hd _ _ p hp

/-- The transformations of a gate input which is full or has no wire twice. -/
theorem InpTf.aligned {ws : List Nat} {tr : SharingTransform F} (T : InpTf ctx ws tr) (hl : ws.length ≤ ctx.l)
    (hD : ws.Nodup ∨ ws.length = ctx.l) : tr.Aligned ctx.l := by
  have hlen : (defaultPos ctx.n ctx.l : List F).length = ctx.l := by simp [defaultPos]
  unfold SharingTransform.Aligned
  rw [T.old, T.new, List.length_take, hlen]
  rcases hD with hn | hf
  · left
    simp only [wireToPos, List.length_map, sortDedup_length_nodup hn]
    omega
  · right
    omega

/-- The masks can be changed such that the coalition notices nothing. -/
theorem GarbleParams.hyp (P : GarbleParams hash rng ctx lpn circ g tp d) (hc : c.Ok) (hG : Prepared ctx circ lpn g tp go gi)
    {Cs : Finset Nat} (hC : Coalition ctx Cs) (hD : circ.Hides ctx) : ∃ σ, PrivHyp c ctx g Cs go gi σ := by
  have hl : 0 < ctx.l := P.good.posL
  obtain ⟨tr, tr1, tr2⟩ := P.tfI
  have plainO : ∀ dd, Quiet Cs dd → ∀ v < go.length, ∀ (k : Nat) (hk : k < ((go ++ gi).getD v []).length), ∀ j < gReps g,
      NewShift ctx Cs ((go ++ gi).getD v [])[k] (gDelta ctx go dd v k j) (plainShift ctx Cs go gi dd v k j) := by
    intro dd hd v hv k hk j _
    have hm := List.mem_of_getElem? (hG.atO hl hv hk).2
    obtain ⟨ok, al⟩ := P.okO _ hm
    exact plainShift_fits P.good hC hk j ok (aligned_pad P.good al (gDelta_quiet P.good hC hd v k j))
  have plainI : ∀ dd, Quiet Cs dd → ∀ u < gi.length, ∀ (k : Nat) (hk : k < ((go ++ gi).getD (go.length + u) []).length), ∀ j < gReps g,
      (∀ ws, (circ.gates.flatMap PackedGate.inps)[u * ctx.l + k]? = some ws → ws.Nodup ∨ ws.length = ctx.l) →
      NewShift ctx Cs ((go ++ gi).getD (go.length + u) [])[k] (gDelta ctx go dd (go.length + u) k j)
        (plainShift ctx Cs go gi dd (go.length + u) k j) := by
    intro dd hd u hu k hk j _ hws
    have hm := (hG.atI hl hu hk).2
    rw [tr2, List.getElem?_map] at hm
    obtain ⟨ws, hw, hm⟩ := Option.map_eq_some_iff.1 hm
    have hwm := List.mem_of_getElem? hw
    have T := tr1 ws hwm
    rw [hm] at T
    exact plainShift_fits P.good hC hk j T.ok (aligned_pad P.good (T.aligned (inps_length P.circ ws hwm) (hws ws hw))
      (gDelta_quiet P.good hC hd _ k j))
  rcases hD with hD | ⟨i, ws, b, bs, hH, hrest⟩
  · refine ⟨plainShift ctx Cs go gi, P.runHyp hc hG, hC, plainShift_neg ctx Cs go gi, fun dd hd v hv k hk j hj => plainO dd hd v hv k hk j hj,
      fun _ dd _ _ _ hd _ _ u hu k hk j hj => plainI dd hd u hu k hk j hj fun ws hw => ?_⟩
    obtain ⟨gate, hg, hm⟩ := List.mem_flatMap.1 (List.mem_of_getElem? hw)
    exact hD gate hg ws hm
  obtain ⟨g', A, hg', hS⟩ := garbleCtx_new hash rng P.good lpn P.circ P.fit P.code
  obtain rfl : g = g' := Option.some.inj (P.new.symm.trans hg')
  obtain ⟨e, e1, e2⟩ := inpX_at (go := go) (gi := gi) P hS hH.inp
  have hwm := List.mem_of_getElem? hH.inp
  have hblock := P.block hS ws hwm
  have hN : g.tfOut.length = circ.blocks.length := by rw [hS.tfOut, List.length_map]
  have hbN : b < circ.blocks.length := (List.getElem?_eq_some_iff.1 hH.block).1
  have hbm := List.mem_of_getElem? hH.block
  set bl : Nat → Nat := fun w => (wireToBlock circ w).getD 0 with hbl
  have hbw : ∀ w ∈ ws, (bl w = b ↔ w ∈ bs) := by
    intro w hw
    obtain ⟨bs', hbs', hwb⟩ := List.mem_flatten.1 (inps_driven P.circ ws hwm w hw)
    obtain ⟨b', hb', rfl⟩ := List.mem_iff_getElem.1 hbs'
    have he : bl w = b' := by rw [hbl]; simp only [wireToBlock_some P.circ.nodup (List.getElem?_eq_getElem hb') hwb, Option.getD_some]
    constructor
    · intro h
      have : b' = b := he.symm.trans h
      subst this
      have := hH.block
      rw [List.getElem?_eq_getElem hb', Option.some.injEq] at this
      rwa [← this]
    · intro h
      rw [hbl]
      simp only [wireToBlock_some P.circ.nodup hH.block h, Option.getD_some]
  have hnL := inps_length P.circ ws hwm
  have hgo : b / ctx.l < go.length := by
    obtain ⟨grp, h1, _⟩ := chunks_index hl g.tfOut (i := b) (by omega)
    have hgo := hG.go
    unfold chunks? at hgo
    rw [if_neg (by omega), Option.some.injEq] at hgo
    rw [hgo] at h1
    exact (List.getElem?_eq_some_iff.1 h1).1
  -- the further positions and the values there
  let X : Finset Nat := (Cs.filter fun q => ws.length + q < ctx.l).image fun q => ws.length + q - ws.toFinset.card
  let ext : (Nat → Nat → Nat → F) → Nat → Nat → F := fun dd j p =>
    -(∑ w ∈ ws.toFinset.filter (fun w => ¬ bl w = b), (e w).eval (ofU32 p) *
      (plainShift ctx Cs go gi dd (bl w / ctx.l) (bl w % ctx.l) j).eval (ofU32 p)) /
      ∑ w ∈ ws.toFinset.filter (fun w => bl w = b), (e w).eval (ofU32 p)
  let σ : MaskShift F := fun dd v k j => if v = b / ctx.l ∧ k = b % ctx.l then
    shiftOf ctx Cs X (tfAt go gi v k) (gDelta ctx go dd v k j) (ext dd j) else plainShift ctx Cs go gi dd v k j
  have hle := P.good.le
  have hXn : ∀ p ∈ X, p < ctx.n := by
    intro p hp
    obtain ⟨q, hq, rfl⟩ := Finset.mem_image.1 hp
    have := (Finset.mem_filter.1 hq).2
    omega
  have hX : X.card ≤ (Cs.filter fun q => bs.length + q < ctx.l).card := by
    refine Finset.card_image_le.trans (Finset.card_le_card fun q hq => ?_)
    obtain ⟨h1, h2⟩ := Finset.mem_filter.1 hq
    have := hH.size
    exact Finset.mem_filter.2 ⟨h1, by omega⟩
  -- the transformation of the block
  have special : ∀ (k : Nat) (hk : k < ((go ++ gi).getD (b / ctx.l) []).length), k = b % ctx.l →
      (((go ++ gi).getD (b / ctx.l) [])[k]).newPos.length = bs.length := by
    rintro k hk rfl
    have h1 := (hG.atO hl hgo hk).2
    rw [hS.tfOut, List.getElem?_map, Nat.div_add_mod', hH.block, Option.map_some, Option.some.injEq] at h1
    rw [← h1]
    simp [wireToPos]
  refine ⟨σ, P.runHyp hc hG, hC, ?_, ?_, ?_⟩
  · intro dd v k j
    simp only [σ]
    split
    · rw [gDelta_neg, ← shiftOf_neg]
      congr 1
      funext p
      simp only [ext, plainShift_neg, eval_neg, mul_neg, Finset.sum_neg_distrib, neg_div, neg_neg]
    · exact plainShift_neg ctx Cs go gi dd v k j
  · intro dd hd v hv k hk j hj
    simp only [σ]
    split
    · rename_i hvk
      obtain ⟨rfl, hkb⟩ := hvk
      rw [tfAt_eq hk]
      obtain ⟨ok, al⟩ := P.okO _ (List.mem_of_getElem? (hG.atO hl hv hk).2)
      have hlen := special k hk hkb
      exact shiftOf_fits P.good hC hXn ok _ (shiftSet_card' hC ok (by rw [hlen]; exact hX))
        (aligned_pad P.good al (gDelta_quiet P.good hC hd _ k j))
    · exact plainO dd hd v hv k hk j hj
  · intro dd dd' fin fin' hd hd' hout hin u hu k hk j hj
    have hne : ¬ (go.length + u = b / ctx.l ∧ k = b % ctx.l) := by omega
    simp only [σ, if_neg hne]
    by_cases him : u * ctx.l + k = i
    swap
    · exact plainI dd' hd' u hu k hk j hj fun ws' hws' => hrest _ _ hws' him
    obtain ⟨hkl, hm⟩ := hG.atI hl hu hk
    rw [tr2, List.getElem?_map, him, hH.inp, Option.map_some, Option.some.injEq] at hm
    have T := tr1 ws hwm
    rw [hm] at T
    have hcard : (sortDedup ws).length = ws.toFinset.card := by
      rw [← List.toFinset_card_of_nodup (sortDedup_nodup ws)]
      congr 1
      ext w
      simp [mem_sortDedup]
    have hcl : ws.toFinset.card ≤ ws.length := List.toFinset_card_le ws
    have hnew : (((go ++ gi).getD (go.length + u) [])[k]).newPos.length = ws.length := by
      rw [T.new, List.length_take]
      simp only [defaultPos, List.length_map, List.length_range]
      omega
    have hold : (((go ++ gi).getD (go.length + u) [])[k]).oldPos.length = ws.toFinset.card := by
      rw [T.old, ← hcard]
      simp [wireToPos]
    refine plainShift_fits P.good hC hk j T.ok fun p hp hpl => ?_
    rw [hnew] at hpl ⊢
    rw [List.getD_eq_getElem?_getD, List.getElem?_append_right (by omega), hold]
    have hrn : ws.length + p - ws.toFinset.card < ctx.n := by omega
    unfold sharePos
    rw [getElem?_tab _ _ _ hrn, Option.getD_some, gDelta_eval P.good go dd' _ k j hrn]
    have hbase : gBase go (go.length + u) * ctx.l + k = i := by
      unfold gBase
      rw [if_neg (by omega), Nat.add_sub_cancel_left, him]
    rw [hbase]
    by_cases hrC : ws.length + p - ws.toFinset.card ∈ Cs
    · exact hd' _ _ _ hrC
    have hrX : ws.length + p - ws.toFinset.card ∈ X := Finset.mem_image.2 ⟨p, Finset.mem_filter.2 ⟨hp, hpl⟩, rfl⟩
    generalize hr : ws.length + p - ws.toFinset.card = r at hrn hrC hrX
    rw [hin i j r hrn]
    have hex : ∀ m, ∃ f f' : Nat → F, m < circ.blocks.length →
        outsEnv fin r (go.length + gi.length + m) = some (.vec ((List.range (gReps g)).map f)) ∧
        outsEnv fin' r (go.length + gi.length + m) = some (.vec ((List.range (gReps g)).map f')) ∧
        ∀ j < gReps g, f j - f' j = (σ dd (m / ctx.l) (m % ctx.l) j).eval (ofU32 r) := by
      intro m
      by_cases hmN : m < circ.blocks.length
      · obtain ⟨f, f', h⟩ := hout r hrn m (by omega)
        exact ⟨f, f', fun _ => h⟩
      · exact ⟨fun _ => 0, fun _ => 0, fun h => absurd h hmN⟩
    choose f f' hff using hex
    rw [e2 fin f r hrn fun m hm => (hff m hm).1, e2 fin' f' r hrn fun m hm => (hff m hm).2.1, getD_tab _ _ _ hj, getD_tab _ _ _ hj,
      ← Finset.sum_sub_distrib]
    have hsum : ∀ w ∈ ws.toFinset, (e w).eval (ofU32 r) * f (bl w) j - (e w).eval (ofU32 r) * f' (bl w) j
        = (e w).eval (ofU32 r) * (σ dd (bl w / ctx.l) (bl w % ctx.l) j).eval (ofU32 r) := by
      intro w hw
      rw [← mul_sub, (hff (bl w) (hblock w (List.mem_toFinset.1 hw)).2).2.2 j hj]
    rw [Finset.sum_congr rfl hsum, ← Finset.sum_filter_add_sum_filter_not ws.toFinset fun w => bl w = b]
    have hs1 : ∀ w ∈ ws.toFinset.filter (fun w => bl w = b),
        (e w).eval (ofU32 r) * (σ dd (bl w / ctx.l) (bl w % ctx.l) j).eval (ofU32 r) = (e w).eval (ofU32 r) * ext dd j r := by
      intro w hw
      rw [(Finset.mem_filter.1 hw).2]
      simp only [σ, if_pos (And.intro (Eq.refl (b / ctx.l)) (Eq.refl (b % ctx.l)))]
      obtain ⟨grp, h1, h2⟩ := chunks_index hl g.tfOut (i := b) (by omega)
      have hgo' := hG.go
      unfold chunks? at hgo'
      rw [if_neg (by omega), Option.some.injEq] at hgo'
      rw [hgo'] at h1
      have hgd : (go ++ gi).getD (b / ctx.l) [] = grp := by
        rw [List.getD_eq_getElem?_getD, List.getElem?_append_left hgo, h1, Option.getD_some]
      have hk' : b % ctx.l < ((go ++ gi).getD (b / ctx.l) []).length := by rw [hgd]; exact h2
      rw [tfAt_eq hk']
      obtain ⟨ok, _⟩ := P.okO _ (List.mem_of_getElem? (hG.atO hl hgo hk').2)
      rw [shiftOf_ext P.good hC hXn ok _ hrX hrC]
      rw [special _ hk' rfl]
      have := hH.far
      omega
    have hs2 : ∀ w ∈ ws.toFinset.filter (fun w => ¬ bl w = b),
        (e w).eval (ofU32 r) * (σ dd (bl w / ctx.l) (bl w % ctx.l) j).eval (ofU32 r) =
          (e w).eval (ofU32 r) * (plainShift ctx Cs go gi dd (bl w / ctx.l) (bl w % ctx.l) j).eval (ofU32 r) := by
      intro w hw
      have hne : ¬ (bl w / ctx.l = b / ctx.l ∧ bl w % ctx.l = b % ctx.l) := by
        rintro ⟨h1, h2⟩
        refine (Finset.mem_filter.1 hw).2 ?_
        rw [← Nat.div_add_mod (bl w) ctx.l, ← Nat.div_add_mod b ctx.l, h1, h2]
      simp only [σ, if_neg hne]
    rw [Finset.sum_congr rfl hs1, Finset.sum_congr rfl hs2, ← Finset.sum_mul]
    have hχ : ∑ w ∈ ws.toFinset.filter (fun w => bl w = b), (e w).eval (ofU32 r) ≠ 0 := by
      have := hH.seen (∑ w ∈ ws.toFinset.filter (fun w => bl w = b), e w) ?_ ?_ p hpl
      · rw [eval_finsetSum, hr] at this
        exact this
      · refine lt_of_le_of_lt (degree_sum_le _ _) ((Finset.sup_lt_iff (WithBot.bot_lt_coe _)).2 fun w hw => ?_)
        exact (e1 w (List.mem_toFinset.1 (Finset.mem_filter.1 hw).1)).1
      · intro v hv
        rw [eval_finsetSum]
        have : ∀ w ∈ ws.toFinset.filter (fun w => bl w = b), (e w).eval (ofU32 (v + (ctx.n + ctx.l))) = if v = w then 1 else 0 :=
          fun w hw => (e1 w (List.mem_toFinset.1 (Finset.mem_filter.1 hw).1)).2 v hv
        rw [Finset.sum_congr rfl this, Finset.sum_ite_eq]
        simp only [Finset.mem_filter, List.mem_toFinset, hv, true_and, hbw v hv]
    simp only [ext]
    rw [mul_div_cancel₀ _ hχ, neg_add_cancel]

end run

end Verif
