import Verif.RandTransLemmas
import Verif.PrivacySpec

/-!
# Changing coins without changing what a coalition sees: interpolation, and `randtrans`
-/

open Polynomial

namespace Verif

open CodeField (ofU32)

variable {F : Type} [CodeField F] [DecidableEq F]

/-! ## Interpolation -/

omit [DecidableEq F] in
theorem ofU32_injOn {m : Nat} (h : m ≤ CodeField.order F) (S : Finset Nat) (hS : ∀ i ∈ S, i < m) :
    Set.InjOn (fun i => (ofU32 i : F)) S := by
  intro a ha b hb hab
  exact CodeField.ofU32_inj a b (lt_of_lt_of_le (hS a ha) h) (lt_of_lt_of_le (hS b hb) h) hab

/-- The polynomial of degree below `n` with the values `d` at the parties' positions. -/
noncomputable def sharePoly (n : Nat) (d : Nat → F) : F[X] :=
  Lagrange.interpolate (Finset.range n) (fun i => (ofU32 i : F)) d

omit [DecidableEq F] in
theorem sharePoly_degree {n : Nat} (h : n ≤ CodeField.order F) (d : Nat → F) : (sharePoly n d).degree < n := by
  have := Lagrange.degree_interpolate_lt d (ofU32_injOn (F := F) h (Finset.range n) (by simp))
  rwa [Finset.card_range] at this

omit [DecidableEq F] in
theorem sharePoly_eval {n : Nat} (h : n ≤ CodeField.order F) (d : Nat → F) {p : Nat} (hp : p < n) :
    (sharePoly n d).eval (ofU32 p) = d p :=
  Lagrange.eval_interpolate_at_node d (ofU32_injOn (F := F) h (Finset.range n) (by simp)) (Finset.mem_range.2 hp)

omit [DecidableEq F] in
theorem sharePoly_neg (n : Nat) (d : Nat → F) : sharePoly n (fun p => -d p) = -sharePoly n d :=
  map_neg (Lagrange.interpolate (Finset.range n) fun i => (ofU32 i : F)) d

/-- The polynomial with the secrets `val` which vanishes at the positions of the coalition. -/
noncomputable def packC (ctx : Ctx F) (Cs : Finset Nat) (val : Nat → F) : F[X] :=
  Lagrange.interpolate (Cs ∪ Finset.Ico ctx.n (ctx.n + ctx.l)) (fun i => (ofU32 i : F))
    fun i => if i < ctx.n then 0 else val (i - ctx.n)

section packC
variable {ctx : Ctx F} (h : ctx.Good) {Cs : Finset Nat} (hC : Coalition ctx Cs)
include h hC

theorem packC_inj : Set.InjOn (fun i => (ofU32 i : F)) ((Cs ∪ Finset.Ico ctx.n (ctx.n + ctx.l) : Finset Nat) : Set Nat) := by
  refine ofU32_injOn h.fit _ fun i hi => ?_
  rcases Finset.mem_union.1 hi with hi | hi
  · have := hC.parties i hi
    omega
  · exact (Finset.mem_Ico.1 hi).2

theorem packC_degree (val : Nat → F) : (packC ctx Cs val).degree < (ctx.t + ctx.l : Nat) := by
  refine degree_lt_mono (Lagrange.degree_interpolate_lt _ (packC_inj h hC)) ?_
  have h1 := Finset.card_union_le Cs (Finset.Ico ctx.n (ctx.n + ctx.l))
  have h2 := hC.size
  rw [Nat.card_Ico] at h1
  omega

theorem packC_secret (val : Nat → F) {k : Nat} (hk : k < ctx.l) : (packC ctx Cs val).eval (ofU32 (ctx.n + k)) = val k := by
  have := Lagrange.eval_interpolate_at_node (fun i => if i < ctx.n then 0 else val (i - ctx.n)) (packC_inj h hC)
    (i := ctx.n + k) (Finset.mem_union_right _ (Finset.mem_Ico.2 ⟨by omega, by omega⟩))
  rw [if_neg (by omega), Nat.add_sub_cancel_left] at this
  exact this

theorem packC_share (val : Nat → F) {p : Nat} (hp : p ∈ Cs) : (packC ctx Cs val).eval (ofU32 p) = 0 := by
  have := Lagrange.eval_interpolate_at_node (fun i => if i < ctx.n then 0 else val (i - ctx.n)) (packC_inj h hC)
    (i := p) (Finset.mem_union_left _ hp)
  rw [if_pos (hC.parties p hp)] at this
  exact this

end packC

omit [DecidableEq F] in
theorem packC_neg (ctx : Ctx F) (Cs : Finset Nat) (val : Nat → F) : packC ctx Cs (fun k => -val k) = -packC ctx Cs val := by
  unfold packC
  rw [← map_neg]
  congr 1
  funext i
  simp only [Pi.neg_apply]
  split <;> simp

/-! ## Degree reduction -/

/-- Change of the random sharing of a degree reduction whose input changes by `-d`. -/
noncomputable def rdShift (ctx : Ctx F) (Cs : Finset Nat) (d : Nat → F) : F[X] :=
  packC ctx Cs fun k => (sharePoly ctx.n d).eval (ofU32 (ctx.n + k))

/-- Change of the sharing of zero. -/
noncomputable def rdShiftZ (ctx : Ctx F) (Cs : Finset Nat) (d : Nat → F) : F[X] := sharePoly ctx.n d - rdShift ctx Cs d

omit [DecidableEq F] in
theorem rdShift_neg (ctx : Ctx F) (Cs : Finset Nat) (d : Nat → F) : rdShift ctx Cs (fun p => -d p) = -rdShift ctx Cs d := by
  unfold rdShift
  rw [← packC_neg, sharePoly_neg]
  simp

omit [DecidableEq F] in
theorem rdShiftZ_neg (ctx : Ctx F) (Cs : Finset Nat) (d : Nat → F) : rdShiftZ ctx Cs (fun p => -d p) = -rdShiftZ ctx Cs d := by
  unfold rdShiftZ
  rw [rdShift_neg, sharePoly_neg]
  ring

theorem rdShiftZ_zero {ctx : Ctx F} (h : ctx.Good) {Cs : Finset Nat} (hC : Coalition ctx Cs) (d : Nat → F) :
    (rdShiftZ ctx Cs d).degree < ctx.n ∧ ∀ v ∈ defaultPos ctx.n ctx.l, (rdShiftZ ctx Cs d).eval v = 0 := by
  have hfit := h.fit
  constructor
  · exact degree_sub_lt' (sharePoly_degree (by omega) d) (degree_lt_mono (packC_degree h hC _) h.le)
  · intro v hv
    obtain ⟨k, hk, rfl⟩ := List.mem_map.1 hv
    unfold rdShiftZ rdShift
    rw [eval_sub, packC_secret h hC _ (List.mem_range.1 hk), sub_self]

/-! ## `randtrans` -/

/-- Change of the mask at the new positions, when the mask at the old positions changes by `δ`. -/
noncomputable def trShift (ctx : Ctx F) (Cs : Finset Nat) (tf : SharingTransform F) (δ : F[X]) : F[X] :=
  Lagrange.interpolate (tf.newPos.toFinset ∪ (Cs ∪ Finset.range (ctx.l - tf.newPos.length)).image fun i => (ofU32 i : F)) id
    fun x => if x ∈ tf.newPos then δ.eval (tf.oldPos.getD (tf.f.map.getD (tf.newPos.idxOf x) 0) 0) else δ.eval x

omit [DecidableEq F] in
theorem injOn_id (S : Finset F) : Set.InjOn (id : F → F) S := fun _ _ _ _ h => h

theorem trShift_neg (ctx : Ctx F) (Cs : Finset Nat) (tf : SharingTransform F) (δ : F[X]) :
    trShift ctx Cs tf (-δ) = -trShift ctx Cs tf δ := by
  unfold trShift
  rw [← map_neg]
  congr 1
  funext x
  simp only [Pi.neg_apply, eval_neg]
  split <;> rfl

section trShift
variable {ctx : Ctx F} (h : ctx.Good) {Cs : Finset Nat} (hC : Coalition ctx Cs) {tf : SharingTransform F} (ok : tf.Ok ctx)

include hC ok in
theorem trShift_degree (δ : F[X]) : (trShift ctx Cs tf δ).degree < (ctx.t + ctx.l : Nat) := by
  refine degree_lt_mono (Lagrange.degree_interpolate_lt _ (injOn_id _)) ?_
  have h1 := Finset.card_union_le tf.newPos.toFinset
    ((Cs ∪ Finset.range (ctx.l - tf.newPos.length)).image fun i => (ofU32 i : F))
  have h2 := hC.size
  have h3 := List.toFinset_card_le tf.newPos
  have h4 : ((Cs ∪ Finset.range (ctx.l - tf.newPos.length)).image fun i => (ofU32 i : F)).card
      ≤ (Cs ∪ Finset.range (ctx.l - tf.newPos.length)).card := Finset.card_image_le
  have h5 := Finset.card_union_le Cs (Finset.range (ctx.l - tf.newPos.length))
  rw [Finset.card_range] at h5
  have := ok.newLen
  omega

include ok in
theorem trShift_new (δ : F[X]) {i : Nat} (hi : i < tf.newPos.length) :
    (trShift ctx Cs tf δ).eval tf.newPos[i] = δ.eval (tf.oldPos.getD (tf.f.map.getD i 0) 0) := by
  have hmem : tf.newPos[i] ∈ tf.newPos := List.getElem_mem hi
  have := Lagrange.eval_interpolate_at_node (v := (id : F → F))
    (fun x => if x ∈ tf.newPos then δ.eval (tf.oldPos.getD (tf.f.map.getD (tf.newPos.idxOf x) 0) 0) else δ.eval x)
    (injOn_id (tf.newPos.toFinset ∪ (Cs ∪ Finset.range (ctx.l - tf.newPos.length)).image fun i => (ofU32 i : F)))
    (i := tf.newPos[i]) (Finset.mem_union_left _ (List.mem_toFinset.2 hmem))
  rw [if_pos hmem, ok.new.nodup.idxOf_getElem i hi] at this
  exact this

include ok in
theorem trShift_share (δ : F[X]) {p : Nat} (hn : p < ctx.n) (hp : p ∈ Cs ∨ p < ctx.l - tf.newPos.length) :
    (trShift ctx Cs tf δ).eval (ofU32 p) = δ.eval (ofU32 p) := by
  have := Lagrange.eval_interpolate_at_node (v := (id : F → F))
    (fun x => if x ∈ tf.newPos then δ.eval (tf.oldPos.getD (tf.f.map.getD (tf.newPos.idxOf x) 0) 0) else δ.eval x)
    (injOn_id (tf.newPos.toFinset ∪ (Cs ∪ Finset.range (ctx.l - tf.newPos.length)).image fun i => (ofU32 i : F)))
    (i := ofU32 p) (Finset.mem_union_right _ (Finset.mem_image.2 ⟨p, by simpa using hp, rfl⟩))
  rw [if_neg (ok.new.disj p hn)] at this
  exact this

end trShift

/-- What a change `σ` of the mask at the new positions has to satisfy, when the mask at the old positions changes by `δ`: the
values of both masks which `randtrans` takes from the same random values agree, and the coalition sees no change. -/
structure NewShift (ctx : Ctx F) (Cs : Finset Nat) (tf : SharingTransform F) (δ σ : F[X]) : Prop where
  deg : σ.degree < (ctx.t + ctx.l : Nat)
  new : ∀ (i : Nat) (hi : i < tf.newPos.length), σ.eval tf.newPos[i] = δ.eval (tf.oldPos.getD (tf.f.map.getD i 0) 0)
  pad : ∀ p, tf.newPos.length + p < ctx.l → σ.eval (ofU32 p) = δ.eval ((tf.oldPos ++ sharePos ctx.n).getD (tf.newPos.length + p) 0)
  coal : ∀ p ∈ Cs, σ.eval (ofU32 p) = 0

omit [DecidableEq F] in
theorem NewShift.neg {ctx : Ctx F} {Cs : Finset Nat} {tf : SharingTransform F} {δ σ : F[X]} (S : NewShift ctx Cs tf δ σ) :
    NewShift ctx Cs tf (-δ) (-σ) :=
  ⟨by rw [degree_neg]; exact S.deg, fun i hi => by rw [eval_neg, eval_neg, S.new i hi],
    fun p hp => by rw [eval_neg, eval_neg, S.pad p hp], fun p hp => by rw [eval_neg, S.coal p hp, neg_zero]⟩

theorem trShift_fits {ctx : Ctx F} (h : ctx.Good) {Cs : Finset Nat} (hC : Coalition ctx Cs) {tf : SharingTransform F} (ok : tf.Ok ctx)
    (al : tf.Aligned ctx.l) {δ : F[X]} (hδ : ∀ p ∈ Cs, δ.eval (ofU32 p) = 0) : NewShift ctx Cs tf δ (trShift ctx Cs tf δ) where
  deg := trShift_degree hC ok δ
  new := fun _ hi => trShift_new ok δ hi
  pad := fun p hp => by
    have hle := h.le
    have hol := ok.oldLen
    have heq : tf.oldPos.length = tf.newPos.length := by
      rcases al with al | al
      · exact al
      · omega
    rw [trShift_share ok _ (by omega) (Or.inr (by omega)), List.getD_eq_getElem?_getD, List.getElem?_append_right (by omega), heq,
      Nat.add_sub_cancel_left]
    unfold sharePos
    rw [getElem?_tab _ _ _ (by omega), Option.getD_some]
  coal := fun p hp => by rw [trShift_share ok _ (hC.parties p hp) (Or.inl hp), hδ p hp]

/-- Change of the random value number `c` which determines the mask at the old positions. -/
noncomputable def baseN (ctx : Ctx F) (tf : SharingTransform F) (δ : F[X]) (c : Nat) : F :=
  δ.eval ((tf.oldPos ++ sharePos ctx.n).getD c 0)

/-- Change of the random value number `c` which determines the mask at the new positions. -/
noncomputable def baseR (ctx : Ctx F) (tf : SharingTransform F) (δ σ : F[X]) (c : Nat) : F :=
  if c < ctx.l then baseN ctx tf δ c else σ.eval ((tf.newPos ++ sharePos ctx.n).getD c 0)

/-- Change of the random value number `c`, among those of both masks. -/
noncomputable def baseVal (ctx : Ctx F) (tf : SharingTransform F) (δ σ : F[X]) (c : Nat) : F :=
  if c < ctx.t + ctx.l then baseR ctx tf δ σ c else baseN ctx tf δ (c - ctx.t)

/-- Change of the random sharings of `randtrans`, when the masks at the old positions change by `δ` and those at the new
positions by `σ`. -/
noncomputable def rtShift (ctx : Ctx F) (Cs : Finset Nat) (tfs : List (SharingTransform F)) (num : Nat) (δ σ : Nat → Nat → F[X])
    (idx : Nat) : F[X] :=
  packC ctx Cs fun k => if h : k < tfs.length then baseVal ctx tfs[k] (δ k (idx % num)) (σ k (idx % num)) (idx / num) else 0

/-- Change of the sharings of zero. -/
noncomputable def rtShiftZ (ctx : Ctx F) (Cs : Finset Nat) (tfs : List (SharingTransform F)) (A AN : Nat → Nat → F[X])
    (E : Nat → F[X]) (num : Nat) (δ σ : Nat → Nat → F[X]) (idx : Nat) : F[X] :=
  if idx / num < ctx.n then
    if idx / num ∈ Cs then -rtQN ctx tfs.length num AN E (rtShift ctx Cs tfs num δ σ) (fun _ => 0) (idx / num) (idx % num) else 0
  else
    if idx / num - ctx.n ∈ Cs then
      -rtQ ctx tfs.length num A E (rtShift ctx Cs tfs num δ σ) (fun _ => 0) (idx / num - ctx.n) (idx % num)
    else 0

theorem rtShift_neg (ctx : Ctx F) (Cs : Finset Nat) (tfs : List (SharingTransform F)) (num : Nat) (δ σ : Nat → Nat → F[X])
    (idx : Nat) : rtShift ctx Cs tfs num (fun k j => -δ k j) (fun k j => -σ k j) idx = -rtShift ctx Cs tfs num δ σ idx := by
  unfold rtShift
  rw [← packC_neg]
  congr 1
  funext k
  split
  · unfold baseVal baseR baseN
    rw [eval_neg, eval_neg, eval_neg]
    split
    · split <;> rfl
    · rfl
  · rw [neg_zero]

theorem rtShiftZ_neg (ctx : Ctx F) (Cs : Finset Nat) (tfs : List (SharingTransform F)) (A AN : Nat → Nat → F[X])
    (E : Nat → F[X]) (num : Nat) (δ σ : Nat → Nat → F[X]) (idx : Nat) :
    rtShiftZ ctx Cs tfs A AN E num (fun k j => -δ k j) (fun k j => -σ k j) idx = -rtShiftZ ctx Cs tfs A AN E num δ σ idx := by
  unfold rtShiftZ
  have h1 : ∀ r j, rtQN ctx tfs.length num AN E (rtShift ctx Cs tfs num (fun k j => -δ k j) fun k j => -σ k j) (fun _ => 0) r j
      = -rtQN ctx tfs.length num AN E (rtShift ctx Cs tfs num δ σ) (fun _ => 0) r j := by
    intro r j
    unfold rtQN
    simp only [rtShift_neg, mul_neg, Finset.sum_neg_distrib, add_zero]
  have h2 : ∀ r j, rtQ ctx tfs.length num A E (rtShift ctx Cs tfs num (fun k j => -δ k j) fun k j => -σ k j) (fun _ => 0) r j
      = -rtQ ctx tfs.length num A E (rtShift ctx Cs tfs num δ σ) (fun _ => 0) r j := by
    intro r j
    unfold rtQ
    simp only [rtShift_neg, mul_neg, Finset.sum_neg_distrib, add_zero]
  rw [h1, h2]
  split <;> split <;> simp

omit [DecidableEq F] in
theorem rtQ_add (ctx : Ctx F) (K num : Nat) (A : Nat → Nat → F[X]) (E g g' z z' : Nat → F[X]) (r j : Nat) :
    rtQ ctx K num A E (fun m => g m + g' m) (fun m => z m + z' m) r j
      = rtQ ctx K num A E g z r j + (rtQ ctx K num A E g' (fun _ => 0) r j + z' ((ctx.n + r) * num + j)) := by
  unfold rtQ
  simp only [mul_add, Finset.sum_add_distrib]
  ring

omit [DecidableEq F] in
theorem rtQN_add (ctx : Ctx F) (K num : Nat) (AN : Nat → Nat → F[X]) (E g g' z z' : Nat → F[X]) (r j : Nat) :
    rtQN ctx K num AN E (fun m => g m + g' m) (fun m => z m + z' m) r j
      = rtQN ctx K num AN E g z r j + (rtQN ctx K num AN E g' (fun _ => 0) r j + z' (r * num + j)) := by
  unfold rtQN
  simp only [mul_add, Finset.sum_add_distrib]
  ring

omit [DecidableEq F] in
theorem rtR_add (ctx : Ctx F) (K num : Nat) (A : Nat → Nat → F[X]) (g g' : Nat → F[X]) (k j : Nat) :
    rtR ctx K num A (fun m => g m + g' m) k j = rtR ctx K num A g k j + rtR ctx K num A g' k j := by
  unfold rtR
  split
  · simp only [eval_add, C_add, add_mul, Finset.sum_add_distrib]
  · simp

omit [DecidableEq F] in
theorem rtRN_add (ctx : Ctx F) (K num : Nat) (AN : Nat → Nat → F[X]) (g g' : Nat → F[X]) (k j : Nat) :
    rtRN ctx K num AN (fun m => g m + g' m) k j = rtRN ctx K num AN g k j + rtRN ctx K num AN g' k j := by
  unfold rtRN
  split
  · simp only [eval_add, C_add, add_mul, Finset.sum_add_distrib]
  · simp

section shift
variable {ctx : Ctx F} (h : ctx.Good) {Cs : Finset Nat} (hC : Coalition ctx Cs) {tfs : List (SharingTransform F)}
  {A AN : Nat → Nat → F[X]} {E : Nat → F[X]} (B : RtBasis ctx tfs A AN E) (hK : tfs.length ≤ ctx.l)
  (hok : ∀ tf ∈ tfs, tf.Ok ctx) {num : Nat} (hnum : 0 < num)
  (δ σ : Nat → Nat → F[X])

include h hC in
theorem rtShift_degree (idx : Nat) : (rtShift ctx Cs tfs num δ σ idx).degree < (ctx.t + ctx.l : Nat) := packC_degree h hC _

include h hC in
theorem rtShift_share (idx : Nat) {p : Nat} (hp : p ∈ Cs) : (rtShift ctx Cs tfs num δ σ idx).eval (ofU32 p) = 0 :=
  packC_share h hC _ hp

include h hC hK in
theorem rtShift_secret {k : Nat} (hk : k < tfs.length) (c : Nat) {j : Nat} (hj : j < num) :
    (rtShift ctx Cs tfs num δ σ (c * num + j)).eval (ofU32 (ctx.n + k)) = baseVal ctx tfs[k] (δ k j) (σ k j) c := by
  unfold rtShift
  rw [packC_secret h hC _ (by omega), dif_pos hk]
  have h1 : (c * num + j) % num = j := by
    rw [Nat.add_comm, Nat.add_mul_mod_self_right, Nat.mod_eq_of_lt hj]
  have h2 : (c * num + j) / num = c := by
    rw [Nat.add_comm, Nat.add_mul_div_right _ _ (by omega), Nat.div_eq_of_lt hj, Nat.zero_add]
  rw [h1, h2]

omit [DecidableEq F] in
theorem poly_eq_of_places {d : Nat} {p q : F[X]} (hp : p.degree < d) (hq : q.degree < d) (pos : List F) (hnd : pos.Nodup)
    (hd : d ≤ pos.length) (he : ∀ (m : Nat) (hm : m < pos.length), m < d → p.eval pos[m] = q.eval pos[m]) : p = q := by
  refine Polynomial.eq_of_degrees_lt_of_eval_index_eq (Finset.range d) (v := fun m => pos.getD m 0) ?_
    (by rwa [Finset.card_range]) (by rwa [Finset.card_range]) ?_
  · intro a ha b hb hab
    have ha := Finset.mem_range.1 ha
    have hb := Finset.mem_range.1 hb
    simp only [List.getD_eq_getElem?_getD, List.getElem?_eq_getElem (show a < pos.length by omega),
      List.getElem?_eq_getElem (show b < pos.length by omega), Option.getD_some] at hab
    exact (hnd.getElem_inj_iff).1 hab
  · intro m hm
    have hm := Finset.mem_range.1 hm
    have := he m (by omega) hm
    simp only [List.getD_eq_getElem?_getD, List.getElem?_eq_getElem (show m < pos.length by omega), Option.getD_some]
    exact this

include h hC B hK hok in
theorem rtRN_shift (hδ : ∀ k < tfs.length, ∀ j < num, (δ k j).degree < ctx.n) {k j : Nat} (hk : k < tfs.length)
    (hj : j < num) : rtRN ctx tfs.length num AN (rtShift ctx Cs tfs num δ σ) k j = δ k j := by
  have ok := hok _ (List.getElem_mem hk)
  refine poly_eq_of_places (B.degRN num _ k j) (hδ k hk j hj) (tfs[k].oldPos ++ sharePos ctx.n) (allPos_nodup ok.old)
    (by simp [sharePos_length]) fun m hm hmn => ?_
  rw [B.evalRN _ hk j hmn hm, rtShift_secret h hC hK δ σ hk _ hj]
  unfold baseVal Ctx.idxN
  have hb : baseN ctx tfs[k] (δ k j) m = (δ k j).eval (tfs[k].oldPos ++ sharePos ctx.n)[m] := by
    unfold baseN
    rw [List.getD_eq_getElem?_getD, List.getElem?_eq_getElem hm, Option.getD_some]
  by_cases hl : m < ctx.l
  · rw [if_pos hl, if_pos (by omega), baseR, if_pos hl, hb]
  · rw [if_neg hl, if_neg (by omega), Nat.add_sub_cancel_left, hb]

include h hC B hK hok in
theorem rtR_shift {k j : Nat} (hk : k < tfs.length) (hj : j < num) (S : NewShift ctx Cs tfs[k] (δ k j) (σ k j)) :
    rtR ctx tfs.length num A (rtShift ctx Cs tfs num δ σ) k j = σ k j := by
  have ok := hok _ (List.getElem_mem hk)
  have hle := h.le
  have hnl := ok.newLen
  have hol := ok.oldLen
  have hfl := ok.len
  unfold Combination.len at hfl
  refine poly_eq_of_places (B.degR num _ k j) S.deg (tfs[k].newPos ++ sharePos ctx.n) (allPos_nodup ok.new)
    (by simp [sharePos_length]; omega) fun m hm hmt => ?_
  by_cases hmn : m < tfs[k].newPos.length
  · have hbase : tfs[k].base m = tfs[k].f.map.getD m 0 := by
      unfold SharingTransform.base
      rw [if_pos hmn]
    have hidx : tfs[k].f.map.getD m 0 < tfs[k].oldPos.length := by
      refine ok.idx _ ?_
      rw [List.getD_eq_getElem?_getD, List.getElem?_eq_getElem (by omega), Option.getD_some]
      exact List.getElem_mem _
    rw [B.evalR _ hk j hmt hm (by omega), rtShift_secret h hC hK δ σ hk _ hj, hbase]
    unfold baseVal
    rw [if_pos (by omega), baseR, if_pos (by omega), List.getElem_append_left hmn, S.new m hmn]
    unfold baseN
    rw [List.getD_eq_getElem?_getD, List.getElem?_append_left hidx, ← List.getD_eq_getElem?_getD]
  · have hbase : tfs[k].base m = m := by
      unfold SharingTransform.base
      rw [if_neg hmn]
    rw [B.evalR _ hk j hmt hm (by omega), rtShift_secret h hC hK δ σ hk _ hj, hbase]
    unfold baseVal
    rw [if_pos hmt, baseR]
    by_cases hml : m < ctx.l
    · rw [if_pos hml]
      unfold baseN
      have e1 : (tfs[k].newPos ++ sharePos ctx.n)[m] = ofU32 (m - tfs[k].newPos.length) := by
        rw [List.getElem_append_right (by omega)]
        simp [sharePos]
      have e2 := S.pad (m - tfs[k].newPos.length) (by omega)
      rw [Nat.add_sub_cancel' (by omega)] at e2
      rw [e1, e2]
    · rw [if_neg hml, List.getD_eq_getElem?_getD, List.getElem?_eq_getElem hm, Option.getD_some]

include h hC B hK hok in
/-- The changes of the sharings of zero are sharings of zero. -/
theorem rtShiftZ_zero (hd : ctx.t + 2 * ctx.l ≤ ctx.n) (hnum : 0 < num) (hδ : ∀ k < tfs.length, ∀ j < num, (δ k j).degree < ctx.n)
    (hδC : ∀ k < tfs.length, ∀ j < num, ∀ p ∈ Cs, (δ k j).eval (ofU32 p) = 0)
    (hσ : ∀ (k : Nat) (hk : k < tfs.length), ∀ j < num, NewShift ctx Cs tfs[k] (δ k j) (σ k j)) (idx : Nat) :
    (rtShiftZ ctx Cs tfs A AN E num δ σ idx).degree < ctx.n ∧
    ∀ v ∈ defaultPos ctx.n ctx.l, (rtShiftZ ctx Cs tfs A AN E num δ σ idx).eval v = 0 := by
  have hj : idx % num < num := Nat.mod_lt _ hnum
  have h0 : (0 : F[X]).degree < ctx.n ∧ ∀ v ∈ defaultPos ctx.n ctx.l, (0 : F[X]).eval v = 0 :=
    ⟨by rw [degree_zero]; exact WithBot.bot_lt_coe _, fun _ _ => eval_zero⟩
  have hg : ∀ m < (ctx.n + ctx.t) * num, (rtShift ctx Cs tfs num δ σ m).degree < (ctx.t + ctx.l : Nat) :=
    fun m _ => rtShift_degree h hC δ σ m
  have hz : ∀ m < 2 * ctx.n * num, (0 : F[X]).degree < ctx.n := fun _ _ => h0.1
  unfold rtShiftZ
  split
  · split
    · rename_i hr hrC
      refine ⟨by rw [degree_neg]; exact B.degQN h hd hK hg hz hr hj, fun v hv => ?_⟩
      obtain ⟨k, hk, rfl⟩ := List.mem_map.1 hv
      have hk := List.mem_range.1 hk
      rw [eval_neg, B.evalQN hK _ _ _ hk eval_zero]
      by_cases hkK : k < tfs.length
      · rw [rtRN_shift h hC B hK hok δ σ hδ hkK hj, hδC k hkK _ hj _ hrC, neg_zero]
      · unfold rtRN
        rw [if_neg hkK, eval_zero, neg_zero]
    · exact h0
  · split
    · rename_i hr hrC
      have hrn := hC.parties _ hrC
      refine ⟨by rw [degree_neg]; exact B.degQ h hd hK hg hz hrn hj, fun v hv => ?_⟩
      obtain ⟨k, hk, rfl⟩ := List.mem_map.1 hv
      have hk := List.mem_range.1 hk
      rw [eval_neg, B.evalQ hK _ _ _ hk eval_zero]
      by_cases hkK : k < tfs.length
      · rw [rtR_shift h hC B hK hok δ σ hkK hj (hσ k hkK _ hj), (hσ k hkK _ hj).coal _ hrC, neg_zero]
      · unfold rtR
        rw [if_neg hkK, eval_zero, neg_zero]
    · exact h0

include h hC in
theorem rtQ_shift_share (r j : Nat) {p : Nat} (hp : p ∈ Cs) :
    (rtQ ctx tfs.length num A E (rtShift ctx Cs tfs num δ σ) (fun _ => 0) r j).eval (ofU32 p) = 0 := by
  unfold rtQ
  rw [add_zero, eval_finsetSum]
  refine Finset.sum_eq_zero fun c _ => ?_
  rw [eval_mul, rtShift_share h hC δ σ _ hp, mul_zero]

include h hC in
theorem rtQN_shift_share (r j : Nat) {p : Nat} (hp : p ∈ Cs) :
    (rtQN ctx tfs.length num AN E (rtShift ctx Cs tfs num δ σ) (fun _ => 0) r j).eval (ofU32 p) = 0 := by
  unfold rtQN
  rw [add_zero, eval_finsetSum]
  refine Finset.sum_eq_zero fun c _ => ?_
  rw [eval_mul, rtShift_share h hC δ σ _ hp, mul_zero]

include h hC in
theorem rtShiftZ_share (idx : Nat) {p : Nat} (hp : p ∈ Cs) :
    (rtShiftZ ctx Cs tfs A AN E num δ σ idx).eval (ofU32 p) = 0 := by
  unfold rtShiftZ
  split
  · split
    · rw [eval_neg, rtQN_shift_share h hC δ σ _ _ hp, neg_zero]
    · exact eval_zero
  · split
    · rw [eval_neg, rtQ_shift_share h hC δ σ _ _ hp, neg_zero]
    · exact eval_zero

/-- The messages to the coalition do not change. -/
theorem rtQ_same (g z : Nat → F[X]) {r j : Nat} (hr : r ∈ Cs) (hj : j < num) :
    rtQ ctx tfs.length num A E (fun m => g m + rtShift ctx Cs tfs num δ σ m)
      (fun m => z m + rtShiftZ ctx Cs tfs A AN E num δ σ m) r j = rtQ ctx tfs.length num A E g z r j := by
  rw [rtQ_add]
  have e1 : ((ctx.n + r) * num + j) / num = ctx.n + r := by
    rw [Nat.add_comm, Nat.add_mul_div_right _ _ (by omega), Nat.div_eq_of_lt hj, Nat.zero_add]
  have e2 : ((ctx.n + r) * num + j) % num = j := by
    rw [Nat.add_comm, Nat.add_mul_mod_self_right, Nat.mod_eq_of_lt hj]
  have : rtShiftZ ctx Cs tfs A AN E num δ σ ((ctx.n + r) * num + j)
      = -rtQ ctx tfs.length num A E (rtShift ctx Cs tfs num δ σ) (fun _ => 0) r j := by
    unfold rtShiftZ
    rw [e1, e2, if_neg (by omega), Nat.add_sub_cancel_left, if_pos hr]
  rw [this, add_neg_cancel, add_zero]

include hC in
theorem rtQN_same (g z : Nat → F[X]) {r j : Nat} (hr : r ∈ Cs) (hj : j < num) :
    rtQN ctx tfs.length num AN E (fun m => g m + rtShift ctx Cs tfs num δ σ m)
      (fun m => z m + rtShiftZ ctx Cs tfs A AN E num δ σ m) r j = rtQN ctx tfs.length num AN E g z r j := by
  rw [rtQN_add]
  have e1 : (r * num + j) / num = r := by
    rw [Nat.add_comm, Nat.add_mul_div_right _ _ (by omega), Nat.div_eq_of_lt hj, Nat.zero_add]
  have e2 : (r * num + j) % num = j := by
    rw [Nat.add_comm, Nat.add_mul_mod_self_right, Nat.mod_eq_of_lt hj]
  have : rtShiftZ ctx Cs tfs A AN E num δ σ (r * num + j)
      = -rtQN ctx tfs.length num AN E (rtShift ctx Cs tfs num δ σ) (fun _ => 0) r j := by
    unfold rtShiftZ
    rw [e1, e2, if_pos (hC.parties r hr), if_pos hr]
  rw [this, add_neg_cancel, add_zero]

end shift

end Verif
