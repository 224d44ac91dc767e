import Verif.PreprocLemmas
import Verif.PrivacyShift

/-!
# The polynomials of a run of `preproc`
-/

open Polynomial

namespace Verif

open CodeField (ofU32)

variable {F : Type} [CodeField F] [DecidableEq F]

/-! ## Polynomials from tapes -/

/-- The polynomial through the random shares `τ` of the first `k` parties and the secrets `s`. -/
noncomputable def secPoly (ctx : Ctx F) (k : Nat) (τ s : List F) : F[X] :=
  Lagrange.interpolate (Finset.range k ∪ Finset.Ico ctx.n (ctx.n + ctx.l)) (fun i => (ofU32 i : F))
    fun i => if i < ctx.n then τ.getD i 0 else s.getD (i - ctx.n) 0

section secPoly
variable {ctx : Ctx F} (h : ctx.Good) {k : Nat} (hk : k ≤ ctx.n) (τ s : List F)
include h hk

theorem secPoly_inj : Set.InjOn (fun i => (ofU32 i : F)) ((Finset.range k ∪ Finset.Ico ctx.n (ctx.n + ctx.l) : Finset Nat) : Set Nat) := by
  refine ofU32_injOn h.fit _ fun i hi => ?_
  rcases Finset.mem_union.1 hi with hi | hi
  · have := Finset.mem_range.1 hi
    omega
  · exact (Finset.mem_Ico.1 hi).2

omit h [CodeField F] [DecidableEq F] in
theorem secPoly_card : (Finset.range k ∪ Finset.Ico ctx.n (ctx.n + ctx.l)).card = k + ctx.l := by
  rw [Finset.card_union_of_disjoint, Finset.card_range, Nat.card_Ico]
  · omega
  · rw [Finset.disjoint_left]
    intro i h1 h2
    have := Finset.mem_range.1 h1
    have := Finset.mem_Ico.1 h2
    omega

theorem secPoly_degree : (secPoly ctx k τ s).degree < (k + ctx.l : Nat) := by
  have := Lagrange.degree_interpolate_lt (fun i => if i < ctx.n then τ.getD i 0 else s.getD (i - ctx.n) 0) (secPoly_inj h hk)
  rwa [secPoly_card hk] at this

theorem secPoly_share {i : Nat} (hi : i < k) : (secPoly ctx k τ s).eval (ofU32 i) = τ.getD i 0 := by
  have := Lagrange.eval_interpolate_at_node (fun i => if i < ctx.n then τ.getD i 0 else s.getD (i - ctx.n) 0) (secPoly_inj h hk)
    (i := i) (Finset.mem_union_left _ (Finset.mem_range.2 hi))
  rw [if_pos (by omega)] at this
  exact this

theorem secPoly_secret {j : Nat} (hj : j < ctx.l) : (secPoly ctx k τ s).eval (ofU32 (ctx.n + j)) = s.getD j 0 := by
  have := Lagrange.eval_interpolate_at_node (fun i => if i < ctx.n then τ.getD i 0 else s.getD (i - ctx.n) 0) (secPoly_inj h hk)
    (i := ctx.n + j) (Finset.mem_union_right _ (Finset.mem_Ico.2 ⟨by omega, by omega⟩))
  rw [if_neg (by omega), Nat.add_sub_cancel_left] at this
  exact this

theorem secPoly_unique {q : F[X]} (hq : q.degree < (k + ctx.l : Nat)) (h1 : ∀ i < k, q.eval (ofU32 i) = τ.getD i 0)
    (h2 : ∀ j < ctx.l, q.eval (ofU32 (ctx.n + j)) = s.getD j 0) : q = secPoly ctx k τ s := by
  refine Lagrange.eq_interpolate_of_eval_eq _ (secPoly_inj h hk) (by rwa [secPoly_card hk]) fun i hi => ?_
  rcases Finset.mem_union.1 hi with hi | hi
  · have := Finset.mem_range.1 hi
    rw [if_pos (by omega), h1 i this]
  · obtain ⟨h3, h4⟩ := Finset.mem_Ico.1 hi
    rw [if_neg (by omega), ← h2 (i - ctx.n) (by omega)]
    congr 2
    omega

end secPoly

omit [DecidableEq F] in
theorem sharePoly_unique {k : Nat} (hk : k ≤ CodeField.order F) (d : Nat → F) {q : F[X]} (hq : q.degree < (k : Nat))
    (h1 : ∀ i < k, q.eval (ofU32 i) = d i) : q = sharePoly k d := by
  refine Lagrange.eq_interpolate_of_eval_eq _ (ofU32_injOn (F := F) hk (Finset.range k) (by simp)) (by rwa [Finset.card_range])
    fun i hi => h1 i (Finset.mem_range.1 hi)

omit [DecidableEq F] in
/-- Values at the first shares, from a list. -/
theorem take_share_eval {n k : Nat} (hk : k ≤ n) {q : F[X]} {τ : List F}
    (h : ((sharePos n).take k).map (fun x => q.eval x) = τ) : ∀ i < k, q.eval (ofU32 i) = τ.getD i 0 := by
  intro i hi
  rw [← h, List.getD_eq_getElem?_getD, List.getElem?_map, List.getElem?_take, if_pos hi,
    show (sharePos n : List F)[i]? = some (ofU32 i) from getElem?_tab n _ i (by omega)]
  rfl

omit [DecidableEq F] in
/-- Values at the secrets, from a list. -/
theorem default_eval {n l : Nat} {q : F[X]} {s : List F}
    (h : (defaultPos n l).map (fun x => q.eval x) = s) : ∀ j < l, q.eval (ofU32 (n + j)) = s.getD j 0 := by
  intro j hj
  rw [← h, List.getD_eq_getElem?_getD, List.getElem?_map,
    show (defaultPos n l : List F)[j]? = some (ofU32 (n + j)) from getElem?_tab l _ j hj]
  rfl

theorem share_explicit {ctx : Ctx F} (h : ctx.Good) (s τ : List F) (hs : s.length = ctx.l) (ht : τ.length = ctx.t) :
    ctx.pss.share s τ = some ((sharePos ctx.n).map fun x => (secPoly ctx ctx.t τ s).eval x) := by
  have hl := h.posL
  have hle := h.le
  obtain ⟨r, r1, r2, r3, r4⟩ := share_eq_eval h.pss (defaultPos_good h.fit) (by rw [defaultPos_length]; omega)
    s τ (by rw [defaultPos_length]; omega) (by rw [defaultPos_length]; omega)
  rw [defaultPos_length] at r3 r4
  rw [show ctx.t + ctx.l - 1 + 1 = ctx.t + ctx.l by omega] at r1 r3 r4
  rw [show ctx.t + ctx.l - ctx.l = ctx.t by omega] at r3 r4
  rw [List.drop_eq_nil_of_le (by omega), List.append_nil] at r3
  rw [List.take_of_length_le (l := τ) (by omega)] at r4
  rw [r2, ← secPoly_unique h (by omega) τ s r1 (take_share_eval (by omega) r4) (default_eval r3)]

/-! ## What the parties deal -/

/-- The polynomials which the parties deal in `rand`. -/
noncomputable def PreTapes.polyR (ctx : Ctx F) (tp : PreTapes F) (p b : Nat) : F[X] :=
  sharePoly (ctx.t + ctx.l) fun i => ((tp.rand.getD p []).getD b []).getD i 0

/-- The polynomials which the parties deal in `zero`. -/
noncomputable def PreTapes.polyZ (ctx : Ctx F) (tp : PreTapes F) (p b : Nat) : F[X] :=
  secPoly ctx (ctx.n - ctx.l) ((tp.zero.getD p []).getD b []) []

/-- The polynomials which the parties deal in `randbit`. -/
noncomputable def PreTapes.polyB (ctx : Ctx F) (tp : PreTapes F) (p b : Nat) : F[X] :=
  secPoly ctx ctx.t ((tp.rbit.getD p []).getD b []) (((tp.bits.getD p []).getD b []).map (bitVal F))

omit [DecidableEq F] in
theorem dealPoly_congr {n batches : Nat} {m : Mat F} {q q' : Nat → Nat → F[X]} (h : ∀ p < n, ∀ b < batches, q p b = q' p b)
    {k : Nat} (hk : k < m.rows.length * batches) : dealPoly n batches m q k = dealPoly n batches m q' k := by
  unfold dealPoly
  refine Finset.sum_congr rfl fun p hp => ?_
  rw [h p (Finset.mem_range.1 hp) _ (Nat.mod_lt _ ?_)]
  rcases Nat.eq_zero_or_pos batches with h | h
  · subst h; simp at hk
  · exact h

omit [DecidableEq F] in
theorem tabShares_congr {n k : Nat} {q q' : Nat → F[X]} (h : ∀ j < k, q j = q' j) : tabShares n k q = tabShares n k q' := by
  unfold tabShares
  exact List.map_congr_left fun i _ => List.map_congr_left fun j hj => by rw [h j (List.mem_range.1 hj)]

section deal
variable {ctx : Ctx F} (h : ctx.Good) {m : Mat F} (hm : m.WF) (hn : m.ncols = ctx.n) {num batches : Nat}
  (hb : numBatches num m.rows.length = some batches) {tp : PreTapes F}
include h hm hn hb

theorem rand_explicit (ht : TapeShape ctx.n batches (ctx.t + ctx.l) tp.rand) :
    rand ctx m num tp.rand
      = some (tabShares ctx.n (m.rows.length * batches) (dealPoly ctx.n batches m (tp.polyR ctx))) := by
  obtain ⟨q, q1, q2⟩ := rand_tab h hm hn hb ht
  have hle := h.le
  have hfit := h.fit
  rw [q2, tabShares_congr fun k hk => dealPoly_congr (fun p hp b hb => ?_) hk]
  exact sharePoly_unique (by omega) _ (q1 p hp b hb).1 (take_share_eval (by omega) (q1 p hp b hb).2.2)

theorem zero_explicit (ht : TapeShape ctx.n batches (ctx.n - ctx.l) tp.zero) :
    zero ctx m num tp.zero
      = some (tabShares ctx.n (m.rows.length * batches) (dealPoly ctx.n batches m (tp.polyZ ctx))) := by
  obtain ⟨q, q1, q2⟩ := zero_tab h hm hn hb ht
  have hle := h.le
  rw [q2, tabShares_congr fun k hk => dealPoly_congr (fun p hp b hb => ?_) hk]
  refine secPoly_unique h (by omega) _ _ ?_ (take_share_eval (by omega) (q1 p hp b hb).2.2) fun j hj => ?_
  · rw [show ctx.n - ctx.l + ctx.l = ctx.n by omega]
    exact (q1 p hp b hb).1
  · rw [(q1 p hp b hb).2.1 _ (List.mem_map.2 ⟨j, List.mem_range.2 hj, rfl⟩)]
    rfl

theorem randbit_explicit (hbits : TapeShape ctx.n batches ctx.l tp.bits) (ht : TapeShape ctx.n batches ctx.t tp.rbit) :
    randbit ctx m num tp.bits tp.rbit
      = some (tabShares ctx.n (m.rows.length * batches) (dealPoly ctx.n batches m (tp.polyB ctx))) := by
  obtain ⟨q, q1, q2⟩ := randbit_tab h hm hn hb hbits ht
  have hle := h.le
  rw [q2, tabShares_congr fun k hk => dealPoly_congr (fun p hp b hb => ?_) hk]
  exact secPoly_unique h (by omega) _ _ (q1 p hp b hb).1 (take_share_eval (by omega) (q1 p hp b hb).2.2)
    (default_eval (q1 p hp b hb).2.1)

end deal

/-! ## `mult` -/

/-- What is opened to the leader of a multiplication. -/
noncomputable def openPoly (x y r z : F[X]) : F[X] := x * y + r + z

/-- The sharing which the leader of a multiplication deals. -/
noncomputable def leadPoly (ctx : Ctx F) (τ : List F) (o : F[X]) : F[X] :=
  secPoly ctx ctx.t τ ((defaultPos ctx.n ctx.l).map fun v => o.eval v)

/-- The result of a multiplication. -/
noncomputable def multPoly (ctx : Ctx F) (τ : List F) (x y r z : F[X]) : F[X] := leadPoly ctx τ (openPoly x y r z) - r

section mult
variable {ctx : Ctx F} (h : ctx.Good)
include h

theorem leadPoly_degree (τ : List F) (o : F[X]) : (leadPoly ctx τ o).degree < (ctx.t + ctx.l : Nat) :=
  secPoly_degree h (by have := h.le; omega) _ _

theorem leadPoly_secret (τ : List F) (o : F[X]) : ∀ v ∈ defaultPos ctx.n ctx.l, (leadPoly ctx τ o).eval v = o.eval v := by
  intro v hv
  obtain ⟨k, hk, rfl⟩ := List.mem_map.1 hv
  have hk := List.mem_range.1 hk
  unfold leadPoly
  rw [secPoly_secret h (by have := h.le; omega) _ _ hk, List.getD_eq_getElem?_getD, List.getElem?_map,
    show (defaultPos ctx.n ctx.l : List F)[k]? = some (ofU32 (ctx.n + k)) from getElem?_tab ctx.l _ k hk]
  rfl

theorem multPoly_degree (τ : List F) (x y : F[X]) {r : F[X]} (z : F[X]) (hr : r.degree < (ctx.t + ctx.l : Nat)) :
    (multPoly ctx τ x y r z).degree < (ctx.t + ctx.l : Nat) := degree_sub_lt' (leadPoly_degree h _ _) hr

theorem multPoly_secret (τ : List F) (x y r : F[X]) {z : F[X]} {v : F} (hv : v ∈ defaultPos ctx.n ctx.l) (hz : z.eval v = 0) :
    (multPoly ctx τ x y r z).eval v = x.eval v * y.eval v := by
  unfold multPoly openPoly
  rw [eval_sub, leadPoly_secret h _ _ v hv, eval_add, eval_add, eval_mul, hz]
  ring

theorem rdLeader_explicit {num : Nat} {tapes : List (List F)} (ht : tapes.length = num) (htl : ∀ tp ∈ tapes, tp.length = ctx.t)
    {q : Nat → F[X]} (hq : ∀ j < num, (q j).degree < ctx.n) :
    rdLeader ctx num tapes (tabShares ctx.n num q)
      = some (tabShares ctx.n num fun j => leadPoly ctx (tapes.getD j []) (q j)) := by
  unfold rdLeader
  rw [tabShares_flatten]
  simp only [Option.bind_some]
  rw [mapM_range_some num _ (fun j => (sharePos ctx.n).map fun x => (leadPoly ctx (tapes.getD j []) (q j)).eval x)]
  · simp only [Option.bind_some]
    exact reshare_tab ctx.n num _
  · intro j hj
    have hj' : j < tapes.length := by omega
    rw [col_tabShares _ _ _ _ hj, h.reconN _ (hq j hj)]
    simp only [Option.bind_some, hj', getElem?_pos]
    rw [share_explicit h _ _ (by simp [defaultPos_length]) (htl _ (List.getElem_mem hj'))]
    unfold leadPoly
    rw [List.getD_eq_getElem?_getD, List.getElem?_eq_getElem hj', Option.getD_some]

theorem openPoly_degree (hd : 2 * (ctx.t + ctx.l - 1) < ctx.n) {x y r z : F[X]} (hx : x.degree < (ctx.t + ctx.l : Nat))
    (hy : y.degree < (ctx.t + ctx.l : Nat)) (hr : r.degree < (ctx.t + ctx.l : Nat)) (hz : z.degree < ctx.n) :
    (openPoly x y r z).degree < ctx.n := by
  have hl := h.posL
  have hk : ctx.t + ctx.l = ctx.t + ctx.l - 1 + 1 := by omega
  have hle := h.le
  refine degree_add_lt (degree_add_lt ?_ (degree_lt_mono hr hle)) hz
  rw [hk] at hx hy
  exact degree_lt_mono (degree_mul_lt hx hy) (by omega)

theorem mult_explicit (hd : 2 * (ctx.t + ctx.l - 1) < ctx.n) {num : Nat} {tapes : List (List F)} (ht : tapes.length = num)
    (htl : ∀ tp ∈ tapes, tp.length = ctx.t) {x y r z : Nat → F[X]} (hx : ∀ j < num, (x j).degree < (ctx.t + ctx.l : Nat))
    (hy : ∀ j < num, (y j).degree < (ctx.t + ctx.l : Nat)) (hr : ∀ j < num, (r j).degree < (ctx.t + ctx.l : Nat))
    (hz : ∀ j < num, (z j).degree < ctx.n) :
    mult ctx num tapes (tabShares ctx.n num x) (tabShares ctx.n num y) (tabShares ctx.n num r) (tabShares ctx.n num z)
      = some (tabShares ctx.n num fun j => multPoly ctx (tapes.getD j []) (x j) (y j) (r j) (z j)) := by
  unfold mult
  rw [mapM_range_some ctx.n _ (fun i => (List.range num).map fun j => (x j * y j).eval (ofU32 i))]
  · simp only [Option.bind_some]
    unfold reduceDegree
    rw [mapM_range_some ctx.n _ (fun i => (List.range num).map fun j => (openPoly (x j) (y j) (r j) (z j)).eval (ofU32 i))]
    · simp only [Option.bind_some]
      rw [show ((List.range ctx.n).map fun i => (List.range num).map fun j => (openPoly (x j) (y j) (r j) (z j)).eval (ofU32 i))
        = tabShares ctx.n num fun j => openPoly (x j) (y j) (r j) (z j) from rfl,
        rdLeader_explicit h ht htl fun j hj => openPoly_degree h hd (hx j hj) (hy j hj) (hr j hj) (hz j hj)]
      simp only [Option.bind_some]
      apply mapM_range_some
      intro i hi
      rw [tabShares_row _ _ _ _ hi, tabShares_row _ _ _ _ hi]
      simp only [Option.bind_some]
      rw [rdFinish_tab]
      simp only [multPoly, eval_sub]
    · intro i hi
      rw [tabShares_row _ _ _ _ hi, tabShares_row _ _ _ _ hi, getElem?_tab _ _ _ hi]
      simp only [Option.bind_some]
      rw [rdSend_tab]
      simp only [openPoly, eval_add]
  · intro i hi
    rw [tabShares_row _ _ _ _ hi, tabShares_row _ _ _ _ hi]
    simp only [Option.bind_some]
    rw [if_pos (by simp), vmul_map]
    simp only [eval_mul]

end mult

end Verif
