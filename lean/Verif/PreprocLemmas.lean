import Verif.PreprocSpec
import Verif.RandTransLemmas

/-!
# Helper lemmas for the preprocessing protocols
-/

open Polynomial

namespace Verif

open CodeField (ofU32)

variable {F : Type} [CodeField F]

/-- A well-formed matrix with its entries as a function. -/
theorem mat_tab (m : Mat F) (h : m.WF) : m = ⟨m.ncols, (List.range m.rows.length).map fun r =>
    (List.range m.ncols).map fun c => (m.rows.getD r []).getD c 0⟩ := by
  obtain ⟨nc, rows⟩ := m
  congr 1
  simp only
  apply List.ext_getElem (by simp)
  intro r h1 h2
  have hr := h rows[r] (List.getElem_mem h1)
  simp only at hr
  simp only [List.getElem_map, List.getElem_range]
  have : rows.getD r [] = rows[r] := by simp [List.getD_eq_getElem?_getD, h1]
  rw [this]
  apply List.ext_getElem (by simp [hr])
  intro c h3 h4
  simp [h3]

theorem flatten_tab {α : Type} (r c : Nat) (f : Nat → Nat → α) :
    ((List.range r).map fun i => (List.range c).map (f i)).flatten
      = (List.range (r * c)).map fun m => f (m / c) (m % c) := by
  induction r with
  | zero => simp
  | succ r ih =>
    rw [List.range_succ, List.map_append, List.flatten_append, ih]
    simp only [List.map_cons, List.map_nil, List.flatten_cons, List.flatten_nil, List.append_nil]
    rw [show (r + 1) * c = r * c + c by ring, ← tab_append]
    congr 1
    apply List.map_congr_left
    intro j hj
    have hj := List.mem_range.1 hj
    have hc : 0 < c := by omega
    rw [Nat.mul_comm r c, Nat.mul_add_div hc, Nat.div_eq_of_lt hj, Nat.mul_add_mod, Nat.mod_eq_of_lt hj, Nat.add_zero]

/-- The polynomials of the outputs of `dealRound`. -/
noncomputable def dealPoly (n batches : Nat) (m : Mat F) (q : Nat → Nat → F[X]) (k : Nat) : F[X] :=
  ∑ p ∈ Finset.range n, C ((m.rows.getD (k / batches) []).getD p 0) * q p (k % batches)

theorem dealPoly_degree {n batches : Nat} (m : Mat F) (q : Nat → Nat → F[X]) {d : Nat}
    (hq : ∀ p < n, ∀ b < batches, (q p b).degree < d) (k : Nat) (hk : k < m.rows.length * batches) :
    (dealPoly n batches m q k).degree < d := by
  apply degree_finset_sum_lt
  intro p hp
  apply degree_C_mul_lt
  apply hq p hp
  apply Nat.mod_lt
  rcases Nat.eq_zero_or_pos batches with h | h
  · subst h; simp at hk
  · exact h

theorem dealPoly_eval (n batches : Nat) (m : Mat F) (q : Nat → Nat → F[X]) (k : Nat) (x : F) :
    (dealPoly n batches m q k).eval x
      = ∑ p ∈ Finset.range n, (m.rows.getD (k / batches) []).getD p 0 * (q p (k % batches)).eval x := by
  simp [dealPoly, eval_finsetSum]

variable [DecidableEq F]

omit [DecidableEq F] in
theorem dealSend_tab (n batches : Nat) (q : Nat → F[X]) :
    dealSend n batches ((List.range batches).map fun b => (sharePos n).map fun x => (q b).eval x)
      = some (tabShares n batches q) := reshare_tab n batches q

omit [DecidableEq F] in
theorem dealFinish_tab (n batches : Nat) (m : Mat F) (hm : m.WF) (hn : m.ncols = n) (f : Nat → Nat → F) :
    dealFinish n batches m ((List.range n).map fun p => (List.range batches).map (f p))
      = some ((List.range (m.rows.length * batches)).map fun k =>
          ∑ p ∈ Finset.range n, (m.rows.getD (k / batches) []).getD p 0 * f p (k % batches)) := by
  unfold dealFinish
  rw [toRows_flatten _ (by simp) (by intro x hx; obtain ⟨i, _, rfl⟩ := List.mem_map.1 hx; simp)]
  simp only [Option.bind_some]
  conv_lhs => rw [mat_tab m hm]
  subst hn
  rw [mulRows_tab]
  simp only [Option.map_some]
  rw [flatten_tab]

/-- `mapM` over a table. -/
theorem mapM_tab {α β : Type} (m : Nat) (h : Nat → α) (f : α → Option β) (g : Nat → β)
    (hf : ∀ i < m, f (h i) = some (g i)) : ((List.range m).map h).mapM f = some ((List.range m).map g) := by
  rw [List.mapM_map]
  exact mapM_range_some m _ g hf

omit [DecidableEq F] in
theorem dealRound_tab (n batches : Nat) (m : Mat F) (hm : m.WF) (hn : m.ncols = n) (q : Nat → Nat → F[X]) :
    dealRound n batches m ((List.range n).map fun p => (List.range batches).map fun b =>
        (sharePos n).map fun x => (q p b).eval x)
      = some (tabShares n (m.rows.length * batches) (dealPoly n batches m q)) := by
  unfold dealRound
  rw [mapM_tab n _ _ (fun p => tabShares n batches (q p)) (fun p _ => dealSend_tab n batches (q p))]
  simp only [Option.bind_some]
  unfold tabShares
  apply mapM_range_some
  intro i hi
  rw [mapM_tab n _ _ (fun p => (List.range batches).map fun b => (q p b).eval (ofU32 i))
    (fun p _ => getElem?_tab n _ i hi)]
  simp only [Option.bind_some]
  rw [dealFinish_tab n batches m hm hn]
  simp only [dealPoly_eval]

/-! ### The three protocols -/

omit [DecidableEq F] in
theorem exists_family2 {P : Nat → Nat → F[X] → Prop} (n m : Nat) (h : ∀ i < n, ∀ j < m, ∃ p, P i j p) :
    ∃ q : Nat → Nat → F[X], ∀ i < n, ∀ j < m, P i j (q i j) := by
  classical
  refine ⟨fun i j => if hh : ∃ p, P i j p then hh.choose else 0, fun i hi j hj => ?_⟩
  have := h i hi j hj
  simp only [dif_pos this]
  exact this.choose_spec

omit [DecidableEq F] in
/-- What every dealing protocol does once the dealt sharings are known. -/
theorem deal_tab {n batches : Nat} {m : Mat F} (hm : m.WF) (hn : m.ncols = n) (q : Nat → Nat → F[X])
    (f : Nat → Nat → Option (List F))
    (hf : ∀ p < n, ∀ b < batches, f p b = some ((sharePos n).map fun x => (q p b).eval x)) :
    (((List.range n).mapM fun p => (List.range batches).mapM fun b => f p b).bind fun sharings =>
      dealRound n batches m sharings) = some (tabShares n (m.rows.length * batches) (dealPoly n batches m q)) := by
  rw [mapM_range_some n _ _ fun p hp => mapM_range_some batches _ _ fun b hb => hf p hp b hb]
  exact dealRound_tab n batches m hm hn q

theorem TapeShape.get {n batches len : Nat} {α : Type} {tapes : List (List (List α))} (h : TapeShape n batches len tapes)
    (p b : Nat) (hp : p < n) (hb : b < batches) :
    ∃ tp t, tapes[p]? = some tp ∧ tp[b]? = some t ∧ t.length = len ∧ (tapes.getD p []).getD b [] = t := by
  have h1 : p < tapes.length := by rw [h.1]; exact hp
  have h2 := h.2 _ (List.getElem_mem h1)
  have h3 : b < tapes[p].length := by rw [h2.1]; exact hb
  refine ⟨tapes[p], tapes[p][b], List.getElem?_eq_getElem h1, List.getElem?_eq_getElem h3,
    h2.2 _ (List.getElem_mem h3), ?_⟩
  simp [h1, h3]

theorem rand_tab {ctx : Ctx F} (h : ctx.Good) {m : Mat F} (hm : m.WF) (hn : m.ncols = ctx.n) {num batches : Nat}
    (hb : numBatches num m.rows.length = some batches) {tapes : List (List (List F))}
    (ht : TapeShape ctx.n batches (ctx.t + ctx.l) tapes) :
    ∃ q : Nat → Nat → F[X], (∀ p < ctx.n, ∀ b < batches, (q p b).degree < (ctx.t + ctx.l : Nat) ∧
        ctx.pss.rand ((tapes.getD p []).getD b []) = some ((sharePos ctx.n).map fun x => (q p b).eval x) ∧
        ((sharePos ctx.n).take (ctx.t + ctx.l)).map (fun x => (q p b).eval x) = (tapes.getD p []).getD b []) ∧
      rand ctx m num tapes = some (tabShares ctx.n (m.rows.length * batches) (dealPoly ctx.n batches m q)) := by
  have hsm : ctx.n ≤ CodeField.order F := by have := h.fit; omega
  have hl := h.posL
  obtain ⟨q, hq⟩ := exists_family2 (P := fun p b r => r.degree < (ctx.t + ctx.l : Nat) ∧
      ctx.pss.rand ((tapes.getD p []).getD b []) = some ((sharePos ctx.n).map fun x => r.eval x) ∧
      ((sharePos ctx.n).take (ctx.t + ctx.l)).map (fun x => r.eval x) = (tapes.getD p []).getD b []) ctx.n batches (by
    intro p hp b hb'
    obtain ⟨tp, t, _, _, h3, h4⟩ := ht.get p b hp hb'
    obtain ⟨r, r1, r2, r3⟩ := rand_eq_eval h.pss hsm t (by omega)
    rw [show ctx.t + ctx.l - 1 + 1 = ctx.t + ctx.l by omega] at r1 r3
    exact ⟨r, r1, by rw [h4]; exact r2, by rw [h4]; exact r3⟩)
  refine ⟨q, hq, ?_⟩
  unfold rand
  rw [hb]
  simp only [Option.bind_some]
  apply deal_tab hm hn
  intro p hp b hb'
  obtain ⟨tp, t, h1, h2, h3, h4⟩ := ht.get p b hp hb'
  rw [h1]
  simp only [Option.bind_some]
  rw [h2]
  simp only [Option.bind_some]
  rw [← h4]
  exact (hq p hp b hb').2.1

theorem zero_tab {ctx : Ctx F} (h : ctx.Good) {m : Mat F} (hm : m.WF) (hn : m.ncols = ctx.n) {num batches : Nat}
    (hb : numBatches num m.rows.length = some batches) {tapes : List (List (List F))}
    (ht : TapeShape ctx.n batches (ctx.n - ctx.l) tapes) :
    ∃ q : Nat → Nat → F[X], (∀ p < ctx.n, ∀ b < batches, (q p b).degree < ctx.n ∧
        (∀ x ∈ defaultPos ctx.n ctx.l, (q p b).eval x = 0) ∧
        ((sharePos ctx.n).take (ctx.n - ctx.l)).map (fun x => (q p b).eval x) = (tapes.getD p []).getD b []) ∧
      zero ctx m num tapes = some (tabShares ctx.n (m.rows.length * batches) (dealPoly ctx.n batches m q)) := by
  have hn1 := h.posN
  have hle := h.le
  have hl := h.posL
  obtain ⟨q, hq⟩ := exists_family2 (P := fun p b r => (r.degree < ctx.n ∧
      (∀ x ∈ defaultPos ctx.n ctx.l, r.eval x = 0) ∧
      ((sharePos ctx.n).take (ctx.n - ctx.l)).map (fun x => r.eval x) = (tapes.getD p []).getD b []) ∧
      ctx.pssN.share (List.replicate ctx.l 0) ((tapes.getD p []).getD b [])
        = some ((sharePos ctx.n).map fun x => r.eval x)) ctx.n batches (by
    intro p hp b hb'
    obtain ⟨tp, t, _, _, h3, h4⟩ := ht.get p b hp hb'
    obtain ⟨r, r1, r2, r3, r4⟩ := share_eq_eval h.pssN (defaultPos_good h.fit) (by rw [defaultPos_length]; omega)
      (List.replicate ctx.l 0) t (by rw [defaultPos_length]; simp) (by rw [defaultPos_length]; simp; omega)
    rw [defaultPos_length] at r3 r4
    rw [show ctx.n - 1 + 1 = ctx.n by omega] at r1 r3 r4
    refine ⟨r, ⟨r1, ?_, ?_⟩, by rw [h4]; exact r2⟩
    · rw [List.drop_eq_nil_of_le (by omega), List.append_nil] at r3
      intro x hx
      have : r.eval x ∈ List.replicate ctx.l (0 : F) := by rw [← r3]; exact List.mem_map_of_mem hx
      exact (List.mem_replicate.1 this).2
    · rw [h4, r4, List.take_of_length_le (by omega)])
  refine ⟨q, fun p hp b hb' => (hq p hp b hb').1, ?_⟩
  unfold zero
  rw [hb]
  simp only [Option.bind_some]
  apply deal_tab hm hn
  intro p hp b hb'
  obtain ⟨tp, t, h1, h2, h3, h4⟩ := ht.get p b hp hb'
  rw [h1]
  simp only [Option.bind_some]
  rw [h2]
  simp only [Option.bind_some]
  rw [← h4]
  exact (hq p hp b hb').2

theorem randbit_tab {ctx : Ctx F} (h : ctx.Good) {m : Mat F} (hm : m.WF) (hn : m.ncols = ctx.n) {num batches : Nat}
    (hb : numBatches num m.rows.length = some batches) {bits : List (List (List Bool))}
    (hbits : TapeShape ctx.n batches ctx.l bits) {tapes : List (List (List F))}
    (ht : TapeShape ctx.n batches ctx.t tapes) :
    ∃ q : Nat → Nat → F[X], (∀ p < ctx.n, ∀ b < batches, (q p b).degree < (ctx.t + ctx.l : Nat) ∧
        (defaultPos ctx.n ctx.l).map (fun x => (q p b).eval x) = ((bits.getD p []).getD b []).map (bitVal F) ∧
        ((sharePos ctx.n).take ctx.t).map (fun x => (q p b).eval x) = (tapes.getD p []).getD b []) ∧
      randbit ctx m num bits tapes
        = some (tabShares ctx.n (m.rows.length * batches) (dealPoly ctx.n batches m q)) := by
  have hl := h.posL
  have hpl : ctx.pss.l = ctx.l := by rw [(new_eq h.pss).2.2.2.1, defaultPos_length]
  obtain ⟨q, hq⟩ := exists_family2 (P := fun p b r => (r.degree < (ctx.t + ctx.l : Nat) ∧
      (defaultPos ctx.n ctx.l).map (fun x => r.eval x) = ((bits.getD p []).getD b []).map (bitVal F) ∧
      ((sharePos ctx.n).take ctx.t).map (fun x => r.eval x) = (tapes.getD p []).getD b []) ∧
      ctx.pss.share (((bits.getD p []).getD b []).map (bitVal F)) ((tapes.getD p []).getD b [])
        = some ((sharePos ctx.n).map fun x => r.eval x)) ctx.n batches (by
    intro p hp b hb'
    obtain ⟨tp, t, _, _, h3, h4⟩ := ht.get p b hp hb'
    obtain ⟨bp, bs, _, _, b3, b4⟩ := hbits.get p b hp hb'
    obtain ⟨r, r1, r2, r3, r4⟩ := share_eq_eval h.pss (defaultPos_good h.fit) (by rw [defaultPos_length]; omega)
      (bs.map (bitVal F)) t (by rw [defaultPos_length]; simp; omega) (by rw [defaultPos_length]; simp; omega)
    rw [defaultPos_length] at r3 r4
    rw [show ctx.t + ctx.l - 1 + 1 = ctx.t + ctx.l by omega] at r1 r3 r4
    rw [show ctx.t + ctx.l - ctx.l = ctx.t by omega] at r3 r4
    refine ⟨r, ⟨r1, ?_, ?_⟩, by rw [h4, b4]; exact r2⟩
    · rw [List.drop_eq_nil_of_le (by omega), List.append_nil] at r3
      rw [b4]; exact r3
    · rw [h4, r4, List.take_of_length_le (by omega)])
  refine ⟨q, fun p hp b hb' => (hq p hp b hb').1, ?_⟩
  unfold randbit
  rw [hb]
  simp only [Option.bind_some]
  apply deal_tab hm hn
  intro p hp b hb'
  obtain ⟨tp, t, h1, h2, h3, h4⟩ := ht.get p b hp hb'
  obtain ⟨bp, bs, b1, b2, b3, b4⟩ := hbits.get p b hp hb'
  rw [h1, b1]
  simp only [Option.bind_some]
  rw [h2, b2]
  simp only [Option.bind_some]
  rw [if_pos (by omega), ← h4, ← b4]
  exact (hq p hp b hb').2

/-! ### Error shares -/

omit [DecidableEq F] in
theorem drainAll_tab (n N k : Nat) (hk : k ≤ N) (q : Nat → F[X]) :
    drainAll k (tabShares n N q) = some (tabShares n k q, tabShares n (N - k) fun m => q (k + m)) := by
  unfold drainAll
  rw [show tabShares n N q = (List.range n).map fun i => (List.range N).map fun j => (q j).eval (ofU32 i) from rfl,
    mapM_tab n _ _ (fun i => ((List.range k).map fun j => (q j).eval (ofU32 i),
      (List.range (N - k)).map fun j => (q (k + j)).eval (ofU32 i))) (by
    intro i _
    rw [drain_some (by simpa using hk), take_tab _ _ _ hk, drop_tab])]
  simp only [Option.map_some, List.map_map]
  rfl

theorem errorBatch_tab {ctx : Ctx F} (h : ctx.Good) (hd : 2 * (ctx.t + ctx.l - 1) < ctx.n) (b : Nat) (tp : ErrTapes F)
    (h1 : tp.first.length = b) (h1l : ∀ t ∈ tp.first, t.length = ctx.t)
    (h2 : tp.second.length = b) (h2l : ∀ t ∈ tp.second, t.length = ctx.t) (x y g z : Nat → F[X])
    (hx : ∀ j < b, (x j).degree < (ctx.t + ctx.l : Nat)) (hy : ∀ j < b, (y j).degree < (ctx.t + ctx.l : Nat))
    (hg : ∀ j < 3 * b, (g j).degree < (ctx.t + ctx.l : Nat)) (hz : ∀ j < 2 * b, (z j).degree < ctx.n)
    (hz0 : ∀ j < 2 * b, ∀ v ∈ defaultPos ctx.n ctx.l, (z j).eval v = 0) :
    ∃ w : Nat → F[X], (∀ j < b, (w j).degree < (ctx.t + ctx.l : Nat)) ∧
      (∀ j < b, ∀ v ∈ defaultPos ctx.n ctx.l, (w j).eval v = (x j).eval v * (y j).eval v * (g (b + j)).eval v) ∧
      errorBatch ctx b tp (tabShares ctx.n b x) (tabShares ctx.n b y) (tabShares ctx.n (3 * b) g)
        (tabShares ctx.n (2 * b) z) = some (tabShares ctx.n b w) := by
  obtain ⟨w1, a1, a2, a3⟩ := mult_tab h b tp.first h1 h1l hd x y g z hx hy (fun j hj => hg j (by omega))
    (fun j hj => hz j (by omega)) (fun j hj => hz0 j (by omega))
  obtain ⟨w2, b1, b2, b3⟩ := mult_tab h b tp.second h2 h2l hd w1 (fun j => g (b + j)) (fun j => g (b + (b + j)))
    (fun j => z (b + j)) a1 (fun j hj => hg _ (by omega)) (fun j hj => hg _ (by omega))
    (fun j hj => hz _ (by omega)) (fun j hj => hz0 _ (by omega))
  refine ⟨w2, b1, fun j hj v hv => by rw [b2 j hj v hv, a2 j hj v hv], ?_⟩
  unfold errorBatch
  rw [drainAll_tab _ _ _ (by omega)]
  simp only [Option.bind_some]
  rw [drainAll_tab _ _ _ (by omega)]
  simp only [Option.bind_some]
  rw [a3]
  simp only [Option.bind_some]
  rw [drainAll_tab _ _ _ (by omega)]
  simp only [Option.bind_some]
  rw [show 3 * b - b - b = b by omega, show 2 * b - b = b by omega]
  exact b3

omit [DecidableEq F] in
theorem zipWith_append_tabShares (n a b : Nat) (f g q : Nat → F[X]) (hf : ∀ j < a, q j = f j) (hg : ∀ j < b, q (a + j) = g j) :
    List.zipWith (· ++ ·) (tabShares n a f) (tabShares n b g) = tabShares n (a + b) q := by
  unfold tabShares
  rw [List.zipWith_map]
  rw [List.zipWith_self]
  apply List.map_congr_left
  intro i _
  rw [← tab_append]
  congr 1
  · apply List.map_congr_left; intro j hj; rw [hf j (List.mem_range.1 hj)]
  · apply List.map_congr_left; intro j hj; rw [hg j (List.mem_range.1 hj)]

omit [DecidableEq F] in
theorem tabShares_nil (n : Nat) (q : Nat → F[X]) : tabShares n 0 q = List.replicate n [] := by
  unfold tabShares
  simp

theorem errorLoop_tab {ctx : Ctx F} (h : ctx.Good) (hd : 2 * (ctx.t + ctx.l - 1) < ctx.n) (bs : List (Nat × ErrTapes F))
    (hok : ∀ e ∈ bs, e.2.Ok ctx.t e.1) (e : Nat) (he : e = (bs.map (·.1)).sum) (x g z : Nat → F[X])
    (hx : ∀ j < 2 * e, (x j).degree < (ctx.t + ctx.l : Nat))
    (hg : ∀ j < 3 * e, (g j).degree < (ctx.t + ctx.l : Nat)) (hz : ∀ j < 2 * e, (z j).degree < ctx.n)
    (hz0 : ∀ j < 2 * e, ∀ v ∈ defaultPos ctx.n ctx.l, (z j).eval v = 0) :
    ∃ w : Nat → F[X], (∀ j < e, (w j).degree < (ctx.t + ctx.l : Nat)) ∧
      (∀ pre b post, bs.map (·.1) = pre ++ b :: post → ∀ j < b, ∀ v ∈ defaultPos ctx.n ctx.l,
        (w (pre.sum + j)).eval v = (x (2 * pre.sum + j)).eval v * (x (2 * pre.sum + b + j)).eval v
          * (g (3 * pre.sum + b + j)).eval v) ∧
      errorLoop ctx bs (tabShares ctx.n (2 * e) x) (tabShares ctx.n (3 * e) g) (tabShares ctx.n (2 * e) z)
        = some (tabShares ctx.n e w) := by
  induction bs generalizing e x g z with
  | nil =>
    simp only [List.map_nil, List.sum_nil] at he
    subst he
    refine ⟨fun _ => 0, by simp, ?_, ?_⟩
    · intro pre b post hp
      simp at hp
    · rw [errorLoop, tabShares_nil]
  | cons hd' rest ih =>
    obtain ⟨b, tp⟩ := hd'
    simp only [List.map_cons, List.sum_cons] at he
    have hb := hok (b, tp) (by simp)
    simp only [ErrTapes.Ok] at hb
    obtain ⟨e', he'⟩ : ∃ e', e' = (rest.map (·.1)).sum := ⟨_, rfl⟩
    rw [← he'] at he
    subst he
    obtain ⟨w1, a1, a2, a3⟩ := errorBatch_tab h hd b tp hb.1.1 hb.1.2 hb.2.1 hb.2.2 x (fun j => x (b + j)) g z
      (fun j hj => hx _ (by omega)) (fun j hj => hx _ (by omega)) (fun j hj => hg _ (by omega))
      (fun j hj => hz _ (by omega)) (fun j hj => hz0 _ (by omega))
    obtain ⟨w2, b1, b2, b3⟩ := ih (fun e he => hok e (List.mem_cons_of_mem _ he)) e' he' (fun j => x (b + (b + j)))
      (fun j => g (3 * b + j)) (fun j => z (2 * b + j))
      (fun j hj => hx _ (by omega)) (fun j hj => hg _ (by omega))
      (fun j hj => hz _ (by omega)) (fun j hj => hz0 _ (by omega))
    refine ⟨fun j => if j < b then w1 j else w2 (j - b), ?_, ?_, ?_⟩
    · intro j hj
      simp only
      by_cases hjb : j < b
      · rw [if_pos hjb]; exact a1 j hjb
      · rw [if_neg hjb]; exact b1 _ (by omega)
    · intro pre c post hp j hj v hv
      simp only [List.map_cons] at hp
      cases pre with
      | nil =>
        simp only [List.nil_append, List.cons.injEq] at hp
        obtain ⟨rfl, -⟩ := hp
        simp only [List.sum_nil, Nat.mul_zero, Nat.zero_add, hj, if_true]
        rw [a2 j hj v hv]
      | cons b' pre =>
        simp only [List.cons_append, List.cons.injEq] at hp
        obtain ⟨rfl, hp⟩ := hp
        have := b2 pre c post hp j hj v hv
        have hs : (b :: pre).sum = b + pre.sum := List.sum_cons
        simp only []
        rw [if_neg (by omega), hs, show b + pre.sum + j - b = pre.sum + j by omega, this]
        rw [show 2 * (b + pre.sum) + j = b + (b + (2 * pre.sum + j)) by omega,
          show 2 * (b + pre.sum) + c + j = b + (b + (2 * pre.sum + c + j)) by omega,
          show 3 * (b + pre.sum) + c + j = 3 * b + (3 * pre.sum + c + j) by omega]
    · rw [errorLoop, drainAll_tab _ _ _ (by omega)]
      simp only [Option.bind_some]
      rw [drainAll_tab _ _ _ (by omega)]
      simp only [Option.bind_some]
      rw [drainAll_tab _ _ _ (by omega)]
      simp only [Option.bind_some]
      rw [drainAll_tab _ _ _ (by omega)]
      simp only [Option.bind_some]
      rw [a3]
      simp only [Option.bind_some]
      rw [show 2 * (b + e') - b - b = 2 * e' by omega, show 3 * (b + e') - 3 * b = 3 * e' by omega,
        show 2 * (b + e') - 2 * b = 2 * e' by omega, b3]
      simp only [Option.map_some, Option.some.injEq]
      apply zipWith_append_tabShares
      · intro j hj; rw [if_pos hj]
      · intro j hj; rw [if_neg (by omega), show b + j - b = j by omega]

theorem numBatches_spec {num bs batches : Nat} (h : numBatches num bs = some batches) :
    0 < bs ∧ IsLeast {c | num ≤ c ∧ bs ∣ c} (bs * batches) := by
  unfold numBatches at h
  split at h
  · simp at h
  · rename_i hb
    simp only [Option.some.injEq] at h
    subst h
    have hb : 0 < bs := by omega
    have h1 := Nat.div_add_mod (num + bs - 1) bs
    have h2 := Nat.mod_lt (num + bs - 1) hb
    refine ⟨hb, ⟨by omega, Nat.dvd_mul_right _ _⟩, ?_⟩
    rintro c ⟨hc, k, rfl⟩
    apply Nat.mul_le_mul_left
    rw [← Nat.lt_succ_iff, Nat.div_lt_iff_lt_mul hb]
    rw [Nat.succ_mul, Nat.mul_comm k bs]
    omega

theorem numBatches_some (num : Nat) {bs : Nat} (h : 0 < bs) : ∃ b, numBatches num bs = some b := by
  unfold numBatches
  rw [if_neg (by omega)]
  exact ⟨_, rfl⟩

theorem errorBatches_eq {errors n : Nat} (hn : 1 ≤ n) :
    errorBatches errors n = some ((List.range n).map (errSize errors n)) := by
  unfold errorBatches
  rw [if_neg (by omega)]
  congr 1
  obtain ⟨m, rfl⟩ : ∃ m, n = m + 1 := ⟨n - 1, by omega⟩
  rw [List.range_succ, List.map_append]
  congr 1
  · rw [show List.replicate (m + 1 - 1) (errors / (m + 1)) = (List.range m).map fun _ => errors / (m + 1) by simp]
    apply List.map_congr_left
    intro a ha
    have := List.mem_range.1 ha
    simp only [errSize]
    rw [if_neg (by omega)]
  · simp [errSize]

theorem errSize_prefix {errors n a : Nat} (ha : a < n) :
    ((List.range a).map (errSize errors n)).sum = a * (errors / n) := by
  have : (List.range a).map (errSize errors n) = List.replicate a (errors / n) := by
    rw [show List.replicate a (errors / n) = (List.range a).map fun _ => errors / n by simp]
    apply List.map_congr_left
    intro b hb
    have := List.mem_range.1 hb
    simp only [errSize]
    rw [if_neg (by omega)]
  rw [this]
  simp

theorem errSize_sum {errors n : Nat} (hn : 1 ≤ n) : ((List.range n).map (errSize errors n)).sum = errors := by
  obtain ⟨m, rfl⟩ : ∃ m, n = m + 1 := ⟨n - 1, by omega⟩
  rw [List.range_succ, List.map_append, List.sum_append, errSize_prefix (by omega)]
  simp only [List.map_cons, List.map_nil, List.sum_cons, List.sum_nil, Nat.add_zero]
  have : m * (errors / (m + 1)) ≤ errors := by
    have h1 := Nat.div_mul_le_self errors (m + 1)
    generalize errors / (m + 1) = d at *
    have : d * (m + 1) = m * d + d := by ring
    omega
  simp only [errSize, if_true]
  rw [show m + 1 - 1 = m by omega]
  generalize m * (errors / (m + 1)) = d at *
  omega

theorem split_tab {α : Type} (N a : Nat) (f : Nat → α) (h : a < N) :
    (List.range N).map f = (List.range a).map f ++ f a :: (List.range (N - a - 1)).map fun i => f (a + 1 + i) := by
  obtain ⟨m, rfl⟩ : ∃ m, N = a + (1 + m) := ⟨N - a - 1, by omega⟩
  rw [← tab_append]
  congr 1
  rw [← tab_append]
  simp [Nat.add_assoc, Nat.add_comm 1]

/-- The outcome of `preproc` in terms of polynomials. -/
theorem preproc_tab {ctx : Ctx F} (h : ctx.Good) (hd : 2 * (ctx.t + ctx.l - 1) < ctx.n) {m mb : Mat F}
    {desc : PreProcCount} {tp : PreTapes F}
    (ht : tp.Ok ctx.n ctx.t ctx.l m mb desc) {br bz bb : Nat}
    (hbr : numBatches (desc.numKeys + desc.randoms + 3 * desc.errors) m.rows.length = some br)
    (hbz : numBatches (desc.zeros + 2 * desc.errors) m.rows.length = some bz)
    (hbb : numBatches (desc.masks + 2 * desc.errors) mb.rows.length = some bb)
    (R Z B : Nat → F[X]) (hR : ∀ k < m.rows.length * br, (R k).degree < (ctx.t + ctx.l : Nat))
    (hZ : ∀ k < m.rows.length * bz, (Z k).degree < ctx.n)
    (hZ0 : ∀ k < m.rows.length * bz, ∀ x ∈ defaultPos ctx.n ctx.l, (Z k).eval x = 0)
    (hB : ∀ k < mb.rows.length * bb, (B k).degree < (ctx.t + ctx.l : Nat))
    (eR : rand ctx m (desc.numKeys + desc.randoms + 3 * desc.errors) tp.rand
      = some (tabShares ctx.n (m.rows.length * br) R))
    (eZ : zero ctx m (desc.zeros + 2 * desc.errors) tp.zero = some (tabShares ctx.n (m.rows.length * bz) Z))
    (eB : randbit ctx mb (desc.masks + 2 * desc.errors) tp.bits tp.rbit
      = some (tabShares ctx.n (mb.rows.length * bb) B)) :
    ∃ w : Nat → F[X], (∀ j < desc.errors, (w j).degree < (ctx.t + ctx.l : Nat)) ∧
      (∀ a < ctx.n, ∀ j < errSize desc.errors ctx.n a, ∀ x ∈ defaultPos ctx.n ctx.l,
        (w (a * (desc.errors / ctx.n) + j)).eval x = (B (2 * (a * (desc.errors / ctx.n)) + j)).eval x
          * (B (2 * (a * (desc.errors / ctx.n)) + errSize desc.errors ctx.n a + j)).eval x
          * (R (3 * (a * (desc.errors / ctx.n)) + errSize desc.errors ctx.n a + j)).eval x) ∧
      preproc ctx m mb desc tp = some ((List.range ctx.n).map fun i =>
        { masks := (List.range desc.masks).map fun j => (B (2 * desc.errors + j)).eval (ofU32 i)
          keys := ⟨desc.keys, (List.range desc.numKeys).map fun j => (R (3 * desc.errors + j)).eval (ofU32 i)⟩
          randoms := (List.range (m.rows.length * br - 3 * desc.errors - desc.numKeys)).map fun j =>
            (R (3 * desc.errors + (desc.numKeys + j))).eval (ofU32 i)
          zeros := (List.range (m.rows.length * bz - 2 * desc.errors)).map fun j =>
            (Z (2 * desc.errors + j)).eval (ofU32 i)
          errors := (List.range desc.errors).map fun j => (w j).eval (ofU32 i) }) := by
  have hn := h.posN
  have l1 := (numBatches_spec hbr).2.1.1
  have l2 := (numBatches_spec hbz).2.1.1
  have l3 := (numBatches_spec hbb).2.1.1
  have hlen : ((List.range ctx.n).map (errSize desc.errors ctx.n)).length = ctx.n := by simp
  have hzip : (((List.range ctx.n).map (errSize desc.errors ctx.n)).zip tp.errs).map (·.1)
      = (List.range ctx.n).map (errSize desc.errors ctx.n) := by
    rw [← List.unzip_fst, List.unzip_zip (by rw [hlen, ht.errs.1])]
  obtain ⟨w, w1, w2, w3⟩ := errorLoop_tab h hd (((List.range ctx.n).map (errSize desc.errors ctx.n)).zip tp.errs)
    (by
      intro e he
      obtain ⟨a, ha, rfl⟩ := List.mem_iff_getElem.1 he
      simp only [List.length_zip, List.length_map, List.length_range, ht.errs.1] at ha
      simp only [List.getElem_zip, List.getElem_map, List.getElem_range]
      exact ht.errs.2 a _ (List.getElem?_eq_getElem _))
    desc.errors (by rw [hzip, errSize_sum hn]) B R Z (fun j hj => hB j (by omega)) (fun j hj => hR j (by omega))
    (fun j hj => hZ j (by omega)) (fun j hj => hZ0 j (by omega))
  refine ⟨w, w1, ?_, ?_⟩
  · intro a ha j hj x hx
    have := w2 ((List.range a).map (errSize desc.errors ctx.n)) (errSize desc.errors ctx.n a)
      ((List.range (ctx.n - a - 1)).map fun i => errSize desc.errors ctx.n (a + 1 + i)) (by
        rw [hzip]
        exact split_tab _ _ _ ha) j hj x hx
    rw [errSize_prefix ha] at this
    exact this
  · unfold preproc
    rw [eR, eZ, eB]
    simp only [Option.bind_some]
    rw [drainAll_tab _ _ _ (by omega)]
    simp only [Option.bind_some]
    rw [drainAll_tab _ _ _ (by omega)]
    simp only [Option.bind_some]
    rw [drainAll_tab _ _ _ (by omega)]
    simp only [Option.bind_some]
    rw [errorBatches_eq hn]
    simp only [Option.bind_some]
    rw [if_pos (by rw [hlen, ht.errs.1]), w3]
    simp only [Option.bind_some]
    rw [drainAll_tab _ _ _ (by omega)]
    simp only [Option.bind_some]
    apply mapM_range_some
    intro i hi
    simp only [tabShares_row _ _ _ i hi, Option.bind_some, Option.map_some]
    rw [show Arr3.ofVec desc.keys (List.map (fun j => eval (ofU32 i) (R (3 * desc.errors + j))) (List.range desc.numKeys))
      = some (⟨desc.keys, List.map (fun j => eval (ofU32 i) (R (3 * desc.errors + j))) (List.range desc.numKeys)⟩ : Arr3 F)
      by unfold Arr3.ofVec; rw [if_pos (by simp [PreProcCount.numKeys])]]
    simp only [Option.bind_some]
    rw [take_tab _ _ _ (by omega)]

/-! ### Dummy material -/

theorem dummyPool_tab {n l k id pool : Nat} (hn : n + l ≤ CodeField.order F) (hk : k ≤ l + n) (hid : id < n)
    (inp : List (List F)) (hl : inp.length = k) (q : Nat → F[X])
    (hq : ∀ j < pool, (q j).degree < k)
    (hv : ∀ j < pool, ((defaultPos n l ++ sharePos n).take k).map (fun x => (q j).eval x) = col j inp) :
    dummyPool n l k id pool inp = some ((List.range pool).map fun j => (q j).eval (ofU32 id)) := by
  have hg := defaultPos_good (F := F) hn
  have hlen : (defaultPos n l ++ sharePos n : List F).length = l + n := by
    rw [List.length_append, defaultPos_length, sharePos_length]
  have hnd : ((defaultPos n l ++ sharePos n : List F).take k).Nodup := (allPos_nodup hg).sublist (List.take_sublist _ _)
  have hkl : ((defaultPos n l ++ sharePos n : List F).take k).length = k := by rw [List.length_take, hlen]; omega
  unfold dummyPool
  simp only []
  rw [show (sharePos n : List F)[id]? = some (ofU32 id) from getElem?_tab n _ id hid]
  simp only [Option.bind_some]
  rw [if_pos (by omega)]
  unfold Mat.mulRows
  rw [if_pos (by rw [hl]; exact hkl.symm)]
  simp only [Option.bind_some, lagrangeCoeffs, List.map_cons, List.map_nil, List.getElem?_cons_zero, Option.some.injEq]
  apply List.map_congr_left
  intro j hj
  have hj := List.mem_range.1 hj
  rw [← hv j hj]
  have := lagrangeCoeffs_mulVec _ [ofU32 id] hnd (q j) (by rw [hkl]; exact hq j hj)
  unfold Mat.mulVec lagrangeCoeffs at this
  simp only [List.length_map, if_true, List.map_cons, List.map_nil, Option.some.injEq, List.cons.injEq, and_true] at this
  exact this

omit [CodeField F] [DecidableEq F] in
theorem cycleTake_tab (P : Nat) (hP : 1 ≤ P) (f : Nat → F) (s num : Nat) :
    cycleTake ((List.range P).map f) s num = some ((List.range num).map fun i => f ((s + i) % P)) := by
  unfold cycleTake
  apply mapM_range_some
  intro i _
  rw [List.length_map, List.length_range]
  exact getElem?_tab P f _ (Nat.mod_lt _ (by omega))

theorem col_length {α : Type} (j : Nat) (rows : List (List α)) (h : ∀ r ∈ rows, j < r.length) :
    (col j rows).length = rows.length := by
  unfold col
  induction rows with
  | nil => rfl
  | cons r rows ih =>
    have h1 := h r (by simp)
    rw [List.filterMap_cons]
    simp only [h1, getElem?_pos, List.length_cons]
    rw [ih fun x hx => h x (List.mem_cons_of_mem _ hx)]

theorem col_append {α : Type} (j : Nat) (a b : List (List α)) : col j (a ++ b) = col j a ++ col j b := by
  unfold col; rw [List.filterMap_append]

theorem col_replicate {α : Type} (j l P : Nat) (x : α) (hj : j < P) :
    col j (List.replicate l (List.replicate P x)) = List.replicate l x := by
  unfold col
  induction l with
  | zero => rfl
  | succ l ih => rw [List.replicate_succ, List.filterMap_cons]; simp [hj, ih, List.replicate_succ]

/-- The pools of the dummy material. -/
theorem dummyPool_exists {n l k pool : Nat} (hn : n + l ≤ CodeField.order F) (hk : k ≤ l + n)
    (inp : List (List F)) (hl : inp.length = k) (hr : ∀ r ∈ inp, r.length = pool) :
    ∃ q : Nat → F[X], (∀ j < pool, (q j).degree < k) ∧
      (∀ j < pool, ((defaultPos n l ++ sharePos n).take k).map (fun x => (q j).eval x) = col j inp) ∧
      ∀ id < n, dummyPool n l k id pool inp = some ((List.range pool).map fun j => (q j).eval (ofU32 id)) := by
  have hlen : ((defaultPos n l ++ sharePos n : List F).take k).length = k := by
    rw [List.length_take, List.length_append, defaultPos_length, sharePos_length]; omega
  obtain ⟨q, hq⟩ := exists_family (P := fun j p => p.degree < (k : Nat) ∧
      ((defaultPos n l ++ sharePos n).take k).map (fun x => p.eval x) = col j inp) pool (by
    intro j hj
    have := exists_poly_of_values ((defaultPos n l ++ sharePos n : List F).take k)
      ((allPos_nodup (defaultPos_good hn)).sublist (List.take_sublist _ _)) (col j inp)
      (by rw [col_length _ _ (fun r h => by rw [hr r h]; exact hj), hl, hlen])
    rwa [hlen] at this)
  exact ⟨q, fun j hj => (hq j hj).1, fun j hj => (hq j hj).2, fun id hid =>
    dummyPool_tab hn hk hid inp hl q (fun j hj => (hq j hj).1) (fun j hj => (hq j hj).2)⟩

omit [DecidableEq F] in
theorem take_allPos {n l k : Nat} (hk : l ≤ k) (f : F → F) (vals : List F)
    (h : ((defaultPos n l ++ sharePos n).take k).map f = vals) : (defaultPos n l).map f = vals.take l := by
  rw [← h, ← List.map_take, List.take_take, min_eq_left hk, List.take_append_of_le_length (by rw [defaultPos_length]),
    List.take_of_length_le (by rw [defaultPos_length])]

/-! ### Sums of bits -/

omit [DecidableEq F] in
theorem bit_add {x y : F} (hx : x = 0 ∨ x = 1) (hy : y = 0 ∨ y = 1) : x + y = 0 ∨ x + y = 1 := by
  rcases hx with rfl | rfl <;> rcases hy with rfl | rfl <;> simp [CodeField.add_self]

omit [DecidableEq F] in
theorem bit_sum {m : Nat} (f : Nat → F) (h : ∀ i < m, f i = 0 ∨ f i = 1) :
    (∑ i ∈ Finset.range m, f i) = 0 ∨ (∑ i ∈ Finset.range m, f i) = 1 := by
  induction m with
  | zero => simp
  | succ m ih =>
    rw [Finset.sum_range_succ]
    exact bit_add (ih fun i hi => h i (by omega)) (h m (by omega))

omit [DecidableEq F] in
theorem bit_mul {x y : F} (hx : x = 0 ∨ x = 1) (hy : y = 0 ∨ y = 1) : x * y = 0 ∨ x * y = 1 := by
  rcases hx with rfl | rfl <;> rcases hy with rfl | rfl <;> simp

omit [DecidableEq F] in
theorem bitVal_bit (b : Bool) : bitVal F b = 0 ∨ bitVal F b = 1 := by cases b <;> simp [bitVal]

omit [DecidableEq F] in
theorem binary_getD {m : Mat F} (h : m.Binary) (r c : Nat) :
    (m.rows.getD r []).getD c 0 = 0 ∨ (m.rows.getD r []).getD c 0 = 1 := by
  by_cases h1 : r < m.rows.length
  · have h2 : m.rows.getD r [] = m.rows[r] := by simp [h1]
    rw [h2]
    by_cases h3 : c < m.rows[r].length
    · have h4 : m.rows[r].getD c 0 = m.rows[r][c] := by simp [h3]
      rw [h4]
      exact h _ (List.getElem_mem h1) _ (List.getElem_mem h3)
    · left; simp [List.getD_eq_getElem?_getD, List.getElem?_eq_none (Nat.le_of_not_lt h3)]
  · left; simp [List.getD_eq_getElem?_getD, List.getElem?_eq_none (Nat.le_of_not_lt h1)]

/-! ### Bijectivity -/

omit [DecidableEq F] in
theorem mulVec_iff {m : Mat F} (hm : m.WF) (x y : List F) (hx : x.length = m.ncols) (hy : y.length = m.rows.length) :
    m.mulVec x = some y ↔ ∀ r < m.rows.length,
      ∑ p ∈ Finset.range m.ncols, (m.rows.getD r []).getD p 0 * x.getD p 0 = y.getD r 0 := by
  have e : m.mulVec x = some ((List.range m.rows.length).map fun r =>
      ∑ p ∈ Finset.range m.ncols, (m.rows.getD r []).getD p 0 * x.getD p 0) := by
    conv_lhs => rw [mat_tab m hm]
    unfold Mat.mulVec
    rw [if_pos hx]
    simp only [List.map_map]
    congr 1
    apply List.map_congr_left
    intro r _
    simp only [Function.comp]
    rw [← dot_tab]
    congr 1
    conv_lhs => rw [← List.map_id x, map_tab x 0 id, hx]
    rfl
  rw [e]
  simp only [Option.some.injEq]
  constructor
  · intro h r hr
    rw [← h]
    simp [hr]
  · intro h
    apply List.ext_getElem (by simp [hy])
    intro r h1 h2
    simp only [List.length_map, List.length_range] at h1
    simp only [List.getElem_map, List.getElem_range]
    rw [h r h1]
    simp [h2]

/-- Entry `i` of the `b`-th tape of party `p`. -/
def tapeAt (tapes : List (List (List F))) (p b i : Nat) : F := ((tapes.getD p []).getD b []).getD i 0

omit [DecidableEq F] in
theorem tape_tab {n batches len : Nat} {tapes : List (List (List F))} (h : TapeShape n batches len tapes) :
    tapes = (List.range n).map fun p => (List.range batches).map fun b => (List.range len).map fun i => tapeAt tapes p b i := by
  apply List.ext_getElem (by simp [h.1])
  intro p h1 h2
  have hp := h.2 _ (List.getElem_mem h1)
  simp only [List.getElem_map, List.getElem_range]
  apply List.ext_getElem (by simp [hp.1])
  intro b h3 h4
  have hb := hp.2 _ (List.getElem_mem h3)
  simp only [List.getElem_map, List.getElem_range]
  apply List.ext_getElem (by simp [hb])
  intro i h5 h6
  simp [tapeAt, h1, h3, h5]

omit [CodeField F] [DecidableEq F] in
theorem tapeShape_tab (n batches len : Nat) (f : Nat → Nat → Nat → F) :
    TapeShape n batches len ((List.range n).map fun p => (List.range batches).map fun b => (List.range len).map fun i => f p b i) := by
  refine ⟨by simp, ?_⟩
  intro tp htp
  obtain ⟨p, _, rfl⟩ := List.mem_map.1 htp
  refine ⟨by simp, ?_⟩
  intro t ht
  obtain ⟨b, _, rfl⟩ := List.mem_map.1 ht
  simp

omit [DecidableEq F] in
theorem tapeAt_tab {n batches len : Nat} (f : Nat → Nat → Nat → F) (p b i : Nat) (hp : p < n) (hb : b < batches)
    (hi : i < len) :
    tapeAt ((List.range n).map fun p => (List.range batches).map fun b => (List.range len).map fun i => f p b i) p b i
      = f p b i := by
  simp [tapeAt, hp, hb, hi]

omit [DecidableEq F] in
/-- If the outputs of the matrix are a bijective function of the inputs in `J`, so are all outputs of a dealing
protocol of the tapes of the parties in `J`. -/
theorem tapes_bijective {n batches len : Nat} {m : Mat F} (hm : m.WF) (hn : m.ncols = n) (J : List Nat)
    (hS : ∀ base : List F, base.length = n → ∀ y : List F, y.length = m.rows.length →
      ∃! x : List F, x.length = n ∧ (∀ i, i ∉ J → x[i]? = base[i]?) ∧ m.mulVec x = some y)
    (base : List (List (List F))) (hbase : TapeShape n batches len base) (target : Nat → Nat → F) :
    ∃! tapes : List (List (List F)), TapeShape n batches len tapes ∧ (∀ p, p ∉ J → tapes[p]? = base[p]?) ∧
      ∀ i < len, ∀ k < m.rows.length * batches, ∑ p ∈ Finset.range n,
        (m.rows.getD (k / batches) []).getD p 0 * tapeAt tapes p (k % batches) i = target k i := by
  classical
  have hx : ∀ b i, ∃! x : List F, x.length = n ∧
      (∀ p, p ∉ J → x[p]? = ((List.range n).map fun p => tapeAt base p b i)[p]?) ∧
      m.mulVec x = some ((List.range m.rows.length).map fun r => target (r * batches + b) i) :=
    fun b i => hS _ (by simp) _ (by simp)
  choose x hx1 hx2 using fun b i => (hx b i)
  simp only [] at hx1 hx2
  refine ⟨(List.range n).map fun p => (List.range batches).map fun b => (List.range len).map fun i => (x b i).getD p 0,
    ⟨tapeShape_tab _ _ _ fun p b i => (x b i).getD p 0, ?_, ?_⟩, ?_⟩
  · intro p hp
    by_cases hpn : p < n
    · rw [getElem?_tab n _ p hpn]
      conv_rhs => rw [tape_tab hbase]
      rw [getElem?_tab n _ p hpn]
      congr 1
      apply List.map_congr_left
      intro b _
      apply List.map_congr_left
      intro i _
      have := (hx1 b i).2.1 p hp
      rw [getElem?_tab n _ p hpn] at this
      rw [List.getD_eq_getElem?_getD, this]
      rfl
    · rw [List.getElem?_eq_none (by simp; omega), List.getElem?_eq_none (by rw [hbase.1]; omega)]
  · intro i hi k hk
    have hb0 : 0 < batches := by
      rcases Nat.eq_zero_or_pos batches with h0 | h0
      · subst h0; simp at hk
      · exact h0
    have hb := Nat.mod_lt k hb0
    have hr : k / batches < m.rows.length := (Nat.div_lt_iff_lt_mul hb0).2 hk
    have h1 := (mulVec_iff hm (x (k % batches) i) _ (by rw [(hx1 _ _).1, hn]) (by simp)).1 (hx1 (k % batches) i).2.2 _ hr
    rw [hn] at h1
    rw [show ((List.range m.rows.length).map fun r => target (r * batches + k % batches) i).getD (k / batches) 0
      = target (k / batches * batches + k % batches) i by simp [hr], Nat.mul_comm, Nat.div_add_mod] at h1
    rw [← h1]
    apply Finset.sum_congr rfl
    intro p hp
    rw [tapeAt_tab (fun p b i => (x b i).getD p 0) p _ i (Finset.mem_range.1 hp) hb hi]
  · rintro tapes ⟨t1, t2, t3⟩
    rw [tape_tab t1]
    apply List.map_congr_left
    intro p hp
    apply List.map_congr_left
    intro b hb
    apply List.map_congr_left
    intro i hi
    have hp := List.mem_range.1 hp
    have hb := List.mem_range.1 hb
    have hi := List.mem_range.1 hi
    have := hx2 b i ((List.range n).map fun p => tapeAt tapes p b i) ⟨by simp, ?_, ?_⟩
    · rw [← this]; simp [hp]
    · intro q hq
      by_cases hqn : q < n
      · rw [getElem?_tab n _ q hqn, getElem?_tab n _ q hqn]
        congr 1
        unfold tapeAt
        rw [show tapes.getD q [] = base.getD q [] by
          rw [List.getD_eq_getElem?_getD, List.getD_eq_getElem?_getD, t2 q hq]]
      · rw [List.getElem?_eq_none (by simp; omega), List.getElem?_eq_none (by simp; omega)]
    · rw [mulVec_iff hm _ _ (by simp [hn]) (by simp), hn]
      intro r hr
      have hk : r * batches + b < m.rows.length * batches := by
        have : r * batches + batches ≤ m.rows.length * batches := by
          rw [← Nat.succ_mul]; exact Nat.mul_le_mul_right _ hr
        omega
      have h3 := t3 i hi (r * batches + b) hk
      rw [Nat.mul_comm r, Nat.mul_add_div (by omega), Nat.div_eq_of_lt hb, Nat.mul_add_mod, Nat.mod_eq_of_lt hb,
        Nat.add_zero] at h3
      rw [show ((List.range m.rows.length).map fun r => target (r * batches + b) i).getD r 0
        = target (r * batches + b) i by simp [hr], Nat.mul_comm r, ← h3]
      apply Finset.sum_congr rfl
      intro q hq
      have hq := Finset.mem_range.1 hq
      congr 1
      simp [hq]

omit [DecidableEq F] in
theorem deal_iff {n batches len : Nat} (m : Mat F) (hlen : len ≤ n) (q : Nat → Nat → F[X])
    (tapes : List (List (List F)))
    (hq : ∀ p < n, ∀ b < batches, ((sharePos n).take len).map (fun x => (q p b).eval x) = (tapes.getD p []).getD b [])
    (run : Option (List (List F)))
    (hrun : run = some (tabShares n (m.rows.length * batches) (dealPoly n batches m q))) (target : Nat → Nat → F) :
    (∀ i < len, ∀ k < m.rows.length * batches, ∑ p ∈ Finset.range n,
        (m.rows.getD (k / batches) []).getD p 0 * tapeAt tapes p (k % batches) i = target k i) ↔
      ∃ outs, run = some outs ∧ HasOutputs outs len (m.rows.length * batches) target := by
  have hq : ∀ i < len, ∀ k < m.rows.length * batches,
      (dealPoly n batches m q k).eval (ofU32 i) = ∑ p ∈ Finset.range n,
        (m.rows.getD (k / batches) []).getD p 0 * tapeAt tapes p (k % batches) i := by
    intro i hi k hk
    rw [dealPoly_eval]
    apply Finset.sum_congr rfl
    intro p hp
    congr 1
    have hb0 : 0 < batches := by
      rcases Nat.eq_zero_or_pos batches with h0 | h0
      · subst h0; simp at hk
      · exact h0
    have := hq p (Finset.mem_range.1 hp) _ (Nat.mod_lt k hb0)
    unfold tapeAt
    rw [← this, List.map_take, sharePos, List.map_map, take_tab _ _ _ (by omega)]
    simp [hi]
  constructor
  · intro hs
    refine ⟨_, hrun, ?_⟩
    intro i hi
    rw [tabShares_row _ _ _ _ (by omega)]
    congr 1
    apply List.map_congr_left
    intro k hk
    rw [hq i hi k (List.mem_range.1 hk), hs i hi k (List.mem_range.1 hk)]
  · rintro ⟨outs, ho, ht'⟩ i hi k hk
    rw [hrun] at ho
    cases ho
    have := ht' i hi
    rw [tabShares_row _ _ _ _ (by omega)] at this
    simp only [Option.some.injEq] at this
    have h2 := List.map_inj_left.1 this k (List.mem_range.2 hk)
    rw [← hq i hi k hk, h2]

omit [DecidableEq F] in
theorem superInv_shape {numInp numOut : Nat} (h1 : 1 ≤ numOut) (h2 : numInp < CodeField.order F) :
    ∃ m : Mat F, superInvMatrix numInp numOut = some m ∧ m.WF ∧ m.ncols = numInp ∧ m.rows.length = numOut := by
  refine ⟨_, by rw [superInvMatrix, rsGenCols_eq h1 h2]; rfl, ?_, rfl, by simp⟩
  intro r hr
  obtain ⟨i, _, rfl⟩ := List.mem_map.1 hr
  simp [rsPts]

omit [DecidableEq F] in
theorem vecZero_of_tab {n k : Nat} {pos : List F} {num : Nat} (q : Nat → F[X]) (hq : ∀ j < num, (q j).degree < k)
    (h0 : ∀ j < num, ∀ x ∈ pos, (q j).eval x = 0) : VecZero n k pos num (tabShares n num q) := by
  have := vecSharing_of_tab n k pos num q hq
  unfold VecZero
  rwa [show List.replicate num (List.replicate pos.length (0 : F)) = tabSecrets pos num q from ?_]
  symm
  unfold tabSecrets
  rw [List.eq_replicate_iff]
  refine ⟨by simp, ?_⟩
  intro v hv
  obtain ⟨k, hk, rfl⟩ := List.mem_map.1 hv
  have hk := List.mem_range.1 hk
  rw [List.eq_replicate_iff]
  refine ⟨by simp, ?_⟩
  intro y hy
  obtain ⟨x, hx, rfl⟩ := List.mem_map.1 hy
  exact h0 k hk x hx

omit [DecidableEq F] in
theorem tabShares_length_inj {n a b : Nat} (hn : 1 ≤ n) (f g : Nat → F[X]) (h : tabShares n a f = tabShares n b g) : a = b := by
  have := congrArg (fun l => l[0]?) h
  simp only [tabShares_row _ _ _ 0 hn, Option.some.injEq] at this
  simpa using congrArg List.length this

omit [DecidableEq F] in
theorem tabSecrets_get (pos : List F) (num : Nat) (q : Nat → F[X]) (j : Nat) (hj : j < num) :
    (tabSecrets pos num q)[j]? = some (pos.map fun x => (q j).eval x) := getElem?_tab num _ j hj

theorem errSize_bound {errors n a : Nat} (ha : a < n) : a * (errors / n) + errSize errors n a ≤ errors := by
  have hd := Nat.div_mul_le_self errors n
  generalize hdd : errors / n = d at *
  obtain ⟨m, rfl⟩ : ∃ m, n = a + 1 + m := ⟨n - a - 1, by omega⟩
  unfold errSize
  rw [hdd]
  have : d * (a + 1 + m) = a * d + d + m * d := by ring
  split
  · rename_i hm
    rw [show a + 1 + m - 1 = a by omega]
    omega
  · omega

end Verif
