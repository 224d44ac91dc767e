import Verif.PreMove
import Verif.EndToEndLemmas

/-!
# From bijections of the material to bijections of the randomness of `preproc`
-/

open Polynomial

namespace Verif

open CodeField (ofU32)

variable {F : Type} [CodeField F] [DecidableEq F]

/-! ## Secrets by entry -/

section
variable {ctx : Ctx F}

omit [DecidableEq F] in
theorem secrets_iff {x : List (List F)} {num i : Nat} (hx : x.length = num) (hl : ∀ y ∈ x, y.length = ctx.l) (hi : i < num) (q : F[X]) :
    (defaultPos ctx.n ctx.l).map (fun v => q.eval v) = x.getD i [] ↔ ∀ v < ctx.l, q.eval (ofU32 (ctx.n + v)) = at2 x i v := by
  have hlen : (x.getD i []).length = ctx.l := by
    rw [List.getD_eq_getElem?_getD, List.getElem?_eq_getElem (by omega), Option.getD_some]
    exact hl _ (List.getElem_mem _)
  constructor
  · intro h v hv
    exact default_eval h v hv
  · intro h
    apply List.ext_getElem (by rw [hlen]; simp [defaultPos])
    intro v h1 h2
    have hv : v < ctx.l := by omega
    simp only [defaultPos, List.getElem_map, List.getElem_range]
    rw [h v hv]
    unfold at2
    rw [List.getD_eq_getElem?_getD (l := x.getD i []), List.getElem?_eq_getElem h2, Option.getD_some]

omit [DecidableEq F] in
theorem garble_fit {l nr nz : Nat} {d : PreProcCount} {S : PreSecrets F} (h : S.Fit l d) :
    S.garble.Fit l { d with randoms := nr, zeros := nz } where
  masks := ⟨h.masks.1, fun x hx => (h.masks.2 x hx).1⟩
  keys := h.keys
  errors := by
    refine ⟨?_, fun x hx => ?_⟩
    · simp [PreSecrets.garble, h.bit0.1, h.bit1.1, h.scalars.1]
    · obtain ⟨i, hi, rfl⟩ := List.mem_iff_getElem.1 hx
      simp only [PreSecrets.garble, List.length_zipWith] at hi
      simp only [PreSecrets.garble, List.getElem_zipWith, vmul, List.length_zipWith]
      rw [(h.bit0.2 _ (List.getElem_mem _)).1, (h.bit1.2 _ (List.getElem_mem _)).1, h.scalars.2 _ (List.getElem_mem _)]
      simp

omit [DecidableEq F] in
theorem garble_errors {l : Nat} {d : PreProcCount} {S : PreSecrets F} (h : S.Fit l d) {k v : Nat} (hk : k < d.errors) (hv : v < l) :
    at2 S.garble.errors k v = at2 S.bit0 k v * at2 S.bit1 k v * at2 S.scalars k v := by
  have h0 : k < S.bit0.length := by rw [h.bit0.1]; exact hk
  have h1 : k < S.bit1.length := by rw [h.bit1.1]; exact hk
  have h2 : k < S.scalars.length := by rw [h.scalars.1]; exact hk
  have g0 := (h.bit0.2 _ (List.getElem_mem h0)).1
  have g1 := (h.bit1.2 _ (List.getElem_mem h1)).1
  have g2 := h.scalars.2 _ (List.getElem_mem h2)
  unfold at2 PreSecrets.garble
  simp only [List.getD_eq_getElem?_getD, List.getElem?_zipWith, List.getElem?_eq_getElem h0, List.getElem?_eq_getElem h1,
    List.getElem?_eq_getElem h2, Option.getD_some, vmul]
  rw [List.getElem?_eq_getElem (by omega), List.getElem?_eq_getElem (by omega), List.getElem?_eq_getElem (by omega)]
  rfl

end

/-! ## Worlds and polynomials -/

/-- The material with all random sharings and sharings of zero which a run provides. -/
def PreProcCount.with (d : PreProcCount) (nr nz : Nat) : PreProcCount := { d with randoms := nr, zeros := nz }

/-- The polynomials of a world. -/
noncomputable def GarbleWorld.polys {ctx : Ctx F} {d : PreProcCount} {M : GarbleSecrets F} (w : GarbleWorld ctx d M) : MatPolys F :=
  ⟨SharingsOf.poly w.masks, SharingsOf.poly w.keys, SharingsOf.poly w.errors, w.coins.g, w.coins.z⟩

section
variable {ctx : Ctx F} {d : PreProcCount} {nr nz : Nat} {S : PreSecrets F}

omit [DecidableEq F] in
theorem poly_some {num : Nat} {x : List (List F)} (s : SharingsOf ctx num x) {i : Nat} (hi : i < num) :
    SharingsOf.poly s i = (s ⟨i, hi⟩).1 := by
  unfold SharingsOf.poly
  rw [dif_pos hi]

omit [DecidableEq F] in
theorem polys_ok (hS : S.Fit ctx.l d) (w : GarbleWorld ctx (d.with nr nz) S.garble) : w.polys.Ok ctx d nr nz S where
  masks j hj := by
    show (SharingsOf.poly w.masks j).degree < _ ∧ ∀ v < ctx.l, (SharingsOf.poly w.masks j).eval _ = _
    rw [poly_some w.masks hj]
    exact ⟨(w.masks ⟨j, hj⟩).2.1, (secrets_iff hS.masks.1 (fun y hy => (hS.masks.2 y hy).1) hj _).1 (w.masks ⟨j, hj⟩).2.2⟩
  keys j hj := by
    show (SharingsOf.poly w.keys j).degree < _ ∧ ∀ v < ctx.l, (SharingsOf.poly w.keys j).eval _ = _
    rw [poly_some w.keys hj]
    exact ⟨(w.keys ⟨j, hj⟩).2.1, (secrets_iff hS.keys.1 hS.keys.2 hj _).1 (w.keys ⟨j, hj⟩).2.2⟩
  errors j hj := by
    show (SharingsOf.poly w.errors j).degree < _ ∧ ∀ v < ctx.l, (SharingsOf.poly w.errors j).eval _ = _
    rw [poly_some w.errors hj]
    have hf := garble_fit (nr := nr) (nz := nz) hS
    refine ⟨(w.errors ⟨j, hj⟩).2.1, fun v hv => ?_⟩
    rw [(secrets_iff hf.errors.1 hf.errors.2 hj _).1 (w.errors ⟨j, hj⟩).2.2 v hv, garble_errors hS hj hv]
  rand j hj := w.coins.g_degree hj
  zero j hj := ⟨w.coins.z_degree hj, w.coins.z_zero hj⟩

/-- The world of given polynomials. -/
noncomputable def MatPolys.world (w : MatPolys F) (hS : S.Fit ctx.l d) (hw : w.Ok ctx d nr nz S) :
    GarbleWorld ctx (d.with nr nz) S.garble where
  masks i := ⟨w.masks i, (hw.masks i i.2).1, (secrets_iff hS.masks.1 (fun y hy => (hS.masks.2 y hy).1) i.2 _).2 (hw.masks i i.2).2⟩
  keys i := ⟨w.keys i, (hw.keys i i.2).1, (secrets_iff hS.keys.1 hS.keys.2 i.2 _).2 (hw.keys i i.2).2⟩
  errors i := ⟨w.errors i, (hw.errors i i.2).1,
    (secrets_iff (garble_fit (nr := nr) (nz := nz) hS).errors.1 (garble_fit (nr := nr) (nz := nz) hS).errors.2 i.2 _).2 fun v hv => by
      rw [(hw.errors i i.2).2 v hv, garble_errors hS i.2 hv]⟩
  coins := ⟨fun i => ⟨w.rand i, hw.rand i i.2⟩, fun i => ⟨w.zero i, hw.zero i i.2⟩⟩

/-- The same polynomials. -/
structure MatPolys.Eq (d : PreProcCount) (nr nz : Nat) (w w' : MatPolys F) : Prop where
  masks : ∀ j < d.masks, w'.masks j = w.masks j
  keys : ∀ j < d.numKeys, w'.keys j = w.keys j
  errors : ∀ j < d.errors, w'.errors j = w.errors j
  rand : ∀ j < nr, w'.rand j = w.rand j
  zero : ∀ j < nz, w'.zero j = w.zero j

omit [DecidableEq F] in
theorem world_eq (w : MatPolys F) (hS : S.Fit ctx.l d) (hw : w.Ok ctx d nr nz S) (u : GarbleWorld ctx (d.with nr nz) S.garble)
    (h : MatPolys.Eq d nr nz u.polys w) : w.world hS hw = u := by
  obtain ⟨u1, u2, u3, u4, u5⟩ := u
  have e1 : (w.world hS hw).masks = u1 := by
    funext i
    apply Subtype.ext
    exact (h.masks i i.2).trans (poly_some u1 i.2)
  have e2 : (w.world hS hw).keys = u2 := by
    funext i
    apply Subtype.ext
    exact (h.keys i i.2).trans (poly_some u2 i.2)
  have e3 : (w.world hS hw).errors = u3 := by
    funext i
    apply Subtype.ext
    exact (h.errors i i.2).trans (poly_some u3 i.2)
  have e4 : (w.world hS hw).coins.rand = u4 := by
    funext i
    apply Subtype.ext
    refine (h.rand i i.2).trans ?_
    show Coins.g ⟨u4, u5⟩ i = _
    unfold Coins.g
    rw [dif_pos i.2]
  have e5 : (w.world hS hw).coins.zero = u5 := by
    funext i
    apply Subtype.ext
    refine (h.zero i i.2).trans ?_
    show Coins.z ⟨u4, u5⟩ i = _
    unfold Coins.z
    rw [dif_pos i.2]
  show (⟨(w.world hS hw).masks, (w.world hS hw).keys, (w.world hS hw).errors, ⟨(w.world hS hw).coins.rand, (w.world hS hw).coins.zero⟩⟩ :
    GarbleWorld ctx (d.with nr nz) S.garble) = _
  rw [e1, e2, e3, e4, e5]

omit [DecidableEq F] in
theorem world_polys (w : MatPolys F) (hS : S.Fit ctx.l d) (hw : w.Ok ctx d nr nz S) : MatPolys.Eq d nr nz (w.world hS hw).polys w where
  masks j hj := (poly_some (w.world hS hw).masks hj).symm
  keys j hj := (poly_some (w.world hS hw).keys hj).symm
  errors j hj := (poly_some (w.world hS hw).errors hj).symm
  rand j hj := by
    show _ = (w.world hS hw).coins.g j
    unfold Coins.g
    rw [dif_pos (show j < (d.with nr nz).randoms from hj)]
    rfl
  zero j hj := by
    show _ = (w.world hS hw).coins.z j
    unfold Coins.z
    rw [dif_pos (show j < (d.with nr nz).zeros from hj)]
    rfl

omit [CodeField F] [DecidableEq F] in
theorem tab_inj {α : Type} {n : Nat} {f g : Nat → α} (h : (List.range n).map f = (List.range n).map g) : ∀ i < n, f i = g i := by
  intro i hi
  have := congrArg (fun l => l[i]?) h
  simp only [getElem?_tab _ _ _ hi, Option.some.injEq] at this
  exact this

omit [DecidableEq F] in
/-- Equal material of a party. -/
theorem same_of_material {M M' : GarbleSecrets F} {w : GarbleWorld ctx (d.with nr nz) M} {w' : GarbleWorld ctx (d.with nr nz) M'} {q : Nat}
    (h : w'.material q = w.material q) : MatPolys.Same d nr nz q w.polys w'.polys := by
  have h1 : SharingsOf.shares w'.masks q = SharingsOf.shares w.masks q := congrArg PreProc.masks h
  have h2 : SharingsOf.shares w'.keys q = SharingsOf.shares w.keys q := congrArg (fun x : PreProc F => x.keys.flat) h
  have h3 : SharingsOf.shares w'.errors q = SharingsOf.shares w.errors q := congrArg PreProc.errors h
  have h4 : w'.coins.randoms q = w.coins.randoms q := congrArg PreProc.randoms h
  have h5 : w'.coins.zeros q = w.coins.zeros q := congrArg PreProc.zeros h
  rw [SharingsOf.shares_eq, SharingsOf.shares_eq] at h1 h2 h3
  rw [Coins.randoms_eq, Coins.randoms_eq] at h4
  rw [Coins.zeros_eq, Coins.zeros_eq] at h5
  exact ⟨tab_inj h1, tab_inj h2, tab_inj h3, tab_inj h4, tab_inj h5⟩

end

/-! ## The secrets of a run -/

section
variable {ctx : Ctx F}

omit [DecidableEq F] in
theorem entry_iff {x : List (List F)} {num i k N : Nat} (hx : x.length = num) (hl : ∀ y ∈ x, y.length = ctx.l) (hi : i < num) (hk : k < N)
    (q : Nat → F[X]) : x[i]? = (tabSecrets (defaultPos ctx.n ctx.l) N q)[k]? ↔ ∀ v < ctx.l, (q k).eval (ofU32 (ctx.n + v)) = at2 x i v := by
  rw [← secrets_iff hx hl hi]
  unfold tabSecrets
  rw [getElem?_tab _ _ _ hk, List.getD_eq_getElem?_getD, List.getElem?_eq_getElem (by omega), Option.getD_some, Option.some.injEq]
  exact eq_comm

omit [DecidableEq F] in
theorem slice_iff {x : List (List F)} {num off N : Nat} (hx : x.length = num) (hl : ∀ y ∈ x, y.length = ctx.l) (hN : off + num ≤ N)
    (q : Nat → F[X]) : x = ((tabSecrets (defaultPos ctx.n ctx.l) N q).drop off).take num ↔
      ∀ j < num, ∀ v < ctx.l, (q (off + j)).eval (ofU32 (ctx.n + v)) = at2 x j v := by
  unfold tabSecrets
  rw [drop_tab, take_tab _ _ _ (by omega)]
  constructor
  · intro h j hj
    refine (entry_iff hx hl hj (N := N) (by omega) q).1 ?_
    rw [h, getElem?_tab _ _ _ hj]
    unfold tabSecrets
    rw [getElem?_tab _ _ _ (by omega)]
  · intro h
    apply List.ext_getElem?
    intro j
    by_cases hj : j < num
    · rw [(entry_iff hx hl hj (N := N) (by omega) q).2 (h j hj), getElem?_tab _ _ _ hj]
      unfold tabSecrets
      rw [getElem?_tab _ _ _ (by omega)]
    · rw [List.getElem?_eq_none (by omega), List.getElem?_eq_none (by simp; omega)]

end

section run
variable {c : Codec F} {ctx : Ctx F} {m mb : Mat F} {d : PreProcCount} {id : ProtocolID} {ids : List ProtocolID} {br bz bb : Nat}
  (H : PreHyp c ctx m mb d id ids br bz bb)
include H

/-- The secrets of a run are those of its sharings. -/
theorem PreHyp.hasSecrets {tp : PreTapes F} (ht : tp.Ok ctx.n ctx.t ctx.l m mb d) {S : PreSecrets F} (hS : S.Fit ctx.l d) :
    HasSecrets ctx m mb d tp S ↔ (tp.res ctx m mb br bz bb).Has ctx d (errSizes d ctx.n) S := by
  have lR := H.leR
  have lB := H.leB
  have hle := H.good.le
  have hfit := H.good.fit
  have hr := rand_explicit H.good H.mat.1 H.mat.2.1 H.br (ht.rand br H.br)
  have hb := randbit_explicit H.good H.matb.1 H.matb.2.1 H.bb (ht.bits bb H.bb) (ht.rbit bb H.bb)
  have vr := vecSharing_of_tab ctx.n (ctx.t + ctx.l) (defaultPos ctx.n ctx.l) _ _ (H.degR tp)
  have vb := vecSharing_of_tab ctx.n (ctx.t + ctx.l) (defaultPos ctx.n ctx.l) _ _ (H.degB tp)
  have fm := slice_iff (ctx := ctx) (N := mb.rows.length * bb) (off := 2 * d.errors) hS.masks.1 (fun y hy => (hS.masks.2 y hy).1) (by omega)
    (tp.outB ctx mb bb)
  have fk := slice_iff (ctx := ctx) (N := m.rows.length * br) (off := 3 * d.errors) hS.keys.1 hS.keys.2 (by omega) (tp.outR ctx m br)
  have f0 := fun i k (hi : i < d.errors) (hk : k < mb.rows.length * bb) =>
    entry_iff (ctx := ctx) hS.bit0.1 (fun y hy => (hS.bit0.2 y hy).1) hi hk (tp.outB ctx mb bb)
  have f1 := fun i k (hi : i < d.errors) (hk : k < mb.rows.length * bb) =>
    entry_iff (ctx := ctx) hS.bit1.1 (fun y hy => (hS.bit1.2 y hy).1) hi hk (tp.outB ctx mb bb)
  have f2 := fun i k (hi : i < d.errors) (hk : k < m.rows.length * br) =>
    entry_iff (ctx := ctx) hS.scalars.1 hS.scalars.2 hi hk (tp.outR ctx m br)
  have loc : ∀ a < ctx.n, ∀ j < errSize d.errors ctx.n a, ∃ k, k = a * (d.errors / ctx.n) + j ∧ k < d.errors ∧
      errIdx 2 (errSizes d ctx.n) 0 k = 2 * (a * (d.errors / ctx.n)) + j ∧
      errIdx 2 (errSizes d ctx.n) 1 k = 2 * (a * (d.errors / ctx.n)) + errSize d.errors ctx.n a + j ∧
      errIdx 3 (errSizes d ctx.n) 1 k = 3 * (a * (d.errors / ctx.n)) + errSize d.errors ctx.n a + j := by
    intro a ha j hj
    have e1 := errSizes_get (d := d) ha
    have e2 := errSizes_preSum (d := d) ha
    have e3 := H.idx_lt ha
    rw [(sizes_get (d := d) ha).2] at e3
    refine ⟨preSum (errSizes d ctx.n) a + j, by rw [e2], by omega, ?_, ?_, ?_⟩ <;> rw [errIdx_at e1 hj, e2] <;> omega
  have bnd : ∀ k < d.errors, errIdx 2 (errSizes d ctx.n) 0 k < mb.rows.length * bb ∧ errIdx 2 (errSizes d ctx.n) 1 k < mb.rows.length * bb ∧
      errIdx 3 (errSizes d ctx.n) 1 k < m.rows.length * br := by
    intro k hk
    have g1 := errIdx_lt' H.sizes_sum (c := 2) (r := 0) (by omega) hk
    have g2 := errIdx_lt' H.sizes_sum (c := 2) (r := 1) (by omega) hk
    have g3 := errIdx_lt' H.sizes_sum (c := 3) (r := 1) (by omega) hk
    refine ⟨?_, ?_, ?_⟩ <;> omega
  constructor
  · rintro ⟨ro, rs, bo, bs, h1, h2, h3, h4, h5, h6, -, -, -, h10⟩
    cases hr.symm.trans h1
    cases hb.symm.trans h3
    obtain rfl := vecSharing_unique (by omega) hle H.good.posN h2 vr
    obtain rfl := vecSharing_unique (by omega) hle H.good.posN h4 vb
    have split : ∀ k < d.errors, ∃ a j, a < ctx.n ∧ j < errSize d.errors ctx.n a ∧ k = a * (d.errors / ctx.n) + j := by
      intro k hk
      obtain ⟨a, x, j, g1, g2, rfl, -⟩ := locate_spec (s := errSizes d ctx.n) (k := k) (by rw [H.sizes_sum]; exact hk)
      have ha : a < ctx.n := by
        have := (List.getElem?_eq_some_iff.1 g1).1
        simpa [errSizes] using this
      rw [errSizes_get ha, Option.some.injEq] at g1
      exact ⟨a, j, ha, by omega, by rw [errSizes_preSum ha]⟩
    refine ⟨fm.1 h5, fk.1 h6, fun k hk => ?_, fun k hk => ?_, fun k hk => ?_⟩
    all_goals
      obtain ⟨a, j, ha, hj, rfl⟩ := split k hk
      obtain ⟨k', rfl, _, e0, e1, e2⟩ := loc a ha j hj
      obtain ⟨b0, b1, b2⟩ := bnd _ hk
    · refine (f0 _ _ hk b0).1 ?_
      rw [e0]
      exact (h10 a ha j hj).1
    · refine (f1 _ _ hk b1).1 ?_
      rw [e1]
      exact (h10 a ha j hj).2.1
    · refine (f2 _ _ hk b2).1 ?_
      rw [e2]
      exact (h10 a ha j hj).2.2
  · intro h
    refine ⟨_, _, _, _, hr, vr, hb, vb, fm.2 h.masks, fk.2 h.keys, hS.bit0.1, hS.bit1.1, hS.scalars.1, fun a ha j hj => ?_⟩
    obtain ⟨k, rfl, hk, e0, e1, e2⟩ := loc a ha j hj
    obtain ⟨b0, b1, b2⟩ := bnd _ hk
    rw [← e0, ← e1, ← e2]
    exact ⟨(f0 _ _ hk b0).2 (h.bit0 _ hk), (f1 _ _ hk b1).2 (h.bit1 _ hk), (f2 _ _ hk b2).2 (h.scalars _ hk)⟩

end run

/-! ## Sharings in range -/

/-- Sharings which are the same in range. -/
structure Outs.Eq (NR NZ NB : Nat) (o o' : Outs F) : Prop where
  R : ∀ k < NR, o'.R k = o.R k
  Z : ∀ k < NZ, o'.Z k = o.Z k
  B : ∀ k < NB, o'.B k = o.B k

section congr
variable {ctx : Ctx F} {d : PreProcCount} {s : List Nat} {errs : List (ErrTapes F)} {Cs : Finset Nat} {S S' : PreSecrets F}
  (hs : s.sum = d.errors) {NR NZ NB : Nat} (lR : 3 * d.errors + d.numKeys ≤ NR) (lZ : 2 * d.errors ≤ NZ) (lB : 2 * d.errors + d.masks ≤ NB)
  {o o' : Outs F} (ho : Outs.Eq NR NZ NB o o')
include hs lR lZ lB ho

omit [DecidableEq F] in
theorem congr_at {k : Nat} (hk : k < d.errors) :
    (o'.B (errIdx 2 s 0 k) = o.B (errIdx 2 s 0 k) ∧ o'.B (errIdx 2 s 1 k) = o.B (errIdx 2 s 1 k)) ∧
    (o'.R (errIdx 3 s 0 k) = o.R (errIdx 3 s 0 k) ∧ o'.R (errIdx 3 s 1 k) = o.R (errIdx 3 s 1 k) ∧
      o'.R (errIdx 3 s 2 k) = o.R (errIdx 3 s 2 k)) ∧
    o'.Z (errIdx 2 s 0 k) = o.Z (errIdx 2 s 0 k) ∧ o'.Z (errIdx 2 s 1 k) = o.Z (errIdx 2 s 1 k) := by
  have a0 := errIdx_lt' hs (c := 2) (r := 0) (by omega) hk
  have a1 := errIdx_lt' hs (c := 2) (r := 1) (by omega) hk
  have b0 := errIdx_lt' hs (c := 3) (r := 0) (by omega) hk
  have b1 := errIdx_lt' hs (c := 3) (r := 1) (by omega) hk
  have b2 := errIdx_lt' hs (c := 3) (r := 2) (by omega) hk
  exact ⟨⟨ho.B _ (by omega), ho.B _ (by omega)⟩, ⟨ho.R _ (by omega), ho.R _ (by omega), ho.R _ (by omega)⟩,
    ho.Z _ (by omega), ho.Z _ (by omega)⟩

omit [DecidableEq F] in
theorem congr_open1 {k : Nat} (hk : k < d.errors) : o'.open1 s k = o.open1 s k := by
  obtain ⟨⟨a0, a1⟩, ⟨b0, b1, b2⟩, c0, c1⟩ := congr_at hs lR lZ lB ho hk
  unfold Outs.open1
  rw [a0, a1, b0, c0]

omit [DecidableEq F] in
theorem congr_mid {k : Nat} (hk : k < d.errors) : o'.mid ctx s errs k = o.mid ctx s errs k := by
  obtain ⟨⟨a0, a1⟩, ⟨b0, b1, b2⟩, c0, c1⟩ := congr_at hs lR lZ lB ho hk
  unfold Outs.mid midPoly
  rw [a0, a1, b0, c0]

omit [DecidableEq F] in
theorem congr_open2 {k : Nat} (hk : k < d.errors) : o'.open2 ctx s errs k = o.open2 ctx s errs k := by
  obtain ⟨⟨a0, a1⟩, ⟨b0, b1, b2⟩, c0, c1⟩ := congr_at hs lR lZ lB ho hk
  unfold Outs.open2
  rw [congr_mid hs lR lZ lB ho hk, b1, b2, c1]

omit [DecidableEq F] in
theorem congr_err {k : Nat} (hk : k < d.errors) : o'.err ctx s errs k = o.err ctx s errs k := by
  obtain ⟨⟨a0, a1⟩, ⟨b0, b1, b2⟩, c0, c1⟩ := congr_at hs lR lZ lB ho hk
  have := congr_mid (ctx := ctx) (errs := errs) hs lR lZ lB ho hk
  unfold Outs.mid at this
  unfold Outs.err errPoly
  rw [this, b1, b2, c1]

omit [DecidableEq F] in
theorem congr_mat : MatPolys.Eq d (NR - 3 * d.errors - d.numKeys) (NZ - 2 * d.errors) (o.mat ctx d s errs) (o'.mat ctx d s errs) where
  masks j hj := ho.B _ (by omega)
  keys j hj := ho.R _ (by omega)
  errors j hj := congr_err hs lR lZ lB ho hj
  rand j hj := ho.R _ (by omega)
  zero j hj := ho.Z _ (by omega)

omit [DecidableEq F] in
theorem congr_has (h : o.Has ctx d s S) : o'.Has ctx d s S where
  masks j hj v hv := by rw [ho.B _ (by omega), h.masks j hj v hv]
  keys j hj v hv := by rw [ho.R _ (by omega), h.keys j hj v hv]
  bit0 k hk v hv := by rw [(congr_at hs lR lZ lB ho hk).1.1, h.bit0 k hk v hv]
  bit1 k hk v hv := by rw [(congr_at hs lR lZ lB ho hk).1.2, h.bit1 k hk v hv]
  scalars k hk v hv := by rw [(congr_at hs lR lZ lB ho hk).2.1.2.1, h.scalars k hk v hv]

omit [DecidableEq F] in
theorem congr_move {w w' : MatPolys F} (hw : MatPolys.Eq d (NR - 3 * d.errors - d.numKeys) (NZ - 2 * d.errors) w w') :
    Outs.Eq NR NZ NB (o.move ctx d s errs Cs S S' w) (o'.move ctx d s errs Cs S S' w') where
  R i hi := by
    refine casesR hs (fun i => (o'.move ctx d s errs Cs S S' w').R i = (o.move ctx d s errs Cs S S' w).R i) (N := NR)
      (fun k hk => ?_) (fun k hk => ?_) (fun k hk => ?_) (fun j hj => ?_) (fun j hj => ?_) i hi
    · rw [move_mask1 hs hk, move_mask1 hs hk, (congr_at hs lR lZ lB ho hk).2.1.1]
    · rw [move_scalar hs hk, move_scalar hs hk, (congr_at hs lR lZ lB ho hk).2.1.2.1]
    · rw [move_mask2 hs hk, move_mask2 hs hk, (congr_at hs lR lZ lB ho hk).2.1.2.2, congr_err hs lR lZ lB ho hk, hw.errors k hk]
    · rw [move_keys hj, move_keys hj, hw.keys j hj]
    · rw [move_rand, move_rand, hw.rand j hj]
  Z i hi := by
    refine casesZ hs (fun i => (o'.move ctx d s errs Cs S S' w').Z i = (o.move ctx d s errs Cs S S' w).Z i) (N := NZ)
      (fun k hk => ?_) (fun k hk => ?_) (fun j hj => ?_) i hi
    · obtain ⟨⟨a0, a1⟩, ⟨b0, b1, b2⟩, c0, c1⟩ := congr_at hs lR lZ lB ho hk
      rw [move_zero1 hs hk, move_zero1 hs hk, congr_open1 hs lR lZ lB ho hk, a0, a1, b0]
    · obtain ⟨⟨a0, a1⟩, ⟨b0, b1, b2⟩, c0, c1⟩ := congr_at hs lR lZ lB ho hk
      rw [move_zero2 hs hk, move_zero2 hs hk, congr_open2 hs lR lZ lB ho hk, congr_mid hs lR lZ lB ho hk, b1, b2,
        congr_err hs lR lZ lB ho hk, hw.errors k hk]
    · rw [move_zero, move_zero, hw.zero j hj]
  B i hi := by
    revert hi
    refine casesB hs (fun i => i < NB → (o'.move ctx d s errs Cs S S' w').B i = (o.move ctx d s errs Cs S S' w).B i)
      (fun k hk _ => ?_) (fun k hk _ => ?_) (fun j hj _ => ?_) (fun i hi hi' => ?_) i
    · rw [move_bit0 hs hk, move_bit0 hs hk, (congr_at hs lR lZ lB ho hk).1.1]
    · rw [move_bit1 hs hk, move_bit1 hs hk, (congr_at hs lR lZ lB ho hk).1.2]
    · rw [move_masks hj, move_masks hj, hw.masks j hj]
    · rw [move_rest hi, move_rest hi, ho.B i hi']

end congr

/-! ## The lift -/

section lift
variable {c : Codec F} {ctx : Ctx F} {m mb : Mat F} {d : PreProcCount} {id : ProtocolID} {ids : List ProtocolID} {br bz bb : Nat}
  (H : PreHyp c ctx m mb d id ids br bz bb)

/-- All random sharings and sharings of zero which a run provides. -/
def PreProcCount.full (d : PreProcCount) (m : Mat F) (br bz : Nat) : PreProcCount :=
  d.with (m.rows.length * br - 3 * d.errors - d.numKeys) (m.rows.length * bz - 2 * d.errors)

include H in
theorem PreHyp.bounds : 3 * d.errors + d.numKeys ≤ m.rows.length * br ∧ 2 * d.errors ≤ m.rows.length * bz ∧
    2 * d.errors + d.masks ≤ mb.rows.length * bb := by
  have := H.leR
  have := H.leZ
  have := H.leB
  refine ⟨?_, ?_, ?_⟩ <;> omega

/-- The material of a run as polynomials. -/
noncomputable def PreTapes.mat (ctx : Ctx F) (m mb : Mat F) (d : PreProcCount) (br bz bb : Nat) (tp : PreTapes F) : MatPolys F :=
  (tp.res ctx m mb br bz bb).mat ctx d (errSizes d ctx.n) tp.errs

include H in
theorem PreHyp.mat_ok {S : PreSecrets F} (hS : S.Fit ctx.l d) (x : TapesWith ctx m mb d S) :
    (x.1.mat ctx m mb d br bz bb).Ok ctx d (m.rows.length * br - 3 * d.errors - d.numKeys) (m.rows.length * bz - 2 * d.errors) S :=
  Verif.mat_ok H.good H.sizes_sum H.bounds.1 H.bounds.2.1 H.bounds.2.2 (H.res_ok x.1) ((H.hasSecrets x.2.1 hS).1 x.2.2)

/-- The material of a run. -/
noncomputable def PreHyp.world {S : PreSecrets F} (hS : S.Fit ctx.l d) (x : TapesWith ctx m mb d S) :
    GarbleWorld ctx (d.full m br bz) S.garble := MatPolys.world _ hS (H.mat_ok hS x)

theorem PreHyp.world_material {S : PreSecrets F} (hS : S.Fit ctx.l d) (x : TapesWith ctx m mb d S) (p : Nat) :
    (H.world hS x).material p = x.1.material ctx m mb d br bz bb p := by
  have e := world_polys _ hS (H.mat_ok hS x)
  have E : ∀ {num : Nat} {f g : Nat → F[X]}, (∀ j < num, f j = g j) →
      ((List.range num).map fun j => (g j).eval (ofU32 p)) = (List.range num).map fun j => (f j).eval (ofU32 p) := fun h =>
    List.map_congr_left fun j hj => by rw [h j (List.mem_range.1 hj)]
  show (⟨SharingsOf.shares (H.world hS x).masks p, ⟨d.keys, SharingsOf.shares (H.world hS x).keys p⟩, (H.world hS x).coins.randoms p,
    (H.world hS x).coins.zeros p, SharingsOf.shares (H.world hS x).errors p⟩ : PreProc F) = _
  rw [SharingsOf.shares_eq, SharingsOf.shares_eq, SharingsOf.shares_eq, Coins.randoms_eq, Coins.zeros_eq]
  unfold PreTapes.material preMaterial
  congr 1
  · exact E e.masks
  · exact congrArg (Arr3.mk d.keys) (E e.keys)
  · exact E e.rand
  · exact E e.zero
  · exact E e.errors

variable {Cs : Finset Nat} (hC : Coalition ctx Cs) {NR NB : Nat → Nat → F} (hR : RightInv Cs m NR) (hB : RightInv Cs mb NB)
  (hbit : ∀ p s, IsBit (NB p s)) {S S' : PreSecrets F} (hS : S.Fit ctx.l d) (hS' : S'.Fit ctx.l d)

/-- The moved sharings. -/
noncomputable def moved (ctx : Ctx F) (m mb : Mat F) (d : PreProcCount) (br bz bb : Nat) (Cs : Finset Nat) (S S' : PreSecrets F) (tp : PreTapes F)
    (w : MatPolys F) : Outs F :=
  (tp.res ctx m mb br bz bb).move ctx d (errSizes d ctx.n) tp.errs Cs S S' w

include H hC hS hS' in
theorem PreHyp.moved_ok (x : TapesWith ctx m mb d S) (w : GarbleWorld ctx (d.full m br bz) S'.garble) :
    (moved ctx m mb d br bz bb Cs S S' x.1 w.polys).Ok ctx (m.rows.length * br) (m.rows.length * bz) (mb.rows.length * bb) :=
  move_ok' H.good H.mult hC H.sizes_sum H.bounds.1 H.bounds.2.1 H.bounds.2.2 (H.res_ok x.1) ((H.hasSecrets x.2.1 hS).1 x.2.2)
    (polys_ok hS' w) hS'

/-- The new randomness. -/
noncomputable def retaped (ctx : Ctx F) (m mb : Mat F) (d : PreProcCount) (br bz bb : Nat) (Cs : Finset Nat) (NR NB : Nat → Nat → F)
    (S S' : PreSecrets F) (tp : PreTapes F) (w : MatPolys F) : PreTapes F :=
  tp.retape ctx m mb br bz bb NR NB (moved ctx m mb d br bz bb Cs S S' tp w)

section
variable (x : TapesWith ctx m mb d S) (w : GarbleWorld ctx (d.full m br bz) S'.garble)

include H hC hS hS' hR in
theorem PreHyp.retaped_R {k : Nat} (hk : k < m.rows.length * br) :
    (retaped ctx m mb d br bz bb Cs NR NB S S' x.1 w.polys).outR ctx m br k = (moved ctx m mb d br bz bb Cs S S' x.1 w.polys).R k :=
  H.retape_outR hR (H.moved_ok hC hS hS' x w) hk

include H hC hS hS' hR in
theorem PreHyp.retaped_Z {k : Nat} (hk : k < m.rows.length * bz) :
    (retaped ctx m mb d br bz bb Cs NR NB S S' x.1 w.polys).outZ ctx m bz k = (moved ctx m mb d br bz bb Cs S S' x.1 w.polys).Z k :=
  H.retape_outZ hR (H.moved_ok hC hS hS' x w) hk

include H hC hS hS' hB hbit in
theorem PreHyp.retaped_B {k : Nat} (hk : k < mb.rows.length * bb) :
    (retaped ctx m mb d br bz bb Cs NR NB S S' x.1 w.polys).outB ctx mb bb k = (moved ctx m mb d br bz bb Cs S S' x.1 w.polys).B k :=
  H.retape_outB hB hbit (H.moved_ok hC hS hS' x w) hk

include H in
theorem PreHyp.idx {k : Nat} (hk : k < d.errors) :
    (∀ r < 2, errIdx 2 (errSizes d ctx.n) r k < m.rows.length * bz ∧ errIdx 2 (errSizes d ctx.n) r k < mb.rows.length * bb) ∧
    ∀ r < 3, errIdx 3 (errSizes d ctx.n) r k < m.rows.length * br := by
  have b := H.bounds
  refine ⟨fun r hr => ?_, fun r hr => ?_⟩
  · have := errIdx_lt' H.sizes_sum (c := 2) hr hk
    exact ⟨by omega, by omega⟩
  · have := errIdx_lt' H.sizes_sum (c := 3) hr hk
    omega

include H hC hS hS' hR hB hbit in
theorem PreHyp.retaped_res : Outs.Eq (m.rows.length * br) (m.rows.length * bz) (mb.rows.length * bb)
    (moved ctx m mb d br bz bb Cs S S' x.1 w.polys) ((retaped ctx m mb d br bz bb Cs NR NB S S' x.1 w.polys).res ctx m mb br bz bb) where
  R _ hk := H.retaped_R hC hR hS hS' x w hk
  Z _ hk := H.retaped_Z hC hR hS hS' x w hk
  B _ hk := H.retaped_B hC hB hbit hS hS' x w hk

omit [CodeField F] [DecidableEq F] in
theorem matEq_symm {F : Type} [CodeField F] {d : PreProcCount} {nr nz : Nat} {w w' : MatPolys F} (h : MatPolys.Eq d nr nz w w') :
    MatPolys.Eq d nr nz w' w :=
  ⟨fun j hj => (h.masks j hj).symm, fun j hj => (h.keys j hj).symm, fun j hj => (h.errors j hj).symm, fun j hj => (h.rand j hj).symm,
    fun j hj => (h.zero j hj).symm⟩

omit [CodeField F] [DecidableEq F] in
theorem matEq_trans {F : Type} [CodeField F] {d : PreProcCount} {nr nz : Nat} {w w' w'' : MatPolys F} (h : MatPolys.Eq d nr nz w w')
    (h' : MatPolys.Eq d nr nz w' w'') : MatPolys.Eq d nr nz w w'' :=
  ⟨fun j hj => (h'.masks j hj).trans (h.masks j hj), fun j hj => (h'.keys j hj).trans (h.keys j hj),
    fun j hj => (h'.errors j hj).trans (h.errors j hj), fun j hj => (h'.rand j hj).trans (h.rand j hj),
    fun j hj => (h'.zero j hj).trans (h.zero j hj)⟩

include H hC hS hS' hR hB hbit in
theorem PreHyp.retaped_with : (retaped ctx m mb d br bz bb Cs NR NB S S' x.1 w.polys).Ok ctx.n ctx.t ctx.l m mb d ∧
    HasSecrets ctx m mb d (retaped ctx m mb d br bz bb Cs NR NB S S' x.1 w.polys) S' := by
  have hok : (retaped ctx m mb d br bz bb Cs NR NB S S' x.1 w.polys).Ok ctx.n ctx.t ctx.l m mb d := retape_ok H x.2.1
  refine ⟨hok, (H.hasSecrets hok hS').2 ?_⟩
  obtain ⟨b1, b2, b3⟩ := H.bounds
  exact congr_has H.sizes_sum b1 b2 b3 (H.retaped_res hC hR hB hbit hS hS' x w)
    (move_has H.good hC H.sizes_sum ((H.hasSecrets x.2.1 hS).1 x.2.2) (polys_ok hS' w))

/-- The run with the other secrets. -/
noncomputable def PreHyp.retarget : TapesWith ctx m mb d S' :=
  ⟨retaped ctx m mb d br bz bb Cs NR NB S S' x.1 w.polys, H.retaped_with hC hR hB hbit hS hS' x w⟩

/-- Its material is the given one. -/
theorem PreHyp.retarget_world : H.world hS' (H.retarget hC hR hB hbit hS hS' x w) = w := by
  obtain ⟨b1, b2, b3⟩ := H.bounds
  refine world_eq _ hS' _ w (matEq_trans ?_ (congr_mat H.sizes_sum b1 b2 b3 (H.retaped_res hC hR hB hbit hS hS' x w)))
  exact ⟨fun j hj => move_masks (errs := x.1.errs) hj, fun j hj => move_keys (errs := x.1.errs) hj, fun k hk => move_err H.sizes_sum hk,
    fun j _ => move_rand (errs := x.1.errs) j, fun j _ => move_zero (errs := x.1.errs) j⟩

/-- Going back. -/
theorem PreHyp.retarget_back :
    H.retarget hC hR hB hbit hS' hS (H.retarget hC hR hB hbit hS hS' x w) (H.world hS x) = x := by
  obtain ⟨b1, b2, b3⟩ := H.bounds
  apply Subtype.ext
  have e := congr_move (ctx := ctx) (errs := x.1.errs) (Cs := Cs) (S := S') (S' := S) H.sizes_sum b1 b2 b3 (H.retaped_res hC hR hB hbit hS hS' x w)
    (matEq_symm (world_polys _ hS (H.mat_ok hS x)))
  refine H.retape_back hR hB hbit (H.moved_ok hC hS hS' x w) x.2.1 (fun k hk => (e.R k hk).trans ?_) (fun k hk => (e.Z k hk).trans ?_)
    fun k hk => (e.B k hk).trans ?_
  · exact move_backR H.sizes_sum k
  · exact move_backZ H.sizes_sum k
  · exact move_backB H.sizes_sum k

/-- The coalition sees the same if its material is the same. -/
theorem PreHyp.retarget_view {q : Nat} (hq : q ∈ Cs) (hsame : w.material q = (H.world hS x).material q) :
    preprocView c ctx m mb d (H.retarget hC hR hB hbit hS hS' x w).1 id q = preprocView c ctx m mb d x.1 id q := by
  obtain ⟨b1, b2, b3⟩ := H.bounds
  have hqn := hC.parties q hq
  have hres := H.retaped_res hC hR hB hbit hS hS' x w
  have hsm := same_of_material hsame
  have hwp := world_polys _ hS (H.mat_ok hS x)
  have hsm' : MatPolys.Same d (m.rows.length * br - 3 * d.errors - d.numKeys) (m.rows.length * bz - 2 * d.errors) q
      (x.1.mat ctx m mb d br bz bb) w.polys :=
    ⟨fun j hj => (hsm.masks j hj).trans (congrArg (eval (ofU32 q)) (hwp.masks j hj).symm), fun j hj => (hsm.keys j hj).trans (congrArg (eval (ofU32 q)) (hwp.keys j hj).symm),
      fun j hj => (hsm.errors j hj).trans (congrArg (eval (ofU32 q)) (hwp.errors j hj).symm), fun j hj => (hsm.rand j hj).trans (congrArg (eval (ofU32 q)) (hwp.rand j hj).symm),
      fun j hj => (hsm.zero j hj).trans (congrArg (eval (ofU32 q)) (hwp.zero j hj).symm)⟩
  obtain ⟨sR, sZ, sB⟩ := move_shares (S := S) (S' := S') H.good hC H.sizes_sum hq hsm'
  refine H.sameView x.2.1 (H.retarget hC hR hB hbit hS hS' x w).2.1 hqn ?_
  have sent := fun p hp => H.retape_sent (NR := NR) (NB := NB) (H.moved_ok hC hS hS' x w) (v := ofU32 q) sR sZ (fun i _ => sB i) hbit (p := p) hp
  exact {
    own := H.retape_own hR hB x.2.1 hq hqn
    errs := rfl
    rand := fun p hp => (sent p hp).1
    zero := fun p hp => (sent p hp).2.1
    bits := fun p hp => (sent p hp).2.2
    first := fun k hk => (congr_open1 H.sizes_sum b1 b2 b3 hres hk).trans (move_open1 H.sizes_sum hk)
    second := fun k hk => (congr_open2 H.sizes_sum b1 b2 b3 hres hk).trans (move_open2 H.sizes_sum hk) }

end

/-- A bijection of the material gives one of the randomness. -/
noncomputable def PreHyp.lift (e : GarbleWorld ctx (d.full m br bz) S.garble ≃ GarbleWorld ctx (d.full m br bz) S'.garble) :
    TapesWith ctx m mb d S ≃ TapesWith ctx m mb d S' where
  toFun x := H.retarget hC hR hB hbit hS hS' x (e (H.world hS x))
  invFun y := H.retarget hC hR hB hbit hS' hS y (e.symm (H.world hS' y))
  left_inv x := by
    simp only
    rw [H.retarget_world, Equiv.symm_apply_apply, H.retarget_back]
  right_inv y := by
    simp only
    rw [H.retarget_world, Equiv.apply_symm_apply, H.retarget_back]

end lift

end Verif
