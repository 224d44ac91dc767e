import Verif.ByzPipe
import Verif.ByzDealLemmas
import Verif.ByzTransLemmas
import Verif.AsyncPreprocLemmas

/-!
# Lemmas for `Props/ByzPipe.lean`
-/

open Polynomial

namespace Verif

open CodeField (ofU32)

variable {F : Type} [CodeField F] [DecidableEq F]

/-! ## The messages of `randtrans` depend linearly on the sharings -/

theorem rtTo_linear {ctx : Ctx F} (h : ctx.Good) (tfs : List (SharingTransform F)) (hK : tfs.length ≤ ctx.l) (hok : ∀ tf ∈ tfs, tf.Ok ctx) (num : Nat)
    {p q : Nat} (hp : p < ctx.n) (hq : q < ctx.n) :
    ∃ f : (Nat → F) → (Nat → F) → Nat → F, (∀ G G' Z Z' j, f (fun m => G m + G' m) (fun m => Z m + Z' m) j = f G Z j + f G' Z' j) ∧
      ∀ v : List F × List F, v.1.length = (ctx.n + ctx.t) * num → v.2.length = 2 * ctx.n * num →
        rtTo ctx tfs p q v = some ((List.range (2 * num)).map (f (fun m => v.1.getD m 0) fun m => v.2.getD m 0)) := by
  obtain ⟨A, AN, E, B⟩ := rtBasis_exists h tfs hK hok
  refine ⟨fun G Z j => if j < num then (rtQ ctx tfs.length num A E (fun m => C (G m)) (fun m => C (Z m)) q j).eval (ofU32 p)
    else (rtQN ctx tfs.length num AN E (fun m => C (G m)) (fun m => C (Z m)) q (j - num)).eval (ofU32 p), ?_, ?_⟩
  · intro G G' Z Z' j
    simp only
    split_ifs
    · simp only [rtQ, C_add, mul_add, Finset.sum_add_distrib, eval_add]
      ring
    · simp only [rtQN, C_add, mul_add, Finset.sum_add_distrib, eval_add]
      ring
  · intro v h1 h2
    have := B.send h num (fun m => C (v.1.getD m 0)) (fun m => C (v.2.getD m 0)) hp
    simp only [eval_C] at this
    rw [← eq_tab h1, ← eq_tab h2] at this
    unfold rtTo
    rw [this, Option.bind_some, getElem?_tab _ _ _ hq]
    congr 1
    rw [two_mul, List.range_add, List.map_append, List.map_map]
    congr 1
    · apply List.map_congr_left
      intro j hj
      exact (if_pos (List.mem_range.1 hj)).symm
    · apply List.map_congr_left
      intro j hj
      simp only [Function.comp]
      rw [if_neg (by omega), Nat.add_sub_cancel_left]

/-- With errors in the sharings, the messages have errors which are the messages for the errors. -/
theorem rtTo_add {ctx : Ctx F} (h : ctx.Good) (tfs : List (SharingTransform F)) (hK : tfs.length ≤ ctx.l) (hok : ∀ tf ∈ tfs, tf.Ok ctx) (num : Nat)
    {p q : Nat} (hp : p < ctx.n) (hq : q < ctx.n) {a b a' b' : List F} (ha : a.length = (ctx.n + ctx.t) * num) (hb : b.length = 2 * ctx.n * num)
    (ha' : a'.length = (ctx.n + ctx.t) * num) (hb' : b'.length = 2 * ctx.n * num) :
    ∃ u w, rtTo ctx tfs p q (a, b) = some u ∧ rtTo ctx tfs p q (a', b') = some w ∧ u.length = 2 * num ∧ w.length = 2 * num ∧
      rtTo ctx tfs p q (vadd a a', vadd b b') = some (vadd u w) := by
  obtain ⟨f, hf, hv⟩ := rtTo_linear h tfs hK hok num hp hq
  refine ⟨_, _, hv _ ha hb, hv _ ha' hb', by simp, by simp, ?_⟩
  have l1 : (vadd a a').length = (ctx.n + ctx.t) * num := by rw [vadd, List.length_zipWith, ha, ha', Nat.min_self]
  have l2 : (vadd b b').length = 2 * ctx.n * num := by rw [vadd, List.length_zipWith, hb, hb', Nat.min_self]
  rw [hv _ l1 l2]
  have e : ∀ {c d : List F} {k : Nat}, c.length = k → d.length = k → (fun m => (vadd c d).getD m 0) = fun m => c.getD m 0 + d.getD m 0 := by
    intro c d k hc hd
    funext m
    by_cases hm : m < k
    · exact vadd_getD hc hd hm
    · rw [List.getD_eq_default _ _ (by rw [vadd, List.length_zipWith]; omega), List.getD_eq_default _ _ (by omega), List.getD_eq_default _ _ (by omega),
        add_zero]
  simp only
  rw [e ha ha', e hb hb']
  unfold vadd
  rw [List.zipWith_map_left, List.zipWith_map_right, List.zipWith_self]
  congr 1
  apply List.map_congr_left
  intro j _
  exact hf _ _ _ _ j

/-! ## Which masks result -/

section
variable {ctx : Ctx F} (h : ctx.Good) (hd : ctx.t + 2 * ctx.l ≤ ctx.n) {gs : List (RtRun F)} {rs : List (MkJob F)} (ok : MkOk ctx gs rs) {m : Mat F}
  {U : Uses (Use gs rs)} {br bz : Nat} (hU : U.Ok (useR ctx gs rs) (useZ ctx gs rs) (m.rows.length * br) (m.rows.length * bz)) (Cs : Finset Nat)

/-- Coins for all uses, as in `Verif.ByzTrans`. -/
def splitUses : ((u : Use gs rs) → Coins ctx (useR ctx gs rs u) (useZ ctx gs rs u)) ≃ MkCoins ctx gs rs where
  toFun w := (fun k => w (.inl k), fun g => w (.inr g))
  invFun ω u := match u with
    | .inl k => ω.1 k
    | .inr g => ω.2 g
  left_inv w := by
    funext u
    cases u <;> rfl
  right_inv ω := rfl

/-- The errors in what the parties have for use `u`, which follow from `v`. -/
noncomputable def useOff (A : Attack ctx gs) (m : Mat F) (U : Uses (Use gs rs)) (br bz : Nat) (v : DealKnown ctx) (u : Use gs rs) (p : Nat) : List F × List F :=
  dealOffs ctx m Cs U (useR ctx gs rs) (useZ ctx gs rs) br bz (A.cheat v) v u p

/-- What the parties of `Cs` get in `randtrans`, as a function of what they know and would get without errors. -/
noncomputable def heardOf (A : Attack ctx gs) (m : Mat F) (U : Uses (Use gs rs)) (br bz : Nat) (v : DealKnown ctx) (k : MkKnown gs rs) : Heard gs := fun g p q =>
  if p < ctx.n ∧ p ∉ Cs ∧ q ∈ Cs then
    (k.2.2 g p q).bind fun a => (rtTo ctx (gs.get g).tfs p q (useOff Cs A m U br bz v (.inr g) p)).map fun b => vadd a b
  else none

include h ok in
theorem sent_eq (hm : DealMat ctx.n m) (A : Attack ctx gs) (δ : DealCoins ctx br bz) (g : Fin gs.length) {p q : Nat} (hp : p < ctx.n) (hq : q < ctx.n) :
    ∃ u w, ((rtMessages ctx (gs.get g).tfs ((splitUses (collect hU δ)).2 g) p).bind fun ms => ms[q]?) = some u ∧
      rtTo ctx (gs.get g).tfs p q (useOff Cs A m U br bz (δ.known Cs) (.inr g) p) = some w ∧ u.length = 2 * (gs.get g).num ∧
      w.length = 2 * (gs.get g).num ∧ rtTo ctx (gs.get g).tfs p q (A.has m Cs rs U δ (.inr g) p) = some (vadd u w) := by
  have hl := dealOffs_sizes (ctx := ctx) (m := m) (U := U) (nr := useR ctx gs rs) (nz := useZ ctx gs rs) (br := br) (bz := bz) Cs
    (A.cheat (δ.known Cs)) (δ.known Cs) (.inr g) p
  obtain ⟨u, w, h1, h2, h3, h4, h5⟩ := rtTo_add h (gs.get g).tfs (ok.count _ (List.get_mem _ _)) (ok.good _ (List.get_mem _ _)) (gs.get g).num hp hq
    (Coins.randoms_length ((splitUses (collect hU δ)).2 g) p) (Coins.zeros_length ((splitUses (collect hU δ)).2 g) p) hl.1 hl.2
  refine ⟨u, w, h1, h2, h3, h4, ?_⟩
  unfold Attack.has
  rw [dealtFor_eq h hU hm Cs _ δ (.inr g) hp]
  exact h5

include h ok in
theorem heard_eq (hm : DealMat ctx.n m) (hCn : ∀ q ∈ Cs, q < ctx.n) (A : Attack ctx gs) (δ : DealCoins ctx br bz) :
    A.heard m Cs rs U δ = heardOf Cs A m U br bz (δ.known Cs) ((splitUses (collect hU δ)).known Cs) := by
  funext g p q
  unfold Attack.heard heardOf
  by_cases hpq : p < ctx.n ∧ p ∉ Cs ∧ q ∈ Cs
  · rw [if_pos hpq, if_pos hpq]
    obtain ⟨u, w, h1, h2, h3, h4, h5⟩ := sent_eq h ok hU Cs hm A δ g hpq.1 (hCn q hpq.2.2)
    rw [h5, h2]
    unfold MkCoins.known
    simp only
    rw [if_pos ⟨hpq.1, hpq.2.2⟩, h1]
    rfl
  · rw [if_neg hpq, if_neg hpq]

/-- The errors in the masks, as a function of what the parties of `Cs` know. -/
noncomputable def pipeOff (A : Attack ctx gs) (m : Mat F) (U : Uses (Use gs rs)) (br bz : Nat) (v : DealKnown ctx) (kn : MkKnown gs rs) (k : Fin rs.length) (q : Nat) :
    Option (List F × List F) :=
  if q < ctx.n then
    match (rs.get k).tr with
    | none => some (useOff Cs A m U br bz v (.inl k) q)
    | some (g, i) =>
      if hg : g < gs.length then
        if i < ctx.l ∧ (rs.get k).num = (gs.get ⟨g, hg⟩).num ∧
            ∀ p ∈ Cs, (A.evil v (heardOf Cs A m U br bz v kn) ⟨g, hg⟩ p q).length = 2 * (gs.get ⟨g, hg⟩).num then
          (rtFinish ctx (gs.get ⟨g, hg⟩).num ((List.range ctx.n).map fun p => (List.range (2 * (gs.get ⟨g, hg⟩).num)).map fun j =>
            if p ∈ Cs then (A.evil v (heardOf Cs A m U br bz v kn) ⟨g, hg⟩ p q).getD j 0
                - ((rtTo ctx (gs.get ⟨g, hg⟩).tfs p q (kn.2.1 ⟨g, hg⟩ p)).getD []).getD j 0
              else ((rtTo ctx (gs.get ⟨g, hg⟩).tfs p q (useOff Cs A m U br bz v (.inr ⟨g, hg⟩) p)).getD []).getD j 0)).map fun o =>
                (o.1.getD i [], o.2.getD i [])
        else none
      else none
  else none

include h in
theorem pipeOff_sizes (A : Attack ctx gs) (v : DealKnown ctx) (kn : MkKnown gs rs) : MkOff rs (pipeOff Cs A m U br bz v kn) := by
  intro k p o ho
  unfold pipeOff at ho
  split_ifs at ho with hp
  cases hk : (rs.get k).tr with
  | none =>
    simp only [hk] at ho
    cases ho
    have hl := dealOffs_sizes (ctx := ctx) (m := m) (U := U) (nr := useR ctx gs rs) (nz := useZ ctx gs rs) (br := br) (bz := bz) Cs
      (A.cheat v) v (.inl k) p
    exact ⟨hl.1.trans (own_none hk), hl.2.trans (own_none hk)⟩
  | some gi =>
    obtain ⟨g, i⟩ := gi
    simp only [hk] at ho
    split_ifs at ho with hg hi
    rw [rtFinish_any h] at ho
    cases ho
    rw [hi.2.1]
    simp only [defaultPos, List.map_map]
    rw [getD_tab _ _ _ hi.1, getD_tab _ _ _ hi.1]
    simp

omit [DecidableEq F] in
/-- Messages which together have the wrong length. -/
theorem rtFinish_short (ctx : Ctx F) (num : Nat) (box : List (List F)) (hb : (box.map List.length).sum ≠ ctx.n * (2 * num)) : rtFinish ctx num box = none := by
  unfold rtFinish toRows
  rw [if_neg (by rw [List.length_flatten]; exact hb), Option.bind_none]

/-- The sum of the lengths. -/
theorem lengths_sum {n k : Nat} {Cs : Finset Nat} (hCn : ∀ p ∈ Cs, p < n) (ev : Nat → Nat) (hev : ∑ p ∈ Cs, ev p ≠ Cs.card * k) :
    ((List.range n).map fun p => if p ∈ Cs then ev p else k).sum ≠ n * k := by
  have e : ((List.range n).map fun p => if p ∈ Cs then ev p else k).sum = ∑ p ∈ Finset.range n, if p ∈ Cs then ev p else k := by
    rw [Finset.sum_range, ← List.sum_ofFn]
    congr 1
    apply List.ext_getElem
    · simp
    · intro a h3 h4
      simp
  rw [e, Finset.sum_ite, Finset.sum_const, smul_eq_mul]
  have hf : (Finset.range n).filter (fun p => p ∈ Cs) = Cs := by
    ext p
    simp only [Finset.mem_filter, Finset.mem_range]
    exact ⟨fun h => h.2, fun h => ⟨hCn p h, h⟩⟩
  have hc := Finset.card_filter_add_card_filter_not (s := Finset.range n) (fun p => p ∈ Cs)
  rw [hf, Finset.card_range] at hc
  rw [hf]
  intro he
  apply hev
  have : n * k = Cs.card * k + ((Finset.range n).filter fun p => p ∉ Cs).card * k := by
    rw [← Nat.add_mul, hc]
  omega

include h hd ok in
/-- The masks which the parties get are the masks with these errors. -/
theorem pipe_got (hm : DealMat ctx.n m) (hCn : ∀ q ∈ Cs, q < ctx.n) (A : Attack ctx gs) (hA : A.Sized Cs) (δ : DealCoins ctx br bz) :
    A.got m Cs rs U δ = (splitUses (collect hU δ)).held (pipeOff Cs A m U br bz (δ.known Cs) ((splitUses (collect hU δ)).known Cs)) := by
  have hheard := heard_eq h ok hU Cs hm hCn A δ
  have hsent := fun g p q hp hq => sent_eq h ok hU Cs hm A δ g (p := p) (q := q) hp hq
  have hrun : ∀ k : Fin rs.length, ∀ p < ctx.n, A.has m Cs rs U δ (.inl k) p
      = (vadd (((splitUses (collect hU δ)).1 k).randoms p) (useOff Cs A m U br bz (δ.known Cs) (.inl k) p).1,
        vadd (((splitUses (collect hU δ)).1 k).zeros p) (useOff Cs A m U br bz (δ.known Cs) (.inl k) p).2) :=
    fun k p hp => dealtFor_eq h hU hm Cs _ δ (.inl k) hp
  generalize splitUses (collect hU δ) = ω at *
  funext k q
  unfold Attack.got MkCoins.held pipeOff
  by_cases hq : q < ctx.n
  swap
  · rw [if_neg hq, if_neg hq]
    rfl
  rw [if_pos hq, if_pos hq]
  cases hk : (rs.get k).tr with
  | none =>
    simp only [Option.map_some]
    rw [masks_none ω hk, hrun k q hq]
  | some gi =>
    obtain ⟨g, i⟩ := gi
    obtain ⟨hg, hi, hn⟩ := ok.runs k g i hk
    simp only
    rw [dif_pos hg, dif_pos hg, masks_some ω hk hg]
    have hiL : i < ctx.l := lt_of_lt_of_le hi (ok.count _ (List.get_mem _ _))
    have hmine : ∀ p ∈ Cs, (ω.known Cs).2.1 ⟨g, hg⟩ p = ((ω.2 ⟨g, hg⟩).randoms p, (ω.2 ⟨g, hg⟩).zeros p) := by
      intro p hp
      unfold MkCoins.known
      simp only
      rw [if_pos hp]
    unfold Attack.inbox
    rw [hheard]
    have hsz := hA (δ.known Cs) (heardOf Cs A m U br bz (δ.known Cs) (ω.known Cs)) ⟨g, hg⟩ q
    generalize A.evil (δ.known Cs) (heardOf Cs A m U br bz (δ.known Cs) (ω.known Cs)) ⟨g, hg⟩ = ev at *
    by_cases hE : ∀ p ∈ Cs, (ev p q).length = 2 * (gs.get ⟨g, hg⟩).num
    · rw [if_pos ⟨hiL, hn, hE⟩]
      have key := rt_wrong h hd (gs.get ⟨g, hg⟩).tfs (ok.count _ (List.get_mem _ _)) (ok.good _ (List.get_mem _ _)) (ω.2 ⟨g, hg⟩) hq hi (Finset.range ctx.n)
        (fun p => if p ∈ Cs then ev p q else (rtTo ctx (gs.get ⟨g, hg⟩).tfs p q (A.has m Cs rs U δ (.inr ⟨g, hg⟩) p)).getD [])
        (by
          intro p hp
          split_ifs with hpC
          · exact hE p hpC
          · obtain ⟨u, w, h1, h2, h3, h4, h5⟩ := hsent ⟨g, hg⟩ p q (Finset.mem_range.1 hp) hq
            rw [h5, Option.getD_some, vadd, List.length_zipWith, h3, h4, Nat.min_self])
      have e1 : ((List.range ctx.n).mapM fun p => if p ∈ Cs then some (ev p q) else rtTo ctx (gs.get ⟨g, hg⟩).tfs p q (A.has m Cs rs U δ (.inr ⟨g, hg⟩) p))
          = (List.range ctx.n).mapM fun p => if p ∈ Finset.range ctx.n then
              some (if p ∈ Cs then ev p q else (rtTo ctx (gs.get ⟨g, hg⟩).tfs p q (A.has m Cs rs U δ (.inr ⟨g, hg⟩) p)).getD [])
              else (rtMessages ctx (gs.get ⟨g, hg⟩).tfs (ω.2 ⟨g, hg⟩) p).bind fun m => m[q]? := by
        have e2 : ∀ p < ctx.n, (if p ∈ Cs then some (ev p q) else rtTo ctx (gs.get ⟨g, hg⟩).tfs p q (A.has m Cs rs U δ (.inr ⟨g, hg⟩) p))
            = some (if p ∈ Cs then ev p q else (rtTo ctx (gs.get ⟨g, hg⟩).tfs p q (A.has m Cs rs U δ (.inr ⟨g, hg⟩) p)).getD []) := by
          intro p hp
          by_cases hpC : p ∈ Cs
          · rw [if_pos hpC, if_pos hpC]
          · rw [if_neg hpC, if_neg hpC]
            obtain ⟨u, w, h1, h2, h3, h4, h5⟩ := hsent ⟨g, hg⟩ p q hp hq
            rw [h5, Option.getD_some]
        rw [mapM_range_some _ _ _ e2]
        symm
        exact mapM_range_some _ _ _ fun p hp => if_pos (Finset.mem_range.2 hp)
      rw [e1, key, Option.map_map]
      congr 2
      apply List.map_congr_left
      intro p hp
      have hp := List.mem_range.1 hp
      apply List.map_congr_left
      intro j hj
      have hj := List.mem_range.1 hj
      rw [if_pos (Finset.mem_range.2 hp)]
      by_cases hpC : p ∈ Cs
      · simp only [if_pos hpC]
        rw [hmine p hpC]
        rfl
      · simp only [if_neg hpC]
        obtain ⟨u, w, h1, h2, h3, h4, h5⟩ := hsent ⟨g, hg⟩ p q hp hq
        rw [h5, h2, h1, Option.getD_some, Option.getD_some, Option.getD_some, vadd_getD h3 h4 hj, add_sub_cancel_left]
    · rw [if_neg (fun hh => hE hh.2.2)]
      have hsum := hsz.resolve_left hE
      have e2 : ∀ p < ctx.n, (if p ∈ Cs then some (ev p q) else rtTo ctx (gs.get ⟨g, hg⟩).tfs p q (A.has m Cs rs U δ (.inr ⟨g, hg⟩) p))
          = some (if p ∈ Cs then ev p q else (rtTo ctx (gs.get ⟨g, hg⟩).tfs p q (A.has m Cs rs U δ (.inr ⟨g, hg⟩) p)).getD []) := by
        intro p hp
        by_cases hpC : p ∈ Cs
        · rw [if_pos hpC, if_pos hpC]
        · rw [if_neg hpC, if_neg hpC]
          obtain ⟨u, w, h1, h2, h3, h4, h5⟩ := hsent ⟨g, hg⟩ p q hp hq
          rw [h5, Option.getD_some]
      rw [mapM_range_some _ _ _ e2, Option.bind_some, rtFinish_short, Option.map_none, Option.map_none]
      have e3 : ((List.range ctx.n).map fun p => if p ∈ Cs then ev p q else (rtTo ctx (gs.get ⟨g, hg⟩).tfs p q (A.has m Cs rs U δ (.inr ⟨g, hg⟩) p)).getD []).map
          List.length = (List.range ctx.n).map fun p => if p ∈ Cs then (ev p q).length else 2 * (gs.get ⟨g, hg⟩).num := by
        rw [List.map_map]
        apply List.map_congr_left
        intro p hp
        have hp := List.mem_range.1 hp
        simp only [Function.comp]
        by_cases hpC : p ∈ Cs
        · rw [if_pos hpC, if_pos hpC]
        · rw [if_neg hpC, if_neg hpC]
          obtain ⟨u, w, h1, h2, h3, h4, h5⟩ := hsent ⟨g, hg⟩ p q hp hq
          rw [h5, Option.getD_some, vadd, List.length_zipWith, h3, h4, Nat.min_self]
      rw [e3]
      exact lengths_sum hCn (fun p => (ev p q).length) hsum

end

/-! ## Parties which deal as they should -/

/-- What the parties of `Cs` deal if they follow `rand` and `zero`. -/
def fairDeal (ctx : Ctx F) (v : DealKnown ctx) : Cheat F :=
  ⟨fun j b p => if hj : j < ctx.n then (v ⟨j, hj⟩ p).1.getD b 0 else 0, fun j b p => if hj : j < ctx.n then (v ⟨j, hj⟩ p).2.getD b 0 else 0⟩

omit [DecidableEq F] in
theorem dealOff_self (n batches : Nat) (m : Mat F) (Cs : Finset Nat) (mine : Nat → Nat → Nat → F) (a p : Nat) : dealOff n batches m Cs mine mine a p = 0 := by
  unfold dealOff
  exact Finset.sum_eq_zero fun j _ => by simp

section
variable {ctx : Ctx F} (h : ctx.Good) {gs : List (RtRun F)} {rs : List (MkJob F)} {m : Mat F} {U : Uses (Use gs rs)} {br bz : Nat}
  (hU : U.Ok (useR ctx gs rs) (useZ ctx gs rs) (m.rows.length * br) (m.rows.length * bz)) (Cs : Finset Nat)

include h in
theorem fair_has (hm : DealMat ctx.n m) {A : Attack ctx gs} (hA : A.cheat = fairDeal ctx) (δ : DealCoins ctx br bz) (u : Use gs rs) {p : Nat} (hp : p < ctx.n) :
    A.has m Cs rs U δ u p = ((collect hU δ u).randoms p, (collect hU δ u).zeros p) := by
  have hz : ∀ {a : List F} {k : Nat}, a.length = k → vadd a ((List.range k).map fun _ => 0) = a := by
    intro a k ha
    unfold vadd
    apply List.ext_getElem
    · simp [ha]
    · intro i h1 h2
      simp
  unfold Attack.has
  rw [dealtFor_eq h hU hm Cs _ δ u hp, hA]
  unfold dealOffs fairDeal
  simp only [dealOff_self]
  rw [hz (Coins.randoms_length _ _), hz (Coins.zeros_length _ _)]

include h in
theorem fair_got (hm : DealMat ctx.n m) {A : Attack ctx gs} (hA : A.cheat = fairDeal ctx) (δ : DealCoins ctx br bz) :
    A.got m Cs rs U δ = (splitUses (collect hU δ)).got Cs (A.evil (δ.known Cs) (A.heard m Cs rs U δ)) := by
  funext k q
  unfold Attack.got MkCoins.got
  by_cases hq : q < ctx.n
  swap
  · rw [if_neg hq, if_neg hq]
  rw [if_pos hq, if_pos hq]
  cases hk : (rs.get k).tr with
  | none =>
    simp only
    rw [fair_has h hU Cs hm hA δ _ hq]
    rfl
  | some gi =>
    obtain ⟨g, i⟩ := gi
    simp only
    by_cases hg : g < gs.length
    · rw [dif_pos hg, dif_pos hg]
      congr 1
      unfold Attack.inbox MkCoins.inbox
      apply mapM_congr_mem
      intro p hp
      rw [fair_has h hU Cs hm hA δ _ (List.mem_range.1 hp)]
      rfl
    · rw [dif_neg hg, dif_neg hg]

omit [DecidableEq F] in
theorem collect_seen {δ δ' : DealCoins ctx br bz} (hk : δ'.known Cs = δ.known Cs) (u : Use gs rs) {p : Nat} (hp : p ∈ Cs) :
    (collect hU δ' u).randoms p = (collect hU δ u).randoms p ∧ (collect hU δ' u).zeros p = (collect hU δ u).zeros p := by
  have e : ∀ j : Fin ctx.n, (δ' j).randoms p = (δ j).randoms p ∧ (δ' j).zeros p = (δ j).zeros p := by
    intro j
    have := congrFun (congrFun hk j) p
    unfold DealCoins.known at this
    rw [if_pos (Or.inr hp), if_pos (Or.inr hp)] at this
    exact Prod.mk.inj this
  have e1 : ∀ j < ctx.n, ∀ b < br, (δ'.randP j b).eval (ofU32 p) = (δ.randP j b).eval (ofU32 p) := by
    intro j hj b hb
    have := congrArg (fun l => l.getD b 0) (e ⟨j, hj⟩).1
    simp only [Coins.randoms_eq, getD_tab _ _ _ hb] at this
    unfold DealCoins.randP
    rw [dif_pos hj, dif_pos hj]
    exact this
  have e2 : ∀ j < ctx.n, ∀ b < bz, (δ'.zeroP j b).eval (ofU32 p) = (δ.zeroP j b).eval (ofU32 p) := by
    intro j hj b hb
    have := congrArg (fun l => l.getD b 0) (e ⟨j, hj⟩).2
    simp only [Coins.zeros_eq, getD_tab _ _ _ hb] at this
    unfold DealCoins.zeroP
    rw [dif_pos hj, dif_pos hj]
    exact this
  rw [Coins.randoms_eq, Coins.randoms_eq, Coins.zeros_eq, Coins.zeros_eq]
  constructor
  · apply List.map_congr_left
    intro i hi
    have hi := List.mem_range.1 hi
    rw [collect_g hU _ u hi, collect_g hU _ u hi, dealPoly_eval, dealPoly_eval]
    exact Finset.sum_congr rfl fun j hj => by rw [e1 j (Finset.mem_range.1 hj) _ (mod_lt_of (hU.rand_lt u i hi))]
  · apply List.map_congr_left
    intro i hi
    have hi := List.mem_range.1 hi
    rw [collect_z hU _ u hi, collect_z hU _ u hi, dealPoly_eval, dealPoly_eval]
    exact Finset.sum_congr rfl fun j hj => by rw [e2 j (Finset.mem_range.1 hj) _ (mod_lt_of (hU.zero_lt u i hi))]

include h in
theorem fair_known (hm : DealMat ctx.n m) {A : Attack ctx gs} (hA : A.cheat = fairDeal ctx) {δ δ' : DealCoins ctx br bz} (hk : δ'.known Cs = δ.known Cs)
    (hh : A.heard m Cs rs U δ' = A.heard m Cs rs U δ) : (splitUses (collect hU δ')).known Cs = (splitUses (collect hU δ)).known Cs := by
  unfold MkCoins.known
  refine Prod.ext ?_ (Prod.ext ?_ ?_)
  · funext k p
    simp only
    by_cases hp : p ∈ Cs
    · rw [if_pos hp, if_pos hp]
      exact Prod.ext (collect_seen hU Cs hk (.inl k) hp).1 (collect_seen hU Cs hk (.inl k) hp).2
    · rw [if_neg hp, if_neg hp]
  · funext g p
    simp only
    by_cases hp : p ∈ Cs
    · rw [if_pos hp, if_pos hp]
      exact Prod.ext (collect_seen hU Cs hk (.inr g) hp).1 (collect_seen hU Cs hk (.inr g) hp).2
    · rw [if_neg hp, if_neg hp]
  · funext g p q
    simp only
    by_cases hpq : p < ctx.n ∧ q ∈ Cs
    · rw [if_pos hpq, if_pos hpq]
      by_cases hp : p ∈ Cs
      · change rtTo ctx _ p q ((collect hU δ' (.inr g)).randoms p, (collect hU δ' (.inr g)).zeros p)
          = rtTo ctx _ p q ((collect hU δ (.inr g)).randoms p, (collect hU δ (.inr g)).zeros p)
        rw [(collect_seen hU Cs hk (.inr g) hp).1, (collect_seen hU Cs hk (.inr g) hp).2]
      · have := congrFun (congrFun (congrFun hh g) p) q
        unfold Attack.heard at this
        rw [if_pos ⟨hpq.1, hp, hpq.2⟩, if_pos ⟨hpq.1, hp, hpq.2⟩, fair_has h hU Cs hm hA δ' _ hpq.1, fair_has h hU Cs hm hA δ _ hpq.1] at this
        exact this
    · rw [if_neg hpq, if_neg hpq]

end

end Verif
