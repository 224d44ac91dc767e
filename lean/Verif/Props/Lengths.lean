import Verif.AsyncGarbleLemmas
import Verif.Props.Async
import Verif.Props.Core
import Verif.Props.Preproc

/-!
# Parties which do not agree on the number of sharings

Each party calls the protocols with its own number of sharings, which it gets from its own command line and circuit file.  Nothing but the
lengths of the messages tells the others about it.
-/

open Verif
open Verif.CodeField (ofU32)
open Polynomial

namespace Verif.Props

section
variable {O F : Type} [CodeField F] [DecidableEq F]

omit [CodeField F] [DecidableEq F] in
theorem decode_all (c : Codec F) (hc : c.Ok) (vs : List (List F)) (h : ∀ v ∈ vs, v.length < 2 ^ 64) : (vs.map c.enc).mapM c.dec = some vs := by
  induction vs with
  | nil => rfl
  | cons v vs ih =>
    rw [List.map_cons, List.mapM_cons, hc v (h v (by simp)), ih fun w hw => h w (by simp [hw])]
    rfl

theorem toRows_isSome_iff {α : Type} (r k : Nat) (flat : List α) : (toRows r k flat).isSome = true ↔ flat.length = r * k := by
  unfold toRows
  split <;> simp_all

/-! ### C110: different numbers of sharings -/

omit [DecidableEq F] in
/-- C110, `rand`, `zero` and `randbit`.  A party which expects `batches` sharings from each party accepts the vectors `vs` exactly if they have
`n * batches` entries together, whatever their lengths are. -/
theorem C110_deal_iff (c : Codec F) (hc : c.Ok) (n batches : Nat) (m : Mat F) (hm : m.ncols = n) (sh : Nat → Option (List (List F)))
    (ret : List F → O) (p : Nat) (env : Env O) (vs : List (List F)) (hv : ∀ v ∈ vs, v.length < 2 ^ 64) :
    ((dealProto c n batches m sh ret).finish p env (vs.map c.enc)).isSome = true ↔ (vs.map List.length).sum = n * batches := by
  unfold dealProto
  simp only [decode_all c hc vs hv, Option.bind_some, Option.isSome_map]
  unfold dealFinish
  rw [← List.length_flatten, ← toRows_isSome_iff]
  constructor
  · intro h
    cases ht : toRows n batches vs.flatten with
    | none =>
      rw [ht] at h
      cases h
    | some rows => rfl
  · intro h
    obtain ⟨rows, hr⟩ := Option.isSome_iff_exists.1 h
    have hl := toRows_length hr
    rw [hr]
    unfold Mat.mulRows
    rw [Option.bind_some, if_pos (by rw [hl, hm])]
    rfl

omit [DecidableEq F] in
/-- C110.  A matrix for another number of parties is not accepted. -/
theorem C110_matrix (c : Codec F) (n batches : Nat) (m : Mat F) (hm : m.ncols ≠ n) (sh : Nat → Option (List (List F))) (ret : List F → O) (p : Nat)
    (env : Env O) (ms : List (List Nat)) : (dealProto c n batches m sh ret).finish p env ms = none := by
  unfold dealProto
  simp only []
  cases ms.mapM c.dec with
  | none => rfl
  | some vs =>
    rw [Option.bind_some, Option.map_eq_none_iff]
    unfold dealFinish
    cases ht : toRows n batches vs.flatten with
    | none => rfl
    | some rows =>
      have hl := toRows_length ht
      rw [Option.bind_some, Option.map_eq_none_iff]
      unfold Mat.mulRows
      rw [if_neg (by rw [hl]; exact Ne.symm hm)]

theorem same_of_sums {n : Nat} {b : Nat → Nat} (h : ∀ i < n, ((List.range n).map b).sum = n * b i) : ∀ i < n, b i = b 0 := by
  intro i hi
  have h1 := h i hi
  have h2 := h 0 (by omega)
  rw [h1] at h2
  exact Nat.eq_of_mul_eq_mul_left (by omega) h2

theorem sum_same {n : Nat} {b : Nat → Nat} {k : Nat} (h : ∀ i < n, b i = k) : ((List.range n).map b).sum = n * k := by
  have : (List.range n).map b = List.replicate n k := by
    rw [List.eq_replicate_iff]
    refine ⟨by simp, fun x hx => ?_⟩
    obtain ⟨i, hi, rfl⟩ := List.mem_map.1 hx
    exact h i (List.mem_range.1 hi)
  rw [this, List.sum_replicate, smul_eq_mul]

omit [DecidableEq F] in
/-- C110, `rand`, `zero` and `randbit`.  Party `p` has called it for `b p` sharings, and has sent `v p i` to party `i`.  All parties get a result
exactly if all of them have called it for the same number of sharings: if not, at least one party stops. -/
theorem C110_deal_agree (c : Codec F) (hc : c.Ok) (n : Nat) (m : Mat F) (hm : m.ncols = n) (sh : Nat → Option (List (List F))) (ret : List F → O)
    (env : Env O) (b : Nat → Nat) (v : Nat → Nat → List F) (hv : ∀ p < n, ∀ i < n, (v p i).length = b p) (hb : ∀ p < n, b p < 2 ^ 64) :
    (∀ i < n, ((dealProto c n (b i) m sh ret).finish i env ((List.range n).map fun p => c.enc (v p i))).isSome = true) ↔ ∀ i < n, b i = b 0 := by
  have key : ∀ i < n, ((dealProto c n (b i) m sh ret).finish i env ((List.range n).map fun p => c.enc (v p i))).isSome = true ↔
      ((List.range n).map b).sum = n * b i := by
    intro i hi
    have h1 : ((List.range n).map fun p => c.enc (v p i)) = ((List.range n).map fun p => v p i).map c.enc := by
      rw [List.map_map]
      rfl
    have h2 : ((List.range n).map fun p => v p i).map List.length = (List.range n).map b := by
      rw [List.map_map]
      exact List.map_congr_left fun p hp => hv p (List.mem_range.1 hp) i hi
    rw [h1, C110_deal_iff c hc n (b i) m hm sh ret i env _ ?_, h2]
    intro w hw
    obtain ⟨p, hp, rfl⟩ := List.mem_map.1 hw
    rw [hv p (List.mem_range.1 hp) i hi]
    exact hb p (List.mem_range.1 hp)
  constructor
  · intro h
    exact same_of_sums fun i hi => (key i hi).1 (h i hi)
  · intro h i hi
    rw [key i hi, h i hi]
    exact sum_same h

theorem rdLeader_isSome_iff {ctx : Ctx F} (h : ctx.Good) (num : Nat) (tapes : List (List F)) (ht : tapes.length = num)
    (htl : ∀ tp ∈ tapes, tp.length = ctx.t) (vs : List (List F)) :
    (rdLeader ctx num tapes vs).isSome = true ↔ (vs.map List.length).sum = ctx.n * num := by
  rw [← List.length_flatten, ← toRows_isSome_iff]
  constructor
  · intro hl
    unfold rdLeader at hl
    cases hr : toRows ctx.n num vs.flatten with
    | none =>
      rw [hr] at hl
      cases hl
    | some rows => rfl
  · intro hr
    obtain ⟨rows, hr⟩ := Option.isSome_iff_exists.1 hr
    have hflat : vs.flatten.length = ctx.n * num := (toRows_isSome_iff _ _ _).1 (by rw [hr]; rfl)
    have hcols : ∀ j < num, ∃ q : F[X], q.degree < ctx.n ∧
        ∀ p < ctx.n, q.eval (ofU32 p) = vs.flatten.getD (p * num + j) 0 := by
      intro j hj
      obtain ⟨q, h1, h2⟩ := exists_poly_of_values (sharePos ctx.n : List F) (sharePos_nodup (by have := h.fit; omega))
        ((List.range ctx.n).map fun p => vs.flatten.getD (p * num + j) 0) (by simp [sharePos_length])
      rw [sharePos_length] at h1
      refine ⟨q, h1, fun p hp => ?_⟩
      unfold sharePos at h2
      rw [List.map_map] at h2
      exact List.map_inj_left.1 h2 p (List.mem_range.2 hp)
    obtain ⟨q, hq⟩ := exists_family num hcols
    have hrows : toRows ctx.n num vs.flatten = toRows ctx.n num (tabShares ctx.n num q).flatten := by
      have h0 := range_getD vs.flatten 0
      rw [hflat] at h0
      rw [tabShares_flatten, h0, toRows_tab _ _ _ rfl, Option.some.injEq]
      unfold tabShares
      refine List.map_congr_left fun p hp => List.map_congr_left fun j hj => ?_
      exact ((hq j (List.mem_range.1 hj)).2 p (List.mem_range.1 hp)).symm
    obtain ⟨s, _, _, hs⟩ := rdLeader_tab h num tapes ht htl q fun j hj => (hq j hj).1
    have : rdLeader ctx num tapes vs = rdLeader ctx num tapes (tabShares ctx.n num q) := by
      unfold rdLeader
      rw [hrows]
    rw [this, hs]
    rfl

/-- C110, the leader of `reduce_degree` (and of `mult`), which has `num` values itself, accepts the vectors `vs` exactly if they have `n * num` entries
together. -/
theorem C110_leader_iff (c : Codec F) (hc : c.Ok) (ctx : Ctx F) (h : ctx.Good) (L : Nat) (tapes : List (List F))
    (inp : Nat → Env O → Option (List F × List F × List F)) (ret : List F → O) (env : Env O) (i : List F × List F × List F)
    (hi : inp L env = some i) (ht : tapes.length = i.1.length) (htl : ∀ tp ∈ tapes, tp.length = ctx.t) (vs : List (List F))
    (hv : ∀ v ∈ vs, v.length < 2 ^ 64) :
    ((rdProto c ctx L tapes inp ret).answer env (vs.map c.enc)).isSome = true ↔ (vs.map List.length).sum = ctx.n * i.1.length := by
  unfold rdProto
  simp only [hi, decode_all c hc vs hv, Option.bind_some, Option.isSome_map]
  exact rdLeader_isSome_iff h _ tapes ht htl vs

omit [DecidableEq F] in
theorem rdLeader_lengths {ctx : Ctx F} {num : Nat} {tapes vs rs : List (List F)} (h : rdLeader ctx num tapes vs = some rs) :
    rs.length = ctx.n ∧ ∀ r ∈ rs, r.length = num := by
  unfold rdLeader at h
  obtain ⟨_, _, h⟩ := Option.bind_eq_some_iff.1 h
  obtain ⟨sh, _, h⟩ := Option.bind_eq_some_iff.1 h
  obtain ⟨rows, hr, rfl⟩ := Option.map_eq_some_iff.1 h
  refine ⟨by simp, fun r hm => ?_⟩
  obtain ⟨i, hi, rfl⟩ := List.mem_map.1 hm
  rw [col_length, toRows_length hr]
  intro x hx
  rw [toRows_width hr x hx]
  exact List.mem_range.1 hi

/-- C110, `reduce_degree` (and `mult`).  Party `p` calls it for `b p` values, and `L` is the leader.  All parties get a result exactly if all of them
have called it for the same number of values. -/
theorem C110_reduce_degree_agree (ctx : Ctx F) (h : ctx.Good) (b : Nat → Nat) (L : Nat) (hL : L < ctx.n) (tapes : List (List F))
    (ht : tapes.length = b L) (htl : ∀ tp ∈ tapes, tp.length = ctx.t) (x r z : Nat → List F) (hx : ∀ p < ctx.n, (x p).length = b p)
    (hr : ∀ p < ctx.n, (r p).length = b p) (hz : ∀ p < ctx.n, (z p).length = b p) :
    (reduceDegree ctx (b L) tapes ((List.range ctx.n).map x) ((List.range ctx.n).map r) ((List.range ctx.n).map z)).isSome = true ↔
      ∀ p < ctx.n, b p = b 0 := by
  have hget : ∀ (f : Nat → List F) (p : Nat), p < ctx.n → ((List.range ctx.n).map f)[p]? = some (f p) := fun f p hp => by
    rw [List.getElem?_map, List.getElem?_range hp, Option.map_some]
  have hsend : ((List.range ctx.n).mapM fun i => (((List.range ctx.n).map x)[i]?).bind fun vx => (((List.range ctx.n).map r)[i]?).bind fun rr =>
      (((List.range ctx.n).map z)[i]?).bind fun zz => rdSend vx rr zz) = some ((List.range ctx.n).map fun p => vadd (vadd (x p) (r p)) (z p)) := by
    refine mapM_range_some _ _ _ fun p hp => ?_
    rw [hget x p hp, hget r p hp, hget z p hp, Option.bind_some, Option.bind_some, Option.bind_some]
    unfold rdSend
    rw [if_pos ⟨by rw [hx p hp, hr p hp], by rw [hx p hp, hz p hp]⟩]
  have hlens : ((List.range ctx.n).map fun p => vadd (vadd (x p) (r p)) (z p)).map List.length = (List.range ctx.n).map b := by
    rw [List.map_map]
    refine List.map_congr_left fun p hp => ?_
    have hp := List.mem_range.1 hp
    simp [vadd, hx p hp, hr p hp, hz p hp]
  unfold reduceDegree
  rw [hsend, Option.bind_some]
  have hiff := rdLeader_isSome_iff h (b L) tapes ht htl ((List.range ctx.n).map fun p => vadd (vadd (x p) (r p)) (z p))
  rw [hlens] at hiff
  constructor
  · intro hs
    obtain ⟨outs, hs⟩ := Option.isSome_iff_exists.1 hs
    obtain ⟨rs, h1, h2⟩ := Option.bind_eq_some_iff.1 hs
    obtain ⟨l1, l2⟩ := rdLeader_lengths h1
    have hb : ∀ p < ctx.n, b p = b L := by
      intro p hp
      have h3 := (mapM_range_get [] h2).2.1 p hp
      rw [hget r p hp, List.getElem?_eq_getElem (by omega), Option.bind_some, Option.bind_some] at h3
      unfold rdFinish at h3
      split at h3
      · next h4 =>
        rw [l2 _ (List.getElem_mem _), hr p hp] at h4
        exact h4.symm
      · cases h3
    intro p hp
    rw [hb p hp, hb 0 (by omega)]
  · intro hb
    have hb' : ∀ p < ctx.n, b p = b L := fun p hp => by rw [hb p hp, hb L hL]
    obtain ⟨rs, h1⟩ := Option.isSome_iff_exists.1 (hiff.2 (sum_same hb'))
    obtain ⟨l1, l2⟩ := rdLeader_lengths h1
    rw [h1, Option.bind_some]
    rw [mapM_range_some _ _ fun p => vsub (rs.getD p []) (r p)]
    · rfl
    · intro p hp
      rw [hget r p hp, List.getD_eq_getElem?_getD, List.getElem?_eq_getElem (by omega), Option.bind_some, Option.bind_some, Option.getD_some]
      unfold rdFinish
      rw [if_pos (by rw [l2 _ (List.getElem_mem _), hr p hp, hb' p hp])]

/-- C110, `randtrans`.  A party which has `num` random values for each transformation accepts the vectors `vs` exactly if they have `2 n * num` entries together. -/
theorem C110_randtrans_iff (c : Codec F) (hc : c.Ok) (ctx : Ctx F) (h : ctx.Good) (tfs : List (SharingTransform F))
    (inp : Nat → Env O → Option (List F × List F)) (ret : List (List F) × List (List F) → O) (p : Nat) (env : Env O) (i : List F × List F)
    (hi : inp p env = some i) (vs : List (List F)) (hv : ∀ v ∈ vs, v.length < 2 ^ 64) :
    ((rtProto c ctx tfs inp ret).finish p env (vs.map c.enc)).isSome = true ↔
      (vs.map List.length).sum = ctx.n * (2 * (i.1.length / (ctx.n + ctx.t))) := by
  have hcols : ctx.pssN.secretCoeffs.ncols = ctx.n := by
    obtain ⟨h1, _, _, _, _, h2, _⟩ := new_eq h.pssN
    unfold PackedSharing.secretCoeffs
    simp only []
    rw [h2]
    have := h.fit
    simp [lagrangeCoeffs, sharePos_length, defaultPos_length]
    omega
  unfold rtProto
  simp only [hi, decode_all c hc vs hv, Option.bind_some, Option.isSome_map]
  rw [← List.length_flatten, ← toRows_isSome_iff]
  unfold rtFinish
  constructor
  · intro hs
    cases ht : toRows ctx.n (2 * (i.1.length / (ctx.n + ctx.t))) vs.flatten with
    | none =>
      rw [ht] at hs
      cases hs
    | some rows => rfl
  · intro hs
    obtain ⟨rows, hr⟩ := Option.isSome_iff_exists.1 hs
    have hl := toRows_length hr
    rw [hr]
    unfold Mat.mulRows
    rw [Option.bind_some, if_pos (by rw [List.length_map, hl, hcols]), Option.bind_some, if_pos (by rw [List.length_map, hl, hcols])]
    rfl

end

/-- C110 is false for single parties: three parties call `rand` for 1, 2 and 3 sharings.  The second one gets a result, in which each sum is over
shares of different sharings: it does not have the share `a₀ + b₀ + c₀`, but `a₀ + b₁ + c₁`.  (The other two stop.) -/
theorem C110_mixed_false {O F : Type} [CodeField F] (c : Codec F) (hc : c.Ok) (a0 b0 b1 c0 c1 c2 : F) (hne : b0 + c0 ≠ b1 + c1)
    (sh : Nat → Option (List (List F))) (ret : List F → O) (env : Env O) :
    (dealProto c 3 2 ⟨3, [[1, 1, 1]]⟩ sh ret).finish 1 env ([[a0], [b0, b1], [c0, c1, c2]].map c.enc) = some (ret [a0 + b1 + c1, b0 + c0 + c2]) ∧
    a0 + b1 + c1 ≠ a0 + b0 + c0 ∧
    (dealProto c 3 1 ⟨3, [[1, 1, 1]]⟩ sh ret).finish 0 env ([[a0], [b0, b1], [c0, c1, c2]].map c.enc) = none ∧
    (dealProto c 3 3 ⟨3, [[1, 1, 1]]⟩ sh ret).finish 2 env ([[a0], [b0, b1], [c0, c1, c2]].map c.enc) = none := by
  have hd := decode_all c hc [[a0], [b0, b1], [c0, c1, c2]] (by simp)
  refine ⟨?_, fun h => hne ?_, ?_, ?_⟩
  · unfold dealProto
    simp only []
    rw [hd]
    simp [dealFinish, toRows, Mat.mulRows, List.range_succ, col, dot]
    rw [add_assoc, add_assoc]
  · have h1 : b1 + c1 = b0 + c0 := by linear_combination h
    exact h1.symm
  · unfold dealProto
    simp only []
    rw [hd]
    simp [dealFinish, toRows]
  · unfold dealProto
    simp only []
    rw [hd]
    simp [dealFinish, toRows]

/-- Over GF(16), with the encoding of the code. -/
example : (dealProto (gfCodec 4) 3 2 ⟨3, [[1, 1, 1]]⟩ (fun _ => none) (fun o => o)).finish 1 (fun _ => none)
    ([[ofU32 1], [ofU32 2, ofU32 3], [ofU32 4, ofU32 5, ofU32 6]].map (gfCodec 4).enc) = some [(ofU32 7 : GF 4), 0] := by decide +kernel

end Verif.Props
