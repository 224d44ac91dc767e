import Verif.ByzSwap
import Verif.Props.Masks

/-! # C129: what parties which do not follow the protocol learn from transformations, degree reductions and multiplications -/

open Polynomial Verif
open Verif.CodeField (ofU32)

namespace Verif.Props

variable {F : Type} [CodeField F] [DecidableEq F]

/-- Errors which depend on what the parties of `Cs` know. -/
noncomputable def evilOff (ctx : Ctx F) (Cs : Finset Nat) (gs : List (RtRun F)) (rs : List (MkJob F)) (evil : MkKnown gs rs → Fin gs.length → Nat → Nat → List F)
    (m : MkKnown gs rs) (k : Fin rs.length) (q : Nat) : Option (List F × List F) :=
  if q < ctx.n then
    match (rs.get k).tr with
    | none => some (List.replicate (rs.get k).num 0, List.replicate (rs.get k).num 0)
    | some (g, i) =>
      if hg : g < gs.length then
        if i < ctx.l ∧ (rs.get k).num = (gs.get ⟨g, hg⟩).num ∧ ∀ p ∈ Cs, (evil m ⟨g, hg⟩ p q).length = 2 * (gs.get ⟨g, hg⟩).num then
          (rtFinish ctx (gs.get ⟨g, hg⟩).num ((List.range ctx.n).map fun p => (List.range (2 * (gs.get ⟨g, hg⟩).num)).map fun j =>
            if p ∈ Cs then (evil m ⟨g, hg⟩ p q).getD j 0 - ((((RandTransform.new ctx p (gs.get ⟨g, hg⟩).tfs).bind fun tr =>
              rtSend ctx tr (m.2.1 ⟨g, hg⟩ p).1 (m.2.1 ⟨g, hg⟩ p).2).bind fun l => l[q]?).getD []).getD j 0 else 0)).map fun o =>
                (o.1.getD i [], o.2.getD i [])
        else none
      else none
  else none

theorem evilOff_sizes (ctx : Ctx F) (h : ctx.Good) (Cs : Finset Nat) (gs : List (RtRun F)) (rs : List (MkJob F))
    (evil : MkKnown gs rs → Fin gs.length → Nat → Nat → List F) (m : MkKnown gs rs) : MkOff rs (evilOff ctx Cs gs rs evil m) := by
  intro k p o ho
  unfold evilOff at ho
  split_ifs at ho with hp
  cases hk : (rs.get k).tr with
  | none =>
    simp only [hk] at ho
    cases ho
    simp
  | some gi =>
    obtain ⟨g, i⟩ := gi
    simp only [hk] at ho
    split_ifs at ho with hg hi
    rw [rtFinish_any h] at ho
    cases ho
    rw [hi.2.1]
    simp only [defaultPos, List.map_map]
    rw [getD_tab _ _ _ hi.1, getD_tab _ _ _ hi.1]
    simp

/-- The masks which the parties compute from wrong messages are the masks with these errors. -/
theorem got_eq (ctx : Ctx F) (h : ctx.Good) (hd : ctx.t + 2 * ctx.l ≤ ctx.n) (Cs : Finset Nat) (hC : Coalition ctx Cs) (gs : List (RtRun F))
    (rs : List (MkJob F)) (ok : MkOk ctx gs rs) (evil : MkKnown gs rs → Fin gs.length → Nat → Nat → List F) (hev : ∀ m, EvilSizes Cs gs (evil m))
    (ω : MkCoins ctx gs rs) : ω.got Cs (evil (ω.known Cs)) = ω.held (evilOff ctx Cs gs rs evil (ω.known Cs)) := by
  have hfit := h.fit
  funext k q
  unfold MkCoins.got MkCoins.held evilOff
  by_cases hq : q < ctx.n
  swap
  · rw [if_neg hq, if_neg hq]
    rfl
  rw [if_pos hq, if_pos hq]
  have hz : ∀ {a : List F} {num : Nat}, a.length = num → vadd a (List.replicate num 0) = a := by
    intro a num ha
    unfold vadd
    apply List.ext_getElem
    · simp [ha]
    · intro i h1 h2
      simp
  cases hk : (rs.get k).tr with
  | none =>
    simp only [Option.map_some]
    rw [masks_none ω hk, hz ((Coins.randoms_length _ q).trans (own_none hk)), hz ((Coins.zeros_length _ q).trans (own_none hk))]
  | some gi =>
    obtain ⟨g, i⟩ := gi
    obtain ⟨hg, hi, hn⟩ := ok.runs k g i hk
    simp only
    rw [dif_pos hg, dif_pos hg, masks_some ω hk hg]
    have hiL : i < ctx.l := lt_of_lt_of_le hi (ok.count _ (List.get_mem _ _))
    have hmine : ∀ p ∈ Cs, (ω.known Cs).2.1 ⟨g, hg⟩ p = ((ω.2 ⟨g, hg⟩).randoms p, (ω.2 ⟨g, hg⟩).zeros p) := by
      intro p hp
      unfold MkCoins.known
      simp only
      rw [if_pos hp]
    by_cases hE : ∀ p ∈ Cs, (evil (ω.known Cs) ⟨g, hg⟩ p q).length = 2 * (gs.get ⟨g, hg⟩).num
    · rw [if_pos ⟨hiL, hn, hE⟩]
      have := rt_wrong h hd (gs.get ⟨g, hg⟩).tfs (ok.count _ (List.get_mem _ _)) (ok.good _ (List.get_mem _ _)) (ω.2 ⟨g, hg⟩) hq hi Cs
        (fun p => evil (ω.known Cs) ⟨g, hg⟩ p q) hE
      unfold MkCoins.inbox
      rw [this, Option.map_map]
      congr 2
      apply List.map_congr_left
      intro p _
      apply List.map_congr_left
      intro j _
      by_cases hp : p ∈ Cs
      · simp only [if_pos hp]
        rw [hmine p hp]
        rfl
      · simp only [if_neg hp]
    · rw [if_neg (fun hh => hE hh.2.2)]
      have hsum := (hev (ω.known Cs) ⟨g, hg⟩ q).resolve_left hE
      have := rt_short h hd (gs.get ⟨g, hg⟩).tfs (ok.count _ (List.get_mem _ _)) (ok.good _ (List.get_mem _ _)) (ω.2 ⟨g, hg⟩) hq Cs hC.parties
        (fun p => evil (ω.known Cs) ⟨g, hg⟩ p q) hsum
      unfold MkCoins.inbox
      revert this
      generalize ((List.range ctx.n).mapM fun p => if p ∈ Cs then some (evil (ω.known Cs) ⟨g, hg⟩ p q)
        else (rtMessages ctx (gs.get ⟨g, hg⟩).tfs (ω.2 ⟨g, hg⟩) p).bind fun m => m[q]?) = X
      intro this
      cases X with
      | none => rfl
      | some box =>
        rw [Option.bind_some] at this ⊢
        rw [this]
        rfl

/-- C129, with any errors in the masks.  At most `t` parties deviate as in C127; the runs are runs of `reduce_degree` and of `trans`, with masks from `randtrans`.
The masks may contain errors (`off`), chosen by the deviating parties depending on what they know. -/
theorem C129_errors (c : Codec F) (ctx : Ctx F) (h : ctx.Good) (hd : ctx.t + 2 * ctx.l ≤ ctx.n) (Cs : Finset Nat) (hC : Coalition ctx Cs)
    (gs : List (RtRun F)) (rs : List (MkJob F)) (ok : MkOk ctx gs rs) (off : MkKnown gs rs → Fin rs.length → Nat → Option (List F × List F))
    (hoff : ∀ m, MkOff rs (off m)) (strat : MkKnown gs rs → List (Sys Unit) → ByzStep) (x x' : Nat → Nat → Env (List F) → List F)
    (hx : MkSizes rs x) (hx' : MkSizes rs x') :
    ∃ e : MkCoins ctx gs rs ≃ MkCoins ctx gs rs, ∀ ω, (e ω).known Cs = ω.known Cs ∧
      ∀ N, (Sys.play ctx.n (mkJobs c ctx gs rs x' ((e ω).held (off ((e ω).known Cs)))) Cs (strat ((e ω).known Cs)) N).1
        = (Sys.play ctx.n (mkJobs c ctx gs rs x (ω.held (off (ω.known Cs)))) Cs (strat (ω.known Cs)) N).1 :=
  (mkMasked h hd hC ok c hoff).private strat hx hx'

/-- C129, for messages in `randtrans` of the right lengths, or of the wrong total length.  Missing: other lengths, for which it is false (`C129_private_false`).
At most `t` parties deviate as in C127; the runs are runs of `reduce_degree` and of `trans`.  The masks of `trans` come from runs of `randtrans`, in which the
deviating parties first see what they get and then send to the others what they like (`evil`).  There is a bijection between the coins for the inputs `x`
and the coins for the inputs `x'` under which the deviating parties know the same before the runs and see the same during the runs, at all times. -/
theorem C129_private_partial (c : Codec F) (ctx : Ctx F) (h : ctx.Good) (hd : ctx.t + 2 * ctx.l ≤ ctx.n) (Cs : Finset Nat) (hC : Coalition ctx Cs)
    (gs : List (RtRun F)) (rs : List (MkJob F)) (ok : MkOk ctx gs rs) (evil : MkKnown gs rs → Fin gs.length → Nat → Nat → List F)
    (hev : ∀ m, EvilSizes Cs gs (evil m)) (strat : MkKnown gs rs → List (Sys Unit) → ByzStep) (x x' : Nat → Nat → Env (List F) → List F)
    (hx : MkSizes rs x) (hx' : MkSizes rs x') :
    ∃ e : MkCoins ctx gs rs ≃ MkCoins ctx gs rs, ∀ ω, (e ω).known Cs = ω.known Cs ∧
      ∀ N, (Sys.play ctx.n (mkJobs c ctx gs rs x' ((e ω).got Cs (evil ((e ω).known Cs)))) Cs (strat ((e ω).known Cs)) N).1
        = (Sys.play ctx.n (mkJobs c ctx gs rs x (ω.got Cs (evil (ω.known Cs)))) Cs (strat (ω.known Cs)) N).1 := by
  obtain ⟨e, he⟩ := C129_errors c ctx h hd Cs hC gs rs ok (evilOff ctx Cs gs rs evil) (evilOff_sizes ctx h Cs gs rs evil) strat x x' hx hx'
  refine ⟨e, fun ω => ?_⟩
  rw [got_eq ctx h hd Cs hC gs rs ok evil hev, got_eq ctx h hd Cs hC gs rs ok evil hev]
  exact he ω

/-- C129, in numbers: of the coins with which the deviating parties know certain values, as many lead to a certain view with `x` as with `x'`. -/
theorem C129_count_partial (c : Codec F) (ctx : Ctx F) (h : ctx.Good) (hd : ctx.t + 2 * ctx.l ≤ ctx.n) (Cs : Finset Nat) (hC : Coalition ctx Cs)
    (gs : List (RtRun F)) (rs : List (MkJob F)) (ok : MkOk ctx gs rs) (evil : MkKnown gs rs → Fin gs.length → Nat → Nat → List F)
    (hev : ∀ m, EvilSizes Cs gs (evil m)) (strat : MkKnown gs rs → List (Sys Unit) → ByzStep) (x x' : Nat → Nat → Env (List F) → List F)
    (hx : MkSizes rs x) (hx' : MkSizes rs x') (mine : MkKnown gs rs) (N : Nat) (seen : List (Sys Unit)) :
    Nat.card {ω : MkCoins ctx gs rs // ω.known Cs = mine ∧ (Sys.play ctx.n (mkJobs c ctx gs rs x (ω.got Cs (evil mine))) Cs (strat mine) N).1 = seen}
      = Nat.card {ω : MkCoins ctx gs rs // ω.known Cs = mine ∧
          (Sys.play ctx.n (mkJobs c ctx gs rs x' (ω.got Cs (evil mine))) Cs (strat mine) N).1 = seen} := by
  obtain ⟨e, he⟩ := C129_private_partial c ctx h hd Cs hC gs rs ok evil hev strat x x' hx hx'
  refine Nat.card_congr (e.subtypeEquiv fun ω => ?_)
  obtain ⟨h1, h2⟩ := he ω
  rw [h1]
  constructor
  · rintro ⟨rfl, h4⟩
    refine ⟨rfl, ?_⟩
    have := h2 N
    rw [h1] at this
    rw [this, h4]
  · rintro ⟨rfl, h4⟩
    refine ⟨rfl, ?_⟩
    have := h2 N
    rw [h1] at this
    rw [← this, h4]

/-- 7 parties, three secrets per sharing.  A sharing of the values of wires 1 and 2 is transformed, and its result is squared.  Party 3 deviates and is the leader of
both runs; whatever it does in `randtrans` and then, it cannot tell one sharing from another. -/
example (c : Codec (GF 4)) (a b : (GF 4)[X]) : ∃ (ctx : Ctx (GF 4)) (tf : SharingTransform (GF 4)), exCtx3 = some ctx ∧
    tf.oldPos = wireToPos ctx.n ctx.l (sortDedup [1, 2]) ∧ ∀ (tapes : List (List (GF 4))),
      let gs : List (RtRun (GF 4)) := [⟨[tf], 1⟩]
      let rs : List (MkJob (GF 4)) := [⟨[1], [], 3, 1, tapes, some (0, 0)⟩, ⟨[2], [0], 3, 1, tapes, none⟩]
      ∀ (evil : MkKnown gs rs → Fin gs.length → Nat → Nat → List (GF 4)), (∀ m, EvilSizes {3} gs (evil m)) →
        ∀ strat : MkKnown gs rs → List (Sys Unit) → ByzStep, ∃ e : MkCoins ctx gs rs ≃ MkCoins ctx gs rs, ∀ ω, (e ω).known {3} = ω.known {3} ∧
          ∀ N, (Sys.play ctx.n (mkJobs c ctx gs rs (fun k p env => if k = 0 then [a.eval (ofU32 p)] else [((env 0).getD []).getD 0 0 ^ 2])
              ((e ω).got {3} (evil ((e ω).known {3})))) {3} (strat ((e ω).known {3})) N).1
            = (Sys.play ctx.n (mkJobs c ctx gs rs (fun k p env => if k = 0 then [b.eval (ofU32 p)] else [((env 0).getD []).getD 0 0 ^ 2])
              (ω.got {3} (evil (ω.known {3})))) {3} (strat (ω.known {3})) N).1 := by
  obtain ⟨ctx, hctx, hg, hn, ht, hl⟩ := exCtx3_good
  have ho : CodeField.order (GF 4) = 16 := by
    show 2 ^ 4 = 16
    norm_num
  obtain ⟨tf, _, h⟩ := tfInp_one hg (ws := [1, 2]) (by rw [hl]; decide) (by
    rw [hn, hl]
    unfold WiresFit
    rw [ho]
    decide)
  refine ⟨ctx, tf, hctx, h.old, ?_⟩
  intro tapes gs rs evil hev strat
  refine C129_private_partial c ctx hg (by omega) {3} ⟨by rw [hn]; decide, by rw [ht]; decide⟩ gs rs ⟨?_, ?_, ?_, ?_, ?_, ?_⟩ evil hev strat
    (fun k p env => if k = 0 then [b.eval (ofU32 p)] else [((env 0).getD []).getD 0 0 ^ 2])
    (fun k p env => if k = 0 then [a.eval (ofU32 p)] else [((env 0).getD []).getD 0 0 ^ 2]) ?_ ?_
  · intro k d hd
    fin_cases k <;> simp [rs] at hd ⊢
    omega
  · intro k g i hk
    fin_cases k <;> simp [rs] at hk
    obtain ⟨rfl, rfl⟩ := hk
    exact ⟨Nat.one_pos, Nat.one_pos, rfl⟩
  · intro k k' gi hk hk'
    fin_cases k <;> fin_cases k' <;> simp [rs] at hk hk' ⊢
  · intro g hg'
    rw [List.mem_singleton.1 hg', hl]
    simp
  · intro g hg' tf' htf'
    rw [List.mem_singleton.1 hg'] at htf'
    rw [List.mem_singleton.1 htf']
    exact h.ok
  · intro g hg' tf' htf'
    rw [List.mem_singleton.1 hg'] at htf'
    rw [List.mem_singleton.1 htf']
    left
    rw [h.old, h.new, wireToPos, List.length_map, List.length_take, defaultPos_length, hl]
    decide
  all_goals
    intro k p env
    fin_cases k <;> rfl

/-- The masks for one run. -/
theorem got_one (ctx : Ctx F) (Cs : Finset Nat) (tf : SharingTransform F) (id : ProtocolID) (tapes : List (List F)) (ev : Nat → List F)
    (ω : MkCoins ctx [⟨[tf], 1⟩] [⟨id, [], 0, 1, tapes, some (0, 0)⟩]) {q : Nat} (hq : q < ctx.n) :
    ω.got Cs (fun _ p _ => ev p) 0 q = (((List.range ctx.n).mapM fun p => if p ∈ Cs then some (ev p) else
      (rtMessages ctx [tf] (ω.2 0) p).bind fun m => m[q]?).bind fun box => (rtFinish ctx 1 box).map fun o => (o.1.getD 0 [], o.2.getD 0 [])) := by
  unfold MkCoins.got
  rw [if_pos hq]
  rfl

theorem jobs_one (c : Codec F) (ctx : Ctx F) (tf : SharingTransform F) (id : ProtocolID) (tapes : List (List F)) (x : Nat → F)
    (held : Fin 1 → Nat → Option (List F × List F)) :
    mkJobs c ctx [⟨[tf], 1⟩] [⟨id, [], 0, 1, tapes, some (0, 0)⟩] (fun _ p _ => [x p]) held
      = [⟨id, [], transProto c ctx tf 0 tapes (fun p _ => (held 0 p).map fun m => ([x p], m)) fun o => o⟩] := by
  unfold mkJobs
  rfl

/-- C129 without the condition on the lengths, for one deviating party. -/
theorem C129_one (c : Codec F) (ctx : Ctx F) (h : ctx.Good) (hd : ctx.t + 2 * ctx.l ≤ ctx.n) (a : Nat) (ha : a < ctx.n) (ht : 1 ≤ ctx.t)
    (gs : List (RtRun F)) (rs : List (MkJob F)) (ok : MkOk ctx gs rs) (evil : MkKnown gs rs → Fin gs.length → Nat → Nat → List F)
    (strat : MkKnown gs rs → List (Sys Unit) → ByzStep) (x x' : Nat → Nat → Env (List F) → List F) (hx : MkSizes rs x) (hx' : MkSizes rs x') :
    ∃ e : MkCoins ctx gs rs ≃ MkCoins ctx gs rs, ∀ ω, (e ω).known {a} = ω.known {a} ∧
      ∀ N, (Sys.play ctx.n (mkJobs c ctx gs rs x' ((e ω).got {a} (evil ((e ω).known {a})))) {a} (strat ((e ω).known {a})) N).1
        = (Sys.play ctx.n (mkJobs c ctx gs rs x (ω.got {a} (evil (ω.known {a})))) {a} (strat (ω.known {a})) N).1 := by
  refine C129_private_partial c ctx h hd {a} ⟨by simpa using ha, by simpa using ht⟩ gs rs ok evil (fun m g q => ?_) strat x x' hx hx'
  by_cases he : (evil m g a q).length = 2 * (gs.get g).num
  · exact Or.inl fun p hp => by rw [Finset.mem_singleton.1 hp]; exact he
  · right
    rw [Finset.sum_singleton, Finset.card_singleton, one_mul]
    exact he

/-- C129 is false without the condition on the lengths.  The first and the last party deviate, and the first one is the leader of a run of `trans`.  In `randtrans` the first
party sends one value too many and the last one value too few, which nobody notices.  Then the masks for the run are sharings of too low a degree, and both parties tell certain
sharings from others, of which they have the same shares. -/
theorem C129_private_false (c : Codec F) (hc : c.Ok) (ctx : Ctx F) (h : ctx.Good) (hd : ctx.t + 2 * ctx.l ≤ ctx.n) (hn : ctx.t + ctx.l + 2 < ctx.n)
    (ht : 2 ≤ ctx.t) (tf : SharingTransform F) (hok : tf.Ok ctx) (id : ProtocolID) (tapes : List (List F)) :
    let Cs : Finset Nat := {0, ctx.n - 1}
    let gs : List (RtRun F) := [⟨[tf], 1⟩]
    let rs : List (MkJob F) := [⟨id, [], 0, 1, tapes, some (0, 0)⟩]
    ∃ (evil : Fin gs.length → Nat → Nat → List F) (strat : List (Sys Unit) → ByzStep) (N : Nat) (b : F[X]),
      (∀ g q, ∑ p ∈ Cs, (evil g p q).length = Cs.card * (2 * (gs.get g).num)) ∧ b.degree < ctx.n ∧ (∀ p ∈ Cs, b.eval (ofU32 p) = 0) ∧
      (∀ k < ctx.l, b.eval (ofU32 (ctx.n + k)) ≠ 0) ∧
      ∀ ω ω' : MkCoins ctx gs rs, ω'.known Cs = ω.known Cs →
        (Sys.play ctx.n (mkJobs c ctx gs rs (fun _ p _ => [b.eval (ofU32 p)]) (ω'.got Cs evil)) Cs strat N).1
          ≠ (Sys.play ctx.n (mkJobs c ctx gs rs (fun _ _ _ => [0]) (ω.got Cs evil)) Cs strat N).1 := by
  intro Cs gs rs
  have hfit := h.fit
  have hl := h.posL
  have hinj : ∀ {i j : Nat}, i < ctx.n + ctx.l → j < ctx.n + ctx.l → (ofU32 i : F) = ofU32 j → i = j := fun hi hj he =>
    CodeField.ofU32_inj _ _ (by omega) (by omega) he
  obtain ⟨b, hb⟩ : ∃ b : F[X], b = (X - C (ofU32 0)) * (X - C (ofU32 (ctx.n - 1))) ^ (ctx.t + ctx.l - 1) := ⟨_, rfl⟩
  have hmonic : b.Monic := by
    rw [hb]
    exact (monic_X_sub_C _).mul ((monic_X_sub_C _).pow _)
  have hdeg : b.natDegree = ctx.t + ctx.l := by
    rw [hb, (monic_X_sub_C _).natDegree_mul ((monic_X_sub_C _).pow _), natDegree_X_sub_C, (monic_X_sub_C _).natDegree_pow, natDegree_X_sub_C]
    omega
  refine ⟨fun _ p _ => if p = 0 then [0, 0, 0] else [0], actAll, 2 * ctx.n + 1, b, ?_, ?_, ?_, ?_, ?_⟩
  · intro g q
    fin_cases g
    rw [Finset.sum_pair (by omega), Finset.card_pair (by omega)]
    change (if (0 : Nat) = 0 then [(0 : F), 0, 0] else [0]).length + (if ctx.n - 1 = 0 then [(0 : F), 0, 0] else [0]).length = 2 * (2 * 1)
    rw [if_pos rfl, if_neg (by omega)]
    rfl
  · rw [degree_eq_natDegree hmonic.ne_zero, hdeg]
    exact_mod_cast (show ctx.t + ctx.l < ctx.n by omega)
  · intro p hp
    rcases Finset.mem_insert.1 hp with rfl | hp
    · rw [hb]
      simp
    · rw [Finset.mem_singleton.1 hp, hb]
      simp only [eval_mul, eval_pow, eval_sub, eval_X, eval_C, sub_self]
      rw [zero_pow (by omega), mul_zero]
  · intro k hk
    rw [hb]
    simp only [eval_mul, eval_pow, eval_sub, eval_X, eval_C]
    refine mul_ne_zero (sub_ne_zero.2 fun he => ?_) (pow_ne_zero _ (sub_ne_zero.2 fun he => ?_))
    · have := hinj (by omega) (by omega) he
      omega
    · have := hinj (by omega) (by omega) he
      omega
  intro ω ω' hknown heq
  -- the masks
  obtain ⟨R, own, hR, hown, hmask⟩ := swap_masks h hd (by omega) tf hl hok (ω.2 0)
  obtain ⟨R', own', hR', hown', hmask'⟩ := swap_masks h hd (by omega) tf hl hok (ω'.2 0)
  have hsame : ∀ q < ctx.n, (sharePoly ctx.n fun p => if p ∈ Cs then own' p q else 0) = sharePoly ctx.n fun p => if p ∈ Cs then own p q else 0 := by
    intro q hq
    refine sharePoly_congr fun p hp => ?_
    by_cases hpC : p ∈ Cs
    · rw [if_pos hpC, if_pos hpC, hown p hp q hq, hown' p hp q hq]
      have hk := congrFun (congrFun (congrArg (fun m => m.2.1) hknown) 0) p
      unfold MkCoins.known at hk
      simp only at hk
      rw [if_pos hpC, if_pos hpC] at hk
      exact congrArg₂ (fun a b => ((((RandTransform.new ctx p [tf]).bind fun tr => rtSend ctx tr a b).bind fun m => m[q]?).getD []).getD 0 0)
        (Prod.mk.inj hk).1 (Prod.mk.inj hk).2
    · rw [if_neg hpC, if_neg hpC]
  have hgot : ∀ q < ctx.n, ∃ r1, ω.got Cs (fun _ p _ => if p = 0 then [0, 0, 0] else [0]) 0 q
      = some (r1, [R.eval (ofU32 q) - (sharePoly ctx.n fun p => if p ∈ Cs then own p q else 0).eval (ofU32 ctx.n)]) := by
    intro q hq
    obtain ⟨r1, hr⟩ := hmask q hq
    refine ⟨r1, ?_⟩
    rw [← hr]
    exact got_one ctx Cs tf id tapes _ ω hq
  have hgot' : ∀ q < ctx.n, ∃ r1, ω'.got Cs (fun _ p _ => if p = 0 then [0, 0, 0] else [0]) 0 q
      = some (r1, [R'.eval (ofU32 q) - (sharePoly ctx.n fun p => if p ∈ Cs then own p q else 0).eval (ofU32 ctx.n)]) := by
    intro q hq
    obtain ⟨r1, hr⟩ := hmask' q hq
    refine ⟨r1, ?_⟩
    rw [← hsame q hq, ← hr]
    exact got_one ctx Cs tf id tapes _ ω' hq
  -- the messages
  have hs : ∀ (w : MkCoins ctx gs rs) (S : F[X]) (x : Nat → F), (∀ q < ctx.n, ∃ r1, w.got Cs (fun _ p _ => if p = 0 then [0, 0, 0] else [0]) 0 q
      = some (r1, [S.eval (ofU32 q) - (sharePoly ctx.n fun p => if p ∈ Cs then own p q else 0).eval (ofU32 ctx.n)])) →
      ∀ p < ctx.n, p ∉ Cs → (Sys.play ctx.n (mkJobs c ctx gs rs (fun _ p _ => [x p]) (w.got Cs fun _ p _ => if p = 0 then [0, 0, 0] else [0])) Cs actAll
        (2 * ctx.n)).2.sent 0 p 0
          = [c.enc [S.eval (ofU32 p) - (sharePoly ctx.n fun p' => if p' ∈ Cs then own p' p else 0).eval (ofU32 ctx.n) + x p]] := by
    intro w S x hw
    rw [jobs_one c ctx tf id tapes x]
    refine (actAll_sent ctx.n Cs id _ 0 (by omega)
      (fun p => c.enc [S.eval (ofU32 p) - (sharePoly ctx.n fun p' => if p' ∈ Cs then own p' p else 0).eval (ofU32 ctx.n) + x p]) ?_ ctx.n le_rfl).2
    intro p hp _
    obtain ⟨r1, hr⟩ := hw p hp
    unfold transProto
    simp only
    rw [hr]
    rfl
  have s1 := hs ω R (fun _ => 0) hgot
  have s2 := hs ω' R' (fun p => b.eval (ofU32 p)) hgot'
  have hsent : ∀ p, (Sys.play ctx.n (mkJobs c ctx gs rs (fun _ p _ => [b.eval (ofU32 p)]) (ω'.got Cs fun _ p _ => if p = 0 then [0, 0, 0] else [0])) Cs actAll
        (2 * ctx.n)).2.sent 0 p 0
      = (Sys.play ctx.n (mkJobs c ctx gs rs (fun _ _ _ => [0]) (ω.got Cs fun _ p _ => if p = 0 then [0, 0, 0] else [0])) Cs actAll
        (2 * ctx.n)).2.sent 0 p 0 := by
    exact fun p => seen_sent ctx.n _ _ Cs actAll (2 * ctx.n) heq 0 p 0
  have hpoly : ∀ p < ctx.n, p ∉ Cs → (R' + b - R).eval (ofU32 p) = 0 := by
    intro p hp hpC
    have h3 := hsent p
    rw [s1 p hp hpC, s2 p hp hpC] at h3
    have h4 := congrArg c.dec (List.cons.inj h3).1
    rw [hc _ (by simp), hc _ (by simp)] at h4
    have h5 := (List.cons.inj (Option.some.inj h4)).1
    rw [eval_sub, eval_add]
    linear_combination h5
  -- which is too many places
  have hbig : (R' + b - R).natDegree = ctx.t + ctx.l ∧ R' + b - R ≠ 0 := by
    have hlt : (R' - R).degree < b.degree := by
      rw [degree_eq_natDegree hmonic.ne_zero, hdeg]
      exact lt_of_le_of_lt (degree_sub_le _ _) (max_lt hR' hR)
    have e : R' + b - R = b + (R' - R) := by ring
    rw [e]
    refine ⟨by rw [natDegree_add_eq_left_of_degree_lt hlt, hdeg], fun h0 => ?_⟩
    have := degree_add_eq_left_of_degree_lt hlt
    rw [h0, degree_zero, degree_eq_natDegree hmonic.ne_zero] at this
    exact absurd this (by simp)
  refine hbig.2 (Polynomial.eq_zero_of_natDegree_lt_card_of_eval_eq_zero' (R' + b - R) ((Finset.Ico 1 (ctx.n - 1)).image fun i => (ofU32 i : F)) ?_ ?_)
  · intro x hx
    obtain ⟨p, hp, rfl⟩ := Finset.mem_image.1 hx
    obtain ⟨hp1, hp2⟩ := Finset.mem_Ico.1 hp
    exact hpoly p (by omega) (by simp [Cs]; omega)
  · rw [hbig.1, Finset.card_image_of_injOn, Nat.card_Ico]
    · omega
    · intro i hi j hj hij
      have := Finset.mem_Ico.1 hi
      have := Finset.mem_Ico.1 hj
      exact hinj (by omega) (by omega) hij

/-- 7 parties, of which 2 may deviate, and two secrets per sharing. -/
example (c : Codec (GF 4)) (hc : c.Ok) : ∃ (ctx : Ctx (GF 4)) (tf : SharingTransform (GF 4)), ctx.Good ∧ ctx.n = 7 ∧ ctx.t = 2 ∧ ctx.l = 2 ∧ tf.Ok ctx ∧
    ∃ (evil : Nat → Nat → List (GF 4)) (strat : List (Sys Unit) → ByzStep) (N : Nat) (b : (GF 4)[X]), b.eval (ofU32 0) = 0 ∧ b.eval (ofU32 6) = 0 ∧
      b.eval (ofU32 7) ≠ 0 ∧ ∀ ω ω' : MkCoins ctx [⟨[tf], 1⟩] [⟨[5], [], 0, 1, [], some (0, 0)⟩], ω'.known {0, 6} = ω.known {0, 6} →
        (Sys.play ctx.n (mkJobs c ctx [⟨[tf], 1⟩] [⟨[5], [], 0, 1, [], some (0, 0)⟩] (fun _ p _ => [b.eval (ofU32 p)]) (ω'.got {0, 6} fun _ => evil)) {0, 6} strat N).1
          ≠ (Sys.play ctx.n (mkJobs c ctx [⟨[tf], 1⟩] [⟨[5], [], 0, 1, [], some (0, 0)⟩] (fun _ _ _ => [0]) (ω.got {0, 6} fun _ => evil)) {0, 6} strat N).1 := by
  have h1 : ∃ pss : PackedSharing (GF 4), PackedSharing.new (2 + 2 - 1) 7 (defaultPos 7 2) = some pss := by
    unfold PackedSharing.new; exact ⟨_, rfl⟩
  have h2 : ∃ pss : PackedSharing (GF 4), PackedSharing.new (7 - 1) 7 (defaultPos 7 2) = some pss := by
    unfold PackedSharing.new; exact ⟨_, rfl⟩
  obtain ⟨p, hp⟩ := h1
  obtain ⟨q, hq⟩ := h2
  have ho : CodeField.order (GF 4) = 16 := by
    show 2 ^ 4 = 16
    norm_num
  have hg : Ctx.Good (F := GF 4) ⟨7, 2, 2, p, q⟩ := ⟨hp, hq, by norm_num, by rw [ho]; norm_num⟩
  obtain ⟨tf, _, h⟩ := tfInp_one hg (ws := [1, 2]) (by show 2 ≤ 2; decide) (by
    unfold WiresFit
    rw [ho]
    show ∀ w ∈ [1, 2], 7 + 2 + w < 16
    decide)
  obtain ⟨evil, strat, N, b, -, -, e1, e2, e3⟩ := C129_private_false c hc ⟨7, 2, 2, p, q⟩ hg (by norm_num) (by norm_num) (by norm_num) tf h.ok [5] []
  refine ⟨⟨7, 2, 2, p, q⟩, tf, hg, rfl, rfl, rfl, h.ok, evil 0, strat, N, b, e1 0 (by simp), e1 6 (by simp), e2 0 (by norm_num), ?_⟩
  intro ω ω' hk
  have he : (fun _ => evil 0) = evil := by
    funext g
    exact congrArg evil (Fin.ext (by have := g.isLt; simp at this ⊢))
  rw [he]
  exact e3 ω ω' hk

end Verif.Props
