import Verif.ByzPipeLemmas
import Verif.Props.ByzDeal
import Verif.Props.ByzTrans

/-! # C130: from the dealing to the transformations, with parties which do not follow the protocols -/

open Polynomial Verif
open Verif.CodeField (ofU32)

namespace Verif.Props

variable {F : Type} [CodeField F] [DecidableEq F]

/-- C130, for messages in `randtrans` of the right lengths, or together of the wrong one (missing: other lengths, for which it is false, see
`C129_private_false`).  At most `t` parties deviate.  They deal what they like in `rand` and `zero`, after they have seen what is dealt to them; the others
use what they get in `randtrans`, in which the deviating parties send what they like after they have seen the messages to them; with the masks which
result, the parties run any number of instances of `reduce_degree` and `trans`, in which the deviating parties do what they like and see all
messages.  If the matrix is such that `t` parties do not determine anything about the results, there is a bijection between the randomness of the dealers for
the inputs `x` and that for the inputs `x'` under which the deviating parties see the same in the dealing, in `randtrans` and at all times of the runs. -/
theorem C130_private_partial (c : Codec F) (ctx : Ctx F) (h : ctx.Good) (hd : ctx.t + 2 * ctx.l ≤ ctx.n) (Cs : Finset Nat) (hC : Coalition ctx Cs)
    (m : Mat F) (hm : DealMat ctx.n m) (hall : m.AllOutputs ctx.t) (gs : List (RtRun F)) (rs : List (MkJob F)) (ok : MkOk ctx gs rs) (br bz : Nat)
    (U : Uses (Use gs rs)) (hU : U.Ok (useR ctx gs rs) (useZ ctx gs rs) (m.rows.length * br) (m.rows.length * bz)) (A : Attack ctx gs) (hA : A.Sized Cs)
    (x x' : Nat → Nat → Env (List F) → List F) (hx : MkSizes rs x) (hx' : MkSizes rs x') :
    ∃ e : DealCoins ctx br bz ≃ DealCoins ctx br bz, ∀ δ, (e δ).known Cs = δ.known Cs ∧ A.heard m Cs rs U (e δ) = A.heard m Cs rs U δ ∧
      ∀ N, A.view m Cs rs U c x' (e δ) N = A.view m Cs rs U c x δ N := by
  obtain ⟨N, hN⟩ := rightInv_of_all hm.1 hall hC.size (fun p hp => by rw [hm.2.1]; exact hC.parties p hp)
  have key : ∀ v : DealKnown ctx, ∃ e : MkCoins ctx gs rs ≃ MkCoins ctx gs rs, ∀ ω, (e ω).known Cs = ω.known Cs ∧
      ∀ N, (Sys.play ctx.n (mkJobs c ctx gs rs x' ((e ω).held (pipeOff Cs A m U br bz v ((e ω).known Cs)))) Cs
          (A.strat v (heardOf Cs A m U br bz v ((e ω).known Cs))) N).1
        = (Sys.play ctx.n (mkJobs c ctx gs rs x (ω.held (pipeOff Cs A m U br bz v (ω.known Cs)))) Cs
          (A.strat v (heardOf Cs A m U br bz v (ω.known Cs))) N).1 := fun v =>
    C129_errors c ctx h hd Cs hC gs rs ok (pipeOff Cs A m U br bz v) (fun kn => pipeOff_sizes h Cs A v kn)
      (fun kn => A.strat v (heardOf Cs A m U br bz v kn)) x x' hx hx'
  choose E hE using key
  have hs : ∀ {ω ω' : MkCoins ctx gs rs}, ω'.known Cs = ω.known Cs → ∀ u : Use gs rs, ∀ p ∈ Cs,
      (splitUses.symm ω' u).randoms p = (splitUses.symm ω u).randoms p ∧ (splitUses.symm ω' u).zeros p = (splitUses.symm ω u).zeros p := by
    intro ω ω' hk u p hp
    unfold MkCoins.known at hk
    cases u with
    | inl k =>
      have := congrFun (congrFun (congrArg Prod.fst hk) k) p
      simp only at this
      rw [if_pos hp, if_pos hp] at this
      exact Prod.mk.inj this
    | inr g =>
      have := congrFun (congrFun (congrArg (fun k => k.2.1) hk) g) p
      simp only at this
      rw [if_pos hp, if_pos hp] at this
      exact Prod.mk.inj this
  obtain ⟨e, he⟩ := deal_lift hU hm hN (fun v => (splitUses.trans (E v)).trans splitUses.symm) (by
    intro v w
    have := hs (hE v (splitUses w)).1
    rw [Equiv.symm_apply_apply] at this
    exact this)
  have hsp : ∀ δ, splitUses (collect hU (e δ)) = E (δ.known Cs) (splitUses (collect hU δ)) := by
    intro δ
    rw [(he δ).2]
    simp
  have hheard : ∀ δ, A.heard m Cs rs U (e δ) = A.heard m Cs rs U δ := by
    intro δ
    rw [heard_eq h ok hU Cs hm hC.parties, heard_eq h ok hU Cs hm hC.parties, hsp, (he δ).1, (hE _ _).1]
  refine ⟨e, fun δ => ⟨(he δ).1, hheard δ, fun M => ?_⟩⟩
  unfold Attack.view
  rw [hheard, heard_eq h ok hU Cs hm hC.parties, pipe_got h hd ok hU Cs hm hC.parties A hA, pipe_got h hd ok hU Cs hm hC.parties A hA, hsp, (he δ).1]
  have := (hE (δ.known Cs) (splitUses (collect hU δ))).2 M
  rw [(hE _ _).1] at this ⊢
  exact this

/-- C130 for the matrix which the programs compute, `src/bin/preproc.rs:89-92`. -/
theorem C130_code_partial (c : Codec F) (ctx : Ctx F) (h : ctx.Good) (hd : ctx.t + 2 * ctx.l ≤ ctx.n) (ht : ctx.t < ctx.n) (hn : ctx.n < CodeField.order F)
    (Cs : Finset Nat) (hC : Coalition ctx Cs) (m : Mat F) (hm : superInvMatrix ctx.n (ctx.n - ctx.t) = some m) (gs : List (RtRun F)) (rs : List (MkJob F))
    (ok : MkOk ctx gs rs) (br bz : Nat) (U : Uses (Use gs rs))
    (hU : U.Ok (useR ctx gs rs) (useZ ctx gs rs) (m.rows.length * br) (m.rows.length * bz)) (A : Attack ctx gs) (hA : A.Sized Cs)
    (x x' : Nat → Nat → Env (List F) → List F) (hx : MkSizes rs x) (hx' : MkSizes rs x') :
    ∃ e : DealCoins ctx br bz ≃ DealCoins ctx br bz, ∀ δ, (e δ).known Cs = δ.known Cs ∧ A.heard m Cs rs U (e δ) = A.heard m Cs rs U δ ∧
      ∀ N, A.view m Cs rs U c x' (e δ) N = A.view m Cs rs U c x δ N :=
  C130_private_partial c ctx h hd Cs hC m (superInv_good ht hn hm).1 (superInv_good ht hn hm).2 gs rs ok br bz U hU A hA x x' hx hx'

/-- 7 parties, three secrets per sharing, and a matrix with 6 rows.  2 batches of random sharings and 3 batches of sharings of zero are dealt; the first ones are used for a multiplication,
the others for one transformation.  Party 3 deviates in all protocols and is the leader of the runs; it cannot tell one sharing which is transformed and then squared from another. -/
example (c : Codec (GF 4)) (a b : (GF 4)[X]) : ∃ (ctx : Ctx (GF 4)) (tf : SharingTransform (GF 4)) (m : Mat (GF 4)), exCtx3 = some ctx ∧
    tf.oldPos = wireToPos ctx.n ctx.l (sortDedup [1, 2]) ∧ superInvMatrix 7 6 = some m ∧ ∀ (tapes : List (List (GF 4))),
      let gs : List (RtRun (GF 4)) := [⟨[tf], 1⟩]
      let rs : List (MkJob (GF 4)) := [⟨[1], [], 3, 1, tapes, some (0, 0)⟩, ⟨[2], [0], 3, 1, tapes, none⟩]
      let U : Uses (Use gs rs) := ⟨fun u i => if u.isLeft then i else 1 + i, fun u i => if u.isLeft then i else 1 + i⟩
      ∀ A : Attack ctx gs, A.Sized {3} → ∃ e : DealCoins ctx 2 3 ≃ DealCoins ctx 2 3, ∀ δ, (e δ).known {3} = δ.known {3} ∧
        A.heard m {3} rs U (e δ) = A.heard m {3} rs U δ ∧
        ∀ N, A.view m {3} rs U c (fun k p env => if k = 0 then [a.eval (ofU32 p)] else [((env 0).getD []).getD 0 0 ^ 2]) (e δ) N
          = A.view m {3} rs U c (fun k p env => if k = 0 then [b.eval (ofU32 p)] else [((env 0).getD []).getD 0 0 ^ 2]) δ N := by
  obtain ⟨ctx, hctx, hg, hn, ht, hl⟩ := exCtx3_good
  have ho : CodeField.order (GF 4) = 16 := by
    show 2 ^ 4 = 16
    norm_num
  obtain ⟨tf, _, h⟩ := tfInp_one hg (ws := [1, 2]) (by rw [hl]; decide) (by
    rw [hn, hl]
    unfold WiresFit
    rw [ho]
    decide)
  obtain ⟨m, hm⟩ : ∃ m, superInvMatrix (F := GF 4) 7 6 = some m := Option.isSome_iff_exists.1 (by decide +kernel)
  have hrows : m.rows.length = 6 := by
    have : (superInvMatrix (F := GF 4) 7 6).map (fun m => m.rows.length) = some 6 := by decide +kernel
    rw [hm] at this
    exact Option.some.inj this
  refine ⟨ctx, tf, m, hctx, h.old, hm, ?_⟩
  intro tapes gs rs U A hA
  have hu : ∀ u u' : Use gs rs, ∀ i < useR ctx gs rs u, ∀ i' < useR ctx gs rs u', (if u.isLeft then i else 1 + i) = (if u'.isLeft then i' else 1 + i') →
      u = u' ∧ i = i' := by
    intro u u' i hi i' hi' he
    rcases u with k | g <;> rcases u' with k' | g'
    · fin_cases k <;> fin_cases k' <;> simp [useR, rs, MkJob.own] at hi hi' he ⊢
      omega
    · fin_cases k <;> fin_cases g' <;> simp [useR, rs, MkJob.own] at hi hi' he
      omega
    · fin_cases k' <;> fin_cases g <;> simp [useR, rs, MkJob.own] at hi hi' he
      omega
    · fin_cases g
      fin_cases g'
      simp at he ⊢
      exact he
  have hz : ∀ u u' : Use gs rs, ∀ i < useZ ctx gs rs u, ∀ i' < useZ ctx gs rs u', (if u.isLeft then i else 1 + i) = (if u'.isLeft then i' else 1 + i') →
      u = u' ∧ i = i' := by
    intro u u' i hi i' hi' he
    rcases u with k | g <;> rcases u' with k' | g'
    · fin_cases k <;> fin_cases k' <;> simp [useZ, rs, MkJob.own] at hi hi' he ⊢
      omega
    · fin_cases k <;> fin_cases g' <;> simp [useZ, rs, MkJob.own] at hi hi' he
      omega
    · fin_cases k' <;> fin_cases g <;> simp [useZ, rs, MkJob.own] at hi hi' he
      omega
    · fin_cases g
      fin_cases g'
      simp at he ⊢
      exact he
  refine C130_code_partial c ctx hg (by omega) (by omega) (by omega) {3} ⟨by simp [hn], by simp [ht]⟩ m (by rw [hn, ht]; exact hm) gs rs
    ⟨?_, ?_, ?_, ?_, ?_, ?_⟩ 2 3 U ⟨?_, ?_, hu, hz⟩ A hA
    (fun k p env => if k = 0 then [b.eval (ofU32 p)] else [((env 0).getD []).getD 0 0 ^ 2])
    (fun k p env => if k = 0 then [a.eval (ofU32 p)] else [((env 0).getD []).getD 0 0 ^ 2]) ?_ ?_
  · intro k d hd
    fin_cases k <;> simp [rs] at hd ⊢
    omega
  · intro k g i hk
    fin_cases k <;> simp [rs] at hk
    obtain ⟨rfl, rfl⟩ := hk
    exact ⟨Nat.one_pos, Nat.one_pos, rfl⟩
  · intro k k' gi hk hk'
    fin_cases k <;> fin_cases k' <;> simp [rs] at hk hk' ⊢
  · intro g hg'
    rw [List.mem_singleton.1 hg', hl]
    simp
  · intro g hg' tf' htf'
    rw [List.mem_singleton.1 hg'] at htf'
    rw [List.mem_singleton.1 htf']
    exact h.ok
  · intro g hg' tf' htf'
    rw [List.mem_singleton.1 hg'] at htf'
    rw [List.mem_singleton.1 htf']
    left
    rw [h.old, h.new, wireToPos, List.length_map, List.length_take, defaultPos_length, hl]
    decide
  · intro u i hi
    rw [hrows]
    rcases u with k | g
    · fin_cases k <;> simp [useR, rs, MkJob.own, U] at hi ⊢
      omega
    · fin_cases g
      simp [useR, gs, hn, ht, U] at hi ⊢
      omega
  · intro u i hi
    rw [hrows]
    rcases u with k | g
    · fin_cases k <;> simp [useZ, rs, MkJob.own, U] at hi ⊢
      omega
    · fin_cases g
      simp [useZ, gs, hn, U] at hi ⊢
      omega
  all_goals
    intro k p env
    fin_cases k <;> rfl

/-- C130 is false without the condition on the lengths, even if all deal as they should: as in `C129_private_false`, whatever is dealt and wherever it is used. -/
theorem C130_private_false (c : Codec F) (hc : c.Ok) (ctx : Ctx F) (h : ctx.Good) (hd : ctx.t + 2 * ctx.l ≤ ctx.n) (hn : ctx.t + ctx.l + 2 < ctx.n)
    (ht : 2 ≤ ctx.t) (m : Mat F) (hm : DealMat ctx.n m) (tf : SharingTransform F) (hok : tf.Ok ctx) (id : ProtocolID) (tapes : List (List F)) (br bz : Nat) :
    let Cs : Finset Nat := {0, ctx.n - 1}
    let gs : List (RtRun F) := [⟨[tf], 1⟩]
    let rs : List (MkJob F) := [⟨id, [], 0, 1, tapes, some (0, 0)⟩]
    ∃ (A : Attack ctx gs) (N : Nat) (b : F[X]), (∀ v hrd g q, ∑ p ∈ Cs, (A.evil v hrd g p q).length = Cs.card * (2 * (gs.get g).num)) ∧
      b.degree < ctx.n ∧ (∀ p ∈ Cs, b.eval (ofU32 p) = 0) ∧ (∀ k < ctx.l, b.eval (ofU32 (ctx.n + k)) ≠ 0) ∧
      ∀ U : Uses (Use gs rs), U.Ok (useR ctx gs rs) (useZ ctx gs rs) (m.rows.length * br) (m.rows.length * bz) →
        ∀ δ δ' : DealCoins ctx br bz, δ'.known Cs = δ.known Cs → A.heard m Cs rs U δ' = A.heard m Cs rs U δ →
          A.view m Cs rs U c (fun _ p _ => [b.eval (ofU32 p)]) δ' N ≠ A.view m Cs rs U c (fun _ _ _ => [0]) δ N := by
  intro Cs gs rs
  obtain ⟨evil, strat, N, b, h1, h2, h3, h4, h5⟩ := C129_private_false c hc ctx h hd hn ht tf hok id tapes
  refine ⟨⟨fairDeal ctx, fun _ _ => evil, fun _ _ => strat⟩, N, b, fun _ _ => h1, h2, h3, h4, fun U hU δ δ' hk hh => ?_⟩
  unfold Attack.view
  rw [fair_got h hU Cs hm rfl, fair_got h hU Cs hm rfl]
  exact h5 _ _ (fair_known h hU Cs hm rfl hk hh)

end Verif.Props
