import Verif.ByzDealLemmas
import Verif.Props.ByzPrivacy
import Verif.Props.PrivacyPreproc

/-! # C128: masks which were dealt by parties which do not follow the protocol -/

open Polynomial Verif
open Verif.CodeField (ofU32)

namespace Verif.Props

variable {F : Type} [CodeField F] [DecidableEq F]

/-- C128: whatever the parties of `Cs` deal, all parties accept it and get the same number of shares as always. -/
theorem C128_deals (n batches : Nat) (hn : n ≤ CodeField.order F) (m : Mat F) (hm : DealMat n m) (Cs : Finset Nat) (own : Nat → Nat → F[X])
    (adv : Nat → Nat → Nat → F) :
    ∃ out, dealWith n batches m Cs own adv = some out ∧ out.length = n ∧ ∀ v ∈ out, v.length = m.rows.length * batches := by
  refine ⟨_, dealWith_eq hn hm Cs own adv, by simp [tabShares], fun v hv => ?_⟩
  obtain ⟨p, _, rfl⟩ := List.mem_map.1 hv
  simp

/-- C128, `rand` and `zero` followed by any number of runs of `reduce_degree`.  At most `t` parties see what the other parties deal to them and then
deal what they like, depending on this (`cheat`); in the runs of `reduce_degree` they do what they like and see all messages (C127).  Provided that the
matrix is such that `t` parties do not determine anything about the results, there is a bijection between the randomness of the dealers with
the inputs `x` and that with the inputs `x'` under which the deviating parties get the same shares and see the same at all times. -/
theorem C128_private (c : Codec F) (ctx : Ctx F) (h : ctx.Good) (Cs : Finset Nat) (hC : Coalition ctx Cs) (m : Mat F) (hm : DealMat ctx.n m)
    (hall : m.AllOutputs ctx.t) (br bz : Nat) (rs : List (RdJob F)) (ho : RdOrder rs) (U : Uses (Fin rs.length))
    (hU : U.Ok (runNum rs) (runNum rs) (m.rows.length * br) (m.rows.length * bz)) (cheat : (Fin ctx.n → Nat → List F × List F) → Cheat F)
    (strat : (Fin ctx.n → Nat → List F × List F) → List (Sys Unit) → ByzStep) (x x' : Nat → Nat → Env (List F) → List F)
    (hx : RdSizes rs x) (hx' : RdSizes rs x') :
    ∃ e : DealCoins ctx br bz ≃ DealCoins ctx br bz, ∀ δ, (e δ).known Cs = δ.known Cs ∧
      ∀ N, (Sys.play ctx.n (rdJobs c ctx rs x' (dealtHeld ctx m Cs rs U (cheat ((e δ).known Cs)) (e δ))) Cs (strat ((e δ).known Cs)) N).1
        = (Sys.play ctx.n (rdJobs c ctx rs x (dealtHeld ctx m Cs rs U (cheat (δ.known Cs)) δ)) Cs (strat (δ.known Cs)) N).1 := by
  obtain ⟨N, hN⟩ := rightInv_of_all hm.1 hall hC.size (fun p hp => by rw [hm.2.1]; exact hC.parties p hp)
  have key : ∀ v : Fin ctx.n → Nat → List F × List F, ∃ e : RdCoins ctx rs ≃ RdCoins ctx rs, ∀ ω, (e ω).known Cs = ω.known Cs ∧
      ∀ N, (Sys.play ctx.n (rdJobs c ctx rs x' ((e ω).held (dealOffs ctx m Cs U (runNum rs) (runNum rs) br bz (cheat v) v))) Cs (strat v) N).1
        = (Sys.play ctx.n (rdJobs c ctx rs x (ω.held (dealOffs ctx m Cs U (runNum rs) (runNum rs) br bz (cheat v) v))) Cs (strat v) N).1 := fun v =>
    C127_private c ctx h Cs hC rs ho (fun _ => dealOffs ctx m Cs U (runNum rs) (runNum rs) br bz (cheat v) v) (fun _ k p => dealOffs_sizes Cs _ _ k p) (fun _ => strat v) x x' hx hx'
  choose E hE using key
  have hs : ∀ {ω ω' : RdCoins ctx rs}, ω'.known Cs = ω.known Cs → ∀ k, ∀ p ∈ Cs, (ω' k).randoms p = (ω k).randoms p ∧ (ω' k).zeros p = (ω k).zeros p := by
    intro ω ω' hk k p hp
    have := congrFun (congrFun hk k) p
    unfold RdCoins.known at this
    rw [if_pos hp, if_pos hp] at this
    exact Prod.mk.inj this
  obtain ⟨e, he⟩ := deal_lift hU hm hN E fun v ω => hs (hE v ω).1
  refine ⟨e, fun δ => ⟨(he δ).1, fun M => ?_⟩⟩
  have h1 := (play_congr c x' (fun k p hp => dealtFor_eq h hU hm Cs (cheat ((e δ).known Cs)) (e δ) k hp) Cs (strat ((e δ).known Cs)) M).1
  have h2 := (play_congr c x (fun k p hp => dealtFor_eq h hU hm Cs (cheat (δ.known Cs)) δ k hp) Cs (strat (δ.known Cs)) M).1
  rw [(he δ).2, (he δ).1] at h1
  refine Eq.trans ?_ (((hE _ _).2 M).trans h2.symm)
  rw [(he δ).1]
  exact h1

/-- C128, for `mult`. -/
theorem C128_mult (c : Codec F) (ctx : Ctx F) (h : ctx.Good) (Cs : Finset Nat) (hC : Coalition ctx Cs) (m : Mat F) (hm : DealMat ctx.n m)
    (hall : m.AllOutputs ctx.t) (br bz : Nat) (rs : List (RdJob F)) (ho : RdOrder rs) (U : Uses (Fin rs.length))
    (hU : U.Ok (runNum rs) (runNum rs) (m.rows.length * br) (m.rows.length * bz)) (cheat : (Fin ctx.n → Nat → List F × List F) → Cheat F)
    (strat : (Fin ctx.n → Nat → List F × List F) → List (Sys Unit) → ByzStep) (x y x' y' : Nat → Nat → Env (List F) → List F)
    (hx : RdSizes rs x) (hy : RdSizes rs y) (hx' : RdSizes rs x') (hy' : RdSizes rs y') :
    ∃ e : DealCoins ctx br bz ≃ DealCoins ctx br bz, ∀ δ, (e δ).known Cs = δ.known Cs ∧
      ∀ N, (Sys.play ctx.n (multJobs c ctx rs x' y' (dealtHeld ctx m Cs rs U (cheat ((e δ).known Cs)) (e δ))) Cs (strat ((e δ).known Cs)) N).1
        = (Sys.play ctx.n (multJobs c ctx rs x y (dealtHeld ctx m Cs rs U (cheat (δ.known Cs)) δ)) Cs (strat (δ.known Cs)) N).1 := by
  have hs : ∀ {x y : Nat → Nat → Env (List F) → List F}, RdSizes rs x → RdSizes rs y → RdSizes rs (fun k p env => vmul (x k p env) (y k p env)) := by
    intro x y hx hy k p env
    unfold vmul
    rw [List.length_zipWith, hx k, hy k, Nat.min_self]
  obtain ⟨e, he⟩ := C128_private c ctx h Cs hC m hm hall br bz rs ho U hU cheat strat _ _ (hs hx hy) (hs hx' hy')
  refine ⟨e, fun δ => ?_⟩
  rw [multJobs_eq c ctx rs x y hx hy, multJobs_eq c ctx rs x' y' hx' hy']
  exact he δ

/-- C128 for the matrix which the programs compute, `src/bin/preproc.rs:89-92`. -/
theorem C128_code (c : Codec F) (ctx : Ctx F) (h : ctx.Good) (ht : ctx.t < ctx.n) (hn : ctx.n < CodeField.order F) (Cs : Finset Nat)
    (hC : Coalition ctx Cs) (m : Mat F) (hm : superInvMatrix ctx.n (ctx.n - ctx.t) = some m) (br bz : Nat) (rs : List (RdJob F)) (ho : RdOrder rs)
    (U : Uses (Fin rs.length)) (hU : U.Ok (runNum rs) (runNum rs) (m.rows.length * br) (m.rows.length * bz)) (cheat : (Fin ctx.n → Nat → List F × List F) → Cheat F)
    (strat : (Fin ctx.n → Nat → List F × List F) → List (Sys Unit) → ByzStep) (x x' : Nat → Nat → Env (List F) → List F)
    (hx : RdSizes rs x) (hx' : RdSizes rs x') :
    ∃ e : DealCoins ctx br bz ≃ DealCoins ctx br bz, ∀ δ, (e δ).known Cs = δ.known Cs ∧
      ∀ N, (Sys.play ctx.n (rdJobs c ctx rs x' (dealtHeld ctx m Cs rs U (cheat ((e δ).known Cs)) (e δ))) Cs (strat ((e δ).known Cs)) N).1
        = (Sys.play ctx.n (rdJobs c ctx rs x (dealtHeld ctx m Cs rs U (cheat (δ.known Cs)) δ)) Cs (strat (δ.known Cs)) N).1 :=
  C128_private c ctx h Cs hC m (superInv_good ht hn hm).1 (superInv_good ht hn hm).2 br bz rs ho U hU cheat strat x x' hx hx'

/-- 7 parties, of which 0 and 3 deviate; the matrix has 5 rows.  One batch of each kind is dealt, two runs of `reduce_degree` with 2 and 3 values use all of
it, and the second run uses the results of the first one. -/
example (cheat : (Fin 7 → Nat → List (GF 4) × List (GF 4)) → Cheat (GF 4))
    (strat : (Fin 7 → Nat → List (GF 4) × List (GF 4)) → List (Sys Unit) → ByzStep) (a b : (GF 4)[X]) :
    ∃ ctx m, exCtx = some ctx ∧ superInvMatrix 7 5 = some m ∧ ∃ hn : ctx.n = 7, ∀ (tapes : List (List (GF 4))),
      ∃ e : DealCoins ctx 1 1 ≃ DealCoins ctx 1 1, ∀ δ, (e δ).known {0, 3} = δ.known {0, 3} ∧ ∀ N,
        (Sys.play ctx.n (rdJobs (gfCodec 4) ctx [⟨[1], [], 0, 2, tapes⟩, ⟨[2], [0], 1, 3, tapes⟩]
          (fun k p env => if k = 0 then [a.eval (ofU32 p), 0] else [((env 0).getD []).getD 0 0, ((env 0).getD []).getD 1 0, b.eval (ofU32 p)])
          (dealtHeld ctx m {0, 3} _ ⟨fun k i => 2 * k + i, fun k i => 2 * k + i⟩ (cheat fun j => (e δ).known {0, 3} (Fin.cast hn.symm j)) (e δ)))
          {0, 3} (strat fun j => (e δ).known {0, 3} (Fin.cast hn.symm j)) N).1
        = (Sys.play ctx.n (rdJobs (gfCodec 4) ctx [⟨[1], [], 0, 2, tapes⟩, ⟨[2], [0], 1, 3, tapes⟩]
          (fun k _ env => if k = 0 then [1, 1] else [0, 0, ((env 0).getD []).getD 0 0])
          (dealtHeld ctx m {0, 3} _ ⟨fun k i => 2 * k + i, fun k i => 2 * k + i⟩ (cheat fun j => δ.known {0, 3} (Fin.cast hn.symm j)) δ))
          {0, 3} (strat fun j => δ.known {0, 3} (Fin.cast hn.symm j)) N).1 := by
  obtain ⟨ctx, hctx, hg, hn, ht, hl⟩ := exCtx_good
  have ho : CodeField.order (GF 4) = 16 := rfl
  obtain ⟨m, hm⟩ : ∃ m, superInvMatrix (F := GF 4) 7 5 = some m := Option.isSome_iff_exists.1 (by decide +kernel)
  have hrows : m.rows.length = 5 := by
    have : (superInvMatrix (F := GF 4) 7 5).map (fun m => m.rows.length) = some 5 := by decide +kernel
    rw [hm] at this
    exact Option.some.inj this
  refine ⟨ctx, m, hctx, hm, hn, fun tapes => ?_⟩
  refine C128_code (gfCodec 4) ctx hg (by omega) (by omega) {0, 3} ⟨by rw [hn]; decide, by rw [ht]; decide⟩ m (by rw [hn, ht]; exact hm) 1 1
    [⟨[1], [], 0, 2, tapes⟩, ⟨[2], [0], 1, 3, tapes⟩] ?_ ⟨fun k i => 2 * k + i, fun k i => 2 * k + i⟩ ?_
    (fun v => cheat fun j => v (Fin.cast hn.symm j)) (fun v => strat fun j => v (Fin.cast hn.symm j)) _ _ ?_ ?_
  · intro k d hd
    fin_cases k <;> simp at hd ⊢
    omega
  · rw [hrows]
    have h1 : ∀ k : Fin 2, ∀ i < (List.get [(⟨[1], [], 0, 2, tapes⟩ : RdJob (GF 4)), ⟨[2], [0], 1, 3, tapes⟩] k).num, 2 * (k : Nat) + i < 5 * 1 := by
      intro k i hi
      fin_cases k <;> simp at hi ⊢ <;> omega
    have h2 : ∀ k k' : Fin 2, ∀ i < (List.get [(⟨[1], [], 0, 2, tapes⟩ : RdJob (GF 4)), ⟨[2], [0], 1, 3, tapes⟩] k).num,
        ∀ i' < (List.get [(⟨[1], [], 0, 2, tapes⟩ : RdJob (GF 4)), ⟨[2], [0], 1, 3, tapes⟩] k').num,
          2 * (k : Nat) + i = 2 * (k' : Nat) + i' → k = k' ∧ i = i' := by
      intro k k' i hi i' hi' he
      fin_cases k <;> fin_cases k' <;> simp at hi hi' he ⊢ <;> omega
    exact ⟨h1, h1, h2, h2⟩
  all_goals
    intro k p env
    fin_cases k <;> rfl

end Verif.Props
