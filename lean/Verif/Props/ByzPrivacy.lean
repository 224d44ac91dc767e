import Verif.ByzPrivacyLemmas
import Verif.Props.Core

/-! # C127: what parties which do not follow the protocol learn from degree reductions and multiplications -/

open Polynomial Verif
open Verif.CodeField (ofU32)

namespace Verif.Props

variable {F : Type} [CodeField F] [DecidableEq F]

/-- C127, `reduce_degree`.  At most `t` parties send what they like, decide in which order everything happens, see all messages, and choose what to do
next depending on this and on their shares.  The inputs of the other parties' runs are computed from the results of earlier runs in one way (`x`) or in
another way (`x'`), in particular from shares of other secrets.  The shares for masking which the parties have may contain errors (`off`), chosen
by the deviating parties depending on their shares.  There is a bijection between the coins for `x` and the coins for `x'` under
which the deviating parties have the same shares and everything that they see is the same, at all times. -/
theorem C127_private (c : Codec F) (ctx : Ctx F) (h : ctx.Good) (Cs : Finset Nat) (hC : Coalition ctx Cs) (rs : List (RdJob F)) (ho : RdOrder rs)
    (off : (Fin rs.length → Nat → List F × List F) → Fin rs.length → Nat → List F × List F) (hoff : ∀ m, OffSizes rs (off m))
    (strat : (Fin rs.length → Nat → List F × List F) → List (Sys Unit) → ByzStep) (x x' : Nat → Nat → Env (List F) → List F)
    (hx : RdSizes rs x) (hx' : RdSizes rs x') :
    ∃ e : RdCoins ctx rs ≃ RdCoins ctx rs, ∀ ω, (e ω).known Cs = ω.known Cs ∧
      ∀ N, (Sys.play ctx.n (rdJobs c ctx rs x' ((e ω).held (off ((e ω).known Cs)))) Cs (strat ((e ω).known Cs)) N).1
        = (Sys.play ctx.n (rdJobs c ctx rs x (ω.held (off (ω.known Cs)))) Cs (strat (ω.known Cs)) N).1 := by
  refine ⟨⟨absorb h hC c off strat x x', absorb h hC c off strat x' x, absorb_left h hC c ho hoff strat hx hx', absorb_left h hC c ho hoff strat hx' hx⟩, fun ω => ?_⟩
  simp only [Equiv.coe_fn_mk]
  have hk := absorb_known h hC c off strat x x' ω
  refine ⟨hk, fun N => ?_⟩
  rw [hk]
  exact (play_rel h hC c (strat (ω.known Cs)) hx hx' (hoff _) ω _ (fun k hk => rdDiff_eq ctx Cs _ _ x x' _ k (ho.deps k hk)) N).1

/-- C127, in numbers: of the coins with which the deviating parties have certain shares, as many lead to a certain view with `x` as with `x'`. -/
theorem C127_count (c : Codec F) (ctx : Ctx F) (h : ctx.Good) (Cs : Finset Nat) (hC : Coalition ctx Cs) (rs : List (RdJob F)) (ho : RdOrder rs)
    (off : (Fin rs.length → Nat → List F × List F) → Fin rs.length → Nat → List F × List F) (hoff : ∀ m, OffSizes rs (off m))
    (strat : (Fin rs.length → Nat → List F × List F) → List (Sys Unit) → ByzStep) (x x' : Nat → Nat → Env (List F) → List F)
    (hx : RdSizes rs x) (hx' : RdSizes rs x') (mine : Fin rs.length → Nat → List F × List F) (N : Nat) (seen : List (Sys Unit)) :
    Nat.card {ω : RdCoins ctx rs // ω.known Cs = mine ∧ (Sys.play ctx.n (rdJobs c ctx rs x (ω.held (off mine))) Cs (strat mine) N).1 = seen}
      = Nat.card {ω : RdCoins ctx rs // ω.known Cs = mine ∧ (Sys.play ctx.n (rdJobs c ctx rs x' (ω.held (off mine))) Cs (strat mine) N).1 = seen} := by
  obtain ⟨e, he⟩ := C127_private c ctx h Cs hC rs ho off hoff strat x x' hx hx'
  refine Nat.card_congr (e.subtypeEquiv fun ω => ?_)
  obtain ⟨h1, h2⟩ := he ω
  rw [h1]
  constructor
  · rintro ⟨rfl, h4⟩
    refine ⟨rfl, ?_⟩
    have := h2 N
    rw [h1] at this
    rw [this, h4]
  · rintro ⟨rfl, h4⟩
    refine ⟨rfl, ?_⟩
    have := h2 N
    rw [h1] at this
    rw [← this, h4]

/-- `mult` is `reduce_degree` of the products. -/
theorem multJobs_eq (c : Codec F) (ctx : Ctx F) (rs : List (RdJob F)) (x y : Nat → Nat → Env (List F) → List F) (hx : RdSizes rs x)
    (hy : RdSizes rs y) (held : Fin rs.length → Nat → List F × List F) :
    multJobs c ctx rs x y held = rdJobs c ctx rs (fun k p env => vmul (x k p env) (y k p env)) held := by
  unfold multJobs rdJobs
  congr 1
  funext k
  unfold multProto
  congr 2
  funext p env
  simp only [Option.bind_some]
  rw [if_pos (by rw [hx k, hy k])]

/-- C127, `mult`. -/
theorem C127_mult (c : Codec F) (ctx : Ctx F) (h : ctx.Good) (Cs : Finset Nat) (hC : Coalition ctx Cs) (rs : List (RdJob F)) (ho : RdOrder rs)
    (off : (Fin rs.length → Nat → List F × List F) → Fin rs.length → Nat → List F × List F) (hoff : ∀ m, OffSizes rs (off m))
    (strat : (Fin rs.length → Nat → List F × List F) → List (Sys Unit) → ByzStep) (x y x' y' : Nat → Nat → Env (List F) → List F)
    (hx : RdSizes rs x) (hy : RdSizes rs y) (hx' : RdSizes rs x') (hy' : RdSizes rs y') :
    ∃ e : RdCoins ctx rs ≃ RdCoins ctx rs, ∀ ω, (e ω).known Cs = ω.known Cs ∧
      ∀ N, (Sys.play ctx.n (multJobs c ctx rs x' y' ((e ω).held (off ((e ω).known Cs)))) Cs (strat ((e ω).known Cs)) N).1
        = (Sys.play ctx.n (multJobs c ctx rs x y (ω.held (off (ω.known Cs)))) Cs (strat (ω.known Cs)) N).1 := by
  have hs : ∀ {x y : Nat → Nat → Env (List F) → List F}, RdSizes rs x → RdSizes rs y → RdSizes rs (fun k p env => vmul (x k p env) (y k p env)) := by
    intro x y hx hy k p env
    unfold vmul
    rw [List.length_zipWith, hx k, hy k, Nat.min_self]
  obtain ⟨e, he⟩ := C127_private c ctx h Cs hC rs ho off hoff strat _ _ (hs hx hy) (hs hx' hy')
  refine ⟨e, fun ω => ?_⟩
  rw [multJobs_eq c ctx rs x y hx hy, multJobs_eq c ctx rs x' y' hx' hy']
  exact he ω

section
variable {O : Type}

theorem play_seen_length (n : Nat) (jobs : List (Job O)) (Cs : Finset Nat) (strat : List (Sys Unit) → ByzStep) (N : Nat) :
    (Sys.play n jobs Cs strat N).1.length = N := by
  induction N with
  | zero => rfl
  | succ N ih => simp [Sys.play, ih]

theorem byzRun_append {n : Nat} {jobs : List (Job O)} {Cs : Finset Nat} (es es' : List ByzStep) (s : Sys O) :
    s.byzRun n jobs Cs (es ++ es') = (s.byzRun n jobs Cs es).bind fun t => t.byzRun n jobs Cs es' := by
  induction es generalizing s with
  | nil => rfl
  | cons e es ih =>
    simp only [List.cons_append, Sys.byzRun]
    cases s.byzStep n jobs Cs e with
    | none => rfl
    | some t => exact ih t

/-- C127: nothing is left out; every execution of C111 is possible. -/
theorem C127_runs (n : Nat) (jobs : List (Job O)) (Cs : Finset Nat) (es : List ByzStep) (s : Sys O) (hs : Sys.start.byzRun n jobs Cs es = some s) :
    ∃ strat : List (Sys Unit) → ByzStep, (Sys.play n jobs Cs strat es.length).2 = s := by
  refine ⟨fun seen => (es[seen.length - 1]?).getD (.sys (.deliver 0 0)), ?_⟩
  have key : ∀ N ≤ es.length, Sys.start.byzRun n jobs Cs (es.take N)
      = some (Sys.play n jobs Cs (fun seen => (es[seen.length - 1]?).getD (.sys (.deliver 0 0))) N).2 := by
    intro N
    induction N with
    | zero => intro _; rfl
    | succ N ih =>
      intro hN
      have hN' : N < es.length := hN
      have h1 := ih (by omega)
      have h2 : Sys.start.byzRun n jobs Cs (es.take (N + 1) ++ es.drop (N + 1)) = some s := by
        rw [List.take_append_drop]
        exact hs
      rw [byzRun_append] at h2
      rw [List.take_succ_eq_append_getElem hN', byzRun_append, h1] at h2 ⊢
      simp only [Option.bind_some, Sys.byzRun] at h2 ⊢
      simp only [Sys.play, List.length_append, List.length_singleton, play_seen_length, Nat.add_sub_cancel]
      rw [List.getElem?_eq_getElem hN', Option.getD_some]
      cases he : (Sys.play n jobs Cs (fun seen => (es[seen.length - 1]?).getD (.sys (.deliver 0 0))) N).2.byzStep n jobs Cs es[N] with
      | none =>
        rw [he] at h2
        cases h2
      | some t => rfl
  have := key es.length le_rfl
  rw [List.take_length, hs] at this
  exact (Option.some.inj this).symm

end

/-- The parties send their first messages, one after the other. -/
def sendAll (seen : List (Sys Unit)) : ByzStep := .sys (.act ((seen.length - 1) / 2) 0)

theorem sendAll_sent (c : Codec F) (ctx : Ctx F) (Cs : Finset Nat) (id : ProtocolID) (L : Nat) (hL : L < ctx.n) (tapes : List (List F))
    (x : Nat → Nat → Env (List F) → List F) (hx : RdSizes [⟨id, [], L, 1, tapes⟩] x) 
    (held : Fin 1 → Nat → List F × List F) (hheld : ∀ p, (held 0 p).1.length = 1 ∧ (held 0 p).2.length = 1) (m : Nat) :
    m ≤ ctx.n → (∀ p, m ≤ p → (Sys.play ctx.n (rdJobs c ctx [⟨id, [], L, 1, tapes⟩] x held) Cs sendAll (2 * m)).2.loc p 0 = .idle ∧
      ∀ q, (Sys.play ctx.n (rdJobs c ctx [⟨id, [], L, 1, tapes⟩] x held) Cs sendAll (2 * m)).2.sent 0 p q = []) ∧
      ∀ p < m, p ∉ Cs → (Sys.play ctx.n (rdJobs c ctx [⟨id, [], L, 1, tapes⟩] x held) Cs sendAll (2 * m)).2.sent 0 p L
        = [c.enc (vadd (vadd (x 0 p fun _ => none) (held 0 p).1) (held 0 p).2)] := by
  induction m with
  | zero => exact fun _ => ⟨fun p _ => ⟨rfl, fun _ => rfl⟩, fun p hp => absurd hp (Nat.not_lt_zero p)⟩
  | succ m ih =>
    intro hm
    obtain ⟨h1, h2⟩ := ih (by omega)
    have hlen := play_seen_length ctx.n (rdJobs c ctx [⟨id, [], L, 1, tapes⟩] x held) Cs sendAll (2 * m)
    have hjob : (rdJobs c ctx [⟨id, [], L, 1, tapes⟩] x held)[0]? = some ⟨id, [], rdProto c ctx L tapes
        (fun p env => some (x 0 p env, held 0 p)) fun o => o⟩ := by
      simp [rdJobs]
    rw [show 2 * (m + 1) = 2 * m + 1 + 1 by ring]
    simp only [Sys.play]
    generalize Sys.play ctx.n (rdJobs c ctx [⟨id, [], L, 1, tapes⟩] x held) Cs sendAll (2 * m) = r at h1 h2 hlen
    obtain ⟨seen, s⟩ := r
    simp only at h1 h2 hlen
    have e1 : ∀ a : Sys Unit, sendAll (seen ++ [a]) = .sys (.act m 0) := by
      intro a
      unfold sendAll
      rw [List.length_append, hlen, List.length_singleton]
      congr 2
      omega
    have e2 : ∀ a b : Sys Unit, sendAll (seen ++ [a] ++ [b]) = .sys (.act m 0) := by
      intro a b
      unfold sendAll
      rw [List.length_append, List.length_append, hlen, List.length_singleton, List.length_singleton]
      congr 2
      omega
    rw [e2, e1]
    by_cases hmC : m ∈ Cs
    · have hnone : ∀ t : Sys (List F), t.byzStep ctx.n (rdJobs c ctx [⟨id, [], L, 1, tapes⟩] x held) Cs (.sys (.act m 0)) = none := by
        intro t
        simp only [Sys.byzStep, if_pos hmC]
      rw [hnone, Option.getD_none, hnone, Option.getD_none]
      refine ⟨fun p hp => h1 p (by omega), fun p hp hpC => h2 p ?_ hpC⟩
      rcases Nat.lt_succ_iff_lt_or_eq.1 hp with hp | rfl
      · exact hp
      · exact absurd hmC hpC
    have hms : rdSend (x 0 m fun _ => none) (held 0 m).1 (held 0 m).2
        = some (vadd (vadd (x 0 m fun _ => none) (held 0 m).1) (held 0 m).2) := by
      unfold rdSend
      have := hx 0 m fun _ => none
      simp only [Fin.val_zero] at this
      rw [if_pos ⟨by rw [this, (hheld m).1]; rfl, by rw [this, (hheld m).2]; rfl⟩]
    have henv : ∀ e : Env (List F), e.only [] = fun _ => none := by
      intro e
      funext d
      simp [Env.only]
    have hs1 : s.byzStep ctx.n (rdJobs c ctx [⟨id, [], L, 1, tapes⟩] x held) Cs (.sys (.act m 0)) = some { s with
        loc := setLoc s.loc m 0 (.sending [(.one L, c.enc (vadd (vadd (x 0 m fun _ => none) (held 0 m).1) (held 0 m).2))]) } := by
      simp only [Sys.byzStep, if_neg hmC, Sys.step, if_pos (show m < ctx.n by omega), hjob, Sys.actStep]
      rw [if_pos (by rfl), (h1 m le_rfl).1]
      simp only [Proto.act, rdProto, Option.bind_some, henv, hms, Option.map_some, orFail]
    rw [hs1, Option.getD_some]
    have hs2 : Sys.byzStep ctx.n (rdJobs c ctx [⟨id, [], L, 1, tapes⟩] x held) Cs { s with
        loc := setLoc s.loc m 0 (.sending [(.one L, c.enc (vadd (vadd (x 0 m fun _ => none) (held 0 m).1) (held 0 m).2))]) }
        (.sys (.act m 0)) = some { s with
          loc := setLoc (setLoc s.loc m 0 (.sending [(.one L, c.enc (vadd (vadd (x 0 m fun _ => none) (held 0 m).1) (held 0 m).2))])) m 0
            (.sending [])
          chan := fun a b => if a = m ∧ (Recipient.one L).includes b then s.chan a b ++
            [⟨0, ⟨id, m, c.enc (vadd (vadd (x 0 m fun _ => none) (held 0 m).1) (held 0 m).2)⟩⟩] else s.chan a b
          sent := fun i a b => if i = 0 ∧ a = m ∧ (Recipient.one L).includes b then s.sent i a b ++
            [c.enc (vadd (vadd (x 0 m fun _ => none) (held 0 m).1) (held 0 m).2)] else s.sent i a b } := by
      simp only [Sys.byzStep, if_neg hmC, Sys.step, if_pos (show m < ctx.n by omega), hjob, Sys.actStep]
      rw [if_pos (by rfl)]
      simp only [setLoc, and_self, if_true, Proto.act]
      rw [if_pos (by simpa [Recipient.known] using hL)]
    rw [hs2, Option.getD_some]
    simp only
    refine ⟨fun p hp => ⟨?_, fun q => ?_⟩, fun p hp hpC => ?_⟩
    · simp only [setLoc]
      rw [if_neg (by omega), if_neg (by omega)]
      exact (h1 p (by omega)).1
    · rw [if_neg (by omega)]
      exact (h1 p (by omega)).2 q
    · by_cases hpm : p = m
      · subst hpm
        rw [if_pos (by simp [Recipient.includes]), (h1 p le_rfl).2 L, List.nil_append]
      · rw [if_neg (by tauto)]
        exact h2 p (by omega) hpC

/-- C127: `t` is the best possible number: any `t + 1` parties, one of which is the leader, can tell, already from one run and without deviating, sharings of certain
secrets from sharings of others, of which they have the same shares. -/
theorem C127_sharp (c : Codec F) (hc : c.Ok) (ctx : Ctx F) (h : ctx.Good) (hn : ctx.t + ctx.l < ctx.n) (Cs : Finset Nat)
    (hCs : ∀ p ∈ Cs, p < ctx.n) (hcard : Cs.card = ctx.t + 1) (L : Nat) (hL : L ∈ Cs) (id : ProtocolID) (tapes : List (List F)) :
    ∃ (strat : List (Sys Unit) → ByzStep) (N : Nat) (b : F[X]), b.degree < ctx.n ∧ (∀ p ∈ Cs, b.eval (ofU32 p) = 0) ∧
      ∀ ω ω' : RdCoins ctx [⟨id, [], L, 1, tapes⟩], ω'.known Cs = ω.known Cs →
        (Sys.play ctx.n (rdJobs c ctx [⟨id, [], L, 1, tapes⟩] (fun _ p _ => [b.eval (ofU32 p)]) ω'.plain) Cs strat N).1
          ≠ (Sys.play ctx.n (rdJobs c ctx [⟨id, [], L, 1, tapes⟩] (fun _ _ _ => [0]) ω.plain) Cs strat N).1 := by
  have hfit := h.fit
  have hlpos := h.posL
  have hdisj : Disjoint Cs (Finset.Ico ctx.n (ctx.n + ctx.l)) := by
    rw [Finset.disjoint_left]
    intro p hp hq
    have := hCs p hp
    have := (Finset.mem_Ico.1 hq).1
    omega
  have hinj : Set.InjOn (fun i => (ofU32 i : F)) ((Cs ∪ Finset.Ico ctx.n (ctx.n + ctx.l) : Finset Nat) : Set Nat) := by
    refine ofU32_injOn h.fit _ fun i hi => ?_
    rcases Finset.mem_union.1 hi with hi | hi
    · have := hCs i hi
      omega
    · exact (Finset.mem_Ico.1 hi).2
  have hcardU : (Cs ∪ Finset.Ico ctx.n (ctx.n + ctx.l)).card = ctx.t + 1 + ctx.l := by
    rw [Finset.card_union_of_disjoint hdisj, hcard, Nat.card_Ico]
    omega
  have hb1 := Lagrange.degree_interpolate_lt (s := Cs ∪ Finset.Ico ctx.n (ctx.n + ctx.l)) (fun i => if i = ctx.n then (1 : F) else 0) hinj
  have hb2 : ∀ i ∈ Cs ∪ Finset.Ico ctx.n (ctx.n + ctx.l), _ := fun i hi =>
    Lagrange.eval_interpolate_at_node (fun i => if i = ctx.n then (1 : F) else 0) hinj hi
  generalize Lagrange.interpolate (Cs ∪ Finset.Ico ctx.n (ctx.n + ctx.l)) (fun i => (ofU32 i : F)) (fun i => if i = ctx.n then (1 : F) else 0) = b
    at hb1 hb2
  have hbdeg : b.degree < ctx.n := degree_lt_mono hb1 (by omega)
  have hbC : ∀ p ∈ Cs, b.eval (ofU32 p) = 0 := by
    intro p hp
    have := hb2 p (Finset.mem_union_left _ hp)
    have hpn := hCs p hp
    rw [if_neg (by omega)] at this
    exact this
  refine ⟨sendAll, 2 * ctx.n + 1, b, hbdeg, hbC, ?_⟩
  intro ω ω' hknown heq
  have hL' := hCs L hL
  have s1 := (sendAll_sent c ctx Cs id L hL' tapes (fun _ _ _ => [0]) (by intro k p env; fin_cases k; rfl) ω.plain (fun p => ⟨Coins.randoms_length _ p, Coins.zeros_length _ p⟩) ctx.n le_rfl).2
  have s2 := (sendAll_sent c ctx Cs id L hL' tapes (fun _ p _ => [b.eval (ofU32 p)]) (by intro k p env; fin_cases k; rfl) ω'.plain (fun p => ⟨Coins.randoms_length _ p, Coins.zeros_length _ p⟩) ctx.n le_rfl).2
  have hsent : ∀ p, (Sys.play ctx.n (rdJobs c ctx [⟨id, [], L, 1, tapes⟩] (fun _ p _ => [b.eval (ofU32 p)]) ω'.plain) Cs sendAll (2 * ctx.n)).2.sent 0 p L
      = (Sys.play ctx.n (rdJobs c ctx [⟨id, [], L, 1, tapes⟩] (fun _ _ _ => [0]) ω.plain) Cs sendAll (2 * ctx.n)).2.sent 0 p L := by
    intro p
    simp only [Sys.play] at heq
    have := List.append_inj_right' heq rfl
    have := congrArg (fun l => l.head?.map fun (s : Sys Unit) => s.sent 0 p L) this
    simpa [Sys.erase] using this
  -- the polynomials
  have r1 : ∀ (w : RdCoins ctx [⟨id, [], L, 1, tapes⟩]) p, (w 0).randoms p = [((w 0).g 0).eval (ofU32 p)] := by
    intro w p
    rw [Coins.randoms_eq]
    rfl
  have z1 : ∀ (w : RdCoins ctx [⟨id, [], L, 1, tapes⟩]) p, (w 0).zeros p = [((w 0).z 0).eval (ofU32 p)] := by
    intro w p
    rw [Coins.zeros_eq]
    rfl
  have hone : 0 < (List.get [(⟨id, [], L, 1, tapes⟩ : RdJob F)] (0 : Fin 1)).num := Nat.one_pos
  have hmsg : ∀ p < ctx.n, p ∉ Cs → b.eval (ofU32 p) + ((ω' 0).g 0).eval (ofU32 p) + ((ω' 0).z 0).eval (ofU32 p)
      = 0 + ((ω 0).g 0).eval (ofU32 p) + ((ω 0).z 0).eval (ofU32 p) := by
    intro p hp hpC
    have h1 := s1 p hp hpC
    have h2 := s2 p hp hpC
    rw [hsent p, h1] at h2
    have h3 := (List.cons.inj h2).1
    unfold RdCoins.plain at h3
    simp only at h3
    rw [r1, r1, z1, z1] at h3
    simp only [vadd, List.zipWith_cons_cons, List.zipWith_nil_right] at h3
    have h4 := congrArg c.dec h3
    rw [hc _ (by simp), hc _ (by simp)] at h4
    exact (List.cons.inj (Option.some.inj h4)).1.symm
  have hkn : ∀ p ∈ Cs, ((ω' 0).g 0).eval (ofU32 p) = ((ω 0).g 0).eval (ofU32 p) ∧ ((ω' 0).z 0).eval (ofU32 p) = ((ω 0).z 0).eval (ofU32 p) := by
    intro p hp
    have := congrFun (congrFun hknown 0) p
    unfold RdCoins.known at this
    rw [if_pos hp, if_pos hp, r1, r1, z1, z1] at this
    simp only [Prod.mk.injEq, List.cons.injEq, and_true] at this
    exact this
  -- the difference of the messages
  have hpoly : b + (ω' 0).g 0 + (ω' 0).z 0 = (ω 0).g 0 + (ω 0).z 0 := by
    have hle : ctx.t + ctx.l ≤ ctx.n := by omega
    refine poly_eq_of_places (d := ctx.n) ?_ ?_ ((List.range ctx.n).map fun i => (ofU32 i : F)) ?_ (by simp) ?_
    · exact degree_add_lt (degree_add_lt hbdeg (degree_lt_mono (Coins.g_degree _ hone) hle)) (Coins.z_degree _ hone)
    · exact degree_add_lt (degree_lt_mono (Coins.g_degree _ hone) hle) (Coins.z_degree _ hone)
    · refine (List.nodup_range).map_on ?_
      intro i hi j hj hij
      exact CodeField.ofU32_inj i j (by have := List.mem_range.1 hi; omega) (by have := List.mem_range.1 hj; omega) hij
    · intro p _ hp
      simp only [List.getElem_map, List.getElem_range, eval_add]
      by_cases hpC : p ∈ Cs
      · rw [hbC p hpC, (hkn p hpC).1, (hkn p hpC).2]
        ring
      · rw [hmsg p hp hpC]
        ring
  -- which vanishes in too many places
  have hdiff : ∀ k < ctx.l, ((ω 0).g 0 - (ω' 0).g 0).eval (ofU32 (ctx.n + k)) = if k = 0 then 1 else 0 := by
    intro k hk
    have he := congrArg (fun q => q.eval (ofU32 (ctx.n + k))) hpoly
    simp only [eval_add] at he
    have hv : (ofU32 (ctx.n + k) : F) ∈ defaultPos ctx.n ctx.l := List.mem_map.2 ⟨k, List.mem_range.2 hk, rfl⟩
    rw [Coins.z_zero _ hone _ hv, Coins.z_zero _ hone _ hv, add_zero, add_zero] at he
    have := hb2 (ctx.n + k) (Finset.mem_union_right _ (Finset.mem_Ico.2 ⟨by omega, by omega⟩))
    rw [this] at he
    rw [eval_sub, ← he]
    by_cases hk0 : k = 0
    · rw [if_pos hk0, if_pos (by omega)]
      ring
    · rw [if_neg hk0, if_neg (by omega)]
      ring
  have hzero : (ω 0).g 0 - (ω' 0).g 0 = 0 := by
    have hU : (Cs ∪ Finset.Ico (ctx.n + 1) (ctx.n + ctx.l)).card = ctx.t + ctx.l := by
      rw [Finset.card_union_of_disjoint, hcard, Nat.card_Ico]
      · omega
      · exact hdisj.mono_right (fun i hi => Finset.mem_Ico.2 ⟨by have := (Finset.mem_Ico.1 hi).1; omega, (Finset.mem_Ico.1 hi).2⟩)
    refine Polynomial.eq_zero_of_degree_lt_of_eval_index_eq_zero (s := Cs ∪ Finset.Ico (ctx.n + 1) (ctx.n + ctx.l)) (v := fun i => (ofU32 i : F)) ?_ ?_ ?_
    · refine hinj.mono ?_
      intro i hi
      rcases Finset.mem_union.1 (Finset.mem_coe.1 hi) with hi | hi
      · exact Finset.mem_coe.2 (Finset.mem_union_left _ hi)
      · exact Finset.mem_coe.2 (Finset.mem_union_right _ (Finset.mem_Ico.2 ⟨by have := (Finset.mem_Ico.1 hi).1; omega, (Finset.mem_Ico.1 hi).2⟩))
    · rw [hU]
      exact degree_sub_lt' (Coins.g_degree _ hone) (Coins.g_degree _ hone)
    · intro i hi
      rcases Finset.mem_union.1 hi with hi | hi
      · rw [eval_sub, (hkn i hi).1, sub_self]
      · obtain ⟨h1, h2⟩ := Finset.mem_Ico.1 hi
        have := hdiff (i - ctx.n) (by omega)
        rw [show ctx.n + (i - ctx.n) = i by omega, if_neg (by omega)] at this
        exact this
  have := hdiff 0 (by omega)
  rw [hzero, if_pos rfl, eval_zero] at this
  exact zero_ne_one this

/-- Two runs of `mult` with 7 parties and two secrets per sharing; in the second run the results of the first one are squared.  Parties 0 and 3 deviate, and
party 0 is the leader of the first run; whatever they do, they cannot tell sharings of (1, 1) and (1, 1) from sharings of anything else. -/
example (off : (Fin 2 → Nat → List (GF 4) × List (GF 4)) → Fin 2 → Nat → List (GF 4) × List (GF 4))
    (hoff : ∀ m k p, (off m k p).1.length = 1 ∧ (off m k p).2.length = 1)
    (strat : (Fin 2 → Nat → List (GF 4) × List (GF 4)) → List (Sys Unit) → ByzStep) (a b : (GF 4)[X]) :
    ∃ ctx, exCtx = some ctx ∧ ∀ (tapes : List (List (GF 4))),
      ∃ e : RdCoins ctx [⟨[1], [], 0, 1, tapes⟩, ⟨[2], [0], 1, 1, tapes⟩] ≃ RdCoins ctx [⟨[1], [], 0, 1, tapes⟩, ⟨[2], [0], 1, 1, tapes⟩],
        ∀ ω, (e ω).known {0, 3} = ω.known {0, 3} ∧ ∀ N,
          (Sys.play ctx.n (multJobs (gfCodec 4) ctx [⟨[1], [], 0, 1, tapes⟩, ⟨[2], [0], 1, 1, tapes⟩]
            (fun k p env => if k = 0 then [a.eval (ofU32 p)] else [((env 0).getD []).getD 0 0])
            (fun k p env => if k = 0 then [b.eval (ofU32 p)] else [((env 0).getD []).getD 0 0]) ((e ω).held (off ((e ω).known {0, 3})))) {0, 3} (strat ((e ω).known {0, 3})) N).1
          = (Sys.play ctx.n (multJobs (gfCodec 4) ctx [⟨[1], [], 0, 1, tapes⟩, ⟨[2], [0], 1, 1, tapes⟩]
            (fun k _ env => if k = 0 then [1] else [((env 0).getD []).getD 0 0])
            (fun k _ env => if k = 0 then [1] else [((env 0).getD []).getD 0 0]) (ω.held (off (ω.known {0, 3})))) {0, 3} (strat (ω.known {0, 3})) N).1 := by
  obtain ⟨ctx, hctx, hg, hn, ht, hl⟩ := exCtx_good
  refine ⟨ctx, hctx, fun tapes => ?_⟩
  refine C127_mult (gfCodec 4) ctx hg {0, 3} ⟨by rw [hn]; decide, by rw [ht]; decide⟩
    [⟨[1], [], 0, 1, tapes⟩, ⟨[2], [0], 1, 1, tapes⟩] ?_ off ?_ strat _ _ _ _ ?_ ?_ ?_ ?_
  · intro k d hd
    fin_cases k <;> simp at hd ⊢
    omega
  · intro m k p
    have := hoff m k p
    fin_cases k <;> exact this
  all_goals
    intro k p env
    fin_cases k <;> rfl

end Verif.Props
