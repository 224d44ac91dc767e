import Verif.ByzTransLemmas

/-!
# Messages of `randtrans` which together have the right length

Party 0 sends three values instead of two and the last party one instead of two.  Everything in between moves by one place, and the masks of low
degree are taken for those of high degree.
-/

open Polynomial Verif
open Verif.CodeField (ofU32)

namespace Verif

section

variable {O : Type}

/-- The parties send their first messages, one after the other. -/
def actAll (seen : List (Sys Unit)) : ByzStep := .sys (.act ((seen.length - 1) / 2) 0)

theorem seen_len (n : Nat) (jobs : List (Job O)) (Cs : Finset Nat) (strat : List (Sys Unit) → ByzStep) (N : Nat) :
    (Sys.play n jobs Cs strat N).1.length = N := by
  induction N with
  | zero => rfl
  | succ N ih => simp [Sys.play, ih]

/-- What was sent is seen. -/
theorem seen_sent (n : Nat) (jobs jobs' : List (Job O)) (Cs : Finset Nat) (strat : List (Sys Unit) → ByzStep) (N : Nat)
    (h : (Sys.play n jobs Cs strat (N + 1)).1 = (Sys.play n jobs' Cs strat (N + 1)).1) (k p q : Nat) :
    (Sys.play n jobs Cs strat N).2.sent k p q = (Sys.play n jobs' Cs strat N).2.sent k p q := by
  simp only [Sys.play] at h
  have := List.append_inj_right' h rfl
  have := congrArg (fun l => l.head?.map fun (s : Sys Unit) => s.sent k p q) this
  simpa [Sys.erase] using this

/-- What the leader of one run gets of the parties which follow the protocol. -/
theorem actAll_sent (n : Nat) (Cs : Finset Nat) (id : ProtocolID) (π : Proto O) (L : Nat) (hL : L < n) (msg : Nat → List Nat)
    (hsend : ∀ p < n, p ∉ Cs → π.sends p (fun _ => none) = some [(.one L, msg p)]) (m : Nat) :
    m ≤ n → (∀ p, m ≤ p → (Sys.play n [⟨id, [], π⟩] Cs actAll (2 * m)).2.loc p 0 = .idle ∧
      ∀ q, (Sys.play n [⟨id, [], π⟩] Cs actAll (2 * m)).2.sent 0 p q = []) ∧
      ∀ p < m, p ∉ Cs → (Sys.play n [⟨id, [], π⟩] Cs actAll (2 * m)).2.sent 0 p L = [msg p] := by
  induction m with
  | zero => exact fun _ => ⟨fun p _ => ⟨rfl, fun _ => rfl⟩, fun p hp => absurd hp (Nat.not_lt_zero p)⟩
  | succ m ih =>
    intro hm
    obtain ⟨h1, h2⟩ := ih (by omega)
    have hlen := seen_len n [⟨id, [], π⟩] Cs actAll (2 * m)
    rw [show 2 * (m + 1) = 2 * m + 1 + 1 by ring]
    simp only [Sys.play]
    generalize Sys.play n [⟨id, [], π⟩] Cs actAll (2 * m) = r at h1 h2 hlen
    obtain ⟨seen, s⟩ := r
    simp only at h1 h2 hlen
    have e1 : ∀ a : Sys Unit, actAll (seen ++ [a]) = .sys (.act m 0) := by
      intro a
      unfold actAll
      rw [List.length_append, hlen, List.length_singleton]
      congr 2
      omega
    have e2 : ∀ a b : Sys Unit, actAll (seen ++ [a] ++ [b]) = .sys (.act m 0) := by
      intro a b
      unfold actAll
      rw [List.length_append, List.length_append, hlen, List.length_singleton, List.length_singleton]
      congr 2
      omega
    rw [e2, e1]
    by_cases hmC : m ∈ Cs
    · have hnone : ∀ t : Sys O, t.byzStep n [⟨id, [], π⟩] Cs (.sys (.act m 0)) = none := by
        intro t
        simp only [Sys.byzStep, if_pos hmC]
      rw [hnone, Option.getD_none, hnone, Option.getD_none]
      refine ⟨fun p hp => h1 p (by omega), fun p hp hpC => h2 p ?_ hpC⟩
      rcases Nat.lt_succ_iff_lt_or_eq.1 hp with hp | rfl
      · exact hp
      · exact absurd hmC hpC
    have henv : ∀ e : Env O, e.only [] = fun _ => none := by
      intro e
      funext d
      simp [Env.only]
    have hs1 : s.byzStep n [⟨id, [], π⟩] Cs (.sys (.act m 0)) = some { s with
        loc := setLoc s.loc m 0 (.sending [(.one L, msg m)]) } := by
      simp only [Sys.byzStep, if_neg hmC, Sys.step, if_pos (show m < n by omega), List.getElem?_cons_zero, Sys.actStep]
      rw [if_pos (by rfl), (h1 m le_rfl).1]
      simp only [Proto.act, henv, hsend m (by omega) hmC, Option.map_some, orFail]
    rw [hs1, Option.getD_some]
    have hs2 : Sys.byzStep n [⟨id, [], π⟩] Cs { s with
        loc := setLoc s.loc m 0 (.sending [(.one L, msg m)]) }
        (.sys (.act m 0)) = some { s with
          loc := setLoc (setLoc s.loc m 0 (.sending [(.one L, msg m)])) m 0 (.sending [])
          chan := fun a b => if a = m ∧ (Recipient.one L).includes b then s.chan a b ++ [⟨0, ⟨id, m, msg m⟩⟩] else s.chan a b
          sent := fun i a b => if i = 0 ∧ a = m ∧ (Recipient.one L).includes b then s.sent i a b ++ [msg m] else s.sent i a b } := by
      simp only [Sys.byzStep, if_neg hmC, Sys.step, if_pos (show m < n by omega), List.getElem?_cons_zero, Sys.actStep]
      rw [if_pos (by rfl)]
      simp only [setLoc, and_self, if_true, Proto.act]
      rw [if_pos (by simpa [Recipient.known] using hL)]
    rw [hs2, Option.getD_some]
    simp only
    refine ⟨fun p hp => ⟨?_, fun q => ?_⟩, fun p hp hpC => ?_⟩
    · simp only [setLoc]
      rw [if_neg (by omega), if_neg (by omega)]
      exact (h1 p (by omega)).1
    · rw [if_neg (by omega)]
      exact (h1 p (by omega)).2 q
    · by_cases hpm : p = m
      · subst hpm
        rw [if_pos (by simp [Recipient.includes]), (h1 p le_rfl).2 L, List.nil_append]
      · rw [if_neg (by tauto)]
        exact h2 p (by omega) hpC

end

variable {F : Type} [CodeField F] [DecidableEq F]

omit [DecidableEq F] in
theorem sharePoly_congr {n : Nat} {a b : Nat → F} (h : ∀ p < n, a p = b p) : sharePoly n a = sharePoly n b := by
  unfold sharePoly
  rw [Lagrange.interpolate_apply, Lagrange.interpolate_apply]
  exact Finset.sum_congr rfl fun p hp => by rw [h p (Finset.mem_range.1 hp)]

/-- What arrives, row by row: the second values of the rows are the first ones which were sent. -/
def swapRow (n : Nat) (hm : Nat → Nat → F) (p j : Nat) : F :=
  if j = 0 then (if 2 ≤ p then hm (p - 1) 1 else 0) else if 0 < p ∧ p < n - 1 then hm p 0 else 0

omit [DecidableEq F] in
theorem swap_flatten (n : Nat) (hn : 2 ≤ n) (hm : Nat → Nat → F) :
    ((List.range n).map fun p => if p = 0 then [0, 0, 0] else if p = n - 1 then [0] else (List.range 2).map (hm p)).flatten
      = ((List.range n).map fun p => (List.range (2 * 1)).map (swapRow n hm p)).flatten := by
  have key : ∀ k, 1 ≤ k → k ≤ n - 1 → ((List.range k).map fun p => if p = 0 then [0, 0, 0] else if p = n - 1 then [0] else (List.range 2).map (hm p)).flatten
      = ((List.range k).map fun p => (List.range (2 * 1)).map (swapRow n hm p)).flatten ++ [swapRow n hm k 0] := by
    intro k hk
    induction k, hk using Nat.le_induction with
    | base =>
      intro _
      simp [List.range_succ, swapRow]
    | succ k hk ih =>
      intro hk'
      rw [List.range_succ (n := k), List.map_append, List.map_append, List.flatten_append, List.flatten_append, ih (by omega)]
      simp only [List.map_cons, List.map_nil, List.flatten_cons, List.flatten_nil, List.append_nil]
      rw [if_neg (by omega), if_neg (by omega)]
      have h1 : swapRow n hm k 1 = hm k 0 := by
        unfold swapRow
        rw [if_neg (by omega), if_pos ⟨by omega, by omega⟩]
      have h2 : swapRow n hm (k + 1) 0 = hm k 1 := by
        unfold swapRow
        rw [if_pos rfl, if_pos (by omega), Nat.add_sub_cancel]
      simp [List.range_succ, h1, h2]
  obtain ⟨k, rfl⟩ : ∃ k, n = k + 1 := ⟨n - 1, by omega⟩
  rw [List.range_succ (n := k), List.map_append, List.map_append, List.flatten_append, List.flatten_append, key k (by omega) (by omega)]
  simp only [List.map_cons, List.map_nil, List.flatten_cons, List.flatten_nil, List.append_nil]
  rw [if_neg (by omega), if_pos (by omega)]
  have h1 : swapRow (k + 1) hm k 1 = 0 := by
    unfold swapRow
    rw [if_neg (by omega), if_neg (by omega)]
  simp [List.range_succ, h1]

/-- The masks of high degree which result. -/
theorem swap_masks {ctx : Ctx F} (h : ctx.Good) (hd : ctx.t + 2 * ctx.l ≤ ctx.n) (hn : 2 ≤ ctx.n) (tf : SharingTransform F) (hl : 1 ≤ ctx.l) (hok : tf.Ok ctx)
    (W : Coins ctx ((ctx.n + ctx.t) * 1) (2 * ctx.n * 1)) :
    ∃ (R : F[X]) (own : Nat → Nat → F), R.degree < (ctx.t + ctx.l : Nat) ∧
      (∀ p < ctx.n, ∀ q < ctx.n, own p q = (((rtMessages ctx [tf] W p).bind fun m => m[q]?).getD []).getD 0 0) ∧
      ∀ q < ctx.n, ∃ r1, (((List.range ctx.n).mapM fun p => if p ∈ ({0, ctx.n - 1} : Finset Nat) then some (if p = 0 then [0, 0, 0] else [0]) else
          (rtMessages ctx [tf] W p).bind fun m => m[q]?).bind fun box => (rtFinish ctx 1 box).map fun o => (o.1.getD 0 [], o.2.getD 0 []))
        = some (r1, [R.eval (ofU32 q) - (sharePoly ctx.n fun p => if p ∈ ({0, ctx.n - 1} : Finset Nat) then own p q else 0).eval (ofU32 ctx.n)]) := by
  have hfit := h.fit
  have hK : [tf].length ≤ ctx.l := hl
  have hok' : ∀ tf' ∈ [tf], tf'.Ok ctx := fun tf' h' => by rw [List.mem_singleton.1 h']; exact hok
  obtain ⟨A, AN, E, B⟩ := rtBasis_exists h [tf] hK hok'
  refine ⟨rtR ctx [tf].length 1 A W.g 0 0, fun p q => (((rtMessages ctx [tf] W p).bind fun m => m[q]?).getD []).getD 0 0, B.degR _ _ _ _,
    fun _ _ _ _ => rfl, ?_⟩
  intro q hq
  obtain ⟨hm, h1, h2⟩ := rt_honest h hd [tf] hK hok' W hq
  have hhas : (rtHas ctx [tf] W q 0).1 = [(rtR ctx [tf].length 1 A W.g 0 0).eval (ofU32 q)] := by
    unfold rtHas
    rw [rtResult_eq B h hd hK W, Option.getD_some, getD_tab _ _ _ hq]
    simp only
    rw [getD_tab _ _ _ (by omega)]
    rfl
  have hR : (sharePoly ctx.n fun p => hm p 0).eval (ofU32 ctx.n) = (rtR ctx [tf].length 1 A W.g 0 0).eval (ofU32 q) := by
    have := h2 0 Nat.one_pos
    rw [this] at hhas
    simpa using hhas
  have hbox : ((List.range ctx.n).mapM fun p => if p ∈ ({0, ctx.n - 1} : Finset Nat) then some (if p = 0 then [0, 0, 0] else [0]) else
      (rtMessages ctx [tf] W p).bind fun m => m[q]?)
      = some ((List.range ctx.n).map fun p => if p = 0 then [0, 0, 0] else if p = ctx.n - 1 then [0] else (List.range 2).map (hm p)) := by
    apply mapM_range_some
    intro p hp
    by_cases h0 : p = 0
    · rw [if_pos (by rw [h0]; simp), if_pos h0, if_pos h0]
    · by_cases h3 : p = ctx.n - 1
      · rw [if_pos (by rw [h3]; simp), if_neg h0, if_neg h0, if_pos h3]
      · rw [if_neg (by simp [h0, h3]), if_neg h0, if_neg h3, h1 p hp]
  have hfl : ∀ a b : List (List F), a.flatten = b.flatten → rtFinish ctx 1 a = rtFinish ctx 1 b := by
    intro a b e
    unfold rtFinish
    rw [e]
  refine ⟨(((defaultPos ctx.n ctx.l).map fun x => (List.range 1).map fun j => (sharePoly ctx.n fun p => swapRow ctx.n hm p j).eval x)).getD 0 [], ?_⟩
  rw [hbox, Option.bind_some, hfl _ _ (swap_flatten ctx.n hn hm), rtFinish_any h 1 (swapRow ctx.n hm), Option.map_some]
  congr 2
  simp only [defaultPos, List.map_map]
  rw [getD_tab _ _ _ hl]
  simp only [Function.comp, List.range_one, List.map_cons, List.map_nil, Nat.add_zero]
  congr 1
  rw [← hR, eq_sub_iff_add_eq, ← eval_add, ← sharePoly_add]
  congr 1
  refine sharePoly_congr fun p hp => ?_
  unfold swapRow
  rw [if_neg (by omega)]
  by_cases h0 : 0 < p ∧ p < ctx.n - 1
  · rw [if_pos h0, if_neg (by simp; omega), add_zero]
  · rw [if_neg h0, if_pos (by simp; omega), zero_add, h1 p hp, Option.getD_some]
    rfl

end Verif
