import Verif.PrivacyRtLemmas
import Verif.AsyncGarbleLemmas
import Verif.AsyncNetSpec

/-!
# Two runs of one protocol

What is sent and returned in two runs of the same protocol, with inputs which are equal or related.
-/

open Polynomial

namespace Verif

open CodeField (ofU32)

section proto
variable {O : Type} {n : Nat} {P P' : Proto O} {envs envs' : Nat → Env O}

theorem Proto.round_congr (hl : P'.leader = P.leader) (hs : ∀ p < n, P'.sends p (envs' p) = P.sends p (envs p))
    (ha : ∀ L < n, P.leader = some L → P'.answer (envs' L) = P.answer (envs L))
    (hf : ∀ p < n, P'.finish p (envs' p) = P.finish p (envs p)) : P'.round n envs' = P.round n envs := by
  unfold Proto.round
  rw [mapM_congr_mem (f := fun p => P'.sends p (envs' p)) (g := fun p => P.sends p (envs p))
    fun p hp => hs p (List.mem_range.1 hp), hl]
  congr 1
  funext sent
  cases hL : P.leader with
  | none =>
    simp only []
    rw [mapM_congr_mem (g := fun q => (sent.mapM (theMessage q)).bind fun ms => P.finish q (envs q) ms)
      fun q hq => by rw [hf q (List.mem_range.1 hq)]]
  | some L =>
    simp only []
    by_cases hLn : L < n
    · rw [ha L hLn hL]
      have : ∀ rs : List (List Nat), ((List.range n).mapM fun q => (rs[q]?).bind fun r => P'.finish q (envs' q) [r])
          = (List.range n).mapM fun q => (rs[q]?).bind fun r => P.finish q (envs q) [r] := fun rs =>
        mapM_congr_mem fun q hq => by rw [hf q (List.mem_range.1 hq)]
      simp only [this]
    · simp only [hLn, false_and, if_false]

theorem Proto.between_congr (hl : P'.leader = P.leader) (hs : ∀ p < n, P'.sends p (envs' p) = P.sends p (envs p))
    (ha : ∀ L < n, P.leader = some L → P'.answer (envs' L) = P.answer (envs L)) {p : Nat} (hp : p < n) (q : Nat) :
    P'.between n envs' p q = P.between n envs p q := by
  unfold Proto.between
  rw [hs p hp, hl]
  congr 1
  split
  · next hL =>
    rw [ha p hp hL, mapM_congr_mem (f := fun r => (P'.sends r (envs' r)).bind (theMessage p))
      (g := fun r => (P.sends r (envs r)).bind (theMessage p)) fun r hr => by rw [hs r (List.mem_range.1 hr)]]
  · rfl

end proto

variable {F : Type} [CodeField F] [DecidableEq F] {O : Type} {c : Codec F} {ctx : Ctx F}

/-! ## Protocols with a leader -/

section leader
variable {n L : Nat} {P P' : Proto O} {envs envs' : Nat → Env O} {o o' : List O} {R R' : Nat → List F} {ret : List F → O}

omit [DecidableEq F] in
/-- Equal messages to the leader lead to equal answers, and the results differ by the masks only. -/
theorem lead_rel (hL : P.leader = some L) (hL' : P'.leader = some L)
    (hs : ∀ p < n, P'.sends p (envs' p) = P.sends p (envs p))
    (ha : L < n → P'.answer (envs' L) = P.answer (envs L))
    (hf : ∀ p < n, ∀ m, P.finish p (envs p) [m] = (c.dec m).bind fun s => (rdFinish (R p) s).map ret)
    (hf' : ∀ p < n, ∀ m, P'.finish p (envs' p) [m] = (c.dec m).bind fun s => (rdFinish (R' p) s).map ret)
    (h : P.round n envs = some o) (h' : P'.round n envs' = some o') :
    (∀ p < n, ∀ q, P'.between n envs' p q = P.between n envs p q) ∧
    ∃ s : Nat → List F, ∀ p < n, (s p).length = (R p).length ∧ (s p).length = (R' p).length ∧
      o[p]? = some (ret (vsub (s p) (R p))) ∧ o'[p]? = some (ret (vsub (s p) (R' p))) := by
  refine ⟨fun p hp q => Proto.between_congr (hL'.trans hL.symm) hs (fun K hK hPK => ?_) hp q, ?_⟩
  · rw [hL] at hPK
    cases hPK
    exact ha hK
  obtain ⟨snd, msg, ans, hp⟩ := Proto.round_parts h
  obtain ⟨snd', msg', ans', hp'⟩ := Proto.round_parts h'
  have hLn := hp.leader L hL
  have hmsg : ∀ p < n, msg' p L = msg p L := by
    intro p hpn
    have h1 := hp.addressed p hpn L hLn
    have h2 := hp'.addressed p hpn L hLn
    have h3 : snd' p = snd p := by
      have := hs p hpn
      rw [hp.sends p hpn, hp'.sends p hpn] at this
      exact Option.some.inj this
    have g1 : P.gathers L = true := by unfold Proto.gathers; rw [hL]; simp
    have g2 : P'.gathers L = true := by unfold Proto.gathers; rw [hL']; simp
    rw [g1, if_pos rfl] at h1
    rw [g2, if_pos rfl, h3, h1] at h2
    exact (List.cons.inj h2).1.symm
  have hans : ∀ p < n, ans' p = ans p := by
    intro p hpn
    have h1 := hp.answer L hL
    have h2 := hp'.answer L hL'
    rw [ha hLn, List.map_congr_left (fun p hp => hmsg p (List.mem_range.1 hp)), h1] at h2
    have h3 := congrArg (fun l => l[p]?) (Option.some.inj h2)
    simp only [tab_get _ hpn, Option.some.injEq] at h3
    exact h3.symm
  have key : ∀ p < n, ∃ s : List F, s.length = (R p).length ∧ s.length = (R' p).length ∧
      o[p]? = some (ret (vsub s (R p))) ∧ o'[p]? = some (ret (vsub s (R' p))) := by
    intro p hpn
    have h1 := hp.finishOne L hL p hpn
    have h2 := hp'.finishOne L hL' p hpn
    rw [hf p hpn, List.getElem?_eq_getElem (by rw [hp.len]; exact hpn)] at h1
    rw [hf' p hpn, hans p hpn, List.getElem?_eq_getElem (by rw [hp'.len]; exact hpn)] at h2
    obtain ⟨s, e1, h1⟩ := Option.bind_eq_some_iff.1 h1
    obtain ⟨x, e2, h1⟩ := Option.map_eq_some_iff.1 h1
    rw [e1, Option.bind_some] at h2
    obtain ⟨x', e3, h2⟩ := Option.map_eq_some_iff.1 h2
    unfold rdFinish at e2 e3
    split at e2
    · next l1 =>
      split at e3
      · next l2 =>
        refine ⟨s, l1, l2, ?_, ?_⟩
        · rw [List.getElem?_eq_getElem (by rw [hp.len]; exact hpn), ← h1, ← Option.some.inj e2]
        · rw [List.getElem?_eq_getElem (by rw [hp'.len]; exact hpn), ← h2, ← Option.some.inj e3]
      · cases e3
    · cases e2
  refine ⟨fun p => if hp : p < n then (key p hp).choose else [], fun p hp => ?_⟩
  simp only [dif_pos hp]
  exact (key p hp).choose_spec

end leader

/-! ## `trans` -/

section trans
variable {tr : SharingTransform F} {L : Nat} {tapes : List (List F)}
  {inp inp' : Nat → Env O → Option (List F × List F × List F)} {ret : List F → O} {n : Nat} {envs envs' : Nat → Env O}

theorem trans_congr (hi : ∀ p < n, inp' p (envs' p) = inp p (envs p)) :
    (transProto c ctx tr L tapes inp' ret).round n envs' = (transProto c ctx tr L tapes inp ret).round n envs := by
  refine Proto.round_congr rfl (fun p hp => ?_) (fun K hK hL => ?_) (fun p hp => ?_)
  · simp only [transProto, hi p hp]
  · simp only [transProto, Option.some.injEq] at hL
    subst hL
    funext ms
    simp only [transProto, hi L hK]
  · funext ms
    simp only [transProto, hi p hp]

theorem trans_rel {o o' : List O} {X R N X' R' N' : Nat → List F}
    (h : (transProto c ctx tr L tapes inp ret).round n envs = some o)
    (h' : (transProto c ctx tr L tapes inp' ret).round n envs' = some o')
    (hi : ∀ p < n, inp p (envs p) = some (X p, R p, N p)) (hi' : ∀ p < n, inp' p (envs' p) = some (X' p, R' p, N' p))
    (hlen : ∀ p < n, (X' p).length = (X p).length) (hs : ∀ p < n, transSend (X' p) (N' p) = transSend (X p) (N p)) :
    (∀ p < n, ∀ q, (transProto c ctx tr L tapes inp' ret).between n envs' p q
      = (transProto c ctx tr L tapes inp ret).between n envs p q) ∧
    ∃ s : Nat → List F, ∀ p < n, (s p).length = (R p).length ∧ (s p).length = (R' p).length ∧
      o[p]? = some (ret (vsub (s p) (R p))) ∧ o'[p]? = some (ret (vsub (s p) (R' p))) := by
  refine lead_rel (c := c) (L := L) rfl rfl (fun p hp => ?_) (fun hL => ?_) (fun p hp m => ?_) (fun p hp m => ?_) h h'
  · simp only [transProto, hi p hp, hi' p hp, Option.bind_some, hs p hp]
  · funext ms
    simp only [transProto, hi L hL, hi' L hL, Option.bind_some, hlen L hL]
  · simp only [transProto, hi p hp, Option.bind_some, List.head?_cons]
  · simp only [transProto, hi' p hp, Option.bind_some, List.head?_cons]

/-- In a run which succeeds the arguments are there. -/
theorem trans_inp {o : List O} (h : (transProto c ctx tr L tapes inp ret).round n envs = some o) :
    ∃ X R N : Nat → List F, ∀ p < n, inp p (envs p) = some (X p, R p, N p) ∧ (X p).length = (N p).length := by
  obtain ⟨snd, msg, ans, hp⟩ := Proto.round_parts h
  have key : ∀ p < n, ∃ x, inp p (envs p) = some x ∧ x.1.length = x.2.2.length := by
    intro p hpn
    have := hp.sends p hpn
    obtain ⟨x, e, h2⟩ := Option.bind_eq_some_iff.1 this
    refine ⟨x, e, ?_⟩
    obtain ⟨m, e2, _⟩ := Option.map_eq_some_iff.1 h2
    unfold transSend at e2
    split at e2
    · assumption
    · cases e2
  refine ⟨fun p => ((inp p (envs p)).getD ([], [], [])).1, fun p => ((inp p (envs p)).getD ([], [], [])).2.1,
    fun p => ((inp p (envs p)).getD ([], [], [])).2.2, fun p hpn => ?_⟩
  obtain ⟨x, e, hl⟩ := key p hpn
  simp only [e, Option.getD_some]
  exact ⟨trivial, hl⟩

end trans

/-! ## `mult` -/

section mult
variable {L : Nat} {tapes : List (List F)}
  {inp inp' : Nat → Env O → Option (List F × List F × List F × List F)} {ret : List F → O} {n : Nat} {envs envs' : Nat → Env O}

theorem mult_congr (hi : ∀ p < n, inp' p (envs' p) = inp p (envs p)) :
    (multProto c ctx L tapes inp' ret).round n envs' = (multProto c ctx L tapes inp ret).round n envs := by
  refine Proto.round_congr rfl (fun p hp => ?_) (fun K hK hL => ?_) (fun p hp => ?_)
  · simp only [multProto, rdProto, hi p hp]
  · simp only [multProto, rdProto, Option.some.injEq] at hL
    subst hL
    funext ms
    simp only [multProto, rdProto, hi L hK]
  · funext ms
    simp only [multProto, rdProto, hi p hp]

/-- In a run which succeeds the arguments are there. -/
theorem mult_inp {o : List O} (h : (multProto c ctx L tapes inp ret).round n envs = some o) :
    ∃ A B R Z : Nat → List F, ∀ p < n, inp p (envs p) = some (A p, B p, R p, Z p) ∧ (B p).length = (A p).length ∧
      (R p).length = (A p).length ∧ (Z p).length = (A p).length := by
  obtain ⟨snd, msg, ans, hp⟩ := Proto.round_parts h
  have key : ∀ p < n, ∃ x, inp p (envs p) = some x ∧ x.2.1.length = x.1.length ∧ x.2.2.1.length = x.1.length ∧
      x.2.2.2.length = x.1.length := by
    intro p hpn
    have := hp.sends p hpn
    simp only [multProto, rdProto] at this
    obtain ⟨y, e, h2⟩ := Option.bind_eq_some_iff.1 this
    obtain ⟨x, e1, h3⟩ := Option.bind_eq_some_iff.1 e
    split at h3
    · next hl =>
      cases h3
      obtain ⟨m, e2, _⟩ := Option.map_eq_some_iff.1 h2
      unfold rdSend at e2
      split at e2
      · next hr =>
        have : (vmul x.1 x.2.1).length = x.1.length := by unfold vmul; rw [List.length_zipWith, ← hl, Nat.min_self]
        simp only [this] at hr
        exact ⟨x, e1, hl.symm, hr.1.symm, hr.2.symm⟩
      · cases e2
    · cases h3
  refine ⟨fun p => ((inp p (envs p)).getD ([], [], [], [])).1, fun p => ((inp p (envs p)).getD ([], [], [], [])).2.1,
    fun p => ((inp p (envs p)).getD ([], [], [], [])).2.2.1, fun p => ((inp p (envs p)).getD ([], [], [], [])).2.2.2,
    fun p hpn => ?_⟩
  obtain ⟨x, e, hl⟩ := key p hpn
  simp only [e, Option.getD_some]
  exact ⟨trivial, hl⟩

theorem mult_rel {o o' : List O} {A B R Z A' B' R' Z' : Nat → List F}
    (h : (multProto c ctx L tapes inp ret).round n envs = some o)
    (h' : (multProto c ctx L tapes inp' ret).round n envs' = some o')
    (hi : ∀ p < n, inp p (envs p) = some (A p, B p, R p, Z p)) (hi' : ∀ p < n, inp' p (envs' p) = some (A' p, B' p, R' p, Z' p))
    (hlen : ∀ p < n, (A' p).length = (A p).length)
    (hs : ∀ p < n, ∀ j < (A p).length, (A' p).getD j 0 * (B' p).getD j 0 + (R' p).getD j 0 + (Z' p).getD j 0
      = (A p).getD j 0 * (B p).getD j 0 + (R p).getD j 0 + (Z p).getD j 0) :
    (∀ p < n, ∀ q, (multProto c ctx L tapes inp' ret).between n envs' p q
      = (multProto c ctx L tapes inp ret).between n envs p q) ∧
    ∃ s : Nat → List F, ∀ p < n, (s p).length = (R p).length ∧ (s p).length = (R' p).length ∧
      o[p]? = some (ret (vsub (s p) (R p))) ∧ o'[p]? = some (ret (vsub (s p) (R' p))) := by
  have lens : ∀ p < n, (B p).length = (A p).length ∧ (R p).length = (A p).length ∧ (Z p).length = (A p).length := by
    obtain ⟨a, b, r, z, hx⟩ := mult_inp h
    intro p hp
    have := hx p hp
    rw [hi p hp] at this
    simp only [Option.some.injEq, Prod.mk.injEq] at this
    obtain ⟨⟨e1, e2, e3, e4⟩, h2⟩ := this
    rw [e1, e2, e3, e4]
    exact h2
  have lens' : ∀ p < n, (B' p).length = (A' p).length ∧ (R' p).length = (A' p).length ∧ (Z' p).length = (A' p).length := by
    obtain ⟨a, b, r, z, hx⟩ := mult_inp h'
    intro p hp
    have := hx p hp
    rw [hi' p hp] at this
    simp only [Option.some.injEq, Prod.mk.injEq] at this
    obtain ⟨⟨e1, e2, e3, e4⟩, h2⟩ := this
    rw [e1, e2, e3, e4]
    exact h2
  have hlm : ∀ p < n, (vmul (A p) (B p)).length = (A p).length := fun p hp => by
    unfold vmul; rw [List.length_zipWith, (lens p hp).1, Nat.min_self]
  have hlm' : ∀ p < n, (vmul (A' p) (B' p)).length = (A p).length := fun p hp => by
    unfold vmul; rw [List.length_zipWith, (lens' p hp).1, Nat.min_self, hlen p hp]
  have hsend : ∀ p < n, rdSend (vmul (A' p) (B' p)) (R' p) (Z' p) = rdSend (vmul (A p) (B p)) (R p) (Z p) := by
    intro p hp
    obtain ⟨l1, l2, l3⟩ := lens p hp
    obtain ⟨l1', l2', l3'⟩ := lens' p hp
    have l0 := hlen p hp
    unfold rdSend
    rw [if_pos ⟨by rw [hlm' p hp, l2', l0], by rw [hlm' p hp, l3', l0]⟩, if_pos ⟨by rw [hlm p hp, l2], by rw [hlm p hp, l3]⟩,
      Option.some.injEq]
    unfold vadd vmul
    apply List.ext_getElem (by simp; omega)
    intro j h1 h2
    simp only [List.length_zipWith] at h1 h2
    have hj : j < (A p).length := by omega
    have := hs p hp j hj
    simp only [List.getD_eq_getElem?_getD, List.getElem?_eq_getElem (show j < (A p).length by omega),
      List.getElem?_eq_getElem (show j < (B p).length by omega), List.getElem?_eq_getElem (show j < (R p).length by omega),
      List.getElem?_eq_getElem (show j < (Z p).length by omega), List.getElem?_eq_getElem (show j < (A' p).length by omega),
      List.getElem?_eq_getElem (show j < (B' p).length by omega), List.getElem?_eq_getElem (show j < (R' p).length by omega),
      List.getElem?_eq_getElem (show j < (Z' p).length by omega), Option.getD_some] at this
    simp only [List.getElem_zipWith]
    exact this
  have e : ∀ p < n, (inp p (envs p)).bind (fun i => if i.1.length = i.2.1.length then some (vmul i.1 i.2.1, i.2.2) else none)
      = some (vmul (A p) (B p), R p, Z p) := fun p hp => by
    rw [hi p hp, Option.bind_some, if_pos (lens p hp).1.symm]
  have e' : ∀ p < n, (inp' p (envs' p)).bind (fun i => if i.1.length = i.2.1.length then some (vmul i.1 i.2.1, i.2.2) else none)
      = some (vmul (A' p) (B' p), R' p, Z' p) := fun p hp => by
    rw [hi' p hp, Option.bind_some, if_pos (lens' p hp).1.symm]
  refine lead_rel (c := c) (L := L) rfl rfl (fun p hp => ?_) (fun hL => ?_) (fun p hp m => ?_) (fun p hp m => ?_) h h'
  · simp only [multProto, rdProto, e p hp, e' p hp, Option.bind_some, hsend p hp]
  · funext ms
    simp only [multProto, rdProto, e L hL, e' L hL, Option.bind_some, hlm L hL, hlm' L hL]
  · simp only [multProto, rdProto, e p hp, Option.bind_some, List.head?_cons]
  · simp only [multProto, rdProto, e' p hp, Option.bind_some, List.head?_cons]

end mult

/-! ## `randtrans` -/

section rt
variable {tfs : List (SharingTransform F)} {inp inp' : Nat → Env O → Option (List F × List F)}
  {ret : List (List F) × List (List F) → O} {n : Nat} {envs envs' : Nat → Env O}

theorem rt_congr (hi : ∀ p < n, inp' p (envs' p) = inp p (envs p)) :
    (rtProto c ctx tfs inp' ret).round n envs' = (rtProto c ctx tfs inp ret).round n envs := by
  refine Proto.round_congr rfl (fun p hp => ?_) (fun K hK hL => ?_) (fun p hp => ?_)
  · simp only [rtProto, hi p hp]
  · rfl
  · funext ms
    simp only [rtProto, hi p hp]

variable {A AN : Nat → Nat → F[X]} {E : Nat → F[X]} {num : Nat} {g z : Nat → F[X]}

theorem rt_between (B : RtBasis ctx tfs A AN E) (h : ctx.Good)
    (hi : ∀ p < ctx.n, inp p (envs p) = some ((List.range ((ctx.n + ctx.t) * num)).map (fun m => (g m).eval (ofU32 p)),
      (List.range (2 * ctx.n * num)).map fun m => (z m).eval (ofU32 p))) {p q : Nat} (hp : p < ctx.n) (hq : q < ctx.n) :
    (rtProto c ctx tfs inp ret).between ctx.n envs p q =
      [c.enc ((List.range num).map (fun j => (rtQ ctx tfs.length num A E g z q j).eval (ofU32 p)) ++
        (List.range num).map (fun j => (rtQN ctx tfs.length num AN E g z q j).eval (ofU32 p)))] := by
  have hs : (rtProto c ctx tfs inp ret).sends p (envs p) = some (toEach ((List.range ctx.n).map fun r => c.enc (
          (List.range num).map (fun j => (rtQ ctx tfs.length num A E g z r j).eval (ofU32 p)) ++
          (List.range num).map (fun j => (rtQN ctx tfs.length num AN E g z r j).eval (ofU32 p))))) := by
    have := B.send h num g z hp
    obtain ⟨tr, e1, e2⟩ := Option.bind_eq_some_iff.1 this
    simp only [rtProto, hi p hp, e1, e2, Option.bind_some, Option.map_some, List.map_map]
    rfl
  unfold Proto.between
  rw [hs, Option.getD_some, theMessage_filter (theMessage_toEach _ hq), if_neg (by simp [rtProto]), List.append_nil]

theorem rt_round_eq (hc : c.Ok) (B : RtBasis ctx tfs A AN E) (h : ctx.Good) (hd : ctx.t + 2 * ctx.l ≤ ctx.n)
    (hK : tfs.length ≤ ctx.l) (hb : 2 * ((ctx.n + ctx.t) * num) < 2 ^ 64)
    (hg : ∀ m < (ctx.n + ctx.t) * num, (g m).degree < (ctx.t + ctx.l : Nat))
    (hz : ∀ m < 2 * ctx.n * num, (z m).degree < ctx.n)
    (hz0 : ∀ m < 2 * ctx.n * num, ∀ v ∈ defaultPos ctx.n ctx.l, (z m).eval v = 0)
    (hi : ∀ p < ctx.n, inp p (envs p) = some ((List.range ((ctx.n + ctx.t) * num)).map (fun m => (g m).eval (ofU32 p)),
      (List.range (2 * ctx.n * num)).map fun m => (z m).eval (ofU32 p))) :
    (rtProto c ctx tfs inp ret).round ctx.n envs = some ((List.range ctx.n).map fun r => ret
          ((List.range ctx.l).map fun k => (List.range num).map fun j => (rtR ctx tfs.length num A g k j).eval (ofU32 r),
           (List.range ctx.l).map fun k => (List.range num).map fun j => (rtRN ctx tfs.length num AN g k j).eval (ofU32 r))) := by
  have := rt_round hc ctx tfs inp ret envs (tabShares ctx.n ((ctx.n + ctx.t) * num) g) (tabShares ctx.n (2 * ctx.n * num) z)
    (fun r hr => by
      obtain ⟨p, _, rfl⟩ := List.mem_map.1 hr
      simpa using hb)
    (fun p hp => by
      rw [hi p hp]
      unfold tabShares
      simp only [tab_get _ hp, Option.bind_some, Option.map_some]) _ (B.result h hd hK num g z hg hz hz0)
  rw [this, List.map_map]
  rfl

end rt

end Verif
