import Verif.ByzTrans
import Verif.ByzMask
import Verif.PrivacyRtLemmas

/-! # Changes of the masks of `reduce_degree` and `trans` make up for different inputs -/

open Polynomial

namespace Verif

open CodeField (ofU32)

variable {F : Type} [CodeField F] [DecidableEq F]

/-! ## The protocols -/

theorem rdProto_rel (c : Codec F) (ctx : Ctx F) (L : Nat) (tapes : List (List F)) (inp inp' : Nat → Env (List F) → Option (List F × List F × List F))
    {p num : Nat} {env env' : Env (List F)} {v a b v' a' b' : List F} (e : inp p env = some (v, a, b)) (e' : inp' p env' = some (v', a', b'))
    (hv : v.length = num) (ha : a.length = num) (hb : b.length = num) (hv' : v'.length = num) (ha' : a'.length = num) (hb' : b'.length = num)
    (s : Nat → F) (hs : ∀ i < num, v'.getD i 0 + a'.getD i 0 + b'.getD i 0 = v.getD i 0 + a.getD i 0 + b.getD i 0)
    (hm : ∀ i < num, a'.getD i 0 = a.getD i 0 + s i) :
    ProtoRel (fun o => vsub o ((List.range num).map s)) p (rdProto c ctx L tapes inp fun o => o) (rdProto c ctx L tapes inp' fun o => o) env env' := by
  refine ⟨rfl, ?_, ?_, ?_⟩
  · simp only [rdProto, e, e', Option.bind_some]
    have : rdSend v' a' b' = rdSend v a b := by
      unfold rdSend
      rw [if_pos ⟨by rw [hv', ha'], by rw [hv', hb']⟩, if_pos ⟨by rw [hv, ha], by rw [hv, hb]⟩]
      congr 1
      unfold vadd
      apply List.ext_getElem
      · simp [hv, hv', ha, ha', hb, hb']
      · intro i h1 h2
        have hi : i < num := by
          simp only [List.length_zipWith, hv] at h2
          omega
        have := hs i hi
        rw [List.getD_eq_getElem _ _ (by omega), List.getD_eq_getElem _ _ (by omega), List.getD_eq_getElem _ _ (by omega),
          List.getD_eq_getElem _ _ (by omega), List.getD_eq_getElem _ _ (by omega), List.getD_eq_getElem _ _ (by omega)] at this
        simp only [List.getElem_zipWith]
        rw [← this]
    rw [this]
  · intro ms hL
    have hL : L = p := Option.some.inj hL
    subst hL
    simp only [rdProto, e, e', Option.bind_some, hv, hv']
  · intro ms
    simp only [rdProto, e, e', Option.bind_some]
    cases ms.head? with
    | none => rfl
    | some m =>
      simp only [Option.bind_some]
      cases c.dec m with
      | none => rfl
      | some w =>
        simp only [Option.bind_some, Option.map_id']
        unfold rdFinish
        rw [ha, ha']
        by_cases hw : w.length = num
        · rw [if_pos hw, if_pos hw]
          simp only [Option.map_some]
          congr 1
          unfold vsub
          apply List.ext_getElem
          · simp only [List.length_zipWith, List.length_map, List.length_range]
            omega
          · intro i h1 h2
            have hi : i < num := by
              simp only [List.length_zipWith, hw] at h1
              omega
            have := hm i hi
            rw [List.getD_eq_getElem _ _ (by omega), List.getD_eq_getElem _ _ (by omega)] at this
            simp only [List.getElem_zipWith, List.getElem_map, List.getElem_range]
            rw [this]
            ring
        · rw [if_neg hw, if_neg hw]
          rfl

theorem transProto_rel (c : Codec F) (ctx : Ctx F) (tf : SharingTransform F) (L : Nat) (tapes : List (List F))
    (inp inp' : Nat → Env (List F) → Option (List F × List F × List F))
    {p num : Nat} {env env' : Env (List F)} {v a b v' a' b' : List F} (e : inp p env = some (v, a, b)) (e' : inp' p env' = some (v', a', b'))
    (hv : v.length = num) (ha : a.length = num) (hb : b.length = num) (hv' : v'.length = num) (ha' : a'.length = num) (hb' : b'.length = num)
    (s : Nat → F) (hs : ∀ i < num, v'.getD i 0 + b'.getD i 0 = v.getD i 0 + b.getD i 0) (hm : ∀ i < num, a'.getD i 0 = a.getD i 0 + s i) :
    ProtoRel (fun o => vsub o ((List.range num).map s)) p (transProto c ctx tf L tapes inp fun o => o) (transProto c ctx tf L tapes inp' fun o => o)
      env env' := by
  refine ⟨rfl, ?_, ?_, ?_⟩
  · simp only [transProto, e, e', Option.bind_some]
    have : transSend v' b' = transSend v b := by
      unfold transSend
      rw [if_pos (by rw [hv', hb']), if_pos (by rw [hv, hb])]
      congr 1
      unfold vadd
      apply List.ext_getElem
      · simp [hv, hv', hb, hb']
      · intro i h1 h2
        have hi : i < num := by
          simp only [List.length_zipWith, hv] at h2
          omega
        have := hs i hi
        rw [List.getD_eq_getElem _ _ (by omega), List.getD_eq_getElem _ _ (by omega), List.getD_eq_getElem _ _ (by omega),
          List.getD_eq_getElem _ _ (by omega)] at this
        simp only [List.getElem_zipWith]
        rw [add_comm, this, add_comm]
    rw [this]
  · intro ms hL
    have hL : L = p := Option.some.inj hL
    subst hL
    simp only [transProto, e, e', Option.bind_some, hv, hv']
  · intro ms
    have h0 : ∀ i < num, v'.getD i 0 + a'.getD i 0 + (v.getD i 0 - v'.getD i 0 - s i) = v.getD i 0 + a.getD i 0 + 0 := by
      intro i hi
      rw [hm i hi]
      ring
    have := (rdProto_rel c ctx L tapes (fun p env => some (v, a, List.replicate num 0))
      (fun p env => some (v', a', (List.range num).map fun i => v.getD i 0 - v'.getD i 0 - s i)) (p := p) (env := env) (env' := env') rfl rfl hv ha
      (by simp) hv' ha' (by simp) s (by
        intro i hi
        rw [List.getD_eq_getElem (List.map _ _) _ (by simpa using hi), List.getD_eq_getElem (List.replicate _ _) _ (by simpa using hi)]
        simpa using h0 i hi) hm).finish ms
    simpa only [transProto, rdProto, e, e', Option.bind_some] using this

theorem rdProto_none (c : Codec F) (ctx : Ctx F) (L : Nat) (tapes : List (List F)) (inp inp' : Nat → Env (List F) → Option (List F × List F × List F))
    {p : Nat} {env env' : Env (List F)} (e : inp p env = none) (e' : inp' p env' = none) (f : List F → List F) :
    ProtoRel f p (rdProto c ctx L tapes inp fun o => o) (rdProto c ctx L tapes inp' fun o => o) env env' := by
  refine ⟨rfl, ?_, ?_, ?_⟩
  · simp only [rdProto, e, e', Option.bind_none]
  · intro ms hL
    have hL : L = p := Option.some.inj hL
    subst hL
    simp only [rdProto, e, e', Option.bind_none]
  · intro ms
    simp only [rdProto, e, e', Option.bind_none, Option.map_none]

theorem transProto_none (c : Codec F) (ctx : Ctx F) (tf : SharingTransform F) (L : Nat) (tapes : List (List F))
    (inp inp' : Nat → Env (List F) → Option (List F × List F × List F))
    {p : Nat} {env env' : Env (List F)} (e : inp p env = none) (e' : inp' p env' = none) (f : List F → List F) :
    ProtoRel f p (transProto c ctx tf L tapes inp fun o => o) (transProto c ctx tf L tapes inp' fun o => o) env env' := by
  refine ⟨rfl, ?_, ?_, ?_⟩
  · simp only [transProto, e, e', Option.bind_none]
  · intro ms hL
    have hL : L = p := Option.some.inj hL
    subst hL
    simp only [transProto, e, e', Option.bind_none]
  · intro ms
    simp only [transProto, e, e', Option.bind_none, Option.map_none]

/-! ## The masks of `randtrans` -/

/-- The pairs of masks of party `p` for transformation `i`. -/
noncomputable def rtHas (ctx : Ctx F) (tfs : List (SharingTransform F)) {nr nz : Nat} (ω : Coins ctx nr nz) (p i : Nat) : List F × List F :=
  ((((rtResult ctx tfs ω).getD []).getD p ([], [])).1.getD i [], (((rtResult ctx tfs ω).getD []).getD p ([], [])).2.getD i [])

/-- Changes which the parties of `Cs` do not make. -/
def quiet (Cs : Finset Nat) (d : Nat → Nat → Nat → F) (i j p : Nat) : F := if p ∈ Cs then 0 else d i j p

/-- What a change of the coins of `randtrans` has to do. -/
structure RtMove (ctx : Ctx F) (Cs : Finset Nat) (tfs : List (SharingTransform F)) (num : Nat)
    (T : (Nat → Nat → Nat → F) → Coins ctx ((ctx.n + ctx.t) * num) (2 * ctx.n * num) → Coins ctx ((ctx.n + ctx.t) * num) (2 * ctx.n * num)) :
    Prop where
  agree : ∀ d ω, Coins.Agree Cs ω (T d ω)
  msgs : ∀ d ω, ∀ p < ctx.n, ∀ q ∈ Cs, ((rtMessages ctx tfs (T d ω) p).bind fun m => m[q]?) = (rtMessages ctx tfs ω p).bind fun m => m[q]?
  lens : ∀ ω : Coins ctx ((ctx.n + ctx.t) * num) (2 * ctx.n * num), ∀ p < ctx.n, ∀ i < tfs.length, (rtHas ctx tfs ω p i).1.length = num ∧ (rtHas ctx tfs ω p i).2.length = num
  fst : ∀ d ω, ∀ p < ctx.n, ∀ (i : Nat) (hi : i < tfs.length), ∀ j < num, (rtHas ctx tfs (T d ω) p i).1.getD j 0
    = (rtHas ctx tfs ω p i).1.getD j 0 + (trShift ctx Cs tfs[i] (sharePoly ctx.n (quiet Cs d i j))).eval (ofU32 p)
  snd : ∀ d ω, ∀ p < ctx.n, ∀ i < tfs.length, ∀ j < num, (rtHas ctx tfs (T d ω) p i).2.getD j 0
    = (rtHas ctx tfs ω p i).2.getD j 0 + quiet Cs d i j p
  back : ∀ d d' ω, (∀ i < tfs.length, ∀ j < num, ∀ p, d' i j p = -d i j p) → T d' (T d ω) = ω

theorem rtMove_exists (ctx : Ctx F) (h : ctx.Good) (hd : ctx.t + 2 * ctx.l ≤ ctx.n) {Cs : Finset Nat} (hC : Coalition ctx Cs)
    (tfs : List (SharingTransform F)) (hK : tfs.length ≤ ctx.l) (hok : ∀ tf ∈ tfs, tf.Ok ctx) (hal : ∀ tf ∈ tfs, tf.Aligned ctx.l) (num : Nat) :
    ∃ T, RtMove ctx Cs tfs num T := by
  obtain ⟨A, AN, E, B⟩ := rtBasis_exists h tfs hK hok
  have hfit := h.fit
  have hle := h.le
  have hn : ctx.n ≤ CodeField.order F := by omega
  let δ : (Nat → Nat → Nat → F) → Nat → Nat → F[X] := fun d k j => if k < tfs.length ∧ j < num then sharePoly ctx.n (quiet Cs d k j) else 0
  let σ : (Nat → Nat → Nat → F) → Nat → Nat → F[X] := fun d k j => trShift ctx Cs (tfs.getD k ⟨[], [], ⟨[]⟩⟩) (δ d k j)
  have hδ : ∀ d k j, k < tfs.length → j < num → δ d k j = sharePoly ctx.n (quiet Cs d k j) := fun d k j hk hj => if_pos ⟨hk, hj⟩
  have h1 : ∀ d, ∀ k < tfs.length, ∀ j < num, (δ d k j).degree < ctx.n := fun d k hk j hj => by
    rw [hδ d k j hk hj]
    exact sharePoly_degree hn _
  have h2 : ∀ d, ∀ k < tfs.length, ∀ j < num, ∀ p ∈ Cs, (δ d k j).eval (ofU32 p) = 0 := fun d k hk j hj p hp => by
    rw [hδ d k j hk hj, sharePoly_eval hn _ (hC.parties p hp), quiet, if_pos hp]
  have h3 : ∀ d, ∀ (k : Nat) (hk : k < tfs.length), ∀ j < num, NewShift ctx Cs tfs[k] (δ d k j) (σ d k j) := fun d k hk j hj => by
    simp only [σ, List.getD_eq_getElem _ _ hk]
    exact trShift_fits h hC (hok _ (List.getElem_mem hk)) (hal _ (List.getElem_mem hk)) (h2 d k hk j hj)
  have hγ : ∀ d, ∀ m < (ctx.n + ctx.t) * num, (rtShift ctx Cs tfs num (δ d) (σ d) m).degree < (ctx.t + ctx.l : Nat) :=
    fun d m _ => rtShift_degree h hC (δ d) (σ d) m
  have hζ : ∀ d, ∀ m < 2 * ctx.n * num, (rtShiftZ ctx Cs tfs A AN E num (δ d) (σ d) m).degree < ctx.n ∧
      ∀ v ∈ defaultPos ctx.n ctx.l, (rtShiftZ ctx Cs tfs A AN E num (δ d) (σ d) m).eval v = 0 := by
    intro d m hm
    have hnum : 0 < num := by
      rcases Nat.eq_zero_or_pos num with h0 | h0
      · rw [h0] at hm; omega
      · exact h0
    exact rtShiftZ_zero h hC B hK hok (δ d) (σ d) hd hnum (h1 d) (h2 d) (h3 d) m
  obtain ⟨T, eg, ez, hag⟩ : ∃ T : (Nat → Nat → Nat → F) → Coins ctx ((ctx.n + ctx.t) * num) (2 * ctx.n * num) →
        Coins ctx ((ctx.n + ctx.t) * num) (2 * ctx.n * num),
      (∀ d ω, ∀ m < (ctx.n + ctx.t) * num, (T d ω).g m = ω.g m + rtShift ctx Cs tfs num (δ d) (σ d) m) ∧
      (∀ d ω, ∀ m < 2 * ctx.n * num, (T d ω).z m = ω.z m + rtShiftZ ctx Cs tfs A AN E num (δ d) (σ d) m) ∧ ∀ d ω, Coins.Agree Cs ω (T d ω) :=
    ⟨fun d ω => ω.shift _ _ (hγ d) (hζ d), fun d ω m hm => Coins.shift_g ω _ _ (hγ d) (hζ d) hm,
      fun d ω m hm => Coins.shift_z ω _ _ (hγ d) (hζ d) hm, fun d ω => Coins.shift_agree ω _ _ (hγ d) (hζ d) _
      (fun m _ p hp => rtShift_share h hC (δ d) (σ d) m hp) (fun m _ p hp => rtShiftZ_share h hC (δ d) (σ d) m hp)⟩
  have hhas : ∀ (ω : Coins ctx ((ctx.n + ctx.t) * num) (2 * ctx.n * num)), ∀ p < ctx.n, ∀ i < tfs.length, rtHas ctx tfs ω p i =
      ((List.range num).map fun j => (rtR ctx tfs.length num A ω.g i j).eval (ofU32 p),
       (List.range num).map fun j => (rtRN ctx tfs.length num AN ω.g i j).eval (ofU32 p)) := by
    intro ω p hp i hi
    unfold rtHas
    rw [rtResult_eq B h hd hK ω, Option.getD_some, getD_tab _ _ _ hp]
    simp only
    rw [getD_tab _ _ _ (by omega), getD_tab _ _ _ (by omega)]
  refine ⟨T, hag, ?_, ?_, ?_, ?_, ?_⟩
  · intro d ω p hp q hq
    have hqn := hC.parties q hq
    rw [rtMessages_eq B h ω hp, rtMessages_eq B h _ hp, Option.bind_some, Option.bind_some, getElem?_tab _ _ _ hqn, getElem?_tab _ _ _ hqn]
    refine congrArg some (congrArg₂ (· ++ ·) ?_ ?_)
    · apply List.map_congr_left
      intro j hj
      have hj := List.mem_range.1 hj
      rw [rtQ_congr (eg d ω) (ez d ω) hle hqn hj, rtQ_same (δ d) (σ d) _ _ hq hj]
    · apply List.map_congr_left
      intro j hj
      have hj := List.mem_range.1 hj
      rw [rtQN_congr (eg d ω) (ez d ω) hqn hj, rtQN_same hC (δ d) (σ d) _ _ hq hj]
  · intro ω p hp i hi
    rw [hhas ω p hp i hi]
    simp
  · intro d ω p hp i hi j hj
    rw [hhas _ p hp i hi, hhas _ p hp i hi]
    simp only
    rw [getD_tab _ _ _ hj, getD_tab _ _ _ hj, rtR_congr (eg d ω) hle hj, rtR_add, eval_add,
      rtR_shift h hC B hK hok (δ d) (σ d) hi hj (h3 d i hi j hj)]
    simp only [σ, List.getD_eq_getElem _ _ hi, hδ d i j hi hj]
  · intro d ω p hp i hi j hj
    rw [hhas _ p hp i hi, hhas _ p hp i hi]
    simp only
    rw [getD_tab _ _ _ hj, getD_tab _ _ _ hj, rtRN_congr (eg d ω) hj, rtRN_add, eval_add,
      rtRN_shift h hC B hK hok (δ d) (σ d) (h1 d) hi hj, hδ d i j hi hj, sharePoly_eval hn _ hp]
  · intro d d' ω hdd
    have e1 : δ d' = fun k j => -δ d k j := by
      funext k j
      simp only [δ]
      split_ifs with hkj
      · rw [← sharePoly_neg]
        congr 1
        funext p
        unfold quiet
        split_ifs
        · rw [neg_zero]
        · rw [hdd k hkj.1 j hkj.2 p]
      · rw [neg_zero]
    have e2 : σ d' = fun k j => -σ d k j := by
      funext k j
      simp only [σ, e1, trShift_neg]
    apply Coins.ext'
    · intro m hm
      rw [eg d' _ m hm, eg d _ m hm, e1, e2, rtShift_neg, add_neg_cancel_right]
    · intro m hm
      rw [ez d' _ m hm, ez d _ m hm, e1, e2, rtShiftZ_neg, add_neg_cancel_right]

/-! ## All runs -/

section
variable {ctx : Ctx F} (h : ctx.Good) (hd : ctx.t + 2 * ctx.l ≤ ctx.n) {Cs : Finset Nat} (hC : Coalition ctx Cs) {gs : List (RtRun F)} {rs : List (MkJob F)}
  (ok : MkOk ctx gs rs)

/-- The run which uses the masks for transformation `i` of run `g` of `randtrans`. -/
def jobOf (rs : List (MkJob F)) (g i : Nat) : Option (Fin rs.length) := (List.finRange rs.length).find? fun k => (rs.get k).tr == some (g, i)

omit [DecidableEq F] [CodeField F] in
theorem jobOf_eq (once : ∀ (k k' : Fin rs.length) gi, (rs.get k).tr = some gi → (rs.get k').tr = some gi → k = k') {k : Fin rs.length} {g i : Nat}
    (hk : (rs.get k).tr = some (g, i)) : jobOf rs g i = some k := by
  unfold jobOf
  cases hf : (List.finRange rs.length).find? fun k => (rs.get k).tr == some (g, i) with
  | none =>
    rw [List.find?_eq_none] at hf
    exact absurd (by rw [hk]; simp) (hf k (List.mem_finRange k))
  | some k' =>
    have := List.find?_some hf
    simp only [beq_iff_eq] at this
    rw [once k k' _ hk this]

/-- The changes for run `g` of `randtrans`. -/
def rtDiff (rs : List (MkJob F)) (d : Nat → Nat → Nat → F) (g i j p : Nat) : F := ((jobOf rs g i).map fun k => d k j p).getD 0

/-- The change of the coins of run `g` of `randtrans`. -/
noncomputable def rtMove (g : Fin gs.length) : (Nat → Nat → Nat → F) → Coins ctx ((ctx.n + ctx.t) * (gs.get g).num) (2 * ctx.n * (gs.get g).num) →
    Coins ctx ((ctx.n + ctx.t) * (gs.get g).num) (2 * ctx.n * (gs.get g).num) :=
  (rtMove_exists ctx h hd hC (gs.get g).tfs (ok.count _ (List.get_mem _ _)) (ok.good _ (List.get_mem _ _)) (ok.aligned _ (List.get_mem _ _))
    (gs.get g).num).choose

theorem rtMove_spec (g : Fin gs.length) : RtMove ctx Cs (gs.get g).tfs (gs.get g).num (rtMove h hd hC ok g) :=
  (rtMove_exists ctx h hd hC (gs.get g).tfs (ok.count _ (List.get_mem _ _)) (ok.good _ (List.get_mem _ _)) (ok.aligned _ (List.get_mem _ _))
    (gs.get g).num).choose_spec

/-- Changing the coins. -/
noncomputable def mkMoveCoins (d : Nat → Nat → Nat → F) (ω : MkCoins ctx gs rs) : MkCoins ctx gs rs :=
  (fun k => (ω.1 k).shift (fun i => rdShift ctx Cs (d k i)) (fun i => rdShiftZ ctx Cs (d k i)) (fun _ _ => packC_degree h hC _)
    (fun _ _ => rdShiftZ_zero h hC _), fun g => rtMove h hd hC ok g (rtDiff rs d g) (ω.2 g))

theorem mkMoveCoins_g (d : Nat → Nat → Nat → F) (ω : MkCoins ctx gs rs) (k : Fin rs.length) {m : Nat} (hm : m < (rs.get k).own) :
    ((mkMoveCoins h hd hC ok d ω).1 k).g m = (ω.1 k).g m + rdShift ctx Cs (d k m) :=
  Coins.shift_g (ω.1 k) (fun i => rdShift ctx Cs (d k i)) (fun i => rdShiftZ ctx Cs (d k i)) (fun _ _ => packC_degree h hC _)
    (fun _ _ => rdShiftZ_zero h hC _) hm

theorem mkMoveCoins_z (d : Nat → Nat → Nat → F) (ω : MkCoins ctx gs rs) (k : Fin rs.length) {m : Nat} (hm : m < (rs.get k).own) :
    ((mkMoveCoins h hd hC ok d ω).1 k).z m = (ω.1 k).z m + rdShiftZ ctx Cs (d k m) :=
  Coins.shift_z (ω.1 k) (fun i => rdShift ctx Cs (d k i)) (fun i => rdShiftZ ctx Cs (d k i)) (fun _ _ => packC_degree h hC _)
    (fun _ _ => rdShiftZ_zero h hC _) hm

theorem mkMoveCoins_rt (d : Nat → Nat → Nat → F) (ω : MkCoins ctx gs rs) (g : Fin gs.length) :
    (mkMoveCoins h hd hC ok d ω).2 g = rtMove h hd hC ok g (rtDiff rs d g) (ω.2 g) := rfl

/-- The change of the results. -/
noncomputable def mkShift (ctx : Ctx F) (Cs : Finset Nat) (gs : List (RtRun F)) (rs : List (MkJob F)) (k : Nat) (d : Nat → F) : F[X] :=
  match (rs[k]?).bind MkJob.tr with
  | none => rdShift ctx Cs d
  | some (g, i) => trShift ctx Cs (tfOf gs g i) (sharePoly ctx.n d)

/-- The number of values of run `k`. -/
def mkNum (rs : List (MkJob F)) (k : Nat) : Nat := ((rs[k]?).map MkJob.num).getD 0

/-- The runs on which run `k` depends. -/
def mkDeps (rs : List (MkJob F)) (k : Nat) : List Nat := ((rs[k]?).map MkJob.deps).getD []

omit [CodeField F] [DecidableEq F] in
theorem mkNum_get (k : Fin rs.length) : mkNum rs k = (rs.get k).num := by
  unfold mkNum
  simp

omit [CodeField F] [DecidableEq F] in
theorem mkDeps_get (k : Fin rs.length) : mkDeps rs k = (rs.get k).deps := by
  unfold mkDeps
  simp

theorem mkShift_none {k : Fin rs.length} (hk : (rs.get k).tr = none) (d : Nat → F) : mkShift ctx Cs gs rs k d = rdShift ctx Cs d := by
  unfold mkShift
  have : (rs[(k : Nat)]?).bind MkJob.tr = none := by
    rw [List.getElem?_eq_getElem k.2]
    exact hk
  rw [this]

theorem mkShift_some {k : Fin rs.length} {g i : Nat} (hk : (rs.get k).tr = some (g, i)) (d : Nat → F) :
    mkShift ctx Cs gs rs k d = trShift ctx Cs (tfOf gs g i) (sharePoly ctx.n d) := by
  unfold mkShift
  have : (rs[(k : Nat)]?).bind MkJob.tr = some (g, i) := by
    rw [List.getElem?_eq_getElem k.2]
    exact hk
  rw [this]

omit [CodeField F] [DecidableEq F] in
theorem own_none {r : MkJob F} (hr : r.tr = none) : r.own = r.num := if_pos hr

theorem masks_none (ω : MkCoins ctx gs rs) {k : Fin rs.length} (hk : (rs.get k).tr = none) (p : Nat) :
    ω.masks k p = ((ω.1 k).randoms p, (ω.1 k).zeros p) := by
  unfold MkCoins.masks
  rw [hk]

theorem masks_some (ω : MkCoins ctx gs rs) {k : Fin rs.length} {g i : Nat} (hk : (rs.get k).tr = some (g, i)) (hg : g < gs.length) (p : Nat) :
    ω.masks k p = rtHas ctx (gs.get ⟨g, hg⟩).tfs (ω.2 ⟨g, hg⟩) p i := by
  unfold MkCoins.masks
  rw [hk]
  simp only
  rw [dif_pos hg]
  rfl

include h hd hC ok in
theorem mkMasks_length (ω : MkCoins ctx gs rs) (k : Fin rs.length) {p : Nat} (hp : p < ctx.n) :
    (ω.masks k p).1.length = (rs.get k).num ∧ (ω.masks k p).2.length = (rs.get k).num := by
  cases hk : (rs.get k).tr with
  | none =>
    rw [masks_none ω hk]
    exact ⟨(Coins.randoms_length _ p).trans (own_none hk), (Coins.zeros_length _ p).trans (own_none hk)⟩
  | some gi =>
    obtain ⟨g, i⟩ := gi
    obtain ⟨hg, hi, hn⟩ := ok.runs k g i hk
    rw [masks_some ω hk hg, hn]
    exact (rtMove_spec h hd hC ok ⟨g, hg⟩).lens _ p hp i hi

include h hd hC ok in
theorem mkHeld_length {off : Fin rs.length → Nat → Option (List F × List F)} (hoff : MkOff rs off) (ω : MkCoins ctx gs rs) {k : Fin rs.length} {p : Nat}
    (hp : p < ctx.n) {m : List F × List F} (hm : ω.held off k p = some m) : m.1.length = (rs.get k).num ∧ m.2.length = (rs.get k).num := by
  unfold MkCoins.held at hm
  obtain ⟨o, ho, rfl⟩ := Option.map_eq_some_iff.1 hm
  obtain ⟨h1, h2⟩ := mkMasks_length h hd hC ok ω k hp
  obtain ⟨h3, h4⟩ := hoff k p o ho
  simp only [vadd, List.length_zipWith]
  omega

variable (c : Codec F)

omit h hd hC ok in
theorem mkJobs_get (x : Nat → Nat → Env (List F) → List F) (held : Fin rs.length → Nat → Option (List F × List F)) {j : Nat} {job : Job (List F)}
    (hj : (mkJobs c ctx gs rs x held)[j]? = some job) : ∃ k : Fin rs.length, j = k ∧ job = ⟨(rs.get k).id, (rs.get k).deps,
    match (rs.get k).tr with
    | none => rdProto c ctx (rs.get k).leader (rs.get k).tapes (fun p env => (held k p).map fun m => (x k p env, m)) fun o => o
    | some (g, i) => transProto c ctx (tfOf gs g i) (rs.get k).leader (rs.get k).tapes (fun p env => (held k p).map fun m => (x k p env, m)) fun o => o⟩ := by
  obtain ⟨hl, he⟩ := List.getElem?_eq_some_iff.1 hj
  unfold mkJobs at hl he
  rw [List.length_ofFn] at hl
  rw [List.getElem_ofFn] at he
  exact ⟨⟨j, hl⟩, rfl, he.symm⟩

omit [DecidableEq F] in
theorem vadd_getD {a o : List F} {num i : Nat} (ha : a.length = num) (ho : o.length = num) (hi : i < num) :
    (vadd a o).getD i 0 = a.getD i 0 + o.getD i 0 := by
  rw [List.getD_eq_getElem _ _ (by simp [vadd]; omega), List.getD_eq_getElem _ _ (by omega), List.getD_eq_getElem _ _ (by omega)]
  simp [vadd]

/-- One run at a party which follows the protocol, with inputs and coins which differ. -/
theorem mk_rel {off : Fin rs.length → Nat → Option (List F × List F)} (hoff : MkOff rs off) {x x' : Nat → Nat → Env (List F) → List F}
    (hx : MkSizes rs x) (hx' : MkSizes rs x') (ω : MkCoins ctx gs rs) (d : Nat → Nat → Nat → F) (hdC : ∀ k < rs.length, ∀ j, ∀ q ∈ Cs, d k j q = 0)
    {k : Nat} {job job' : Job (List F)} {p : Nat} (hj : (mkJobs c ctx gs rs x (ω.held off))[k]? = some job)
    (hj' : (mkJobs c ctx gs rs x' ((mkMoveCoins h hd hC ok d ω).held off))[k]? = some job') (hp : p < ctx.n) (env env' : Env (List F))
    (hdiff : ∀ j, d k j p = (x k p env).getD j 0 - (x' k p env').getD j 0) :
    ProtoRel (mkMove (mkShift ctx Cs gs rs) (mkNum rs) d p k) p job.proto job'.proto env env' := by
  have hfit := h.fit
  obtain ⟨k, rfl, rfl⟩ := mkJobs_get c x _ hj
  obtain ⟨k', hkk, rfl⟩ := mkJobs_get c x' _ hj'
  obtain rfl : k = k' := Fin.ext hkk
  have l1 := hx k p env
  have l2 := hx' k p env'
  have hmv : mkMove (mkShift ctx Cs gs rs) (mkNum rs) d p k
      = fun o => vsub o ((List.range (rs.get k).num).map fun i => (mkShift ctx Cs gs rs k (d k i)).eval (ofU32 p)) := by
    funext o
    unfold mkMove
    rw [mkNum_get]
  rw [hmv]
  cases ho : off k p with
  | none =>
    have e1 : ω.held off k p = none := by
      unfold MkCoins.held
      rw [ho]
      rfl
    have e2 : (mkMoveCoins h hd hC ok d ω).held off k p = none := by
      unfold MkCoins.held
      rw [ho]
      rfl
    cases hk : (rs.get k).tr with
    | none => exact rdProto_none c ctx _ _ _ _ (by simp only [e1, Option.map_none]) (by simp only [e2, Option.map_none]) _
    | some gi => exact transProto_none c ctx _ _ _ _ _ (by simp only [e1, Option.map_none]) (by simp only [e2, Option.map_none]) _
  | some o =>
    obtain ⟨o1, o2⟩ := hoff k p o ho
    have e1 : ω.held off k p = some (vadd (ω.masks k p).1 o.1, vadd (ω.masks k p).2 o.2) := by
      unfold MkCoins.held
      rw [ho]
      rfl
    have e2 : (mkMoveCoins h hd hC ok d ω).held off k p
        = some (vadd ((mkMoveCoins h hd hC ok d ω).masks k p).1 o.1, vadd ((mkMoveCoins h hd hC ok d ω).masks k p).2 o.2) := by
      unfold MkCoins.held
      rw [ho]
      rfl
    obtain ⟨m1, m2⟩ := mkMasks_length h hd hC ok ω k hp
    obtain ⟨m1', m2'⟩ := mkMasks_length h hd hC ok (mkMoveCoins h hd hC ok d ω) k hp
    have q1 := fun i hi => mkMoveCoins_g h hd hC ok d ω k (m := i) hi
    have q2 := fun i hi => mkMoveCoins_z h hd hC ok d ω k (m := i) hi
    have q3 := mkMoveCoins_rt h hd hC ok d ω
    generalize mkMoveCoins h hd hC ok d ω = ω' at *
    have vl : ∀ {a b : List F}, a.length = (rs.get k).num → b.length = (rs.get k).num → (vadd a b).length = (rs.get k).num := by
      intro a b ha hb
      rw [vadd, List.length_zipWith, ha, hb, Nat.min_self]
    have g1 : (vadd (ω.masks k p).1 o.1).length = (rs.get k).num := vl m1 o1
    have g2 : (vadd (ω.masks k p).2 o.2).length = (rs.get k).num := vl m2 o2
    have g1' : (vadd (ω'.masks k p).1 o.1).length = (rs.get k).num := vl m1' o1
    have g2' : (vadd (ω'.masks k p).2 o.2).length = (rs.get k).num := vl m2' o2
    cases hk : (rs.get k).tr with
    | none =>
      refine rdProto_rel c ctx _ _ _ _ (by simp only [e1, Option.map_some]) (by simp only [e2, Option.map_some]) l1 g1 g2 l2 g1' g2' _ ?_ ?_
      · intro i hi
        rw [vadd_getD m1 o1 hi, vadd_getD m2 o2 hi, vadd_getD m1' o1 hi, vadd_getD m2' o2 hi, masks_none ω hk, masks_none _ hk]
        simp only [Coins.randoms_eq, Coins.zeros_eq]
        have hi : i < (rs.get k).own := by rw [own_none hk]; exact hi
        rw [getD_tab _ _ _ hi, getD_tab _ _ _ hi, getD_tab _ _ _ hi, getD_tab _ _ _ hi]
        rw [q1 i hi, q2 i hi, rdShiftZ, eval_add, eval_add, eval_sub, sharePoly_eval (by omega) _ hp, hdiff i]
        ring
      · intro i hi
        rw [vadd_getD m1 o1 hi, vadd_getD m1' o1 hi, masks_none ω hk, masks_none _ hk, mkShift_none hk]
        simp only [Coins.randoms_eq]
        have hi : i < (rs.get k).own := by rw [own_none hk]; exact hi
        rw [getD_tab _ _ _ hi, getD_tab _ _ _ hi]
        rw [q1 i hi, eval_add]
        ring
    | some gi =>
      obtain ⟨g, i⟩ := gi
      obtain ⟨hg, hi, hn⟩ := ok.runs k g i hk
      have hS := rtMove_spec h hd hC ok ⟨g, hg⟩
      have hq : ∀ j, quiet Cs (rtDiff rs d g) i j = d k j := by
        intro j
        funext q
        unfold quiet rtDiff
        rw [jobOf_eq ok.once hk]
        change (if q ∈ Cs then 0 else d k j q) = d k j q
        split_ifs with hqC
        · exact (hdC k k.2 j q hqC).symm
        · rfl
      have htf : tfOf gs g i = (gs.get ⟨g, hg⟩).tfs[i] := by
        unfold tfOf
        rw [List.getElem?_eq_getElem hg, Option.map_some, Option.getD_some]
        exact List.getD_eq_getElem _ _ hi
      refine transProto_rel c ctx _ _ _ _ _ (by simp only [e1, Option.map_some]) (by simp only [e2, Option.map_some]) l1 g1 g2 l2 g1' g2' _ ?_ ?_
      · intro j hj
        rw [vadd_getD m2 o2 hj, vadd_getD m2' o2 hj, masks_some ω hk hg, masks_some _ hk hg]
        have := hS.snd (rtDiff rs d g) (ω.2 ⟨g, hg⟩) p hp i hi j (by omega)
        rw [q3 ⟨g, hg⟩, this, hq, hdiff j]
        ring
      · intro j hj
        rw [vadd_getD m1 o1 hj, vadd_getD m1' o1 hj, masks_some ω hk hg, masks_some _ hk hg, mkShift_some hk]
        have := hS.fst (rtDiff rs d g) (ω.2 ⟨g, hg⟩) p hp i hi j (by omega)
        rw [q3 ⟨g, hg⟩, this, hq, htf]
        ring

/-- The parties of `Cs` do not notice. -/
theorem mkMoveCoins_known (d : Nat → Nat → Nat → F) (hdC : ∀ k j, ∀ p ∈ Cs, d k j p = 0) (ω : MkCoins ctx gs rs) :
    (mkMoveCoins h hd hC ok d ω).known Cs = ω.known Cs := by
  have hfit := h.fit
  unfold MkCoins.known
  refine Prod.ext ?_ (Prod.ext ?_ ?_)
  · funext k p
    simp only
    by_cases hp : p ∈ Cs
    · rw [if_pos hp, if_pos hp]
      have h1 : ∀ i, ∀ q ∈ Cs, (rdShift ctx Cs (d k i)).eval (ofU32 q) = 0 := fun i q hq => packC_share h hC _ hq
      have := Coins.shift_agree (ω.1 k) (fun i => rdShift ctx Cs (d k i)) (fun i => rdShiftZ ctx Cs (d k i)) (fun _ _ => packC_degree h hC _)
        (fun _ _ => rdShiftZ_zero h hC _) Cs (fun i _ q hq => h1 i q hq) (fun i _ q hq => by
          simp only [rdShiftZ, eval_sub]
          rw [h1 i q hq, sharePoly_eval (by omega) _ (hC.parties q hq), hdC k i q hq, sub_zero]) p hp
      exact Prod.ext this.1 this.2
    · rw [if_neg hp, if_neg hp]
  · funext g p
    simp only
    by_cases hp : p ∈ Cs
    · rw [if_pos hp, if_pos hp]
      have := (rtMove_spec h hd hC ok g).agree (rtDiff rs d g) (ω.2 g) p hp
      exact Prod.ext this.1 this.2
    · rw [if_neg hp, if_neg hp]
  · funext g p q
    simp only
    by_cases hpq : p < ctx.n ∧ q ∈ Cs
    · rw [if_pos hpq, if_pos hpq]
      exact (rtMove_spec h hd hC ok g).msgs (rtDiff rs d g) (ω.2 g) p hpq.1 q hpq.2
    · rw [if_neg hpq, if_neg hpq]

theorem mkMoveCoins_neg (d d' : Nat → Nat → Nat → F) (ω : MkCoins ctx gs rs) (hdd : ∀ k < rs.length, d' k = fun j p => -d k j p) :
    mkMoveCoins h hd hC ok d' (mkMoveCoins h hd hC ok d ω) = ω := by
  refine Prod.ext ?_ ?_
  · funext k
    apply Coins.ext'
    · intro m hm
      rw [mkMoveCoins_g h hd hC ok d' _ k hm, mkMoveCoins_g h hd hC ok d _ k hm, hdd k k.2, rdShift_neg, add_neg_cancel_right]
    · intro m hm
      rw [mkMoveCoins_z h hd hC ok d' _ k hm, mkMoveCoins_z h hd hC ok d _ k hm, hdd k k.2, rdShiftZ_neg, add_neg_cancel_right]
  · funext g
    refine (rtMove_spec h hd hC ok g).back _ _ _ fun i _ j _ p => ?_
    unfold rtDiff
    cases jobOf rs g i with
    | none => simp
    | some k =>
      change d' k j p = -d k j p
      rw [hdd k k.2]

/-- What `Masked` needs. -/
theorem mkMasked {off : MkKnown gs rs → Fin rs.length → Nat → Option (List F × List F)} (hoff : ∀ m, MkOff rs (off m)) :
    Masked ctx.n Cs rs.length (mkNum rs) (mkDeps rs) (mkShift ctx Cs gs rs) (MkSizes rs)
      (fun v x (ω : MkCoins ctx gs rs) => mkJobs c ctx gs rs x (ω.held (off v))) (mkMoveCoins h hd hC ok) (MkCoins.known Cs) where
  order := by
    intro k hk m hm
    rw [show k = ((⟨k, hk⟩ : Fin rs.length) : Nat) from rfl, mkDeps_get] at hm
    exact ok.order ⟨k, hk⟩ m hm
  length := fun v x ω => by simp [mkJobs]
  deps := by
    intro v x ω k job hj
    obtain ⟨k, rfl, rfl⟩ := mkJobs_get c x _ hj
    rw [mkDeps_get]
  id := by
    intro v x x' ω ω' k job job' hj hj'
    obtain ⟨k, rfl, rfl⟩ := mkJobs_get c x _ hj
    obtain ⟨k', hkk, rfl⟩ := mkJobs_get c x' _ hj'
    obtain rfl : k = k' := Fin.ext hkk
    rfl
  rel := fun v x x' ω d k job job' p hdC _ hx hx' hj hj' hp env env' hdiff =>
    mk_rel h hd hC ok c (hoff v) hx hx' ω d hdC hj hj' hp env env' hdiff
  fin := by
    intro v x ω k job hj p hp env ms o hf
    obtain ⟨k, rfl, rfl⟩ := mkJobs_get c x _ hj
    rw [mkNum_get]
    have hfin : ∀ m : List F × List F, ω.held (off v) k p = some m → ∀ s, rdFinish m.1 s = some o → o.length = (rs.get k).num := by
      intro m hm s hs
      obtain ⟨h1, _⟩ := mkHeld_length h hd hC ok (hoff v) ω hp hm
      unfold rdFinish at hs
      split_ifs at hs with hl
      cases hs
      unfold vsub
      rw [List.length_zipWith, hl, h1]
      simp
    cases hk : (rs.get k).tr with
    | none =>
      simp only [hk, rdProto] at hf
      obtain ⟨i, hi, hf⟩ := Option.bind_eq_some_iff.1 hf
      obtain ⟨m, hm, rfl⟩ := Option.map_eq_some_iff.1 hi
      obtain ⟨a, _, hf⟩ := Option.bind_eq_some_iff.1 hf
      obtain ⟨s, _, hf⟩ := Option.bind_eq_some_iff.1 hf
      rw [Option.map_id'] at hf
      exact hfin m hm s hf
    | some gi =>
      simp only [hk, transProto] at hf
      obtain ⟨i, hi, hf⟩ := Option.bind_eq_some_iff.1 hf
      obtain ⟨m, hm, rfl⟩ := Option.map_eq_some_iff.1 hi
      obtain ⟨a, _, hf⟩ := Option.bind_eq_some_iff.1 hf
      obtain ⟨s, _, hf⟩ := Option.bind_eq_some_iff.1 hf
      rw [Option.map_id'] at hf
      exact hfin m hm s hf
  mv_neg := by
    intro k d
    unfold mkShift
    split
    · exact rdShift_neg ctx Cs d
    · rw [sharePoly_neg, trShift_neg]
  move_neg := fun d d' ω hdd => mkMoveCoins_neg h hd hC ok d d' ω hdd
  move_known := fun d hdC ω => mkMoveCoins_known h hd hC ok d hdC ω

end

/-! ## Wrong messages of `randtrans` -/

/-- What a party computes from messages of the right lengths. -/
theorem rtFinish_any {ctx : Ctx F} (h : ctx.Good) (num : Nat) (m : Nat → Nat → F) :
    rtFinish ctx num ((List.range ctx.n).map fun p => (List.range (2 * num)).map fun j => m p j)
      = some ((defaultPos ctx.n ctx.l).map fun x => (List.range num).map fun j => (sharePoly ctx.n fun p => m p j).eval x,
          (defaultPos ctx.n ctx.l).map fun x => (List.range num).map fun j => (sharePoly ctx.n fun p => m p (num + j)).eval x) := by
  have hfit := h.fit
  rw [← rtFinish_tab h num (fun j => sharePoly ctx.n fun p => m p j) (fun j => sharePoly ctx.n fun p => m p (num + j))
    (fun j _ => sharePoly_degree (by omega) _) (fun j _ => sharePoly_degree (by omega) _)]
  congr 1
  apply List.map_congr_left
  intro p hp
  have hp := List.mem_range.1 hp
  simp only [sharePoly_eval (show ctx.n ≤ CodeField.order F by omega) _ hp]
  rw [two_mul, List.range_add, List.map_append, List.map_map]
  rfl

omit [DecidableEq F] in
theorem sharePoly_add (n : Nat) (a b : Nat → F) : sharePoly n (fun p => a p + b p) = sharePoly n a + sharePoly n b :=
  map_add (Lagrange.interpolate (Finset.range n) fun i => (ofU32 i : F)) a b

/-- Two lists which agree in length and everywhere. -/
theorem eq_tab {l : List F} {n : Nat} (h : l.length = n) : l = (List.range n).map fun j => l.getD j 0 := by
  apply List.ext_getElem (by simp [h])
  intro i h1 h2
  simp [List.getD_eq_getElem?_getD, List.getElem?_eq_getElem h1]

/-- What the parties get in `randtrans`, if all follow the protocol, and the masks which they compute of it. -/
theorem rt_honest {ctx : Ctx F} (h : ctx.Good) (hd : ctx.t + 2 * ctx.l ≤ ctx.n) (tfs : List (SharingTransform F)) (hK : tfs.length ≤ ctx.l)
    (hok : ∀ tf ∈ tfs, tf.Ok ctx) {num : Nat} (W : Coins ctx ((ctx.n + ctx.t) * num) (2 * ctx.n * num)) {q : Nat} (hq : q < ctx.n) :
    ∃ hm : Nat → Nat → F, (∀ p < ctx.n, ((rtMessages ctx tfs W p).bind fun m => m[q]?) = some ((List.range (2 * num)).map (hm p))) ∧
      ∀ i < tfs.length, rtHas ctx tfs W q i = ((List.range num).map fun j => (sharePoly ctx.n fun p => hm p j).eval (ofU32 (ctx.n + i)),
        (List.range num).map fun j => (sharePoly ctx.n fun p => hm p (num + j)).eval (ofU32 (ctx.n + i))) := by
  obtain ⟨A, AN, E, B⟩ := rtBasis_exists h tfs hK hok
  let hm : Nat → Nat → F := fun p j => if j < num then (rtQ ctx tfs.length num A E W.g W.z q j).eval (ofU32 p)
    else (rtQN ctx tfs.length num AN E W.g W.z q (j - num)).eval (ofU32 p)
  have hrow : ∀ p, (List.range (2 * num)).map (hm p) = (List.range num).map (fun j => (rtQ ctx tfs.length num A E W.g W.z q j).eval (ofU32 p)) ++
      (List.range num).map (fun j => (rtQN ctx tfs.length num AN E W.g W.z q j).eval (ofU32 p)) := by
    intro p
    rw [two_mul, List.range_add, List.map_append, List.map_map]
    congr 1
    · apply List.map_congr_left
      intro j hj
      exact if_pos (List.mem_range.1 hj)
    · apply List.map_congr_left
      intro j hj
      simp only [Function.comp, hm]
      rw [if_neg (by omega), Nat.add_sub_cancel_left]
  have hg : ∀ m < (ctx.n + ctx.t) * num, (W.g m).degree < (ctx.t + ctx.l : Nat) := fun m hm => W.g_degree hm
  have hz : ∀ m < 2 * ctx.n * num, (W.z m).degree < ctx.n := fun m hm => W.z_degree hm
  have e1 := rtFinish_tab h num (fun j => rtQ ctx tfs.length num A E W.g W.z q j) (fun j => rtQN ctx tfs.length num AN E W.g W.z q j)
    (fun j hj => B.degQ h hd hK hg hz hq hj) (fun j hj => B.degQN h hd hK hg hz hq hj)
  have e2 := rtFinish_any h num hm
  simp only [← hrow] at e1
  rw [e2] at e1
  have e3 := Option.some.inj e1
  have hdef : ∀ k < ctx.l, (ofU32 (ctx.n + k) : F) ∈ defaultPos ctx.n ctx.l := fun k hk => List.mem_map.2 ⟨k, List.mem_range.2 hk, rfl⟩
  refine ⟨hm, ?_, ?_⟩
  · intro p hp
    rw [rtMessages_eq B h W hp, Option.bind_some, getElem?_tab _ _ _ hq, hrow]
  · intro i hi
    have hiL : i < ctx.l := by omega
    have f1 := congrArg (fun o => o.1.getD i []) e3
    have f2 := congrArg (fun o => o.2.getD i []) e3
    simp only [defaultPos, List.map_map] at f1 f2
    rw [getD_tab _ _ _ hiL, getD_tab _ _ _ hiL] at f1 f2
    simp only [Function.comp] at f1 f2
    rw [f1, f2]
    unfold rtHas
    rw [rtResult_eq B h hd hK W, Option.getD_some, getD_tab _ _ _ hq]
    simp only
    rw [getD_tab _ _ _ hiL, getD_tab _ _ _ hiL]
    refine Prod.ext ?_ ?_
    · apply List.map_congr_left
      intro j hj
      have hj := List.mem_range.1 hj
      exact (B.evalQ hK W.g W.z q hiL (W.z_zero (rt_idxz (by omega) hj) _ (hdef i hiL))).symm
    · apply List.map_congr_left
      intro j hj
      have hj := List.mem_range.1 hj
      exact (B.evalQN hK W.g W.z q hiL (W.z_zero (rt_idxz (by omega) hj) _ (hdef i hiL))).symm

/-- With wrong messages of the right lengths, the masks have errors which are determined by the differences of the messages. -/
theorem rt_wrong {ctx : Ctx F} (h : ctx.Good) (hd : ctx.t + 2 * ctx.l ≤ ctx.n) (tfs : List (SharingTransform F)) (hK : tfs.length ≤ ctx.l)
    (hok : ∀ tf ∈ tfs, tf.Ok ctx) {num : Nat} (W : Coins ctx ((ctx.n + ctx.t) * num) (2 * ctx.n * num)) {q : Nat} (hq : q < ctx.n) {i : Nat}
    (hi : i < tfs.length) (Cs : Finset Nat) (ev : Nat → List F) (hev : ∀ p ∈ Cs, (ev p).length = 2 * num) :
    (((List.range ctx.n).mapM fun p => if p ∈ Cs then some (ev p) else (rtMessages ctx tfs W p).bind fun m => m[q]?).bind fun box =>
        (rtFinish ctx num box).map fun o => (o.1.getD i [], o.2.getD i []))
      = (rtFinish ctx num ((List.range ctx.n).map fun p => (List.range (2 * num)).map fun j =>
          if p ∈ Cs then (ev p).getD j 0 - (((rtMessages ctx tfs W p).bind fun m => m[q]?).getD []).getD j 0 else 0)).map fun o =>
        (vadd (rtHas ctx tfs W q i).1 (o.1.getD i []), vadd (rtHas ctx tfs W q i).2 (o.2.getD i [])) := by
  obtain ⟨hm, h1, h2⟩ := rt_honest h hd tfs hK hok W hq
  have hiL : i < ctx.l := by omega
  have hbox : ((List.range ctx.n).mapM fun p => if p ∈ Cs then some (ev p) else (rtMessages ctx tfs W p).bind fun m => m[q]?)
      = some ((List.range ctx.n).map fun p => (List.range (2 * num)).map fun j => hm p j + if p ∈ Cs then (ev p).getD j 0 - hm p j else 0) := by
    apply mapM_range_some
    intro p hp
    by_cases hpC : p ∈ Cs
    · simp only [if_pos hpC]
      rw [eq_tab (hev p hpC)]
      congr 1
      apply List.map_congr_left
      intro j hj
      rw [← eq_tab (hev p hpC)]
      ring
    · simp only [if_neg hpC, add_zero]
      rw [h1 p hp]
  have herr : ((List.range ctx.n).map fun p => (List.range (2 * num)).map fun j =>
      if p ∈ Cs then (ev p).getD j 0 - (((rtMessages ctx tfs W p).bind fun m => m[q]?).getD []).getD j 0 else 0)
      = (List.range ctx.n).map fun p => (List.range (2 * num)).map fun j => if p ∈ Cs then (ev p).getD j 0 - hm p j else 0 := by
    apply List.map_congr_left
    intro p hp
    have hp := List.mem_range.1 hp
    apply List.map_congr_left
    intro j hj
    have hj := List.mem_range.1 hj
    rw [h1 p hp, Option.getD_some, getD_tab _ _ _ hj]
  rw [hbox, herr, Option.bind_some, rtFinish_any h num fun p j => hm p j + if p ∈ Cs then (ev p).getD j 0 - hm p j else 0,
    rtFinish_any h num fun p j => if p ∈ Cs then (ev p).getD j 0 - hm p j else 0, Option.map_some, Option.map_some, h2 i hi]
  simp only [defaultPos, List.map_map]
  rw [getD_tab _ _ _ hiL, getD_tab _ _ _ hiL, getD_tab _ _ _ hiL, getD_tab _ _ _ hiL]
  simp only [Function.comp, sharePoly_add, eval_add, vadd]
  congr 2
  · apply List.ext_getElem
    · simp
    · intro a h3 h4
      simp
  · apply List.ext_getElem
    · simp
    · intro a h3 h4
      simp

/-- If the wrong messages together have the wrong length, `randtrans` fails. -/
theorem rt_short {ctx : Ctx F} (h : ctx.Good) (hd : ctx.t + 2 * ctx.l ≤ ctx.n) (tfs : List (SharingTransform F)) (hK : tfs.length ≤ ctx.l)
    (hok : ∀ tf ∈ tfs, tf.Ok ctx) {num : Nat} (W : Coins ctx ((ctx.n + ctx.t) * num) (2 * ctx.n * num)) {q : Nat} (hq : q < ctx.n) 
    (Cs : Finset Nat) (hCs : ∀ p ∈ Cs, p < ctx.n) (ev : Nat → List F) (hev : ∑ p ∈ Cs, (ev p).length ≠ Cs.card * (2 * num)) :
    (((List.range ctx.n).mapM fun p => if p ∈ Cs then some (ev p) else (rtMessages ctx tfs W p).bind fun m => m[q]?).bind fun box =>
        rtFinish ctx num box) = none := by
  obtain ⟨hm, h1, h2⟩ := rt_honest h hd tfs hK hok W hq
  have hbox : ((List.range ctx.n).mapM fun p => if p ∈ Cs then some (ev p) else (rtMessages ctx tfs W p).bind fun m => m[q]?)
      = some ((List.range ctx.n).map fun p => if p ∈ Cs then ev p else (List.range (2 * num)).map (hm p)) := by
    apply mapM_range_some
    intro p hp
    by_cases hpC : p ∈ Cs
    · simp only [if_pos hpC]
    · simp only [if_neg hpC]
      rw [h1 p hp]
  rw [hbox, Option.bind_some]
  unfold rtFinish toRows
  rw [if_neg, Option.bind_none]
  rw [List.length_flatten, List.map_map]
  have : ((List.range ctx.n).map (List.length ∘ fun p => if p ∈ Cs then ev p else (List.range (2 * num)).map (hm p))).sum
      = ∑ p ∈ Finset.range ctx.n, if p ∈ Cs then (ev p).length else 2 * num := by
    rw [Finset.sum_range, ← List.sum_ofFn]
    congr 1
    apply List.ext_getElem
    · simp
    · intro a h3 h4
      simp only [List.getElem_map, List.getElem_range, Function.comp, List.getElem_ofFn]
      split_ifs <;> simp
  rw [this, Finset.sum_ite, Finset.sum_const, smul_eq_mul]
  have hf : (Finset.range ctx.n).filter (fun p => p ∈ Cs) = Cs := by
    ext p
    simp only [Finset.mem_filter, Finset.mem_range]
    exact ⟨fun h => h.2, fun h => ⟨hCs p h, h⟩⟩
  have hc := Finset.card_filter_add_card_filter_not (s := Finset.range ctx.n) (fun p => p ∈ Cs)
  rw [hf, Finset.card_range] at hc
  rw [hf]
  intro he
  apply hev
  have : ctx.n * (2 * num) = Cs.card * (2 * num) + ((Finset.range ctx.n).filter fun p => p ∉ Cs).card * (2 * num) := by
    rw [← Nat.add_mul, hc]
  omega

end Verif
