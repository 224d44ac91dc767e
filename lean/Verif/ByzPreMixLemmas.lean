import Verif.ByzPreMix
import Verif.ByzPreLemmas
import Verif.ByzMixLemmas
import Verif.PreRetape

/-! # Lemmas for `Props/ByzPreMix.lean` -/

open Polynomial

namespace Verif

open CodeField (ofU32)

/-- If nothing can be learned with any fixed sequence of actions, nothing can be learned with a strategy; and what else is true for fixed actions (`P`) is true for those of the
strategy. -/
theorem adaptive_with {A V Ω : Type} {view view' : Ω → List A → V} (σ : List V → A) {P : (Nat → A) → Ω → Ω → Prop}
    (h : ∀ a : Nat → A, ∃ e : Ω ≃ Ω, ∀ ω, (∀ N, view' (e ω) (firsts a N) = view ω (firsts a N)) ∧ P a ω (e ω)) :
    ∃ e : Ω ≃ Ω, ∀ ω, (∀ N, playBy σ (view' (e ω)) N = playBy σ (view ω) N) ∧ P (actsBy σ (view ω)) ω (e ω) := by
  choose E hE using h
  have acts : ∀ {v v' : List A → V}, (∀ N, playBy σ v' N = playBy σ v N) → actsBy σ v' = actsBy σ v := fun hv => by
    funext N
    unfold actsBy
    rw [hv]
  have fwd : ∀ ω N, playBy σ (view' (E (actsBy σ (view ω)) ω)) N = playBy σ (view ω) N := fun ω N => playBy_same (fun N => (hE _ _).1 _) N
  have bwd : ∀ ω N, playBy σ (view ((E (actsBy σ (view' ω))).symm ω)) N = playBy σ (view' ω) N := fun ω N => playBy_same (fun N => by
    rw [← (hE (actsBy σ (view' ω)) ((E (actsBy σ (view' ω))).symm ω)).1 N, Equiv.apply_symm_apply]) N
  refine ⟨⟨fun ω => E (actsBy σ (view ω)) ω, fun ω => (E (actsBy σ (view' ω))).symm ω, fun ω => ?_, fun ω => ?_⟩, fun ω => ⟨fwd ω, (hE _ ω).2⟩⟩
  · simp only
    rw [acts (fwd ω), Equiv.symm_apply_apply]
  · simp only
    rw [acts (bwd ω), Equiv.apply_symm_apply]

/-! ## Dealing bits -/

variable {F : Type} [CodeField F] [DecidableEq F]

section bits
variable {ctx : Ctx F} {bb : Nat} {mb : Mat F} {Cs : Finset Nat} {N : Nat → Nat → F}

theorem BitCoins.poly_lt (β : BitCoins ctx bb) {j b : Nat} (hj : j < ctx.n) (hb : b < bb) : β.poly j b = β.1 ⟨j, hj⟩ ⟨b, hb⟩ := by
  unfold BitCoins.poly
  rw [dif_pos ⟨hj, hb⟩]

/-- Changes `Δ` of the results of `randbit`, as changes of what is dealt. -/
noncomputable def bitShift (N : Nat → Nat → F) (hN : ∀ p s, IsBit (N p s)) (Δ : Nat → F[X]) (hΔ : ∀ i, (Δ i).degree < (ctx.t + ctx.l : Nat) ∧ ∀ v ∈ defaultPos ctx.n ctx.l, IsBit ((Δ i).eval v))
    (rows : Nat) : BitCoins ctx bb ≃ BitCoins ctx bb :=
  let f : BitCoins ctx bb → BitCoins ctx bb := fun β => ⟨fun j b => shiftPoly rows bb N β.poly Δ j b, fun j b => by
    have hq := β.2 j b
    have he := β.poly_lt j.2 b.2
    exact ⟨shiftPoly_degree b.2 (by rw [he]; exact hq.1) fun i _ => (hΔ i).1, fun v hv => shiftPoly_bit b.2 hN (by rw [he]; exact hq.2 v hv) fun i _ => (hΔ i).2 v hv⟩⟩
  have hf : ∀ β, f (f β) = β := fun β => by
    apply Subtype.ext
    funext j b
    have hneg : ∀ i, Δ i = -Δ i := fun i => by
      refine eq_neg_of_add_eq_zero_left ?_
      ext k
      rw [coeff_add, coeff_zero]
      exact CodeField.add_self _
    have := shiftPoly_back (rows := rows) (batches := bb) (N := N) (D := β.poly) (Δ := Δ) (D' := (f β).poly) (Δ' := Δ) (p := j) (b := b) b.2
      ((f β).poly_lt j.2 b.2) fun i _ => hneg i
    exact this.trans (β.poly_lt j.2 b.2)
  ⟨f, f, hf, hf⟩

variable {hN : ∀ p s, IsBit (N p s)} {Δ : Nat → F[X]} {hΔ : ∀ i, (Δ i).degree < (ctx.t + ctx.l : Nat) ∧ ∀ v ∈ defaultPos ctx.n ctx.l, IsBit ((Δ i).eval v)}

theorem bitShift_poly (β : BitCoins ctx bb) (rows : Nat) {j b : Nat} (hj : j < ctx.n) (hb : b < bb) :
    (bitShift N hN Δ hΔ rows β).poly j b = shiftPoly rows bb N β.poly Δ j b := BitCoins.poly_lt _ hj hb

theorem bitShift_same (β : BitCoins ctx bb) (rows : Nat) {j b p : Nat} (hj : j < ctx.n) (hb : b < bb) (h0 : ∀ i, (Δ i).eval (ofU32 p) = 0) :
    ((bitShift N hN Δ hΔ rows β).poly j b).eval (ofU32 p) = (β.poly j b).eval (ofU32 p) := by
  rw [bitShift_poly β rows hj hb, shiftPoly_same hb fun i _ => h0 i]

omit [DecidableEq F] in
/-- The results with cheating dealers, by positions. -/
theorem dealWith_get {n batches : Nat} (hn : n ≤ CodeField.order F) {m : Mat F} (hm : DealMat n m) (own : Nat → Nat → F[X]) (adv : Nat → Nat → Nat → F) {p : Nat} (hp : p < n) :
    pickFrom (dealWith n batches m Cs own adv) p (m.rows.length * batches) id = (List.range (m.rows.length * batches)).map fun a =>
      (dealPoly n batches m own a).eval (ofU32 p) + dealOff n batches m Cs (fun j b p => (own j b).eval (ofU32 p)) adv a p := by
  unfold pickFrom
  rw [dealWith_eq hn hm, Option.getD_some]
  refine List.map_congr_left fun a ha => ?_
  have ha := List.mem_range.1 ha
  unfold tabShares
  rw [getD_tab _ _ _ hp, id, getD_tab _ _ _ ha]
  exact dealPoly_adv hn m Cs own adv _ hp fun _ _ _ => rfl

omit [DecidableEq F] in
/-- What is dealt to `p` matters only. -/
theorem dealOff_congr {n batches : Nat} {m : Mat F} {mine mine' adv adv' : Nat → Nat → Nat → F} {a p : Nat} (ha : a < m.rows.length * batches)
    (h1 : ∀ j < n, j ∈ Cs → ∀ b < batches, mine j b p = mine' j b p) (h2 : ∀ j < n, j ∈ Cs → ∀ b < batches, adv j b p = adv' j b p) :
    dealOff n batches m Cs mine adv a p = dealOff n batches m Cs mine' adv' a p := by
  unfold dealOff
  refine Finset.sum_congr rfl fun j hj => ?_
  by_cases hjC : j ∈ Cs
  · rw [if_pos hjC, if_pos hjC, h1 j (Finset.mem_range.1 hj) hjC _ (mod_lt_of ha), h2 j (Finset.mem_range.1 hj) hjC _ (mod_lt_of ha)]
  · rw [if_neg hjC, if_neg hjC]

omit [DecidableEq F] in
theorem dealPoly_congr_lt {n batches : Nat} {m : Mat F} {q q' : Nat → Nat → F[X]} {a : Nat} (ha : a < m.rows.length * batches)
    (h : ∀ j < n, ∀ b < batches, q j b = q' j b) : dealPoly n batches m q a = dealPoly n batches m q' a := by
  unfold dealPoly
  exact Finset.sum_congr rfl fun j hj => by rw [h j (Finset.mem_range.1 hj) _ (mod_lt_of ha)]

end bits

/-! ## Messages -/

namespace PreMix

variable {S : PreMix F}

omit [DecidableEq F] in
theorem arrived_mono {m : DealMsg} {h : List (DealAct F)} (a : DealAct F) (hm : m ∈ S.arrived h) : m ∈ S.arrived (a :: h) := by
  cases a with
  | run e => exact hm
  | pass m' =>
    simp only [arrived]
    split
    · exact List.mem_cons_of_mem _ hm
    · exact hm
  | send m' v =>
    simp only [arrived]
    split
    · exact List.mem_cons_of_mem _ hm
    · exact hm

omit [DecidableEq F] in
theorem said_mono {m : DealMsg} {h : List (DealAct F)} {v : List F} (a : DealAct F) (hm : S.said m h = some v) : S.said m (a :: h) = some v := by
  cases a with
  | run e => exact hm
  | pass m' => exact hm
  | send m' w =>
    simp only [said]
    rw [hm]

omit [DecidableEq F] in
theorem said_of_arrived {m : DealMsg} {h : List (DealAct F)} (hm : m ∈ S.arrived h) (hC : m.src ∈ S.Cs) : ∃ v, S.said m h = some v := by
  induction h with
  | nil => cases hm
  | cons a h ih =>
    by_cases hm' : m ∈ S.arrived h
    · obtain ⟨v, hv⟩ := ih hm'
      exact ⟨v, said_mono a hv⟩
    · cases a with
      | run e => exact absurd hm hm'
      | pass m' =>
        simp only [arrived] at hm
        split at hm
        · rename_i hc
          rcases List.mem_cons.1 hm with rfl | hm
          · exact absurd hC hc.2
          · exact absurd hm hm'
        · exact absurd hm hm'
      | send m' w =>
        simp only [arrived] at hm
        split at hm
        · rename_i hc
          rcases List.mem_cons.1 hm with rfl | hm
          · simp only [said]
            cases S.said m h with
            | some v => exact ⟨v, rfl⟩
            | none => exact ⟨w, by simp [hc]⟩
          · exact absurd hm hm'
        · exact absurd hm hm'

open Classical in
/-- What the deviating parties send at any time. -/
noncomputable def ever (S : PreMix F) (a : Nat → DealAct F) (m : DealMsg) : Option (List F) :=
  if h : ∃ v N, S.said m (firsts a N) = some v then some h.choose else none

omit [DecidableEq F] in
theorem said_later {a : Nat → DealAct F} {m : DealMsg} {v : List F} {N : Nat} (h : S.said m (firsts a N) = some v) (M : Nat) :
    S.said m (firsts a (N + M)) = some v := by
  induction M with
  | zero => exact h
  | succ M ih => exact said_mono _ ih

omit [DecidableEq F] in
theorem ever_eq {a : Nat → DealAct F} {m : DealMsg} {v : List F} {N : Nat} (h : S.said m (firsts a N) = some v) : S.ever a m = some v := by
  have hex : ∃ v N, S.said m (firsts a N) = some v := ⟨v, N, h⟩
  unfold ever
  rw [dif_pos hex]
  obtain ⟨M, hM⟩ := hex.choose_spec
  have h1 := said_later h M
  have h2 := said_later hM N
  rw [Nat.add_comm, h1] at h2
  rw [h2]

omit [DecidableEq F] in
theorem ever_arrived {a : Nat → DealAct F} {m : DealMsg} {N : Nat} (hm : m ∈ S.arrived (firsts a N)) (hC : m.src ∈ S.Cs) :
    S.said m (firsts a N) = S.ever a m := by
  obtain ⟨v, hv⟩ := said_of_arrived hm hC
  rw [hv, ever_eq hv]

/-! ## What the parties have -/

/-- The messages `f` and `f'` to party `p` of the deviating parties are the same. -/
def SameTo (S : PreMix F) (f f' : DealMsg → Option (List F)) (p : Nat) : Prop :=
  ∀ j < S.ctx.n, j ∈ S.Cs → f (.rand j p) = f' (.rand j p) ∧ f (.zero j p) = f' (.zero j p) ∧ f (.bit j p) = f' (.bit j p)

omit [DecidableEq F] in
theorem sameTo_now {a : Nat → DealAct F} {N p : Nat} (hd : S.Dealt (S.arrived (firsts a N)) p) : S.SameTo (fun m => S.said m (firsts a N)) (S.ever a) p :=
  fun j hj hjC => ⟨ever_arrived (hd j hj).1 hjC, ever_arrived (hd j hj).2.1 hjC, ever_arrived (hd j hj).2.2 hjC⟩

variable (hg : S.ctx.Good) (hm : DealMat S.ctx.n S.m) (hmb : DealMat S.ctx.n S.mb)

include hg hmb in
theorem bits_congr {f f' : DealMsg → Option (List F)} {p : Nat} (hp : p < S.ctx.n) (hf : S.SameTo f f' p) (β : BitCoins S.ctx S.bb) :
    S.bits f β p = S.bits f' β p := by
  have hfit := hg.fit
  unfold bits
  rw [dealWith_get (by omega) hmb _ _ hp, dealWith_get (by omega) hmb _ _ hp]
  refine List.map_congr_left fun a ha => ?_
  congr 1
  refine dealOff_congr (List.mem_range.1 ha) (fun _ _ _ _ _ => rfl) fun j hj hjC b _ => ?_
  unfold lies
  rw [(hf j hj hjC).2.2]

include hg hmb in
/-- The results of `randbit` change by `Δ`. -/
theorem bits_shift {N : Nat → Nat → F} (hN : RightInv S.Cs S.mb N) {hNb : ∀ p s, IsBit (N p s)} {Δ : Nat → F[X]}
    {hΔ : ∀ i, (Δ i).degree < (S.ctx.t + S.ctx.l : Nat) ∧ ∀ v ∈ defaultPos S.ctx.n S.ctx.l, IsBit ((Δ i).eval v)} (f : DealMsg → Option (List F)) (β : BitCoins S.ctx S.bb) {p : Nat}
    (hp : p < S.ctx.n) : S.bits f (bitShift N hNb Δ hΔ S.mb.rows.length β) p
      = vadd (S.bits f β p) ((List.range (S.mb.rows.length * S.bb)).map fun a => (Δ a).eval (ofU32 p)) := by
  have hfit := hg.fit
  unfold bits
  rw [dealWith_get (by omega) hmb _ _ hp, dealWith_get (by omega) hmb _ _ hp, vadd_map]
  refine List.map_congr_left fun a ha => ?_
  have ha := List.mem_range.1 ha
  rw [dealPoly_congr_lt ha fun j hj b hb => bitShift_poly β S.mb.rows.length hj hb, dealPoly_shift hmb.2.1 hN ha, eval_add]
  rw [dealOff_congr (mine' := fun j b p => (β.poly j b).eval (ofU32 p)) (adv' := lies f) ha (fun j hj hjC b hb => ?_) fun _ _ _ _ _ => rfl]
  · ring
  · rw [bitShift_poly β _ hj hb, shiftPoly_own (hN.zero j hjC)]

include hg hm in
/-- What a party has of results of `rand` and `zero` depends on the messages to it only. -/
theorem dealt_congr {ι : Type} {U : Uses ι} {nr nz : ι → Nat} (hU : U.Ok nr nz (S.m.rows.length * S.br) (S.m.rows.length * S.bz)) {f f' : DealMsg → Option (List F)} {p : Nat}
    (hp : p < S.ctx.n) (hf : S.SameTo f f' p) (δ : DealCoins S.ctx S.br S.bz) (u : ι) :
    dealtFor S.ctx S.m S.Cs U nr nz (cheats f) δ u p = dealtFor S.ctx S.m S.Cs U nr nz (cheats f') δ u p := by
  rw [dealtFor_eq hg hU hm _ _ _ _ hp, dealtFor_eq hg hU hm _ _ _ _ hp]
  unfold dealOffs
  congr 2
  · refine List.map_congr_left fun i hi => dealOff_congr (hU.rand_lt u i (List.mem_range.1 hi)) (fun _ _ _ _ _ => rfl) fun j hj hjC b _ => ?_
    simp only [cheats]
    rw [(hf j hj hjC).1]
  · refine List.map_congr_left fun i hi => dealOff_congr (hU.zero_lt u i (List.mem_range.1 hi)) (fun _ _ _ _ _ => rfl) fun j hj hjC b _ => ?_
    simp only [cheats]
    rw [(hf j hj hjC).2.1]

/-! ## Runs -/

variable (hU : (preUses (preRuns S.ids S.errs S.sizes).length S.sizes).Ok (Sum.elim (runNum (preRuns S.ids S.errs S.sizes)) (preOwnR S.sizes (S.desc.numKeys + S.desc.randoms)))
  (Sum.elim (runNum (preRuns S.ids S.errs S.sizes)) (preOwnZ S.desc.zeros)) (S.m.rows.length * S.br) (S.m.rows.length * S.bz))

include hg hm hU in
theorem own_congr {f f' : DealMsg → Option (List F)} {p : Nat} (hp : p < S.ctx.n) (hf : S.SameTo f f' p) (ω : S.Coins) : S.own f ω p = S.own f' ω p := by
  funext u
  exact dealt_congr hg hm hU hp hf ω.1 (.inr u)

/-- A step in the runs, of fixed actions. -/
noncomputable def stepAt (S : PreMix F) (a : Nat → DealAct F) (N : Nat) : ByzStep :=
  open Classical in
  match a N with
  | .run e => if S.Allowed (S.arrived (firsts a N)) e then e else .sys (.act S.ctx.n 0)
  | _ => .sys (.act S.ctx.n 0)

theorem mults_length (f : DealMsg → Option (List F)) (ω : S.Coins) : (S.mults f ω).length = (preRuns S.ids S.errs S.sizes).length := by
  unfold mults preMults multJobs
  rw [List.length_ofFn]

include hg hm hmb hU in
theorem sys_eq (ω : S.Coins) (a : Nat → DealAct F) (N : Nat) :
    S.sys ω (firsts a N) = (Sys.play S.ctx.n (S.mults (S.ever a) ω) S.Cs (fun seen => S.stepAt a (seen.length - 1)) N).2 := by
  induction N with
  | zero => rfl
  | succ N ih =>
    simp only [Sys.play, List.length_append, List.length_singleton, Mix.play_length, Nat.add_sub_cancel]
    have hlead := play_lead S.ctx.n (S.mults (S.ever a) ω) S.Cs (fun seen => S.stepAt a (seen.length - 1)) N
    rw [← ih] at hlead ⊢
    rw [show firsts a (N + 1) = a N :: firsts a N from rfl]
    unfold stepAt
    cases ha : a N with
    | pass m' => rw [Mix.noop]; rfl
    | send m' v => rw [Mix.noop]; rfl
    | run e =>
      simp only [sys]
      split
      · rename_i hal
        congr 1
        cases e with
        | inject p q id data => simp only [Sys.byzStep, mults_length]
        | sys e =>
          cases e with
          | deliver p q => simp only [Sys.byzStep, Sys.step]
          | act p k =>
            simp only [Sys.byzStep, Sys.step]
            split
            · rfl
            · split
              · rename_i hp
                by_cases hk : k < (preRuns S.ids S.errs S.sizes).length
                · have e1 : ∀ f, (S.mults f ω)[k]? = some ((S.mults f ω)[k]'(by rw [mults_length]; exact hk)) := fun f => List.getElem?_eq_getElem _
                  have hsame := sameTo_now (S := S) hal
                  have hbits := bits_congr hg hmb hp hsame ω.2
                  have hown := own_congr hg hm hU hp hsame ω
                  have hmask := dealt_congr hg hm hU hp hsame ω.1 (.inl ⟨k, hk⟩)
                  have hl' := hlead p k _ (e1 _)
                  rw [e1, e1]
                  simp only
                  unfold own at hown
                  have hmask : dealtMask S.ctx S.m S.Cs (preUses (preRuns S.ids S.errs S.sizes).length S.sizes) (preOwnR S.sizes (S.desc.numKeys + S.desc.randoms))
                      (preOwnZ S.desc.zeros) (cheats fun m => S.said m (firsts a N)) ω.1 ⟨k, hk⟩ p = dealtMask S.ctx S.m S.Cs
                      (preUses (preRuns S.ids S.errs S.sizes).length S.sizes) (preOwnR S.sizes (S.desc.numKeys + S.desc.randoms)) (preOwnZ S.desc.zeros)
                      (cheats (S.ever a)) ω.1 ⟨k, hk⟩ p := hmask
                  refine Mix.actStep_congr ?_ ?_ ?_ ?_ ?_ ?_ fun g hs => hl' ⟨g, hs⟩
                  all_goals
                    simp only [mults, preMults, multJobs, List.getElem_ofFn, multProto, rdProto]
                  · intro env
                    rw [hbits, hown, hmask]
                  · intro env ms
                    rw [hbits, hown, hmask]
                  · intro hL env ms
                    rw [Option.some.inj hL, hbits, hown, hmask]
                · rw [List.getElem?_eq_none (by rw [mults_length]; omega), List.getElem?_eq_none (by rw [mults_length]; omega)]
              · rfl
      · rw [Mix.noop]

include hg hm hmb hU in
theorem erase_same (a : Nat → DealAct F) (N : Nat) {ω ω' : S.Coins}
    (hv : (Sys.play S.ctx.n (S.mults (S.ever a) ω') S.Cs (fun seen => S.stepAt a (seen.length - 1)) (N + 1)).1
      = (Sys.play S.ctx.n (S.mults (S.ever a) ω) S.Cs (fun seen => S.stepAt a (seen.length - 1)) (N + 1)).1) :
    (S.view ω' (firsts a N)).2 = (S.view ω (firsts a N)).2 := by
  unfold view
  simp only
  rw [sys_eq hg hm hmb hU, sys_eq hg hm hmb hU]
  generalize (fun seen : List (Sys Unit) => S.stepAt a (seen.length - 1)) = st at hv ⊢
  generalize S.mults (S.ever a) ω' = J' at hv ⊢
  generalize S.mults (S.ever a) ω = J at hv ⊢
  simp only [Sys.play] at hv
  have hv := (List.append_inj' hv (by rw [List.length_singleton, List.length_singleton])).2
  exact List.singleton_inj.1 hv

theorem heard_same (a : Nat → DealAct F) (N : Nat) {ω ω' : S.Coins} (k1 : ω'.1.known S.Cs = ω.1.known S.Cs)
    (k2 : ∀ j < S.ctx.n, ∀ b < S.bb, ∀ p ∈ S.Cs, (ω'.2.poly j b).eval (ofU32 p) = (ω.2.poly j b).eval (ofU32 p)) :
    (S.view ω' (firsts a N)).1 = (S.view ω (firsts a N)).1 := by
  have kn : ∀ (j : Fin S.ctx.n) p, p ∈ S.Cs → (ω'.1 j).randoms p = (ω.1 j).randoms p ∧ (ω'.1 j).zeros p = (ω.1 j).zeros p := by
    intro j p hp
    have := congrFun (congrFun k1 j) p
    unfold DealCoins.known at this
    rw [if_pos (Or.inr hp), if_pos (Or.inr hp)] at this
    exact Prod.mk.inj this
  unfold view
  simp only
  funext msg
  split
  · rename_i hc
    cases msg with
    | rand j p =>
      simp only [content]
      split
      · rw [(kn _ p hc.2.2).1]
      · rfl
    | zero j p =>
      simp only [content]
      split
      · rw [(kn _ p hc.2.2).2]
      · rfl
    | bit j p =>
      simp only [content]
      split
      · rename_i hj
        refine congrArg some (List.map_congr_left fun b hb => ?_)
        exact k2 j hj b (List.mem_range.1 hb) p hc.2.2
      · rfl
  · rfl

/-- The changes of the results of `randbit`. -/
theorem bitDelta_exists {ctx : Ctx F} (h : ctx.Good) {Cs : Finset Nat} (hC : Coalition ctx Cs) (f : Nat → Nat → F) (hf : ∀ a j, f a j = 0 ∨ f a j = 1) :
    ∃ Δ : Nat → F[X], (∀ a, ∀ j < ctx.l, (Δ a).eval (ofU32 (ctx.n + j)) = f a j) ∧ (∀ a, ∀ p ∈ Cs, (Δ a).eval (ofU32 p) = 0) ∧
      ∀ a, (Δ a).degree < (ctx.t + ctx.l : Nat) ∧ ∀ v ∈ defaultPos ctx.n ctx.l, IsBit ((Δ a).eval v) := by
  choose D hD _ using fun a => ownShift_exists h hC (κ := Unit) (fun _ => 1) (fun _ => 0) fun _ _ => f a
  refine ⟨fun a => (D a).rand () 0, fun a j hj => hD a () 0 j hj, fun a p hp => (D a).rand_hid () 0 Nat.zero_lt_one p hp,
    fun a => ⟨(D a).rand_deg () 0 Nat.zero_lt_one, fun v hv => ?_⟩⟩
  obtain ⟨j, hj, rfl⟩ := List.mem_map.1 hv
  rw [hD a () 0 j (List.mem_range.1 hj)]
  exact hf a j

end PreMix

end Verif
