import Verif.ByzMix
import Verif.ByzPipeLemmas

/-!
# Lemmas for `Props/ByzMix.lean`
-/

namespace Verif

/-! ## Strategies -/

section
variable {A V Ω : Type}

/-- The first `N` actions, the last one first. -/
def firsts (a : Nat → A) : Nat → List A
  | 0 => []
  | N + 1 => a N :: firsts a N

/-- The actions of a strategy. -/
def actsBy (σ : List V → A) (view : List A → V) (N : Nat) : A := σ (playBy σ view (N + 1)).2

theorem playBy_firsts (σ : List V → A) (view : List A → V) (N : Nat) : (playBy σ view N).1 = firsts (actsBy σ view) N := by
  induction N with
  | zero => rfl
  | succ N ih =>
    unfold firsts
    rw [← ih]
    rfl

theorem playBy_same {σ : List V → A} {view view' : List A → V} (h : ∀ N, view' (firsts (actsBy σ view) N) = view (firsts (actsBy σ view) N)) (N : Nat) :
    playBy σ view' N = playBy σ view N := by
  induction N with
  | zero => rfl
  | succ N ih =>
    simp only [playBy]
    rw [ih, playBy_firsts, h]

/-- If nothing can be learned with any fixed sequence of actions, nothing can be learned with a strategy. -/
theorem adaptive {view view' : Ω → List A → V} (σ : List V → A) (h : ∀ a : Nat → A, ∃ e : Ω ≃ Ω, ∀ ω N, view' (e ω) (firsts a N) = view ω (firsts a N)) :
    ∃ e : Ω ≃ Ω, ∀ ω N, playBy σ (view' (e ω)) N = playBy σ (view ω) N := by
  choose E hE using h
  have acts : ∀ {v v' : List A → V}, (∀ N, playBy σ v' N = playBy σ v N) → actsBy σ v' = actsBy σ v := fun hv => by
    funext N
    unfold actsBy
    rw [hv]
  have fwd : ∀ ω N, playBy σ (view' (E (actsBy σ (view ω)) ω)) N = playBy σ (view ω) N := fun ω N => playBy_same (fun N => hE _ _ _) N
  have bwd : ∀ ω N, playBy σ (view ((E (actsBy σ (view' ω))).symm ω)) N = playBy σ (view' ω) N := fun ω N => playBy_same (fun N => by
    rw [← hE (actsBy σ (view' ω)) ((E (actsBy σ (view' ω))).symm ω) N, Equiv.apply_symm_apply]) N
  refine ⟨⟨fun ω => E (actsBy σ (view ω)) ω, fun ω => (E (actsBy σ (view' ω))).symm ω, fun ω => ?_, fun ω => ?_⟩, fwd⟩
  · simp only
    rw [acts (fwd ω), Equiv.symm_apply_apply]
  · simp only
    rw [acts (bwd ω), Equiv.apply_symm_apply]

end

/-! ## Messages -/

variable {F : Type} [CodeField F] {S : Mix F}

namespace Mix

theorem arrived_mono {m : PreMsg} {h : List (MixAct F)} (a : MixAct F) (hm : m ∈ S.arrived h) : m ∈ S.arrived (a :: h) := by
  cases a with
  | run e => exact hm
  | pass m' =>
    simp only [arrived]
    split
    · exact List.mem_cons_of_mem _ hm
    · exact hm
  | send m' v =>
    simp only [arrived]
    split
    · exact List.mem_cons_of_mem _ hm
    · exact hm

theorem said_mono {m : PreMsg} {h : List (MixAct F)} {v : List F} (a : MixAct F) (hm : S.said m h = some v) : S.said m (a :: h) = some v := by
  cases a with
  | run e => exact hm
  | pass m' => exact hm
  | send m' w =>
    simp only [said]
    rw [hm]

theorem said_of_arrived {m : PreMsg} {h : List (MixAct F)} (hm : m ∈ S.arrived h) (hC : m.src ∈ S.Cs) : ∃ v, S.said m h = some v := by
  induction h with
  | nil => cases hm
  | cons a h ih =>
    by_cases hm' : m ∈ S.arrived h
    · obtain ⟨v, hv⟩ := ih hm'
      exact ⟨v, said_mono a hv⟩
    · cases a with
      | run e => exact absurd hm hm'
      | pass m' =>
        simp only [arrived] at hm
        split at hm
        · rename_i hc
          rcases List.mem_cons.1 hm with rfl | hm
          · exact absurd hC hc.2.1
          · exact absurd hm hm'
        · exact absurd hm hm'
      | send m' w =>
        simp only [arrived] at hm
        split at hm
        · rename_i hc
          rcases List.mem_cons.1 hm with rfl | hm
          · simp only [said]
            cases S.said m h with
            | some v => exact ⟨v, rfl⟩
            | none => exact ⟨w, by simp [hc]⟩
          · exact absurd hm hm'
        · exact absurd hm hm'

theorem said_length {m : PreMsg} {h : List (MixAct F)} {v : List F} (hm : S.said m h = some v) : v.length = S.size m := by
  induction h with
  | nil => cases hm
  | cons a h ih =>
    cases a with
    | run e => exact ih hm
    | pass m' => exact ih hm
    | send m' w =>
      simp only [said] at hm
      cases hs : S.said m h with
      | some u =>
        rw [hs] at hm
        simp only [Option.some.injEq] at hm
        exact ih (hm ▸ hs)
      | none =>
        rw [hs] at hm
        simp only at hm
        split at hm
        · rename_i hc
          cases hm
          exact hc.2.2
        · cases hm

theorem dealt_mono {h : List (MixAct F)} {p : Nat} (a : MixAct F) (hd : S.Dealt (S.arrived h) p) : S.Dealt (S.arrived (a :: h)) p :=
  fun j hj => ⟨arrived_mono a (hd j hj).1, arrived_mono a (hd j hj).2⟩

theorem dealt_of_rt {h : List (MixAct F)} {g p q : Nat} (hm : .rt g p q ∈ S.arrived h) (hp : p ∉ S.Cs) : S.Dealt (S.arrived h) p := by
  induction h with
  | nil => cases hm
  | cons a h ih =>
    by_cases hm' : .rt g p q ∈ S.arrived h
    · exact dealt_mono a (ih hm')
    · cases a with
      | run e => exact absurd hm hm'
      | pass m' =>
        refine dealt_mono _ ?_
        simp only [arrived] at hm
        split at hm
        · rename_i hc
          rcases List.mem_cons.1 hm with rfl | hm
          · exact hc.2.2
          · exact absurd hm hm'
        · exact absurd hm hm'
      | send m' w =>
        simp only [arrived] at hm
        split at hm
        · rename_i hc
          rcases List.mem_cons.1 hm with rfl | hm
          · exact absurd hc.1 hp
          · exact absurd hm hm'
        · exact absurd hm hm'

open Classical in
/-- What the deviating parties send at any time. -/
noncomputable def ever (S : Mix F) (a : Nat → MixAct F) (m : PreMsg) : Option (List F) :=
  if h : ∃ v N, S.said m (firsts a N) = some v then some h.choose else none

theorem said_later {a : Nat → MixAct F} {m : PreMsg} {v : List F} {N : Nat} (h : S.said m (firsts a N) = some v) (M : Nat) :
    S.said m (firsts a (N + M)) = some v := by
  induction M with
  | zero => exact h
  | succ M ih => exact said_mono _ ih

theorem ever_eq {a : Nat → MixAct F} {m : PreMsg} {v : List F} {N : Nat} (h : S.said m (firsts a N) = some v) : S.ever a m = some v := by
  have hex : ∃ v N, S.said m (firsts a N) = some v := ⟨v, N, h⟩
  unfold ever
  rw [dif_pos hex]
  obtain ⟨M, hM⟩ := hex.choose_spec
  have h1 := said_later h M
  have h2 := said_later hM N
  rw [Nat.add_comm, h1] at h2
  rw [h2]

theorem ever_length {a : Nat → MixAct F} {m : PreMsg} {v : List F} (h : S.ever a m = some v) : v.length = S.size m := by
  unfold ever at h
  split at h
  · rename_i hex
    cases h
    exact said_length hex.choose_spec.choose_spec
  · cases h

theorem ever_arrived {a : Nat → MixAct F} {m : PreMsg} {N : Nat} (hm : m ∈ S.arrived (firsts a N)) (hC : m.src ∈ S.Cs) :
    S.said m (firsts a N) = S.ever a m := by
  obtain ⟨v, hv⟩ := said_of_arrived hm hC
  rw [hv, ever_eq hv]

/-! ## Masks -/

variable [DecidableEq F]

variable (hg : S.ctx.Good) (hm : DealMat S.ctx.n S.m) (hU : S.U.Ok (useR S.ctx S.gs S.rs) (useZ S.ctx S.gs S.rs) (S.m.rows.length * S.br) (S.m.rows.length * S.bz))

include hg hm hU in
/-- What is dealt to `p` matters only. -/
theorem has_congr {f f' : PreMsg → Option (List F)} (st st' : List (Sys Unit) → ByzStep) (δ : DealCoins S.ctx S.br S.bz) (u : Use S.gs S.rs) {p : Nat} (hp : p < S.ctx.n)
    (hr : ∀ j < S.ctx.n, j ∈ S.Cs → f (.rand j p) = f' (.rand j p)) (hz : ∀ j < S.ctx.n, j ∈ S.Cs → f (.zero j p) = f' (.zero j p)) :
    (S.attack f st).has S.m S.Cs S.rs S.U δ u p = (S.attack f' st').has S.m S.Cs S.rs S.U δ u p := by
  unfold Attack.has
  rw [dealtFor_eq hg hU hm _ _ _ _ hp, dealtFor_eq hg hU hm _ _ _ _ hp]
  have key : ∀ (b num : Nat) (pick : Nat → Nat) (mine adv adv' : Nat → Nat → Nat → F), (∀ j < S.ctx.n, j ∈ S.Cs → ∀ b, adv j b p = adv' j b p) →
      ((List.range num).map fun i => dealOff S.ctx.n b S.m S.Cs mine adv (pick i) p) = (List.range num).map fun i => dealOff S.ctx.n b S.m S.Cs mine adv' (pick i) p := by
    intro b num pick mine adv adv' hadv
    refine List.map_congr_left fun i _ => ?_
    unfold dealOff
    refine Finset.sum_congr rfl fun j hj => ?_
    by_cases hjC : j ∈ S.Cs
    · rw [if_pos hjC, if_pos hjC, hadv j (Finset.mem_range.1 hj) hjC]
    · rw [if_neg hjC, if_neg hjC]
  unfold dealOffs
  refine Prod.ext ?_ ?_
  · simp only
    rw [key _ _ _ _ _ _ fun j hj hjC b => ?_]
    simp only [attack]
    rw [hr j hj hjC]
  · simp only
    rw [key _ _ _ _ _ _ fun j hj hjC b => ?_]
    simp only [attack]
    rw [hz j hj hjC]

include hg hm hU in
theorem has_now (a : Nat → MixAct F) (N : Nat) (st : List (Sys Unit) → ByzStep) (δ : DealCoins S.ctx S.br S.bz) (u : Use S.gs S.rs) {p : Nat} (hp : p < S.ctx.n)
    (hd : S.Dealt (S.arrived (firsts a N)) p) :
    (S.sofar (firsts a N)).has S.m S.Cs S.rs S.U δ u p = (S.attack (S.ever a) st).has S.m S.Cs S.rs S.U δ u p :=
  has_congr hg hm hU _ _ δ u hp (fun j hj hjC => ever_arrived (hd j hj).1 hjC) fun j hj hjC => ever_arrived (hd j hj).2 hjC

include hg hm hU in
/-- The masks which a party has are those which it has at the end. -/
theorem got_now (a : Nat → MixAct F) (N : Nat) (st : List (Sys Unit) → ByzStep) (δ : DealCoins S.ctx S.br S.bz) (k : Fin S.rs.length) {q : Nat}
    (hk : S.Masked (S.arrived (firsts a N)) k q) :
    (S.sofar (firsts a N)).got S.m S.Cs S.rs S.U δ k q = (S.attack (S.ever a) st).got S.m S.Cs S.rs S.U δ k q := by
  unfold Attack.got
  by_cases hq : q < S.ctx.n
  · rw [if_pos hq, if_pos hq]
    unfold Masked at hk
    rw [List.getElem?_eq_getElem k.2] at hk
    simp only at hk
    simp only [List.get_eq_getElem]
    generalize S.rs[(k : Nat)].tr = tr at hk
    cases tr with
    | none => exact congrArg some (has_now hg hm hU a N st δ _ hq hk)
    | some gi =>
      obtain ⟨g, i⟩ := gi
      simp only at hk ⊢
      by_cases hgl : g < S.gs.length
      · rw [dif_pos hgl, dif_pos hgl]
        congr 1
        unfold Attack.inbox
        refine mapM_congr_mem fun p hp => ?_
        have hp := List.mem_range.1 hp
        by_cases hpC : p ∈ S.Cs
        · rw [if_pos hpC, if_pos hpC]
          simp only [sofar, attack]
          rw [ever_arrived (hk p hp) hpC]
        · rw [if_neg hpC, if_neg hpC, has_now hg hm hU a N st δ _ hp (dealt_of_rt (hk p hp) hpC)]
      · rw [dif_neg hgl, dif_neg hgl]
  · rw [if_neg hq, if_neg hq]

include hg hm hU in
theorem heard_now (a : Nat → MixAct F) (N : Nat) (st : List (Sys Unit) → ByzStep) (δ : DealCoins S.ctx S.br S.bz) (g : Fin S.gs.length) {p q : Nat}
    (hpC : p ∉ S.Cs) (hk : .rt g p q ∈ S.arrived (firsts a N)) :
    (S.sofar (firsts a N)).heard S.m S.Cs S.rs S.U δ g p q = (S.attack (S.ever a) st).heard S.m S.Cs S.rs S.U δ g p q := by
  unfold Attack.heard
  by_cases hc : p < S.ctx.n ∧ p ∉ S.Cs ∧ q ∈ S.Cs
  · rw [if_pos hc, if_pos hc, has_now hg hm hU a N st δ _ hc.1 (dealt_of_rt hk hpC)]
  · rw [if_neg hc, if_neg hc]

/-! ## Runs -/

omit [CodeField F] [DecidableEq F] in
/-- Only one party's part of one run matters in a step. -/
theorem actStep_congr {O : Type} {n : Nat} {s : Sys O} {p j : Nat} {job job' : Job O} (h1 : job'.id = job.id) (h2 : job'.deps = job.deps)
    (h3 : job'.proto.leader = job.proto.leader) (h4 : ∀ env, job'.proto.sends p env = job.proto.sends p env)
    (h5 : ∀ env ms, job'.proto.finish p env ms = job.proto.finish p env ms)
    (h6 : job.proto.leader = some p → ∀ env ms, job'.proto.answer env ms = job.proto.answer env ms)
    (hl : ∀ g, s.loc p j = .gather g → job.proto.gathers p = true) : s.actStep n p j job' = s.actStep n p j job := by
  have hact : ∀ env, job'.proto.act n p env (s.loc p j) = job.proto.act n p env (s.loc p j) := by
    intro env
    cases hs : s.loc p j with
    | idle => simp only [Proto.act, h4]
    | sending l =>
      cases l with
      | nil =>
        have : job'.proto.gathers p = job.proto.gathers p := by
          unfold Proto.gathers
          rw [h3]
        simp only [Proto.act, this]
      | cons y l => simp only [Proto.act]
    | gather g =>
      simp only [Proto.act, h3]
      split
      · cases hL : job.proto.leader with
        | none => simp only [h5]
        | some L =>
          have := hl g hs
          unfold Proto.gathers at this
          rw [hL] at this
          simp only [decide_eq_true_eq] at this
          simp only [h6 (by rw [hL, this])]
      · rfl
    | reply l => cases l <;> simp only [Proto.act]
    | wait => simp only [Proto.act, h5]
    | done o => simp only [Proto.act]
    | fail => simp only [Proto.act]
  unfold Sys.actStep Job.ready
  rw [h1, h2, hact]

theorem mkJobs_none {c : Codec F} {ctx : Ctx F} {gs : List (RtRun F)} {rs : List (MkJob F)} {x : Nat → Nat → Env (List F) → List F}
    {held : Fin rs.length → Nat → Option (List F × List F)} {k : Nat} (hk : rs.length ≤ k) : (mkJobs c ctx gs rs x held)[k]? = none := by
  rw [List.getElem?_eq_none]
  simp [mkJobs, hk]

/-- A step in the runs, of fixed actions. -/
noncomputable def stepAt (S : Mix F) (a : Nat → MixAct F) (N : Nat) : ByzStep :=
  open Classical in
  match a N with
  | .run e => if S.Allowed (S.arrived (firsts a N)) e then e else .sys (.act S.ctx.n 0)
  | _ => .sys (.act S.ctx.n 0)

/-- Fixed actions as an attack of `Verif.ByzPipe`. -/
noncomputable def whole (S : Mix F) (a : Nat → MixAct F) : Attack S.ctx S.gs := S.attack (S.ever a) fun seen => S.stepAt a (seen.length - 1)

theorem play_length {O : Type} (n : Nat) (jobs : List (Job O)) (Cs : Finset Nat) (strat : List (Sys Unit) → ByzStep) (N : Nat) :
    (Sys.play n jobs Cs strat N).1.length = N := by
  induction N with
  | zero => rfl
  | succ N ih => simp [Sys.play, ih]

omit [CodeField F] [DecidableEq F] in
theorem noop {O : Type} {n : Nat} {jobs : List (Job O)} {Cs : Finset Nat} {s : Sys O} : (s.byzStep n jobs Cs (.sys (.act n 0))).getD s = s := by
  have : s.byzStep n jobs Cs (.sys (.act n 0)) = none := by
    simp only [Sys.byzStep, Sys.step]
    split
    · rfl
    · rw [if_neg (lt_irrefl n)]
  rw [this]
  rfl

include hg hm hU in
theorem sys_eq (x : Nat → Nat → Env (List F) → List F) (δ : DealCoins S.ctx S.br S.bz) (a : Nat → MixAct F) (N : Nat) :
    S.sys x δ (firsts a N) = (Sys.play S.ctx.n (mkJobs S.c S.ctx S.gs S.rs x ((S.whole a).got S.m S.Cs S.rs S.U δ)) S.Cs (fun seen => S.stepAt a (seen.length - 1)) N).2 := by
  induction N with
  | zero => rfl
  | succ N ih =>
    simp only [Sys.play, List.length_append, List.length_singleton, play_length, Nat.add_sub_cancel]
    have hlead := play_lead S.ctx.n (mkJobs S.c S.ctx S.gs S.rs x ((S.whole a).got S.m S.Cs S.rs S.U δ)) S.Cs (fun seen => S.stepAt a (seen.length - 1)) N
    rw [← ih] at hlead ⊢
    rw [show firsts a (N + 1) = a N :: firsts a N from rfl]
    unfold stepAt
    cases ha : a N with
    | pass m' => rw [noop]; rfl
    | send m' v => rw [noop]; rfl
    | run e =>
      simp only [sys]
      split
      · rename_i hal
        congr 1
        cases e with
        | inject p q id data => simp only [Sys.byzStep, mkJobs, List.length_ofFn]
        | sys e =>
          cases e with
          | deliver p q => simp only [Sys.byzStep, Sys.step]
          | act p k =>
            simp only [Sys.byzStep, Sys.step]
            split
            · rfl
            · split
              · by_cases hk : k < S.rs.length
                · have e1 : ∀ held, (mkJobs S.c S.ctx S.gs S.rs x held)[k]? = some ((mkJobs S.c S.ctx S.gs S.rs x held)[k]'(by simpa [mkJobs] using hk)) :=
                    fun held => List.getElem?_eq_getElem _
                  have hheld := got_now hg hm hU a N (fun seen => S.stepAt a (seen.length - 1)) δ ⟨k, hk⟩ (q := p) hal
                  have hl' := hlead p k _ (e1 _)
                  rw [e1, e1]
                  simp only
                  refine actStep_congr ?_ ?_ ?_ ?_ ?_ ?_ fun g hs => hl' ⟨g, hs⟩
                  all_goals
                    simp only [mkJobs, List.getElem_ofFn]
                  · cases (S.rs.get ⟨k, hk⟩).tr <;> rfl
                  · cases (S.rs.get ⟨k, hk⟩).tr with
                    | none => simp only [rdProto]; intro env; rw [hheld]; rfl
                    | some gi => simp only [transProto]; intro env; rw [hheld]; rfl
                  · cases (S.rs.get ⟨k, hk⟩).tr with
                    | none => simp only [rdProto]; intro env ms; rw [hheld]; rfl
                    | some gi => simp only [transProto]; intro env ms; rw [hheld]; rfl
                  · cases (S.rs.get ⟨k, hk⟩).tr with
                    | none =>
                      simp only [rdProto]
                      intro hL env ms
                      rw [Option.some.inj hL, hheld]
                      rfl
                    | some gi =>
                      simp only [transProto]
                      intro hL env ms
                      rw [Option.some.inj hL, hheld]
                      rfl
                · rw [mkJobs_none (by omega), mkJobs_none (by omega)]
              · rfl
      · rw [noop]

omit [DecidableEq F] in
theorem whole_sized (a : Nat → MixAct F) : (S.whole a).Sized S.Cs := by
  intro v hrd g q
  refine .inl fun p _ => ?_
  have hs : S.size (.rt g p q) = 2 * (S.gs.get g).num := by
    simp only [Mix.size]
    rw [List.getElem?_eq_getElem g.2]
    rfl
  simp only [Mix.whole, Mix.attack]
  cases hev : S.ever a (.rt g p q) with
  | none => rw [Option.getD_none, List.length_replicate, hs]
  | some w => rw [Option.getD_some, Mix.ever_length hev, hs]

theorem whole_view (x : Nat → Nat → Env (List F) → List F) (δ : DealCoins S.ctx S.br S.bz) (a : Nat → MixAct F) (N : Nat) :
    (S.whole a).view S.m S.Cs S.rs S.U S.c x δ N
      = (Sys.play S.ctx.n (mkJobs S.c S.ctx S.gs S.rs x ((S.whole a).got S.m S.Cs S.rs S.U δ)) S.Cs (fun seen => S.stepAt a (seen.length - 1)) N).1 := by
  unfold Attack.view
  rfl

include hg hm hU in
theorem erase_same (a : Nat → MixAct F) (N : Nat) {x x' : Nat → Nat → Env (List F) → List F} {δ δ' : DealCoins S.ctx S.br S.bz}
    (hv : (S.whole a).view S.m S.Cs S.rs S.U S.c x' δ' (N + 1) = (S.whole a).view S.m S.Cs S.rs S.U S.c x δ (N + 1)) :
    (S.view x' δ' (firsts a N)).2 = (S.view x δ (firsts a N)).2 := by
  rw [whole_view, whole_view] at hv
  unfold view
  simp only
  rw [sys_eq hg hm hU, sys_eq hg hm hU]
  generalize (fun seen : List (Sys Unit) => S.stepAt a (seen.length - 1)) = st at hv ⊢
  generalize mkJobs S.c S.ctx S.gs S.rs x' _ = J' at hv ⊢
  generalize mkJobs S.c S.ctx S.gs S.rs x _ = J at hv ⊢
  simp only [Sys.play] at hv
  have hv := (List.append_inj' hv (by rw [List.length_singleton, List.length_singleton])).2
  exact List.singleton_inj.1 hv

include hg hm hU in
theorem heard_same (a : Nat → MixAct F) (N : Nat) {δ δ' : DealCoins S.ctx S.br S.bz} (k1 : δ'.known S.Cs = δ.known S.Cs)
    (k2 : (S.whole a).heard S.m S.Cs S.rs S.U δ' = (S.whole a).heard S.m S.Cs S.rs S.U δ) (x x' : Nat → Nat → Env (List F) → List F) :
    (S.view x' δ' (firsts a N)).1 = (S.view x δ (firsts a N)).1 := by
  have kn : ∀ (j : Fin S.ctx.n) p, p ∈ S.Cs → (δ' j).randoms p = (δ j).randoms p ∧ (δ' j).zeros p = (δ j).zeros p := by
    intro j p hp
    have := congrFun (congrFun k1 j) p
    unfold DealCoins.known at this
    rw [if_pos (Or.inr hp), if_pos (Or.inr hp)] at this
    exact Prod.mk.inj this
  unfold view
  simp only
  funext msg
  split
  · rename_i hc
    cases msg with
    | rand j p =>
      simp only [content]
      split
      · rw [(kn _ p hc.2.2).1]
      · rfl
    | zero j p =>
      simp only [content]
      split
      · rw [(kn _ p hc.2.2).2]
      · rfl
    | rt g p q =>
      simp only [content]
      split
      · rename_i hg'
        have hn : ∀ δ, (S.sofar (firsts a N)).heard S.m S.Cs S.rs S.U δ ⟨g, hg'⟩ p q = (S.whole a).heard S.m S.Cs S.rs S.U δ ⟨g, hg'⟩ p q :=
          fun δ => heard_now hg hm hU a N _ δ ⟨g, hg'⟩ hc.2.1 hc.1
        rw [hn, hn, k2]
      · rfl
  · rfl

end Mix

end Verif
