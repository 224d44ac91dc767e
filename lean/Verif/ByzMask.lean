import Verif.ByzPrivacyLemmas

/-!
# Runs whose inputs are masked, with parties which do not follow the protocol

What `Verif.ByzPrivacyLemmas` shows of `reduce_degree`, for all kinds of runs in which a change of the masks can make up for different inputs.
-/

open Polynomial

namespace Verif

open CodeField (ofU32)

variable {F : Type} [CodeField F]

/-- Which changes of the coins of run `k` make up for different inputs `x` and `x'`, if the results with `x` are `E`: the differences of the inputs of
run `k`. -/
noncomputable def mkDiff (mv : Nat → (Nat → F) → F[X]) (Cs : Finset Nat) (deps : Nat → List Nat) (num : Nat → Nat) (x x' : Nat → Nat → Env (List F) → List F)
    (E : Nat → Env (List F)) (k : Nat) : Nat → Nat → F := fun j p =>
  if p ∈ Cs then 0 else (x k p ((E p).only (deps k))).getD j 0 -
    (x' k p (fun m => if _ : m < k then if m ∈ deps k then (E p m).map fun o => vsub o ((List.range (num m)).map fun i =>
      (mv m (mkDiff mv Cs deps num x x' E m i)).eval (ofU32 p)) else none else none)).getD j 0
termination_by k

/-- The change of the results of run `m` at party `p`. -/
noncomputable def mkMove (mv : Nat → (Nat → F) → F[X]) (num : Nat → Nat) (d : Nat → Nat → Nat → F) (p m : Nat) (o : List F) : List F :=
  vsub o ((List.range (num m)).map fun i => (mv m (d m i)).eval (ofU32 p))

/-- The differences fit to the inputs. -/
def MkEq (mv : Nat → (Nat → F) → F[X]) (Cs : Finset Nat) (deps : Nat → List Nat) (num : Nat → Nat) (x x' : Nat → Nat → Env (List F) → List F)
    (E : Nat → Env (List F)) (d : Nat → Nat → Nat → F) (k : Nat) : Prop :=
  ∀ j p, d k j p = if p ∈ Cs then 0 else (x k p ((E p).only (deps k))).getD j 0 -
    (x' k p (Env.only (fun m => (E p m).map (mkMove mv num d p m)) (deps k))).getD j 0

theorem mkDiff_eq (mv : Nat → (Nat → F) → F[X]) (Cs : Finset Nat) (deps : Nat → List Nat) (num : Nat → Nat) (x x' : Nat → Nat → Env (List F) → List F)
    (E : Nat → Env (List F)) (k : Nat) (hk : ∀ m ∈ deps k, m < k) :
    MkEq mv Cs deps num x x' E (mkDiff mv Cs deps num x x' E) k := by
  intro j p
  rw [mkDiff]
  congr 4
  funext m
  unfold Env.only mkMove
  by_cases hm : m ∈ deps k
  · rw [dif_pos (hk m hm), if_pos hm]
  · rw [if_neg hm]
    split_ifs <;> rfl

/-- There is only one solution. -/
theorem MkEq.unique {mv : Nat → (Nat → F) → F[X]} {Cs : Finset Nat} {deps : Nat → List Nat} {num : Nat → Nat} {x x' : Nat → Nat → Env (List F) → List F}
    {E : Nat → Env (List F)} {K : Nat} (hk : ∀ k < K, ∀ m ∈ deps k, m < k) {d d' : Nat → Nat → Nat → F}
    (h : ∀ k < K, MkEq mv Cs deps num x x' E d k) (h' : ∀ k < K, MkEq mv Cs deps num x x' E d' k) : ∀ k < K, d k = d' k := by
  intro k
  induction k using Nat.strong_induction_on with
  | _ k ih =>
    intro hK
    funext j p
    have he : Env.only (fun m => (E p m).map (mkMove mv num d p m)) (deps k)
        = Env.only (fun m => (E p m).map (mkMove mv num d' p m)) (deps k) := by
      funext m
      unfold Env.only
      by_cases hm : m ∈ deps k
      · have := hk k hK m hm
        rw [if_pos hm, if_pos hm]
        have he : mkMove mv num d p m = mkMove mv num d' p m := by
          funext o
          unfold mkMove
          rw [ih m this (by omega)]
        simp only [he]
      · rw [if_neg hm, if_neg hm]
    rw [h k hK j p, h' k hK j p, he]

theorem mkMove_neg {mv : Nat → (Nat → F) → F[X]} (hmv : ∀ k d, mv k (fun p => -d p) = -mv k d) (num : Nat → Nat) (d : Nat → Nat → Nat → F) (p m : Nat) (o : List F) (ho : o.length = num m) :
    mkMove mv num (fun k j p => -d k j p) p m (mkMove mv num d p m o) = o := by
  unfold mkMove vsub
  apply List.ext_getElem
  · simp [ho]
  · intro i h1 h2
    simp [hmv]

/-- The differences in the other direction. -/
theorem MkEq.neg {mv : Nat → (Nat → F) → F[X]} (hmv : ∀ k d, mv k (fun p => -d p) = -mv k d) {Cs : Finset Nat} {deps : Nat → List Nat} {num : Nat → Nat} {x x' : Nat → Nat → Env (List F) → List F}
    {E : Nat → Env (List F)} {d : Nat → Nat → Nat → F} {k : Nat} (hE : ∀ p m o, E p m = some o → o.length = num m)
    (h : MkEq mv Cs deps num x x' E d k) :
    MkEq mv Cs deps num x' x (fun p m => (E p m).map (mkMove mv num d p m)) (fun k j p => -d k j p) k := by
  intro j p
  have hback : (fun m => ((E p m).map (mkMove mv num d p m)).map (mkMove mv num (fun k j p => -d k j p) p m)) = E p := by
    funext m
    cases hm : E p m with
    | none => rfl
    | some o => simp only [Option.map_some, mkMove_neg hmv num d p m o (hE p m o hm)]
  simp only [hback]
  rw [h j p]
  split_ifs
  · simp
  · rw [neg_sub]

/-- The runs `jobs v x ω` with the inputs `x` and the masks `ω`, of which the parties of `Cs` know `known ω`, and where `v` stands for what these parties did
to the masks before: changing the masks by `move d` makes up for inputs which differ by `d`. -/
structure Masked (n : Nat) (Cs : Finset Nat) (len : Nat) (num : Nat → Nat) (deps : Nat → List Nat) (mv : Nat → (Nat → F) → F[X]) {Ω κ : Type}
    (sizes : (Nat → Nat → Env (List F) → List F) → Prop) (jobs : κ → (Nat → Nat → Env (List F) → List F) → Ω → List (Job (List F)))
    (move : (Nat → Nat → Nat → F) → Ω → Ω) (known : Ω → κ) : Prop where
  order : ∀ k < len, ∀ m ∈ deps k, m < k
  length : ∀ v x ω, (jobs v x ω).length = len
  deps : ∀ v x ω (k : Nat) job, (jobs v x ω)[k]? = some job → job.deps = deps k
  id : ∀ v x x' ω ω' (k : Nat) job job', (jobs v x ω)[k]? = some job → (jobs v x' ω')[k]? = some job' → (job' : Job (List F)).id = (job : Job (List F)).id
  rel : ∀ v x x' ω d k job job' p, (∀ k < len, ∀ j, ∀ q ∈ Cs, d k j q = 0) → p ∉ Cs → sizes x → sizes x' → (jobs v x ω)[k]? = some job → (jobs v x' (move d ω))[k]? = some job' → p < n →
    ∀ env env', (∀ j, d k j p = (x k p env).getD j 0 - (x' k p env').getD j 0) →
      ProtoRel (mkMove mv num d p k) p job.proto job'.proto env env'
  fin : ∀ v x ω (k : Nat) job, (jobs v x ω)[k]? = some job → ∀ p < n, ∀ env ms o, job.proto.finish p env ms = some o → o.length = num k
  mv_neg : ∀ k d, mv k (fun p => -d p) = -mv k d
  move_neg : ∀ d d' ω, (∀ k < len, d' k = fun j p => -d k j p) → move d' (move d ω) = ω
  move_known : ∀ d, (∀ k j, ∀ p ∈ Cs, d k j p = 0) → ∀ ω, known (move d ω) = known ω

theorem act_done {O : Type} {n : Nat} {P : Proto O} {p : Nat} {env : Env O} {t : TState O} {o : O}
    (h : (∃ d m, P.act n p env t = .send d m (.done o)) ∨ (∃ k m, P.act n p env t = .recv k ∧ .done o = k m) ∨ P.act n p env t = .tau (.done o)) :
    ∃ ms, P.finish p env ms = some o := by
  have hof : ∀ (a : Option O), orFail a TState.done = .done o → a = some o := by
    intro a ha
    cases a with
    | none => cases ha
    | some y => exact congrArg some (TState.done.inj ha)
  cases t with
  | idle =>
    simp only [Proto.act] at h
    rcases h with ⟨_, _, h⟩ | ⟨_, _, h, _⟩ | h
    · cases h
    · cases h
    · obtain ⟨_, h⟩ := orFail_done (Act.tau.inj h)
      cases h
  | sending l =>
    cases l with
    | nil =>
      simp only [Proto.act] at h
      rcases h with ⟨_, _, h⟩ | ⟨_, _, h, _⟩ | h
      · cases h
      · cases h
      · have h := Act.tau.inj h
        split_ifs at h
    | cons y rest =>
      simp only [Proto.act] at h
      rcases h with ⟨_, _, h⟩ | ⟨_, _, h, _⟩ | h <;> cases h
  | gather g =>
    simp only [Proto.act] at h
    by_cases hg : g.counter = n
    · rw [if_pos hg] at h
      cases hl : P.leader with
      | none =>
        simp only [hl] at h
        rcases h with ⟨_, _, h⟩ | ⟨_, _, h, _⟩ | h
        · cases h
        · cases h
        · exact ⟨_, hof _ (Act.tau.inj h)⟩
      | some L =>
        simp only [hl] at h
        rcases h with ⟨_, _, h⟩ | ⟨_, _, h, _⟩ | h
        · cases h
        · cases h
        · obtain ⟨_, h⟩ := orFail_done (Act.tau.inj h)
          cases h
    · rw [if_neg hg] at h
      rcases h with ⟨_, _, h⟩ | ⟨kk, m, h, hk⟩ | h
      · cases h
      · cases h
        obtain ⟨y, hy⟩ := orFail_done hk.symm
        cases hy
      · cases h
  | reply l =>
    cases l <;> simp only [Proto.act] at h <;> rcases h with ⟨_, _, h⟩ | ⟨_, _, h, _⟩ | h <;> cases h
  | wait =>
    simp only [Proto.act] at h
    rcases h with ⟨_, _, h⟩ | ⟨kk, m, h, hk⟩ | h
    · cases h
    · cases h
      exact ⟨_, hof _ hk.symm⟩
    · cases h
  | done o' =>
    simp only [Proto.act] at h
    rcases h with ⟨_, _, h⟩ | ⟨_, _, h, _⟩ | h <;> cases h
  | fail =>
    simp only [Proto.act] at h
    rcases h with ⟨_, _, h⟩ | ⟨_, _, h, _⟩ | h <;> cases h

/-- The results have the right lengths. -/
theorem play_fin {O : Type} {n : Nat} {jobs : List (Job O)} {Cs : Finset Nat} {Q : Nat → O → Prop}
    (hQ : ∀ (k : Nat) job, jobs[k]? = some job → ∀ p < n, ∀ env ms o, job.proto.finish p env ms = some o → Q k o)
    (strat : List (Sys Unit) → ByzStep) (N : Nat) : ∀ p j o, (Sys.play n jobs Cs strat N).2.loc p j = .done o → Q j o := by
  induction N with
  | zero =>
    intro p j o ho
    cases ho
  | succ N ih =>
    simp only [Sys.play]
    generalize Sys.play n jobs Cs strat N = r at ih ⊢
    cases he : r.2.byzStep n jobs Cs (strat (r.1 ++ [r.2.erase])) with
    | none => exact ih
    | some t =>
      intro p j o ho
      simp only [Option.getD_some] at ho
      rcases byzStep_loc he p j with h' | ⟨job, next, hj, _, hpn, hn, h'⟩
      · exact ih p j o (h' ▸ ho)
      · rw [ho] at hn
        subst hn
        obtain ⟨ms, hms⟩ := act_done h'
        exact hQ j job hj p hpn _ ms o hms

section
variable {n : Nat} {Cs : Finset Nat} {len : Nat} {num : Nat → Nat} {deps : Nat → List Nat} {mv : Nat → (Nat → F) → F[X]} {Ω κ : Type}
  {sizes : (Nat → Nat → Env (List F) → List F) → Prop} {jobs : κ → (Nat → Nat → Env (List F) → List F) → Ω → List (Job (List F))}
  {move : (Nat → Nat → Nat → F) → Ω → Ω} {known : Ω → κ} (M : Masked n Cs len num deps mv sizes jobs move known)

include M in
/-- The executions with `x` and with `x'`. -/
theorem Masked.play_rel (strat : List (Sys Unit) → ByzStep) (v : κ) {x x' : Nat → Nat → Env (List F) → List F} (hx : sizes x) (hx' : sizes x') (ω : Ω)
    (d : Nat → Nat → Nat → F) (hd : ∀ k < len, MkEq mv Cs deps num x x' (finalEnv n (jobs v x ω) Cs strat) d k) (N : Nat) :
    (Sys.play n (jobs v x' (move d ω)) Cs strat N).1 = (Sys.play n (jobs v x ω) Cs strat N).1 ∧
      SysRel (mkMove mv num d) (Sys.play n (jobs v x ω) Cs strat N).2 (Sys.play n (jobs v x' (move d ω)) Cs strat N).2 := by
  induction N with
  | zero => exact ⟨rfl, SysRel.start _⟩
  | succ N ih =>
    obtain ⟨ih1, ih2⟩ := ih
    have hstep := byzStep_rel (n := n) (jobs := jobs v x ω) (jobs' := jobs v x' (move d ω)) (Cs := Cs) ih2
      (by rw [M.length, M.length])
      (fun j job job' hj hj' => ⟨M.id v x x' ω _ j job job' hj hj', by rw [M.deps v x' _ j job' hj', M.deps v x _ j job hj]⟩)
      (play_lead n _ Cs strat N)
      (by
        intro p j job job' hp hpC hj hj' hready
        have hfin := finalEnv_only n (jobs v x ω) Cs strat hready
        have hjl : j < len := by
          have := (List.getElem?_eq_some_iff.1 hj).1
          rwa [M.length] at this
        refine M.rel v x x' ω d j job job' p (fun k hk i q hq => by rw [hd k hk i q, if_pos hq]) hpC hx hx' hj hj' hp _ _ fun i => ?_
        have := hd j hjl i p
        rw [if_neg hpC] at this
        have hdeps := M.deps v x ω j job hj
        rw [this, hfin, hdeps]
        congr 3
        funext m
        have hfm := congrFun hfin m
        unfold Env.only at hfm ⊢
        rw [hdeps] at hfm
        by_cases hm : m ∈ deps j
        · rw [if_pos hm] at hfm ⊢
          rw [if_pos hm] at hfm ⊢
          rw [ih2.env, hfm]
        · rw [if_neg hm, if_neg hm])
      (strat ((Sys.play n (jobs v x ω) Cs strat N).1 ++ [(Sys.play n (jobs v x ω) Cs strat N).2.erase]))
    simp only [Sys.play]
    rw [ih1, ih2.erase]
    refine ⟨rfl, ?_⟩
    revert hstep
    generalize Sys.byzStep _ _ _ _ _ = a
    generalize Sys.byzStep _ _ _ _ _ = b
    intro hstep
    cases a <;> cases b
    · exact ih2
    · exact hstep.elim
    · exact hstep.elim
    · exact hstep

include M in
/-- The results of the other execution. -/
theorem Masked.finalEnv_rel (strat : List (Sys Unit) → ByzStep) (v : κ) {x x' : Nat → Nat → Env (List F) → List F} (hx : sizes x) (hx' : sizes x')
    (ω : Ω) (d : Nat → Nat → Nat → F) (hd : ∀ k < len, MkEq mv Cs deps num x x' (finalEnv n (jobs v x ω) Cs strat) d k) :
    finalEnv n (jobs v x' (move d ω)) Cs strat = fun p m => (finalEnv n (jobs v x ω) Cs strat p m).map (mkMove mv num d p m) := by
  funext p m
  have hrel := fun N => (M.play_rel strat v hx hx' ω d hd N).2
  cases hf : finalEnv n (jobs v x ω) Cs strat p m with
  | some o =>
    obtain ⟨N, hN⟩ := (finalEnv_eq _ _ _ _ _ _ _).1 hf
    exact (finalEnv_eq _ _ _ _ _ _ _).2 ⟨N, ((hrel N).loc p m).2 o hN⟩
  | none =>
    cases hf' : finalEnv n (jobs v x' (move d ω)) Cs strat p m with
    | none => rfl
    | some o' =>
      obtain ⟨N, hN⟩ := (finalEnv_eq _ _ _ _ _ _ _).1 hf'
      rcases ((hrel N).loc p m).cases with ⟨a, b⟩ | ⟨_, a, b⟩ | ⟨_, a, b⟩ | ⟨_, a, b⟩ | ⟨a, b⟩ | ⟨o, a, b⟩ | ⟨a, b⟩
      all_goals first
        | (rw [b] at hN; cases hN; done)
        | (have := (finalEnv_eq n (jobs v x ω) Cs strat p m o).2 ⟨N, a⟩
           rw [hf] at this
           cases this)

theorem mkDiff_quiet (mv : Nat → (Nat → F) → F[X]) (Cs : Finset Nat) (deps : Nat → List Nat) (num : Nat → Nat) (x x' : Nat → Nat → Env (List F) → List F)
    (E : Nat → Env (List F)) (k j p : Nat) (hp : p ∈ Cs) : mkDiff mv Cs deps num x x' E k j p = 0 := by
  rw [mkDiff, if_pos hp]

/-- The change of the coins for the execution with the coins `ω`. -/
noncomputable def soak (n : Nat) (Cs : Finset Nat) (num : Nat → Nat) (deps : Nat → List Nat) (mv : Nat → (Nat → F) → F[X])
    (jobs : κ → (Nat → Nat → Env (List F) → List F) → Ω → List (Job (List F))) (move : (Nat → Nat → Nat → F) → Ω → Ω) (known : Ω → κ)
    (σ : κ → List (Sys Unit) → ByzStep) (x x' : Nat → Nat → Env (List F) → List F) (ω : Ω) : Ω :=
  move (mkDiff mv Cs deps num x x' (finalEnv n (jobs (known ω) x ω) Cs (σ (known ω)))) ω

include M in
theorem Masked.soak_known (σ : κ → List (Sys Unit) → ByzStep) (x x' : Nat → Nat → Env (List F) → List F) (ω : Ω) :
    known (soak n Cs num deps mv jobs move known σ x x' ω) = known ω :=
  M.move_known _ (fun k j p hp => mkDiff_quiet mv Cs _ _ x x' _ k j p hp) ω

include M in
theorem Masked.soak_left (σ : κ → List (Sys Unit) → ByzStep) {x x' : Nat → Nat → Env (List F) → List F} (hx : sizes x) (hx' : sizes x') (ω : Ω) :
    soak n Cs num deps mv jobs move known σ x' x (soak n Cs num deps mv jobs move known σ x x' ω) = ω := by
  have hkn := M.soak_known σ x x' ω
  have hd : ∀ k < len, MkEq mv Cs deps num x x' (finalEnv n (jobs (known ω) x ω) Cs (σ (known ω)))
      (mkDiff mv Cs deps num x x' (finalEnv n (jobs (known ω) x ω) Cs (σ (known ω)))) k :=
    fun k hk => mkDiff_eq mv Cs _ _ x x' _ k (M.order k hk)
  have hfin := M.finalEnv_rel (σ (known ω)) (known ω) hx hx' ω _ hd
  have hd' : ∀ k < len, MkEq mv Cs deps num x' x
      (finalEnv n (jobs (known ω) x' (soak n Cs num deps mv jobs move known σ x x' ω)) Cs (σ (known ω)))
      (mkDiff mv Cs deps num x' x (finalEnv n (jobs (known ω) x' (soak n Cs num deps mv jobs move known σ x x' ω)) Cs (σ (known ω)))) k :=
    fun k hk => mkDiff_eq mv Cs _ _ x' x _ k (M.order k hk)
  rw [soak, hkn]
  refine M.move_neg _ _ ω ?_
  refine MkEq.unique M.order hd' ?_
  intro k hk
  have : finalEnv n (jobs (known ω) x' (soak n Cs num deps mv jobs move known σ x x' ω)) Cs (σ (known ω)) = _ := hfin
  rw [this]
  refine MkEq.neg M.mv_neg (fun p m o ho => ?_) (hd k hk)
  obtain ⟨N, hN⟩ := (finalEnv_eq _ _ _ _ _ _ _).1 ho
  exact play_fin (Q := fun k o => o.length = num k) (M.fin (known ω) x ω) (σ (known ω)) N p m o hN

include M in
/-- Nothing that the parties of `Cs` see depends on the inputs. -/
theorem Masked.private (σ : κ → List (Sys Unit) → ByzStep) {x x' : Nat → Nat → Env (List F) → List F} (hx : sizes x) (hx' : sizes x') :
    ∃ e : Ω ≃ Ω, ∀ ω, known (e ω) = known ω ∧ ∀ N, (Sys.play n (jobs (known (e ω)) x' (e ω)) Cs (σ (known (e ω))) N).1
      = (Sys.play n (jobs (known ω) x ω) Cs (σ (known ω)) N).1 := by
  refine ⟨⟨soak n Cs num deps mv jobs move known σ x x', soak n Cs num deps mv jobs move known σ x' x, M.soak_left σ hx hx', M.soak_left σ hx' hx⟩,
    fun ω => ?_⟩
  simp only [Equiv.coe_fn_mk]
  have hk := M.soak_known σ x x' ω
  refine ⟨hk, fun N => ?_⟩
  rw [hk]
  exact (M.play_rel (σ (known ω)) (known ω) hx hx' ω _ (fun k hk => mkDiff_eq mv Cs _ _ x x' _ k (M.order k hk)) N).1

end

end Verif
