import Verif.ByzGarble
import Verif.PrivacyAbsorb

/-!
# Lemmas for `Props/ByzGarble.lean`
-/

namespace Verif

variable {F : Type} [CodeField F]

/-! ## The runs one by one -/

theorem gateRuns_at {lead : ProtocolID → Nat} {K : Nat} {deps : List Nat} {gin : Nat → Env (GOut F) → Option (GateIn F)} {R off mat : Nat}
    {tp : GateTapes F} {kind : GateKind} {j : Nat} {r : GRun F} (h : (gateRuns lead K deps gin R off mat tp kind)[j]? = some r) :
    r.tr = none ∧ ∀ d ∈ r.deps, d ∈ deps ∨ d < off + j := by
  cases kind <;> rcases j with _ | _ | j <;> simp [gateRuns] at h <;> subst h <;> simp +contextual

theorem gateRuns_length (lead : ProtocolID → Nat) (K : Nat) (deps : List Nat) (gin : Nat → Env (GOut F) → Option (GateIn F)) (R off mat : Nat)
    (tp : GateTapes F) (kind : GateKind) : (gateRuns lead K deps gin R off mat tp kind).length = kind.numJobs := by
  cases kind <;> rfl

theorem gatesRuns_at {lead : ProtocolID → Nat} {K : Nat} {deps : List Nat} {gins : Nat → Env (GOut F) → Option (List (GateIn F))} {R : Nat} :
    ∀ {gs : List (GateKind × GateTapes F)} {off mat gid j : Nat} {r : GRun F}, (gatesRuns lead K deps gins R off mat gid gs)[j]? = some r →
      r.tr = none ∧ ∀ d ∈ r.deps, d ∈ deps ∨ d < off + j := by
  intro gs
  induction gs with
  | nil => intro off mat gid j r h; simp [gatesRuns] at h
  | cons x gs ih =>
    obtain ⟨kind, tp⟩ := x
    intro off mat gid j r h
    unfold gatesRuns at h
    by_cases hj : j < (gateRuns lead K deps (fun p env => (gins p env).bind fun l => l[gid]?) R off mat tp kind).length
    · rw [List.getElem?_append_left hj] at h
      exact gateRuns_at h
    · rw [List.getElem?_append_right (by omega)] at h
      rw [gateRuns_length] at h hj
      obtain ⟨h1, h2⟩ := ih h
      refine ⟨h1, fun d hd => ?_⟩
      rcases h2 d hd with h | h
      · exact .inl h
      · exact .inr (by omega)

theorem gateRuns_pos {lead : ProtocolID → Nat} {K : Nat} {deps : List Nat} {gin : Nat → Env (GOut F) → Option (GateIn F)} {R off mat : Nat}
    {tp : GateTapes F} {kind : GateKind} {j : Nat} {r : GRun F} (h : (gateRuns lead K deps gin R off mat tp kind)[j]? = some r) :
    mat ≤ r.pos ∧ r.pos + r.num ≤ mat + kind.numMult K ∧
      ∀ j' r', (gateRuns lead K deps gin R off mat tp kind)[j']? = some r' → j < j' → r.pos + r.num ≤ r'.pos ∨ r'.pos + r'.num ≤ r.pos := by
  cases kind <;> rcases j with _ | _ | j <;> simp [gateRuns] at h <;> subst h <;> simp only [GateKind.numMult] <;>
    refine ⟨by omega, by omega, ?_⟩ <;> intro j' r' h' hj <;> rcases j' with _ | _ | j' <;> simp [gateRuns] at h' hj <;> subst h' <;> simp

theorem gatesRuns_pos {lead : ProtocolID → Nat} {K : Nat} {deps : List Nat} {gins : Nat → Env (GOut F) → Option (List (GateIn F))} {R : Nat} :
    ∀ {gs : List (GateKind × GateTapes F)} {off mat gid j : Nat} {r : GRun F}, (gatesRuns lead K deps gins R off mat gid gs)[j]? = some r →
      mat ≤ r.pos ∧ r.pos + r.num ≤ mat + (gs.map fun x => x.1.numMult K).sum ∧
        ∀ j' r', (gatesRuns lead K deps gins R off mat gid gs)[j']? = some r' → j < j' → r.pos + r.num ≤ r'.pos ∨ r'.pos + r'.num ≤ r.pos := by
  intro gs
  induction gs with
  | nil => intro off mat gid j r h; simp [gatesRuns] at h
  | cons x gs ih =>
    obtain ⟨kind, tp⟩ := x
    intro off mat gid j r h
    unfold gatesRuns at h ⊢
    simp only [List.map_cons, List.sum_cons]
    by_cases hj : j < (gateRuns lead K deps (fun p env => (gins p env).bind fun l => l[gid]?) R off mat tp kind).length
    · rw [List.getElem?_append_left hj] at h
      obtain ⟨h1, h2, h3⟩ := gateRuns_pos h
      refine ⟨h1, by omega, fun j' r' h' hjj => ?_⟩
      by_cases hj' : j' < (gateRuns lead K deps (fun p env => (gins p env).bind fun l => l[gid]?) R off mat tp kind).length
      · rw [List.getElem?_append_left hj'] at h'
        exact h3 j' r' h' hjj
      · rw [List.getElem?_append_right (by omega)] at h'
        have := (ih h').1
        left
        omega
    · rw [List.getElem?_append_right (by omega)] at h
      obtain ⟨h1, h2, h3⟩ := ih h
      refine ⟨by omega, by omega, fun j' r' h' hjj => ?_⟩
      rw [List.getElem?_append_right (by omega)] at h'
      exact h3 _ r' h' (by omega)

variable [DecidableEq F] {ctx : Ctx F} {g : GarbleCtx F} {lead : ProtocolID → Nat} {tp : GarbleTapes F} {sec : Nat → PreProc F}
  {go gi : List (List (SharingTransform F))}

theorem runs_at (hl : TapeLens g tp) {k : Nat} {r : GRun F} (h : (garbleRuns ctx g lead tp sec go gi)[k]? = some r) :
    (k < g.tfOut.length ∧ r.deps = [] ∧ r.num = 2 * g.lpn.keyLen + 1 ∧ r.tr = some (k / ctx.l, k % ctx.l)) ∨
    (∃ i < g.tfInp.length, k = g.tfOut.length + i ∧ r.deps = List.range g.tfOut.length ∧ r.num = 2 * g.lpn.keyLen + 1 ∧
      r.tr = some (go.length + i / ctx.l, i % ctx.l)) ∨
    (g.tfOut.length + g.tfInp.length ≤ k ∧ r.tr = none ∧ ∀ d ∈ r.deps, d < k) := by
  have h1 := hl.out
  have h2 := hl.inp
  unfold garbleRuns at h
  by_cases k1 : k < g.tfOut.length
  · left
    rw [List.append_assoc, List.getElem?_append_left (by simp; omega), List.getElem?_map] at h
    obtain ⟨a, ha, rfl⟩ := Option.map_eq_some_iff.1 h
    rw [List.getElem?_zipIdx] at ha
    obtain ⟨b, _, rfl⟩ := Option.map_eq_some_iff.1 ha
    simpa using k1
  by_cases k2 : k < g.tfOut.length + g.tfInp.length
  · right; left
    rw [List.getElem?_append_left (by simp; omega), List.getElem?_append_right (by simp; omega), List.getElem?_map] at h
    obtain ⟨a, ha, rfl⟩ := Option.map_eq_some_iff.1 h
    rw [List.getElem?_zipIdx] at ha
    obtain ⟨b, _, rfl⟩ := Option.map_eq_some_iff.1 ha
    refine ⟨k - g.tfOut.length, by omega, by omega, rfl, rfl, ?_⟩
    simp [h1]
  · right; right
    rw [List.getElem?_append_right (by simp; omega)] at h
    obtain ⟨e1, e2⟩ := gatesRuns_at h
    refine ⟨by omega, e1, fun d hd => ?_⟩
    rcases e2 d hd with h | h
    · obtain ⟨i, hi, rfl⟩ := List.mem_map.1 h
      have := List.mem_range.1 hi
      omega
    · simp at h
      omega

omit [CodeField F] [DecidableEq F] in
theorem runJobs_at {ids : List ProtocolID} {runs : List (GRun F)} (k : Fin (runJobs ids runs).length) :
    ∃ id r, ids[k.1]? = some id ∧ runs[k.1]? = some r ∧ (runJobs ids runs).get k = r.job id := by
  have hk := k.2
  have e : (runJobs ids runs)[k.1]? = some ((runJobs ids runs).get k) := List.getElem?_eq_getElem hk
  unfold runJobs at e
  rw [List.getElem?_map] at e
  obtain ⟨s, hs, e⟩ := Option.map_eq_some_iff.1 e
  rw [List.getElem?_zip_eq_some] at hs
  exact ⟨s.1, s.2, hs.1, hs.2, e.symm⟩

/-- The inputs have the right sizes. -/
theorem runInputs_sizes (R : Nat) (ids : List ProtocolID) (runs : List (GRun F)) : MkSizes (runJobs ids runs) (runInputs R runs) := by
  intro k p env
  obtain ⟨id, r, _, h2, h3⟩ := runJobs_at k
  rw [h3]
  unfold runInputs
  rw [h2]
  simp only [GRun.job]
  split
  · simp
  · split
    · assumption
    · simp

/-- The runs fit together. -/
theorem runs_ok {hash : List Nat → List Nat} {rng : List Nat → Nat → F} {lpn : LpnParams} {circ : PackedCircuit} {d : PreProcCount}
    (P : GarbleParams hash rng ctx lpn circ g tp d) (hG : Prepared ctx circ lpn g tp go gi) (hD : circ.Distinct ctx.l) (ids : List ProtocolID) :
    MkOk ctx (garbleRts g go gi) (runJobs ids (garbleRuns ctx g lead tp sec go gi)) := by
  have hl0 : 0 < ctx.l := P.good.posL
  have hne : ctx.l ≠ 0 := by omega
  have ego : chunks ctx.l g.tfOut = go := by
    have := hG.go
    unfold chunks? at this
    rw [if_neg hne] at this
    exact Option.some.inj this
  have egi : chunks ctx.l g.tfInp = gi := by
    have := hG.gi
    unfold chunks? at this
    rw [if_neg hne] at this
    exact Option.some.inj this
  have mem : ∀ tf, (∃ grp ∈ go ++ gi, tf ∈ grp) → tf ∈ g.tfOut ∨ tf ∈ g.tfInp := by
    rintro tf ⟨grp, hg, ht⟩
    rcases List.mem_append.1 hg with hg | hg
    · left
      rw [← chunks_flatten ctx.l g.tfOut hne, ego]
      exact List.mem_flatten.2 ⟨grp, hg, ht⟩
    · right
      rw [← chunks_flatten ctx.l g.tfInp hne, egi]
      exact List.mem_flatten.2 ⟨grp, hg, ht⟩
  have rts : ∀ x ∈ garbleRts g go gi, ∃ grp ∈ go ++ gi, x = ⟨grp, 2 * g.lpn.keyLen + 1⟩ := by
    intro x hx
    obtain ⟨grp, h1, h2⟩ := List.mem_map.1 hx
    exact ⟨grp, h1, h2.symm⟩
  -- where the masks come from
  have src : ∀ (k : Fin (runJobs ids (garbleRuns ctx g lead tp sec go gi)).length) v i,
      ((runJobs ids (garbleRuns ctx g lead tp sec go gi)).get k).tr = some (v, i) →
      ((runJobs ids (garbleRuns ctx g lead tp sec go gi)).get k).num = 2 * g.lpn.keyLen + 1 ∧
      ∃ grp, (go ++ gi)[v]? = some grp ∧ i < grp.length ∧
        k.1 = if v < go.length then v * ctx.l + i else g.tfOut.length + ((v - go.length) * ctx.l + i) := by
    intro k v i hk
    obtain ⟨id, r, _, h2, h3⟩ := runJobs_at k
    rw [h3] at hk ⊢
    simp only [GRun.job] at hk ⊢
    rcases runs_at hG.lens h2 with ⟨a1, _, a3, a4⟩ | ⟨j, a1, a2, _, a3, a4⟩ | ⟨_, a2, _⟩
    · rw [a4] at hk
      simp only [Option.some.injEq, Prod.mk.injEq] at hk
      obtain ⟨rfl, rfl⟩ := hk
      obtain ⟨grp, e1, e2⟩ := chunks_index hl0 g.tfOut a1
      rw [ego] at e1
      have hv := (List.getElem?_eq_some_iff.1 e1).1
      refine ⟨a3, grp, by rw [List.getElem?_append_left hv, e1], e2, ?_⟩
      rw [if_pos hv, Nat.div_add_mod']
    · rw [a4] at hk
      simp only [Option.some.injEq, Prod.mk.injEq] at hk
      obtain ⟨rfl, rfl⟩ := hk
      obtain ⟨grp, e1, e2⟩ := chunks_index hl0 g.tfInp a1
      rw [egi] at e1
      refine ⟨a3, grp, by rw [List.getElem?_append_right (Nat.le_add_right _ _), Nat.add_sub_cancel_left, e1], e2, ?_⟩
      rw [if_neg (Nat.not_lt.2 (Nat.le_add_right _ _)), Nat.add_sub_cancel_left, Nat.div_add_mod', a2]
    · rw [a2] at hk
      cases hk
  obtain ⟨tr, tr1, tr2⟩ := P.tfI
  refine ⟨?_, ?_, ?_, ?_, ?_, ?_⟩
  · intro k d hd
    obtain ⟨id, r, _, h2, h3⟩ := runJobs_at k
    rw [h3] at hd
    simp only [GRun.job] at hd
    rcases runs_at hG.lens h2 with ⟨_, a2, _⟩ | ⟨j, a1, a2, a3, _⟩ | ⟨_, _, a3⟩
    · rw [a2] at hd
      cases hd
    · rw [a3] at hd
      have := List.mem_range.1 hd
      show d < k.1
      omega
    · exact a3 d hd
  · intro k v i hk
    obtain ⟨h1, grp, h2, h3, _⟩ := src k v i hk
    have hv := (List.getElem?_eq_some_iff.1 h2).1
    have hv' : v < (garbleRts g go gi).length := by simpa [garbleRts] using hv
    refine ⟨hv', ?_, ?_⟩
    · have : ((garbleRts g go gi).get ⟨v, hv'⟩).tfs = grp := by
        simp only [garbleRts, List.get_eq_getElem, List.getElem_map]
        exact (List.getElem?_eq_some_iff.1 h2).2
      rw [this]
      exact h3
    · rw [h1]
      simp only [garbleRts, List.get_eq_getElem, List.getElem_map]
  · rintro k k' ⟨v, i⟩ hk hk'
    obtain ⟨_, _, _, _, e⟩ := src k v i hk
    obtain ⟨_, _, _, _, e'⟩ := src k' v i hk'
    exact Fin.ext (e.trans e'.symm)
  · intro x hx
    obtain ⟨grp, h1, rfl⟩ := rts x hx
    rcases List.mem_append.1 h1 with h | h
    · rw [← ego] at h
      exact ((chunks_sizes ctx.l _ hne).1 grp h).2
    · rw [← egi] at h
      exact ((chunks_sizes ctx.l _ hne).1 grp h).2
  · intro x hx tf htf
    obtain ⟨grp, h1, rfl⟩ := rts x hx
    rcases mem tf ⟨grp, h1, htf⟩ with h | h
    · exact (P.okO tf h).1
    · exact P.okI tf h
  · intro x hx tf htf
    obtain ⟨grp, h1, rfl⟩ := rts x hx
    rcases mem tf ⟨grp, h1, htf⟩ with h | h
    · exact (P.okO tf h).2
    · rw [tr2] at h
      obtain ⟨ws, hw, rfl⟩ := List.mem_map.1 h
      refine (tr1 ws hw).aligned (inps_length P.circ ws hw) ?_
      obtain ⟨gate, hg, hw⟩ := List.mem_flatMap.1 hw
      exact hD gate hg ws hw

/-- The gates' runs. -/
theorem runs_gates (hl : TapeLens g tp) {k : Nat} {r : GRun F} (h : (garbleRuns ctx g lead tp sec go gi)[k]? = some r) (ht : r.tr = none) :
    r.pos + r.num ≤ ((g.circ.gates.map PackedGate.kind).map (GateKind.numMult g.lpn.keyLen)).sum ∧
      ∀ k' r', (garbleRuns ctx g lead tp sec go gi)[k']? = some r' → r'.tr = none → k < k' → r.pos + r.num ≤ r'.pos ∨ r'.pos + r'.num ≤ r.pos := by
  have h1 := hl.out
  have h2 := hl.inp
  have hk : g.tfOut.length + g.tfInp.length ≤ k := by
    rcases runs_at hl h with ⟨_, _, _, a⟩ | ⟨_, _, _, _, _, a⟩ | ⟨a, _⟩
    · rw [a] at ht; cases ht
    · rw [a] at ht; cases ht
    · exact a
  unfold garbleRuns at h ⊢
  rw [List.getElem?_append_right (by simp; omega)] at h
  obtain ⟨p1, p2, p3⟩ := gatesRuns_pos h
  have e : (((g.circ.gates.map PackedGate.kind).zip tp.gates).map fun x => x.1.numMult g.lpn.keyLen)
      = (g.circ.gates.map PackedGate.kind).map (GateKind.numMult g.lpn.keyLen) := by
    have : (((g.circ.gates.map PackedGate.kind).zip tp.gates).map fun x => x.1.numMult g.lpn.keyLen)
        = (((g.circ.gates.map PackedGate.kind).zip tp.gates).map (·.1)).map (GateKind.numMult g.lpn.keyLen) := by
      rw [List.map_map]; rfl
    rw [this, zip_fst (by simp [hl.gates])]
  rw [e] at p2
  refine ⟨by omega, fun k' r' h' _ hkk => ?_⟩
  rw [List.getElem?_append_right (by simp; omega)] at h'
  exact p3 _ r' h' (by simp; omega)

omit [CodeField F] [DecidableEq F] in
/-- Positions which follow the blocks of size `A`. -/
theorem positions_ok {gs : List (RtRun F)} {rs : List (MkJob F)} {A S N b have' : Nat} (hN : gs.length = N) (pos : Fin rs.length → Nat)
    (len : Use gs rs → Nat) (hv : ∀ v, len (.inr v) = A) (hk : ∀ k, 0 < len (.inl k) → pos k + len (.inl k) ≤ S)
    (hd : ∀ k k', 0 < len (.inl k) → 0 < len (.inl k') → k < k' → pos k + len (.inl k) ≤ pos k' ∨ pos k' + len (.inl k') ≤ pos k)
    (hb : b + (N * A + S) ≤ have') (f : Use gs rs → Nat → Nat) (f1 : ∀ k i, f (.inl k) i = b + (N * A + (pos k + i)))
    (f2 : ∀ v i, f (.inr v) i = b + (v * A + i)) :
    (∀ u, ∀ i < len u, f u i < have') ∧ ∀ u u', ∀ i < len u, ∀ i' < len u', f u i = f u' i' → u = u' ∧ i = i' := by
  have low : ∀ (v : Fin gs.length) i, i < A → v * A + i < N * A := by
    intro v i hi
    have : (v.1 + 1) * A ≤ N * A := Nat.mul_le_mul_right _ (by have := v.2; omega)
    rw [Nat.add_mul, Nat.one_mul] at this
    omega
  refine ⟨?_, ?_⟩
  · rintro (k | v) i hi
    · rw [f1]
      have := hk k (by omega)
      omega
    · rw [f2]
      rw [hv] at hi
      have := low v i hi
      omega
  · rintro (k | v) (k' | v') i hi i' hi' e
    · rw [f1, f1] at e
      rcases lt_trichotomy k k' with h | h | h
      · have := hd k k' (by omega) (by omega) h
        omega
      · subst h
        exact ⟨rfl, by omega⟩
      · have := hd k' k (by omega) (by omega) h
        omega
    · rw [f1, f2] at e
      rw [hv] at hi'
      have := low v' i' hi'
      omega
    · rw [f1, f2] at e
      rw [hv] at hi
      have := low v i hi
      omega
    · rw [f2, f2] at e
      rw [hv] at hi hi'
      have e' : v.1 * A + i = v'.1 * A + i' := by omega
      have hA : 0 < A := by omega
      have q1 : (v.1 * A + i) / A = v.1 := by
        rw [Nat.mul_comm, Nat.mul_add_div hA, Nat.div_eq_of_lt hi, Nat.add_zero]
      have q2 : (v'.1 * A + i') / A = v'.1 := by
        rw [Nat.mul_comm, Nat.mul_add_div hA, Nat.div_eq_of_lt hi', Nat.add_zero]
      have hvv : v = v' := Fin.ext (by rw [← q1, ← q2, e'])
      subst hvv
      exact ⟨rfl, by omega⟩

/-- Nothing is used twice. -/
theorem uses_ok (hl : TapeLens g tp) (ids : List ProtocolID) {b bz haveR haveZ : Nat}
    (hR : b + ((go.length + gi.length) * ((ctx.n + ctx.t) * (2 * g.lpn.keyLen + 1)) +
      ((g.circ.gates.map PackedGate.kind).map (GateKind.numMult g.lpn.keyLen)).sum) ≤ haveR)
    (hZ : bz + ((go.length + gi.length) * (2 * ctx.n * (2 * g.lpn.keyLen + 1)) +
      ((g.circ.gates.map PackedGate.kind).map (GateKind.numMult g.lpn.keyLen)).sum) ≤ haveZ) :
    (garbleUses ctx g go gi ids (garbleRuns ctx g lead tp sec go gi) b bz).Ok
      (useR ctx (garbleRts g go gi) (runJobs ids (garbleRuns ctx g lead tp sec go gi)))
      (useZ ctx (garbleRts g go gi) (runJobs ids (garbleRuns ctx g lead tp sec go gi))) haveR haveZ := by
  have hN : (garbleRts g go gi).length = go.length + gi.length := by simp [garbleRts]
  have hnum : ∀ v : Fin (garbleRts g go gi).length, ((garbleRts g go gi).get v).num = 2 * g.lpn.keyLen + 1 := by
    intro v
    rw [List.get_eq_getElem]
    simp only [garbleRts, List.getElem_map]
  have own : ∀ k : Fin (runJobs ids (garbleRuns ctx g lead tp sec go gi)).length, 0 < ((runJobs ids (garbleRuns ctx g lead tp sec go gi)).get k).own →
      ∃ r, (garbleRuns ctx g lead tp sec go gi)[k.1]? = some r ∧ r.tr = none ∧ ((runJobs ids (garbleRuns ctx g lead tp sec go gi)).get k).own = r.num := by
    intro k hk
    obtain ⟨id, r, _, h2, h3⟩ := runJobs_at k
    rw [h3] at hk ⊢
    unfold MkJob.own at hk ⊢
    simp only [GRun.job] at hk ⊢
    by_cases ht : r.tr = none
    · exact ⟨r, h2, ht, by simp [ht]⟩
    · simp [ht] at hk
  have hk : ∀ k : Fin (runJobs ids (garbleRuns ctx g lead tp sec go gi)).length, 0 < ((runJobs ids (garbleRuns ctx g lead tp sec go gi)).get k).own →
      (((garbleRuns ctx g lead tp sec go gi)[k.1]?).map GRun.pos).getD 0 + ((runJobs ids (garbleRuns ctx g lead tp sec go gi)).get k).own
        ≤ ((g.circ.gates.map PackedGate.kind).map (GateKind.numMult g.lpn.keyLen)).sum := by
    intro k hk
    obtain ⟨r, h1, h2, h3⟩ := own k hk
    rw [h1, h3, Option.map_some, Option.getD_some]
    exact (runs_gates hl h1 h2).1
  have hd : ∀ k k' : Fin (runJobs ids (garbleRuns ctx g lead tp sec go gi)).length,
      0 < ((runJobs ids (garbleRuns ctx g lead tp sec go gi)).get k).own → 0 < ((runJobs ids (garbleRuns ctx g lead tp sec go gi)).get k').own → k < k' →
      (((garbleRuns ctx g lead tp sec go gi)[k.1]?).map GRun.pos).getD 0 + ((runJobs ids (garbleRuns ctx g lead tp sec go gi)).get k).own
        ≤ (((garbleRuns ctx g lead tp sec go gi)[k'.1]?).map GRun.pos).getD 0 ∨
      (((garbleRuns ctx g lead tp sec go gi)[k'.1]?).map GRun.pos).getD 0 + ((runJobs ids (garbleRuns ctx g lead tp sec go gi)).get k').own
        ≤ (((garbleRuns ctx g lead tp sec go gi)[k.1]?).map GRun.pos).getD 0 := by
    intro k k' hk hk' hlt
    obtain ⟨r, h1, h2, h3⟩ := own k hk
    obtain ⟨r', h1', h2', h3'⟩ := own k' hk'
    rw [h1, h3, h1', h3', Option.map_some, Option.getD_some, Option.map_some, Option.getD_some]
    exact (runs_gates hl h1 h2).2 _ r' h1' h2' hlt
  obtain ⟨a1, a2⟩ := positions_ok hN (fun k => (((garbleRuns ctx g lead tp sec go gi)[k.1]?).map GRun.pos).getD 0)
    (useR ctx (garbleRts g go gi) (runJobs ids (garbleRuns ctx g lead tp sec go gi))) (fun v => by show (ctx.n + ctx.t) * _ = _; rw [hnum]) hk hd hR
    (garbleUses ctx g go gi ids (garbleRuns ctx g lead tp sec go gi) b bz).rand (fun _ _ => rfl) (fun _ _ => rfl)
  obtain ⟨b1, b2⟩ := positions_ok hN (fun k => (((garbleRuns ctx g lead tp sec go gi)[k.1]?).map GRun.pos).getD 0)
    (useZ ctx (garbleRts g go gi) (runJobs ids (garbleRuns ctx g lead tp sec go gi))) (fun v => by show 2 * ctx.n * _ = _; rw [hnum]) hk hd hZ
    (garbleUses ctx g go gi ids (garbleRuns ctx g lead tp sec go gi) b bz).zero (fun _ _ => rfl) (fun _ _ => rfl)
  exact ⟨a1, b1, a2, b2⟩

end Verif
