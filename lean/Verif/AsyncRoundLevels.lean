import Verif.AsyncRoundLemmas
import Verif.AsyncGarble
import Verif.AsyncPreproc
import Verif.AsyncGarbleLemmas
import Verif.ArrayLemmas

/-!
# The levels of the jobs of `preproc` and `garble`
-/

namespace Verif

variable {F : Type} [CodeField F] [DecidableEq F]

/-- `v` is the level of a job with the given cost and dependencies. -/
def LevelAt (lvl : Nat → Nat) (deps : List Nat) (cost v : Nat) : Prop :=
  (cost ≤ v ∧ ∀ d ∈ deps, lvl d + cost ≤ v) ∧ (v ≤ cost ∨ ∃ d ∈ deps, v ≤ lvl d + cost)

theorem levels_of_levelAt {O : Type} {jobs : List (Job O)} {lvl : Nat → Nat}
    (h : ∀ (j : Nat) (job : Job O), jobs[j]? = some job → LevelAt lvl job.deps job.cost (lvl j)) : Levels jobs lvl ∧ LowLevels jobs lvl :=
  ⟨fun j job hj => (h j job hj).1, fun j job hj => (h j job hj).2⟩

theorem LevelAt.const {lvl : Nat → Nat} {deps : List Nat} {cost v : Nat} (h : ∀ d ∈ deps, lvl d = v) (hne : deps ≠ []) :
    LevelAt lvl deps cost (v + cost) := by
  refine ⟨⟨by omega, fun d hd => by rw [h d hd]⟩, Or.inr ?_⟩
  obtain ⟨d, hd⟩ := List.exists_mem_of_ne_nil _ hne
  exact ⟨d, hd, by rw [h d hd]⟩

theorem LevelAt.first {lvl : Nat → Nat} {cost : Nat} : LevelAt lvl [] cost cost := ⟨⟨by omega, by simp⟩, Or.inl (by omega)⟩

/-! ### `garble` -/

/-- The levels of the multiplications of a gate. -/
def GateKind.levels : GateKind → List Nat
  | .and => [7, 9]
  | .xor => [7]
  | .inv => [7]

/-- The levels of the jobs of `garble`. -/
def garbleLevels (a o i : Nat) (kinds : List GateKind) : List Nat :=
  List.replicate a 1 ++ List.replicate o 3 ++ List.replicate i 5 ++ kinds.flatMap GateKind.levels

theorem gateKind_levels_length (k : GateKind) : k.levels.length = k.numJobs := by cases k <;> rfl

omit [DecidableEq F] in
theorem gatesSteps_levels (c : Codec F) (ctx : Ctx F) (lead : ProtocolID → Nat) (keyLen : Nat) (deps : List Nat)
    (gins : Nat → Env (GOut F) → Option (List (GateIn F))) (lvl : Nat → Nat) (hd : ∀ d ∈ deps, lvl d = 5) (gs : List (GateKind × GateTapes F)) :
    ∀ (off gid : Nat), (gs ≠ [] → deps ≠ []) → (∀ i < (gs.flatMap fun g => g.1.levels).length, lvl (off + i) = (gs.flatMap fun g => g.1.levels).getD i 0) →
      (gatesSteps c ctx lead keyLen deps gins off gid gs).length = (gs.flatMap fun g => g.1.levels).length ∧
      ∀ (i : Nat) (st : GStep F), (gatesSteps c ctx lead keyLen deps gins off gid gs)[i]? = some st → ∀ id,
        (st.proto id).leader ≠ none ∧ LevelAt lvl st.deps 2 (lvl (off + i)) := by
  induction gs with
  | nil => exact fun off gid _ _ => ⟨rfl, by simp [gatesSteps]⟩
  | cons g gs ih =>
    intro off gid hne hl
    have hne' := hne (by simp)
    obtain ⟨kind, tp⟩ := g
    have hlk := gateKind_levels_length kind
    simp only [List.flatMap_cons, List.length_append] at hl ⊢
    obtain ⟨i1, i2⟩ := ih (off + kind.numJobs) (gid + 1) (fun _ => hne') (fun i hi => by
      rw [Nat.add_assoc, hl _ (by omega), List.getD_append_right _ _ _ _ (by omega), hlk, Nat.add_sub_cancel_left])
    unfold gatesSteps
    refine ⟨?_, fun i st hst id => ?_⟩
    · rw [List.length_append, i1]
      cases kind <;> rfl
    · by_cases hi : i < kind.numJobs
      · rw [List.getElem?_append_left (by cases kind <;> exact hi)] at hst
        have hli := hl i (by omega)
        rw [List.getD_append _ _ _ _ (by omega)] at hli
        rw [hli]
        cases kind with
        | and =>
          have h0 := hl 0 (by rw [hlk]; show 0 < 2 + _; omega)
          rw [List.getD_append _ _ _ _ (by simp [GateKind.levels])] at h0
          obtain rfl | rfl : i = 0 ∨ i = 1 := by
            have : i < 2 := hi
            omega
          · cases hst
            exact ⟨by simp [multProto, rdProto], LevelAt.const hd hne'⟩
          · cases hst
            refine ⟨by simp [multProto, rdProto], ⟨by decide, fun d hdm => ?_⟩, Or.inr ⟨off, List.mem_cons_self, ?_⟩⟩
            · rcases List.mem_cons.1 hdm with rfl | hdm
              · rw [← Nat.add_zero d, h0]
                decide
              · rw [hd d hdm]
                decide
            · rw [← Nat.add_zero off, h0]
              decide
        | xor =>
          obtain rfl : i = 0 := by
            have : i < 1 := hi
            omega
          cases hst
          exact ⟨by simp [multProto, rdProto], LevelAt.const hd hne'⟩
        | inv =>
          obtain rfl : i = 0 := by
            have : i < 1 := hi
            omega
          cases hst
          exact ⟨by simp [multProto, rdProto], LevelAt.const hd hne'⟩
      · have hlen : (gateSteps c ctx lead keyLen deps (fun p env => (gins p env).bind fun l => l[gid]?) off tp kind).length = kind.numJobs := by
          cases kind <;> rfl
        rw [List.getElem?_append_right (by omega), hlen] at hst
        have := i2 _ st hst id
        rwa [show off + kind.numJobs + (i - kind.numJobs) = off + i by omega] at this

theorem getD_replicate_lt {m j v : Nat} {l : List Nat} (h : j < m) : (List.replicate m v ++ l).getD j 0 = v := by
  rw [List.getD_append _ _ _ _ (by simpa using h), List.getD_eq_getElem?_getD, List.getElem?_replicate, if_pos h]
  rfl

/-- The levels of the steps of `garble`. -/
theorem garbleSteps_levels (c : Codec F) (ctx : Ctx F) (g : GarbleCtx F) (lead : ProtocolID → Nat) (tp : GarbleTapes F)
    (pre : List (PreProc F)) (go gi : List (List (SharingTransform F))) (hgo : go = [] → g.tfOut = []) (hout : g.tfOut = [] → g.tfInp = [])
    (hlo : g.tfOut.length ≤ tp.out.length) (hli : g.tfInp.length ≤ tp.inp.length) (hlg : g.circ.gates.length ≤ tp.gates.length)
    (hinp : g.tfInp = [] → g.circ.gates = []) :
    let lvls := garbleLevels (go.length + gi.length) g.tfOut.length g.tfInp.length (g.circ.gates.map PackedGate.kind)
    (garbleSteps c ctx g lead tp pre go gi).length = lvls.length ∧
    ∀ (j : Nat) (st : GStep F), (garbleSteps c ctx g lead tp pre go gi)[j]? = some st → ∀ id,
      LevelAt (fun j => lvls.getD j 0) st.deps (if (st.proto id).leader = none then 1 else 2) (lvls.getD j 0) := by
  intro lvls
  have hzip : (((g.circ.gates.map PackedGate.kind).zip tp.gates).flatMap fun g => g.1.levels)
      = (g.circ.gates.map PackedGate.kind).flatMap GateKind.levels := by
    rw [← List.flatMap_map Prod.fst GateKind.levels, List.map_fst_zip (by simpa using hlg)]
  have l1 : ∀ j < go.length + gi.length, lvls.getD j 0 = 1 := by
    intro j hj
    show (garbleLevels _ _ _ _).getD j 0 = 1
    unfold garbleLevels
    rw [List.append_assoc, List.append_assoc, getD_replicate_lt hj]
  have l2 : ∀ i < g.tfOut.length, lvls.getD (go.length + gi.length + i) 0 = 3 := by
    intro i hi
    show (garbleLevels _ _ _ _).getD _ 0 = 3
    unfold garbleLevels
    rw [List.append_assoc, List.append_assoc, List.getD_append_right _ _ _ _ (by simp), List.length_replicate, Nat.add_sub_cancel_left,
      getD_replicate_lt hi]
  have l3 : ∀ i < g.tfInp.length, lvls.getD (go.length + gi.length + g.tfOut.length + i) 0 = 5 := by
    intro i hi
    show (garbleLevels _ _ _ _).getD _ 0 = 5
    unfold garbleLevels
    rw [List.append_assoc, List.getD_append_right _ _ _ _ (by simp), List.length_append, List.length_replicate, List.length_replicate,
      Nat.add_sub_cancel_left, getD_replicate_lt hi]
  have l4 : ∀ i, lvls.getD (go.length + gi.length + g.tfOut.length + g.tfInp.length + i) 0
      = (((g.circ.gates.map PackedGate.kind).zip tp.gates).flatMap fun g => g.1.levels).getD i 0 := by
    intro i
    rw [hzip]
    show (garbleLevels _ _ _ _).getD _ 0 = _
    unfold garbleLevels
    rw [List.getD_append_right _ _ _ _ (by simp; omega), List.length_append, List.length_append, List.length_replicate, List.length_replicate,
      List.length_replicate, Nat.add_sub_cancel_left]
  obtain ⟨g1, g2⟩ := gatesSteps_levels c ctx lead g.lpn.keyLen
    ((List.range g.tfInp.length).map (go.length + gi.length + g.tfOut.length + ·))
    (fun p env => (pre[p]?).bind fun pr => gatesIn ctx g p pr (go.length + gi.length + g.tfOut.length) env) (fun j => lvls.getD j 0)
    (fun d hd => by
      obtain ⟨i, hi, rfl⟩ := List.mem_map.1 hd
      exact l3 i (List.mem_range.1 hi)) ((g.circ.gates.map PackedGate.kind).zip tp.gates)
    (go.length + gi.length + g.tfOut.length + g.tfInp.length) 0
    (fun hne h0 => by
      have h0 : g.tfInp.length = 0 := by simpa using h0
      rw [List.length_eq_zero_iff] at h0
      rw [hinp h0] at hne
      exact hne rfl)
    (fun i _ => l4 i)
  have z1 : (g.tfOut.zip tp.out).zipIdx.length = g.tfOut.length := by simp; omega
  have z2 : (g.tfInp.zip tp.inp).zipIdx.length = g.tfInp.length := by simp; omega
  constructor
  · show _ = (garbleLevels _ _ _ _).length
    unfold garbleSteps garbleLevels
    rw [hzip] at g1
    simp only [List.length_append, List.length_map, List.length_zipIdx, List.length_replicate, List.length_zip]
    rw [List.length_zipIdx, List.length_zip] at z1 z2
    rw [z1, z2, g1]
  · intro j st hst id
    unfold garbleSteps at hst
    by_cases h4 : go.length + gi.length + g.tfOut.length + g.tfInp.length ≤ j
    · rw [List.getElem?_append_right (by simp only [List.length_append, List.length_map, z1, z2]; simp; omega)] at hst
      have := g2 _ st hst id
      simp only [List.length_append, List.length_map, z1, z2] at this
      simp only [List.length_zipIdx] at this
      rw [if_neg this.1]
      rw [show go.length + gi.length + g.tfOut.length + g.tfInp.length + (j - (go.length + gi.length + g.tfOut.length + g.tfInp.length)) = j by
        omega] at this
      exact this.2
    rw [List.getElem?_append_left (by simp only [List.length_append, List.length_map, z1, z2]; simp; omega)] at hst
    by_cases h3 : go.length + gi.length + g.tfOut.length ≤ j
    · rw [List.getElem?_append_right (by simp only [List.length_append, List.length_map, z1]; simp; omega)] at hst
      rw [List.getElem?_map] at hst
      obtain ⟨a, _, rfl⟩ := Option.map_eq_some_iff.1 hst
      have hv : lvls.getD j 0 = 5 := by
        have := l3 (j - (go.length + gi.length + g.tfOut.length)) (by omega)
        rwa [show go.length + gi.length + g.tfOut.length + (j - (go.length + gi.length + g.tfOut.length)) = j by omega] at this
      simp only [transProto, reduceCtorEq, if_false]
      rw [hv]
      have hto : 0 < g.tfOut.length := by
        rw [List.length_pos_iff]
        intro h0
        have := hout h0
        rw [this] at h4
        simp at h4
        omega
      refine ⟨⟨by decide, fun d hd => ?_⟩, Or.inr ⟨go.length + (gi.length + 0), ?_, ?_⟩⟩
      · obtain ⟨i, hi, rfl⟩ := List.mem_map.1 hd
        rw [List.mem_range] at hi
        by_cases hgi : i < gi.length
        · simp only [l1 (go.length + i) (by omega)]
          decide
        · have := l2 (i - gi.length) (by omega)
          rw [show go.length + gi.length + (i - gi.length) = go.length + i by omega] at this
          simp only [this]
          decide
      · exact List.mem_map.2 ⟨gi.length + 0, List.mem_range.2 (by omega), rfl⟩
      · have := l2 0 hto
        rw [Nat.add_assoc] at this
        simp only [this]
        decide
    rw [List.getElem?_append_left (by simp only [List.length_append, List.length_map, z1]; simp; omega)] at hst
    by_cases h2 : go.length + gi.length ≤ j
    · rw [List.getElem?_append_right (by simp only [List.length_append, List.length_map]; simp; omega)] at hst
      rw [List.getElem?_map] at hst
      obtain ⟨a, _, rfl⟩ := Option.map_eq_some_iff.1 hst
      have hv : lvls.getD j 0 = 3 := by
        have := l2 (j - (go.length + gi.length)) (by omega)
        rwa [show go.length + gi.length + (j - (go.length + gi.length)) = j by omega] at this
      simp only [transProto, reduceCtorEq, if_false]
      rw [hv]
      refine LevelAt.const (v := 1) (fun d hd => l1 d (by have := List.mem_range.1 hd; omega)) ?_
      intro h0
      rw [List.range_eq_nil, List.length_eq_zero_iff] at h0
      have := hgo h0
      rw [this] at h3
      simp at h3
      omega
    rw [List.getElem?_append_left (by simp only [List.length_append, List.length_map]; simp; omega)] at hst
    have hv := l1 j (by omega)
    rw [hv]
    by_cases h1 : go.length ≤ j
    · rw [List.getElem?_append_right (by simpa using h1)] at hst
      rw [List.getElem?_map] at hst
      obtain ⟨a, _, rfl⟩ := Option.map_eq_some_iff.1 hst
      exact LevelAt.first
    · rw [List.getElem?_append_left (by simpa using h1)] at hst
      rw [List.getElem?_map] at hst
      obtain ⟨a, _, rfl⟩ := Option.map_eq_some_iff.1 hst
      exact LevelAt.first

omit [DecidableEq F] in
theorem gatesSteps_length (c : Codec F) (ctx : Ctx F) (lead : ProtocolID → Nat) (keyLen : Nat) (deps : List Nat)
    (gins : Nat → Env (GOut F) → Option (List (GateIn F))) (gs : List (GateKind × GateTapes F)) (off gid : Nat) :
    (gatesSteps c ctx lead keyLen deps gins off gid gs).length = (gs.map fun x => x.1.numJobs).sum := by
  induction gs generalizing off gid with
  | nil => rfl
  | cons g gs ih =>
    obtain ⟨kind, tp⟩ := g
    unfold gatesSteps
    rw [List.length_append, ih, List.map_cons, List.sum_cons]
    cases kind <;> rfl

theorem zip_numJobs {α : Type} (ks : List GateKind) (ts : List α) :
    ((ks.zip ts).map fun x => x.1.numJobs).sum ≤ (ks.map GateKind.numJobs).sum ∧
      ((ks.map GateKind.numJobs).sum ≤ ((ks.zip ts).map fun x => x.1.numJobs).sum → ks.length ≤ ts.length) := by
  induction ks generalizing ts with
  | nil => simp
  | cons k ks ih =>
    cases ts with
    | nil =>
      refine ⟨Nat.zero_le _, fun h => ?_⟩
      have : 0 < k.numJobs := by cases k <;> decide
      rw [List.zip_nil_right, List.map_nil, List.sum_nil, List.map_cons, List.sum_cons] at h
      omega
    | cons t ts =>
      obtain ⟨h1, h2⟩ := ih ts
      simp only [List.zip_cons_cons, List.map_cons, List.sum_cons, List.length_cons]
      exact ⟨by omega, fun h => by have := h2 (by omega); omega⟩

/-- The levels of the jobs of `garble`. -/
theorem garbleJobs_levels {c : Codec F} {ctx : Ctx F} {g : GarbleCtx F} {lead : ProtocolID → Nat} {tp : GarbleTapes F}
    {pre : List (PreProc F)} {id : ProtocolID} {ids : List ProtocolID} {jobs : List (Job (GOut F))}
    (hids : garbleIdsOf id g.circ.inputs.length ctx.l (g.circ.gates.map PackedGate.kind) = some ids)
    (h : garbleJobs c ctx g lead tp pre id = some jobs) (hjobs : jobs.map (·.id) = ids)
    (m3 : g.tfOut.length = g.circ.inputs.length + (g.circ.gates.map PackedGate.kind).length)
    (m4 : g.tfInp.length = ((g.circ.gates.map PackedGate.kind).map GateKind.arity).sum) :
    ∃ a, (a = 0 ↔ g.tfOut = []) ∧
      jobs.length = (garbleLevels a g.tfOut.length g.tfInp.length (g.circ.gates.map PackedGate.kind)).length ∧
      Levels jobs (fun j => (garbleLevels a g.tfOut.length g.tfInp.length (g.circ.gates.map PackedGate.kind)).getD j 0) ∧
      LowLevels jobs (fun j => (garbleLevels a g.tfOut.length g.tfInp.length (g.circ.gates.map PackedGate.kind)).getD j 0) := by
  have hlen := garbleIdsOf_length hids
  unfold garbleJobs at h
  rw [hids, Option.bind_some] at h
  obtain ⟨go, hgo, h⟩ := Option.bind_eq_some_iff.1 h
  obtain ⟨gi, hgi, rfl⟩ := Option.map_eq_some_iff.1 h
  unfold chunks? at hgo hgi
  have hl0 : ctx.l ≠ 0 := by
    intro h0
    rw [if_pos h0] at hgo
    cases hgo
  rw [if_neg hl0, Option.some.injEq] at hgo hgi
  have hgol : go.length = (g.tfOut.length + ctx.l - 1) / ctx.l := by rw [← hgo, chunks_length _ _ hl0]
  have hgil : gi.length = (g.tfInp.length + ctx.l - 1) / ctx.l := by rw [← hgi, chunks_length _ _ hl0]
  have hge : ids.length ≤ (garbleSteps c ctx g lead tp pre go gi).length := by
    have := congrArg List.length hjobs
    rw [List.length_map, List.length_map, List.length_zip] at this
    omega
  have hstl : (garbleSteps c ctx g lead tp pre go gi).length = go.length + gi.length + min g.tfOut.length tp.out.length +
      min g.tfInp.length tp.inp.length + (((g.circ.gates.map PackedGate.kind).zip tp.gates).map fun x => x.1.numJobs).sum := by
    unfold garbleSteps
    simp only [List.length_append, List.length_map, List.length_zipIdx, List.length_zip, gatesSteps_length]
  obtain ⟨z1, z2⟩ := zip_numJobs (g.circ.gates.map PackedGate.kind) tp.gates
  rw [← m3, ← m4, ← hgol, ← hgil] at hlen
  have hlg := z2 (by omega)
  rw [List.length_map] at hlg
  have hgo0 : go = [] → g.tfOut = [] := by
    intro h0
    rw [h0, List.length_nil] at hgol
    rw [← List.length_eq_zero_iff]
    by_contra hne
    have := Nat.div_pos (show ctx.l ≤ g.tfOut.length + ctx.l - 1 by omega) (Nat.pos_of_ne_zero hl0)
    omega
  have harity : g.tfInp = [] → g.circ.gates = [] := by
    intro h0
    rw [h0, List.length_nil] at m4
    cases hg : g.circ.gates with
    | nil => rfl
    | cons a l =>
      rw [hg, List.map_cons, List.map_cons, List.sum_cons] at m4
      have : 0 < a.kind.arity := by cases a <;> exact Nat.zero_lt_succ _
      omega
  obtain ⟨s1, s2⟩ := garbleSteps_levels c ctx g lead tp pre go gi hgo0
    (fun h0 => by
      rw [h0, List.length_nil] at m3
      have : g.circ.gates.map PackedGate.kind = [] := List.length_eq_zero_iff.1 (by omega)
      rw [this] at m4
      exact List.length_eq_zero_iff.1 m4) (by omega) (by omega) hlg harity
  have hinp0 : g.tfOut = [] → g.tfInp = [] := by
    intro h0
    rw [h0, List.length_nil] at m3
    have : g.circ.gates.map PackedGate.kind = [] := List.length_eq_zero_iff.1 (by omega)
    rw [this] at m4
    exact List.length_eq_zero_iff.1 m4
  refine ⟨go.length + gi.length, ⟨fun h0 => hgo0 (List.length_eq_zero_iff.1 (by omega)), fun h0 => ?_⟩, ?_, ?_⟩
  · rw [hgol, hgil, hinp0 h0, h0, List.length_nil, Nat.zero_add, Nat.div_eq_of_lt (by omega)]
  · rw [← s1]
    have := congrArg List.length hjobs
    rw [List.length_map] at this
    omega
  · refine levels_of_levelAt fun j job hj => ?_
    rw [List.getElem?_map] at hj
    obtain ⟨st, hst, rfl⟩ := Option.map_eq_some_iff.1 hj
    rw [List.getElem?_zip_eq_some] at hst
    exact s2 j st.2 hst.2 st.1

/-- The highest level. -/
theorem garbleLevels_max (a i b : Nat) (kinds : List GateKind) (ha : a = 0 ↔ b + kinds.length = 0)
    (hi : i = (kinds.map GateKind.arity).sum) :
    (∀ v ∈ garbleLevels a (b + kinds.length) i kinds, v ≤ garbleRoundsOf b kinds) ∧
      (garbleRoundsOf b kinds = 0 ∨ garbleRoundsOf b kinds ∈ garbleLevels a (b + kinds.length) i kinds) := by
  have hk : ∀ k : GateKind, 7 ∈ k.levels := by
    intro k
    cases k <;> decide
  unfold garbleLevels garbleRoundsOf
  by_cases h9 : GateKind.and ∈ kinds
  · rw [if_pos h9]
    refine ⟨fun v hv => ?_, Or.inr (List.mem_append_right _ (List.mem_flatMap.2 ⟨_, h9, by decide⟩))⟩
    simp only [List.mem_append, List.mem_replicate, List.mem_flatMap] at hv
    rcases hv with ((⟨_, rfl⟩ | ⟨_, rfl⟩) | ⟨_, rfl⟩) | ⟨k, _, hv⟩
    · decide
    · decide
    · decide
    · cases k <;> simp [GateKind.levels] at hv <;> omega
  rw [if_neg h9]
  by_cases h7 : kinds ≠ []
  · rw [if_pos h7]
    refine ⟨fun v hv => ?_, Or.inr ?_⟩
    · simp only [List.mem_append, List.mem_replicate, List.mem_flatMap] at hv
      rcases hv with ((⟨_, rfl⟩ | ⟨_, rfl⟩) | ⟨_, rfl⟩) | ⟨k, hkm, hv⟩
      · decide
      · decide
      · decide
      · cases k with
        | and => exact absurd hkm h9
        | xor => simp [GateKind.levels] at hv; omega
        | inv => simp [GateKind.levels] at hv; omega
    · obtain ⟨k, hkm⟩ := List.exists_mem_of_ne_nil _ h7
      exact List.mem_append_right _ (List.mem_flatMap.2 ⟨k, hkm, hk k⟩)
  rw [if_neg h7]
  rw [not_not] at h7
  subst h7
  rw [List.map_nil, List.sum_nil] at hi
  subst hi
  simp only [List.length_nil, Nat.add_zero, List.flatMap_nil, List.append_nil, List.replicate_zero] at ha ⊢
  by_cases hb : b ≠ 0
  · rw [if_pos hb]
    refine ⟨fun v hv => ?_, Or.inr (List.mem_append_right _ (List.mem_replicate.2 ⟨hb, rfl⟩))⟩
    simp only [List.mem_append, List.mem_replicate] at hv
    omega
  · rw [if_neg hb]
    refine ⟨fun v hv => ?_, Or.inl rfl⟩
    simp only [List.mem_append, List.mem_replicate] at hv
    omega

/-! ### `preproc` -/

/-- The levels of the jobs of `preproc`. -/
def preprocLevel (j : Nat) : Nat := if j < 3 then 1 else if j % 2 = 1 then 3 else 5

omit [DecidableEq F] in
theorem flatMap_errJobs_get (c : Codec F) (ctx : Ctx F) (desc : PreProcCount) (es : List (ErrTapes F)) (k : Nat) (i : Nat)
    (st : List Nat × Proto (List F)) (h : ((es.zipIdx k).flatMap fun e => errJobs c ctx desc e.2 e.1)[i]? = some st) :
    st.2.leader ≠ none ∧ st.1 = if i % 2 = 0 then [0, 1, 2] else [0, 1, 2, 3 + 2 * (k + i / 2)] := by
  induction es generalizing k i with
  | nil => simp at h
  | cons e es ih =>
    rw [List.zipIdx_cons, List.flatMap_cons] at h
    by_cases hi : i < 2
    · rw [List.getElem?_append_left (by exact hi)] at h
      obtain rfl | rfl : i = 0 ∨ i = 1 := by omega
      · cases h
        exact ⟨by simp [multProto, rdProto], rfl⟩
      · cases h
        exact ⟨by simp [multProto, rdProto], by simp⟩
    · rw [List.getElem?_append_right (by simp [errJobs]; omega)] at h
      obtain ⟨h1, h2⟩ := ih (k + 1) _ h
      refine ⟨h1, ?_⟩
      rw [h2]
      simp only [errJobs, List.length_cons, List.length_nil]
      rw [show (i - (0 + 1 + 1)) % 2 = i % 2 by omega, show k + 1 + (i - (0 + 1 + 1)) / 2 = k + i / 2 by omega]

omit [DecidableEq F] in
theorem preprocJobs_levels {c : Codec F} {ctx : Ctx F} {m mb : Mat F} {desc : PreProcCount} {tp : PreTapes F} {id : ProtocolID}
    {jobs : List (Job (List F))} (h : preprocJobs c ctx m mb desc tp id = some jobs) :
    Levels jobs preprocLevel ∧ LowLevels jobs preprocLevel := by
  unfold preprocJobs at h
  obtain ⟨ids, _, h⟩ := Option.bind_eq_some_iff.1 h
  obtain ⟨br, _, h⟩ := Option.bind_eq_some_iff.1 h
  obtain ⟨bz, _, h⟩ := Option.bind_eq_some_iff.1 h
  obtain ⟨bb, _, rfl⟩ := Option.map_eq_some_iff.1 h
  refine levels_of_levelAt fun j job hj => ?_
  rw [List.getElem?_map] at hj
  obtain ⟨st, hst, rfl⟩ := Option.map_eq_some_iff.1 hj
  rw [List.getElem?_zip_eq_some] at hst
  obtain ⟨_, hst⟩ := hst
  obtain ⟨id', deps, proto⟩ := st
  simp only [Job.cost] at hst ⊢
  by_cases h3 : j < 3
  · rw [List.getElem?_append_left (by exact h3)] at hst
    have hv : preprocLevel j = 1 := by
      unfold preprocLevel
      rw [if_pos h3]
    rw [hv]
    obtain rfl | rfl | rfl : j = 0 ∨ j = 1 ∨ j = 2 := by omega
    all_goals
      cases hst
      exact LevelAt.first
  · rw [List.getElem?_append_right (by simp; omega)] at hst
    obtain ⟨h1, h2⟩ := flatMap_errJobs_get c ctx desc tp.errs 0 _ _ hst
    simp only [] at h1 h2
    rw [if_neg h1, h2]
    simp only [List.length_cons, List.length_nil]
    by_cases hp : j % 2 = 1
    · rw [if_pos (by omega)]
      have hv : preprocLevel j = 1 + 2 := by
        unfold preprocLevel
        rw [if_neg h3, if_pos hp]
      rw [hv]
      refine LevelAt.const (fun d hd => ?_) (by simp)
      have hd3 : d < 3 := by
        simp at hd
        omega
      unfold preprocLevel
      rw [if_pos hd3]
    · rw [if_neg (by omega)]
      have hv : preprocLevel j = 5 := by
        unfold preprocLevel
        rw [if_neg h3, if_neg hp]
      have hlast : preprocLevel (3 + 2 * (0 + (j - (0 + 1 + 1 + 1)) / 2)) = 3 := by
        unfold preprocLevel
        rw [if_neg (by omega), if_pos (by omega)]
      rw [hv]
      refine ⟨⟨by decide, fun d hd => ?_⟩, Or.inr ⟨_, List.mem_append_right [0, 1, 2] (List.mem_singleton_self _), by rw [hlast]⟩⟩
      rcases List.mem_append.1 (show d ∈ [0, 1, 2] ++ [3 + 2 * (0 + (j - (0 + 1 + 1 + 1)) / 2)] from hd) with hd | hd
      · have hd3 : d < 3 := by
          simp at hd
          omega
        unfold preprocLevel
        rw [if_pos hd3]
        decide
      · rw [List.mem_singleton.1 hd, hlast]

end Verif
