import Verif.PrivacyJobs

/-!
# Which coins go where

The slices of the random and zero sharings which the protocols of `garble` get.
-/

open Polynomial

namespace Verif

variable {F : Type} [CodeField F] [DecidableEq F]

/-! ## Random transformations -/

omit [DecidableEq F] in
theorem rtSlices_get {ctx : Ctx F} {reps k : Nat} {r z : List F} {sl : List (List F × List F)}
    (h : rtSlices ctx reps k r z = some sl) : ∀ u < k,
      sl[u]? = some ((r.drop (u * ((ctx.n + ctx.t) * reps))).take ((ctx.n + ctx.t) * reps),
        (z.drop (u * (2 * ctx.n * reps))).take (2 * ctx.n * reps)) := by
  induction k generalizing r z sl with
  | zero => intro u hu; omega
  | succ k ih =>
    unfold rtSlices at h
    obtain ⟨⟨r1, r2⟩, h1, h⟩ := Option.bind_eq_some_iff.1 h
    obtain ⟨⟨z1, z2⟩, h2, h⟩ := Option.bind_eq_some_iff.1 h
    obtain ⟨more, h3, rfl⟩ := Option.map_eq_some_iff.1 h
    unfold drain at h1 h2
    split at h1
    · split at h2
      · simp only [Option.some.injEq, Prod.mk.injEq] at h1 h2
        obtain ⟨rfl, rfl⟩ := h1
        obtain ⟨rfl, rfl⟩ := h2
        intro u hu
        cases u with
        | zero => simp
        | succ u =>
          rw [List.getElem?_cons_succ, ih h3 u (by omega), List.drop_drop, List.drop_drop]
          congr 3 <;> congr 1 <;> ring
      · cases h2
    · cases h1

theorem take_drop_take {α : Type} (l : List α) (N o k : Nat) (h : o + k ≤ N) : ((l.take N).drop o).take k = (l.drop o).take k := by
  rw [List.drop_take, List.take_take, Nat.min_eq_left (by omega)]

omit [DecidableEq F] in
theorem rtMaterial_get {ctx : Ctx F} {tfs : List (SharingTransform F)} {reps : Nat} {r z r' z' : List F}
    {sl : List (List F × List F)} (h : rtMaterial ctx tfs reps r z = some (sl, r', z')) :
    (∀ u < (tfs.length + ctx.l - 1) / ctx.l,
      sl[u]? = some ((r.drop (u * ((ctx.n + ctx.t) * reps))).take ((ctx.n + ctx.t) * reps),
        (z.drop (u * (2 * ctx.n * reps))).take (2 * ctx.n * reps))) ∧
    r' = r.drop ((tfs.length + ctx.l - 1) / ctx.l * ((ctx.n + ctx.t) * reps)) ∧
    z' = z.drop ((tfs.length + ctx.l - 1) / ctx.l * (2 * ctx.n * reps)) ∧
    (tfs.length + ctx.l - 1) / ctx.l * ((ctx.n + ctx.t) * reps) ≤ r.length ∧
    (tfs.length + ctx.l - 1) / ctx.l * (2 * ctx.n * reps) ≤ z.length := by
  unfold rtMaterial at h
  obtain ⟨num, h0, h⟩ := Option.bind_eq_some_iff.1 h
  obtain ⟨⟨r1, r2⟩, h1, h⟩ := Option.bind_eq_some_iff.1 h
  obtain ⟨⟨z1, z2⟩, h2, h⟩ := Option.bind_eq_some_iff.1 h
  obtain ⟨sl', h3, h⟩ := Option.map_eq_some_iff.1 h
  simp only [Prod.mk.injEq] at h
  obtain ⟨rfl, rfl, rfl⟩ := h
  unfold numBatches at h0
  split at h0
  · cases h0
  · rw [Option.some.injEq] at h0
    rw [h0]
    have e1 : num * reps * (ctx.n + ctx.t) = num * ((ctx.n + ctx.t) * reps) := by ring
    have e2 : num * reps * 2 * ctx.n = num * (2 * ctx.n * reps) := by ring
    unfold drain at h1 h2
    split at h1
    · split at h2
      · simp only [Option.some.injEq, Prod.mk.injEq] at h1 h2
        obtain ⟨rfl, rfl⟩ := h1
        obtain ⟨rfl, rfl⟩ := h2
        refine ⟨fun u hu => ?_, by rw [e1], by rw [e2], by omega, by omega⟩
        rw [rtSlices_get h3 u hu, take_drop_take, take_drop_take]
        · rw [e2]
          calc _ = (u + 1) * (2 * ctx.n * reps) := by ring
            _ ≤ _ := Nat.mul_le_mul_right _ hu
        · rw [e1]
          calc _ = (u + 1) * ((ctx.n + ctx.t) * reps) := by ring
            _ ≤ _ := Nat.mul_le_mul_right _ hu
      · cases h2
    · cases h1

/-- Number of groups of `l` transformations. -/
abbrev numGroups (l len : Nat) : Nat := (len + l - 1) / l

omit [DecidableEq F] in
theorem garbleMaterial_get {ctx : Ctx F} {g : GarbleCtx F} {pre : PreProc F}
    {so si : List (List F × List F)} {r z : List F} (h : garbleMaterial ctx g pre = some (so, si, r, z)) :
    let A := (ctx.n + ctx.t) * (2 * g.lpn.keyLen + 1)
    let B := 2 * ctx.n * (2 * g.lpn.keyLen + 1)
    let ro := numGroups ctx.l g.tfOut.length
    let ri := numGroups ctx.l g.tfInp.length
    (∀ u < ro, so[u]? = some ((pre.randoms.drop (u * A)).take A, (pre.zeros.drop (u * B)).take B)) ∧
    (∀ u < ri, si[u]? = some ((pre.randoms.drop ((ro + u) * A)).take A, (pre.zeros.drop ((ro + u) * B)).take B)) ∧
    r = pre.randoms.drop ((ro + ri) * A) ∧ z = pre.zeros.drop ((ro + ri) * B) ∧
    (ro + ri) * A ≤ pre.randoms.length ∧ (ro + ri) * B ≤ pre.zeros.length := by
  intro A B ro ri
  unfold garbleMaterial at h
  obtain ⟨⟨s1, r1, z1⟩, h1, h⟩ := Option.bind_eq_some_iff.1 h
  obtain ⟨⟨s2, r2, z2⟩, h2, h⟩ := Option.map_eq_some_iff.1 h
  simp only [Prod.mk.injEq] at h
  obtain ⟨rfl, rfl, rfl, rfl⟩ := h
  obtain ⟨a1, rfl, rfl, a4, a5⟩ := rtMaterial_get h1
  obtain ⟨b1, rfl, rfl, b4, b5⟩ := rtMaterial_get h2
  simp only [List.drop_drop, List.length_drop] at b1 b4 b5 ⊢
  have e : ∀ u x, (ro + u) * x = ro * x + u * x := fun u x => by ring
  refine ⟨a1, fun u hu => ?_, ?_, ?_, ?_, ?_⟩
  · rw [b1 u hu, e, e]
  · rw [e]
  · rw [e]
  · rw [e]
    exact (Nat.le_sub_iff_add_le' a4).1 b4
  · rw [e]
    exact (Nat.le_sub_iff_add_le' a5).1 b5

theorem tab_slice {α : Type} (f : Nat → α) {nr o k : Nat} (h : o + k ≤ nr) :
    (((List.range nr).map f).drop o).take k = (List.range k).map fun m => f (o + m) := by
  apply List.ext_getElem
  · simp; omega
  · intro i h1 h2
    simp

/-! ## Results of the random transformations -/

omit [CodeField F] [DecidableEq F] in
theorem rtCollect_get {l reps : Nat} (hl : 0 < l) {os : List (List (List F) × List (List F))} {rem : Nat}
    (hos : ∀ o ∈ os, o.1.length = l ∧ o.2.length = l) (hlen : os.length = numGroups l rem)
    {rr : List (List F) × List (List F)} (h : rtCollect l reps rem os = some rr) : ∀ i < rem,
      rr.1[i]? = (os[i / l]?).bind (fun o => o.1[i % l]?) ∧ rr.2[i]? = (os[i / l]?).bind fun o => o.2[i % l]? := by
  induction os generalizing rem rr with
  | nil =>
    intro i hi
    exfalso
    unfold numGroups at hlen
    have : 1 ≤ (rem + l - 1) / l := (Nat.one_le_div_iff hl).2 (by omega)
    rw [← hlen] at this
    simp at this
  | cons o os ih =>
    unfold rtCollect at h
    obtain ⟨m, h1, h⟩ := Option.bind_eq_some_iff.1 h
    split at h
    · have ho := hos o (by simp)
      have hlen' : os.length = numGroups l (rem - l) := by
        unfold numGroups at hlen ⊢
        rw [List.length_cons] at hlen
        by_cases hr : rem ≤ l
        · have : (rem + l - 1) / l ≤ 1 := by
            have : (rem + l - 1) / l < 2 := (Nat.div_lt_iff_lt_mul hl).2 (by omega)
            omega
          have h0 : (rem - l + l - 1) / l = 0 := Nat.div_eq_of_lt (by omega)
          omega
        · have : rem + l - 1 = (rem - l + l - 1) + l := by omega
          rw [this, Nat.add_div_right _ hl] at hlen
          omega
      have ih' := ih (fun o ho => hos o (by simp [ho])) hlen' h1
      intro i hi
      by_cases hil : i < l
      · rw [Nat.div_eq_of_lt hil, Nat.mod_eq_of_lt hil, List.getElem?_cons_zero, Option.bind_some, Option.bind_some]
        split at h
        · rw [Option.some.injEq] at h
          subst h
          rw [List.getElem?_append_left (by simp; omega), List.getElem?_append_left (by simp; omega),
            List.getElem?_take_of_lt (by omega), List.getElem?_take_of_lt (by omega)]
          exact ⟨rfl, rfl⟩
        · rw [Option.some.injEq] at h
          subst h
          rw [List.getElem?_append_left (by omega), List.getElem?_append_left (by omega)]
          exact ⟨rfl, rfl⟩
      · have hne : os ≠ [] := by
          intro h0
          subst h0
          unfold numGroups at hlen'
          have : 1 ≤ (rem - l + l - 1) / l := (Nat.one_le_div_iff hl).2 (by omega)
          rw [← hlen'] at this
          simp at this
        rw [if_neg hne, Option.some.injEq] at h
        subst h
        obtain ⟨i', rfl⟩ : ∃ i', i = i' + l := ⟨i - l, by omega⟩
        rw [Nat.add_div_right _ hl, Nat.add_mod_right, List.getElem?_cons_succ,
          List.getElem?_append_right (by omega), List.getElem?_append_right (by omega), ho.1, ho.2, Nat.add_sub_cancel]
        exact ih' i' (by omega)
    · cases h

omit [CodeField F] [DecidableEq F] in
/-- Row `i` of the collected results is row `i % l` of group `i / l`. -/
theorem collect_get {l reps off len : Nat} (hl : 0 < l) {env : Env (GOut F)} {a b : Nat → Nat → Nat → F}
    (henv : ∀ u < numGroups l len, env (off + u) = some (.rt ((List.range l).map fun k => (List.range reps).map (a u k))
      ((List.range l).map fun k => (List.range reps).map (b u k))))
    {os : List (List (List F) × List (List F))} (ho : rtResults env off (numGroups l len) = some os)
    {rr : List (List F) × List (List F)} (h : rtCollect l reps len os = some rr) {i : Nat} (hi : i < len) :
    rr.1[i]? = some ((List.range reps).map (a (i / l) (i % l))) ∧
    rr.2[i]? = some ((List.range reps).map (b (i / l) (i % l))) := by
  unfold rtResults at ho
  obtain ⟨h1, h2, h3⟩ := mapM_range_get ([], []) ho
  have hu : ∀ u < numGroups l len, os[u]? = some ((List.range l).map (fun k => (List.range reps).map (a u k)),
      (List.range l).map fun k => (List.range reps).map (b u k)) := by
    intro u hu
    have := h2 u hu
    rw [henv u hu, Option.bind_some] at this
    simp only [GOut.rt?, Option.some.injEq] at this
    rw [getD_get ([], []) (by omega), ← this]
  have hos : ∀ o ∈ os, o.1.length = l ∧ o.2.length = l := by
    intro o ho
    obtain ⟨u, hu', rfl⟩ := List.getElem_of_mem ho
    have := hu u (by omega)
    rw [List.getElem?_eq_getElem hu', Option.some.injEq] at this
    rw [this]
    simp
  have hil : i / l < numGroups l len := by
    unfold numGroups
    rw [Nat.div_lt_iff_lt_mul hl]
    have := Nat.div_add_mod (len + l - 1) l
    have h4 := Nat.mod_lt (len + l - 1) hl
    rw [Nat.mul_comm] at this
    omega
  have hml := Nat.mod_lt i hl
  obtain ⟨e1, e2⟩ := rtCollect_get hl hos h1 h i hi
  rw [e1, e2, hu _ hil, Option.bind_some, Option.bind_some]
  exact ⟨tab_get _ hml, tab_get _ hml⟩

/-! ## Gates -/

/-- Sum of the first `i` entries. -/
def preSum (s : List Nat) (i : Nat) : Nat := (s.take i).sum

theorem preSum_zero (s : List Nat) : preSum s 0 = 0 := rfl

theorem preSum_cons (x : Nat) (s : List Nat) (i : Nat) : preSum (x :: s) (i + 1) = x + preSum s i := by
  simp [preSum]

/-- Entry and offset of position `m` in the concatenation of blocks with the sizes `s`. -/
def locate : List Nat → Nat → Nat × Nat
  | [], m => (0, m)
  | x :: s, m => if m < x then (0, m) else ((locate s (m - x)).1 + 1, (locate s (m - x)).2)

theorem locate_get {s : List Nat} {i j x : Nat} (hi : s[i]? = some x) (hj : j < x) : locate s (preSum s i + j) = (i, j) := by
  induction s generalizing i with
  | nil => simp at hi
  | cons y s ih =>
    cases i with
    | zero =>
      simp only [List.getElem?_cons_zero, Option.some.injEq] at hi
      subst hi
      unfold locate
      rw [preSum_zero, Nat.zero_add, if_pos hj]
    | succ i =>
      rw [List.getElem?_cons_succ] at hi
      unfold locate
      rw [preSum_cons, if_neg (by omega), show y + preSum s i + j - y = preSum s i + j by omega, ih hi]

omit [DecidableEq F] in
theorem gateIns_get {g : GarbleCtx F} {pr : PreProc F} {mats : List (List (List (List F)))} {gid : Nat} {kinds : List GateKind}
    {rows : List (List F)} {r z e : List F} {L : List (GateIn F)} (h : gateIns g pr mats gid kinds rows r z e = some L) :
    ∀ (i : Nat) (kind : GateKind), kinds[i]? = some kind → ∃ I, L[i]? = some I ∧
      pr.masks[g.circ.inputs.length + (gid + i)]? = some I.omask ∧
      outKeys pr.keys I.omask (g.circ.inputs.length + (gid + i)) = some I.ok ∧
      I.rows = (rows.drop (preSum (kinds.map GateKind.arity) i)).take kind.arity ∧
      I.randoms = (r.drop (preSum (kinds.map (GateKind.numMult g.lpn.keyLen)) i)).take (kind.numMult g.lpn.keyLen) ∧
      I.zeros = (z.drop (preSum (kinds.map (GateKind.numMult g.lpn.keyLen)) i)).take (kind.numMult g.lpn.keyLen) ∧
      preSum (kinds.map (GateKind.numMult g.lpn.keyLen)) i + kind.numMult g.lpn.keyLen ≤ r.length ∧
      preSum (kinds.map (GateKind.numMult g.lpn.keyLen)) i + kind.numMult g.lpn.keyLen ≤ z.length := by
  induction kinds generalizing gid rows r z e L with
  | nil => intro i kind hi; simp at hi
  | cons k0 ks ih =>
    unfold gateIns at h
    obtain ⟨omask, h1, h⟩ := Option.bind_eq_some_iff.1 h
    obtain ⟨ok, h2, h⟩ := Option.bind_eq_some_iff.1 h
    obtain ⟨⟨rw1, rows1⟩, h3, h⟩ := Option.bind_eq_some_iff.1 h
    obtain ⟨⟨ra, rb⟩, h4, h⟩ := Option.bind_eq_some_iff.1 h
    obtain ⟨⟨za, zb⟩, h5, h⟩ := Option.bind_eq_some_iff.1 h
    obtain ⟨⟨ea, eb⟩, h6, h⟩ := Option.bind_eq_some_iff.1 h
    obtain ⟨idx, h7, h⟩ := Option.bind_eq_some_iff.1 h
    obtain ⟨mat, h8, h⟩ := Option.bind_eq_some_iff.1 h
    obtain ⟨more, h9, rfl⟩ := Option.map_eq_some_iff.1 h
    unfold drain at h3 h4 h5
    split at h3
    swap
    · cases h3
    split at h4
    swap
    · cases h4
    split at h5
    swap
    · cases h5
    next l3 l4 l5 =>
    simp only [Option.some.injEq, Prod.mk.injEq] at h3 h4 h5
    obtain ⟨rfl, rfl⟩ := h3
    obtain ⟨rfl, rfl⟩ := h4
    obtain ⟨rfl, rfl⟩ := h5
    intro i kind hi
    cases i with
    | zero =>
      simp only [List.getElem?_cons_zero, Option.some.injEq] at hi
      subst hi
      refine ⟨_, rfl, ?_, ?_, ?_, ?_, ?_, ?_, ?_⟩ <;> simp [preSum_zero, h1, h2, l4, l5]
    | succ i =>
      rw [List.getElem?_cons_succ] at hi
      obtain ⟨I, e1, e2, e3, e4, e5, e6, e7, e8⟩ := ih h9 i kind hi
      simp only [List.map_cons, preSum_cons]
      simp only [List.drop_drop, List.length_drop] at e4 e5 e6 e7 e8
      refine ⟨I, by rw [List.getElem?_cons_succ, e1], ?_, ?_, e4, e5, e6, by omega, by omega⟩
      · rw [← e2]; congr 1; omega
      · rw [← e3]; congr 1; omega

end Verif
