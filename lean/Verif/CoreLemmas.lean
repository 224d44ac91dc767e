import Verif.ArrayLemmas
import Verif.CoreSpec
import Verif.SharingLemmas

/-!
# Helper lemmas for the core protocols
-/

open Polynomial

namespace Verif

variable {F : Type} [CodeField F]

open CodeField (ofU32)

/-- The shares of a family of polynomials. -/
def tabShares (n num : Nat) (q : Nat → F[X]) : List (List F) :=
  (List.range n).map fun i => (List.range num).map fun j => (q j).eval (ofU32 i)

/-- The secrets of a family of polynomials. -/
def tabSecrets (pos : List F) (num : Nat) (q : Nat → F[X]) : List (List F) :=
  (List.range num).map fun j => pos.map fun x => (q j).eval x

theorem vecSharing_iff (n k : Nat) (pos : List F) (secrets shares : List (List F)) :
    VecSharing n k pos secrets shares ↔ ∃ (q : Nat → F[X]), (∀ j < secrets.length, (q j).degree < k) ∧
      shares = tabShares n secrets.length q ∧ secrets = tabSecrets pos secrets.length q := by
  constructor
  · rintro ⟨ps, hp, hs, hx⟩
    have hl : secrets.length = ps.length := by rw [hx]; simp
    refine ⟨fun j => ps.getD j 0, ?_, ?_, ?_⟩
    · intro j hj
      have hj' : j < ps.length := by omega
      simp only [List.getD_eq_getElem?_getD, hj', getElem?_pos, Option.getD_some]
      exact hp _ (List.getElem_mem hj')
    · rw [hs, hl]
      unfold tabShares
      apply List.map_congr_left
      intro i _
      rw [map_tab ps 0]
    · rw [hl, hx]
      unfold tabSecrets
      rw [map_tab ps 0]
  · rintro ⟨q, hq, hs, hx⟩
    refine ⟨(List.range secrets.length).map q, ?_, ?_, ?_⟩
    · intro p hp
      obtain ⟨j, hj, rfl⟩ := List.mem_map.1 hp
      exact hq j (List.mem_range.1 hj)
    · rw [hs]; unfold tabShares; simp [List.map_map, Function.comp_def]
    · conv_lhs => rw [hx]
      unfold tabSecrets; simp [List.map_map, Function.comp_def]

theorem vecSharing_of_tab (n k : Nat) (pos : List F) (num : Nat) (q : Nat → F[X])
    (hq : ∀ j < num, (q j).degree < k) : VecSharing n k pos (tabSecrets pos num q) (tabShares n num q) := by
  rw [vecSharing_iff]
  have : (tabSecrets pos num q).length = num := by simp [tabSecrets]
  rw [this]
  exact ⟨q, hq, rfl, rfl⟩

theorem vecZero_tab {n k : Nat} {pos : List F} {num : Nat} {shares : List (List F)}
    (h : VecZero n k pos num shares) : ∃ q : Nat → F[X], (∀ j < num, (q j).degree < k) ∧
      shares = tabShares n num q ∧ ∀ j < num, ∀ x ∈ pos, (q j).eval x = 0 := by
  unfold VecZero at h
  rw [vecSharing_iff] at h
  simp only [List.length_replicate] at h
  obtain ⟨q, hq, hs, hx⟩ := h
  refine ⟨q, hq, hs, ?_⟩
  intro j hj x hxp
  have := congrArg (fun l => l[j]?) hx
  simp only [tabSecrets, hj, List.getElem?_replicate, if_true, List.getElem?_map, List.getElem?_range,
    Option.map_some, Option.some.injEq] at this
  have h2 := List.mem_map_of_mem (f := fun x => (q j).eval x) hxp
  rw [← this] at h2
  exact (List.mem_replicate.1 h2).2

theorem tabShares_row (n num : Nat) (q : Nat → F[X]) (i : Nat) (hi : i < n) :
    (tabShares n num q)[i]? = some ((List.range num).map fun j => (q j).eval (ofU32 i)) := by
  simp [tabShares, hi]

theorem tabShares_flatten (n num : Nat) (q : Nat → F[X]) :
    toRows n num (tabShares n num q).flatten = some (tabShares n num q) := by
  apply toRows_flatten
  · simp [tabShares]
  · intro x hx
    obtain ⟨i, _, rfl⟩ := List.mem_map.1 hx
    simp

theorem col_tabShares (n num : Nat) (q : Nat → F[X]) (j : Nat) (hj : j < num) :
    col j (tabShares n num q) = (sharePos n).map fun x => (q j).eval x := by
  unfold tabShares
  rw [col_tab n num _ j hj]
  simp [sharePos]

/-- Transposing the list of share vectors: the messages to the parties. -/
theorem reshare_tab (n num : Nat) (q : Nat → F[X]) :
    (toRows num n ((List.range num).map fun j => (sharePos n).map fun x => (q j).eval x).flatten).map
      (fun shares => (List.range n).map fun i => col i shares) = some (tabShares n num q) := by
  rw [toRows_flatten _ (by simp)]
  · simp only [Option.map_some, Option.some.injEq]
    unfold tabShares
    apply List.map_congr_left
    intro i hi
    have hi := List.mem_range.1 hi
    apply col_map
    intro j _
    simp [sharePos, hi]
  · intro x hx
    obtain ⟨i, _, rfl⟩ := List.mem_map.1 hx
    simp [sharePos]

variable [DecidableEq F]

omit [DecidableEq F] in
theorem defaultPos_length (n l : Nat) : (defaultPos n l : List F).length = l := by simp [defaultPos]

omit [DecidableEq F] in
theorem defaultPos_good {n l : Nat} (h : n + l ≤ CodeField.order F) : GoodPos n (defaultPos n l : List F) := by
  refine ⟨?_, ?_, by omega⟩
  · unfold defaultPos
    apply List.Nodup.map_on _ List.nodup_range
    intro a ha b hb hab
    simp at ha hb
    have := CodeField.ofU32_inj _ _ (by omega) (by omega) hab
    omega
  · intro i hi hm
    simp only [defaultPos, List.mem_map, List.mem_range] at hm
    obtain ⟨j, hj, he⟩ := hm
    have := CodeField.ofU32_inj _ _ (by omega) (by omega) he
    omega

theorem Ctx.Good.le {ctx : Ctx F} (h : ctx.Good) : ctx.t + ctx.l ≤ ctx.n := by
  have := (new_eq h.pss).1
  have := h.posL
  omega

theorem Ctx.Good.posN {ctx : Ctx F} (h : ctx.Good) : 1 ≤ ctx.n := by
  have := h.le; have := h.posL; omega

/-- Reconstruction with the degree `n - 1` scheme. -/
theorem Ctx.Good.reconN {ctx : Ctx F} (h : ctx.Good) (p : F[X]) (hp : p.degree < ctx.n) :
    ctx.pssN.semihonRecon ((sharePos ctx.n).map fun x => p.eval x)
      = some ((defaultPos ctx.n ctx.l).map fun x => p.eval x) := by
  have hn := h.posN
  refine semihonRecon_eval h.pssN (by have := h.fit; omega) p ?_
  rw [Nat.sub_add_cancel hn]; exact hp

/-- Sharing with the degree `t + l - 1` scheme. -/
theorem Ctx.Good.share {ctx : Ctx F} (h : ctx.Good) (secrets tape : List F) (hs : secrets.length = ctx.l)
    (ht : tape.length = ctx.t) : ∃ p : F[X], p.degree < (ctx.t + ctx.l : Nat) ∧
      ctx.pss.share secrets tape = some ((sharePos ctx.n).map fun x => p.eval x) ∧
      (defaultPos ctx.n ctx.l).map (fun x => p.eval x) = secrets := by
  have hl := h.posL
  have hk : ctx.t + ctx.l - 1 + 1 = ctx.t + ctx.l := by omega
  obtain ⟨p, hp, h1, h2, _⟩ := share_eq_eval h.pss (defaultPos_good h.fit)
    (by rw [defaultPos_length]; omega) secrets tape (by rw [defaultPos_length]; omega)
    (by rw [defaultPos_length]; omega)
  rw [hk] at hp
  rw [List.drop_eq_nil_of_le (by rw [defaultPos_length]; omega), List.append_nil] at h2
  exact ⟨p, hp, h1, h2⟩

omit [DecidableEq F] in
/-- A family indexed by naturals from existence for each index below a bound. -/
theorem exists_family {P : Nat → F[X] → Prop} (num : Nat) (h : ∀ j < num, ∃ p, P j p) :
    ∃ q : Nat → F[X], ∀ j < num, P j (q j) := by
  classical
  refine ⟨fun j => if hj : j < num then Classical.choose (h j hj) else 0, ?_⟩
  intro j hj
  simp only [hj, dif_pos]
  exact Classical.choose_spec (h j hj)

theorem mapM_range_some {β : Type} (m : Nat) (f : Nat → Option β) (g : Nat → β)
    (h : ∀ i < m, f i = some (g i)) : (List.range m).mapM f = some ((List.range m).map g) :=
  mapM_some_map f g _ fun i hi => h i (List.mem_range.1 hi)

/-- What the leader of a degree reduction does. -/
theorem rdLeader_tab {ctx : Ctx F} (h : ctx.Good) (num : Nat) (tapes : List (List F))
    (ht : tapes.length = num) (htl : ∀ tp ∈ tapes, tp.length = ctx.t)
    (q : Nat → F[X]) (hq : ∀ j < num, (q j).degree < ctx.n) :
    ∃ s : Nat → F[X], (∀ j < num, (s j).degree < (ctx.t + ctx.l : Nat)) ∧
      (∀ j < num, ∀ x ∈ defaultPos ctx.n ctx.l, (s j).eval x = (q j).eval x) ∧
      rdLeader ctx num tapes (tabShares ctx.n num q) = some (tabShares ctx.n num s) := by
  have hs : ∀ j < num, ∃ p : F[X], p.degree < (ctx.t + ctx.l : Nat) ∧
      ctx.pss.share ((defaultPos ctx.n ctx.l).map fun x => (q j).eval x) (tapes.getD j [])
        = some ((sharePos ctx.n).map fun x => p.eval x) ∧
      (defaultPos ctx.n ctx.l).map (fun x => p.eval x) = (defaultPos ctx.n ctx.l).map fun x => (q j).eval x := by
    intro j hj
    refine h.share _ _ (by simp [defaultPos_length]) ?_
    have hj' : j < tapes.length := by omega
    simp only [List.getD_eq_getElem?_getD, hj', getElem?_pos, Option.getD_some]
    exact htl _ (List.getElem_mem hj')
  obtain ⟨s, hs⟩ := exists_family num hs
  refine ⟨s, fun j hj => (hs j hj).1, ?_, ?_⟩
  · intro j hj x hx
    exact List.map_inj_left.1 (hs j hj).2.2 x hx
  · unfold rdLeader
    rw [tabShares_flatten]
    simp only [Option.bind_some]
    rw [mapM_range_some num _ (fun j => (sharePos ctx.n).map fun x => (s j).eval x)]
    · simp only [Option.bind_some]
      exact reshare_tab ctx.n num s
    · intro j hj
      rw [col_tabShares _ _ _ _ hj, h.reconN _ (hq j hj)]
      have hj' : j < tapes.length := by omega
      have := (hs j hj).2.1
      simp only [List.getD_eq_getElem?_getD, hj', getElem?_pos, Option.getD_some] at this
      simp only [Option.bind_some, hj', getElem?_pos]
      exact this

omit [DecidableEq F] in
theorem rdSend_tab (num : Nat) (f g e : Nat → F) :
    rdSend ((List.range num).map f) ((List.range num).map g) ((List.range num).map e)
      = some ((List.range num).map fun j => f j + g j + e j) := by
  unfold rdSend
  rw [if_pos (by simp), vadd_map, vadd_map]

omit [DecidableEq F] in
theorem rdFinish_tab (num : Nat) (f g : Nat → F) :
    rdFinish ((List.range num).map g) ((List.range num).map f)
      = some ((List.range num).map fun j => f j - g j) := by
  unfold rdFinish
  rw [if_pos (by simp), vsub_map]

omit [DecidableEq F] in
theorem degree_add_lt {k : Nat} {p q : F[X]} (hp : p.degree < k) (hq : q.degree < k) : (p + q).degree < k :=
  lt_of_le_of_lt (degree_add_le _ _) (max_lt hp hq)

omit [DecidableEq F] in
theorem degree_sub_lt' {k : Nat} {p q : F[X]} (hp : p.degree < k) (hq : q.degree < k) : (p - q).degree < k :=
  lt_of_le_of_lt (degree_sub_le _ _) (max_lt hp hq)

omit [DecidableEq F] in
theorem degree_lt_mono {k m : Nat} {p : F[X]} (hp : p.degree < k) (h : k ≤ m) : p.degree < m :=
  lt_of_lt_of_le hp (by exact_mod_cast h)

omit [DecidableEq F] in
theorem degree_mul_lt {a b : Nat} {p q : F[X]} (hp : p.degree < (a + 1 : Nat)) (hq : q.degree < (b + 1 : Nat)) :
    (p * q).degree < (a + b + 1 : Nat) := by
  have h1 : p.natDegree ≤ a := natDegree_le_iff_degree_le.2 (by
    rw [degree_le_iff_coeff_zero]
    intro m hm
    exact coeff_eq_zero_of_degree_lt (lt_of_lt_of_le hp (by exact_mod_cast hm)))
  have h2 : q.natDegree ≤ b := natDegree_le_iff_degree_le.2 (by
    rw [degree_le_iff_coeff_zero]
    intro m hm
    exact coeff_eq_zero_of_degree_lt (lt_of_lt_of_le hq (by exact_mod_cast hm)))
  refine lt_of_le_of_lt (degree_le_of_natDegree_le (natDegree_mul_le.trans (Nat.add_le_add h1 h2))) ?_
  exact_mod_cast Nat.lt_succ_self _

/-- The degree reduction on families of polynomials. -/
theorem reduceDegree_tab {ctx : Ctx F} (h : ctx.Good) (num : Nat) (tapes : List (List F))
    (ht : tapes.length = num) (htl : ∀ tp ∈ tapes, tp.length = ctx.t)
    (x r z : Nat → F[X]) (hx : ∀ j < num, (x j).degree < ctx.n)
    (hr : ∀ j < num, (r j).degree < (ctx.t + ctx.l : Nat)) (hz : ∀ j < num, (z j).degree < ctx.n)
    (hz0 : ∀ j < num, ∀ v ∈ defaultPos ctx.n ctx.l, (z j).eval v = 0) :
    ∃ y : Nat → F[X], (∀ j < num, (y j).degree < (ctx.t + ctx.l : Nat)) ∧
      (∀ j < num, ∀ v ∈ defaultPos ctx.n ctx.l, (y j).eval v = (x j).eval v) ∧
      reduceDegree ctx num tapes (tabShares ctx.n num x) (tabShares ctx.n num r) (tabShares ctx.n num z)
        = some (tabShares ctx.n num y) := by
  obtain ⟨s, s1, s2, s3⟩ := rdLeader_tab h num tapes ht htl (fun j => x j + r j + z j)
    (fun j hj => degree_add_lt (degree_add_lt (hx j hj) (degree_lt_mono (hr j hj) h.le)) (hz j hj))
  refine ⟨fun j => s j - r j, fun j hj => degree_sub_lt' (s1 j hj) (hr j hj), ?_, ?_⟩
  · intro j hj v hv
    rw [eval_sub, s2 j hj v hv, eval_add, eval_add, hz0 j hj v hv]
    ring
  · unfold reduceDegree
    rw [mapM_range_some ctx.n _ (fun i => (List.range num).map fun j => (x j + r j + z j).eval (ofU32 i))]
    · simp only [Option.bind_some]
      have : ((List.range ctx.n).map fun i => (List.range num).map fun j => (x j + r j + z j).eval (ofU32 i))
          = tabShares ctx.n num fun j => x j + r j + z j := rfl
      rw [this, s3]
      simp only [Option.bind_some]
      apply mapM_range_some
      intro i hi
      rw [tabShares_row _ _ _ _ hi, tabShares_row _ _ _ _ hi]
      simp only [Option.bind_some]
      rw [rdFinish_tab]
      simp only [eval_sub]
    · intro i hi
      rw [tabShares_row _ _ _ _ hi, tabShares_row _ _ _ _ hi, tabShares_row _ _ _ _ hi]
      simp only [Option.bind_some]
      rw [rdSend_tab]
      simp only [eval_add]

/-- Multiplication on families of polynomials; `a + b` bounds the degree of the product. -/
theorem mult_tab {ctx : Ctx F} (h : ctx.Good) (num : Nat) (tapes : List (List F))
    (ht : tapes.length = num) (htl : ∀ tp ∈ tapes, tp.length = ctx.t) (hd : 2 * (ctx.t + ctx.l - 1) < ctx.n)
    (x y r z : Nat → F[X]) (hx : ∀ j < num, (x j).degree < (ctx.t + ctx.l : Nat))
    (hy : ∀ j < num, (y j).degree < (ctx.t + ctx.l : Nat))
    (hr : ∀ j < num, (r j).degree < (ctx.t + ctx.l : Nat)) (hz : ∀ j < num, (z j).degree < ctx.n)
    (hz0 : ∀ j < num, ∀ v ∈ defaultPos ctx.n ctx.l, (z j).eval v = 0) :
    ∃ w : Nat → F[X], (∀ j < num, (w j).degree < (ctx.t + ctx.l : Nat)) ∧
      (∀ j < num, ∀ v ∈ defaultPos ctx.n ctx.l, (w j).eval v = (x j).eval v * (y j).eval v) ∧
      mult ctx num tapes (tabShares ctx.n num x) (tabShares ctx.n num y) (tabShares ctx.n num r)
        (tabShares ctx.n num z) = some (tabShares ctx.n num w) := by
  have hl := h.posL
  have hk : ctx.t + ctx.l = ctx.t + ctx.l - 1 + 1 := by omega
  have hdeg : ∀ j < num, (x j * y j).degree < ctx.n := by
    intro j hj
    have h1 := hx j hj
    have h2 := hy j hj
    rw [hk] at h1 h2
    exact degree_lt_mono (degree_mul_lt h1 h2) (by omega)
  obtain ⟨w, w1, w2, w3⟩ := reduceDegree_tab h num tapes ht htl (fun j => x j * y j) r z hdeg hr hz hz0
  refine ⟨w, w1, ?_, ?_⟩
  · intro j hj v hv
    rw [w2 j hj v hv, eval_mul]
  · unfold mult
    rw [mapM_range_some ctx.n _ (fun i => (List.range num).map fun j => (x j * y j).eval (ofU32 i))]
    · exact w3
    · intro i hi
      rw [tabShares_row _ _ _ _ hi, tabShares_row _ _ _ _ hi]
      simp only [Option.bind_some]
      rw [if_pos (by simp), vmul_map]
      simp only [eval_mul]

/-! ### `trans` -/

theorem apply_map {T S : Type} (f : Combination) (g : T → S) (l : List T) :
    f.apply (l.map g) = (f.apply l).map (fun v => v.map g) := by
  unfold Combination.apply
  induction f.map with
  | nil => rfl
  | cons i is ih =>
    rw [List.mapM_cons, List.mapM_cons, ih]
    simp only [List.getElem?_map]
    cases l[i]? with
    | none => rfl
    | some a => cases (is.mapM fun i => l[i]?) <;> rfl

theorem apply_length {T : Type} (f : Combination) (l w : List T) (h : f.apply l = some w) : w.length = f.len := by
  unfold Combination.apply at h
  unfold Combination.len
  generalize f.map = m at h ⊢
  induction m generalizing w with
  | nil => simp at h; subst h; rfl
  | cons i is ih =>
    rw [List.mapM_cons] at h
    obtain ⟨a, _, h⟩ := Option.bind_eq_some_iff.1 h
    obtain ⟨v, hv, h⟩ := Option.bind_eq_some_iff.1 h
    simp only [Option.pure_def, Option.some.injEq] at h
    rw [← h, List.length_cons, List.length_cons, ih v hv]

/-- Sharing with freshly computed coefficients. -/
theorem shareUsing_eval {d n : Nat} {pos : List F} (hg : GoodPos n pos) (hl : pos.length ≤ d + 1) (hd : d + 1 ≤ n)
    (secrets tape : List F) (hs : secrets.length = pos.length) (ht : tape.length = d + 1 - pos.length) :
    ∃ c, computeShareCoeffs d n pos = some c ∧ ∃ p : F[X], p.degree < (d + 1 : Nat) ∧
      shareUsingCoeffs secrets c pos.length tape = some ((sharePos n).map fun x => p.eval x) ∧
      pos.map (fun x => p.eval x) = secrets := by
  have hnew : ∃ ps, PackedSharing.new d n pos = some ps := by
    unfold PackedSharing.new; simp only [if_pos hd]; exact ⟨_, rfl⟩
  obtain ⟨ps, hps⟩ := hnew
  obtain ⟨p, hp, h1, h2, _⟩ := share_eq_eval hps hg hl secrets tape (by omega) (by omega)
  rw [List.drop_eq_nil_of_le (by omega), List.append_nil] at h2
  obtain ⟨_, _, _, hl', hc, _⟩ := new_eq hps
  refine ⟨ps.shareCoeffs, ?_, p, hp, ?_, h2⟩
  · unfold computeShareCoeffs
    simp only
    rw [if_pos (by simp [sharePos_length]; omega), hc]
  · rw [← h1, PackedSharing.share, hl']

/-- Reconstruction at arbitrary positions from all shares. -/
theorem reconN_eval {n : Nat} (hn : 1 ≤ n) (hsm : n ≤ CodeField.order F) (pos : List F) (num : Nat) (q : Nat → F[X])
    (hq : ∀ j < num, (q j).degree < n) :
    ∃ c, computeReconCoeffs (n - 1) n pos = some c ∧
      c.mulRows num (tabShares n num q) = some (pos.map fun x => (List.range num).map fun j => (q j).eval x) := by
  unfold computeReconCoeffs
  simp only
  rw [Nat.sub_add_cancel hn, if_pos (by omega)]
  refine ⟨_, rfl, ?_⟩
  rw [show pos.length + n - n = pos.length by omega, List.drop_left, List.take_left]
  unfold Mat.mulRows lagrangeCoeffs
  simp only
  rw [if_pos (by simp [tabShares, sharePos])]
  simp only [Option.some.injEq, List.map_map]
  apply List.map_congr_left
  intro x _
  apply List.map_congr_left
  intro j hj
  have hj := List.mem_range.1 hj
  rw [col_tabShares _ _ _ _ hj]
  exact dot_lagrangeRow _ (sharePos_nodup hsm) _ _ (by rw [sharePos_length]; exact hq j hj)

/-- The transformation on families of polynomials. -/
theorem trans_tab {ctx : Ctx F} (hn : 1 ≤ ctx.n) (hl : ctx.t + ctx.l ≤ ctx.n) (h0 : 1 ≤ ctx.t + ctx.l)
    (tr : SharingTransform F) (hgn : GoodPos ctx.n tr.newPos)
    (hnl : tr.newPos.length ≤ ctx.t + ctx.l) (num : Nat) (tapes : List (List F))
    (ht : tapes.length = num) (htl : ∀ tp ∈ tapes, tp.length = ctx.t + ctx.l - tr.newPos.length)
    (x r rn : Nat → F[X]) (hx : ∀ j < num, (x j).degree < ctx.n)
    (hr : ∀ j < num, (r j).degree < (ctx.t + ctx.l : Nat)) (hrn : ∀ j < num, (rn j).degree < ctx.n)
    (hf : ∀ j < num, tr.f.apply (tr.oldPos.map fun v => (rn j).eval v) = some (tr.newPos.map fun v => (r j).eval v)) :
    ∃ y : Nat → F[X], (∀ j < num, (y j).degree < (ctx.t + ctx.l : Nat)) ∧
      (∀ j < num, tr.f.apply (tr.oldPos.map fun v => (x j).eval v) = some (tr.newPos.map fun v => (y j).eval v)) ∧
      trans ctx tr num tapes (tabShares ctx.n num x) (tabShares ctx.n num r) (tabShares ctx.n num rn)
        = some (tabShares ctx.n num y) := by
  by_cases hnum : num = 0
  · subst hnum
    refine ⟨fun _ => 0, by simp, by simp, ?_⟩
    have hsm := hgn.small
    obtain ⟨c, hc1, hc2⟩ := reconN_eval hn hsm tr.oldPos 0 (fun _ => 0) (by simp)
    obtain ⟨sc, hsc⟩ : ∃ sc, computeShareCoeffs (ctx.t + ctx.l - 1) ctx.n tr.newPos = some sc := by
      unfold computeShareCoeffs
      simp only
      rw [if_pos (by simp [sharePos_length]; omega)]
      exact ⟨_, rfl⟩
    unfold trans
    rw [mapM_range_some ctx.n _ (fun _ => [])]
    · simp only [Option.bind_some]
      have hl0 : transLeader ctx tr 0 tapes ((List.range ctx.n).map fun _ => []) = some ((List.range ctx.n).map fun _ => []) := by
        unfold transLeader
        rw [if_neg (by omega), hc1, hsc]
        simp only [Option.bind_some]
        have e : ((List.range ctx.n).map fun _ => ([] : List F)) = tabShares ctx.n 0 (fun _ => 0) := by
          simp [tabShares]
        rw [e, tabShares_flatten]
        simp only [Option.bind_some]
        rw [hc2]
        simp [toRows, col, tabShares]
      rw [hl0]
      simp only [Option.bind_some]
      apply mapM_range_some
      intro i hi
      rw [tabShares_row _ _ _ _ hi]
      simp [hi, rdFinish, vsub]
    · intro i hi
      rw [tabShares_row _ _ _ _ hi, tabShares_row _ _ _ _ hi]
      simp [transSend, vadd]
  have hsm := hgn.small
  obtain ⟨c, hc1, hc2⟩ := reconN_eval hn hsm tr.oldPos num (fun j => rn j + x j)
    (fun j hj => degree_add_lt (hrn j hj) (hx j hj))
  -- the selection is defined on every vector over the old positions
  have hfl : ∃ w, tr.f.apply tr.oldPos = some w ∧ w.length = tr.newPos.length := by
    have h := hf 0 (by omega)
    rw [apply_map] at h
    obtain ⟨w, hw, hw2⟩ := Option.map_eq_some_iff.1 h
    refine ⟨w, hw, ?_⟩
    have := congrArg List.length hw2
    simpa using this
  obtain ⟨w, hw, hwl⟩ := hfl
  have hap : ∀ p : F[X], tr.f.apply (tr.oldPos.map fun v => p.eval v) = some (w.map fun v => p.eval v) := by
    intro p; rw [apply_map, hw]; rfl
  have hk : ctx.t + ctx.l - 1 + 1 = ctx.t + ctx.l := by omega
  have hs : ∀ j < num, ∃ p : F[X], p.degree < (ctx.t + ctx.l : Nat) ∧ (∃ sc,
      computeShareCoeffs (ctx.t + ctx.l - 1) ctx.n tr.newPos = some sc ∧
      shareUsingCoeffs (w.map fun v => (rn j + x j).eval v) sc tr.newPos.length (tapes.getD j [])
        = some ((sharePos ctx.n).map fun x => p.eval x)) ∧
      tr.newPos.map (fun x => p.eval x) = w.map fun v => (rn j + x j).eval v := by
    intro j hj
    have hj' : j < tapes.length := by omega
    have htj : (tapes.getD j []).length = ctx.t + ctx.l - tr.newPos.length := by
      simp only [List.getD_eq_getElem?_getD, hj', getElem?_pos, Option.getD_some]
      exact htl _ (List.getElem_mem hj')
    obtain ⟨sc, h1, p, h2, h3, h4⟩ := shareUsing_eval (d := ctx.t + ctx.l - 1) hgn (by omega) (by omega)
      (w.map fun v => (rn j + x j).eval v) (tapes.getD j []) (by simpa using hwl) (by rw [hk]; exact htj)
    rw [hk] at h2
    exact ⟨p, h2, ⟨sc, h1, h3⟩, h4⟩
  obtain ⟨s, hs⟩ := exists_family num hs
  obtain ⟨sc, hsc, _⟩ := (hs 0 (by omega)).2.1
  have hlead : transLeader ctx tr num tapes (tabShares ctx.n num fun j => rn j + x j) = some (tabShares ctx.n num s) := by
    unfold transLeader
    rw [if_neg (by omega), hc1, hsc]
    simp only [Option.bind_some]
    rw [tabShares_flatten]
    simp only [Option.bind_some]
    rw [hc2]
    simp only [Option.bind_some]
    rw [mapM_range_some num _ (fun j => (sharePos ctx.n).map fun x => (s j).eval x)]
    · simp only [Option.bind_some]
      exact reshare_tab ctx.n num s
    · intro j hj
      rw [col_map tr.oldPos _ (fun v => (rn j + x j).eval v) j (by intro v _; simp [hj]), hap]
      obtain ⟨sc', h1, h2⟩ := (hs j hj).2.1
      rw [hsc] at h1
      cases h1
      have hj' : j < tapes.length := by omega
      simp only [List.getD_eq_getElem?_getD, hj', getElem?_pos, Option.getD_some] at h2
      simp only [Option.bind_some, hj', getElem?_pos]
      exact h2
  refine ⟨fun j => s j - r j, fun j hj => degree_sub_lt' (hs j hj).1 (hr j hj), ?_, ?_⟩
  · intro j hj
    rw [hap, Option.some.injEq]
    have h1 := (hs j hj).2.2
    have h2 := hf j hj
    rw [hap, Option.some.injEq] at h2
    simp only [eval_sub]
    have : (tr.newPos.map fun v => (s j).eval v - (r j).eval v)
        = vsub (tr.newPos.map fun v => (s j).eval v) (tr.newPos.map fun v => (r j).eval v) := by rw [vsub_map]
    rw [this, h1, ← h2, vsub_map]
    apply List.map_congr_left
    intro v _
    rw [eval_add]; ring
  · unfold trans
    rw [mapM_range_some ctx.n _ (fun i => (List.range num).map fun j => (rn j + x j).eval (ofU32 i))]
    · simp only [Option.bind_some]
      have : ((List.range ctx.n).map fun i => (List.range num).map fun j => (rn j + x j).eval (ofU32 i))
          = tabShares ctx.n num fun j => rn j + x j := rfl
      rw [this, hlead]
      simp only [Option.bind_some]
      apply mapM_range_some
      intro i hi
      rw [tabShares_row _ _ _ _ hi, tabShares_row _ _ _ _ hi]
      simp only [Option.bind_some]
      rw [rdFinish_tab]
      simp only [eval_sub]
    · intro i hi
      rw [tabShares_row _ _ _ _ hi, tabShares_row _ _ _ _ hi]
      simp only [Option.bind_some]
      unfold transSend
      rw [if_pos (by simp), vadd_map]
      simp only [eval_add]

end Verif
