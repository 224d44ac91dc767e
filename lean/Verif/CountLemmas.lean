import Verif.Count
import Verif.CountSpec
import Verif.CoreSpec
import Verif.AsyncGarbleLemmas

/-! # Counting multiplications: lemmas -/

open Verif.CodeField (ofU32)

namespace Verif

section
variable {α β γ : Type}

theorem costs_cnt (o : Option α) : Costs o.cnt o 0 := rfl

theorem costs_ret (a : α) : Costs (Cnt.ret a) (some a) 0 := rfl

theorem costs_fail (k : Nat) : Costs (Cnt.fail : Cnt α) none k := rfl

theorem Costs.of_eq {x : Cnt α} {o : Option α} {k k' : Nat} (h : Costs x o k) (hk : k = k') : Costs x o k' := hk ▸ h

theorem costs_bind {x : Cnt α} {o : Option α} {f : α → Cnt β} {g : α → Option β} {a b : Nat} (hx : Costs x o a)
    (hf : ∀ v, o = some v → Costs (f v) (g v) b) : Costs (x.bind f) (o.bind g) (a + b) := by
  unfold Costs at hx ⊢
  subst hx
  cases ho : o with
  | none => rfl
  | some v =>
    have h := hf v ho
    unfold Costs at h
    simp only [Option.map_some, Option.bind_some, Cnt.bind]
    rw [h]
    cases g v <;> rfl

/-- Steps without multiplications. -/
theorem costs_cnt_bind {o : Option α} {f : α → Cnt β} {g : α → Option β} {b : Nat}
    (hf : ∀ v, o = some v → Costs (f v) (g v) b) : Costs (o.cnt.bind f) (o.bind g) b :=
  (costs_bind (costs_cnt o) hf).of_eq (Nat.zero_add b)

theorem costs_map {x : Cnt α} {o : Option α} {k : Nat} (f : α → β) (hx : Costs x o k) : Costs (x.map f) (o.map f) k := by
  unfold Costs at hx ⊢
  subst hx
  cases o <;> rfl

theorem costs_ite {p : Prop} [Decidable p] {x y : Cnt α} {o o' : Option α} {k : Nat} (h1 : p → Costs x o k) (h2 : ¬p → Costs y o' k) :
    Costs (if p then x else y) (if p then o else o') k := by
  by_cases hp : p
  · rw [if_pos hp, if_pos hp]
    exact h1 hp
  · rw [if_neg hp, if_neg hp]
    exact h2 hp

theorem costs_mapM {f : α → Cnt β} {g : α → Option β} {k : α → Nat} {l : List α} (h : ∀ a ∈ l, Costs (f a) (g a) (k a)) :
    Costs (Cnt.mapM f l) (l.mapM g) (l.map k).sum := by
  induction l with
  | nil => rfl
  | cons a l ih =>
    rw [List.mapM_cons]
    have := costs_bind (h a (by simp)) fun b _ => costs_bind (ih fun x hx => h x (by simp [hx])) fun bs _ => costs_ret (b :: bs)
    refine Costs.of_eq this ?_
    simp

theorem costs_mapM_const {f : α → Cnt β} {g : α → Option β} {k : Nat} {l : List α} (h : ∀ a ∈ l, Costs (f a) (g a) k) :
    Costs (Cnt.mapM f l) (l.mapM g) (l.length * k) :=
  (costs_mapM h).of_eq (by simp)

theorem costs_mapM_range {f : Nat → Cnt β} {g : Nat → Option β} {k n : Nat} (h : ∀ i, i < n → Costs (f i) (g i) k) :
    Costs (Cnt.mapM f (List.range n)) ((List.range n).mapM g) (n * k) :=
  (costs_mapM_const fun a ha => h a (List.mem_range.1 ha)).of_eq (by simp)

theorem mapM_pure {f : α → β} (l : List α) : (l.mapM fun a => some (f a)) = some (l.map f) := by
  induction l with
  | nil => rfl
  | cons a l ih =>
    rw [List.mapM_cons, ih]
    rfl

theorem costs_mapM_pure {f : α → Cnt β} {g : α → β} {k : Nat} {l : List α} (h : ∀ a ∈ l, Costs (f a) (some (g a)) k) :
    Costs (Cnt.mapM f l) (some (l.map g)) (l.length * k) := by
  have := costs_mapM_const (g := fun a => some (g a)) h
  rwa [mapM_pure] at this

/-- The rows of a list of drained vectors. -/
theorem drainAll_lengths {k : Nat} {ls a b : List (List α)} (h : drainAll k ls = some (a, b)) :
    a.length = ls.length ∧ b.length = ls.length ∧ ∀ v ∈ a, v.length = k := by
  unfold drainAll at h
  obtain ⟨ds, h1, h2⟩ := Option.map_eq_some_iff.1 h
  rw [Prod.mk.injEq] at h2
  have hl := mapM_length h1
  refine ⟨by rw [← h2.1, List.length_map, hl], by rw [← h2.2, List.length_map, hl], fun v hv => ?_⟩
  rw [← h2.1] at hv
  obtain ⟨d, hd, rfl⟩ := List.mem_map.1 hv
  obtain ⟨i, hi, rfl⟩ := List.mem_iff_getElem.1 hd
  have := mapM_getElem h1 i (by omega) hi
  unfold drain at this
  split at this
  · next hk =>
    rw [Option.some.injEq] at this
    rw [← this, List.length_take]
    omega
  · cases this

end

section
variable {F : Type} [CodeField F] [DecidableEq F]

omit [DecidableEq F] in
theorem costs_dot (a b : List F) : Costs (dotC a b) (some (dot a b)) (min a.length b.length) := by
  induction a generalizing b with
  | nil =>
    cases b <;> rfl
  | cons x a ih =>
    cases b with
    | nil => rfl
    | cons y b =>
      have h := ih b
      unfold Costs at h ⊢
      simp only [dotC, mulC, Cnt.bind, h, Option.map_some, Cnt.ret, dot, List.zipWith_cons_cons, List.sum_cons, List.length_cons]
      refine congrArg some (Prod.ext rfl ?_)
      show 1 + (min a.length b.length + 0) = min (a.length + 1) (b.length + 1)
      omega

omit [DecidableEq F] in
theorem costs_vmul (a b : List F) (h : a.length = b.length) : Costs (vmulC a b) (some (vmul a b)) a.length := by
  have : Costs (vmulC a b) (some ((a.zip b).map fun p => p.1 * p.2)) ((a.zip b).length * 1) :=
    costs_mapM_pure fun p _ => rfl
  have h2 : vmul a b = (a.zip b).map fun p => p.1 * p.2 := by
    unfold vmul
    rw [List.zip, List.map_zipWith]
  rw [h2]
  exact this.of_eq (by simp [h])

omit [DecidableEq F] in
theorem costs_mulVec {m : Mat F} (hm : m.WF) (v : List F) : Costs (m.mulVecC v) (m.mulVec v) (m.rows.length * m.ncols) := by
  unfold Mat.mulVecC Mat.mulVec
  refine costs_ite (fun hv => costs_mapM_pure fun r hr => ?_) fun _ => costs_fail _
  exact (costs_dot r v).of_eq (by rw [hm r hr, hv, min_self])

omit [DecidableEq F] in
theorem costs_mulRows {m : Mat F} (hm : m.WF) (num : Nat) (a : List (List F)) (ha : ∀ r ∈ a, num ≤ r.length) :
    Costs (m.mulRowsC num a) (m.mulRows num a) (m.rows.length * (num * m.ncols)) := by
  unfold Mat.mulRowsC Mat.mulRows
  refine costs_ite (fun hv => costs_mapM_pure fun r hr => ?_) fun _ => costs_fail _
  have : Costs (Cnt.mapM (fun j => dotC r (col j a)) (List.range num)) (some ((List.range num).map fun j => dot r (col j a)))
      ((List.range num).length * m.ncols) := by
    refine costs_mapM_pure fun j hj => ?_
    refine (costs_dot r (col j a)).of_eq ?_
    have hj := List.mem_range.1 hj
    rw [col_length j a fun x hx => lt_of_lt_of_le hj (ha x hx), hm r hr, hv, min_self]
  exact this.of_eq (by simp)

theorem lagrangeCoeffs_wf (cpos npos : List F) : (lagrangeCoeffs cpos npos).WF := by
  intro r hr
  obtain ⟨v, _, rfl⟩ := List.mem_map.1 hr
  exact lagrangeRow_length cpos v

theorem costs_lagrange_vec (cpos npos v : List F) :
    Costs ((lagrangeCoeffs cpos npos).mulVecC v) ((lagrangeCoeffs cpos npos).mulVec v) (npos.length * cpos.length) := by
  have := costs_mulVec (lagrangeCoeffs_wf cpos npos) v
  exact this.of_eq (by simp [lagrangeCoeffs])

omit [DecidableEq F] in
theorem costs_shareUsing {coeffs : Mat F} (hm : coeffs.WF) (secrets : List F) (l : Nat) (tape : List F) :
    Costs (shareUsingCoeffsC secrets coeffs l tape) (shareUsingCoeffs secrets coeffs l tape) (coeffs.rows.length * coeffs.ncols) := by
  unfold shareUsingCoeffsC shareUsingCoeffs
  exact costs_ite (fun _ => costs_map _ (costs_mulVec hm _)) fun _ => costs_fail _

theorem costs_share {d n : Nat} {pos : List F} {ps : PackedSharing F} (h : PackedSharing.new d n pos = some ps) (secrets tape : List F) :
    Costs (ps.shareC secrets tape) (ps.share secrets tape) ((pos.length + n - (d + 1)) * (d + 1)) := by
  obtain ⟨h0, h1, h2, h3, h4, h5, h6⟩ := new_eq h
  unfold PackedSharing.shareC PackedSharing.share
  have hw := lagrangeCoeffs_wf ((pos ++ sharePos n).take (d + 1)) ((pos ++ sharePos n).drop (d + 1))
  rw [← h4] at hw
  refine (costs_shareUsing hw secrets ps.l tape).of_eq ?_
  rw [h4]
  simp only [lagrangeCoeffs, List.length_map, List.length_drop, List.length_take, List.length_append, sharePos_length]
  rw [Nat.min_eq_left (by omega)]

theorem costs_psRand {d n : Nat} {pos : List F} {ps : PackedSharing F} (h : PackedSharing.new d n pos = some ps) (tape : List F) :
    Costs (ps.randC tape) (ps.rand tape) ((n - (d + 1)) * (d + 1)) := by
  obtain ⟨h0, h1, h2, h3, h4, h5, h6⟩ := new_eq h
  unfold PackedSharing.randC PackedSharing.rand
  refine costs_ite (fun _ => costs_map _ ?_) fun _ => costs_fail _
  rw [h6]
  refine (costs_lagrange_vec _ _ _).of_eq ?_
  simp only [List.length_drop, List.length_take, sharePos_length]
  rw [Nat.min_eq_left (by omega)]

theorem secretCoeffs_wf {d n : Nat} {pos : List F} {ps : PackedSharing F} (h : PackedSharing.new d n pos = some ps) :
    ps.secretCoeffs.WF ∧ ps.secretCoeffs.rows.length = pos.length ∧ ps.secretCoeffs.ncols = d + 1 := by
  obtain ⟨h0, h1, h2, h3, h4, h5, h6⟩ := new_eq h
  unfold PackedSharing.secretCoeffs
  rw [h5, h3]
  refine ⟨fun r hr => ?_, ?_, ?_⟩
  · exact lagrangeCoeffs_wf _ _ r (List.mem_of_mem_take hr)
  · simp only [lagrangeCoeffs, List.length_map, List.length_take, List.length_append, sharePos_length]
    omega
  · simp only [lagrangeCoeffs, List.length_drop, List.length_append, sharePos_length]
    omega

theorem costs_semihonRecon {d n : Nat} {pos : List F} {ps : PackedSharing F} (h : PackedSharing.new d n pos = some ps) (shares : List F) :
    Costs (ps.semihonReconC shares) (ps.semihonRecon shares) (pos.length * (d + 1)) := by
  obtain ⟨w1, w2, w3⟩ := secretCoeffs_wf h
  unfold PackedSharing.semihonReconC PackedSharing.semihonRecon
  refine costs_ite (fun _ => ?_) fun _ => costs_fail _
  exact (costs_mulVec w1 _).of_eq (by rw [w2, w3])

omit [DecidableEq F] in
theorem defaultPos_length' (n l : Nat) : (defaultPos n l : List F).length = l := by simp [defaultPos]

/-- `t + l` and `n` are at least 1 for good contexts. -/
theorem Ctx.Good.sizes {ctx : Ctx F} (h : ctx.Good) : 1 ≤ ctx.t + ctx.l ∧ ctx.t + ctx.l ≤ ctx.n ∧ 1 ≤ ctx.n := by
  have h1 := (new_eq h.pss).1
  have h2 := h.posL
  omega

theorem costs_rdLeader {ctx : Ctx F} (h : ctx.Good) (num : Nat) (tapes mssgs : List (List F)) :
    Costs (rdLeaderC ctx num tapes mssgs) (rdLeader ctx num tapes mssgs) (num * redCost ctx.n ctx.t ctx.l) := by
  obtain ⟨s1, s2, s3⟩ := h.sizes
  unfold rdLeaderC rdLeader
  refine costs_cnt_bind fun sharesN _ => ?_
  refine (costs_bind (costs_mapM_range (k := redCost ctx.n ctx.t ctx.l) fun j _ => ?_) fun shares _ => costs_map _ (costs_cnt _)).of_eq (Nat.add_zero _)
  refine (costs_bind (costs_semihonRecon h.pssN _) fun secrets _ => costs_cnt_bind fun tape _ => costs_share h.pss _ _).of_eq ?_
  rw [defaultPos_length', Nat.sub_add_cancel s3, Nat.sub_add_cancel s1]
  unfold redCost
  rw [show ctx.l + ctx.n - (ctx.t + ctx.l) = ctx.n - ctx.t by omega]

theorem costs_reduceDegree {ctx : Ctx F} (h : ctx.Good) (num : Nat) (tapes vxs randoms zeros : List (List F)) :
    Costs (reduceDegreeC ctx num tapes vxs randoms zeros) (reduceDegree ctx num tapes vxs randoms zeros) (num * redCost ctx.n ctx.t ctx.l) := by
  unfold reduceDegreeC reduceDegree
  refine costs_cnt_bind fun mssgs _ => ?_
  exact (costs_bind (costs_rdLeader h num tapes mssgs) fun _ _ => costs_cnt _).of_eq (Nat.add_zero _)

theorem costs_mult {ctx : Ctx F} (h : ctx.Good) (num : Nat) (tapes vxs vys randoms zeros : List (List F)) (hx : ∀ v ∈ vxs, v.length = num) :
    Costs (multC ctx num tapes vxs vys randoms zeros) (mult ctx num tapes vxs vys randoms zeros) (num * multCost ctx.n ctx.t ctx.l) := by
  unfold multC mult
  refine (costs_bind (costs_mapM_range (k := num) fun i _ => ?_) fun ps _ => costs_reduceDegree h num tapes ps randoms zeros).of_eq ?_
  · refine costs_cnt_bind fun vx hv => costs_cnt_bind fun vy _ => costs_ite (fun hl => ?_) fun _ => costs_fail _
    exact (costs_vmul vx vy hl).of_eq (hx vx (List.mem_of_getElem? hv))
  · unfold multCost
    ring

omit [DecidableEq F] in
theorem mult_lengths {ctx : Ctx F} {num : Nat} {tapes vxs vys randoms zeros outs : List (List F)}
    (h : mult ctx num tapes vxs vys randoms zeros = some outs) : ∀ v ∈ outs, v.length = num := by
  unfold mult at h
  obtain ⟨ps, _, h⟩ := Option.bind_eq_some_iff.1 h
  unfold reduceDegree at h
  obtain ⟨ms, _, h⟩ := Option.bind_eq_some_iff.1 h
  obtain ⟨rs, h1, h2⟩ := Option.bind_eq_some_iff.1 h
  unfold rdLeader at h1
  obtain ⟨_, _, h1⟩ := Option.bind_eq_some_iff.1 h1
  obtain ⟨sh, _, h1⟩ := Option.bind_eq_some_iff.1 h1
  obtain ⟨rows, hr, rfl⟩ := Option.map_eq_some_iff.1 h1
  intro v hv
  obtain ⟨i, hi, rfl⟩ := List.mem_iff_getElem.1 hv
  have hi' : i < ctx.n := by
    have := mapM_length h2
    rw [List.length_range] at this
    omega
  have h3 := mapM_getElem h2 i (by simpa using hi') hi
  rw [List.getElem_range] at h3
  rw [List.getElem?_map, List.getElem?_range hi', Option.map_some, Option.bind_some] at h3
  obtain ⟨r, _, h3⟩ := Option.bind_eq_some_iff.1 h3
  unfold rdFinish at h3
  split at h3
  · next hl =>
    rw [Option.some.injEq] at h3
    rw [← h3]
    unfold vsub
    rw [List.length_zipWith, ← hl, min_self, col_length, toRows_length hr]
    intro x hx
    rw [toRows_width hr x hx]
    exact hi'
  · cases h3

theorem costs_transLeader (ctx : Ctx F) (tr : SharingTransform F) (num : Nat) (tapes mssgs : List (List F)) :
    Costs (transLeaderC ctx tr num tapes mssgs) (transLeader ctx tr num tapes mssgs)
      (num * transCost ctx.n ctx.t ctx.l tr.oldPos.length tr.newPos.length) := by
  unfold transLeaderC transLeader
  refine costs_ite (fun _ => costs_fail _) fun hp => ?_
  rw [not_or] at hp
  refine costs_cnt_bind fun reconN h1 => costs_cnt_bind fun sc h2 => costs_cnt_bind fun sharesN h3 => ?_
  have e1 : reconN.WF ∧ reconN.rows.length = tr.oldPos.length ∧ reconN.ncols = ctx.n := by
    unfold computeReconCoeffs at h1
    simp only at h1
    split at h1
    · rw [Option.some.injEq] at h1
      rw [← h1]
      refine ⟨lagrangeCoeffs_wf _ _, ?_, ?_⟩
      · simp only [lagrangeCoeffs, List.length_map, List.length_take, List.length_append, sharePos_length]
        omega
      · simp only [lagrangeCoeffs, List.length_drop, List.length_append, sharePos_length]
        omega
    · cases h1
  have e2 : sc.WF ∧ sc.rows.length = tr.newPos.length + ctx.n - (ctx.t + ctx.l) ∧ sc.ncols = ctx.t + ctx.l := by
    unfold computeShareCoeffs at h2
    simp only at h2
    split at h2
    · next hle =>
      rw [Option.some.injEq] at h2
      rw [← h2]
      rw [List.length_append, sharePos_length] at hle
      refine ⟨lagrangeCoeffs_wf _ _, ?_, ?_⟩
      · simp only [lagrangeCoeffs, List.length_map, List.length_drop, List.length_append, sharePos_length]
        omega
      · simp only [lagrangeCoeffs, List.length_take, List.length_append, sharePos_length]
        omega
    · cases h2
  refine (costs_bind (costs_mulRows e1.1 num sharesN fun r hr => by rw [toRows_width h3 r hr]) fun secrets _ =>
    costs_bind (costs_mapM_range (k := (tr.newPos.length + ctx.n - (ctx.t + ctx.l)) * (ctx.t + ctx.l)) fun j _ =>
      costs_cnt_bind fun tf _ => costs_cnt_bind fun tape _ => ?_) fun shares _ => costs_map _ (costs_cnt _)).of_eq ?_
  · exact (costs_shareUsing e2.1 tf _ tape).of_eq (by rw [e2.2.1, e2.2.2])
  · rw [e1.2.1, e1.2.2]
    unfold transCost
    ring

theorem costs_trans (ctx : Ctx F) (tr : SharingTransform F) (num : Nat) (tapes vxs randoms randomsN : List (List F)) :
    Costs (transC ctx tr num tapes vxs randoms randomsN) (trans ctx tr num tapes vxs randoms randomsN)
      (num * transCost ctx.n ctx.t ctx.l tr.oldPos.length tr.newPos.length) := by
  unfold transC trans
  refine costs_cnt_bind fun mssgs _ => ?_
  exact (costs_bind (costs_transLeader ctx tr num tapes mssgs) fun _ _ => costs_cnt _).of_eq (Nat.add_zero _)

omit [DecidableEq F] in
theorem encodeShare_shape {shareL : List F} {acc : List (List (List F))} {r c : Nat} {m : List (List F)} (h : encodeShare shareL acc r c = some m) :
    m.length = r ∧ ∀ x ∈ m, x.length = c := by
  unfold encodeShare at h
  split at h
  · refine ⟨by rw [mapM_length h, List.length_range], fun x hx => ?_⟩
    obtain ⟨i, hi, rfl⟩ := List.mem_iff_getElem.1 hx
    have := mapM_getElem h i (by rw [mapM_length h] at hi; exact hi) hi
    rw [mapM_length this, List.length_range]
  · cases h

theorem randTransform_shape {ctx : Ctx F} {id : Nat} {tfs : List (SharingTransform F)} {tr : RandTransform F} (h : RandTransform.new ctx id tfs = some tr) :
    (tr.share.WF ∧ tr.share.rows.length = ctx.n ∧ tr.share.ncols = ctx.t + ctx.l) ∧
      (tr.shareN.WF ∧ tr.shareN.rows.length = ctx.n ∧ tr.shareN.ncols = ctx.n) := by
  unfold RandTransform.new at h
  obtain ⟨_, _, h⟩ := Option.bind_eq_some_iff.1 h
  obtain ⟨_, _, h⟩ := Option.bind_eq_some_iff.1 h
  obtain ⟨_, _, h⟩ := Option.bind_eq_some_iff.1 h
  obtain ⟨_, _, h⟩ := Option.bind_eq_some_iff.1 h
  obtain ⟨s, hs, h⟩ := Option.bind_eq_some_iff.1 h
  obtain ⟨sn, hsn, rfl⟩ := Option.map_eq_some_iff.1 h
  obtain ⟨a1, a2⟩ := encodeShare_shape hs
  obtain ⟨b1, b2⟩ := encodeShare_shape hsn
  exact ⟨⟨a2, a1, rfl⟩, b2, b1, rfl⟩

theorem costs_rtSend {ctx : Ctx F} {id : Nat} {tfs : List (SharingTransform F)} {tr : RandTransform F} (h : RandTransform.new ctx id tfs = some tr)
    (num : Nat) (randoms zeros : List F) (hr : randoms.length / (ctx.n + ctx.t) = num) :
    Costs (rtSendC ctx tr randoms zeros) (rtSend ctx tr randoms zeros) (num * (ctx.n * (ctx.t + ctx.l) + ctx.n * ctx.n)) := by
  obtain ⟨⟨a1, a2, a3⟩, b1, b2, b3⟩ := randTransform_shape h
  unfold rtSendC rtSend
  refine costs_ite (fun _ => costs_fail _) fun _ => ?_
  simp only [hr]
  refine costs_cnt_bind fun x _ => costs_cnt_bind fun secrets h1 => costs_cnt_bind fun y _ => costs_cnt_bind fun rands h2 =>
    costs_cnt_bind fun randsN h3 => costs_cnt_bind fun z _ => costs_cnt_bind fun zn _ => costs_cnt_bind fun zs _ => ?_
  refine (costs_bind (costs_mulRows a1 num _ fun r hr => ?_) fun shares _ => costs_bind (costs_mulRows b1 num _ fun r hr => ?_) fun sharesN _ =>
    costs_cnt _).of_eq ?_
  · rcases List.mem_append.1 hr with h | h
    · rw [toRows_width h1 r h]
    · rw [toRows_width h2 r h]
  · rcases List.mem_append.1 hr with h | h
    · rw [toRows_width h1 r h]
    · rw [toRows_width h3 r h]
  · rw [a2, a3, b2, b3]
    ring

theorem costs_rtFinish {ctx : Ctx F} (h : ctx.Good) (num : Nat) (mssgs : List (List F)) :
    Costs (rtFinishC ctx num mssgs) (rtFinish ctx num mssgs) (num * (2 * ctx.l * ctx.n)) := by
  obtain ⟨w1, w2, w3⟩ := secretCoeffs_wf h.pssN
  obtain ⟨s1, s2, s3⟩ := h.sizes
  unfold rtFinishC rtFinish
  refine costs_cnt_bind fun all ha => ?_
  have hw := toRows_width ha
  refine (costs_bind (costs_mulRows w1 num _ fun r hr => ?_) fun shares _ => costs_map _ (costs_mulRows w1 num _ fun r hr => ?_)).of_eq ?_
  · obtain ⟨x, hx, rfl⟩ := List.mem_map.1 hr
    rw [List.length_take, hw x hx]
    omega
  · obtain ⟨x, hx, rfl⟩ := List.mem_map.1 hr
    rw [List.length_drop, hw x hx]
    omega
  · rw [w2, w3, defaultPos_length', Nat.sub_add_cancel s3]
    ring

theorem costs_randtrans {ctx : Ctx F} (h : ctx.Good) (num : Nat) (tfs : List (SharingTransform F)) (randoms zeros : List (List F))
    (hr : ∀ r ∈ randoms, r.length = (ctx.n + ctx.t) * num) :
    Costs (randtransC ctx tfs randoms zeros) (randtrans ctx tfs randoms zeros) (num * rtCost ctx.n ctx.t ctx.l) := by
  obtain ⟨s1, s2, s3⟩ := h.sizes
  have hd : ∀ r ∈ randoms, r.length / (ctx.n + ctx.t) = num := fun r hm => by
    rw [hr r hm]
    exact Nat.mul_div_cancel_left _ (by omega)
  unfold randtransC randtrans
  refine (costs_bind (costs_mapM_range (k := num * (ctx.n * (ctx.t + ctx.l) + ctx.n * ctx.n)) fun i _ => ?_) fun mssgs _ =>
    costs_mapM_range (k := num * (2 * ctx.l * ctx.n)) fun i _ => ?_).of_eq ?_
  · refine costs_cnt_bind fun tr htr => costs_cnt_bind fun r hr => costs_cnt_bind fun z _ => ?_
    exact costs_rtSend htr num r z (hd r (List.mem_of_getElem? hr))
  · refine costs_cnt_bind fun inbox _ => costs_cnt_bind fun r hr => ?_
    rw [hd r (List.mem_of_getElem? hr)]
    exact costs_rtFinish h num inbox
  · unfold rtCost
    ring

/-! ### Preprocessing -/

omit [DecidableEq F] in
theorem costs_dealRound {n batches : Nat} {m : Mat F} (hm : m.WF) (hn : m.ncols = n) (sharings : List (List (List F))) :
    Costs (dealRoundC n batches m sharings) (dealRound n batches m sharings) (n * (batches * (m.rows.length * n))) := by
  unfold dealRoundC dealRound
  refine costs_cnt_bind fun mssgs _ => costs_mapM_range fun i _ => costs_cnt_bind fun inbox _ => ?_
  unfold dealFinishC dealFinish
  refine costs_cnt_bind fun sent hs => costs_map _ ?_
  refine (costs_mulRows hm batches sent fun r hr => by rw [toRows_width hs r hr]).of_eq ?_
  rw [hn]
  ring

theorem costs_rand {ctx : Ctx F} (h : ctx.Good) {m : Mat F} (hm : m.WF) (hn : m.ncols = ctx.n) (num batches : Nat)
    (hb : numBatches num m.rows.length = some batches) (tapes : List (List (List F))) :
    Costs (randC ctx m num tapes) (rand ctx m num tapes)
      (ctx.n * (batches * ((ctx.n - (ctx.t + ctx.l)) * (ctx.t + ctx.l) + m.rows.length * ctx.n))) := by
  obtain ⟨s1, s2, s3⟩ := h.sizes
  unfold randC rand
  refine costs_cnt_bind fun b hb' => ?_
  obtain rfl : b = batches := by rw [hb] at hb'; exact (Option.some.inj hb').symm
  refine (costs_bind (costs_mapM_range (k := b * ((ctx.n - (ctx.t + ctx.l)) * (ctx.t + ctx.l))) fun p _ => costs_mapM_range fun i _ =>
    costs_cnt_bind fun tp _ => costs_cnt_bind fun tape _ => ?_) fun sharings _ => costs_dealRound hm hn sharings).of_eq ?_
  · exact (costs_psRand h.pss tape).of_eq (by rw [Nat.sub_add_cancel s1])
  · ring

theorem costs_zero {ctx : Ctx F} (h : ctx.Good) {m : Mat F} (hm : m.WF) (hn : m.ncols = ctx.n) (num batches : Nat)
    (hb : numBatches num m.rows.length = some batches) (tapes : List (List (List F))) :
    Costs (zeroC ctx m num tapes) (zero ctx m num tapes) (ctx.n * (batches * (ctx.l * ctx.n + m.rows.length * ctx.n))) := by
  obtain ⟨s1, s2, s3⟩ := h.sizes
  unfold zeroC zero
  refine costs_cnt_bind fun b hb' => ?_
  obtain rfl : b = batches := by rw [hb] at hb'; exact (Option.some.inj hb').symm
  refine (costs_bind (costs_mapM_range (k := b * (ctx.l * ctx.n)) fun p _ => costs_mapM_range fun i _ =>
    costs_cnt_bind fun tp _ => costs_cnt_bind fun tape _ => ?_) fun sharings _ => costs_dealRound hm hn sharings).of_eq ?_
  · refine (costs_share h.pssN _ tape).of_eq ?_
    rw [Nat.sub_add_cancel s3, defaultPos_length', Nat.add_sub_cancel]
  · ring

theorem costs_randbit {ctx : Ctx F} (h : ctx.Good) {m : Mat F} (hm : m.WF) (hn : m.ncols = ctx.n) (num batches : Nat)
    (hb : numBatches num m.rows.length = some batches) (bits : List (List (List Bool))) (tapes : List (List (List F))) :
    Costs (randbitC ctx m num bits tapes) (randbit ctx m num bits tapes)
      (ctx.n * (batches * ((ctx.n - ctx.t) * (ctx.t + ctx.l) + m.rows.length * ctx.n))) := by
  obtain ⟨s1, s2, s3⟩ := h.sizes
  unfold randbitC randbit
  refine costs_cnt_bind fun b hb' => ?_
  obtain rfl : b = batches := by rw [hb] at hb'; exact (Option.some.inj hb').symm
  refine (costs_bind (costs_mapM_range (k := b * ((ctx.n - ctx.t) * (ctx.t + ctx.l))) fun p _ => costs_mapM_range fun i _ =>
    costs_cnt_bind fun bp _ => costs_cnt_bind fun bs _ => costs_cnt_bind fun tp _ => costs_cnt_bind fun tape _ =>
    costs_ite (fun _ => ?_) fun _ => costs_fail _) fun sharings _ => costs_dealRound hm hn sharings).of_eq ?_
  · refine (costs_share h.pss _ tape).of_eq ?_
    rw [Nat.sub_add_cancel s1, defaultPos_length', show ctx.l + ctx.n - (ctx.t + ctx.l) = ctx.n - ctx.t by omega]
  · ring

theorem costs_errorBatch {ctx : Ctx F} (h : ctx.Good) (bsize : Nat) (tp : ErrTapes F) (rbit0 rbit1 brand bzeros : List (List F))
    (h0 : ∀ v ∈ rbit0, v.length = bsize) :
    Costs (errorBatchC ctx bsize tp rbit0 rbit1 brand bzeros) (errorBatch ctx bsize tp rbit0 rbit1 brand bzeros)
      (2 * bsize * multCost ctx.n ctx.t ctx.l) := by
  unfold errorBatchC errorBatch
  refine costs_cnt_bind fun a _ => costs_cnt_bind fun b _ => ?_
  refine (costs_bind (costs_mult h bsize _ _ _ _ _ h0) fun biased hb => costs_cnt_bind fun c _ =>
    costs_mult h bsize _ _ _ _ _ (mult_lengths hb)).of_eq ?_
  ring

theorem costs_errorLoop {ctx : Ctx F} (h : ctx.Good) (bs : List (Nat × ErrTapes F)) (rbits erand ezeros : List (List F)) :
    Costs (errorLoopC ctx bs rbits erand ezeros) (errorLoop ctx bs rbits erand ezeros)
      (2 * (bs.map (·.1)).sum * multCost ctx.n ctx.t ctx.l) := by
  induction bs generalizing rbits erand ezeros with
  | nil => exact (costs_ret _).of_eq (by simp)
  | cons b bs ih =>
    obtain ⟨bsize, tp⟩ := b
    unfold errorLoopC errorLoop
    refine costs_cnt_bind fun a ha => costs_cnt_bind fun b _ => costs_cnt_bind fun c _ => costs_cnt_bind fun d _ => ?_
    refine (costs_bind (costs_errorBatch h bsize tp _ _ _ _ (drainAll_lengths (b := a.2) ha).2.2) fun errs _ =>
      costs_map _ (ih _ _ _)).of_eq ?_
    rw [List.map_cons, List.sum_cons]
    ring

omit [DecidableEq F] in
theorem errorBatches_sum {errors n : Nat} {sizes : List Nat} (h : errorBatches errors n = some sizes) : sizes.sum = errors := by
  unfold errorBatches at h
  split at h
  · cases h
  · next hn =>
    rw [Option.some.injEq] at h
    rw [← h, List.sum_append, List.sum_replicate, List.sum_singleton, smul_eq_mul]
    have : (n - 1) * (errors / n) ≤ errors := by
      calc (n - 1) * (errors / n) ≤ n * (errors / n) := Nat.mul_le_mul_right _ (by omega)
        _ ≤ errors := Nat.mul_div_le _ _
    omega

end

end Verif
