import Verif.AsyncBenchLemmas
import Verif.AsyncCommSpec
import Verif.AsyncRounds
import Verif.AsyncPreprocLemmas
import Verif.AsyncGarbleLemmas
import Verif.AsyncNetSeq

/-!
# Lemmas about the lengths of messages
-/

namespace Verif

variable {O : Type} {n : Nat}

/-- What a run without a leader sends. -/
theorem between_all {P : Proto O} (hL : P.leader = none) (envs : Nat → Env O) (p q : Nat) :
    P.between n envs p q = (((P.sends p (envs p)).getD []).filter fun a => a.1.includes q).map (·.2) := by
  unfold Proto.between
  rw [hL, if_neg (by simp), List.append_nil]

theorem round_sends {P : Proto O} {envs : Nat → Env O} {o : List O} (h : P.round n envs = some o) {p : Nat} (hp : p < n) :
    ∃ l, P.sends p (envs p) = some l := by
  unfold Proto.round at h
  obtain ⟨sent, h1, _⟩ := Option.bind_eq_some_iff.1 h
  obtain ⟨_, h2, _⟩ := mapM_range_get [] h1
  exact ⟨_, h2 p hp⟩

/-- A run without a leader in which every party sends vectors of one length. -/
theorem follows_all {F : Type} {c : Codec F} {B : Nat} (hw : c.Width B) {P : Proto O} (hL : P.leader = none)
    {envs : Nat → Env O} {k : Nat} {o : List O} (h : P.round n envs = some o)
    (hs : ∀ p < n, ∀ l, P.sends p (envs p) = some l → ∃ ms : List (List F), l = toEach (ms.map c.enc) ∧ ms.length = n ∧
      ∀ m ∈ ms, m.length = k) : P.Follows n B envs (.all k) := by
  have hw : ∀ v : List F, (c.enc v).length = 8 + B * v.length := hw
  intro p hp q hq
  obtain ⟨l, hl⟩ := round_sends h hp
  obtain ⟨ms, rfl, h1, h2⟩ := hs p hp l hl
  rw [between_all hL, hl, Option.getD_some, theMessage_filter (theMessage_map_enc h1 hq)]
  have : ms.getD q [] ∈ ms := by
    rw [List.getD_eq_getElem?_getD, List.getElem?_eq_getElem (by omega), Option.getD_some]
    exact List.getElem_mem _
  simp only [List.map_cons, List.map_nil, Pattern.elems, hw, h2 _ this]

/-- A run with a leader in which all messages are vectors of one length. -/
theorem follows_via {F : Type} {c : Codec F} {B : Nat} (hw : c.Width B) {P : Proto O} {L : Nat} (hL : P.leader = some L)
    {envs : Nat → Env O} {k : Nat} {o : List O} (h : P.round n envs = some o)
    (hs : ∀ p < n, ∀ l, P.sends p (envs p) = some l → ∃ m : List F, l = [(.one L, c.enc m)] ∧ m.length = k)
    (ha : ∀ ms rs, P.answer (envs L) ms = some rs → ∃ rs' : List (List F), rs = rs'.map c.enc ∧ ∀ r ∈ rs', r.length = k) :
    P.Follows n B envs (.via L k) := by
  have hw : ∀ v : List F, (c.enc v).length = 8 + B * v.length := hw
  intro p hp q hq
  obtain ⟨l, hl⟩ := round_sends h hp
  obtain ⟨m, rfl, h1⟩ := hs p hp l hl
  unfold Proto.round at h
  obtain ⟨sent, r1, h⟩ := Option.bind_eq_some_iff.1 h
  rw [hL] at h
  split at h
  swap
  · cases h
  simp only [] at h
  split at h
  swap
  · cases h
  obtain ⟨ms, r2, h⟩ := Option.bind_eq_some_iff.1 h
  obtain ⟨rs, r3, h⟩ := Option.bind_eq_some_iff.1 h
  split at h
  swap
  · cases h
  rename_i hrl
  have hms : ((List.range n).mapM fun r => (P.sends r (envs r)).bind (theMessage L)) = some ms := by
    obtain ⟨g1, g2, _⟩ := mapM_range_get [] r1
    have hsent := range_getD sent []
    rw [g1] at hsent
    rw [hsent, List.mapM_map] at r2
    rw [← r2]
    refine mapM_congr_mem fun r hr => ?_
    rw [g2 r (List.mem_range.1 hr)]
    rfl
  obtain ⟨rs', rfl, hr'⟩ := ha ms rs r3
  unfold Proto.between
  rw [hl, Option.getD_some, hL]
  have e1 : (([(Recipient.one L, c.enc m)].filter fun a => a.1.includes q).map (·.2)).map List.length
      = (if q = L then [k] else []).map fun k => 8 + B * k := by
    by_cases hqL : q = L
    · simp [hqL, Recipient.includes, hw, h1]
    · have : ¬ L = q := fun h => hqL h.symm
      simp [hqL, this, Recipient.includes]
  rw [List.map_append, e1]
  simp only [Pattern.elems, List.map_append]
  congr 1
  by_cases hpL : p = L
  · subst hpL
    rw [if_pos rfl, if_pos rfl, hms, Option.bind_some, r3, Option.bind_some]
    rw [List.length_map] at hrl
    have hrq : rs'[q]? = some (rs'[q]'(by omega)) := List.getElem?_eq_getElem _
    rw [List.getElem?_map, hrq]
    simp [hw, hr' _ (List.getElem_mem (l := rs') (n := q) (by omega))]
  · rw [if_neg (by simpa using fun h => hpL h.symm), if_neg hpL]
    rfl

section
variable {F : Type} [CodeField F] [DecidableEq F] {c : Codec F} {B : Nat}

theorem columns_length {α : Type} {num : Nat} {flat : List α} {rs : List (List α)}
    (h : (toRows num n flat).map (fun s => (List.range n).map fun i => col i s) = some rs) :
    rs.length = n ∧ ∀ r ∈ rs, r.length = num := by
  obtain ⟨rows, h1, h2⟩ := Option.map_eq_some_iff.1 h
  subst h2
  refine ⟨by simp, fun r hr => ?_⟩
  rw [List.mem_map] at hr
  obtain ⟨i, hi, rfl⟩ := hr
  rw [col_length, toRows_length h1]
  intro r hr
  rw [toRows_width h1 r hr]
  exact List.mem_range.1 hi

omit [DecidableEq F] in
theorem deal_follows (hw : c.Width B) {batches : Nat} {superInv : Mat F} {sharings : Nat → Option (List (List F))}
    {ret : List F → O} {envs : Nat → Env O} {o : List O}
    (h : (dealProto c n batches superInv sharings ret).round n envs = some o) :
    (dealProto c n batches superInv sharings ret).Follows n B envs (.all batches) := by
  refine follows_all hw rfl h fun p _ l hl => ?_
  obtain ⟨s, _, hl⟩ := Option.bind_eq_some_iff.1 hl
  obtain ⟨ms, hms, rfl⟩ := Option.map_eq_some_iff.1 hl
  exact ⟨ms, rfl, columns_length hms⟩

omit [DecidableEq F] in
theorem rd_follows (hw : c.Width B) {ctx : Ctx F} {L : Nat} {tapes : List (List F)}
    {inp : Nat → Env O → Option (List F × List F × List F)} {ret : List F → O} {envs : Nat → Env O} {o : List O}
    (h : (rdProto c ctx L tapes inp ret).round ctx.n envs = some o) {k : Nat}
    (hin : ∀ p, ∀ i, inp p (envs p) = some i → i.1.length = k) :
    (rdProto c ctx L tapes inp ret).Follows ctx.n B envs (.via L k) := by
  refine follows_via hw rfl h (fun p _ l hl => ?_) fun ms rs hrs => ?_
  · obtain ⟨i, hi, hl⟩ := Option.bind_eq_some_iff.1 hl
    obtain ⟨m, hm, rfl⟩ := Option.map_eq_some_iff.1 hl
    exact ⟨m, rfl, by rw [rdSend_length hm, hin p i hi]⟩
  · obtain ⟨i, hi, hrs⟩ := Option.bind_eq_some_iff.1 hrs
    obtain ⟨ms', _, hrs⟩ := Option.bind_eq_some_iff.1 hrs
    obtain ⟨rs', hrs', rfl⟩ := Option.map_eq_some_iff.1 hrs
    refine ⟨rs', rfl, ?_⟩
    unfold rdLeader at hrs'
    obtain ⟨_, _, hrs'⟩ := Option.bind_eq_some_iff.1 hrs'
    obtain ⟨_, _, hrs'⟩ := Option.bind_eq_some_iff.1 hrs'
    rw [← hin L i hi]
    exact (columns_length hrs').2

omit [DecidableEq F] in
theorem mult_follows (hw : c.Width B) {ctx : Ctx F} {L : Nat} {tapes : List (List F)}
    {inp : Nat → Env O → Option (List F × List F × List F × List F)} {ret : List F → O} {envs : Nat → Env O} {o : List O}
    (h : (multProto c ctx L tapes inp ret).round ctx.n envs = some o) {k : Nat}
    (hin : ∀ p, ∀ i, inp p (envs p) = some i → i.1.length = k ∨ i.2.1.length = k) :
    (multProto c ctx L tapes inp ret).Follows ctx.n B envs (.via L k) := by
  refine rd_follows hw h fun p i hi => ?_
  obtain ⟨j, hj, hi⟩ := Option.bind_eq_some_iff.1 hi
  split at hi
  · rename_i hl
    rw [Option.some.injEq] at hi
    subst hi
    have := hin p j hj
    simp only [vmul, List.length_zipWith]
    omega
  · cases hi

theorem trans_follows (hw : c.Width B) {ctx : Ctx F} {tr : SharingTransform F} {L : Nat} {tapes : List (List F)}
    {inp : Nat → Env O → Option (List F × List F × List F)} {ret : List F → O} {envs : Nat → Env O} {o : List O}
    (h : (transProto c ctx tr L tapes inp ret).round ctx.n envs = some o) {k : Nat}
    (hin : ∀ p, ∀ i, inp p (envs p) = some i → i.1.length = k) :
    (transProto c ctx tr L tapes inp ret).Follows ctx.n B envs (.via L k) := by
  refine follows_via hw rfl h (fun p _ l hl => ?_) fun ms rs hrs => ?_
  · obtain ⟨i, hi, hl⟩ := Option.bind_eq_some_iff.1 hl
    obtain ⟨m, hm, rfl⟩ := Option.map_eq_some_iff.1 hl
    refine ⟨m, rfl, ?_⟩
    unfold transSend at hm
    split at hm
    · rename_i hl
      rw [Option.some.injEq] at hm
      rw [← hm, ← hin p i hi]
      simp [vadd, hl]
    · cases hm
  · obtain ⟨i, hi, hrs⟩ := Option.bind_eq_some_iff.1 hrs
    obtain ⟨ms', _, hrs⟩ := Option.bind_eq_some_iff.1 hrs
    obtain ⟨rs', hrs', rfl⟩ := Option.map_eq_some_iff.1 hrs
    refine ⟨rs', rfl, ?_⟩
    unfold transLeader at hrs'
    split at hrs'
    · cases hrs'
    obtain ⟨_, _, hrs'⟩ := Option.bind_eq_some_iff.1 hrs'
    obtain ⟨_, _, hrs'⟩ := Option.bind_eq_some_iff.1 hrs'
    obtain ⟨_, _, hrs'⟩ := Option.bind_eq_some_iff.1 hrs'
    obtain ⟨_, _, hrs'⟩ := Option.bind_eq_some_iff.1 hrs'
    obtain ⟨_, _, hrs'⟩ := Option.bind_eq_some_iff.1 hrs'
    rw [← hin L i hi]
    exact (columns_length hrs').2

omit [DecidableEq F] in
theorem rtSend_length_eq {ctx : Ctx F} {tr : RandTransform F} {randoms zeros : List F} {ms : List (List F)}
    (h : rtSend ctx tr randoms zeros = some ms) :
    ms.length = ctx.n ∧ 0 < ctx.n + ctx.t ∧ ∀ m ∈ ms, m.length = 2 * (randoms.length / (ctx.n + ctx.t)) := by
  refine ⟨(rtSend_length h).1, ?_⟩
  unfold rtSend at h
  by_cases hbad : ctx.n + ctx.t = 0 ∨ ctx.n < ctx.l
  · rw [if_pos hbad] at h
    cases h
  · rw [if_neg hbad] at h
    obtain ⟨⟨a, r1⟩, _, h⟩ := Option.bind_eq_some_iff.1 h
    obtain ⟨sec, _, h⟩ := Option.bind_eq_some_iff.1 h
    obtain ⟨⟨b, r2⟩, _, h⟩ := Option.bind_eq_some_iff.1 h
    obtain ⟨rands, _, h⟩ := Option.bind_eq_some_iff.1 h
    obtain ⟨randsN, _, h⟩ := Option.bind_eq_some_iff.1 h
    obtain ⟨⟨z, z2⟩, _, h⟩ := Option.bind_eq_some_iff.1 h
    obtain ⟨zerosN, e1, h⟩ := Option.bind_eq_some_iff.1 h
    obtain ⟨zs, e2, h⟩ := Option.bind_eq_some_iff.1 h
    obtain ⟨shares, e3, h⟩ := Option.bind_eq_some_iff.1 h
    obtain ⟨sharesN, e4, h⟩ := Option.bind_eq_some_iff.1 h
    refine ⟨by omega, ?_⟩
    split at h
    · next hl =>
      rw [Option.some.injEq] at h
      subst h
      intro m hm
      obtain ⟨s, hs, sn, hsn, rfl⟩ := mem_zipWith hm
      unfold addRows at hs hsn
      obtain ⟨x, hx, y, hy, rfl⟩ := mem_zipWith hs
      obtain ⟨x', hx', y', hy', rfl⟩ := mem_zipWith hsn
      have f1 := mulRows_length e3 x hx
      have f2 := mulRows_length e4 x' hx'
      have f3 := toRows_width e2 y hy
      have f4 := toRows_width e1 y' hy'
      simp only [List.length_append, vadd, List.length_zipWith]
      omega
    · cases h

theorem rt_follows (hw : c.Width B) {ctx : Ctx F} {tfs : List (SharingTransform F)}
    {inp : Nat → Env O → Option (List F × List F)} {ret : List (List F) × List (List F) → O} {envs : Nat → Env O} {o : List O}
    (h : (rtProto c ctx tfs inp ret).round ctx.n envs = some o) {reps : Nat}
    (hin : ∀ p, ∀ i, inp p (envs p) = some i → i.1.length = (ctx.n + ctx.t) * reps) :
    (rtProto c ctx tfs inp ret).Follows ctx.n B envs (.all (2 * reps)) := by
  refine follows_all hw rfl h fun p _ l hl => ?_
  obtain ⟨i, hi, hl⟩ := Option.bind_eq_some_iff.1 hl
  obtain ⟨tr, _, hl⟩ := Option.bind_eq_some_iff.1 hl
  obtain ⟨ms, hms, rfl⟩ := Option.map_eq_some_iff.1 hl
  obtain ⟨h1, h2, h3⟩ := rtSend_length_eq hms
  refine ⟨ms, rfl, h1, fun m hm => ?_⟩
  rw [h3 m hm, hin p i hi, Nat.mul_div_cancel_left _ h2]

end

/-! ## `preproc` -/

section
variable {F : Type} [CodeField F] [DecidableEq F] {c : Codec F} {B : Nat}

theorem drain_length {α : Type} {k : Nat} {l a b : List α} (h : drain k l = some (a, b)) : a.length = k := by
  unfold drain at h
  split at h
  · rename_i hk
    rw [Option.some.injEq, Prod.mk.injEq] at h
    rw [← h.1, List.length_take]
    omega
  · cases h

theorem errIns_length {sizes : List Nat} {x y z : List F} {ins : List (ErrIn F)} (h : errIns sizes x y z = some ins) :
    ∀ (a k : Nat) (i : ErrIn F), sizes[a]? = some k → ins[a]? = some i → i.rbit0.length = k ∧ i.scalars.length = k := by
  induction sizes generalizing x y z ins with
  | nil => intro a k i hk; simp at hk
  | cons b sizes ih =>
    unfold errIns at h
    obtain ⟨⟨rbit0, x1⟩, d1, h⟩ := Option.bind_eq_some_iff.1 h
    simp only [] at h
    obtain ⟨⟨rbit1, x2⟩, d2, h⟩ := Option.bind_eq_some_iff.1 h
    simp only [] at h
    obtain ⟨⟨brand, y1⟩, d3, h⟩ := Option.bind_eq_some_iff.1 h
    simp only [] at h
    obtain ⟨⟨bz, z1⟩, d4, h⟩ := Option.bind_eq_some_iff.1 h
    simp only [] at h
    obtain ⟨⟨rands, br1⟩, d5, h⟩ := Option.bind_eq_some_iff.1 h
    simp only [] at h
    obtain ⟨⟨zeros, bz1⟩, d6, h⟩ := Option.bind_eq_some_iff.1 h
    simp only [] at h
    obtain ⟨⟨scalars, br2⟩, d7, h⟩ := Option.bind_eq_some_iff.1 h
    simp only [] at h
    obtain ⟨more, hm, rfl⟩ := Option.map_eq_some_iff.1 h
    intro a k i hk hi
    cases a with
    | zero =>
      cases hk
      cases hi
      exact ⟨drain_length d1, drain_length d7⟩
    | succ a => exact ih hm a k i (by simpa using hk) (by simpa using hi)

theorem preIns_length {desc : PreProcCount} {env : Env (List F)} {ins : List (ErrIn F)} {sizes : List Nat}
    (hsz : errorBatches desc.errors n = some sizes) (h : preIns desc n env = some ins) :
    ∀ (a k : Nat) (i : ErrIn F), sizes[a]? = some k → ins[a]? = some i → i.rbit0.length = k ∧ i.scalars.length = k := by
  unfold preIns at h
  obtain ⟨_, _, h⟩ := Option.bind_eq_some_iff.1 h
  obtain ⟨_, _, h⟩ := Option.bind_eq_some_iff.1 h
  obtain ⟨_, _, h⟩ := Option.bind_eq_some_iff.1 h
  obtain ⟨_, _, h⟩ := Option.bind_eq_some_iff.1 h
  obtain ⟨_, _, h⟩ := Option.bind_eq_some_iff.1 h
  obtain ⟨_, _, h⟩ := Option.bind_eq_some_iff.1 h
  obtain ⟨sz, h1, h⟩ := Option.bind_eq_some_iff.1 h
  rw [hsz, Option.some.injEq] at h1
  subst h1
  exact errIns_length h

theorem errorBatches_length {e : Nat} {sizes : List Nat} (h : errorBatches e n = some sizes) : sizes.length = n := by
  unfold errorBatches at h
  split at h
  · cases h
  · rw [Option.some.injEq] at h
    rw [← h]
    simp
    omega

/-- The lengths of the messages of `preproc`. -/
theorem preproc_follows (hw : c.Width B) {ctx : Ctx F} {m mb : Mat F} {desc : PreProcCount} {tp : PreTapes F}
    {id : ProtocolID} {jobs : List (Job (List F))} (hjobs : preprocJobs c ctx m mb desc tp id = some jobs)
    (hlen : jobs.length = 3 + 2 * ctx.n) {outs : List (List (List F))} (hseq : seqRun ctx.n jobs = some outs)
    {br bz bb : Nat} {sizes : List Nat}
    (hbr : numBatches (desc.numKeys + desc.randoms + 3 * desc.errors) m.rows.length = some br)
    (hbz : numBatches (desc.zeros + 2 * desc.errors) m.rows.length = some bz)
    (hbb : numBatches (desc.masks + 2 * desc.errors) mb.rows.length = some bb)
    (hsz : errorBatches desc.errors ctx.n = some sizes) :
    JobsFollow ctx.n B jobs outs (preprocPatterns br bz bb sizes) := by
  have hsl := errorBatches_length hsz
  have hround := (seqFrom_spec hseq).2.2
  refine ⟨by simp [preprocPatterns, hsl, hlen]; omega, fun j job s hj hs => ?_⟩
  have hoj : ∃ o, job.proto.round ctx.n (seqEnv outs job.deps) = some o := by
    rw [(hround j job hj).2, List.length_nil, Nat.zero_add, List.getElem?_eq_getElem]
    · exact ⟨_, rfl⟩
    · rw [(seqFrom_spec hseq).1, List.length_nil, Nat.zero_add]
      exact (List.getElem?_eq_some_iff.1 hj).1
  obtain ⟨o, ho⟩ := hoj
  unfold preprocJobs at hjobs
  obtain ⟨ids, _, hjobs⟩ := Option.bind_eq_some_iff.1 hjobs
  rw [hbr, Option.bind_some, hbz, Option.bind_some, hbb, Option.map_some, Option.some.injEq] at hjobs
  rw [← hjobs, List.getElem?_map] at hj
  obtain ⟨⟨jid, st⟩, hzip, rfl⟩ := Option.map_eq_some_iff.1 hj
  have hst := (List.getElem?_zip_eq_some.1 hzip).2
  simp only [] at ho ⊢
  match j, hst, hs with
  | 0, hst, hs =>
    cases hst
    cases hs
    exact deal_follows hw ho
  | 1, hst, hs =>
    cases hst
    cases hs
    exact deal_follows hw ho
  | 2, hst, hs =>
    cases hst
    cases hs
    exact deal_follows hw ho
  | i + 3, hst, hs =>
    have hst' : (tp.errs.zipIdx.flatMap fun e => errJobs c ctx desc e.2 e.1)[i]? = some st := hst
    have hs' : (sizes.zipIdx.flatMap fun s => [Pattern.via s.2 s.1, Pattern.via s.2 s.1])[i]? = some s := hs
    unfold errJobs at hst'
    rw [flatMap_pair] at hst' hs'
    have hs'' : ∃ k, sizes[i / 2]? = some k ∧ s = .via (i / 2) k := by
      simp only [ite_self] at hs'
      obtain ⟨a, ha, rfl⟩ := Option.map_eq_some_iff.1 hs'
      rw [List.getElem?_zipIdx] at ha
      obtain ⟨k, hk, rfl⟩ := Option.map_eq_some_iff.1 ha
      exact ⟨k, hk, by simp⟩
    obtain ⟨k, hk, rfl⟩ := hs''
    split at hst'
    · obtain ⟨a, ha, rfl⟩ := Option.map_eq_some_iff.1 hst'
      rw [List.getElem?_zipIdx] at ha
      obtain ⟨e, he, rfl⟩ := Option.map_eq_some_iff.1 ha
      simp only [Nat.zero_add] at ho ⊢
      refine mult_follows hw ho fun p x hx => ?_
      obtain ⟨ins, h1, hx⟩ := Option.bind_eq_some_iff.1 hx
      obtain ⟨i', h2, rfl⟩ := Option.map_eq_some_iff.1 hx
      exact Or.inl (preIns_length hsz h1 _ _ _ hk h2).1
    · obtain ⟨a, ha, rfl⟩ := Option.map_eq_some_iff.1 hst'
      rw [List.getElem?_zipIdx] at ha
      obtain ⟨e, he, rfl⟩ := Option.map_eq_some_iff.1 ha
      simp only [Nat.zero_add] at ho ⊢
      refine mult_follows hw ho fun p x hx => ?_
      obtain ⟨ins, h1, hx⟩ := Option.bind_eq_some_iff.1 hx
      obtain ⟨i', h2, hx⟩ := Option.bind_eq_some_iff.1 hx
      obtain ⟨b, h3, rfl⟩ := Option.map_eq_some_iff.1 hx
      exact Or.inr (preIns_length hsz h1 _ _ _ hk h2).2

end

/-! ## `garble` -/

section
variable {F : Type} [CodeField F] [DecidableEq F] {c : Codec F} {B : Nat}

/-- The messages of a step have the lengths of a pattern, whatever the step gets. -/
def StepFollows (n B : Nat) (st : GStep F) (pt : ProtocolID → Pattern) : Prop :=
  ∀ id envs o, (st.proto id).round n envs = some o → (st.proto id).Follows n B envs (pt id)

theorem rtSlices_length {ctx : Ctx F} {reps k : Nat} {x y : List F} {sl : List (List F × List F)}
    (h : rtSlices ctx reps k x y = some sl) : ∀ s ∈ sl, s.1.length = (ctx.n + ctx.t) * reps := by
  induction k generalizing x y sl with
  | zero =>
    cases h
    simp
  | succ k ih =>
    unfold rtSlices at h
    obtain ⟨⟨r, x'⟩, d1, h⟩ := Option.bind_eq_some_iff.1 h
    obtain ⟨⟨z, y'⟩, d2, h⟩ := Option.bind_eq_some_iff.1 h
    obtain ⟨more, hm, rfl⟩ := Option.map_eq_some_iff.1 h
    intro s hs
    rcases List.mem_cons.1 hs with rfl | hs
    · exact drain_length d1
    · exact ih hm s hs

theorem rtMaterial_length {ctx : Ctx F} {tfs : List (SharingTransform F)} {reps : Nat} {x y : List F}
    {r : List (List F × List F) × List F × List F} (h : rtMaterial ctx tfs reps x y = some r) :
    ∀ s ∈ r.1, s.1.length = (ctx.n + ctx.t) * reps := by
  unfold rtMaterial at h
  obtain ⟨_, _, h⟩ := Option.bind_eq_some_iff.1 h
  obtain ⟨_, _, h⟩ := Option.bind_eq_some_iff.1 h
  obtain ⟨_, _, h⟩ := Option.bind_eq_some_iff.1 h
  obtain ⟨sl, h1, rfl⟩ := Option.map_eq_some_iff.1 h
  exact rtSlices_length h1

theorem garbleMaterial_length {ctx : Ctx F} {g : GarbleCtx F} {pre : PreProc F}
    {r : List (List F × List F) × List (List F × List F) × List F × List F} (h : garbleMaterial ctx g pre = some r) :
    (∀ s ∈ r.1, s.1.length = (ctx.n + ctx.t) * (2 * g.lpn.keyLen + 1)) ∧
      ∀ s ∈ r.2.1, s.1.length = (ctx.n + ctx.t) * (2 * g.lpn.keyLen + 1) := by
  unfold garbleMaterial at h
  obtain ⟨a, h1, h⟩ := Option.bind_eq_some_iff.1 h
  obtain ⟨b, h2, rfl⟩ := Option.map_eq_some_iff.1 h
  exact ⟨rtMaterial_length h1, rtMaterial_length h2⟩

theorem gateSteps_follow (hw : c.Width B) (ctx : Ctx F) (lead : ProtocolID → Nat) (keyLen : Nat) (deps : List Nat)
    (gin : Nat → Env (GOut F) → Option (GateIn F)) (off : Nat) (tp : GateTapes F) (kind : GateKind) :
    List.Forall₂ (StepFollows ctx.n B) (gateSteps c ctx lead keyLen deps gin off tp kind)
      ((kind.mults keyLen).map fun k id => .via (lead id) k) := by
  cases kind with
  | and =>
    refine .cons ?_ (.cons ?_ .nil)
    · intro id envs o h
      refine mult_follows hw h fun p i hi => ?_
      obtain ⟨a, _, hi⟩ := Option.bind_eq_some_iff.1 hi
      unfold andFirst at hi
      obtain ⟨_, _, hi⟩ := Option.bind_eq_some_iff.1 hi
      obtain ⟨_, _, hi⟩ := Option.bind_eq_some_iff.1 hi
      obtain ⟨_, _, rfl⟩ := Option.map_eq_some_iff.1 hi
      exact Or.inl rfl
    · intro id envs o h
      refine mult_follows hw h fun p i hi => ?_
      obtain ⟨a, _, hi⟩ := Option.bind_eq_some_iff.1 hi
      obtain ⟨b, _, hi⟩ := Option.bind_eq_some_iff.1 hi
      unfold andSecond at hi
      obtain ⟨_, _, hi⟩ := Option.bind_eq_some_iff.1 hi
      obtain ⟨_, _, hi⟩ := Option.bind_eq_some_iff.1 hi
      obtain ⟨_, _, hi⟩ := Option.bind_eq_some_iff.1 hi
      obtain ⟨_, _, hi⟩ := Option.bind_eq_some_iff.1 hi
      obtain ⟨_, _, rfl⟩ := Option.map_eq_some_iff.1 hi
      left
      simp only [andSelector, List.length_append, List.length_replicate]
      omega
  | xor =>
    refine .cons ?_ .nil
    intro id envs o h
    refine mult_follows hw h fun p i hi => ?_
    obtain ⟨a, _, hi⟩ := Option.bind_eq_some_iff.1 hi
    unfold xorArgs at hi
    obtain ⟨_, _, hi⟩ := Option.bind_eq_some_iff.1 hi
    split at hi
    · rw [Option.some.injEq] at hi
      subst hi
      exact Or.inl (by simp)
    · cases hi
  | inv =>
    refine .cons ?_ .nil
    intro id envs o h
    refine mult_follows hw h fun p i hi => ?_
    obtain ⟨a, _, hi⟩ := Option.bind_eq_some_iff.1 hi
    unfold invArgs at hi
    obtain ⟨_, _, hi⟩ := Option.bind_eq_some_iff.1 hi
    split at hi
    · rw [Option.some.injEq] at hi
      subst hi
      exact Or.inl (by simp)
    · cases hi

theorem gatesSteps_follow (hw : c.Width B) (ctx : Ctx F) (lead : ProtocolID → Nat) (keyLen : Nat) (deps : List Nat)
    (gins : Nat → Env (GOut F) → Option (List (GateIn F))) (off gid : Nat) (gs : List (GateKind × GateTapes F)) :
    List.Forall₂ (StepFollows ctx.n B) (gatesSteps c ctx lead keyLen deps gins off gid gs)
      (((gs.map (·.1)).flatMap (GateKind.mults keyLen)).map fun k id => .via (lead id) k) := by
  induction gs generalizing off gid with
  | nil => exact .nil
  | cons a gs ih =>
    obtain ⟨kind, tp⟩ := a
    rw [gatesSteps, List.map_cons, List.flatMap_cons, List.map_append]
    exact List.rel_append (gateSteps_follow hw ctx lead keyLen deps _ off tp kind) (ih _ _)

theorem forall₂_zipIdx {α β γ : Type} {R : β → γ → Prop} {f : α × Nat → β} {h : Nat → γ} (l : List α) (k : Nat)
    (hr : ∀ a ∈ l, ∀ i, R (f (a, i)) (h i)) : List.Forall₂ R ((l.zipIdx k).map f) ((List.range' k l.length).map h) := by
  induction l generalizing k with
  | nil => exact .nil
  | cons a l ih =>
    rw [List.zipIdx_cons, List.length_cons, List.range'_succ]
    exact .cons (hr a (by simp) k) (ih _ fun b hb i => hr b (by simp [hb]) i)

theorem forall₂_zipIdx' {α β γ : Type} {R : β → γ → Prop} {f : α × Nat → β} {h : Nat → γ} (l : List α) (m : Nat)
    (hm : l.length = m) (hr : ∀ a ∈ l, ∀ i, R (f (a, i)) (h i)) :
    List.Forall₂ R (l.zipIdx.map f) ((List.range m).map h) := by
  subst hm
  rw [List.range_eq_range']
  exact forall₂_zipIdx l 0 hr

/-- The lengths of the messages of the steps of `garble`. -/
theorem garbleSteps_follow (hw : c.Width B) (ctx : Ctx F) (g : GarbleCtx F) (lead : ProtocolID → Nat) (tp : GarbleTapes F)
    (pre : List (PreProc F)) {go gi : List (List (SharingTransform F))} (hgo : chunks? ctx.l g.tfOut = some go)
    (hgi : chunks? ctx.l g.tfInp = some gi) (ho : g.tfOut.length ≤ tp.out.length) (hi : g.tfInp.length ≤ tp.inp.length)
    (hg : g.circ.gates.length ≤ tp.gates.length) :
    List.Forall₂ (StepFollows ctx.n B) (garbleSteps c ctx g lead tp pre go gi)
      (garblePatterns ctx.n ctx.l g.lpn.keyLen g.tfOut.length g.tfInp.length (g.circ.gates.map PackedGate.kind) lead) := by
  have hcl : ∀ {l : List (SharingTransform F)} {ch : List (List (SharingTransform F))}, chunks? ctx.l l = some ch →
      (l.length + ctx.l - 1) / ctx.l = ch.length := by
    intro l ch h
    unfold chunks? at h
    split at h
    · cases h
    · rw [Option.some.injEq] at h
      subst h
      exact (chunks_length _ _ ‹_›).symm
  have hrep : ∀ (m : Nat) (x : ProtocolID → Pattern), List.replicate m x = (List.range' 0 m).map fun _ => x := by
    intro m x
    simp [List.map_const']
  unfold garbleSteps garblePatterns
  refine List.rel_append (List.rel_append (List.rel_append (List.rel_append ?_ ?_) ?_) ?_) ?_
  · rw [hcl hgo, hrep]
    refine forall₂_zipIdx go 0 fun a _ i => ?_
    intro id envs o h
    refine rt_follows hw h fun p x hx => ?_
    obtain ⟨pr, _, hx⟩ := Option.bind_eq_some_iff.1 hx
    obtain ⟨m, hm, hx⟩ := Option.bind_eq_some_iff.1 hx
    exact (garbleMaterial_length hm).1 _ (List.mem_of_getElem? hx)
  · rw [hcl hgi, hrep]
    refine forall₂_zipIdx gi 0 fun a _ i => ?_
    intro id envs o h
    refine rt_follows hw h fun p x hx => ?_
    obtain ⟨pr, _, hx⟩ := Option.bind_eq_some_iff.1 hx
    obtain ⟨m, hm, hx⟩ := Option.bind_eq_some_iff.1 hx
    exact (garbleMaterial_length hm).2 _ (List.mem_of_getElem? hx)
  · have hl : (g.tfOut.zip tp.out).length = g.tfOut.length := by simp; omega
    refine forall₂_zipIdx' _ _ hl fun a _ i => ?_
    intro id envs o h
    refine trans_follows hw h fun p x hx => ?_
    obtain ⟨pr, _, hx⟩ := Option.bind_eq_some_iff.1 hx
    unfold outTransIn at hx
    obtain ⟨_, _, hx⟩ := Option.bind_eq_some_iff.1 hx
    obtain ⟨_, _, hx⟩ := Option.bind_eq_some_iff.1 hx
    obtain ⟨inp, hinp, hx⟩ := Option.bind_eq_some_iff.1 hx
    obtain ⟨y, hy, hx⟩ := Option.bind_eq_some_iff.1 hx
    obtain ⟨_, _, hx⟩ := Option.bind_eq_some_iff.1 hx
    obtain ⟨_, _, rfl⟩ := Option.map_eq_some_iff.1 hx
    exact outInput_width hinp y (List.mem_of_getElem? hy)
  · have hl : (g.tfInp.zip tp.inp).length = g.tfInp.length := by simp; omega
    refine forall₂_zipIdx' _ _ hl fun a _ i => ?_
    intro id envs o h
    refine trans_follows hw h fun p x hx => ?_
    unfold inpTransIn at hx
    obtain ⟨_, _, hx⟩ := Option.bind_eq_some_iff.1 hx
    obtain ⟨inp, hinp, hx⟩ := Option.bind_eq_some_iff.1 hx
    obtain ⟨_, _, hx⟩ := Option.bind_eq_some_iff.1 hx
    obtain ⟨_, _, hx⟩ := Option.bind_eq_some_iff.1 hx
    obtain ⟨y, hy, hx⟩ := Option.bind_eq_some_iff.1 hx
    obtain ⟨_, _, hx⟩ := Option.bind_eq_some_iff.1 hx
    obtain ⟨_, _, rfl⟩ := Option.map_eq_some_iff.1 hx
    exact selectAll_width hinp y (List.mem_of_getElem? hy)
  · have hk : ((g.circ.gates.map PackedGate.kind).zip tp.gates).map (·.1) = g.circ.gates.map PackedGate.kind :=
      List.map_fst_zip (by simpa using hg)
    have h := gatesSteps_follow hw ctx lead g.lpn.keyLen
      ((List.range g.tfInp.length).map (go.length + gi.length + g.tfOut.length + ·))
      (fun p env => pre[p]?.bind fun pr => gatesIn ctx g p pr (go.length + gi.length + g.tfOut.length) env)
      (go.length + gi.length + g.tfOut.length + g.tfInp.length) 0 ((g.circ.gates.map PackedGate.kind).zip tp.gates)
    rw [hk] at h
    exact h

theorem mapM_range_lt {α : Type} {m : Nat} {f : Nat → Option α} {r : List α} (h : (List.range m).mapM f = some r) :
    ∀ i < m, ∃ a, f i = some a := by
  intro i hi
  by_contra hne
  rw [mapM_none_of_mem f _ i (List.mem_range.2 hi) (Option.eq_none_iff_forall_ne_some.2 fun a ha => hne ⟨a, ha⟩)] at h
  cases h

/-- `transform` succeeds only if there is a tape for each transformation. -/
theorem transform_tapes {ctx : Ctx F} {tfs : List (SharingTransform F)} {reps : Nat} {tapes : List (List (List F))}
    {inp rand randN res : List (List (List F))} (h : transform ctx tfs reps tapes inp rand randN = some res) :
    tfs.length ≤ tapes.length := by
  unfold transform at h
  obtain ⟨outs, h1, _⟩ := Option.bind_eq_some_iff.1 h
  rcases Nat.eq_zero_or_pos tfs.length with h0 | h0
  · omega
  · obtain ⟨a, ha⟩ := mapM_range_lt h1 (tfs.length - 1) (by omega)
    obtain ⟨_, _, ha⟩ := Option.bind_eq_some_iff.1 ha
    obtain ⟨_, ha, _⟩ := Option.bind_eq_some_iff.1 ha
    have := (List.getElem?_eq_some_iff.1 ha).1
    omega

/-- `garble` succeeds only if there are tapes for all transformations and gates. -/
theorem garble_tapes {ctx : Ctx F} {g : GarbleCtx F} {tp : GarbleTapes F} {pre : List (PreProc F)}
    {r : List (List (List (List F))) × GarbleState F} (h : garble ctx g tp pre = some r) :
    g.tfOut.length ≤ tp.out.length ∧ g.tfInp.length ≤ tp.inp.length ∧ g.circ.gates.length ≤ tp.gates.length := by
  unfold garble at h
  obtain ⟨⟨a1, a2, a3, a4⟩, h1, h⟩ := Option.bind_eq_some_iff.1 h
  simp only [] at h
  split at h
  · next hg =>
    unfold garbleInputs at h1
    obtain ⟨_, _, h1⟩ := Option.bind_eq_some_iff.1 h1
    obtain ⟨_, _, h1⟩ := Option.bind_eq_some_iff.1 h1
    obtain ⟨_, _, h1⟩ := Option.bind_eq_some_iff.1 h1
    obtain ⟨_, h2, h1⟩ := Option.bind_eq_some_iff.1 h1
    obtain ⟨_, _, h1⟩ := Option.bind_eq_some_iff.1 h1
    obtain ⟨_, h3, h1⟩ := Option.map_eq_some_iff.1 h1
    exact ⟨transform_tapes h2, transform_tapes h3, hg.ge⟩
  · cases h

/-- In a successful sequential execution the round of each job succeeds. -/
theorem seqRun_round {O : Type} {n : Nat} {jobs : List (Job O)} {outs : List (List O)} (hseq : seqRun n jobs = some outs)
    {j : Nat} {job : Job O} (hj : jobs[j]? = some job) : ∃ o, job.proto.round n (seqEnv outs job.deps) = some o := by
  rw [((seqFrom_spec hseq).2.2 j job hj).2, List.length_nil, Nat.zero_add, List.getElem?_eq_getElem]
  · exact ⟨_, rfl⟩
  · rw [(seqFrom_spec hseq).1, List.length_nil, Nat.zero_add]
    exact (List.getElem?_eq_some_iff.1 hj).1

/-- The lengths of the messages of `garble`. -/
theorem garble_follows (hw : c.Width B) {ctx : Ctx F} {g : GarbleCtx F} {lead : ProtocolID → Nat} {tp : GarbleTapes F}
    {pre : List (PreProc F)} {r : List (List (List (List F))) × GarbleState F} (h : garble ctx g tp pre = some r)
    {id : ProtocolID} {ids : List ProtocolID}
    (hids : garbleIdsOf id g.circ.inputs.length ctx.l (g.circ.gates.map PackedGate.kind) = some ids)
    {jobs : List (Job (GOut F))} (hjobs : garbleJobs c ctx g lead tp pre id = some jobs)
    {outs : List (List (GOut F))} (hseq : seqRun ctx.n jobs = some outs) :
    JobsFollow ctx.n B jobs outs ((ids.zip (garblePatterns ctx.n ctx.l g.lpn.keyLen g.tfOut.length g.tfInp.length
      (g.circ.gates.map PackedGate.kind) lead)).map fun a => a.2 a.1) := by
  obtain ⟨h1, h2, h3⟩ := garble_tapes h
  unfold garbleJobs at hjobs
  rw [hids, Option.bind_some] at hjobs
  obtain ⟨go, hgo, hjobs⟩ := Option.bind_eq_some_iff.1 hjobs
  obtain ⟨gi, hgi, hjobs⟩ := Option.map_eq_some_iff.1 hjobs
  have hf := garbleSteps_follow hw ctx g lead tp pre hgo hgi h1 h2 h3
  have hlen := hf.length_eq
  subst hjobs
  refine ⟨by simp [hlen], fun j job s hj hs => ?_⟩
  obtain ⟨o, ho⟩ := seqRun_round hseq hj
  rw [List.getElem?_map] at hj hs
  obtain ⟨⟨i1, st⟩, z1, rfl⟩ := Option.map_eq_some_iff.1 hj
  obtain ⟨⟨i2, pt⟩, z2, rfl⟩ := Option.map_eq_some_iff.1 hs
  obtain ⟨y1, y2⟩ := List.getElem?_zip_eq_some.1 z1
  obtain ⟨y3, y4⟩ := List.getElem?_zip_eq_some.1 z2
  rw [y1, Option.some.injEq] at y3
  simp only [] at y1 y2 y3 y4 ho ⊢
  subst y3
  obtain ⟨l1, e1⟩ := List.getElem?_eq_some_iff.1 y2
  obtain ⟨l2, e2⟩ := List.getElem?_eq_some_iff.1 y4
  have := (List.forall₂_iff_get.1 hf).2 j l1 l2
  simp only [List.get_eq_getElem, e1, e2] at this
  exact this _ _ _ ho

end

/-! ## Bytes -/

section
variable {O : Type} {n B : Nat} {jobs : List (Job O)} {outs : List (List O)} {ss : List Pattern}

theorem JobsFollow.jobBytes (h : JobsFollow n B jobs outs ss) {p q : Nat} (hp : p < n) (hq : q < n) {j : Nat} {job : Job O}
    {s : Pattern} (hj : jobs[j]? = some job) (hs : ss[j]? = some s) :
    jobBytes n jobs outs p q j = s.bytes B job.id.length p q := by
  unfold Verif.jobBytes Pattern.bytes
  rw [hj]
  have he := h.2 j job s hj hs p hp q hq
  have h2 : ((job.proto.between n (seqEnv outs job.deps) p q).map fun d => d.length + job.id.length)
      = ((job.proto.between n (seqEnv outs job.deps) p q).map List.length).map (· + job.id.length) := by
    rw [List.map_map]
    rfl
  simp only []
  rw [h2, he, List.map_map]
  rfl

/-- All bytes from `p` to `q`. -/
theorem JobsFollow.sum (h : JobsFollow n B jobs outs ss) {p q : Nat} (hp : p < n) (hq : q < n) :
    ∑ j ∈ Finset.range jobs.length, Verif.jobBytes n jobs outs p q j
      = (((jobs.map (·.id.length)).zip ss).map fun a => a.2.bytes B a.1 p q).sum := by
  have hl : ((jobs.map (·.id.length)).zip ss).length = jobs.length := by
    rw [List.length_zip, List.length_map, h.1, Nat.min_self]
  have he : ((jobs.map (·.id.length)).zip ss).map (fun a => a.2.bytes B a.1 p q)
      = (List.range jobs.length).map fun j => Verif.jobBytes n jobs outs p q j := by
    refine List.ext_getElem (by simp [hl]) fun j h1 h2 => ?_
    have hjl : j < jobs.length := by simpa using h2
    have hsl : j < ss.length := by rw [h.1]; exact hjl
    rw [List.getElem_map, List.getElem_map, List.getElem_zip, List.getElem_map, List.getElem_range,
      h.jobBytes hp hq (List.getElem?_eq_getElem hjl) (List.getElem?_eq_getElem hsl)]
  rw [he]
  rfl

/-- The bytes of a protocol run between all pairs of parties, for leaders below `n`. -/
def Pattern.total (n B a : Nat) : Pattern → Nat × Nat
  | .all k => (n * n * (8 + B * k), n * n * (8 + B * k + a))
  | .via _ k => (2 * n * (8 + B * k), 2 * n * (8 + B * k + a))

theorem Pattern.via_bytes (B a p q L k : Nat) : Pattern.bytes B a p q (.via L k)
    = (if q = L then (8 + B * k, 8 + B * k + a) else 0) + if p = L then (8 + B * k, 8 + B * k + a) else 0 := by
  by_cases h1 : q = L <;> by_cases h2 : p = L <;> simp [Pattern.bytes, Pattern.elems, h1, h2]

/-- The bytes of a protocol run between all pairs of parties. -/
theorem Pattern.sum_bytes (n B a : Nat) (s : Pattern) (hL : ∀ L k, s = .via L k → L < n) :
    ∑ p ∈ Finset.range n, ∑ q ∈ Finset.range n, s.bytes B a p q = s.total n B a := by
  cases s with
  | all k =>
    simp only [Pattern.total, Pattern.bytes, Pattern.elems, List.map_cons, List.map_nil, List.sum_cons, List.sum_nil, Nat.add_zero,
      Finset.sum_const, Finset.card_range, Prod.smul_mk, smul_eq_mul, mul_assoc]
  | via L k =>
    have hL := hL L k rfl
    simp only [Pattern.total, Pattern.via_bytes, Finset.sum_add_distrib, Finset.sum_ite_eq', Finset.mem_range, hL, if_true, Finset.sum_const,
      Finset.card_range]
    rw [show (∑ p ∈ Finset.range n, n • (if p = L then ((8 + B * k, 8 + B * k + a) : Nat × Nat) else 0))
      = n • ∑ p ∈ Finset.range n, (if p = L then ((8 + B * k, 8 + B * k + a) : Nat × Nat) else 0) from
        (Finset.smul_sum ..).symm]
    simp only [Finset.sum_ite_eq', Finset.mem_range, hL, if_true, Prod.smul_mk, smul_eq_mul, Prod.mk_add_mk]
    rw [mul_assoc 2, mul_assoc 2, two_mul, two_mul]

theorem JobsFollow.sizesOk (h : JobsFollow n B jobs outs ss) (hid : ∀ job ∈ jobs, job.id.length ≤ 255)
    (hb : ∀ s ∈ ss, ∀ p q, ∀ k ∈ s.elems p q, 8 + B * k + 256 < 2 ^ 64) : SizesOk n jobs outs := by
  intro job hjob
  refine ⟨hid job hjob, fun p hp q hq d hd => ?_⟩
  obtain ⟨j, hj⟩ := List.getElem?_of_mem hjob
  have hjl := (List.getElem?_eq_some_iff.1 hj).1
  have hs : ss[j]? = some (ss[j]'(by rw [h.1]; exact hjl)) := List.getElem?_eq_getElem _
  have he := h.2 j job _ hj hs p hp q hq
  have hm : d.length ∈ (job.proto.between n (seqEnv outs job.deps) p q).map List.length := List.mem_map_of_mem hd
  rw [he] at hm
  obtain ⟨k, hk, hk'⟩ := List.mem_map.1 hm
  have := hb _ (List.mem_of_getElem? hs) p q k hk
  have := hid job hjob
  omega

end

theorem sum_zipIdx_ite {M : Type} [AddCommMonoid M] (sizes : List Nat) (k q : Nat) (hq : q < sizes.length) (g : Nat → M) :
    ((sizes.zipIdx k).map fun s => if k + q = s.2 then g s.1 else 0).sum = g (sizes[q]) := by
  induction sizes generalizing k q with
  | nil => simp at hq
  | cons x sizes ih =>
    rw [List.zipIdx_cons, List.map_cons, List.sum_cons]
    cases q with
    | zero =>
      have : ((sizes.zipIdx (k + 1)).map fun s => if k + 0 = s.2 then g s.1 else 0).sum = 0 := by
        refine List.sum_eq_zero fun y hy => ?_
        obtain ⟨s, hs, rfl⟩ := List.mem_map.1 hy
        have := (List.mem_zipIdx hs).1
        rw [if_neg (by omega)]
      rw [this]
      simp
    | succ q =>
      rw [List.length_cons] at hq
      rw [if_neg (by simp), zero_add, List.getElem_cons_succ, ← ih (k + 1) q (by omega)]
      refine congrArg List.sum (List.map_congr_left fun s _ => ?_)
      rw [show k + (q + 1) = k + 1 + q by omega]

theorem sum_flatMap_pair {α M : Type} [AddCommMonoid M] (l : List α) (g : α → M) :
    ((l.flatMap fun a => [g a, g a])).sum = 2 • (l.map g).sum := by
  induction l with
  | nil => simp
  | cons a l ih =>
    rw [List.flatMap_cons, List.sum_append, ih]
    simp only [List.map_cons, List.sum_cons, List.sum_nil, add_zero, smul_add, two_smul]

/-- The bytes from `p` to `q` in `preproc`, with IDs of `a` bytes. -/
theorem preproc_sum (B a br bz bb : Nat) (sizes : List Nat) (p q : Nat) (hp : p < sizes.length) (hq : q < sizes.length) :
    ((preprocPatterns br bz bb sizes).map fun s => s.bytes B a p q).sum
      = (56 + B * (br + bz + bb + 2 * sizes[p] + 2 * sizes[q]), 56 + B * (br + bz + bb + 2 * sizes[p] + 2 * sizes[q]) + 7 * a) := by
  have h1 := sum_zipIdx_ite sizes 0 q hq fun k => ((8 + B * k, 8 + B * k + a) : Nat × Nat)
  have h2 := sum_zipIdx_ite sizes 0 p hp fun k => ((8 + B * k, 8 + B * k + a) : Nat × Nat)
  simp only [Nat.zero_add] at h1 h2
  unfold preprocPatterns
  rw [List.map_append, List.sum_append, List.map_flatMap]
  simp only [List.map_cons, List.map_nil, Pattern.via_bytes]
  rw [sum_flatMap_pair, List.sum_map_add, h1, h2]
  simp only [Pattern.bytes, Pattern.elems, List.map_cons, List.map_nil, List.sum_cons, List.sum_nil, Prod.smul_mk, smul_eq_mul,
    Prod.mk_add_mk, add_zero, Prod.mk.injEq]
  constructor <;> ring

theorem preprocIds_lens {O : Type} {id : ProtocolID} {n : Nat} {ids : List ProtocolID} (h : preprocIds id n = some ids)
    {jobs : List (Job O)} (hj : jobs.map (·.id) = ids) :
    jobs.map (·.id.length) = List.replicate jobs.length (id.length + idBytes (4 + 2 * n)) := by
  refine List.eq_replicate_iff.2 ⟨by simp, fun x hx => ?_⟩
  obtain ⟨job, hjob, rfl⟩ := List.mem_map.1 hx
  exact preprocIds_short h _ (by rw [← hj]; exact List.mem_map_of_mem hjob)

theorem zip_replicate_map {α β γ : Type} (a : α) (l : List β) (f : α × β → γ) :
    ((List.replicate l.length a).zip l).map f = l.map fun b => f (a, b) := by
  induction l with
  | nil => rfl
  | cons b l ih => rw [List.length_cons, List.replicate_succ, List.zip_cons_cons, List.map_cons, ih, List.map_cons]

/-- The lengths of the IDs of `garble`. -/
theorem garbleIdsOf_lens {id : ProtocolID} {inpBlocks l : Nat} {gates : List GateKind} {ids : List ProtocolID}
    (h : garbleIdsOf id inpBlocks l gates = some ids) :
    ids.map List.length = garbleIdLens id.length l (inpBlocks + gates.length) (gates.map GateKind.arity).sum gates := by
  unfold garbleIdsOf at h
  simp only at h
  unfold garbleIdLens
  generalize (inpBlocks + gates.length + l - 1) / l = rOut at h ⊢
  generalize ((gates.map GateKind.arity).sum + l - 1) / l = rInp at h ⊢
  generalize inpBlocks + gates.length = tOut at h ⊢
  generalize (gates.map GateKind.arity).sum = tInp at h ⊢
  have hs := (garbleIds_isSome id rOut rInp tOut tInp gates).1 (by rw [h]; rfl)
  obtain ⟨h1, h2⟩ := hs (4 + gates.length) (by simp)
  rw [garbleIds_eq id _ _ _ _ gates h1 h2] at h
  simp only at h
  obtain ⟨l0, e0, h⟩ := Option.bind_eq_some_iff.1 h
  obtain ⟨l1, e1, h⟩ := Option.bind_eq_some_iff.1 h
  obtain ⟨l2, e2, h⟩ := Option.bind_eq_some_iff.1 h
  obtain ⟨l3, e3, h⟩ := Option.bind_eq_some_iff.1 h
  simp only [Option.some.injEq] at h
  subst h
  have hc : ∀ {parent : ProtocolID} {num : Nat} {l : List ProtocolID}, childIds parent num = some l →
      l.map List.length = List.replicate num (parent.length + idBytes num) := by
    intro parent num l h
    refine List.eq_replicate_iff.2 ⟨by rw [List.length_map, (childIds_nodup h).2.1], fun x hx => ?_⟩
    obtain ⟨y, hy, rfl⟩ := List.mem_map.1 hx
    exact childIds_short h y hy
  simp only [List.map_append]
  rw [hc e0, hc e1, hc e2, hc e3]
  simp only [List.length_append, leDigits_length]
  congr 1
  have hz : ∀ (k m s : Nat) (gs : List GateKind), id.length + k = s →
      ((((List.range gs.length).map fun i => id ++ leDigits k (m + i)).zip gs).map
        (fun p => gateIdsSpec p.1 p.2)).flatten.map List.length
      = gs.flatMap (GateKind.idLens s) := by
    intro k m s gs hs
    induction gs generalizing m with
    | nil => rfl
    | cons g gs ih =>
      rw [List.length_cons, List.range_succ_eq_map, List.map_cons, List.map_map, List.zip_cons_cons, List.map_cons,
        List.flatten_cons, List.map_append, List.flatMap_cons]
      have he : ((fun i => id ++ leDigits k (m + i)) ∘ Nat.succ) = fun i => id ++ leDigits k (m + 1 + i) := by
        funext i
        simp only [Function.comp, Nat.succ_eq_add_one]
        rw [show m + (i + 1) = m + 1 + i by omega]
      rw [he, ih (m + 1)]
      congr 1
      cases g <;> simp [gateIdsSpec, GateKind.idLens, leDigits_length, ← hs, add_assoc]
  exact hz _ 4 _ gates rfl

theorem sum_map_apply {α M : Type} [AddCommMonoid M] (s : Finset Nat) (l : List α) (f : Nat → α → M) :
    ∑ p ∈ s, (l.map fun a => f p a).sum = (l.map fun a => ∑ p ∈ s, f p a).sum := by
  induction l with
  | nil => simp
  | cons a l ih => simp only [List.map_cons, List.sum_cons, Finset.sum_add_distrib, ih]

theorem zip_append_sum {α β M : Type} [AddCommMonoid M] (f : α × β → M) (a b : List α) (c d : List β) (h : a.length = c.length) :
    (((a ++ b).zip (c ++ d)).map f).sum = ((a.zip c).map f).sum + ((b.zip d).map f).sum := by
  rw [List.zip_append h, List.map_append, List.sum_append]

theorem zip_replicate_sum {α β M : Type} [AddCommMonoid M] (f : α × β → M) (r : Nat) (a : α) (b : β) :
    (((List.replicate r a).zip (List.replicate r b)).map f).sum = r • f (a, b) := by
  rw [List.zip_replicate, Nat.min_self, List.map_replicate, List.sum_replicate]

/-- The bytes of `garble` between all pairs of parties. -/
theorem garble_sum (n l B K a nOut nInp : Nat) (kinds : List GateKind) (lead : ProtocolID → Nat) (ids : List ProtocolID)
    (hids : ids.map List.length = garbleIdLens a l nOut nInp kinds) :
    ((ids.zip (garblePatterns n l K nOut nInp kinds lead)).map fun x => (x.2 x.1).total n B x.1.length).sum
      = (((nOut + l - 1) / l + (nInp + l - 1) / l) * (n * n * (8 + 2 * B * (2 * K + 1)))
          + (nOut + nInp) * (2 * n * (8 + B * (2 * K + 1)))
          + kinds.count .and * (2 * n * (16 + B * (1 + 3 * (K + 1))))
          + (kinds.count .xor + kinds.count .inv) * (2 * n * (8 + B * (K + 1))),
         ((nOut + l - 1) / l) * (n * n * (8 + 2 * B * (2 * K + 1) + (a + idBytes (4 + kinds.length) + idBytes ((nOut + l - 1) / l))))
          + ((nInp + l - 1) / l) * (n * n * (8 + 2 * B * (2 * K + 1) + (a + idBytes (4 + kinds.length) + idBytes ((nInp + l - 1) / l))))
          + nOut * (2 * n * (8 + B * (2 * K + 1) + (a + idBytes (4 + kinds.length) + idBytes nOut)))
          + nInp * (2 * n * (8 + B * (2 * K + 1) + (a + idBytes (4 + kinds.length) + idBytes nInp)))
          + kinds.count .and * (2 * n * (16 + B * (1 + 3 * (K + 1)) + (2 * (a + idBytes (4 + kinds.length)) + 1)))
          + (kinds.count .xor + kinds.count .inv) * (2 * n * (8 + B * (K + 1) + (a + idBytes (4 + kinds.length))))) := by
  -- only the lengths of the IDs matter
  have h1 : ∀ (pts : List (ProtocolID → Pattern)) (ts : List (Nat → Nat × Nat)) (ids : List ProtocolID),
      List.Forall₂ (fun pt t => ∀ id, (pt id).total n B id.length = t id.length) pts ts →
      ((ids.zip pts).map fun x => (x.2 x.1).total n B x.1.length).sum
        = (((ids.map List.length).zip ts).map fun x => x.2 x.1).sum := by
    intro pts ts ids h
    induction h generalizing ids with
    | nil => simp
    | cons hd _ ih =>
      cases ids with
      | nil => simp
      | cons id ids => simp only [List.zip_cons_cons, List.map_cons, List.sum_cons, hd, ih]
  obtain ⟨A, hA⟩ : ∃ A : Nat → Nat → Nat × Nat, ∀ k a, A k a = (n * n * (8 + B * k), n * n * (8 + B * k + a)) :=
    ⟨_, fun _ _ => rfl⟩
  obtain ⟨V, hV⟩ : ∃ V : Nat → Nat → Nat × Nat, ∀ k a, V k a = (2 * n * (8 + B * k), 2 * n * (8 + B * k + a)) :=
    ⟨_, fun _ _ => rfl⟩
  have hrep : ∀ (r k : Nat), List.Forall₂ (fun (pt : ProtocolID → Pattern) (t : Nat → Nat × Nat) =>
      ∀ id, (pt id).total n B id.length = t id.length) (List.replicate r fun _ => .all k) (List.replicate r (A k)) := by
    intro r k
    induction r with
    | zero => exact .nil
    | succ r ih => exact .cons (fun id => (hA _ _).symm) ih
  have hvia : ∀ (r k : Nat), List.Forall₂ (fun (pt : ProtocolID → Pattern) (t : Nat → Nat × Nat) =>
      ∀ id, (pt id).total n B id.length = t id.length) ((List.range r).map fun i _ => .via (i % n) k) (List.replicate r (V k)) := by
    intro r k
    refine List.forall₂_iff_get.2 ⟨by simp, fun i h1 h2 id => ?_⟩
    simp only [List.get_eq_getElem, List.getElem_map, List.getElem_replicate]
    exact (hV _ _).symm
  have hgate : ∀ ks : List Nat, List.Forall₂ (fun (pt : ProtocolID → Pattern) (t : Nat → Nat × Nat) =>
      ∀ id, (pt id).total n B id.length = t id.length) (ks.map fun k id => .via (lead id) k) (ks.map V) := by
    intro ks
    induction ks with
    | nil => exact .nil
    | cons k ks ih => exact .cons (fun id => (hV _ _).symm) ih
  unfold garblePatterns
  rw [h1 _ _ ids (List.rel_append (List.rel_append (List.rel_append (List.rel_append (hrep _ _) (hrep _ _)) (hvia _ _)) (hvia _ _))
    (hgate _)), hids]
  unfold garbleIdLens
  generalize a + idBytes (4 + kinds.length) = s
  generalize (nOut + l - 1) / l = rOut
  generalize (nInp + l - 1) / l = rInp
  have hk : (((kinds.flatMap (GateKind.idLens s)).zip
      ((kinds.flatMap (GateKind.mults K)).map V)).map fun x => x.2 x.1).sum
      = (kinds.count .and * (2 * n * (16 + B * (1 + 3 * (K + 1)))) + (kinds.count .xor + kinds.count .inv) * (2 * n * (8 + B * (K + 1))),
        kinds.count .and * (2 * n * (16 + B * (1 + 3 * (K + 1)) + (2 * s + 1))) +
          (kinds.count .xor + kinds.count .inv) * (2 * n * (8 + B * (K + 1) + s))) := by
    clear hids
    induction kinds with
    | nil => simp only [List.flatMap_nil, List.map_nil, List.zip_nil_left, List.sum_nil, List.count_nil, zero_mul, add_zero]; rfl
    | cons k kinds ih =>
      rw [List.flatMap_cons, List.flatMap_cons, List.map_append, zip_append_sum, ih]
      · cases k <;> simp [GateKind.mults, GateKind.idLens, hV, List.count_cons] <;> constructor <;> ring
      · cases k <;> simp [GateKind.mults, GateKind.idLens]
  rw [zip_append_sum, zip_append_sum, zip_append_sum, zip_append_sum, zip_replicate_sum, zip_replicate_sum, zip_replicate_sum,
    zip_replicate_sum, hk]
  · simp only [hA, hV, Prod.smul_mk, smul_eq_mul, Prod.mk_add_mk, Prod.mk.injEq]
    constructor <;> ring
  all_goals (simp; try omega)

theorem zip_map_apply {α β M : Type} (ids : List (List α)) (pts : List (List α → β)) (f : Nat × β → M) :
    ((ids.map List.length).zip ((ids.zip pts).map fun a => a.2 a.1)).map f
      = (ids.zip pts).map fun x => f (x.1.length, x.2 x.1) := by
  induction ids generalizing pts with
  | nil => rfl
  | cons id ids ih =>
    cases pts with
    | nil => rfl
    | cons pt pts => simp only [List.zip_cons_cons, List.map_cons, ih]

theorem mem_elems_via {L k p q x : Nat} (h : x ∈ (Pattern.via L k).elems p q) : x = k := by
  simp only [Pattern.elems, List.mem_append] at h
  rcases h with h | h
  · split at h
    · exact List.mem_singleton.1 h
    · cases h
  · split at h
    · exact List.mem_singleton.1 h
    · cases h

theorem mults_le {K x : Nat} {kind : GateKind} (h : x ∈ kind.mults K) : x ≤ 3 * (K + 1) := by
  cases kind <;> simp [GateKind.mults] at h <;> omega

theorem garblePatterns_cases {n l K nOut nInp : Nat} {kinds : List GateKind} {lead : ProtocolID → Nat}
    {pt : ProtocolID → Pattern} (h : pt ∈ garblePatterns n l K nOut nInp kinds lead) :
    pt = (fun _ => .all (2 * (2 * K + 1))) ∨ (∃ i, pt = fun _ => .via (i % n) (2 * K + 1)) ∨
      ∃ k ≤ 3 * (K + 1), pt = fun id => .via (lead id) k := by
  unfold garblePatterns at h
  simp only [List.mem_append, List.mem_replicate, List.mem_map, List.mem_flatMap] at h
  rcases h with (((h | h) | ⟨i, _, h⟩) | ⟨i, _, h⟩) | ⟨k, ⟨_, _, hk⟩, h⟩
  · exact .inl h.2
  · exact .inl h.2
  · exact .inr (.inl ⟨i, h.symm⟩)
  · exact .inr (.inl ⟨i, h.symm⟩)
  · exact .inr (.inr ⟨k, mults_le hk, h.symm⟩)

theorem garblePatterns_elems {n l K nOut nInp : Nat} {kinds : List GateKind} {lead : ProtocolID → Nat}
    (pt : ProtocolID → Pattern) (h : pt ∈ garblePatterns n l K nOut nInp kinds lead) (id : ProtocolID) (p q k : Nat)
    (hk : k ∈ (pt id).elems p q) : k ≤ 2 * (2 * K + 1) ∨ k ≤ 3 * (K + 1) := by
  rcases garblePatterns_cases h with rfl | ⟨i, rfl⟩ | ⟨k', hk', rfl⟩
  · rw [List.mem_singleton.1 hk]
    exact .inl le_rfl
  · rw [mem_elems_via hk]
    exact .inl (by omega)
  · rw [mem_elems_via hk]
    exact .inr hk'

theorem garblePatterns_leader {n l K nOut nInp : Nat} {kinds : List GateKind} {lead : ProtocolID → Nat} (hn : 0 < n)
    (hlead : ∀ id, lead id < n) (pt : ProtocolID → Pattern) (h : pt ∈ garblePatterns n l K nOut nInp kinds lead)
    (id : ProtocolID) (L k : Nat) (hk : pt id = .via L k) : L < n := by
  rcases garblePatterns_cases h with rfl | ⟨i, rfl⟩ | ⟨k', hk', rfl⟩
  · cases hk
  · cases hk
    exact Nat.mod_lt _ hn
  · cases hk
    exact hlead id

theorem idBytes_le {num : Nat} (h : num ≤ 2 ^ 63) : idBytes num ≤ 8 :=
  suffixLen_le (k := 8) (by omega)

/-- The IDs of `garble` have at most 16 bytes more than its own. -/
theorem garbleIds_le {id : ProtocolID} {inpBlocks l : Nat} {gates : List GateKind} {ids : List ProtocolID}
    (h : garbleIdsOf id inpBlocks l gates = some ids) : ∀ x ∈ ids, x.length ≤ id.length + 16 := by
  have hl := garbleIdsOf_lens h
  unfold garbleIdsOf at h
  simp only at h
  have hs := (garbleIds_isSome id _ _ _ _ gates).1 (by rw [h]; rfl)
  have b1 := idBytes_le (hs (4 + gates.length) (by simp)).1
  have b2 := idBytes_le (hs ((inpBlocks + gates.length + l - 1) / l) (by simp)).1
  have b3 := idBytes_le (hs (((gates.map GateKind.arity).sum + l - 1) / l) (by simp)).1
  have b4 := idBytes_le (hs (inpBlocks + gates.length) (by simp)).1
  have b5 := idBytes_le (hs (gates.map GateKind.arity).sum (by simp)).1
  intro x hx
  have hm : x.length ∈ ids.map List.length := List.mem_map_of_mem hx
  rw [hl] at hm
  unfold garbleIdLens at hm
  simp only [List.mem_append, List.mem_replicate, List.mem_flatMap] at hm
  rcases hm with (((hm | hm) | hm) | hm) | ⟨k, _, hm⟩
  · omega
  · omega
  · omega
  · omega
  · cases k <;> simp [GateKind.idLens] at hm <;> omega

theorem NetScheduleFree.env {O : Type} {n : Nat} {jobs : List (Job O)} {outs : List (List O)} (h : NetScheduleFree n jobs outs)
    {es : List FStep} {f : Full O} (hrun : (Full.start n).run n jobs es = some f) (hst : f.Stuck n jobs) {p j : Nat} (hp : p < n)
    (hj : j < jobs.length) : f.env p j = outsEnv outs p j := by
  obtain ⟨_, h1, h2⟩ := h.2 es f hrun j hj p hp
  obtain ⟨o, ho⟩ := h2 hst
  unfold Full.env
  rw [ho]
  exact (h1 o ho).symm

theorem chooseLeader_lt {seahash : List Nat → Nat} {lead : ProtocolID → Nat} {n : Nat}
    (hlead : ∀ id, chooseLeader seahash id none n = some (lead id)) : 0 < n ∧ ∀ id, lead id < n := by
  have hn : 0 < n := by
    by_contra hn
    have := hlead []
    unfold chooseLeader leaderFromProtoId at this
    simp only [] at this
    rw [if_pos (by omega)] at this
    cases this
  refine ⟨hn, fun id => ?_⟩
  have := hlead id
  unfold chooseLeader leaderFromProtoId at this
  simp only [] at this
  rw [if_neg (by omega)] at this
  split at this
  · rw [Option.some.injEq] at this
    rw [← this]
    exact Nat.mod_lt _ hn
  · cases this

/-- The encoding of the code. -/
theorem gfCodec_width (W : Nat) (hW : W ≤ 32) : (gfCodec W).Width (numBytes W) := by
  intro v
  have h : ∀ l : List Nat, (l.flatMap (gfSerialize W)).length = numBytes W * l.length := by
    intro l
    induction l with
    | nil => rfl
    | cons x l ih =>
      rw [List.flatMap_cons, List.length_append, ih, List.length_cons, Nat.mul_add, Nat.mul_one, Nat.add_comm]
      congr 1
      have : numBytes W ≤ 4 := by
        unfold numBytes
        omega
      simp [gfSerialize, leBytes_length, this]
  simp only [gfCodec, vecSerialize, List.length_append, h, List.length_map, leBytes_length]

end Verif
