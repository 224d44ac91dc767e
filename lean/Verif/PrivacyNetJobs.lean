import Verif.PrivacyNetSeq
import Verif.PrivacyNetSpec
import Verif.AsyncCommLemmas

/-!
# Helper lemmas: runs of `preproc` and `garble` with equal views over the network
-/

namespace Verif

section protos
variable {O F : Type} [CodeField F] [DecidableEq F] {Cs : Finset Nat} {c : Codec F} {ctx : Ctx F}

omit [DecidableEq F] in
theorem rdProto_regular (L : Nat) (tapes : List (List F)) (inp : Nat → Env O → Option (List F × List F × List F)) (ret : List F → O) :
    (rdProto c ctx L tapes inp ret).Regular := by
  intro p env l hl
  simp only [rdProto] at hl ⊢
  obtain ⟨i, _, hl⟩ := Option.bind_eq_some_iff.1 hl
  obtain ⟨m, _, rfl⟩ := Option.map_eq_some_iff.1 hl
  exact ⟨_, rfl⟩

omit [DecidableEq F] in
theorem rdProto_twin {L : Nat} {tapes tapes' : List (List F)} {inp inp' : Nat → Env O → Option (List F × List F × List F)}
    {ret : List F → O} (hi : ∀ q ∈ Cs, inp q = inp' q) (ht : L ∈ Cs → tapes = tapes') :
    ProtoTwin Cs (rdProto c ctx L tapes inp ret) (rdProto c ctx L tapes' inp' ret) := by
  refine ⟨rfl, rdProto_regular _ _ _ _, rdProto_regular _ _ _ _, fun q hq => ⟨?_, ?_, fun hL => ?_⟩⟩
  · simp only [rdProto, hi q hq]
  · simp only [rdProto, hi q hq]
  · obtain rfl : L = q := Option.some.inj hL
    simp only [rdProto, hi L hq, ht hq]

omit [DecidableEq F] in
theorem multProto_twin {L : Nat} {tapes tapes' : List (List F)} {inp inp' : Nat → Env O → Option (List F × List F × List F × List F)}
    {ret : List F → O} (hi : ∀ q ∈ Cs, inp q = inp' q) (ht : L ∈ Cs → tapes = tapes') :
    ProtoTwin Cs (multProto c ctx L tapes inp ret) (multProto c ctx L tapes' inp' ret) := by
  refine rdProto_twin (fun q hq => ?_) ht
  rw [hi q hq]

theorem transProto_regular (tr : SharingTransform F) (L : Nat) (tapes : List (List F))
    (inp : Nat → Env O → Option (List F × List F × List F)) (ret : List F → O) :
    (transProto c ctx tr L tapes inp ret).Regular := by
  intro p env l hl
  simp only [transProto] at hl ⊢
  obtain ⟨i, _, hl⟩ := Option.bind_eq_some_iff.1 hl
  obtain ⟨m, _, rfl⟩ := Option.map_eq_some_iff.1 hl
  exact ⟨_, rfl⟩

theorem transProto_twin {tr : SharingTransform F} {L : Nat} {tapes : List (List F)}
    {inp inp' : Nat → Env O → Option (List F × List F × List F)} {ret : List F → O} (hi : ∀ q ∈ Cs, inp q = inp' q) :
    ProtoTwin Cs (transProto c ctx tr L tapes inp ret) (transProto c ctx tr L tapes inp' ret) := by
  refine ⟨rfl, transProto_regular _ _ _ _ _, transProto_regular _ _ _ _ _, fun q hq => ⟨?_, ?_, fun hL => ?_⟩⟩
  · simp only [transProto, hi q hq]
  · simp only [transProto, hi q hq]
  · obtain rfl : L = q := Option.some.inj hL
    simp only [transProto, hi L hq]

theorem rtProto_regular (tfs : List (SharingTransform F)) (inp : Nat → Env O → Option (List F × List F))
    (ret : List (List F) × List (List F) → O) : (rtProto c ctx tfs inp ret).Regular := by
  intro p env l hl
  simp only [rtProto] at hl ⊢
  obtain ⟨i, _, hl⟩ := Option.bind_eq_some_iff.1 hl
  obtain ⟨tr, _, hl⟩ := Option.bind_eq_some_iff.1 hl
  obtain ⟨m, _, rfl⟩ := Option.map_eq_some_iff.1 hl
  exact ⟨_, rfl⟩

theorem rtProto_twin {tfs : List (SharingTransform F)} {inp inp' : Nat → Env O → Option (List F × List F)}
    {ret : List (List F) × List (List F) → O} (hi : ∀ q ∈ Cs, inp q = inp' q) :
    ProtoTwin Cs (rtProto c ctx tfs inp ret) (rtProto c ctx tfs inp' ret) := by
  refine ⟨rfl, rtProto_regular _ _ _, rtProto_regular _ _ _, fun q hq => ⟨?_, ?_, fun _ => rfl⟩⟩
  · simp only [rtProto, hi q hq]
  · simp only [rtProto, hi q hq]

omit [DecidableEq F] in
theorem dealProto_regular (n batches : Nat) (m : Mat F) (sharings : Nat → Option (List (List F))) (ret : List F → O) :
    (dealProto c n batches m sharings ret).Regular := by
  intro p env l hl
  simp only [dealProto] at hl ⊢
  obtain ⟨i, _, hl⟩ := Option.bind_eq_some_iff.1 hl
  obtain ⟨m, _, rfl⟩ := Option.map_eq_some_iff.1 hl
  exact ⟨_, rfl⟩

omit [DecidableEq F] in
theorem dealProto_twin {n batches : Nat} {m : Mat F} {sharings sharings' : Nat → Option (List (List F))} {ret : List F → O}
    (hi : ∀ q ∈ Cs, sharings q = sharings' q) :
    ProtoTwin Cs (dealProto c n batches m sharings ret) (dealProto c n batches m sharings' ret) := by
  refine ⟨rfl, dealProto_regular _ _ _ _ _, dealProto_regular _ _ _ _ _, fun q hq => ⟨?_, rfl, fun _ => rfl⟩⟩
  simp only [dealProto, hi q hq]

end protos

section lists
variable {α β γ : Type}

theorem forall₂_flatMap {R : α → β → Prop} {S : γ → γ → Prop} {f : α → List γ} {g : β → List γ} {l : List α} {l' : List β}
    (h : List.Forall₂ R l l') (hfg : ∀ a b, R a b → List.Forall₂ S (f a) (g b)) :
    List.Forall₂ S (l.flatMap f) (l'.flatMap g) := by
  induction h with
  | nil => exact .nil
  | cons h1 _ ih =>
    rw [List.flatMap_cons, List.flatMap_cons]
    exact List.rel_append (hfg _ _ h1) ih

theorem forall₂_zip_map {R : α → α → Prop} {S : γ → γ → Prop} {f : β → α → γ} {l l' : List α} (h : List.Forall₂ R l l')
    (hf : ∀ i a b, R a b → S (f i a) (f i b)) (ids : List β) :
    List.Forall₂ S ((ids.zip l).map fun s => f s.1 s.2) ((ids.zip l').map fun s => f s.1 s.2) := by
  induction h generalizing ids with
  | nil => simp
  | cons h1 _ ih =>
    cases ids with
    | nil => exact .nil
    | cons i ids => exact .cons (hf i _ _ h1) (ih ids)

theorem forall₂_map_same {S : γ → γ → Prop} {f g : α → γ} (l : List α) (h : ∀ a ∈ l, S (f a) (g a)) :
    List.Forall₂ S (l.map f) (l.map g) := by
  induction l with
  | nil => exact .nil
  | cons a l ih => exact .cons (h a (by simp)) (ih fun b hb => h b (by simp [hb]))

theorem zipIdx_forall₂ {R : α → α → Prop} : ∀ (l l' : List α) (k : Nat), l.length = l'.length →
    (∀ (i : Nat) a b, l[i]? = some a → l'[i]? = some b → R a b) →
    List.Forall₂ (fun a b => a.2 = b.2 ∧ R a.1 b.1 ∧ l[a.2 - k]? = some a.1 ∧ l'[a.2 - k]? = some b.1) (l.zipIdx k) (l'.zipIdx k) := by
  intro l l' k hl h
  rw [List.forall₂_iff_get]
  refine ⟨by simpa using hl, fun i h1 h2 => ?_⟩
  simp only [List.length_zipIdx] at h1 h2
  simp only [List.get_eq_getElem, List.getElem_zipIdx, Nat.add_sub_cancel_left]
  exact ⟨trivial, h i _ _ (List.getElem?_eq_getElem h1) (List.getElem?_eq_getElem h2), List.getElem?_eq_getElem h1,
    List.getElem?_eq_getElem h2⟩

end lists

/-! ## Views -/

/-- Equal views in the form used by `SeqTwin`. -/
theorem view_between {O : Type} {n : Nat} {jobs jobs' : List (Job O)} {outs outs' : List (List O)} {q : Nat}
    (h : (jobs.map fun job => (List.range n).map fun p => job.proto.between n (seqEnv outs job.deps) p q)
      = jobs'.map fun job => (List.range n).map fun p => job.proto.between n (seqEnv outs' job.deps) p q)
    (j : Nat) (job job' : Job O) (hj : jobs[j]? = some job) (hj' : jobs'[j]? = some job') (p : Nat) (hp : p < n) :
    job.proto.between n (seqEnv outs job.deps) p q = job'.proto.between n (seqEnv outs' job'.deps) p q := by
  have h1 := congrArg (fun l => (l[j]?).map fun l => l[p]?) h
  simp only [List.getElem?_map, hj, hj', Option.map_some, List.getElem?_range hp, Option.some.injEq] at h1
  exact h1

/-- Jobs which follow the same patterns have messages of the same lengths. -/
theorem JobsFollow.lens {O : Type} {n B : Nat} {jobs jobs' : List (Job O)} {outs outs' : List (List O)} {ss : List Pattern}
    (h : JobsFollow n B jobs outs ss) (h' : JobsFollow n B jobs' outs' ss) (j : Nat) (job job' : Job O) (hj : jobs[j]? = some job)
    (hj' : jobs'[j]? = some job') (p : Nat) (hp : p < n) (q : Nat) (hq : q < n) :
    (job.proto.between n (seqEnv outs job.deps) p q).map List.length
      = (job'.proto.between n (seqEnv outs' job'.deps) p q).map List.length := by
  have hl : j < ss.length := by rw [h.1]; exact (List.getElem?_eq_some_iff.1 hj).1
  rw [h.2 j job _ hj (List.getElem?_eq_getElem hl) p hp q hq, h'.2 j job' _ hj' (List.getElem?_eq_getElem hl) p hp q hq]

section jobs
variable {F : Type} [CodeField F] [DecidableEq F] {Cs : Finset Nat} {c : Codec F} {ctx : Ctx F}

/-! ## `preproc` -/

/-- The jobs of `preproc` for parties with the same tapes. -/
theorem preprocJobs_twin {m mb : Mat F} {d : PreProcCount} {tp tp' : PreTapes F} {id : ProtocolID} {jobs jobs' : List (Job (List F))}
    (h : preprocJobs c ctx m mb d tp id = some jobs) (h' : preprocJobs c ctx m mb d tp' id = some jobs')
    (hlen : tp.errs.length = tp'.errs.length) (hown : ∀ q ∈ Cs, tp.own q = tp'.own q) :
    List.Forall₂ (JobTwin Cs) jobs jobs' := by
  unfold preprocJobs at h h'
  obtain ⟨ids, hids, h⟩ := Option.bind_eq_some_iff.1 h
  obtain ⟨br, hbr, h⟩ := Option.bind_eq_some_iff.1 h
  obtain ⟨bz, hbz, h⟩ := Option.bind_eq_some_iff.1 h
  obtain ⟨bb, hbb, h⟩ := Option.map_eq_some_iff.1 h
  rw [hids, Option.bind_some, hbr, Option.bind_some, hbz, Option.bind_some, hbb, Option.map_some, Option.some.injEq] at h'
  subst h h'
  refine forall₂_zip_map (R := fun a b : List Nat × Proto (List F) => a.1 = b.1 ∧ ProtoTwin Cs a.2 b.2)
    (f := fun i a => (⟨i, a.1, a.2⟩ : Job (List F))) (List.rel_append ?_ ?_) (fun i a b h => ⟨rfl, h.1, h.2⟩) ids
  · simp only [PreTapes.own, Prod.mk.injEq] at hown
    refine .cons ⟨rfl, dealProto_twin fun q hq => ?_⟩ (.cons ⟨rfl, dealProto_twin fun q hq => ?_⟩
      (.cons ⟨rfl, dealProto_twin fun q hq => ?_⟩ .nil))
    · simp only [randSharings, (hown q hq).1]
    · simp only [zeroSharings, (hown q hq).2.1]
    · simp only [randbitSharings, (hown q hq).2.2.1, (hown q hq).2.2.2.1]
  · refine forall₂_flatMap (zipIdx_forall₂ (R := fun _ _ => True) tp.errs tp'.errs 0 hlen fun _ _ _ _ _ => trivial) ?_
    rintro ⟨e, a⟩ ⟨e', a'⟩ ⟨h1, _, h3, h4⟩
    simp only [Nat.sub_zero] at h1 h3 h4
    subst h1
    have hee : a ∈ Cs → e = e' := by
      intro ha
      have := hown a ha
      simp only [PreTapes.own, Prod.mk.injEq] at this
      rw [h3, h4] at this
      exact Option.some.inj this.2.2.2.2
    refine .cons ⟨rfl, multProto_twin (fun _ _ => rfl) fun ha => by rw [hee ha]⟩
      (.cons ⟨rfl, multProto_twin (fun _ _ => rfl) fun ha => by rw [hee ha]⟩ .nil)

/-! ## `garble` -/

/-- Steps with protocols in which corrupted parties compute the same. -/
def StepTwin (Cs : Finset Nat) (s s' : GStep F) : Prop := s.deps = s'.deps ∧ ∀ id, ProtoTwin Cs (s.proto id) (s'.proto id)

theorem gateSteps_twin {lead : ProtocolID → Nat} {K : Nat} {deps : List Nat} {gin gin' : Nat → Env (GOut F) → Option (GateIn F)}
    (hg : ∀ q ∈ Cs, gin q = gin' q) (off : Nat) (tp : GateTapes F) (kind : GateKind) :
    List.Forall₂ (StepTwin Cs) (gateSteps c ctx lead K deps gin off tp kind) (gateSteps c ctx lead K deps gin' off tp kind) := by
  cases kind
  · refine .cons ⟨rfl, fun _ => multProto_twin (fun q hq => ?_) fun _ => rfl⟩
      (.cons ⟨rfl, fun _ => multProto_twin (fun q hq => ?_) fun _ => rfl⟩ .nil)
    · rw [hg q hq]
    · rw [hg q hq]
  · refine .cons ⟨rfl, fun _ => multProto_twin (fun q hq => ?_) fun _ => rfl⟩ .nil
    rw [hg q hq]
  · refine .cons ⟨rfl, fun _ => multProto_twin (fun q hq => ?_) fun _ => rfl⟩ .nil
    rw [hg q hq]

theorem gatesSteps_twin {lead : ProtocolID → Nat} {K : Nat} {deps : List Nat}
    {gins gins' : Nat → Env (GOut F) → Option (List (GateIn F))} (hg : ∀ q ∈ Cs, gins q = gins' q)
    (gs : List (GateKind × GateTapes F)) (off gid : Nat) :
    List.Forall₂ (StepTwin Cs) (gatesSteps c ctx lead K deps gins off gid gs) (gatesSteps c ctx lead K deps gins' off gid gs) := by
  induction gs generalizing off gid with
  | nil => exact .nil
  | cons x gs ih =>
    obtain ⟨kind, tp⟩ := x
    refine List.rel_append (gateSteps_twin (fun q hq => ?_) _ _ _) (ih _ _)
    rw [hg q hq]

theorem garbleSteps_twin {g : GarbleCtx F} {lead : ProtocolID → Nat} {tp : GarbleTapes F} {pre pre' : List (PreProc F)}
    (hpre : ∀ q ∈ Cs, pre[q]? = pre'[q]?) (go gi : List (List (SharingTransform F))) :
    List.Forall₂ (StepTwin Cs) (garbleSteps c ctx g lead tp pre go gi) (garbleSteps c ctx g lead tp pre' go gi) := by
  unfold garbleSteps
  refine List.rel_append (List.rel_append (List.rel_append (List.rel_append ?_ ?_) ?_) ?_) ?_
  · refine forall₂_map_same _ fun a _ => ⟨rfl, fun _ => rtProto_twin fun q hq => ?_⟩
    rw [hpre q hq]
  · refine forall₂_map_same _ fun a _ => ⟨rfl, fun _ => rtProto_twin fun q hq => ?_⟩
    rw [hpre q hq]
  · refine forall₂_map_same _ fun a _ => ⟨rfl, fun _ => transProto_twin fun q hq => ?_⟩
    rw [hpre q hq]
  · exact forall₂_map_same _ fun a _ => ⟨rfl, fun _ => transProto_twin fun q hq => rfl⟩
  · refine gatesSteps_twin (fun q hq => ?_) _ _ _
    rw [hpre q hq]

/-- The jobs of `garble` for parties with the same material. -/
theorem garbleJobs_twin {g : GarbleCtx F} {lead : ProtocolID → Nat} {tp : GarbleTapes F} {pre pre' : List (PreProc F)}
    {id : ProtocolID} {jobs jobs' : List (Job (GOut F))} (h : garbleJobs c ctx g lead tp pre id = some jobs)
    (h' : garbleJobs c ctx g lead tp pre' id = some jobs') (hpre : ∀ q ∈ Cs, pre[q]? = pre'[q]?) :
    List.Forall₂ (JobTwin Cs) jobs jobs' := by
  unfold garbleJobs at h h'
  obtain ⟨ids, hids, h⟩ := Option.bind_eq_some_iff.1 h
  obtain ⟨go, hgo, h⟩ := Option.bind_eq_some_iff.1 h
  obtain ⟨gi, hgi, h⟩ := Option.map_eq_some_iff.1 h
  rw [hids, Option.bind_some, hgo, Option.bind_some, hgi, Option.map_some, Option.some.injEq] at h'
  subst h h'
  exact forall₂_zip_map (f := fun i (a : GStep F) => (⟨i, a.deps, a.proto i⟩ : Job (GOut F))) (garbleSteps_twin hpre go gi)
    (fun i a b h => ⟨rfl, h.1, h.2 i⟩) ids

end jobs

end Verif
