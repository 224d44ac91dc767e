import Verif.ByzPrivacy

/-!
# `reduce_degree`, `mult` and `trans` with parties which do not follow the protocol

As in `Verif.ByzPrivacy`, also with runs of `trans`, whose masks come from runs of `randtrans` before.
-/

namespace Verif

/-- A run of `randtrans`, `src/protocol/core.rs:294-366`: the transformations and the number of pairs of masks for each. -/
structure RtRun (F : Type) where
  tfs : List (SharingTransform F)
  num : Nat

/-- A run of `reduce_degree`, `src/protocol/core.rs:25-84` (`tr = none`), or of `trans`, `src/protocol/core.rs:119-197`, with the masks for
transformation `i` of run `g` of `randtrans` (`tr = some (g, i)`). -/
structure MkJob (F : Type) where
  id : ProtocolID
  deps : List Nat
  leader : Nat
  num : Nat
  tapes : List (List F)
  tr : Option (Nat × Nat)

/-- How many random sharings and how many sharings of zero the run itself uses; `trans` uses those which `randtrans` made. -/
def MkJob.own {F : Type} (r : MkJob F) : Nat := if r.tr = none then r.num else 0

variable {F : Type} [CodeField F]

/-- Transformation `i` of run `g`. -/
def tfOf (gs : List (RtRun F)) (g i : Nat) : SharingTransform F := (((gs[g]?).map RtRun.tfs).getD []).getD i ⟨[], [], ⟨[]⟩⟩

/-- For each run, its random sharings and its sharings of zero; for each run of `randtrans`, its random sharings and its sharings of zero. -/
abbrev MkCoins (ctx : Ctx F) (gs : List (RtRun F)) (rs : List (MkJob F)) : Type :=
  ((k : Fin rs.length) → Coins ctx (rs.get k).own (rs.get k).own) ×
    ((g : Fin gs.length) → Coins ctx ((ctx.n + ctx.t) * (gs.get g).num) (2 * ctx.n * (gs.get g).num))

/-- What parties know before the runs: their random sharings and sharings of zero, also those for `randtrans`, and for each run of `randtrans` and each
two parties what the second one gets from the first one. -/
abbrev MkKnown (gs : List (RtRun F)) (rs : List (MkJob F)) : Type :=
  (Fin rs.length → Nat → List F × List F) × (Fin gs.length → Nat → List F × List F) × (Fin gs.length → Nat → Nat → Option (List F))

variable [DecidableEq F]

/-- What the parties of `Cs` know. -/
noncomputable def MkCoins.known {ctx : Ctx F} {gs : List (RtRun F)} {rs : List (MkJob F)} (Cs : Finset Nat) (ω : MkCoins ctx gs rs) : MkKnown gs rs :=
  (fun k p => if p ∈ Cs then ((ω.1 k).randoms p, (ω.1 k).zeros p) else ([], []),
   fun g p => if p ∈ Cs then ((ω.2 g).randoms p, (ω.2 g).zeros p) else ([], []),
   fun g p q => if p < ctx.n ∧ q ∈ Cs then (rtMessages ctx (gs.get g).tfs (ω.2 g) p).bind fun m => m[q]? else none)

/-- The masks of party `p` for run `k`, if all parties follow `randtrans`: `random` and `zero`, or `random` and `random_n`. -/
noncomputable def MkCoins.masks {ctx : Ctx F} {gs : List (RtRun F)} {rs : List (MkJob F)} (ω : MkCoins ctx gs rs) (k : Fin rs.length) (p : Nat) :
    List F × List F :=
  match (rs.get k).tr with
  | none => ((ω.1 k).randoms p, (ω.1 k).zeros p)
  | some (g, i) =>
    if hg : g < gs.length then
      let o := ((rtResult ctx (gs.get ⟨g, hg⟩).tfs (ω.2 ⟨g, hg⟩)).getD []).getD p ([], [])
      (o.1.getD i [], o.2.getD i [])
    else ([], [])

/-- The masks which party `p` uses, if there are errors `off` in them; with `none` party `p` has no masks (e.g. because `randtrans` failed). -/
noncomputable def MkCoins.held {ctx : Ctx F} {gs : List (RtRun F)} {rs : List (MkJob F)} (ω : MkCoins ctx gs rs)
    (off : Fin rs.length → Nat → Option (List F × List F)) (k : Fin rs.length) (p : Nat) : Option (List F × List F) :=
  (off k p).map fun o => (vadd (ω.masks k p).1 o.1, vadd (ω.masks k p).2 o.2)

/-- What party `q` gets in run `g` of `randtrans`, if the parties of `Cs` send `evil p q`. -/
noncomputable def MkCoins.inbox {ctx : Ctx F} {gs : List (RtRun F)} {rs : List (MkJob F)} (Cs : Finset Nat) (ω : MkCoins ctx gs rs)
    (g : Fin gs.length) (evil : Nat → Nat → List F) (q : Nat) : Option (List (List F)) :=
  (List.range ctx.n).mapM fun p => if p ∈ Cs then some (evil p q) else (rtMessages ctx (gs.get g).tfs (ω.2 g) p).bind fun m => m[q]?

/-- The masks which party `q` gets for run `k`, if the parties of `Cs` send `evil g p q` in run `g` of `randtrans`; `none` if `randtrans` fails. -/
noncomputable def MkCoins.got {ctx : Ctx F} {gs : List (RtRun F)} {rs : List (MkJob F)} (Cs : Finset Nat) (ω : MkCoins ctx gs rs)
    (evil : Fin gs.length → Nat → Nat → List F) (k : Fin rs.length) (q : Nat) : Option (List F × List F) :=
  if q < ctx.n then
    match (rs.get k).tr with
    | none => some ((ω.1 k).randoms q, (ω.1 k).zeros q)
    | some (g, i) =>
      if hg : g < gs.length then
        (ω.inbox Cs ⟨g, hg⟩ (evil ⟨g, hg⟩) q).bind fun box => (rtFinish ctx (gs.get ⟨g, hg⟩).num box).map fun o => (o.1.getD i [], o.2.getD i [])
      else none
  else none

/-- The messages of the parties of `Cs` to each party have the right lengths, or together they have not the right length (the receiver checks only the
latter). -/
def EvilSizes (Cs : Finset Nat) (gs : List (RtRun F)) (evil : Fin gs.length → Nat → Nat → List F) : Prop :=
  ∀ g q, (∀ p ∈ Cs, (evil g p q).length = 2 * (gs.get g).num) ∨ ∑ p ∈ Cs, (evil g p q).length ≠ Cs.card * (2 * (gs.get g).num)

/-- The runs, in which party `p` uses `x k p` of its results of the runs before as input of run `k`, and `held k p` for masking. -/
def mkJobs (c : Codec F) (ctx : Ctx F) (gs : List (RtRun F)) (rs : List (MkJob F)) (x : Nat → Nat → Env (List F) → List F)
    (held : Fin rs.length → Nat → Option (List F × List F)) : List (Job (List F)) :=
  List.ofFn fun k => ⟨(rs.get k).id, (rs.get k).deps,
    match (rs.get k).tr with
    | none => rdProto c ctx (rs.get k).leader (rs.get k).tapes (fun p env => (held k p).map fun m => (x k p env, m)) fun o => o
    | some (g, i) => transProto c ctx (tfOf gs g i) (rs.get k).leader (rs.get k).tapes (fun p env => (held k p).map fun m => (x k p env, m)) fun o => o⟩

/-- The runs fit together: each run comes after those whose results it uses, the masks for the runs of `trans` are there, and no two runs use the same;
the transformations are such that `randtrans` works (C25) and hides the masks (C88). -/
structure MkOk (ctx : Ctx F) (gs : List (RtRun F)) (rs : List (MkJob F)) : Prop where
  order : ∀ k : Fin rs.length, ∀ d ∈ (rs.get k).deps, d < k
  runs : ∀ (k : Fin rs.length) g i, (rs.get k).tr = some (g, i) → ∃ hg : g < gs.length, i < (gs.get ⟨g, hg⟩).tfs.length ∧ (rs.get k).num = (gs.get ⟨g, hg⟩).num
  once : ∀ (k k' : Fin rs.length) gi, (rs.get k).tr = some gi → (rs.get k').tr = some gi → k = k'
  count : ∀ g ∈ gs, g.tfs.length ≤ ctx.l
  good : ∀ g ∈ gs, ∀ tf ∈ g.tfs, tf.Ok ctx
  aligned : ∀ g ∈ gs, ∀ tf ∈ g.tfs, tf.Aligned ctx.l

/-- The inputs have the right numbers of values. -/
def MkSizes (rs : List (MkJob F)) (x : Nat → Nat → Env (List F) → List F) : Prop :=
  ∀ k : Fin rs.length, ∀ p env, (x k p env).length = (rs.get k).num

/-- The errors are as many as the masks. -/
def MkOff (rs : List (MkJob F)) (off : Fin rs.length → Nat → Option (List F × List F)) : Prop :=
  ∀ k p o, off k p = some o → o.1.length = (rs.get k).num ∧ o.2.length = (rs.get k).num

end Verif
