import Verif.AsyncByz
import Verif.AsyncProto
import Verif.PrivacySpec

/-!
# Degree reductions with parties which do not follow the protocol and try to learn something

Any number of runs of `reduce_degree` (or `mult`), which use the results of earlier runs in any way.  The parties in `Cs` send what they like (as in
`Verif.AsyncByz`), decide in which order everything happens, and see all messages, also those between the other parties, and what the tasks of the
other parties are doing.  What they do next may depend on all this and on their own shares.
-/

namespace Verif

variable {O : Type}

/-- What a task is doing, without its result. -/
def TState.erase : TState O → TState Unit
  | .idle => .idle
  | .sending l => .sending l
  | .gather g => .gather g
  | .reply l => .reply l
  | .wait => .wait
  | .done _ => .done ()
  | .fail => .fail

/-- All that happens, without the results of the tasks. -/
def Sys.erase (s : Sys O) : Sys Unit := ⟨fun p j => (s.loc p j).erase, s.chan, s.inbox, s.sent, s.got⟩

/-- What was seen before the first step, …, before the last step, and the state after `N` steps, which are chosen by `strat` depending on what was seen
so far.  A choice which is not possible changes nothing. -/
def Sys.play (n : Nat) (jobs : List (Job O)) (Cs : Finset Nat) (strat : List (Sys Unit) → ByzStep) : Nat → List (Sys Unit) × Sys O
  | 0 => ([], Sys.start)
  | N + 1 =>
    let r := Sys.play n jobs Cs strat N
    let seen := r.1 ++ [r.2.erase]
    (seen, (r.2.byzStep n jobs Cs (strat seen)).getD r.2)

/-- A run of `reduce_degree`, `src/protocol/core.rs:25-84`: its protocol ID, the runs of whose results the input is computed, the leader, the number of
values, and the randomness which the leader uses (if it follows the protocol). -/
structure RdJob (F : Type) where
  id : ProtocolID
  deps : List Nat
  leader : Nat
  num : Nat
  tapes : List (List F)

variable {F : Type} [CodeField F]

/-- For each run, the random sharings and the sharings of zero. -/
abbrev RdCoins (ctx : Ctx F) (rs : List (RdJob F)) : Type := (k : Fin rs.length) → Coins ctx (rs.get k).num (rs.get k).num

/-- What the parties of `Cs` have of these. -/
noncomputable def RdCoins.known {ctx : Ctx F} {rs : List (RdJob F)} (Cs : Finset Nat) (ω : RdCoins ctx rs) (k : Fin rs.length) (p : Nat) :
    List F × List F :=
  if p ∈ Cs then ((ω k).randoms p, (ω k).zeros p) else ([], [])

/-- What the parties use, if there are no errors. -/
noncomputable def RdCoins.plain {ctx : Ctx F} {rs : List (RdJob F)} (ω : RdCoins ctx rs) (k : Fin rs.length) (p : Nat) : List F × List F :=
  ((ω k).randoms p, (ω k).zeros p)

/-- What the parties use, if there are errors `off` in the shares which they got (`vadd` as in the other protocols). -/
noncomputable def RdCoins.held {ctx : Ctx F} {rs : List (RdJob F)} (ω : RdCoins ctx rs) (off : Fin rs.length → Nat → List F × List F)
    (k : Fin rs.length) (p : Nat) : List F × List F :=
  (vadd ((ω k).randoms p) (off k p).1, vadd ((ω k).zeros p) (off k p).2)

/-- The errors are as many as the shares. -/
def OffSizes (rs : List (RdJob F)) (off : Fin rs.length → Nat → List F × List F) : Prop :=
  ∀ k p, (off k p).1.length = (rs.get k).num ∧ (off k p).2.length = (rs.get k).num

variable [DecidableEq F]

/-- The runs, in which party `p` uses `x k p` of its results of the runs before as input of run `k`, and `held k p` for masking. -/
def rdJobs (c : Codec F) (ctx : Ctx F) (rs : List (RdJob F)) (x : Nat → Nat → Env (List F) → List F)
    (held : Fin rs.length → Nat → List F × List F) : List (Job (List F)) :=
  List.ofFn fun k => ⟨(rs.get k).id, (rs.get k).deps, rdProto c ctx (rs.get k).leader (rs.get k).tapes
    (fun p env => some (x k p env, held k p)) fun o => o⟩

/-- The same for `mult`, `src/protocol/core.rs:86-100`, with inputs `x k p` and `y k p`. -/
def multJobs (c : Codec F) (ctx : Ctx F) (rs : List (RdJob F)) (x y : Nat → Nat → Env (List F) → List F)
    (held : Fin rs.length → Nat → List F × List F) : List (Job (List F)) :=
  List.ofFn fun k => ⟨(rs.get k).id, (rs.get k).deps, multProto c ctx (rs.get k).leader (rs.get k).tapes
    (fun p env => some (x k p env, y k p env, held k p)) fun o => o⟩

/-- The runs are listed in an order in which each run comes after those whose results it uses. -/
def RdOrder (rs : List (RdJob F)) : Prop := ∀ k : Fin rs.length, ∀ d ∈ (rs.get k).deps, d < k

/-- The inputs have the right numbers of values. -/
def RdSizes (rs : List (RdJob F)) (x : Nat → Nat → Env (List F) → List F) : Prop :=
  ∀ k : Fin rs.length, ∀ p env, (x k p env).length = (rs.get k).num

end Verif
