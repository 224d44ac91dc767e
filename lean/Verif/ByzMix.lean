import Verif.ByzPipe

/-!
# Dealing, `randtrans` and the runs at the same time, with parties which do not follow the protocols

As in `Verif.ByzPipe`, but in any order: each message in `rand`, `zero` and `randtrans` arrives at any time, and in the meantime other messages arrive and
the other runs go on.  A party takes part in a run of `randtrans` when it has what was dealt to it, and in a run of `reduce_degree`, `mult` or `trans`
when it has the masks for it.  The deviating parties decide what happens next, depending on all they have seen so far.
-/

namespace Verif

/-! ## Strategies -/

/-- What was done (the last action first) and what was seen before each of the first `N` actions, which are chosen by `σ` depending on what was seen so far;
`view` is what is seen after these actions. -/
def playBy {A V : Type} (σ : List V → A) (view : List A → V) : Nat → List A × List V
  | 0 => ([], [])
  | N + 1 =>
    let r := playBy σ view N
    let seen := r.2 ++ [view r.1]
    (σ seen :: r.1, seen)

/-! ## Messages and actions -/

/-- A message before the runs: what party `j` deals to party `p` in `rand` and in `zero`, `src/protocol/preproc.rs:53-62` and `114-123`, or what
party `p` sends to party `q` in run `g` of `randtrans`, `src/protocol/core.rs:331-343`.  (There is one run of `rand` and one of `zero`.) -/
inductive PreMsg
  | rand (j p : Nat)
  | zero (j p : Nat)
  | rt (g p q : Nat)
deriving DecidableEq

/-- The sender. -/
def PreMsg.src : PreMsg → Nat
  | .rand j _ => j
  | .zero j _ => j
  | .rt _ p _ => p

/-- The recipient. -/
def PreMsg.dst : PreMsg → Nat
  | .rand _ p => p
  | .zero _ p => p
  | .rt _ _ q => q

/-- What happens next: a step in the runs, a message of a party which follows the protocols arrives, or a deviating party sends `v` as message `m` (which
arrives; only the first one counts). -/
inductive MixAct (F : Type)
  | run (e : ByzStep)
  | pass (m : PreMsg)
  | send (m : PreMsg) (v : List F)

variable {F : Type} [CodeField F]

/-- All that is fixed: the parameters, the runs of `randtrans` and the other runs, the matrix for the results of `rand` and `zero`, the deviating
parties, which results are used for what, and the numbers of sharings which each party deals. -/
structure Mix (F : Type) [CodeField F] where
  ctx : Ctx F
  gs : List (RtRun F)
  rs : List (MkJob F)
  m : Mat F
  Cs : Finset Nat
  U : Uses (Use gs rs)
  br : Nat
  bz : Nat
  c : Codec F

namespace Mix

variable (S : Mix F)

/-- The number of values of a message. -/
def size : PreMsg → Nat
  | .rand _ _ => S.br
  | .zero _ _ => S.bz
  | .rt g _ _ => 2 * ((S.gs[g]?).map RtRun.num).getD 0

/-- Party `p` has all that is dealt to it. -/
def Dealt (l : List PreMsg) (p : Nat) : Prop := ∀ j < S.ctx.n, .rand j p ∈ l ∧ .zero j p ∈ l

/-- A party which follows the protocols can send the message. -/
def CanSend (l : List PreMsg) : PreMsg → Prop
  | .rt _ p _ => S.Dealt l p
  | _ => True

open Classical in
/-- The messages which have arrived.  Messages of the deviating parties with a wrong number of values are left out. -/
noncomputable def arrived : List (MixAct F) → List PreMsg
  | [] => []
  | .run _ :: h => arrived h
  | .pass m :: h => if m.src < S.ctx.n ∧ m.src ∉ S.Cs ∧ S.CanSend (arrived h) m then m :: arrived h else arrived h
  | .send m v :: h => if m.src ∈ S.Cs ∧ v.length = S.size m then m :: arrived h else arrived h

/-- What the deviating parties have sent as message `m`. -/
def said (m : PreMsg) : List (MixAct F) → Option (List F)
  | [] => none
  | .send m' v :: h =>
    match said m h with
    | some w => some w
    | none => if m' = m ∧ m.src ∈ S.Cs ∧ v.length = S.size m then some v else none
  | _ :: h => said m h

/-- Party `p` has the masks for run `k`. -/
def Masked (l : List PreMsg) (k p : Nat) : Prop :=
  match S.rs[k]? with
  | none => False
  | some r =>
    match r.tr with
    | none => S.Dealt l p
    | some (g, _) => ∀ j < S.ctx.n, .rt g j p ∈ l

/-- A step in the runs is possible: parties start when they have their masks. -/
def Allowed (l : List PreMsg) : ByzStep → Prop
  | .sys (.act p k) => S.Masked l k p
  | _ => True

/-- The attack of `Verif.ByzPipe` in which the deviating parties send `f` (zeros for messages which they do not send), whatever they see. -/
def attack (f : PreMsg → Option (List F)) (strat : List (Sys Unit) → ByzStep) : Attack S.ctx S.gs where
  cheat _ := ⟨fun j b p => ((f (.rand j p)).getD []).getD b 0, fun j b p => ((f (.zero j p)).getD []).getD b 0⟩
  evil _ _ g p q := (f (.rt g p q)).getD (List.replicate (S.size (.rt g p q)) 0)
  strat _ _ := strat

variable [DecidableEq F]

/-- What has been sent so far; steps do not matter here. -/
def sofar (h : List (MixAct F)) : Attack S.ctx S.gs := S.attack (fun m => S.said m h) fun _ => .inject 0 0 [] []

/-- The contents of a message of a party which follows the protocols. -/
noncomputable def content (h : List (MixAct F)) (δ : DealCoins S.ctx S.br S.bz) : PreMsg → Option (List F)
  | .rand j p => if hj : j < S.ctx.n then some ((δ ⟨j, hj⟩).randoms p) else none
  | .zero j p => if hj : j < S.ctx.n then some ((δ ⟨j, hj⟩).zeros p) else none
  | .rt g p q => if hg : g < S.gs.length then (S.sofar h).heard S.m S.Cs S.rs S.U δ ⟨g, hg⟩ p q else none

variable (x : Nat → Nat → Env (List F) → List F) (δ : DealCoins S.ctx S.br S.bz)

open Classical in
/-- The runs after the actions `h`.  Party `p` uses `x k p` of its results of the runs before as input of run `k`, and the masks which it has. -/
noncomputable def sys : List (MixAct F) → Sys (List F)
  | [] => Sys.start
  | .run e :: h =>
    if S.Allowed (S.arrived h) e then
      ((sys h).byzStep S.ctx.n (mkJobs S.c S.ctx S.gs S.rs x ((S.sofar h).got S.m S.Cs S.rs S.U δ)) S.Cs e).getD (sys h)
    else sys h
  | _ :: h => sys h

open Classical in
/-- What the deviating parties see: the messages to them which have arrived, all messages in the runs, and what the tasks in the runs are doing. -/
noncomputable def view (h : List (MixAct F)) : (PreMsg → Option (List F)) × Sys Unit :=
  (fun m => if m ∈ S.arrived h ∧ m.src ∉ S.Cs ∧ m.dst ∈ S.Cs then S.content h δ m else none, (S.sys x δ h).erase)

end Mix

end Verif
