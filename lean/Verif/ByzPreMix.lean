import Verif.ByzPre
import Verif.ByzMix

/-!
# All of `preproc` at the same time, with parties which do not follow the protocols

`rand`, `zero` and `randbit` run at the same time, and a party starts with its runs of `mult` when it has its results of all three, `src/protocol/preproc.rs:346-382`.  Each
message arrives at any time, and in the meantime other messages arrive and the runs of other parties go on.  The deviating parties decide what happens next, depending on all they
have seen so far.
-/

open Polynomial

namespace Verif

open CodeField (ofU32)

/-- What party `j` deals to party `p` in `rand`, `zero` or `randbit`, `src/protocol/preproc.rs:53-62`, `114-123` and `164-184`. -/
inductive DealMsg
  | rand (j p : Nat)
  | zero (j p : Nat)
  | bit (j p : Nat)
deriving DecidableEq

/-- The sender. -/
def DealMsg.src : DealMsg → Nat
  | .rand j _ => j
  | .zero j _ => j
  | .bit j _ => j

/-- The recipient. -/
def DealMsg.dst : DealMsg → Nat
  | .rand _ p => p
  | .zero _ p => p
  | .bit _ p => p

/-- What happens next: a step in the runs of `mult`, a message of a party which follows the protocols arrives, or a deviating party sends `v` as message `m` (which arrives; only the
first one counts). -/
inductive DealAct (F : Type)
  | run (e : ByzStep)
  | pass (m : DealMsg)
  | send (m : DealMsg) (v : List F)

variable {F : Type} [CodeField F]

/-- The polynomials which the parties choose for `bb` sharings in `randbit` each: the secrets are bits, `src/protocol/preproc.rs:164-173`. -/
def BitCoins (ctx : Ctx F) (bb : Nat) : Type :=
  {q : Fin ctx.n → Fin bb → F[X] // ∀ j b, (q j b).degree < (ctx.t + ctx.l : Nat) ∧ ∀ v ∈ defaultPos ctx.n ctx.l, (q j b).eval v = 0 ∨ (q j b).eval v = 1}

/-- The sharing number `b` of party `j`. -/
noncomputable def BitCoins.poly {ctx : Ctx F} {bb : Nat} (β : BitCoins ctx bb) (j b : Nat) : F[X] :=
  if h : j < ctx.n ∧ b < bb then β.1 ⟨j, h.1⟩ ⟨b, h.2⟩ else 0

/-- All that is fixed: the parameters, the matrices for the results of `rand` and `zero` and for those of `randbit`, the deviating parties, the runs of `mult`, and the numbers of
sharings which each party deals. -/
structure PreMix (F : Type) [CodeField F] where
  ctx : Ctx F
  m : Mat F
  mb : Mat F
  Cs : Finset Nat
  ids : List ProtocolID
  errs : List (ErrTapes F)
  sizes : List Nat
  desc : PreProcCount
  br : Nat
  bz : Nat
  bb : Nat
  c : Codec F

namespace PreMix

variable (S : PreMix F)

/-- The number of values of a message. -/
def size : DealMsg → Nat
  | .rand _ _ => S.br
  | .zero _ _ => S.bz
  | .bit _ _ => S.bb

/-- Party `p` has all that is dealt to it. -/
def Dealt (l : List DealMsg) (p : Nat) : Prop := ∀ j < S.ctx.n, .rand j p ∈ l ∧ .zero j p ∈ l ∧ .bit j p ∈ l

open Classical in
/-- The messages which have arrived.  Messages of the deviating parties with a wrong number of values are left out. -/
noncomputable def arrived : List (DealAct F) → List DealMsg
  | [] => []
  | .run _ :: h => arrived h
  | .pass m :: h => if m.src < S.ctx.n ∧ m.src ∉ S.Cs then m :: arrived h else arrived h
  | .send m v :: h => if m.src ∈ S.Cs ∧ v.length = S.size m then m :: arrived h else arrived h

/-- What the deviating parties have sent as message `m`. -/
def said (m : DealMsg) : List (DealAct F) → Option (List F)
  | [] => none
  | .send m' v :: h =>
    match said m h with
    | some w => some w
    | none => if m' = m ∧ m.src ∈ S.Cs ∧ v.length = S.size m then some v else none
  | _ :: h => said m h

/-- A step in the runs is possible: parties start when they have what is dealt to them. -/
def Allowed (l : List DealMsg) : ByzStep → Prop
  | .sys (.act p _) => S.Dealt l p
  | _ => True

/-- Messages `f` of the deviating parties in `rand` and `zero` (zeros for those which they do not send). -/
def cheats (f : DealMsg → Option (List F)) : Cheat F :=
  ⟨fun j b p => ((f (.rand j p)).getD []).getD b 0, fun j b p => ((f (.zero j p)).getD []).getD b 0⟩

/-- The same in `randbit`. -/
def lies (f : DealMsg → Option (List F)) (j b p : Nat) : F := ((f (.bit j p)).getD []).getD b 0

/-- The randomness of the parties. -/
abbrev Coins : Type := DealCoins S.ctx S.br S.bz × BitCoins S.ctx S.bb

/-- Party `p`'s results of `randbit`, if the deviating parties send `f`. -/
noncomputable def bits (f : DealMsg → Option (List F)) (β : BitCoins S.ctx S.bb) (p : Nat) : List F :=
  pickFrom (dealWith S.ctx.n S.bb S.mb S.Cs β.poly (lies f)) p (S.mb.rows.length * S.bb) id

/-- The contents of a message of a party which follows the protocols. -/
noncomputable def content (ω : S.Coins) : DealMsg → Option (List F)
  | .rand j p => if hj : j < S.ctx.n then some ((ω.1 ⟨j, hj⟩).randoms p) else none
  | .zero j p => if hj : j < S.ctx.n then some ((ω.1 ⟨j, hj⟩).zeros p) else none
  | .bit j p => if j < S.ctx.n then some ((List.range S.bb).map fun b => (ω.2.poly j b).eval (ofU32 p)) else none

variable [DecidableEq F]

/-- The runs of `mult`, if the deviating parties send `f`. -/
noncomputable def mults (f : DealMsg → Option (List F)) (ω : S.Coins) : List (Job (List F)) :=
  preMults S.c S.ctx S.m S.Cs S.ids S.errs S.sizes S.desc (S.bits f ω.2) (cheats f) ω.1

/-- What party `p` has of the scalars, and of the results of `rand` and `zero` which are not used for errors, if the deviating parties send `f`. -/
noncomputable def own (f : DealMsg → Option (List F)) (ω : S.Coins) : Nat → Option Nat → List F × List F :=
  preOwn S.ctx S.m S.Cs S.ids S.errs S.sizes S.desc (cheats f) ω.1

open Classical in
/-- The runs of `mult` after the actions `h`. -/
noncomputable def sys (ω : S.Coins) : List (DealAct F) → Sys (List F)
  | [] => Sys.start
  | .run e :: h =>
    if S.Allowed (S.arrived h) e then ((sys ω h).byzStep S.ctx.n (S.mults (fun m => S.said m h) ω) S.Cs e).getD (sys ω h)
    else sys ω h
  | _ :: h => sys ω h

open Classical in
/-- What the deviating parties see: the messages to them which have arrived, all messages in the runs, and what the tasks in the runs are doing. -/
noncomputable def view (ω : S.Coins) (h : List (DealAct F)) : (DealMsg → Option (List F)) × Sys Unit :=
  (fun m => if m ∈ S.arrived h ∧ m.src ∉ S.Cs ∧ m.dst ∈ S.Cs then S.content ω m else none, (S.sys ω h).erase)

/-- The deviating parties learn nothing in `preproc`, whatever they do (`σ`): the secrets of the scalars, of the keys and of the random sharings for `garble` can change by any values
`d`, and those of the results of `randbit` (masks, and factors of the errors) by any bits `f`, without their noticing it.  There is a bijection of the randomness of all parties under
which these parties see the same at all times, and the shares of every party which has got what is dealt to it change by sharings of `d` and `f`. -/
def Hides : Prop :=
  ∀ (σ : List ((DealMsg → Option (List F)) × Sys Unit) → DealAct F) (d : Option Nat → Nat → Nat → F) (f : Nat → Nat → F), (∀ a j, f a j = 0 ∨ f a j = 1) →
    ∃ e : S.Coins ≃ S.Coins, ∀ ω, (∀ N, playBy σ (S.view (e ω)) N = playBy σ (S.view ω) N) ∧
      ∃ (D : OwnShift S.ctx S.Cs (preOwnR S.sizes (S.desc.numKeys + S.desc.randoms)) (preOwnZ S.desc.zeros)) (Δ : Nat → F[X]),
        (∀ k i, ∀ j < S.ctx.l, (D.rand k i).eval (ofU32 (S.ctx.n + j)) = d k i j) ∧ (∀ k i, D.zero k i = 0) ∧
        (∀ a, (Δ a).degree < (S.ctx.t + S.ctx.l : Nat) ∧ (∀ p ∈ S.Cs, (Δ a).eval (ofU32 p) = 0) ∧ ∀ j < S.ctx.l, (Δ a).eval (ofU32 (S.ctx.n + j)) = f a j) ∧
        ∀ N, let acts := (playBy σ (S.view ω) N).1
          ∀ p < S.ctx.n, S.Dealt (S.arrived acts) p →
            S.bits (fun m => S.said m acts) (e ω).2 p
              = vadd (S.bits (fun m => S.said m acts) ω.2 p) ((List.range (S.mb.rows.length * S.bb)).map fun a => (Δ a).eval (ofU32 p)) ∧
            S.own (fun m => S.said m acts) (e ω) p = D.apply p (S.own (fun m => S.said m acts) ω p)

end PreMix

end Verif
