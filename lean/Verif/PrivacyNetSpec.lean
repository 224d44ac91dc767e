import Verif.PrivacyPreSpec
import Verif.AsyncNet

/-!
# Vocabulary of the statements about what corrupted parties learn over the TCP network

The views of `Verif.PrivacyPreSpec` and `Verif.PrivacyGarbleSpec` are those of sequential executions.  Here the parties and
their networks run as described in `Verif.AsyncNet`, in an arbitrary schedule, and the corrupted parties see everything which
happens at them at any time: the states of their tasks, queues, buffers and routers, the bytes on their connections, and
moreover how many bytes are under way on all other connections and how far the other parties are.
-/

namespace Verif

variable {O : Type}

/-- How far a party is in a protocol. -/
def TState.stage : TState O → Nat × Nat
  | .idle => (0, 0)
  | .sending rest => (1, rest.length)
  | .gather g => (2, g.counter)
  | .reply rest => (3, rest.length)
  | .wait => (4, 0)
  | .done _ => (5, 0)
  | .fail => (6, 0)

/-- The parties of `Cs`, with a look at the traffic between all parties, cannot tell the states apart. -/
structure Full.Alike (Cs : Finset Nat) (f f' : Full O) : Prop where
  /-- The corrupted parties are in the same state. -/
  own : ∀ q ∈ Cs, f.loc q = f'.loc q ∧ f.netInp q = f'.netInp q ∧ f.partyOut q = f'.partyOut q ∧ f.router q = f'.router q
  /-- The connections from and to corrupted parties are in the same state. -/
  link : ∀ p q, p ∈ Cs ∨ q ∈ Cs → f.partyInp p q = f'.partyInp p q ∧ f.outBuf p q = f'.outBuf p q ∧
    f.wire p q = f'.wire p q ∧ f.inBuf p q = f'.inBuf p q
  /-- The calls and requests and the statistics of all parties are the same. -/
  waits : f.waits = f'.waits
  calls : f.calls = f'.calls
  netOut : f.netOut = f'.netOut
  stats : f.stats = f'.stats
  /-- The number of bytes on all connections is the same. -/
  traffic : ∀ p q, (f.outBuf p q).length = (f'.outBuf p q).length ∧ (f.wire p q).length = (f'.wire p q).length ∧
    (f.inBuf p q).length = (f'.inBuf p q).length
  /-- All parties are as far. -/
  stage : ∀ p j, (f.loc p j).stage = (f'.loc p j).stage

/-- In every schedule, the parties of `Cs` cannot tell whether `jobs` or `jobs'` are executed: either both executions are
possible and lead to states which they cannot tell apart, or none is. -/
def NetAlike (n : Nat) (Cs : Finset Nat) (jobs jobs' : List (Job O)) : Prop :=
  ∀ es : List FStep, Option.Rel (Full.Alike Cs) ((Full.start n).run n jobs es) ((Full.start n).run n jobs' es)

/-- `k` steps of a schedule in which every step is chosen by `A`, given the state. -/
def Full.adaptive (n : Nat) (jobs : List (Job O)) (A : Full O → FStep) : Nat → Full O → Option (Full O)
  | 0, f => some f
  | k + 1, f => (f.step n jobs (A f)).bind fun f => f.adaptive n jobs A k

variable {F : Type} [CodeField F] [DecidableEq F]

/-- `PreprocPrivate` for executions over the TCP network: for any two secrets there is a bijection of the randomness with the
first secrets to the randomness with the second secrets, and corresponding executions cannot be told apart in any schedule. -/
def PreprocNetPrivate (c : Codec F) (ctx : Ctx F) (m mb : Mat F) (d : PreProcCount) (id : ProtocolID) (Cs : Finset Nat) : Prop :=
  ∀ S S' : PreSecrets F, S.Fit ctx.l d → S'.Fit ctx.l d →
    ∃ e : TapesWith ctx m mb d S ≃ TapesWith ctx m mb d S', ∀ tp, (∀ q ∈ Cs, tp.1.own q = (e tp).1.own q) ∧
      ∃ jobs jobs', preprocJobs c ctx m mb d tp.1 id = some jobs ∧ preprocJobs c ctx m mb d (e tp).1 id = some jobs' ∧
        NetAlike ctx.n Cs jobs jobs'

/-- `GarblePrivate` for executions over the TCP network. -/
def GarbleNetPrivate (c : Codec F) (ctx : Ctx F) (g : GarbleCtx F) (lead : ProtocolID → Nat) (tp : GarbleTapes F) (d : PreProcCount)
    (id : ProtocolID) (Cs : Finset Nat) : Prop :=
  ∀ M M' : GarbleSecrets F, M.Fit ctx.l d → M'.Fit ctx.l d → ∃ e : GarbleWorld ctx d M ≃ GarbleWorld ctx d M', ∀ w,
    (∀ q ∈ Cs, w.material q = (e w).material q) ∧
    ∃ jobs jobs', garbleJobs c ctx g lead tp ((List.range ctx.n).map w.material) id = some jobs ∧
      garbleJobs c ctx g lead tp ((List.range ctx.n).map (e w).material) id = some jobs' ∧ NetAlike ctx.n Cs jobs jobs'

/-- `RunPrivate` for executions over the TCP network: `garble` starts with the material which `preproc` leads to in every
schedule (C77). -/
def RunNetPrivate (c : Codec F) (ctx : Ctx F) (m mb : Mat F) (d : PreProcCount) (id : ProtocolID) (g : GarbleCtx F)
    (lead : ProtocolID → Nat) (gtp : GarbleTapes F) (gid : ProtocolID) (Cs : Finset Nat) : Prop :=
  ∀ S S' : PreSecrets F, S.Fit ctx.l d → S'.Fit ctx.l d →
    ∃ e : TapesWith ctx m mb d S ≃ TapesWith ctx m mb d S', ∀ tp, (∀ q ∈ Cs, tp.1.own q = (e tp).1.own q) ∧
      ∃ pre pre', preproc ctx m mb d tp.1 = some pre ∧ preproc ctx m mb d (e tp).1 = some pre' ∧
        (∀ q ∈ Cs, pre[q]? = pre'[q]?) ∧
        (∃ jobs jobs', preprocJobs c ctx m mb d tp.1 id = some jobs ∧ preprocJobs c ctx m mb d (e tp).1 id = some jobs' ∧
          NetAlike ctx.n Cs jobs jobs') ∧
        ∃ jobs jobs', garbleJobs c ctx g lead gtp pre gid = some jobs ∧ garbleJobs c ctx g lead gtp pre' gid = some jobs' ∧
          NetAlike ctx.n Cs jobs jobs'

end Verif
