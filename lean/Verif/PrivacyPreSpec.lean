import Verif.PrivacyGarbleSpec
import Verif.AsyncPreproc
import Verif.PreprocSpec

/-!
# Vocabulary of the statements about what corrupted parties learn from `preproc`
-/

namespace Verif

variable {F : Type} [CodeField F] [DecidableEq F]

/-- What `preproc` should hide, by slot: the wire masks, the labels, and for every LPN error the two bits and the scalar whose
product it is. -/
structure PreSecrets (F : Type) where
  masks : List (List F)
  keys : List (List F)
  bit0 : List (List F)
  bit1 : List (List F)
  scalars : List (List F)

/-- As many secrets as counted, each for `l` slots, and bits where bits are drawn. -/
structure PreSecrets.Fit (l : Nat) (d : PreProcCount) (S : PreSecrets F) : Prop where
  masks : S.masks.length = d.masks ∧ ∀ x ∈ S.masks, x.length = l ∧ ∀ v ∈ x, v = 0 ∨ v = 1
  keys : S.keys.length = d.numKeys ∧ ∀ x ∈ S.keys, x.length = l
  bit0 : S.bit0.length = d.errors ∧ ∀ x ∈ S.bit0, x.length = l ∧ ∀ v ∈ x, v = 0 ∨ v = 1
  bit1 : S.bit1.length = d.errors ∧ ∀ x ∈ S.bit1, x.length = l ∧ ∀ v ∈ x, v = 0 ∨ v = 1
  scalars : S.scalars.length = d.errors ∧ ∀ x ∈ S.scalars, x.length = l

/-- What the resulting material hides. -/
def PreSecrets.garble (S : PreSecrets F) : GarbleSecrets F :=
  ⟨S.masks, S.keys, List.zipWith vmul (List.zipWith vmul S.bit0 S.bit1) S.scalars⟩

/-- The randomness of a run of `preproc` leads to these secrets: those of the sharings from `rand` and `randbit`, in the
order in which they are used. -/
def HasSecrets (ctx : Ctx F) (m mb : Mat F) (d : PreProcCount) (tp : PreTapes F) (S : PreSecrets F) : Prop :=
  ∃ ro rs bo bs, rand ctx m (d.numKeys + d.randoms + 3 * d.errors) tp.rand = some ro ∧
    VecSharing ctx.n (ctx.t + ctx.l) (defaultPos ctx.n ctx.l) rs ro ∧
    randbit ctx mb (d.masks + 2 * d.errors) tp.bits tp.rbit = some bo ∧
    VecSharing ctx.n (ctx.t + ctx.l) (defaultPos ctx.n ctx.l) bs bo ∧
    S.masks = (bs.drop (2 * d.errors)).take d.masks ∧ S.keys = (rs.drop (3 * d.errors)).take d.numKeys ∧
    S.bit0.length = d.errors ∧ S.bit1.length = d.errors ∧ S.scalars.length = d.errors ∧
    ∀ a < ctx.n, ∀ j < errSize d.errors ctx.n a,
      S.bit0[a * (d.errors / ctx.n) + j]? = bs[2 * (a * (d.errors / ctx.n)) + j]? ∧
      S.bit1[a * (d.errors / ctx.n) + j]? = bs[2 * (a * (d.errors / ctx.n)) + errSize d.errors ctx.n a + j]? ∧
      S.scalars[a * (d.errors / ctx.n) + j]? = rs[3 * (a * (d.errors / ctx.n)) + errSize d.errors ctx.n a + j]?

/-- The parameters of a run of `preproc`. -/
structure PreParams (c : Codec F) (ctx : Ctx F) (m mb : Mat F) (d : PreProcCount) : Prop where
  good : ctx.Good
  mult : 2 * (ctx.t + ctx.l - 1) < ctx.n
  parties : ctx.n < 2 ^ 32
  mat : DealMat ctx.n m
  matb : DealMat ctx.n mb
  binary : mb.Binary
  codec : c.Ok
  sizeR : d.numKeys + d.randoms + 3 * d.errors < 2 ^ 64
  sizeZ : d.zeros + 2 * d.errors < 2 ^ 64
  sizeB : d.masks + 2 * d.errors < 2 ^ 64

/-- The randomness of party `q`. -/
def PreTapes.own (tp : PreTapes F) (q : Nat) :
    Option (List (List F)) × Option (List (List F)) × Option (List (List Bool)) × Option (List (List F)) × Option (ErrTapes F) :=
  (tp.rand[q]?, tp.zero[q]?, tp.bits[q]?, tp.rbit[q]?, tp.errs[q]?)

/-- What party `q` sees of a run of `preproc`: its own randomness, and the messages which it gets, by job and sender. -/
def preprocView (c : Codec F) (ctx : Ctx F) (m mb : Mat F) (d : PreProcCount) (tp : PreTapes F) (id : ProtocolID) (q : Nat) :
    Option ((Option (List (List F)) × Option (List (List F)) × Option (List (List Bool)) × Option (List (List F)) ×
      Option (ErrTapes F)) × List (List (List (List Nat)))) :=
  (preprocJobs c ctx m mb d tp id).bind fun jobs => (seqRun ctx.n jobs).map fun outs =>
    (tp.own q, jobs.map fun job => (List.range ctx.n).map fun p => job.proto.between ctx.n (seqEnv outs job.deps) p q)

/-- The randomness of runs with given secrets. -/
abbrev TapesWith (ctx : Ctx F) (m mb : Mat F) (d : PreProcCount) (S : PreSecrets F) : Type :=
  {tp : PreTapes F // tp.Ok ctx.n ctx.t ctx.l m mb d ∧ HasSecrets ctx m mb d tp S}

/-- The parties of `Cs` learn nothing about the secrets in `preproc`: for any two secrets there is a bijection of the
randomness with the first secrets to the randomness with the second secrets, and in corresponding runs they see the same. -/
def PreprocPrivate (c : Codec F) (ctx : Ctx F) (m mb : Mat F) (d : PreProcCount) (id : ProtocolID) (Cs : Finset Nat) : Prop :=
  ∀ S S' : PreSecrets F, S.Fit ctx.l d → S'.Fit ctx.l d →
    ∃ e : TapesWith ctx m mb d S ≃ TapesWith ctx m mb d S', ∀ tp, ∀ q ∈ Cs,
      ∃ v, preprocView c ctx m mb d tp.1 id q = some v ∧ preprocView c ctx m mb d (e tp).1 id q = some v

/-- The parties of `Cs` learn nothing about the secrets in `preproc` followed by `garble` with the resulting material. -/
def RunPrivate (c : Codec F) (ctx : Ctx F) (m mb : Mat F) (d : PreProcCount) (id : ProtocolID) (g : GarbleCtx F)
    (lead : ProtocolID → Nat) (gtp : GarbleTapes F) (gid : ProtocolID) (Cs : Finset Nat) : Prop :=
  ∀ S S' : PreSecrets F, S.Fit ctx.l d → S'.Fit ctx.l d →
    ∃ e : TapesWith ctx m mb d S ≃ TapesWith ctx m mb d S', ∀ tp,
      ∃ pre pre', preproc ctx m mb d tp.1 = some pre ∧ preproc ctx m mb d (e tp).1 = some pre' ∧ ∀ q ∈ Cs,
        (∃ v, preprocView c ctx m mb d tp.1 id q = some v ∧ preprocView c ctx m mb d (e tp).1 id q = some v) ∧
        ∃ v, garbleView c ctx g lead gtp pre gid q = some v ∧ garbleView c ctx g lead gtp pre' gid q = some v

end Verif
