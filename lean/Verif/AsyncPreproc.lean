import Verif.AsyncProto
import Verif.ProtoId

/-!
# `preproc` as concurrent tasks

`preproc` (`src/protocol/preproc.rs:335-460`) spawns `rand`, `zero` and `randbit`, waits for all three, and then spawns one
task for each leader, which runs two multiplications one after the other.  These are the jobs; what a party computes between
them is given by functions of its own results only.
-/

namespace Verif

variable {F : Type} [CodeField F] [DecidableEq F]

/-- What one party's task for a leader uses, `src/protocol/preproc.rs:395-436`. -/
structure ErrIn (F : Type) where
  rbit0 : List F
  rbit1 : List F
  rands : List F
  zeros : List F
  scalars : List F
  rands2 : List F
  zeros2 : List F

/-- The loop over the leaders of one party, `src/protocol/preproc.rs:391-437`, without the multiplications. -/
def errIns : List Nat → (rbits erand ezeros : List F) → Option (List (ErrIn F))
  | [], _, _, _ => some []
  | bsize :: rest, rbits, erand, ezeros =>
    (drain bsize rbits).bind fun (rbit0, rbits) =>
    (drain bsize rbits).bind fun (rbit1, rbits) =>
    (drain (3 * bsize) erand).bind fun (brand, erand) =>
    (drain (2 * bsize) ezeros).bind fun (bzeros, ezeros) =>
    (drain bsize brand).bind fun (rands, brand) =>
    (drain bsize bzeros).bind fun (zeros, bzeros) =>
    (drain bsize brand).bind fun (scalars, brand) =>
    (errIns rest rbits erand ezeros).map fun more => ⟨rbit0, rbit1, rands, zeros, scalars, brand, bzeros⟩ :: more

/-- A party's inputs for all leaders, from its results of `rand`, `zero` and `randbit`:
`src/protocol/preproc.rs:380-437`. -/
def preIns (desc : PreProcCount) (n : Nat) (env : Env (List F)) : Option (List (ErrIn F)) :=
  (env 0).bind fun rands => (env 1).bind fun zeros => (env 2).bind fun rbits =>
  (drain (3 * desc.errors) rands).bind fun (erand, _) =>
  (drain (2 * desc.errors) zeros).bind fun (ezeros, _) =>
  (drain (2 * desc.errors) rbits).bind fun (ebits, _) =>
  (errorBatches desc.errors n).bind fun sizes => errIns sizes ebits erand ezeros

/-- The two multiplications of the task for leader `a`, with the jobs they depend on:
`src/protocol/preproc.rs:406-436`. -/
def errJobs (c : Codec F) (ctx : Ctx F) (desc : PreProcCount) (a : Nat) (tp : ErrTapes F) :
    List (List Nat × Proto (List F)) :=
  [([0, 1, 2], multProto c ctx a tp.first (fun _ env => (preIns desc ctx.n env).bind fun ins =>
      (ins[a]?).map fun i => (i.rbit0, i.rbit1, i.rands, i.zeros)) (fun o => o)),
   ([0, 1, 2, 3 + 2 * a], multProto c ctx a tp.second (fun _ env => (preIns desc ctx.n env).bind fun ins =>
      (ins[a]?).bind fun i => (env (3 + 2 * a)).map fun biased => (biased, i.scalars, i.rands2, i.zeros2)) (fun o => o))]

/-- All jobs, in the order in which IDs are drawn: `src/protocol/preproc.rs:346-437`. -/
def preprocJobs (c : Codec F) (ctx : Ctx F) (superInv binSuperInv : Mat F) (desc : PreProcCount) (tp : PreTapes F)
    (id : ProtocolID) : Option (List (Job (List F))) :=
  (preprocIds id ctx.n).bind fun ids =>
  (numBatches (desc.numKeys + desc.randoms + 3 * desc.errors) superInv.rows.length).bind fun br =>
  (numBatches (desc.zeros + 2 * desc.errors) superInv.rows.length).bind fun bz =>
  (numBatches (desc.masks + 2 * desc.errors) binSuperInv.rows.length).map fun bb =>
  (ids.zip ([([], dealProto c ctx.n br superInv (randSharings ctx br tp.rand) (fun o => o)),
      ([], dealProto c ctx.n bz superInv (zeroSharings ctx bz tp.zero) (fun o => o)),
      ([], dealProto c ctx.n bb binSuperInv (randbitSharings ctx bb tp.bits tp.rbit) (fun o => o))] ++
    tp.errs.zipIdx.flatMap fun e => errJobs c ctx desc e.2 e.1)).map fun s => ⟨s.1, s.2.1, s.2.2⟩

/-- A party's result of `preproc`, from its results of the jobs: `src/protocol/preproc.rs:380-382`, `438-459`. -/
def preprocResult (desc : PreProcCount) (n : Nat) (env : Env (List F)) : Option (PreProc F) :=
  (env 0).bind fun rands => (env 1).bind fun zeros => (env 2).bind fun rbits =>
  (drain (3 * desc.errors) rands).bind fun (_, rands) =>
  (drain (2 * desc.errors) zeros).bind fun (_, zeros) =>
  (drain (2 * desc.errors) rbits).bind fun (_, rbits) =>
  ((List.range n).mapM fun a => env (4 + 2 * a)).bind fun errors =>
  (drain desc.numKeys rands).bind fun (keys, rands) =>
  (Arr3.ofVec desc.keys keys).map fun karr =>
    { masks := rbits.take desc.masks, keys := karr, randoms := rands, zeros := zeros, errors := errors.flatten }

end Verif
