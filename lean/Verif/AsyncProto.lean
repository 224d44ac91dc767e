import Verif.Async
import Verif.Preproc
import Verif.GF

/-!
# The protocols as tasks

The local computations are those of `Verif.Core` and `Verif.Preproc`; here they are put together with the encoding of
messages to what a task does.  `inp` gives the arguments of a protocol, computed from the results of the jobs before, and
`ret` turns the result of a protocol into a result of a job.
-/

namespace Verif

variable {O : Type}

/-- `b"sync"`. -/
def syncData : List Nat := [115, 121, 110, 99]

/-- `sync`, `src/protocol/network.rs:175-185`; `o` stands for the result `()`. -/
def syncProto (o : O) : Proto O := ⟨none, fun _ _ => some [(.all, syncData)], fun _ _ => none, fun _ _ _ => some o⟩

/-- `bincode::serialize` and `bincode::deserialize` for vectors of field elements. -/
structure Codec (F : Type) where
  enc : List F → List Nat
  dec : List Nat → Option (List F)

/-- The encoding of vectors over GF(2^W), `src/math/galois/mod.rs:302-347`. -/
def gfCodec (W : Nat) : Codec (GF W) where
  enc v := vecSerialize W (v.map (·.val))
  dec b := (vecDeserialize W b).bind fun v => v.mapM fun x => if h : x < 2 ^ W then some ⟨x, h⟩ else none

/-- Vectors which fit into memory are encoded correctly. -/
def Codec.Ok {F : Type} (c : Codec F) : Prop := ∀ v : List F, v.length < 2 ^ 64 → c.dec (c.enc v) = some v

section
variable {F : Type} [CodeField F] [DecidableEq F]

/-- Message `i` goes to party `i` (`for i in 0..context.n`). -/
def toEach (ms : List (List Nat)) : List (Recipient × List Nat) := ms.zipIdx.map fun r => (.one r.2, r.1)

/-- `reduce_degree`, `src/protocol/core.rs:25-84`; `inp` gives `vx`, `random` and `zero`. -/
def rdProto (c : Codec F) (ctx : Ctx F) (L : Nat) (tapes : List (List F))
    (inp : Nat → Env O → Option (List F × List F × List F)) (ret : List F → O) : Proto O where
  leader := some L
  sends p env := (inp p env).bind fun i => (rdSend i.1 i.2.1 i.2.2).map fun m => [(.one L, c.enc m)]
  answer env ms := (inp L env).bind fun i => (ms.mapM c.dec).bind fun ms =>
    (rdLeader ctx i.1.length tapes ms).map fun rs => rs.map c.enc
  finish p env ms := (inp p env).bind fun i => (ms.head?).bind fun m => (c.dec m).bind fun s =>
    (rdFinish i.2.1 s).map ret

/-- `mult`, `src/protocol/core.rs:86-100`; `inp` gives `vx`, `vy`, `random` and `zero`. -/
def multProto (c : Codec F) (ctx : Ctx F) (L : Nat) (tapes : List (List F))
    (inp : Nat → Env O → Option (List F × List F × List F × List F)) (ret : List F → O) : Proto O :=
  rdProto c ctx L tapes (fun p env => (inp p env).bind fun i =>
    if i.1.length = i.2.1.length then some (vmul i.1 i.2.1, i.2.2) else none) ret

/-- `trans`, `src/protocol/core.rs:119-197`; `inp` gives `vx`, `random` and `random_n`. -/
def transProto (c : Codec F) (ctx : Ctx F) (tr : SharingTransform F) (L : Nat) (tapes : List (List F))
    (inp : Nat → Env O → Option (List F × List F × List F)) (ret : List F → O) : Proto O where
  leader := some L
  sends p env := (inp p env).bind fun i => (transSend i.1 i.2.2).map fun m => [(.one L, c.enc m)]
  answer env ms := (inp L env).bind fun i => (ms.mapM c.dec).bind fun ms =>
    (transLeader ctx tr i.1.length tapes ms).map fun rs => rs.map c.enc
  finish p env ms := (inp p env).bind fun i => (ms.head?).bind fun m => (c.dec m).bind fun s =>
    (rdFinish i.2.1 s).map ret

/-- `randtrans`, `src/protocol/core.rs:294-366`, where party `p` uses `RandSharingTransform::new` with its own ID; `inp`
gives `randoms` and `zeros`. -/
def rtProto (c : Codec F) (ctx : Ctx F) (tfs : List (SharingTransform F))
    (inp : Nat → Env O → Option (List F × List F)) (ret : List (List F) × List (List F) → O) : Proto O where
  leader := none
  sends p env := (inp p env).bind fun i => (RandTransform.new ctx p tfs).bind fun tr =>
    (rtSend ctx tr i.1 i.2).map fun ms => toEach (ms.map c.enc)
  answer _ _ := none
  finish p env ms := (inp p env).bind fun i => (ms.mapM c.dec).bind fun ms =>
    (rtFinish ctx (i.1.length / (ctx.n + ctx.t)) ms).map ret

/-- The round of `rand`, `zero` and `randbit`, `src/protocol/preproc.rs:38-76`, `97-137`, `156-197`: `sharings p` are the
sharings which party `p` deals. -/
def dealProto (c : Codec F) (n batches : Nat) (superInv : Mat F) (sharings : Nat → Option (List (List F)))
    (ret : List F → O) : Proto O where
  leader := none
  sends p _ := (sharings p).bind fun s => (dealSend n batches s).map fun ms => toEach (ms.map c.enc)
  answer _ _ := none
  finish _ _ ms := (ms.mapM c.dec).bind fun ms => (dealFinish n batches superInv ms).map ret

/-- What party `p` deals in `rand`, `src/protocol/preproc.rs:46-51`. -/
def randSharings (ctx : Ctx F) (batches : Nat) (tapes : List (List (List F))) (p : Nat) : Option (List (List F)) :=
  (List.range batches).mapM fun b => (tapes[p]?).bind fun tp => (tp[b]?).bind fun tape => ctx.pss.rand tape

/-- What party `p` deals in `zero`, `src/protocol/preproc.rs:105-112`. -/
def zeroSharings (ctx : Ctx F) (batches : Nat) (tapes : List (List (List F))) (p : Nat) : Option (List (List F)) :=
  (List.range batches).mapM fun b => (tapes[p]?).bind fun tp => (tp[b]?).bind fun tape =>
    ctx.pssN.share (List.replicate ctx.l 0) tape

/-- What party `p` deals in `randbit`, `src/protocol/preproc.rs:164-173`. -/
def randbitSharings (ctx : Ctx F) (batches : Nat) (bits : List (List (List Bool))) (tapes : List (List (List F))) (p : Nat) :
    Option (List (List F)) :=
  (List.range batches).mapM fun b => (bits[p]?).bind fun bp => (bp[b]?).bind fun bs =>
    (tapes[p]?).bind fun tp => (tp[b]?).bind fun tape =>
    if bs.length = ctx.pss.l then ctx.pss.share (bs.map (bitVal F)) tape else none

end

end Verif
