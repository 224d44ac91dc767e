import Verif.AsyncProto
import Verif.Garble

/-!
# Model of `src/bin/preproc_size.rs`, and of preprocessing material as bytes
-/

namespace Verif

/-- `bincode::serialize` of `PreProcSer`, `src/protocol/preproc.rs:462-469`: the fields one after the other. -/
def PreProcSer.bytes {F : Type} (c : Codec F) (s : PreProcSer F) : List Nat :=
  c.enc s.masks ++ c.enc s.keys ++ c.enc s.randoms ++ c.enc s.zeros ++ c.enc s.errors

/-- Element loop of reading a `Vec<GF<W>>`, with the bytes which are left. -/
def elemsRead (W : Nat) : Nat → List Nat → Option (List Nat × List Nat)
  | 0, input => some ([], input)
  | k + 1, input => (gfDeserialize W input).bind fun r => (elemsRead W k r.2).map fun vs => (r.1 :: vs.1, vs.2)

/-- Reading a `Vec<GF<W>>` from the front of the input. -/
def vecRead (W : Nat) (input : List Nat) : Option (List Nat × List Nat) :=
  if 8 ≤ input.length then elemsRead W (ofLeBytes (input.take 8)) (input.drop 8) else none

/-- `bincode::deserialize` of `PreProcSer`, `src/protocol/preproc.rs:462-469`, with the bytes which are left; field
elements as integers. -/
def PreProcSer.read (W : Nat) (input : List Nat) : Option (PreProcSer Nat × List Nat) :=
  (vecRead W input).bind fun a => (vecRead W a.2).bind fun b => (vecRead W b.2).bind fun c => (vecRead W c.2).bind fun d =>
  (vecRead W d.2).map fun e => (⟨a.1, b.1, c.1, d.1, e.1⟩, e.2)

/-- What `preproc_size` prints, `src/bin/preproc_size.rs:71-86`. -/
structure SizeReport where
  masks : Nat
  keys : Nat
  randoms : Nat
  zeros : Nat
  errors : Nat
  size : Nat
  genRandoms : Nat
  genZeros : Nat
  genBits : Nat
deriving DecidableEq

/-- `benchmark`, `src/bin/preproc_size.rs:43-87`: the size is that of dummy material of party 0 (`pool` is 100000 in
`PreProc::dummy`). -/
def preprocSize {F : Type} [CodeField F] [DecidableEq F] (c : Codec F) (ctx : Ctx F) (lpn : LpnParams) (circ : PackedCircuit)
    (pool : Nat) (tp : DummyTape F) : Option SizeReport :=
  (circ.describe ctx.n ctx.t ctx.l lpn).bind fun desc => (PreProc.dummy ctx 0 pool desc tp).map fun p =>
  { masks := desc.masks
    keys := desc.keys.1 * desc.keys.2.1 * desc.keys.2.2
    randoms := desc.randoms
    zeros := desc.zeros
    errors := desc.errors
    size := (p.ser.bytes c).length
    genRandoms := desc.keys.1 * desc.keys.2.1 * desc.keys.2.2 + desc.randoms + 3 * desc.errors
    genZeros := desc.zeros + 2 * desc.errors
    genBits := desc.masks + 2 * desc.errors }

end Verif
