import Mathlib.Data.Nat.Log
import Verif.Circuit

/-!
# Model of `ProtocolIDBuilder` (`src/protocol/mod.rs:14-71`) and of the IDs used by `garble` and `preproc`

Protocol IDs are byte strings, modelled as lists of naturals.
-/

namespace Verif

/-- `type ProtocolID = Vec<u8>`, `src/protocol/mod.rs:14`. -/
abbrev ProtocolID := List Nat

/-- `u64::next_power_of_two`; `none` is the overflow (panic in debug builds; in release builds it
wraps to 0, on which `ilog2` panics). -/
def nextPowerOfTwo (num : Nat) : Option Nat :=
  if num ≤ 2 ^ 63 then some (2 ^ Nat.clog 2 num) else none

/-- `struct ProtocolIDBuilder`, `src/protocol/mod.rs:27-30`. -/
structure IdBuilder where
  id : ProtocolID
  suffix : List Nat
deriving DecidableEq

/-- `ProtocolIDBuilder::new`, `src/protocol/mod.rs:34-40`. -/
def IdBuilder.new (parent : ProtocolID) (num : Nat) : Option IdBuilder :=
  (nextPowerOfTwo num).map fun p =>
    { id := parent, suffix := List.replicate ((Nat.log 2 p + 7) / 8) 0 }

/-- `increment_bytes`, `src/protocol/mod.rs:42-54`, on the bytes from the index on: the new bytes and
whether the result is `Ok`. -/
def incrementBytes : List Nat → List Nat × Bool
  | [] => ([], false)
  | b :: bs =>
    if b = 255 then
      let r := incrementBytes bs
      (0 :: r.1, r.2)
    else ((b + 1) :: bs, true)

/-- `Iterator::next`, `src/protocol/mod.rs:62-70`. -/
def IdBuilder.next (b : IdBuilder) : Option ProtocolID × IdBuilder :=
  let child := b.id ++ b.suffix
  let r := incrementBytes b.suffix
  (if r.2 then some child else none, { b with suffix := r.1 })

/-- The builder after `i` calls of `next`. -/
def IdBuilder.after (b : IdBuilder) : Nat → IdBuilder
  | 0 => b
  | i + 1 => (b.after i).next.2

/-- What call number `i` (from 0) of `next` returns. -/
def IdBuilder.call (b : IdBuilder) (i : Nat) : Option ProtocolID := (b.after i).next.1

/-- `k` calls of `id_gen.next().unwrap()` in a row: the IDs and the builder afterwards. -/
def IdBuilder.take (b : IdBuilder) : Nat → Option (List ProtocolID × IdBuilder)
  | 0 => some ([], b)
  | k + 1 =>
    match b.next with
    | (none, _) => none
    | (some i, b') => (b'.take k).map fun r => (i :: r.1, r.2)

/-- A fresh builder for `num` children used for all of them: `gen_rand_shares`
(`src/protocol/garble.rs:714-727`) and `transform` (`src/protocol/garble.rs:760-779`). -/
def childIds (parent : ProtocolID) (num : Nat) : Option (List ProtocolID) :=
  (IdBuilder.new parent num).bind fun b => (b.take num).map (·.1)

/-- The IDs with which the garbling of one gate block communicates: `garble_and`
(`src/protocol/garble.rs:370-386`, `421-430`) uses the first child of its ID and then its ID,
`garble_xor` (`504-513`) and `garble_inv` (`588-597`) only their ID. -/
def gateIds (id : ProtocolID) : GateKind → Option (List ProtocolID)
  | .and => (IdBuilder.new id 2).bind fun b => (b.take 1).map fun r => r.1 ++ [id]
  | .xor => some [id]
  | .inv => some [id]

/-- All the IDs with which one call of `garble` communicates, `src/protocol/garble.rs:132-353`, by
subprotocol: the four batches of (random) transformations and the gates.
`rOut`, `rInp` are `rtrans.len()` and `tOut`, `tInp` are `trans.len()` of `tf_out` and `tf_inp`. -/
def garbleIds (id : ProtocolID) (rOut rInp tOut tInp : Nat) (gates : List GateKind) :
    Option (List ProtocolID) :=
  (IdBuilder.new id (4 + gates.length)).bind fun b =>
  -- `run_rtrans` twice (lines 153-174), `transform` twice (lines 190-227)
  (b.take 4).bind fun r4 =>
  match r4.1 with
  | [i0, i1, i2, i3] =>
    (childIds i0 rOut).bind fun l0 =>
    (childIds i1 rInp).bind fun l1 =>
    (childIds i2 tOut).bind fun l2 =>
    (childIds i3 tInp).bind fun l3 =>
    -- one ID per gate block (lines 231-232)
    (r4.2.take gates.length).bind fun rg =>
    ((List.zip rg.1 gates).mapM fun p => gateIds p.1 p.2).map fun lg =>
      l0 ++ l1 ++ l2 ++ l3 ++ lg.flatten
  | _ => none

/-- `garble` for a packed circuit with `inpBlocks` input blocks and the given gate blocks:
`GarbleContext::new` (`src/protocol/garble.rs:33-81`) makes one output transformation per block and one
input transformation per gate block input, `Transforms::new` (`684-691`) groups `l` of them. -/
def garbleIdsOf (id : ProtocolID) (inpBlocks l : Nat) (gates : List GateKind) :
    Option (List ProtocolID) :=
  let tOut := inpBlocks + gates.length
  let tInp := (gates.map GateKind.arity).sum
  garbleIds id ((tOut + l - 1) / l) ((tInp + l - 1) / l) tOut tInp gates

/-- All the IDs with which one call of `preproc` communicates, `src/protocol/preproc.rs:335-460`: one
each for `rand`, `zero` and `randbit`, and two per leader. -/
def preprocIds (id : ProtocolID) (n : Nat) : Option (List ProtocolID) :=
  (IdBuilder.new id (4 + 2 * n)).bind fun b => (b.take (3 + 2 * n)).map (·.1)

end Verif
