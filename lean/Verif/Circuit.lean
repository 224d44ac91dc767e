import Mathlib.Data.List.Sort
import Mathlib.Data.List.Basic

/-!
# Model of `src/circuit.rs`

Wire IDs (`u32`) are naturals; the parser checks the range explicitly.  File contents are lists of
characters (reading a file that is not UTF-8 panics in the code and is not modelled).
-/

namespace Verif

/-- Gate kinds: the variants of `Gate` and `PackedGate`, `src/circuit.rs:14-19`, `43-48`. -/
inductive GateKind where
  | and
  | xor
  | inv
deriving DecidableEq, Repr

/-- Number of input wires of a gate kind (the `N` in `GateInfo<N>`). -/
def GateKind.arity : GateKind → Nat
  | .and => 2
  | .xor => 2
  | .inv => 1

/-- `struct GateInfo<N>`, `src/circuit.rs:8-12`. -/
structure GateInfo (N : Nat) where
  inp : Vector Nat N
  out : Nat
deriving DecidableEq

/-- `enum Gate`, `src/circuit.rs:14-19`. -/
inductive Gate where
  | xor (g : GateInfo 2)
  | and (g : GateInfo 2)
  | inv (g : GateInfo 1)
deriving DecidableEq

/-- `struct Circuit`, `src/circuit.rs:21-27`. -/
structure Circuit where
  gates : List Gate
  inputs : List (List Nat)
  outputs : List (List Nat)
  numWires : Nat
deriving DecidableEq

/-- `struct PackedGateInfo<N>`, `src/circuit.rs:29-33`. -/
structure PackedGateInfo (N : Nat) where
  inp : Vector (List Nat) N
  out : List Nat
deriving DecidableEq

/-- `PackedGateInfo::from`, `src/circuit.rs:36-41`. -/
def PackedGateInfo.ofGates {N : Nat} (gates : List (GateInfo N)) : PackedGateInfo N where
  inp := Vector.ofFn fun i => gates.map fun g => g.inp[i]
  out := gates.map fun g => g.out

/-- `enum PackedGate`, `src/circuit.rs:44-49`. -/
inductive PackedGate where
  | xor (g : PackedGateInfo 2)
  | and (g : PackedGateInfo 2)
  | inv (g : PackedGateInfo 1)
deriving DecidableEq

/-- `struct PackedCircuit`, `src/circuit.rs:52-59`. -/
structure PackedCircuit where
  gates : List PackedGate
  inputs : List (List Nat)
  outputs : List (List Nat)
  numWires : Nat
  gatesPerBlock : Nat
deriving DecidableEq

/-! ## Parser -/

/-- The characters at which `split_ascii_whitespace` splits. -/
def isAsciiWs (c : Char) : Bool :=
  c = ' ' || c = '\t' || c = '\n' || c = '\x0c' || c = '\r'

/-- `str::split_ascii_whitespace`; `cur` is the token being read. -/
def splitWsAux (cur : List Char) : List Char → List (List Char)
  | [] => if cur = [] then [] else [cur]
  | c :: cs =>
    if isAsciiWs c then
      if cur = [] then splitWsAux [] cs else cur :: splitWsAux [] cs
    else splitWsAux (cur ++ [c]) cs

/-- `str::split_ascii_whitespace`. -/
def splitWs (cs : List Char) : List (List Char) := splitWsAux [] cs

/-- `BufRead::read_line`: the next line including its newline, and the rest; at the end of the file the
line is empty. -/
def readLine : List Char → List Char × List Char
  | [] => ([], [])
  | c :: cs => if c = '\n' then ([c], cs) else
      let r := readLine cs
      (c :: r.1, r.2)

/-- Digit loop of `str::parse::<u32>`; overflow is an error. -/
def parseDigits (acc : Nat) : List Char → Option Nat
  | [] => some acc
  | c :: cs =>
    if c.isDigit then
      let v := acc * 10 + (c.toNat - '0'.toNat)
      if v < 2 ^ 32 then parseDigits v cs else none
    else none

/-- `str::parse::<u32>`: non-empty, an optional plus sign, digits, no overflow. -/
def parseU32 (tok : List Char) : Option Nat :=
  match tok with
  | [] => none
  | '+' :: cs => if cs = [] then none else parseDigits 0 cs
  | cs => parseDigits 0 cs

/-- `iter.next().unwrap()` followed by `parse::<u32>().unwrap()`: `next_meta_number`
(`src/circuit.rs:87-90`; its `trim` only matters for white space that is not ASCII white space and is not
modelled) and the gate line iterator (`src/circuit.rs:122-124`). -/
def nextNum : List (List Char) → Option (Nat × List (List Char))
  | [] => none
  | t :: ts => (parseU32 t).map fun v => (v, ts)

/-- `(0..k).map(|_| next())` collected. -/
def takeNums : Nat → List (List Char) → Option (List Nat × List (List Char))
  | 0, ts => some ([], ts)
  | k + 1, ts =>
    (nextNum ts).bind fun (v, ts) => (takeNums k ts).map fun (vs, ts) => (v :: vs, ts)

/-- The `scan` of `src/circuit.rs:97-102`: consecutive wires; `u32` overflow panics. -/
def scanInputs (state : Nat) : List Nat → Option (List (List Nat))
  | [] => some []
  | v :: vs =>
    let state' := state + v
    if state' < 2 ^ 32 then
      (scanInputs state' vs).map fun r => List.range' (state' - v) v :: r
    else none

/-- The `scan` of `src/circuit.rs:109-113` (over the reversed lengths); `u32` underflow panics. -/
def scanOutputs (state : Nat) : List Nat → Option (List (List Nat))
  | [] => some []
  | v :: vs =>
    if v ≤ state then
      let state' := state - v
      (scanOutputs state' vs).map fun r => List.range' state' v :: r
    else none

/-- The gate part of a line, `src/circuit.rs:130-145`: indexing `inputs` panics when there are too few;
further inputs are ignored. -/
def mkGate (ty : List Char) (inputs : List Nat) (output : Nat) : Option Gate :=
  if ty = "AND".toList then
    inputs[0]?.bind fun a => inputs[1]?.map fun b => .and ⟨#v[a, b], output⟩
  else if ty = "XOR".toList then
    inputs[0]?.bind fun a => inputs[1]?.map fun b => .xor ⟨#v[a, b], output⟩
  else if ty = "INV".toList then
    inputs[0]?.map fun a => .inv ⟨#v[a], output⟩
  else none

/-- One gate line, `src/circuit.rs:118-145`. -/
def parseGate (line : List Char) : Option Gate :=
  let toks := splitWs line
  toks.getLast?.bind fun ty =>
  (nextNum toks.dropLast).bind fun (fanIn, ts) =>
  (nextNum ts).bind fun (_fanOut, ts) =>
  (takeNums fanIn ts).bind fun (inputs, ts) =>
  (nextNum ts).bind fun (output, _) =>
  mkGate ty inputs output

/-- The gate loop, `src/circuit.rs:117-147`. -/
def parseGates : Nat → List Char → Option (List Gate)
  | 0, _ => some []
  | k + 1, cs =>
    let r := readLine cs
    (parseGate r.1).bind fun g => (parseGates k r.2).map fun gs => g :: gs

/-- `Circuit::from_bristol_fashion`, `src/circuit.rs:78-156`, on the file's contents. -/
def fromBristol (cs : List Char) : Option Circuit :=
  let r1 := readLine cs
  let r2 := readLine r1.2
  let r3 := readLine r2.2
  let r4 := readLine r3.2
  let hdr := r1.1 ++ r2.1 ++ r3.1 ++ r4.1
  (nextNum (splitWs hdr)).bind fun (numGates, ts) =>
  (nextNum ts).bind fun (numWires, ts) =>
  (nextNum ts).bind fun (numInputs, ts) =>
  (takeNums numInputs ts).bind fun (inpLens, ts) =>
  (scanInputs 0 inpLens).bind fun inputs =>
  (nextNum ts).bind fun (numOutputs, ts) =>
  (takeNums numOutputs ts).bind fun (outLens, _) =>
  (scanOutputs numWires outLens.reverse).bind fun outputs =>
  (parseGates numGates r4.2).map fun gates =>
    { gates := gates, inputs := inputs, outputs := outputs, numWires := numWires }

/-! ## Evaluation -/

/-- `wires[i] = v`. -/
def setWire (w : List Bool) (i : Nat) (v : Bool) : Option (List Bool) :=
  if i < w.length then some (w.set i v) else none

/-- The assignments of `src/circuit.rs:161-165`, in order. -/
def setWires (w : List Bool) : List (Nat × Bool) → Option (List Bool)
  | [] => some w
  | (i, v) :: r => (setWire w i v).bind fun w' => setWires w' r

/-- One iteration of `src/circuit.rs:167-184`. -/
def evalGate (w : List Bool) : Gate → Option (List Bool)
  | .xor g => w[g.inp[0]]?.bind fun l => w[g.inp[1]]?.bind fun r => setWire w g.out (l != r)
  | .and g => w[g.inp[0]]?.bind fun l => w[g.inp[1]]?.bind fun r => setWire w g.out (l && r)
  | .inv g => w[g.inp[0]]?.bind fun l => setWire w g.out (!l)

/-- The gate loop `src/circuit.rs:167-184`. -/
def evalGates (w : List Bool) : List Gate → Option (List Bool)
  | [] => some w
  | g :: gs => (evalGate w g).bind fun w' => evalGates w' gs

/-- `Circuit::eval`, `src/circuit.rs:158-197`. -/
def Circuit.eval (c : Circuit) (ins : List (List Bool)) : Option (List (List Bool)) :=
  let w := List.replicate c.numWires false
  (setWires w ((List.zip c.inputs ins).flatMap fun p => List.zip p.1 p.2)).bind fun w =>
  (evalGates w c.gates).bind fun w =>
  c.outputs.mapM fun ws => ws.mapM fun i => w[i]?

/-! ## Packing -/

/-- `slice.chunks(k)` for `k > 0`. -/
def chunks {α : Type} (k : Nat) (l : List α) : List (List α) :=
  if _h : l = [] ∨ k = 0 then [] else l.take k :: chunks k (l.drop k)
termination_by l.length
decreasing_by
  have : l.length ≠ 0 := by simpa using fun h' => _h (Or.inl h')
  simp only [List.length_drop]
  omega

/-- `slice.chunks(k)`: panics for `k = 0`. -/
def chunks? {α : Type} (k : Nat) (l : List α) : Option (List (List α)) :=
  if k = 0 then none else some (chunks k l)

/-- The `fan_outs` map of `src/circuit.rs:257-263`: how often a wire is an input of the gates. -/
def fanOut {N : Nat} (gates : List (GateInfo N)) (wire : Nat) : Nat :=
  (gates.flatMap fun g => g.inp.toList).count wire

/-- Lexicographic maximum of pairs. -/
def lexMax (a b : Nat × Nat) : Nat × Nat :=
  if a.1 < b.1 ∨ (a.1 = b.1 ∧ a.2 ≤ b.2) then b else a

/-- `g1_wt`, `src/circuit.rs:266-271`: the largest (fan-out, wire) of the inputs. -/
def gateWeight {N : Nat} (gates : List (GateInfo N)) (g : GateInfo N) : Nat × Nat :=
  (g.inp.toList.map fun i => (fanOut gates i, i)).foldl lexMax (0, 0)

/-- `g1_wt <= g2_wt`. -/
def weightLe (a b : Nat × Nat) : Bool := a.1 < b.1 || (a.1 = b.1 && a.2 ≤ b.2)

/-- The order after `sort_by`, `src/circuit.rs:265-280`. `sort_by` is a stable sort and the result of
stable sorting does not depend on the algorithm; insertion sort is used here. -/
def sortGates {N : Nat} (gates : List (GateInfo N)) : List (GateInfo N) :=
  gates.insertionSort fun g1 g2 => weightLe (gateWeight gates g1) (gateWeight gates g2)

/-- `pack_gate_info`, `src/circuit.rs:253-286`. -/
def packGateInfo {N : Nat} (k : Nat) (gates : List (GateInfo N)) : Option (List (PackedGateInfo N)) :=
  (chunks? k (sortGates gates)).map fun cs => cs.map PackedGateInfo.ofGates

/-- The gates of one kind, in order, `src/circuit.rs:200-216`. -/
def xorGates (gs : List Gate) : List (GateInfo 2) := gs.filterMap fun | .xor g => some g | _ => none
def andGates (gs : List Gate) : List (GateInfo 2) := gs.filterMap fun | .and g => some g | _ => none
def invGates (gs : List Gate) : List (GateInfo 1) := gs.filterMap fun | .inv g => some g | _ => none

/-- `Circuit::pack`, `src/circuit.rs:199-251`. -/
def Circuit.pack (c : Circuit) (k : Nat) : Option PackedCircuit :=
  (packGateInfo k (andGates c.gates)).bind fun as =>
  (packGateInfo k (xorGates c.gates)).bind fun xs =>
  (packGateInfo k (invGates c.gates)).bind fun is =>
  (chunks? k c.inputs.flatten).bind fun inputs =>
  (chunks? k c.outputs.flatten).map fun outputs =>
    { gates := as.map .and ++ xs.map .xor ++ is.map .inv
      inputs := inputs, outputs := outputs, numWires := c.numWires, gatesPerBlock := k }

/-- The kind of a packed gate. -/
def PackedGate.kind : PackedGate → GateKind
  | .and _ => .and
  | .xor _ => .xor
  | .inv _ => .inv

/-- One step of the counting loop `src/circuit.rs:314-320`. -/
def countGate (acc : Nat × Nat × Nat) : PackedGate → Nat × Nat × Nat
  | .and _ => (acc.1 + 1, acc.2.1, acc.2.2)
  | .xor _ => (acc.1, acc.2.1 + 1, acc.2.2)
  | .inv _ => (acc.1, acc.2.1, acc.2.2 + 1)

/-- `PackedCircuit::get_gate_counts`, `src/circuit.rs:309-323`: (AND, XOR, INV). -/
def PackedCircuit.gateCounts (c : PackedCircuit) : Nat × Nat × Nat :=
  c.gates.foldl countGate (0, 0, 0)

end Verif
