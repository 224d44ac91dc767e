import Verif.Circuit

/-!
# Specification of circuits and of the Bristol fashion file format
-/

namespace Verif

/-! ## File format -/

/-- The token is a decimal representation of `n`. -/
def Denotes (n : Nat) (tok : List Char) : Prop :=
  tok ≠ [] ∧ (∀ c ∈ tok, c.isDigit) ∧ Nat.ofDigitChars 10 tok 0 = n

/-- Blanks of the file format. -/
def Blank (c : Char) : Prop := c = ' ' ∨ c = '\t' ∨ c = '\n' ∨ c = '\r' ∨ c = '\x0c'

/-- `cs` consists of the tokens `toks`, separated (and possibly surrounded) by blanks. -/
inductive Layout : List (List Char) → List Char → Prop
  | nil (ws : List Char) : (∀ c ∈ ws, Blank c) → Layout [] ws
  | cons (ws tok rest : List Char) (toks : List (List Char)) :
      (∀ c ∈ ws, Blank c) → tok ≠ [] → (∀ c ∈ tok, ¬ Blank c) → Layout toks rest →
      (rest = [] ∨ ∃ c r, rest = c :: r ∧ Blank c) → Layout (tok :: toks) (ws ++ tok ++ rest)

/-- The tokens of a gate line after the two arities: input wires, output wire; and the name. -/
def Gate.wires : Gate → List Nat
  | .xor g => [g.inp[0], g.inp[1], g.out]
  | .and g => [g.inp[0], g.inp[1], g.out]
  | .inv g => [g.inp[0], g.out]

def Gate.name : Gate → List Char
  | .xor _ => ['X', 'O', 'R']
  | .and _ => ['A', 'N', 'D']
  | .inv _ => ['I', 'N', 'V']

def Gate.fanIn : Gate → Nat
  | .xor _ => 2
  | .and _ => 2
  | .inv _ => 1

/-- A line (without its newline) describing a gate: number of inputs, number of outputs (one), the input
wires, the output wire, the name. -/
def GateLine (g : Gate) (line : List Char) : Prop :=
  '\n' ∉ line ∧ ∃ nums, List.Forall₂ Denotes (g.fanIn :: 1 :: g.wires) nums ∧
    Layout (nums ++ [g.name]) line

/-- The gate part of a file: one line per gate; the newline of the last line may be missing, and anything
may follow the last gate. -/
inductive GateLines : List Gate → List Char → Prop
  | nil (rest : List Char) : GateLines [] rest
  | last (g : Gate) (line : List Char) : GateLine g line → GateLines [g] line
  | cons (g : Gate) (line : List Char) (gs : List Gate) (rest : List Char) :
      GateLine g line → GateLines gs rest → GateLines (g :: gs) (line ++ '\n' :: rest)

/-- What a Bristol fashion file describes. -/
structure BristolDesc where
  numWires : Nat
  inpLens : List Nat
  outLens : List Nat
  gates : List Gate

/-- Numbers of the header: gates, wires, number of inputs and their lengths, number of outputs and their
lengths. -/
def BristolDesc.header (d : BristolDesc) : List Nat :=
  [d.gates.length, d.numWires, d.inpLens.length] ++ d.inpLens ++ [d.outLens.length] ++ d.outLens

/-- `cs` is a Bristol fashion file for `d`: four header lines (usually three lines of numbers and an empty
line), then the gates. -/
def IsBristolFile (d : BristolDesc) (cs : List Char) : Prop :=
  ∃ l1 l2 l3 l4 rest, cs = l1 ++ '\n' :: (l2 ++ '\n' :: (l3 ++ '\n' :: (l4 ++ '\n' :: rest))) ∧
    (∀ l ∈ [l1, l2, l3, l4], '\n' ∉ l) ∧
    (∃ nums, List.Forall₂ Denotes d.header nums ∧
      Layout nums (l1 ++ '\n' :: (l2 ++ '\n' :: (l3 ++ '\n' :: (l4 ++ ['\n']))))) ∧
    GateLines d.gates rest

/-- Numbers fit into 32 bits and the outputs (and inputs) into the wires. -/
structure BristolDesc.Valid (d : BristolDesc) : Prop where
  wires : d.numWires < 2 ^ 32
  numGates : d.gates.length < 2 ^ 32
  numInp : d.inpLens.length < 2 ^ 32
  numOut : d.outLens.length < 2 ^ 32
  inputs : d.inpLens.sum ≤ d.numWires
  outputs : d.outLens.sum ≤ d.numWires
  gates : ∀ g ∈ d.gates, ∀ w ∈ g.wires, w < d.numWires

/-! ## Semantics -/

/-- The equation a gate imposes on a wire assignment. -/
def GateEq (a : Nat → Bool) : Gate → Prop
  | .xor g => a g.out = xor (a g.inp[0]) (a g.inp[1])
  | .and g => a g.out = (a g.inp[0] && a g.inp[1])
  | .inv g => a g.out = !(a g.inp[0])

/-- Output wire of a gate. -/
def Gate.outWire : Gate → Nat
  | .xor g => g.out
  | .and g => g.out
  | .inv g => g.out

/-- Input wires of a gate. -/
def Gate.inWires : Gate → List Nat
  | .xor g => [g.inp[0], g.inp[1]]
  | .and g => [g.inp[0], g.inp[1]]
  | .inv g => [g.inp[0]]

/-- The assignment gives the input wires the input values and satisfies every gate. -/
def Sat (inputs : List (List Nat)) (gates : List Gate) (ins : List (List Bool)) (a : Nat → Bool) : Prop :=
  inputs.map (fun ws => ws.map a) = ins ∧ ∀ g ∈ gates, GateEq a g

/-- Every gate reads only wires in `known` or driven by an earlier gate, and drives a new wire. -/
def Topological (known : List Nat) : List Gate → Prop
  | [] => True
  | g :: gs => (∀ w ∈ g.inWires, w ∈ known) ∧ g.outWire ∉ known ∧ Topological (g.outWire :: known) gs

/-- Well-formed circuits: wire numbers in range, input wires distinct, gates in topological order with
every wire driven at most once, outputs driven. -/
structure Circuit.WF (c : Circuit) : Prop where
  inRange : ∀ w ∈ c.inputs.flatten, w < c.numWires
  gateRange : ∀ g ∈ c.gates, g.outWire < c.numWires
  inputsNodup : c.inputs.flatten.Nodup
  topo : Topological c.inputs.flatten c.gates
  outputs : ∀ w ∈ c.outputs.flatten, w ∈ c.inputs.flatten ∨ ∃ g ∈ c.gates, g.outWire = w

/-- Gate equations of a packed gate: position by position. -/
def PackedGateEq (a : Nat → Bool) : PackedGate → Prop
  | .xor g => g.out.map a = List.zipWith (fun x y => xor (a x) (a y)) g.inp[0] g.inp[1]
  | .and g => g.out.map a = List.zipWith (fun x y => a x && a y) g.inp[0] g.inp[1]
  | .inv g => g.out.map a = g.inp[0].map fun x => !(a x)

end Verif
