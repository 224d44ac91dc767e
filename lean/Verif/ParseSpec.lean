import Verif.CircuitSpec

/-!
# Which files `Circuit::from_bristol_fashion` accepts

A grammar of the files which are accepted, with everything which the parser overlooks.
-/

namespace Verif

/-- The token is read as `n`: decimal digits, leading zeros and one plus sign allowed, below 2^32. -/
def ReadsAs (n : Nat) (tok : List Char) : Prop :=
  n < 2 ^ 32 ∧ (Denotes n tok ∨ ∃ digits, tok = '+' :: digits ∧ Denotes n digits)

/-- `line` is the first line of `cs` (with its newline, if there is one) and `rest` the other lines. -/
def FirstLine (cs line rest : List Char) : Prop :=
  cs = line ++ rest ∧ ((∃ body, line = body ++ ['\n'] ∧ '\n' ∉ body) ∨ ('\n' ∉ line ∧ rest = []))

/-- A line which is read as the gate: a number `ins.length`, any number, the numbers `ins`, the output wire, anything, and the name; the inputs of the gate are
the first ones of `ins`. -/
def LooseGate (g : Gate) (line : List Char) : Prop :=
  ∃ fanOut ins nums extra, Layout (nums ++ extra ++ [g.name]) line ∧
    List.Forall₂ ReadsAs (ins.length :: fanOut :: (ins ++ [g.outWire])) nums ∧ g.inWires <+: ins

/-- The first lines of the text are read as the gates; anything may follow. -/
inductive LooseLines : List Gate → List Char → Prop
  | nil (rest : List Char) : LooseLines [] rest
  | cons (g : Gate) (gs : List Gate) (cs line rest : List Char) : FirstLine cs line rest → LooseGate g line → LooseLines gs rest → LooseLines (g :: gs) cs

/-- The text is read as the circuit: the first four lines begin with the numbers of the header, and gate lines follow. -/
def LooseFile (c : Circuit) (cs : List Char) : Prop :=
  ∃ l1 l2 l3 l4 r1 r2 r3 rest, FirstLine cs l1 r1 ∧ FirstLine r1 l2 r2 ∧ FirstLine r2 l3 r3 ∧ FirstLine r3 l4 rest ∧
    ∃ nums extra inpLens outLens, Layout (nums ++ extra) (l1 ++ l2 ++ l3 ++ l4) ∧
      List.Forall₂ ReadsAs ([c.gates.length, c.numWires, inpLens.length] ++ inpLens ++ [outLens.length] ++ outLens) nums ∧
      inpLens.sum < 2 ^ 32 ∧ outLens.sum ≤ c.numWires ∧
      c.inputs.map List.length = inpLens ∧ c.inputs.flatten = List.range inpLens.sum ∧
      c.outputs.reverse.map List.length = outLens ∧ c.outputs.reverse.flatten = List.range' (c.numWires - outLens.sum) outLens.sum ∧
      LooseLines c.gates rest

/-- The input values which `eval` uses: missing ones are `false`, surplus ones are dropped. -/
def fitInputs (inputs : List (List Nat)) (ins : List (List Bool)) : List (List Bool) :=
  inputs.zipIdx.map fun p => p.1.zipIdx.map fun q => (ins.getD p.2 []).getD q.2 false

end Verif
