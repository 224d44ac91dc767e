import Verif.Count

/-! # Counting multiplications: specification -/

namespace Verif

/-- `x` computes what `o` computes, with `k` multiplications (unless it panics). -/
def Costs {α : Type} (x : Cnt α) (o : Option α) (k : Nat) : Prop := x = o.map fun a => (a, k)

/-- The leader of a degree reduction reconstructs `l` secrets from `n` shares, and shares them again: `n - t` shares are interpolated from
`t + l` values. -/
def redCost (n t l : Nat) : Nat := l * n + (n - t) * (t + l)

/-- A multiplication: one local multiplication of each party, and the degree reduction. -/
def multCost (n t l : Nat) : Nat := n + redCost n t l

/-- The leader of a transformation reconstructs `old` secrets and shares `new` secrets. -/
def transCost (n t l old new : Nat) : Nat := old * n + (new + n - (t + l)) * (t + l)

/-- One sharing for each of a group of transformations, by all parties: each evaluates two matrices with `n` rows, and reconstructs twice. -/
def rtCost (n t l : Nat) : Nat := n * (n * (t + l) + n * n + 2 * l * n)

/-- The rows of a garbled table, by one party: encoding a plaintext of length `k + 1`, and multiplying the key with the matrix. -/
def rowCost (k m : Nat) : Nat := m * (k + 1) + m * k

/-- A gate, by all parties. -/
def gateCost (n t l k m : Nat) (kind : GateKind) : Nat :=
  kind.numMult k * multCost n t l + n * (kind.numRows * rowCost k m)

/-- A whole run of `garble`, by all parties. -/
def garbleCost (n t l k m : Nat) (c : PackedCircuit) : Nat :=
  let inps := c.gates.flatMap PackedGate.inps
  (2 * k + 1) * (((c.blocks.length + l - 1) / l + (inps.length + l - 1) / l) * rtCost n t l
    + (c.blocks.map fun b => transCost n t l b.length b.length).sum
    + (inps.map fun ws => transCost n t l (sortDedup ws).length ws.length + n * (sortDedup ws).length).sum)
  + (c.gates.map fun g => gateCost n t l k m g.kind).sum

end Verif
