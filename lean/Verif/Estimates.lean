import Verif.Preproc

/-!
# The script `scripts/communication_estimates.py`

The semi-honest estimate (`--semi-honest`).  Simplifications: Python's `math.ceil(num / batch_size)` divides floating point
numbers and is modelled by the exact rounded-up quotient (they agree as long as `num < 2^53`); a division by zero is `none`;
the numbers are the totals which `print_stat` divides by the number of parties and formats.  `malicious_protocol`
is in `Verif.MalEst`.
-/

namespace Verif

/-- The fields of `Params` which the semi-honest estimate uses, `scripts/communication_estimates.py:5-29`. -/
structure EstParams where
  /-- Bits of a field element. -/
  f : Nat
  n : Nat
  t : Nat
  l : Nat
  binsupDim : Nat
  keyLen : Nat
  ctxLen : Nat
  noise : Nat

/-- `fcomm`, `scripts/communication_estimates.py:20`. -/
def EstParams.fcomm (P : EstParams) : Nat := (P.f + 7) / 8

/-- What a method of `ProtoCtr` returns (`comm`) and adds to `counts`, `scripts/communication_estimates.py:32-41`. -/
structure Est where
  comm : Nat
  rand : Nat
  zero : Nat
  bitrand : Nat
deriving DecidableEq

/-- Two calls one after the other. -/
def Est.add (a b : Est) : Est := ⟨a.comm + b.comm, a.rand + b.rand, a.zero + b.zero, a.bitrand + b.bitrand⟩

/-- `int(math.ceil(num / batch_size))`. -/
def estCeil (num batch : Nat) : Option Nat := if batch = 0 then none else some ((num + batch - 1) / batch)

/-- `allrecon` and `allshare`, `scripts/communication_estimates.py:43-49`. -/
def EstParams.all (P : EstParams) (num : Nat) : Nat := P.n * num * P.n * P.fcomm

/-- `rand`, `scripts/communication_estimates.py:51-53`. -/
def estRand (num : Nat) : Est := ⟨0, num, 0, 0⟩

/-- `zero`, `scripts/communication_estimates.py:60-62`. -/
def estZero (num : Nat) : Est := ⟨0, 0, num, 0⟩

/-- `bitrand`, `scripts/communication_estimates.py:69-71`. -/
def estBitrand (num : Nat) : Est := ⟨0, 0, 0, num⟩

/-- `__rand` and `__zero`, `scripts/communication_estimates.py:55-58`, `64-67`. -/
def EstParams.shares (P : EstParams) (num : Nat) : Option Nat := (estCeil num (P.n - P.t)).map P.all

/-- `__bitrand`, `scripts/communication_estimates.py:73-76`. -/
def EstParams.bits (P : EstParams) (num : Nat) : Option Nat := (estCeil num P.binsupDim).map P.all

/-- `degreduce`, `scripts/communication_estimates.py:78-79`. -/
def EstParams.degreduce (P : EstParams) (num : Nat) : Est := ⟨num * 2 * P.n * P.fcomm, 0, 0, 0⟩

/-- `randshare`, `scripts/communication_estimates.py:81-92`. -/
def EstParams.randshare (P : EstParams) (num : Nat) : Option Est :=
  (estCeil num P.l).map fun batches =>
    ((estZero (batches * 2 * P.n)).add (estRand (batches * (P.n + P.t)))).add ⟨P.all (2 * batches), 0, 0, 0⟩

/-- `mult`, `scripts/communication_estimates.py:112-113`. -/
def EstParams.mult (P : EstParams) (num : Nat) : Est := ((estRand num).add (estZero num)).add (P.degreduce num)

/-- `trans`, `scripts/communication_estimates.py:118-119`. -/
def EstParams.trans (P : EstParams) (num : Nat) : Option Est := (P.randshare num).map fun e => e.add (P.degreduce num)

/-- `error`, `scripts/communication_estimates.py:127-133`. -/
def EstParams.error (P : EstParams) (num : Nat) : Est :=
  (((estBitrand (num * P.noise)).add (P.mult (num * (P.noise - 1)))).add (estRand num)).add (P.mult num)

/-- The figures of `semihon_protocol`. -/
structure SemihonEst where
  /-- "Transform masks and labels" of the garbling phase. -/
  transform : Nat
  /-- "Compute plaintexts" of the garbling phase. -/
  plaintexts : Nat
  /-- "Generate keys", "Generate masks" and "Generate errors" of the preprocessing phase. -/
  keys : Nat
  masks : Nat
  errors : Nat
  /-- The circuit-independent figures of the preprocessing phase. -/
  rand : Nat
  zero : Nat
  bitrand : Nat
deriving DecidableEq

/-- "Total" of the garbling phase. -/
def SemihonEst.garble (e : SemihonEst) : Nat := e.transform + e.plaintexts

/-- "Total" of the preprocessing phase. -/
def SemihonEst.preproc (e : SemihonEst) : Nat := e.keys + e.masks + e.errors + (e.rand + e.zero + e.bitrand)

/-- `semihon_protocol`, `scripts/communication_estimates.py:270-321`, with `get_circ_ind_preproc`, lines 165-181. -/
def EstParams.semihon (P : EstParams) (numInp numAnd numXor : Nat) : Option SemihonEst :=
  (estCeil numAnd P.l).bind fun andBlocks => (estCeil numXor P.l).bind fun xorBlocks =>
  (estCeil numInp P.l).bind fun inpBlocks =>
  let wireBlocks := inpBlocks + andBlocks + xorBlocks
  let gateBlocks := andBlocks + xorBlocks
  let keys := estRand (wireBlocks * 2 * P.keyLen)
  let masks := estBitrand wireBlocks
  let errors := P.error (gateBlocks * 4 * P.ctxLen)
  (P.trans (wireBlocks + wireBlocks * 2 * P.keyLen)).bind fun t₁ =>
  (P.trans (2 * gateBlocks + 2 * gateBlocks * 2 * P.keyLen)).bind fun t₂ =>
  let plain := P.mult (andBlocks * (3 * (P.keyLen + 1) + 1) + xorBlocks * (P.keyLen + 1))
  let all := ((((keys.add masks).add errors).add t₁).add t₂).add plain
  (P.shares all.rand).bind fun r => (P.shares all.zero).bind fun z => (P.bits all.bitrand).map fun b =>
  ⟨t₁.comm + t₂.comm, plain.comm, keys.comm, masks.comm, errors.comm, r, z, b⟩

end Verif
