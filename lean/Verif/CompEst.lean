import Verif.Estimates

/-!
# The script `scripts/computation_estimates.py`

The semi-honest estimate (`--semi-honest`), and of each pair (additions, multiplications) the multiplications.  The figures are those of one
party.  Simplifications: as in `Verif.Estimates` (exact rounded-up quotients; a division by zero is `none`); the differences `n - degree - 1` are
differences of natural numbers, so the model agrees with the script only if `t + l ≤ n` (which every context guarantees).  The additions and the
malicious estimate are in `Verif.MalEst`.
-/

namespace Verif

/-- The default of the parameter `degree`, `scripts/computation_estimates.py:44-45`, `53-54`: `if not degree` also replaces a degree 0. -/
def EstParams.degree (P : EstParams) (d : Nat) : Nat := if d = 0 then P.t + P.l - 1 else d

/-- `rand_share`, `scripts/computation_estimates.py:43-50`. -/
def EstParams.compRandShare (P : EstParams) (num d : Nat) : Nat := num * ((P.n - P.degree d - 1) * (P.degree d + 1))

/-- `share`, `scripts/computation_estimates.py:52-60`. -/
def EstParams.compShare (P : EstParams) (num d : Nat) : Nat := num * ((P.n + P.l - P.degree d - 1) * (P.degree d + 1))

/-- `recon`, `scripts/computation_estimates.py:62-65`. -/
def EstParams.compRecon (P : EstParams) (num : Nat) : Nat := num * (P.l * P.n)

/-- `select`, `scripts/computation_estimates.py:78-80`. -/
def EstParams.compSelect (P : EstParams) (num : Nat) : Nat := num * P.l

/-- `ecc`, `scripts/computation_estimates.py:82-87`. -/
def EstParams.compEcc (P : EstParams) (num : Nat) : Nat := num * P.ctxLen * (P.keyLen + 1)

/-- `__rand`, `scripts/computation_estimates.py:93-99`. -/
def EstParams.compRand (P : EstParams) (num : Nat) : Option Nat :=
  (estCeil num (P.n - P.t)).map fun batches => P.compRandShare batches 0 + batches * (P.n - P.t) * P.n

/-- `__zero`, `scripts/computation_estimates.py:105-111`. -/
def EstParams.compZero (P : EstParams) (num : Nat) : Option Nat :=
  (estCeil num (P.n - P.t)).map fun batches => P.compShare batches (P.n - 1) + batches * (P.n - P.t) * P.n

/-- `__bitrand`, `scripts/computation_estimates.py:117-124`. -/
def EstParams.compBitrand (P : EstParams) (num : Nat) : Option Nat :=
  (estCeil num P.binsupDim).map fun batches => P.compShare batches 0 + batches * P.binsupDim * P.n

/-- `degreduce`, `scripts/computation_estimates.py:126-129`. -/
def EstParams.compDegreduce (P : EstParams) (num : Nat) : Option Nat :=
  (estCeil num P.n).map fun num => P.compRecon num + P.compShare num 0

/-- `randshare`, `scripts/computation_estimates.py:131-143`; the field `comm` of the result counts multiplications. -/
def EstParams.compRandshare (P : EstParams) (num : Nat) : Option Est :=
  (estCeil num P.l).map fun batches =>
    ((estZero (batches * 2 * P.n)).add (estRand (batches * (P.n + P.t)))).add
      ⟨batches * P.l * P.n + batches * (P.n + P.l - (P.t + P.l - 1) - 1) * (P.t + P.l - 1 + 1) + P.compRecon (2 * batches), 0, 0, 0⟩

/-- `mult`, `scripts/computation_estimates.py:164-170`. -/
def EstParams.compMult (P : EstParams) (num : Nat) : Option Est :=
  (P.compDegreduce num).map fun d => ((estRand num).add (estZero num)).add ⟨num + d, 0, 0, 0⟩

/-- `trans`, `scripts/computation_estimates.py:177-178`. -/
def EstParams.compTrans (P : EstParams) (num : Nat) : Option Est :=
  (P.compRandshare num).bind fun e => (P.compDegreduce num).map fun d => e.add ⟨d, 0, 0, 0⟩

/-- `error`, `scripts/computation_estimates.py:189-195`. -/
def EstParams.compError (P : EstParams) (num : Nat) : Option Est :=
  (P.compMult (num * (P.noise - 1))).bind fun a => (P.compMult num).map fun b =>
    (((estBitrand (num * P.noise)).add a).add (estRand num)).add b

/-- The multiplications in the figures of `semihon_protocol`. -/
structure CompFigures where
  /-- "Transform masks and labels", "Compute plaintexts" and "Compute ciphertexts" of the garbling phase. -/
  transform : Nat
  plaintexts : Nat
  ciphertexts : Nat
  /-- "Generate errors" of the preprocessing phase ("Generate keys" and "Generate masks" are 0). -/
  errors : Nat
  /-- The circuit-independent figures of the preprocessing phase. -/
  rand : Nat
  zero : Nat
  bitrand : Nat
deriving DecidableEq

/-- "Total" of the garbling phase. -/
def CompFigures.garble (e : CompFigures) : Nat := e.transform + e.plaintexts + e.ciphertexts

/-- "Total" of the preprocessing phase. -/
def CompFigures.preproc (e : CompFigures) : Nat := e.errors + (e.rand + e.zero + e.bitrand)

/-- `semihon_protocol`, `scripts/computation_estimates.py:354-421`, with `get_circ_ind_preproc`, lines 237-254. -/
def EstParams.compSemihon (P : EstParams) (numInp numAnd numXor : Nat) : Option CompFigures :=
  (estCeil numAnd P.l).bind fun andBlocks => (estCeil numXor P.l).bind fun xorBlocks =>
  (estCeil numInp P.l).bind fun inpBlocks =>
  let wireBlocks := inpBlocks + andBlocks + xorBlocks
  let gateBlocks := andBlocks + xorBlocks
  let keys := estRand (wireBlocks * 2 * P.keyLen)
  let masks := estBitrand wireBlocks
  (P.compError (gateBlocks * 4 * P.ctxLen)).bind fun errors =>
  (P.compTrans (wireBlocks + wireBlocks * 2 * P.keyLen)).bind fun t₁ =>
  (P.compTrans (2 * gateBlocks + 2 * gateBlocks * 2 * P.keyLen)).bind fun t₂ =>
  (P.compMult (andBlocks * (3 * (P.keyLen + 1) + 1) + xorBlocks * (P.keyLen + 1))).bind fun plain =>
  let all := ((((keys.add masks).add errors).add t₁).add t₂).add plain
  (P.compRand all.rand).bind fun r => (P.compZero all.zero).bind fun z => (P.compBitrand all.bitrand).map fun b =>
  { transform := t₁.comm + P.compSelect (2 * gateBlocks + 2 * gateBlocks * 2 * P.keyLen) + t₂.comm
    plaintexts := plain.comm
    ciphertexts := P.compEcc (4 * gateBlocks) + 4 * gateBlocks * P.ctxLen * P.keyLen
    errors := errors.comm, rand := r, zero := z, bitrand := b }

end Verif
