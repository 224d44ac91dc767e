import Verif.CompEst

/-!
# The estimates of the maliciously secure protocol, and additions

The default of `scripts/communication_estimates.py` and `scripts/computation_estimates.py` is the estimate for the maliciously secure protocol,
which is not in the repository (`README.md:127-161`).  Here are both, and the semi-honest computation estimate with its additions
(`Verif.CompEst` has the multiplications only).  Simplifications: exact rounded-up quotients as in `Verif.Estimates`; a division by zero is
`none`; numpy's 64-bit integers are integers.
-/

namespace Verif

/-- `Params` with the fields of the malicious estimates, `scripts/communication_estimates.py:5-29`, `scripts/computation_estimates.py:6-29`. -/
structure MalParams extends EstParams where
  lenmac : Nat
  lencheck : Nat

/-! ### Communication -/

/-- `__mackeygen`, `scripts/communication_estimates.py:98-105`. -/
def MalParams.mackeygen (P : MalParams) (num : Nat) : Option Nat :=
  (estCeil num (2 * P.l)).map fun batches => P.all batches + batches * P.n * 2 * P.t * P.fcomm

/-- A figure which increments no counter. -/
def estComm (comm : Nat) : Est := ⟨comm, 0, 0, 0⟩

/-- `coin`, `scripts/communication_estimates.py:107-110`. -/
def MalParams.coin (P : MalParams) : Option Est := (estCeil 128 P.f).map fun num => (estRand num).add (estComm (P.all num))

/-- `authmult`, `scripts/communication_estimates.py:115-116`. -/
def MalParams.authmult (P : MalParams) (num : Nat) : Est := P.mult ((P.lenmac + 1) * num)

/-- `authtrans`, `scripts/communication_estimates.py:121-122`. -/
def MalParams.authtrans (P : MalParams) (num : Nat) : Option Est := P.trans ((P.lenmac + 1) * num)

/-- `auth`, `scripts/communication_estimates.py:124-125`. -/
def MalParams.auth (P : MalParams) (num : Nat) : Est := P.mult (P.lenmac * num)

/-- `autherror`, `scripts/communication_estimates.py:138-146`, with `checkbit`, lines 135-136. -/
def MalParams.autherror (P : MalParams) (num : Nat) : Est :=
  (((((estBitrand (num * P.noise)).add (P.auth (num * P.noise))).add (P.authmult (num * P.noise))).add
    (P.authmult (num * (P.noise - 1)))).add (estRand num)).add (P.mult (num * (P.lenmac + 1)))

/-- `checkcons`, `scripts/communication_estimates.py:148-153`. -/
def MalParams.checkcons (P : MalParams) : Option Est :=
  P.coin.map fun c => ((estRand P.lencheck).add c).add (estComm (P.all P.lencheck))

/-- `checkmac`, `scripts/communication_estimates.py:155-160`. -/
def MalParams.checkmac (P : MalParams) : Option Est :=
  P.coin.map fun c => (c.add (estComm (P.all P.lenmac))).add (estComm (P.all P.lenmac))

/-- `checkzero`, `scripts/communication_estimates.py:162-163`. -/
def MalParams.checkzero (P : MalParams) : Option Est := P.coin.map fun c => c.add (estComm (P.all P.lencheck))

/-- The figures of `malicious_protocol`: those of `semihon_protocol` and four more. -/
structure MalEst extends SemihonEst where
  /-- "Compute ciphertexts" and "Verification" of the garbling phase. -/
  ciphertexts : Nat
  verification : Nat
  /-- "Generate MAC keys" of the preprocessing phase. -/
  mackeys : Nat
  /-- `mackeygen` of the preprocessing phase. -/
  mackeygen : Nat
deriving DecidableEq

/-- "Total" of the garbling phase. -/
def MalEst.garbleTotal (e : MalEst) : Nat := e.transform + e.plaintexts + e.ciphertexts + e.verification

/-- "Total" of the preprocessing phase. -/
def MalEst.preprocTotal (e : MalEst) : Nat :=
  e.mackeys + e.keys + e.masks + e.errors + (e.mackeygen + e.rand + e.zero + e.bitrand)

/-- `malicious_protocol`, `scripts/communication_estimates.py:202-267`, with `get_circ_ind_preproc`, lines 165-181. -/
def MalParams.malicious (P : MalParams) (numInp numAnd numXor : Nat) : Option MalEst :=
  (estCeil numAnd P.l).bind fun andBlocks => (estCeil numXor P.l).bind fun xorBlocks =>
  (estCeil numInp P.l).bind fun inpBlocks =>
  let wireBlocks := inpBlocks + andBlocks + xorBlocks
  let gateBlocks := andBlocks + xorBlocks
  let keys := (estRand (wireBlocks * 2 * P.keyLen)).add (P.auth (wireBlocks * 2 * P.keyLen))
  let masks := ((estBitrand wireBlocks).add (P.auth wireBlocks)).add (P.authmult wireBlocks)
  let errors := P.autherror (gateBlocks * 4 * P.ctxLen)
  (P.authtrans (wireBlocks * (2 * P.keyLen + 1))).bind fun t₁ =>
  (P.authtrans (2 * gateBlocks * (2 * P.keyLen + 1))).bind fun t₂ =>
  let plain := P.authmult (andBlocks * (3 * (P.keyLen + 1) + 1) + xorBlocks * (P.keyLen + 1))
  let ctx := P.authmult (4 * gateBlocks * P.ctxLen)
  P.checkcons.bind fun c₁ => P.checkmac.bind fun c₂ => P.checkzero.bind fun c₃ =>
  let all := ((((((((keys.add masks).add errors).add t₁).add t₂).add plain).add ctx).add c₁).add c₂).add c₃
  (P.mackeygen P.lenmac).bind fun k =>
  (P.shares all.rand).bind fun r => (P.shares all.zero).bind fun z => (P.bits all.bitrand).map fun b =>
  { transform := t₁.comm + t₂.comm, plaintexts := plain.comm, keys := keys.comm, masks := masks.comm, errors := errors.comm,
    rand := r, zero := z, bitrand := b, ciphertexts := ctx.comm, verification := c₁.comm + c₂.comm + c₃.comm, mackeys := 0, mackeygen := k }

/-! ### Computation -/

/-- A numpy array of two numbers: additions and multiplications in the field. -/
structure Ops where
  adds : Int
  muls : Int
deriving DecidableEq

/-- The sum of two arrays. -/
def Ops.add (a b : Ops) : Ops := ⟨a.adds + b.adds, a.muls + b.muls⟩

/-- The product of a number and an array. -/
def Ops.smul (k : Int) (a : Ops) : Ops := ⟨k * a.adds, k * a.muls⟩

/-- `fmt_time` gets `(adds * tadd + muls * tmul) / threads`, `scripts/computation_estimates.py:262-268`. -/
def Ops.time (threads tadd tmul : Rat) (a : Ops) : Rat := (a.adds * tadd + a.muls * tmul) / threads

/-- What a method of `ProtoCtr` returns and adds to `counts`, `ncons`, `nmac` and `nzero`, `scripts/computation_estimates.py:32-41`. -/
structure OEst where
  ops : Ops
  rand : Nat := 0
  zero : Nat := 0
  bitrand : Nat := 0
  ncons : Nat := 0
  nmac : Nat := 0
  nzero : Nat := 0

/-- Two calls one after the other. -/
def OEst.add (a b : OEst) : OEst :=
  ⟨a.ops.add b.ops, a.rand + b.rand, a.zero + b.zero, a.bitrand + b.bitrand, a.ncons + b.ncons, a.nmac + b.nmac, a.nzero + b.nzero⟩

/-- `rand_share`, `scripts/computation_estimates.py:43-50`. -/
def EstParams.opsRandShare (P : EstParams) (num d : Nat) : Ops :=
  Ops.smul num ⟨((P.n : Int) - P.degree d - 1) * P.degree d, ((P.n : Int) - P.degree d - 1) * (P.degree d + 1)⟩

/-- `share`, `scripts/computation_estimates.py:52-60`. -/
def EstParams.opsShare (P : EstParams) (num d : Nat) : Ops :=
  Ops.smul num ⟨((P.n : Int) + P.l - P.degree d - 1) * P.degree d, ((P.n : Int) + P.l - P.degree d - 1) * (P.degree d + 1)⟩

/-- `recon`, `scripts/computation_estimates.py:62-65`. -/
def EstParams.opsRecon (P : EstParams) (num : Nat) : Ops := Ops.smul num ⟨P.l * ((P.n : Int) - 1), P.l * P.n⟩

/-- `robustrecon`, `scripts/computation_estimates.py:67-76`. -/
def EstParams.opsRobust (P : EstParams) (num : Nat) : Ops :=
  let d : Int := (P.t : Int) + P.l - 1
  Ops.smul num ⟨((P.n : Int) - d - 1 + P.l) * d, ((P.n : Int) - d - 1 + P.l) * (d + 1)⟩

/-- `select`, `scripts/computation_estimates.py:78-80`. -/
def EstParams.opsSelect (P : EstParams) (num : Nat) : Ops := Ops.smul num ⟨(P.l : Int) - 1, P.l⟩

/-- `ecc`, `scripts/computation_estimates.py:82-87`. -/
def EstParams.opsEcc (P : EstParams) (num : Nat) : Ops := Ops.smul (num * P.ctxLen) ⟨P.keyLen, P.keyLen + 1⟩

/-- `__rand`, `scripts/computation_estimates.py:93-99`. -/
def EstParams.opsRand (P : EstParams) (num : Nat) : Option Ops :=
  (estCeil num (P.n - P.t)).map fun batches =>
    (P.opsRandShare batches 0).add (Ops.smul (batches * ((P.n : Int) - P.t)) ⟨(P.n : Int) - 1, P.n⟩)

/-- `__zero`, `scripts/computation_estimates.py:105-111`. -/
def EstParams.opsZero (P : EstParams) (num : Nat) : Option Ops :=
  (estCeil num (P.n - P.t)).map fun batches =>
    (P.opsShare batches (P.n - 1)).add (Ops.smul (batches * ((P.n : Int) - P.t)) ⟨(P.n : Int) - 1, P.n⟩)

/-- `__bitrand`, `scripts/computation_estimates.py:117-124`. -/
def EstParams.opsBitrand (P : EstParams) (num : Nat) : Option Ops :=
  (estCeil num P.binsupDim).map fun batches =>
    (P.opsShare batches 0).add (Ops.smul (batches * P.binsupDim) ⟨(P.n : Int) - 1, P.n⟩)

/-- `degreduce`, `scripts/computation_estimates.py:126-129`. -/
def EstParams.opsDegreduce (P : EstParams) (num : Nat) : Option Ops :=
  (estCeil num P.n).map fun num => (P.opsRecon num).add (P.opsShare num 0)

/-- `randshare`, `scripts/computation_estimates.py:131-143`. -/
def EstParams.opsRandshare (P : EstParams) (num : Nat) : Option OEst :=
  (estCeil num P.l).map fun (batches : Nat) =>
    let d : Int := (P.t : Int) + P.l - 1
    { ops := ((Ops.smul ((batches : Int) * P.l) ⟨(P.n : Int) - 1, P.n⟩).add (Ops.smul (batches * ((P.n : Int) + P.l - d - 1)) ⟨d, d + 1⟩)).add
        (P.opsRecon (2 * batches))
      rand := batches * (P.n + P.t), zero := batches * 2 * P.n }

/-- `__mackeygen`, `scripts/computation_estimates.py:149-158`. -/
def EstParams.opsMackeygen (P : EstParams) (num : Nat) : Option Ops :=
  (estCeil num (2 * P.l)).map fun batches =>
    ((P.opsShare batches 0).add (Ops.smul (batches * P.n) ⟨(P.n : Int) - 1, P.n⟩)).add (P.opsRobust batches)

/-- `coin`, `scripts/computation_estimates.py:160-162`. -/
def EstParams.opsCoin (P : EstParams) : Option OEst :=
  (estCeil 128 P.f).map fun num => { ops := P.opsRobust num, rand := num }

/-- `mult`, `scripts/computation_estimates.py:164-170`. -/
def EstParams.opsMult (P : EstParams) (num : Nat) : Option OEst :=
  (P.opsDegreduce num).map fun d => { ops := (Ops.smul num ⟨3, 1⟩).add d, rand := num, zero := num }

/-- `authmult`, `scripts/computation_estimates.py:172-175`. -/
def MalParams.opsAuthmult (P : MalParams) (num : Nat) : Option OEst :=
  (P.opsMult ((P.lenmac + 1) * num)).map fun e => e.add { ops := ⟨0, 0⟩, ncons := num * (P.lenmac + 1), nmac := num }

/-- `trans`, `scripts/computation_estimates.py:177-178`. -/
def EstParams.opsTrans (P : EstParams) (num : Nat) : Option OEst :=
  (P.opsRandshare num).bind fun e => (P.opsDegreduce num).map fun d => e.add { ops := (Ops.smul num ⟨2, 0⟩).add d }

/-- `authtrans`, `scripts/computation_estimates.py:180-182`. -/
def MalParams.opsAuthtrans (P : MalParams) (num : Nat) : Option OEst :=
  (P.opsTrans ((P.lenmac + 1) * num)).map fun e => e.add { ops := ⟨0, 0⟩, ncons := num * (P.lenmac + 1) }

/-- `auth`, `scripts/computation_estimates.py:184-187`. -/
def MalParams.opsAuth (P : MalParams) (num : Nat) : Option OEst :=
  (P.opsMult (P.lenmac * num)).map fun e => e.add { ops := ⟨0, 0⟩, ncons := num * P.lenmac, nmac := num }

/-- `error`, `scripts/computation_estimates.py:189-195`. -/
def EstParams.opsError (P : EstParams) (num : Nat) : Option OEst :=
  (P.opsMult (num * (P.noise - 1))).bind fun a => (P.opsMult num).map fun b =>
    ((OEst.add { ops := ⟨0, 0⟩, bitrand := num * P.noise } a).add { ops := ⟨0, 0⟩, rand := num }).add b

/-- `checkbit`, `scripts/computation_estimates.py:197-199`. -/
def MalParams.opsCheckbit (P : MalParams) (num : Nat) : Option OEst :=
  (P.opsAuthmult num).map fun e => e.add { ops := Ops.smul num ⟨1, 0⟩, nzero := num }

/-- `autherror`, `scripts/computation_estimates.py:201-209`. -/
def MalParams.opsAutherror (P : MalParams) (num : Nat) : Option OEst :=
  (P.opsAuth (num * P.noise)).bind fun a => (P.opsCheckbit (num * P.noise)).bind fun b =>
  (P.opsAuthmult (num * (P.noise - 1))).bind fun c => (P.opsMult (num * (P.lenmac + 1))).map fun d =>
    ((((OEst.add { ops := ⟨0, 0⟩, bitrand := num * P.noise } a).add b).add c).add { ops := ⟨0, 0⟩, rand := num }).add d

/-- `checkcons`, `scripts/computation_estimates.py:211-219`; `m` is `ncons`. -/
def MalParams.opsCheckcons (P : MalParams) (m : Nat) : Option OEst :=
  P.opsCoin.map fun c => OEst.add { ops := ⟨0, 0⟩, rand := P.lencheck }
    (c.add { ops := (Ops.smul P.lencheck ⟨m, m + 1⟩).add (P.opsRobust P.lencheck) })

/-- `checkmac`, `scripts/computation_estimates.py:221-230`; `m` is `nmac`. -/
def MalParams.opsCheckmac (P : MalParams) (m : Nat) : Option OEst :=
  P.opsCoin.map fun c => c.add
    { ops := (((P.opsRobust P.lenmac).add (Ops.smul (2 * P.lenmac) ⟨(m : Int) - 1, m⟩)).add ⟨1, 1⟩).add (P.opsRobust P.lenmac) }

/-- `checkzero`, `scripts/computation_estimates.py:232-235`; `m` is `nzero`. -/
def MalParams.opsCheckzero (P : MalParams) (m : Nat) : Option OEst :=
  P.opsCoin.map fun c => c.add { ops := (P.opsRobust P.lencheck).add (Ops.smul P.lencheck ⟨(m : Int) - 1, m⟩) }

/-- The figures of `semihon_protocol` and, with the last four, of `malicious_protocol`. -/
structure OpsFigures where
  /-- "Transform masks and labels", "Compute plaintexts" and "Compute ciphertexts" of the garbling phase. -/
  transform : Ops
  plaintexts : Ops
  ciphertexts : Ops
  /-- "Generate keys", "Generate masks" and "Generate errors" of the preprocessing phase. -/
  keys : Ops
  masks : Ops
  errors : Ops
  /-- The circuit-independent figures of the preprocessing phase. -/
  rand : Ops
  zero : Ops
  bitrand : Ops
  /-- "Verification" of the garbling phase. -/
  verification : Ops := ⟨0, 0⟩
  /-- `mackeygen` of the preprocessing phase ("Generate MAC keys" is 0). -/
  mackeygen : Ops := ⟨0, 0⟩
deriving DecidableEq

/-- "Total" of the garbling phase. -/
def OpsFigures.garble (e : OpsFigures) : Ops := ((e.transform.add e.plaintexts).add e.ciphertexts).add e.verification

/-- "Total" of the preprocessing phase. -/
def OpsFigures.preproc (e : OpsFigures) : Ops :=
  ((e.keys.add e.masks).add e.errors).add (((e.mackeygen.add e.rand).add e.zero).add e.bitrand)

/-- What both protocols add to "Compute plaintexts", `scripts/computation_estimates.py:324-326`, `395-397`. -/
def EstParams.opsPlain (P : EstParams) (andBlocks xorBlocks : Nat) : Ops :=
  ((Ops.smul andBlocks ⟨7, 0⟩).add (Ops.smul xorBlocks ⟨4, 0⟩)).add (Ops.smul ((andBlocks + xorBlocks : Nat) * 4 * P.keyLen) ⟨2, 0⟩)

/-- What both protocols start "Compute ciphertexts" with, `scripts/computation_estimates.py:330-336`, `401-407`. -/
def EstParams.opsCtx (P : EstParams) (gateBlocks : Nat) : Ops :=
  (P.opsEcc (4 * gateBlocks)).add (Ops.smul (4 * gateBlocks * P.ctxLen) ⟨P.keyLen + 1, P.keyLen⟩)

/-- `semihon_protocol`, `scripts/computation_estimates.py:354-421`, with `get_circ_ind_preproc`, lines 237-254. -/
def EstParams.opsSemihon (P : EstParams) (numInp numAnd numXor : Nat) : Option OpsFigures :=
  (estCeil numAnd P.l).bind fun andBlocks => (estCeil numXor P.l).bind fun xorBlocks =>
  (estCeil numInp P.l).bind fun inpBlocks =>
  let wireBlocks := inpBlocks + andBlocks + xorBlocks
  let gateBlocks := andBlocks + xorBlocks
  let keys : OEst := { ops := ⟨0, 0⟩, rand := wireBlocks * 2 * P.keyLen }
  let masks : OEst := { ops := ⟨0, 0⟩, bitrand := wireBlocks }
  (P.opsError (gateBlocks * 4 * P.ctxLen)).bind fun errors =>
  (P.opsTrans (wireBlocks + wireBlocks * 2 * P.keyLen)).bind fun t₁ =>
  (P.opsTrans (2 * gateBlocks + 2 * gateBlocks * 2 * P.keyLen)).bind fun t₂ =>
  (P.opsMult (andBlocks * (3 * (P.keyLen + 1) + 1) + xorBlocks * (P.keyLen + 1))).bind fun plain =>
  let all := ((((keys.add masks).add errors).add t₁).add t₂).add plain
  (P.opsRand all.rand).bind fun r => (P.opsZero all.zero).bind fun z => (P.opsBitrand all.bitrand).map fun b =>
  { transform := (t₁.ops.add (P.opsSelect (2 * gateBlocks + 2 * gateBlocks * 2 * P.keyLen))).add t₂.ops
    plaintexts := plain.ops.add (P.opsPlain andBlocks xorBlocks)
    ciphertexts := P.opsCtx gateBlocks
    keys := keys.ops, masks := masks.ops, errors := errors.ops, rand := r, zero := z, bitrand := b }

/-- `malicious_protocol`, `scripts/computation_estimates.py:271-351`, with `get_circ_ind_preproc`, lines 237-254. -/
def MalParams.opsMalicious (P : MalParams) (numInp numAnd numXor : Nat) : Option OpsFigures :=
  (estCeil numAnd P.l).bind fun andBlocks => (estCeil numXor P.l).bind fun xorBlocks =>
  (estCeil numInp P.l).bind fun inpBlocks =>
  let wireBlocks := inpBlocks + andBlocks + xorBlocks
  let gateBlocks := andBlocks + xorBlocks
  (P.opsAuth (wireBlocks * 2 * P.keyLen)).bind fun keyMac =>
  let keys := OEst.add { ops := ⟨0, 0⟩, rand := wireBlocks * 2 * P.keyLen, ncons := wireBlocks * 2 * P.keyLen } keyMac
  (P.opsAuth wireBlocks).bind fun maskMac => (P.opsCheckbit wireBlocks).bind fun maskCheck =>
  let masks := (OEst.add { ops := ⟨0, 0⟩, bitrand := wireBlocks, ncons := wireBlocks } maskMac).add maskCheck
  (P.opsAutherror (gateBlocks * 4 * P.ctxLen)).bind fun errors =>
  (P.opsAuthtrans (wireBlocks * (2 * P.keyLen + 1))).bind fun t₁ =>
  (P.opsAuthtrans (2 * gateBlocks * (2 * P.keyLen + 1))).bind fun t₂ =>
  (P.opsAuthmult (andBlocks * (3 * (P.keyLen + 1) + 1) + xorBlocks * (P.keyLen + 1))).bind fun plain =>
  (P.opsAuthmult (4 * gateBlocks * P.ctxLen)).bind fun ctx =>
  let all := (((((keys.add masks).add errors).add t₁).add t₂).add plain).add ctx
  (P.opsCheckcons all.ncons).bind fun c₁ =>
  (P.opsCheckmac (all.nmac + (2 * gateBlocks + 2 * gateBlocks * 2 * P.keyLen))).bind fun c₂ => (P.opsCheckzero all.nzero).bind fun c₃ =>
  (P.opsMackeygen P.lenmac).bind fun k =>
  (P.opsRand (all.rand + (c₁.rand + c₂.rand + c₃.rand))).bind fun r => (P.opsZero all.zero).bind fun z =>
  (P.opsBitrand all.bitrand).map fun b =>
  { transform := (t₁.ops.add (P.opsSelect (2 * gateBlocks * (2 * P.keyLen + 1)))).add t₂.ops
    plaintexts := plain.ops.add (P.opsPlain andBlocks xorBlocks)
    ciphertexts := (P.opsCtx gateBlocks).add ctx.ops
    keys := keys.ops, masks := masks.ops, errors := errors.ops, rand := r, zero := z, bitrand := b
    verification := (c₁.ops.add c₂.ops).add c₃.ops, mackeygen := k }

end Verif
