import Verif.CoreSpec
import Verif.Preproc

/-!
# Vocabulary of the statements about preprocessing
-/

namespace Verif

/-- All parties' tapes have the lengths the code draws: `batches` sharings per party, `len` values each. -/
def TapeShape (n batches len : Nat) {α : Type} (tapes : List (List (List α))) : Prop :=
  tapes.length = n ∧ ∀ tp ∈ tapes, tp.length = batches ∧ ∀ t ∈ tp, t.length = len

/-- The leader's randomness for the two multiplications of an error batch of size `b`. -/
def ErrTapes.Ok {F : Type} (t b : Nat) (tp : ErrTapes F) : Prop :=
  (tp.first.length = b ∧ ∀ x ∈ tp.first, x.length = t) ∧ tp.second.length = b ∧ ∀ x ∈ tp.second, x.length = t

/-- The shares `i < len` of all outputs are given by `target`. -/
def HasOutputs {F : Type} (outs : List (List F)) (len total : Nat) (target : Nat → Nat → F) : Prop :=
  ∀ i < len, outs[i]? = some ((List.range total).map fun k => target k i)

/-- The number of sharings of a dealing protocol: the requested number, rounded up to a multiple of the number
of rows of the matrix. -/
def RoundedUp (num rows total : Nat) : Prop := IsLeast {c | num ≤ c ∧ rows ∣ c} total

/-- The matrix of a dealing protocol: one column per party, at least one row. -/
def DealMat {F : Type} (n : Nat) (m : Mat F) : Prop := m.WF ∧ m.ncols = n ∧ m.rows ≠ []

/-- All entries are 0 or 1. -/
def Mat.Binary {F : Type} [Field F] (m : Mat F) : Prop := ∀ r ∈ m.rows, ∀ x ∈ r, x = 0 ∨ x = 1

/-- The number of errors handled by leader `a`. -/
def errSize (errors n a : Nat) : Nat := if a + 1 = n then errors - (n - 1) * (errors / n) else errors / n

/-- The tapes of a run of `preproc`. -/
structure PreTapes.Ok {F : Type} (n t l : Nat) (superInv binSuperInv : Mat F) (desc : PreProcCount) (tp : PreTapes F) :
    Prop where
  rand : ∀ b, numBatches (desc.numKeys + desc.randoms + 3 * desc.errors) superInv.rows.length = some b →
    TapeShape n b (t + l) tp.rand
  zero : ∀ b, numBatches (desc.zeros + 2 * desc.errors) superInv.rows.length = some b → TapeShape n b (n - l) tp.zero
  bits : ∀ b, numBatches (desc.masks + 2 * desc.errors) binSuperInv.rows.length = some b → TapeShape n b l tp.bits
  rbit : ∀ b, numBatches (desc.masks + 2 * desc.errors) binSuperInv.rows.length = some b → TapeShape n b t tp.rbit
  errs : tp.errs.length = n ∧ ∀ a (e : ErrTapes F), tp.errs[a]? = some e → e.Ok t (errSize desc.errors n a)

/-- The tapes of `PreProc::dummy`: shapes of the random input arrays. -/
structure DummyTape.Ok {F : Type} (n t l pool : Nat) (tp : DummyTape F) : Prop where
  rand : tp.rand.length = t + l ∧ ∀ r ∈ tp.rand, r.length = pool
  zero : tp.zero.length = n - l ∧ ∀ r ∈ tp.zero, r.length = pool
  bits : tp.bits.length = l ∧ ∀ r ∈ tp.bits, r.length = pool
  bitRand : tp.bitRand.length = t ∧ ∀ r ∈ tp.bitRand, r.length = pool

end Verif
