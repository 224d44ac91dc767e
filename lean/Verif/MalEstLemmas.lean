import Verif.MalEst
import Verif.ScaleLemmas
import Mathlib.Tactic.Positivity
import Mathlib.Algebra.Order.Field.Rat

/-!
# Lemmas about the estimates of the maliciously secure protocol
-/

open Verif

namespace Verif.Props

/-! ### Communication -/

/-- The communication of `trans` for `num` sharings. -/
def transComm (P : EstParams) (num : Nat) : Nat := P.all (2 * cdiv num P.l) + num * 2 * P.n * P.fcomm

theorem all_mono (P : EstParams) {a b : Nat} (h : a ≤ b) : P.all a ≤ P.all b := by
  unfold EstParams.all
  gcongr

theorem transComm_mono (P : EstParams) {a b : Nat} (h : a ≤ b) : transComm P a ≤ transComm P b := by
  refine Nat.add_le_add (all_mono P (Nat.mul_le_mul_left _ (cdiv_mono h))) ?_
  gcongr

theorem transComm_mul_le (P : EstParams) (hl : 0 < P.l) (k a : Nat) : transComm P (k * a) ≤ k * transComm P a := by
  unfold transComm EstParams.all
  have h := cdiv_mul_le a k hl
  rw [Nat.mul_comm a k] at h
  calc P.n * (2 * cdiv (k * a) P.l) * P.n * P.fcomm + k * a * 2 * P.n * P.fcomm
      ≤ P.n * (2 * (cdiv a P.l * k)) * P.n * P.fcomm + k * a * 2 * P.n * P.fcomm := by gcongr
    _ = _ := by ring

theorem transComm_scale (P : EstParams) (hl : 0 < P.l) {C : Nat} (hC : P.n ≤ C * P.l) (k w M : Nat) :
    transComm P (k * (w * M)) ≤ P.fcomm * ((2 * C + 2) * k * M * (P.n * w) + 2 * C * P.n * P.l) := by
  unfold transComm EstParams.all
  have h := mul_cdiv_le hl hC (k * (w * M))
  calc P.n * (2 * cdiv (k * (w * M)) P.l) * P.n * P.fcomm + k * (w * M) * 2 * P.n * P.fcomm
      = P.fcomm * (2 * P.n * (P.n * cdiv (k * (w * M)) P.l) + k * (w * M) * 2 * P.n) := by ring
    _ ≤ P.fcomm * (2 * P.n * (C * (k * (w * M) + P.l)) + k * (w * M) * 2 * P.n) := by gcongr
    _ = _ := by ring

theorem scale_form (f k C K ctx n l S v : Nat) :
    f * ((2 * C + 2) * (k + 1) * (2 * K + 1) * (C * (S + 3 * l)) + 2 * C * n * l)
      + f * ((2 * C + 2) * (k + 1) * (2 * K + 1) * (2 * (C * (S + 3 * l))) + 2 * C * n * l)
      + f * (k + 1) * (2 * (3 * (K + 1) + 1)) * (C * (S + 3 * l)) + f * (k + 1) * (8 * ctx) * (C * (S + 3 * l)) + v
      = f * (k + 1) * C * ((6 * C + 6) * (2 * K + 1) + 2 * (3 * (K + 1) + 1) + 8 * ctx) * S
        + (f * (k + 1) * C * ((6 * C + 6) * (2 * K + 1) + 2 * (3 * (K + 1) + 1) + 8 * ctx) * (3 * l) + f * (4 * C * n * l) + v) := by
  ring

/-- The number of blocks of gates and wires. -/
structure BlockNums (l inp nand nxor A X W : Nat) : Prop where
  and : A = cdiv nand l
  xor : X = cdiv nxor l
  wires : W = cdiv inp l + A + X

theorem BlockNums.mono {l inp nand nxor A X W inp' nand' nxor' A' X' W' : Nat} (h : BlockNums l inp nand nxor A X W)
    (h' : BlockNums l inp' nand' nxor' A' X' W') (hi : inp ≤ inp') (ha : nand ≤ nand') (hx : nxor ≤ nxor') : A ≤ A' ∧ X ≤ X' ∧ W ≤ W' := by
  have h1 := cdiv_mono (b := l) ha
  have h2 := cdiv_mono (b := l) hx
  have h3 := cdiv_mono (b := l) hi
  have := h.and; have := h.xor; have := h.wires
  have := h'.and; have := h'.xor; have := h'.wires
  omega

/-- The numbers of multiplications to select the plaintexts. -/
def selMults (K A X : Nat) : Nat := A * (3 * (K + 1) + 1) + X * (K + 1)

/-- The sharings of random values of the semi-honest estimate. -/
def randNum (P : EstParams) (A X W : Nat) : Nat :=
  W * 2 * P.keyLen + ((A + X) * 4 * P.ctxLen * (P.noise - 1) + (A + X) * 4 * P.ctxLen + (A + X) * 4 * P.ctxLen)
    + cdiv (W * (2 * P.keyLen + 1)) P.l * (P.n + P.t) + cdiv (2 * (A + X) * (2 * P.keyLen + 1)) P.l * (P.n + P.t) + selMults P.keyLen A X

/-- The sharings of zero of the semi-honest estimate. -/
def zeroNum (P : EstParams) (A X W : Nat) : Nat :=
  ((A + X) * 4 * P.ctxLen * (P.noise - 1) + (A + X) * 4 * P.ctxLen)
    + cdiv (W * (2 * P.keyLen + 1)) P.l * 2 * P.n + cdiv (2 * (A + X) * (2 * P.keyLen + 1)) P.l * 2 * P.n + selMults P.keyLen A X

theorem semihon_forms (P : EstParams) (hl : 0 < P.l) (ht : P.t < P.n) (hb : 0 < P.binsupDim) (inp nand nxor : Nat) {A X W : Nat}
    (hB : BlockNums P.l inp nand nxor A X W) :
    P.semihon inp nand nxor = some
      { transform := transComm P (W * (2 * P.keyLen + 1)) + transComm P (2 * (A + X) * (2 * P.keyLen + 1))
        plaintexts := selMults P.keyLen A X * 2 * P.n * P.fcomm, keys := 0, masks := 0
        errors := (A + X) * 4 * P.ctxLen * (P.noise - 1) * 2 * P.n * P.fcomm + (A + X) * 4 * P.ctxLen * 2 * P.n * P.fcomm
        rand := P.all (cdiv (randNum P A X W) (P.n - P.t)), zero := P.all (cdiv (zeroNum P A X W) (P.n - P.t))
        bitrand := P.all (cdiv (W + (A + X) * 4 * P.ctxLen * P.noise) P.binsupDim) } := by
  have hA := hB.and
  have hX := hB.xor
  have hW := hB.wires
  unfold EstParams.semihon
  simp only [estCeil_some hl, Option.bind_some, ← hA, ← hX, ← hW, EstParams.trans, EstParams.randshare, Option.map_some, EstParams.shares,
    estCeil_some (show 0 < P.n - P.t by omega), EstParams.bits, estCeil_some hb, EstParams.mult, EstParams.degreduce, EstParams.error, Est.add,
    estRand, estZero, estBitrand, Nat.zero_add, Nat.add_zero]
  rw [show W + W * 2 * P.keyLen = W * (2 * P.keyLen + 1) by ring,
    show 2 * (A + X) + 2 * (A + X) * 2 * P.keyLen = 2 * (A + X) * (2 * P.keyLen + 1) by ring]
  simp only [transComm, selMults, randNum, zeroNum]

/-- The sharings of random values of the malicious estimate. -/
def randNumM (P : MalParams) (A X W : Nat) : Nat :=
  W * 2 * P.keyLen + P.lenmac * (W * 2 * P.keyLen) + (P.lenmac * W + (P.lenmac + 1) * W)
    + (P.lenmac * ((A + X) * 4 * P.ctxLen * P.noise) + (P.lenmac + 1) * ((A + X) * 4 * P.ctxLen * P.noise)
      + (P.lenmac + 1) * ((A + X) * 4 * P.ctxLen * (P.noise - 1)) + (A + X) * 4 * P.ctxLen + (A + X) * 4 * P.ctxLen * (P.lenmac + 1))
    + cdiv ((P.lenmac + 1) * (W * (2 * P.keyLen + 1))) P.l * (P.n + P.t)
    + cdiv ((P.lenmac + 1) * (2 * (A + X) * (2 * P.keyLen + 1))) P.l * (P.n + P.t)
    + (P.lenmac + 1) * selMults P.keyLen A X + (P.lenmac + 1) * (4 * (A + X) * P.ctxLen)
    + (P.lencheck + cdiv 128 P.f) + cdiv 128 P.f + cdiv 128 P.f

/-- The sharings of zero of the malicious estimate. -/
def zeroNumM (P : MalParams) (A X W : Nat) : Nat :=
  P.lenmac * (W * 2 * P.keyLen) + (P.lenmac * W + (P.lenmac + 1) * W)
    + (P.lenmac * ((A + X) * 4 * P.ctxLen * P.noise) + (P.lenmac + 1) * ((A + X) * 4 * P.ctxLen * P.noise)
      + (P.lenmac + 1) * ((A + X) * 4 * P.ctxLen * (P.noise - 1)) + (A + X) * 4 * P.ctxLen * (P.lenmac + 1))
    + cdiv ((P.lenmac + 1) * (W * (2 * P.keyLen + 1))) P.l * 2 * P.n
    + cdiv ((P.lenmac + 1) * (2 * (A + X) * (2 * P.keyLen + 1))) P.l * 2 * P.n
    + (P.lenmac + 1) * selMults P.keyLen A X + (P.lenmac + 1) * (4 * (A + X) * P.ctxLen)

theorem randNum_le (P : MalParams) (A X W : Nat) : randNum P.toEstParams A X W ≤ randNumM P A X W := by
  have h1 : ∀ x, x ≤ (P.lenmac + 1) * x := fun x => Nat.le_mul_of_pos_left x (Nat.succ_pos _)
  have hc : ∀ x, cdiv x P.l ≤ cdiv ((P.lenmac + 1) * x) P.l := fun x => cdiv_mono (h1 x)
  unfold randNum randNumM
  have c1 := h1 ((A + X) * 4 * P.ctxLen * (P.noise - 1))
  have c2 : (A + X) * 4 * P.ctxLen ≤ (A + X) * 4 * P.ctxLen * (P.lenmac + 1) := Nat.le_mul_of_pos_right _ (Nat.succ_pos _)
  have c3 := Nat.mul_le_mul_right (P.n + P.t) (hc (W * (2 * P.keyLen + 1)))
  have c4 := Nat.mul_le_mul_right (P.n + P.t) (hc (2 * (A + X) * (2 * P.keyLen + 1)))
  have c5 := h1 (selMults P.keyLen A X)
  omega

theorem zeroNum_le (P : MalParams) (A X W : Nat) : zeroNum P.toEstParams A X W ≤ zeroNumM P A X W := by
  have h1 : ∀ x, x ≤ (P.lenmac + 1) * x := fun x => Nat.le_mul_of_pos_left x (Nat.succ_pos _)
  have hc : ∀ x, cdiv x P.l ≤ cdiv ((P.lenmac + 1) * x) P.l := fun x => cdiv_mono (h1 x)
  unfold zeroNum zeroNumM
  have c1 := h1 ((A + X) * 4 * P.ctxLen * (P.noise - 1))
  have c2 : (A + X) * 4 * P.ctxLen ≤ (A + X) * 4 * P.ctxLen * (P.lenmac + 1) := Nat.le_mul_of_pos_right _ (Nat.succ_pos _)
  have c3 := Nat.mul_le_mul_right P.n (Nat.mul_le_mul_right 2 (hc (W * (2 * P.keyLen + 1))))
  have c4 := Nat.mul_le_mul_right P.n (Nat.mul_le_mul_right 2 (hc (2 * (A + X) * (2 * P.keyLen + 1))))
  have c5 := h1 (selMults P.keyLen A X)
  omega

theorem malicious_forms (P : MalParams) (hl : 0 < P.l) (ht : P.t < P.n) (hb : 0 < P.binsupDim) (hf : 0 < P.f) (inp nand nxor : Nat) {A X W : Nat}
    (hB : BlockNums P.l inp nand nxor A X W) :
    P.malicious inp nand nxor = some
      { transform := transComm P.toEstParams ((P.lenmac + 1) * (W * (2 * P.keyLen + 1)))
          + transComm P.toEstParams ((P.lenmac + 1) * (2 * (A + X) * (2 * P.keyLen + 1)))
        plaintexts := (P.lenmac + 1) * selMults P.keyLen A X * 2 * P.n * P.fcomm
        keys := P.lenmac * (W * 2 * P.keyLen) * 2 * P.n * P.fcomm
        masks := P.lenmac * W * 2 * P.n * P.fcomm + (P.lenmac + 1) * W * 2 * P.n * P.fcomm
        errors := P.lenmac * ((A + X) * 4 * P.ctxLen * P.noise) * 2 * P.n * P.fcomm
          + (P.lenmac + 1) * ((A + X) * 4 * P.ctxLen * P.noise) * 2 * P.n * P.fcomm
          + (P.lenmac + 1) * ((A + X) * 4 * P.ctxLen * (P.noise - 1)) * 2 * P.n * P.fcomm
          + (A + X) * 4 * P.ctxLen * (P.lenmac + 1) * 2 * P.n * P.fcomm
        rand := P.all (cdiv (randNumM P A X W) (P.n - P.t)), zero := P.all (cdiv (zeroNumM P A X W) (P.n - P.t))
        bitrand := P.all (cdiv (W + (A + X) * 4 * P.ctxLen * P.noise) P.binsupDim)
        ciphertexts := (P.lenmac + 1) * (4 * (A + X) * P.ctxLen) * 2 * P.n * P.fcomm
        verification := P.all (cdiv 128 P.f) + P.all P.lencheck + (P.all (cdiv 128 P.f) + P.all P.lenmac + P.all P.lenmac)
          + (P.all (cdiv 128 P.f) + P.all P.lencheck)
        mackeys := 0
        mackeygen := P.all (cdiv P.lenmac (2 * P.l)) + cdiv P.lenmac (2 * P.l) * P.n * 2 * P.t * P.fcomm } := by
  have hA := hB.and
  have hX := hB.xor
  have hW := hB.wires
  unfold MalParams.malicious
  simp only [estCeil_some hl, Option.bind_some, ← hA, ← hX, ← hW, MalParams.authtrans, MalParams.auth, MalParams.authmult, MalParams.autherror,
    MalParams.coin, MalParams.checkcons, MalParams.checkmac, MalParams.checkzero, MalParams.mackeygen, EstParams.trans, EstParams.randshare, Option.map_some,
    EstParams.shares, estCeil_some (show 0 < P.n - P.t by omega), estCeil_some (show 0 < 2 * P.l by omega), EstParams.bits,
    estCeil_some hb, estCeil_some hf, EstParams.mult, EstParams.degreduce, Est.add, estComm,
    estRand, estZero, estBitrand, Nat.zero_add, Nat.add_zero]
  simp only [transComm, selMults, randNumM, zeroNumM]

/-! ### Computation -/

/-- Neither more additions nor more multiplications. -/
structure OpsLe (a b : Ops) : Prop where
  adds : a.adds ≤ b.adds
  muls : a.muls ≤ b.muls

theorem OpsLe.refl (a : Ops) : OpsLe a a := ⟨le_rfl, le_rfl⟩

theorem OpsLe.add {a b c d : Ops} (h : OpsLe a c) (k : OpsLe b d) : OpsLe (a.add b) (c.add d) :=
  ⟨add_le_add h.adds k.adds, add_le_add h.muls k.muls⟩

theorem OpsLe.trans {a b c : Ops} (h : OpsLe a b) (k : OpsLe b c) : OpsLe a c := ⟨h.adds.trans k.adds, h.muls.trans k.muls⟩

theorem OpsLe.add_right {a b c : Ops} (h : OpsLe a b) (k : OpsLe ⟨0, 0⟩ c) : OpsLe a (b.add c) := by
  have h1 := h.adds
  have h2 := h.muls
  have h3 : 0 ≤ c.adds := k.adds
  have h4 : 0 ≤ c.muls := k.muls
  constructor <;> simp only [Ops.add] <;> omega

theorem OpsLe.add_nonneg {a b : Ops} (h : OpsLe ⟨0, 0⟩ a) (k : OpsLe ⟨0, 0⟩ b) : OpsLe ⟨0, 0⟩ (a.add b) := h.add_right k

theorem OpsLe.smul {i j : Int} {v : Ops} (hv : OpsLe ⟨0, 0⟩ v) (h : i ≤ j) : OpsLe (Ops.smul i v) (Ops.smul j v) :=
  ⟨mul_le_mul_of_nonneg_right h hv.adds, mul_le_mul_of_nonneg_right h hv.muls⟩

theorem OpsLe.smul_nonneg {j : Int} {v : Ops} (hv : OpsLe ⟨0, 0⟩ v) (h : 0 ≤ j) : OpsLe ⟨0, 0⟩ (Ops.smul j v) :=
  ⟨mul_nonneg h hv.adds, mul_nonneg h hv.muls⟩

theorem OpsLe.time {a b : Ops} (h : OpsLe a b) {threads ta tm : Rat} (h1 : 0 < threads) (h2 : 0 ≤ ta) (h3 : 0 ≤ tm) :
    a.time threads ta tm ≤ b.time threads ta tm := by
  have h4 : (a.adds : Rat) ≤ b.adds := by exact_mod_cast h.adds
  have h5 : (a.muls : Rat) ≤ b.muls := by exact_mod_cast h.muls
  unfold Ops.time
  gcongr

section
variable (P : EstParams) (hl : 0 < P.l) (hn : P.t + P.l ≤ P.n)
include hl hn

theorem degree_le (d : Nat) (hd : d < P.n) : P.degree d < P.n := by
  unfold EstParams.degree
  split <;> omega

theorem randShareV_nonneg (d : Nat) (hd : d < P.n) :
    OpsLe ⟨0, 0⟩ ⟨((P.n : Int) - P.degree d - 1) * P.degree d, ((P.n : Int) - P.degree d - 1) * (P.degree d + 1)⟩ := by
  have := degree_le P hl hn d hd
  constructor <;> apply mul_nonneg <;> omega

theorem shareV_nonneg (d : Nat) (hd : d < P.n) :
    OpsLe ⟨0, 0⟩ ⟨((P.n : Int) + P.l - P.degree d - 1) * P.degree d, ((P.n : Int) + P.l - P.degree d - 1) * (P.degree d + 1)⟩ := by
  have := degree_le P hl hn d hd
  constructor <;> apply mul_nonneg <;> omega

theorem opsRandShare_mono {a b : Nat} (h : a ≤ b) (d : Nat) (hd : d < P.n) : OpsLe (P.opsRandShare a d) (P.opsRandShare b d) :=
  (randShareV_nonneg P hl hn d hd).smul (by exact_mod_cast h)

theorem opsShare_mono {a b : Nat} (h : a ≤ b) (d : Nat) (hd : d < P.n) : OpsLe (P.opsShare a d) (P.opsShare b d) :=
  (shareV_nonneg P hl hn d hd).smul (by exact_mod_cast h)

theorem opsShare_nonneg (a d : Nat) (hd : d < P.n) : OpsLe ⟨0, 0⟩ (P.opsShare a d) :=
  (shareV_nonneg P hl hn d hd).smul_nonneg (Int.natCast_nonneg a)

theorem reconV_nonneg : OpsLe ⟨0, 0⟩ ⟨P.l * ((P.n : Int) - 1), P.l * P.n⟩ := by
  constructor <;> apply mul_nonneg <;> omega

theorem opsRecon_mono {a b : Nat} (h : a ≤ b) : OpsLe (P.opsRecon a) (P.opsRecon b) := (reconV_nonneg P hl hn).smul (by exact_mod_cast h)

theorem opsRecon_nonneg (a : Nat) : OpsLe ⟨0, 0⟩ (P.opsRecon a) := (reconV_nonneg P hl hn).smul_nonneg (Int.natCast_nonneg a)

theorem nV_nonneg : OpsLe ⟨0, 0⟩ ⟨(P.n : Int) - 1, P.n⟩ := by constructor <;> dsimp only <;> omega

theorem opsRobust_nonneg (a : Nat) : OpsLe ⟨0, 0⟩ (P.opsRobust a) := by
  unfold EstParams.opsRobust
  refine OpsLe.smul_nonneg ?_ (Int.natCast_nonneg a)
  constructor <;> apply mul_nonneg <;> omega

theorem opsRobust_adds (h2 : 2 ≤ P.t + P.l) (a : Nat) : (a : Int) ≤ (P.opsRobust a).adds := by
  have h1 : (1 : Int) ≤ ((P.n : Int) - ((P.t : Int) + P.l - 1) - 1 + P.l) * ((P.t : Int) + P.l - 1) :=
    one_le_mul_of_one_le_of_one_le (by omega) (by omega)
  show (a : Int) ≤ (a : Int) * _
  exact le_mul_of_one_le_right (Int.natCast_nonneg a) h1

/-- The operations of `degreduce`. -/
def degOps (P : EstParams) (num : Nat) : Ops := (P.opsRecon (cdiv num P.n)).add (P.opsShare (cdiv num P.n) 0)

omit hl hn in
theorem opsDegreduce_eq (hn : 0 < P.n) (num : Nat) : P.opsDegreduce num = some (degOps P num) := by
  simp only [EstParams.opsDegreduce, estCeil_some hn, Option.map_some, degOps]

theorem degOps_mono {a b : Nat} (h : a ≤ b) : OpsLe (degOps P a) (degOps P b) :=
  (opsRecon_mono P hl hn (cdiv_mono h)).add (opsShare_mono P hl hn (cdiv_mono h) 0 (by omega))

theorem degOps_nonneg (a : Nat) : OpsLe ⟨0, 0⟩ (degOps P a) :=
  (opsRecon_nonneg P hl hn _).add_nonneg (opsShare_nonneg P hl hn _ 0 (by omega))

/-- The operations of `mult`. -/
def multOps (P : EstParams) (num : Nat) : Ops := (Ops.smul num ⟨3, 1⟩).add (degOps P num)

omit hl hn in
theorem opsMult_eq (hn : 0 < P.n) (num : Nat) : P.opsMult num = some { ops := multOps P num, rand := num, zero := num } := by
  simp only [EstParams.opsMult, opsDegreduce_eq P hn, Option.map_some, multOps]

theorem multOps_mono {a b : Nat} (h : a ≤ b) : OpsLe (multOps P a) (multOps P b) :=
  (OpsLe.smul ⟨by decide, by decide⟩ (by exact_mod_cast h)).add (degOps_mono P hl hn h)

theorem multOps_nonneg (a : Nat) : OpsLe ⟨0, 0⟩ (multOps P a) :=
  (OpsLe.smul_nonneg ⟨by decide, by decide⟩ (Int.natCast_nonneg a)).add_nonneg (degOps_nonneg P hl hn a)

/-- The operations of `randshare` for a number of batches. -/
def randshareOps (P : EstParams) (batches : Nat) : Ops :=
  ((Ops.smul ((batches : Int) * P.l) ⟨(P.n : Int) - 1, P.n⟩).add
    (Ops.smul (batches * ((P.n : Int) + P.l - ((P.t : Int) + P.l - 1) - 1)) ⟨(P.t : Int) + P.l - 1, (P.t : Int) + P.l - 1 + 1⟩)).add
      (P.opsRecon (2 * batches))

theorem randshareOps_mono {a b : Nat} (h : a ≤ b) : OpsLe (randshareOps P a) (randshareOps P b) := by
  have hi : (a : Int) ≤ b := by exact_mod_cast h
  refine OpsLe.add (OpsLe.add ((nV_nonneg P hl hn).smul ?_) (OpsLe.smul ?_ ?_)) (opsRecon_mono P hl hn (Nat.mul_le_mul_left _ h))
  · exact mul_le_mul_of_nonneg_right hi (by omega)
  · constructor <;> dsimp only <;> omega
  · exact mul_le_mul_of_nonneg_right hi (by omega)

/-- The operations of `trans`. -/
def transOps (P : EstParams) (num : Nat) : Ops := (randshareOps P (cdiv num P.l)).add ((Ops.smul num ⟨2, 0⟩).add (degOps P num))

omit hn in
theorem opsTrans_eq (hn : 0 < P.n) (num : Nat) : P.opsTrans num =
    some { ops := transOps P num, rand := cdiv num P.l * (P.n + P.t), zero := cdiv num P.l * 2 * P.n } := by
  simp only [EstParams.opsTrans, EstParams.opsRandshare, estCeil_some hl, opsDegreduce_eq P hn, Option.map_some, Option.bind_some, OEst.add,
    transOps, randshareOps, Nat.add_zero]

theorem transOps_mono {a b : Nat} (h : a ≤ b) : OpsLe (transOps P a) (transOps P b) :=
  (randshareOps_mono P hl hn (cdiv_mono h)).add ((OpsLe.smul ⟨by decide, by decide⟩ (by exact_mod_cast h)).add (degOps_mono P hl hn h))

end

/-- The operations of `rand`. -/
def randOps (P : EstParams) (batches : Nat) : Ops :=
  (P.opsRandShare batches 0).add (Ops.smul (batches * ((P.n : Int) - P.t)) ⟨(P.n : Int) - 1, P.n⟩)

/-- The operations of `zero`. -/
def zeroOps (P : EstParams) (batches : Nat) : Ops :=
  (P.opsShare batches (P.n - 1)).add (Ops.smul (batches * ((P.n : Int) - P.t)) ⟨(P.n : Int) - 1, P.n⟩)

/-- The operations of `bitrand`. -/
def bitOps (P : EstParams) (batches : Nat) : Ops := (P.opsShare batches 0).add (Ops.smul (batches * P.binsupDim) ⟨(P.n : Int) - 1, P.n⟩)

theorem randOps_mono (P : EstParams) (hl : 0 < P.l) (hn : P.t + P.l ≤ P.n) {a b : Nat} (h : a ≤ b) : OpsLe (randOps P a) (randOps P b) :=
  (opsRandShare_mono P hl hn h 0 (by omega)).add ((nV_nonneg P hl hn).smul
    (mul_le_mul_of_nonneg_right (by exact_mod_cast h) (by omega)))

theorem zeroOps_mono (P : EstParams) (hl : 0 < P.l) (hn : P.t + P.l ≤ P.n) {a b : Nat} (h : a ≤ b) : OpsLe (zeroOps P a) (zeroOps P b) :=
  (opsShare_mono P hl hn h (P.n - 1) (by omega)).add ((nV_nonneg P hl hn).smul
    (mul_le_mul_of_nonneg_right (by exact_mod_cast h) (by omega)))

theorem opsSemihon_forms (P : EstParams) (hl : 0 < P.l) (hn : P.t + P.l ≤ P.n) (hb : 0 < P.binsupDim) (inp nand nxor : Nat) {A X W : Nat}
    (hB : BlockNums P.l inp nand nxor A X W) :
    P.opsSemihon inp nand nxor = some
      { transform := ((transOps P (W * (2 * P.keyLen + 1))).add (P.opsSelect (2 * (A + X) * (2 * P.keyLen + 1)))).add
          (transOps P (2 * (A + X) * (2 * P.keyLen + 1)))
        plaintexts := (multOps P (selMults P.keyLen A X)).add (P.opsPlain A X)
        ciphertexts := P.opsCtx (A + X), keys := ⟨0, 0⟩, masks := ⟨0, 0⟩
        errors := (multOps P ((A + X) * 4 * P.ctxLen * (P.noise - 1))).add (multOps P ((A + X) * 4 * P.ctxLen))
        rand := randOps P (cdiv (randNum P A X W) (P.n - P.t)), zero := zeroOps P (cdiv (zeroNum P A X W) (P.n - P.t))
        bitrand := bitOps P (cdiv (W + (A + X) * 4 * P.ctxLen * P.noise) P.binsupDim) } := by
  have hA := hB.and
  have hX := hB.xor
  have hW := hB.wires
  have h0 : 0 < P.n := by omega
  unfold EstParams.opsSemihon
  simp only [estCeil_some hl, Option.bind_some, ← hA, ← hX, ← hW, EstParams.opsError, opsMult_eq P h0, opsTrans_eq P hl h0, Option.map_some,
    EstParams.opsRand, EstParams.opsZero, EstParams.opsBitrand, estCeil_some (show 0 < P.n - P.t by omega), estCeil_some hb, OEst.add,
    Nat.zero_add, Nat.add_zero]
  rw [show W + W * 2 * P.keyLen = W * (2 * P.keyLen + 1) by ring,
    show 2 * (A + X) + 2 * (A + X) * 2 * P.keyLen = 2 * (A + X) * (2 * P.keyLen + 1) by ring]
  simp only [selMults, randNum, zeroNum, randOps, zeroOps, bitOps, Ops.add, zero_add, add_zero]

/-- The constraints on the degree, the MACs and the zeros which the verification combines. -/
structure CheckNums where
  cons : Nat
  mac : Nat
  zero : Nat

/-- The operations of the three checks. -/
def checkOps (P : MalParams) (c : CheckNums) : Ops :=
  (((P.opsRobust (cdiv 128 P.f)).add ((Ops.smul P.lencheck ⟨c.cons, c.cons + 1⟩).add (P.opsRobust P.lencheck))).add
    ((P.opsRobust (cdiv 128 P.f)).add
      ((((P.opsRobust P.lenmac).add (Ops.smul (2 * P.lenmac) ⟨(c.mac : Int) - 1, c.mac⟩)).add ⟨1, 1⟩).add (P.opsRobust P.lenmac)))).add
    ((P.opsRobust (cdiv 128 P.f)).add ((P.opsRobust P.lencheck).add (Ops.smul P.lencheck ⟨(c.zero : Int) - 1, c.zero⟩)))

theorem checkOps_nonneg (P : MalParams) (hl : 0 < P.l) (hn : P.t + P.l ≤ P.n) (h2 : 2 ≤ P.t + P.l) (c : CheckNums) :
    OpsLe ⟨0, 0⟩ (checkOps P c) := by
  have r := fun a => opsRobust_nonneg P.toEstParams hl hn a
  have r1 : 0 ≤ (P.opsRobust (cdiv 128 P.f)).adds := (r _).adds
  have r2 : 0 ≤ (P.opsRobust (cdiv 128 P.f)).muls := (r _).muls
  have r3 : 0 ≤ (P.opsRobust P.lencheck).muls := (r _).muls
  have r4 : 0 ≤ (P.opsRobust P.lenmac).muls := (r _).muls
  have r5 := opsRobust_adds P.toEstParams hl hn h2 P.lencheck
  have r6 := opsRobust_adds P.toEstParams hl hn h2 P.lenmac
  have m1 : (0 : Int) ≤ P.lencheck * c.cons := by positivity
  have m2 : (0 : Int) ≤ P.lenmac * c.mac := by positivity
  have m3 : (0 : Int) ≤ P.lencheck * c.zero := by positivity
  constructor <;> simp only [checkOps, Ops.add, Ops.smul]
  · rw [show (2 * (P.lenmac : Int)) * ((c.mac : Int) - 1) = 2 * (P.lenmac * c.mac) - 2 * P.lenmac by ring,
      show (P.lencheck : Int) * ((c.zero : Int) - 1) = P.lencheck * c.zero - P.lencheck by ring]
    generalize (P.lencheck : Int) * c.cons = x at *
    generalize (P.lenmac : Int) * c.mac = y at *
    generalize (P.lencheck : Int) * c.zero = z at *
    omega
  · rw [show (2 * (P.lenmac : Int)) * c.mac = 2 * (P.lenmac * c.mac) by ring,
      show (P.lencheck : Int) * ((c.cons : Int) + 1) = P.lencheck * c.cons + P.lencheck by ring]
    generalize (P.lencheck : Int) * c.cons = x at *
    generalize (P.lenmac : Int) * c.mac = y at *
    generalize (P.lencheck : Int) * c.zero = z at *
    omega

/-- What the malicious estimate counts for the checks. -/
def checkNums (P : MalParams) (A X W : Nat) : CheckNums where
  cons := W * 2 * P.keyLen + W * 2 * P.keyLen * P.lenmac + (W + W * P.lenmac + W * (P.lenmac + 1))
    + ((A + X) * 4 * P.ctxLen * P.noise * P.lenmac + (A + X) * 4 * P.ctxLen * P.noise * (P.lenmac + 1)
      + (A + X) * 4 * P.ctxLen * (P.noise - 1) * (P.lenmac + 1))
    + W * (2 * P.keyLen + 1) * (P.lenmac + 1) + 2 * (A + X) * (2 * P.keyLen + 1) * (P.lenmac + 1)
    + selMults P.keyLen A X * (P.lenmac + 1) + 4 * (A + X) * P.ctxLen * (P.lenmac + 1)
  mac := W * 2 * P.keyLen + (W + W) + ((A + X) * 4 * P.ctxLen * P.noise + (A + X) * 4 * P.ctxLen * P.noise + (A + X) * 4 * P.ctxLen * (P.noise - 1))
    + selMults P.keyLen A X + 4 * (A + X) * P.ctxLen + (2 * (A + X) + 2 * (A + X) * 2 * P.keyLen)
  zero := W + (A + X) * 4 * P.ctxLen * P.noise

theorem opsMalicious_forms (P : MalParams) (hl : 0 < P.l) (hn : P.t + P.l ≤ P.n) (hb : 0 < P.binsupDim) (hf : 0 < P.f) (inp nand nxor : Nat)
    {A X W : Nat} (hB : BlockNums P.l inp nand nxor A X W) :
    P.opsMalicious inp nand nxor = some
      { transform := ((transOps P.toEstParams ((P.lenmac + 1) * (W * (2 * P.keyLen + 1)))).add
          (P.opsSelect (2 * (A + X) * (2 * P.keyLen + 1)))).add (transOps P.toEstParams ((P.lenmac + 1) * (2 * (A + X) * (2 * P.keyLen + 1))))
        plaintexts := (multOps P.toEstParams ((P.lenmac + 1) * selMults P.keyLen A X)).add (P.opsPlain A X)
        ciphertexts := (P.opsCtx (A + X)).add (multOps P.toEstParams ((P.lenmac + 1) * (4 * (A + X) * P.ctxLen)))
        keys := multOps P.toEstParams (P.lenmac * (W * 2 * P.keyLen))
        masks := (multOps P.toEstParams (P.lenmac * W)).add ((multOps P.toEstParams ((P.lenmac + 1) * W)).add (Ops.smul W ⟨1, 0⟩))
        errors := (((multOps P.toEstParams (P.lenmac * ((A + X) * 4 * P.ctxLen * P.noise))).add
          ((multOps P.toEstParams ((P.lenmac + 1) * ((A + X) * 4 * P.ctxLen * P.noise))).add (Ops.smul ((A + X) * 4 * P.ctxLen * P.noise : Nat) ⟨1, 0⟩))).add
          (multOps P.toEstParams ((P.lenmac + 1) * ((A + X) * 4 * P.ctxLen * (P.noise - 1))))).add
          (multOps P.toEstParams ((A + X) * 4 * P.ctxLen * (P.lenmac + 1)))
        rand := randOps P.toEstParams (cdiv (randNumM P A X W) (P.n - P.t)), zero := zeroOps P.toEstParams (cdiv (zeroNumM P A X W) (P.n - P.t))
        bitrand := bitOps P.toEstParams (cdiv (W + (A + X) * 4 * P.ctxLen * P.noise) P.binsupDim)
        verification := checkOps P (checkNums P A X W)
        mackeygen := ((P.opsShare (cdiv P.lenmac (2 * P.l)) 0).add (Ops.smul ((cdiv P.lenmac (2 * P.l) : Nat) * P.n) ⟨(P.n : Int) - 1, P.n⟩)).add
          (P.opsRobust (cdiv P.lenmac (2 * P.l))) } := by
  have hA := hB.and
  have hX := hB.xor
  have hW := hB.wires
  have h0 : 0 < P.n := by omega
  unfold MalParams.opsMalicious
  simp only [estCeil_some hl, Option.bind_some, ← hA, ← hX, ← hW, MalParams.opsAuth, MalParams.opsAuthmult, MalParams.opsAuthtrans,
    MalParams.opsCheckbit, MalParams.opsAutherror, MalParams.opsCheckcons, MalParams.opsCheckmac, MalParams.opsCheckzero, EstParams.opsCoin,
    EstParams.opsMackeygen, opsMult_eq P.toEstParams h0, opsTrans_eq P.toEstParams hl h0, Option.map_some, estCeil_some hf,
    estCeil_some (show 0 < 2 * P.l by omega),
    EstParams.opsRand, EstParams.opsZero, EstParams.opsBitrand, estCeil_some (show 0 < P.n - P.t by omega), estCeil_some hb, OEst.add,
    Nat.zero_add, Nat.add_zero]
  simp only [selMults, randNumM, zeroNumM, randOps, zeroOps, bitOps, checkOps, checkNums, Ops.add, Ops.smul, zero_add, add_zero, Nat.add_assoc]

/-! ### The multiplications are those of `Verif.CompEst` -/

theorem muls_add (a b : Ops) : (a.add b).muls = a.muls + b.muls := rfl

theorem muls_smul (k : Int) (a : Ops) : (Ops.smul k a).muls = k * a.muls := rfl

section
variable (P : EstParams) (hl : 0 < P.l) (hn : P.t + P.l ≤ P.n)
include hl hn

theorem muls_share (num d : Nat) (hd : d < P.n) : (P.opsShare num d).muls = (P.compShare num d : Nat) := by
  have := degree_le P hl hn d hd
  have e : ((P.n + P.l - P.degree d - 1 : Nat) : Int) = (P.n : Int) + P.l - P.degree d - 1 := by omega
  simp only [EstParams.opsShare, EstParams.compShare, Ops.smul]
  rw [Nat.cast_mul, Nat.cast_mul, e]
  push_cast
  ring

theorem muls_randShare (num d : Nat) (hd : d < P.n) : (P.opsRandShare num d).muls = (P.compRandShare num d : Nat) := by
  have := degree_le P hl hn d hd
  have e : ((P.n - P.degree d - 1 : Nat) : Int) = (P.n : Int) - P.degree d - 1 := by omega
  simp only [EstParams.opsRandShare, EstParams.compRandShare, Ops.smul]
  rw [Nat.cast_mul, Nat.cast_mul, e]
  push_cast
  ring

omit hl hn in
theorem muls_recon (num : Nat) : (P.opsRecon num).muls = (P.compRecon num : Nat) := by
  simp only [EstParams.opsRecon, EstParams.compRecon, Ops.smul]
  push_cast
  ring

theorem muls_deg (num : Nat) : (degOps P num).muls = (P.compRecon (cdiv num P.n) + P.compShare (cdiv num P.n) 0 : Nat) := by
  rw [degOps, muls_add, muls_recon, muls_share P hl hn _ 0 (by omega)]
  push_cast
  ring

theorem muls_mult (num : Nat) : (multOps P num).muls = (num + (P.compRecon (cdiv num P.n) + P.compShare (cdiv num P.n) 0) : Nat) := by
  rw [multOps, muls_add, muls_deg P hl hn, muls_smul]
  push_cast
  ring

theorem muls_randshare (b : Nat) : (randshareOps P b).muls
    = (b * P.l * P.n + b * (P.n + P.l - (P.t + P.l - 1) - 1) * (P.t + P.l - 1 + 1) + P.compRecon (2 * b) : Nat) := by
  have e1 : ((P.n + P.l - (P.t + P.l - 1) - 1 : Nat) : Int) = (P.n : Int) + P.l - ((P.t : Int) + P.l - 1) - 1 := by omega
  have e2 : ((P.t + P.l - 1 : Nat) : Int) = (P.t : Int) + P.l - 1 := by omega
  rw [randshareOps, muls_add, muls_add, muls_smul, muls_smul, muls_recon]
  rw [Nat.cast_add, Nat.cast_add, Nat.cast_mul, Nat.cast_mul, Nat.cast_mul, Nat.cast_mul, Nat.cast_add, e1, e2]
  push_cast
  ring

theorem muls_trans (num : Nat) : (transOps P num).muls
    = (cdiv num P.l * P.l * P.n + cdiv num P.l * (P.n + P.l - (P.t + P.l - 1) - 1) * (P.t + P.l - 1 + 1) + P.compRecon (2 * cdiv num P.l)
      + (P.compRecon (cdiv num P.n) + P.compShare (cdiv num P.n) 0) : Nat) := by
  rw [transOps, muls_add, muls_add, muls_randshare P hl hn, muls_deg P hl hn, muls_smul]
  push_cast
  ring

theorem muls_rand (b : Nat) : (randOps P b).muls = (P.compRandShare b 0 + b * (P.n - P.t) * P.n : Nat) := by
  have e1 : ((P.n - P.t : Nat) : Int) = (P.n : Int) - P.t := by omega
  rw [randOps, muls_add, muls_randShare P hl hn _ 0 (by omega), muls_smul, Nat.cast_add, Nat.cast_mul, Nat.cast_mul, e1]

theorem muls_zero (b : Nat) : (zeroOps P b).muls = (P.compShare b (P.n - 1) + b * (P.n - P.t) * P.n : Nat) := by
  have e1 : ((P.n - P.t : Nat) : Int) = (P.n : Int) - P.t := by omega
  rw [zeroOps, muls_add, muls_share P hl hn _ _ (by omega), muls_smul, Nat.cast_add, Nat.cast_mul, Nat.cast_mul, e1]

theorem muls_bit (b : Nat) : (bitOps P b).muls = (P.compShare b 0 + b * P.binsupDim * P.n : Nat) := by
  rw [bitOps, muls_add, muls_share P hl hn _ _ (by omega), muls_smul, Nat.cast_add, Nat.cast_mul, Nat.cast_mul]

end

end Verif.Props
