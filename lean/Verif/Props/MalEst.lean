import Verif.MalEstLemmas

/-!
# The estimates of the maliciously secure protocol

`README.md:127-161` offers the two scripts for the costs of the maliciously secure protocol, which the repository does not implement.  They can be
compared with the estimates for the semi-honest protocol, which C93 and C114 compare with the code.
-/

open Verif

namespace Verif.Props

/-! ### C125: the estimates of the maliciously secure protocol -/

section
variable (P : MalParams) (hl : 0 < P.l) (ht : P.t < P.n) (hb : 0 < P.binsupDim) (hf : 0 < P.f)
include hl ht hb hf

/-- C125, communication: both estimates exist, no figure of the malicious estimate is below that of the semi-honest one, "Transform masks and
labels" is at most `lenmac + 1` times it, and "Compute plaintexts" exactly `lenmac + 1` times. -/
theorem C125_comm (inp nand nxor : Nat) : ∃ s m, P.semihon inp nand nxor = some s ∧ P.malicious inp nand nxor = some m ∧
    s.transform ≤ m.transform ∧ m.transform ≤ (P.lenmac + 1) * s.transform ∧ m.plaintexts = (P.lenmac + 1) * s.plaintexts ∧
    s.keys ≤ m.keys ∧ s.masks ≤ m.masks ∧ s.errors ≤ m.errors ∧ s.rand ≤ m.rand ∧ s.zero ≤ m.zero ∧ s.bitrand = m.bitrand ∧
    s.garble ≤ m.garbleTotal ∧ s.preproc ≤ m.preprocTotal := by
  have hB : BlockNums P.l inp nand nxor _ _ _ := ⟨rfl, rfl, rfl⟩
  generalize cdiv nand P.l = A, cdiv nxor P.l = X at hB
  generalize cdiv inp P.l + A + X = W at hB
  refine ⟨_, _, semihon_forms P.toEstParams hl ht hb inp nand nxor hB, malicious_forms P hl ht hb hf inp nand nxor hB, ?_⟩
  have h1 : ∀ x, x ≤ (P.lenmac + 1) * x := fun x => Nat.le_mul_of_pos_left x (Nat.succ_pos _)
  have hc : ∀ x, cdiv x P.l ≤ cdiv ((P.lenmac + 1) * x) P.l := fun x => cdiv_mono (h1 x)
  have a1 : transComm P.toEstParams (W * (2 * P.keyLen + 1)) + transComm P.toEstParams (2 * (A + X) * (2 * P.keyLen + 1))
      ≤ transComm P.toEstParams ((P.lenmac + 1) * (W * (2 * P.keyLen + 1)))
        + transComm P.toEstParams ((P.lenmac + 1) * (2 * (A + X) * (2 * P.keyLen + 1))) :=
    Nat.add_le_add (transComm_mono _ (h1 _)) (transComm_mono _ (h1 _))
  have a2 := Nat.add_le_add (transComm_mul_le P.toEstParams hl (P.lenmac + 1) (W * (2 * P.keyLen + 1)))
    (transComm_mul_le P.toEstParams hl (P.lenmac + 1) (2 * (A + X) * (2 * P.keyLen + 1)))
  rw [← Nat.mul_add] at a2
  have a3 : (P.lenmac + 1) * selMults P.keyLen A X * 2 * P.n * P.fcomm = (P.lenmac + 1) * (selMults P.keyLen A X * 2 * P.n * P.fcomm) := by ring
  have a4 : (A + X) * 4 * P.ctxLen * (P.noise - 1) * 2 * P.n * P.fcomm + (A + X) * 4 * P.ctxLen * 2 * P.n * P.fcomm
      ≤ P.lenmac * ((A + X) * 4 * P.ctxLen * P.noise) * 2 * P.n * P.fcomm
          + (P.lenmac + 1) * ((A + X) * 4 * P.ctxLen * P.noise) * 2 * P.n * P.fcomm
          + (P.lenmac + 1) * ((A + X) * 4 * P.ctxLen * (P.noise - 1)) * 2 * P.n * P.fcomm
          + (A + X) * 4 * P.ctxLen * (P.lenmac + 1) * 2 * P.n * P.fcomm := by
    have b1 : (A + X) * 4 * P.ctxLen * (P.noise - 1) * 2 * P.n * P.fcomm
        ≤ (P.lenmac + 1) * ((A + X) * 4 * P.ctxLen * (P.noise - 1)) * 2 * P.n * P.fcomm :=
      Nat.mul_le_mul_right _ (Nat.mul_le_mul_right _ (Nat.mul_le_mul_right _ (h1 _)))
    have b2 : (A + X) * 4 * P.ctxLen * 2 * P.n * P.fcomm ≤ (A + X) * 4 * P.ctxLen * (P.lenmac + 1) * 2 * P.n * P.fcomm :=
      Nat.mul_le_mul_right _ (Nat.mul_le_mul_right _ (Nat.mul_le_mul_right _ (Nat.le_mul_of_pos_right _ (Nat.succ_pos _))))
    omega
  have r1 := randNum_le P A X W
  have r2 := zeroNum_le P A X W
  have r3 := all_mono P.toEstParams (cdiv_mono (b := P.n - P.t) r1)
  have r4 := all_mono P.toEstParams (cdiv_mono (b := P.n - P.t) r2)
  have a5 := h1 (selMults P.keyLen A X * 2 * P.n * P.fcomm)
  refine ⟨a1, a2, a3, Nat.zero_le _, Nat.zero_le _, a4, r3, r4, rfl, ?_, ?_⟩
  · simp only [SemihonEst.garble, MalEst.garbleTotal]
    omega
  · simp only [SemihonEst.preproc, MalEst.preprocTotal]
    omega

/-- C125, communication: the figures grow with the numbers of input wires, AND gates and XOR gates, so counting a gate which costs less
as an XOR gate makes no figure smaller; "Verification" and `mackeygen` do not depend on the circuit. -/
theorem C125_mono {inp nand nxor inp' nand' nxor' : Nat} (hi : inp ≤ inp') (ha : nand ≤ nand') (hx : nxor ≤ nxor') :
    ∃ m m', P.malicious inp nand nxor = some m ∧ P.malicious inp' nand' nxor' = some m' ∧
      m.transform ≤ m'.transform ∧ m.plaintexts ≤ m'.plaintexts ∧ m.ciphertexts ≤ m'.ciphertexts ∧ m.verification = m'.verification ∧
      m.keys ≤ m'.keys ∧ m.masks ≤ m'.masks ∧ m.errors ≤ m'.errors ∧ m.mackeygen = m'.mackeygen ∧ m.rand ≤ m'.rand ∧ m.zero ≤ m'.zero ∧
      m.bitrand ≤ m'.bitrand ∧ m.garbleTotal ≤ m'.garbleTotal ∧ m.preprocTotal ≤ m'.preprocTotal := by
  have hB : BlockNums P.l inp nand nxor _ _ _ := ⟨rfl, rfl, rfl⟩
  have hB' : BlockNums P.l inp' nand' nxor' _ _ _ := ⟨rfl, rfl, rfl⟩
  generalize cdiv nand P.l = A, cdiv nxor P.l = X at hB
  generalize cdiv inp P.l + A + X = W at hB
  generalize cdiv nand' P.l = A', cdiv nxor' P.l = X' at hB'
  generalize cdiv inp' P.l + A' + X' = W' at hB'
  obtain ⟨hA, hX, hW⟩ := hB.mono hB' hi ha hx
  refine ⟨_, _, malicious_forms P hl ht hb hf inp nand nxor hB, malicious_forms P hl ht hb hf inp' nand' nxor' hB', ?_⟩
  have hG : A + X ≤ A' + X' := by omega
  have hs : selMults P.keyLen A X ≤ selMults P.keyLen A' X' := by unfold selMults; gcongr
  have t1 : (P.lenmac + 1) * (W * (2 * P.keyLen + 1)) ≤ (P.lenmac + 1) * (W' * (2 * P.keyLen + 1)) := by gcongr
  have t2 : (P.lenmac + 1) * (2 * (A + X) * (2 * P.keyLen + 1)) ≤ (P.lenmac + 1) * (2 * (A' + X') * (2 * P.keyLen + 1)) := by gcongr
  have t3 := cdiv_mono (b := P.l) t1
  have t4 := cdiv_mono (b := P.l) t2
  have r1 : randNumM P A X W ≤ randNumM P A' X' W' := by unfold randNumM; gcongr
  have r2 : zeroNumM P A X W ≤ zeroNumM P A' X' W' := by unfold zeroNumM; gcongr
  have g1 := transComm_mono P.toEstParams t1
  have g2 := transComm_mono P.toEstParams t2
  have g3 : (P.lenmac + 1) * selMults P.keyLen A X * 2 * P.n * P.fcomm ≤ (P.lenmac + 1) * selMults P.keyLen A' X' * 2 * P.n * P.fcomm := by gcongr
  have g4 : (P.lenmac + 1) * (4 * (A + X) * P.ctxLen) * 2 * P.n * P.fcomm ≤ (P.lenmac + 1) * (4 * (A' + X') * P.ctxLen) * 2 * P.n * P.fcomm := by
    gcongr
  have g5 : P.lenmac * (W * 2 * P.keyLen) * 2 * P.n * P.fcomm ≤ P.lenmac * (W' * 2 * P.keyLen) * 2 * P.n * P.fcomm := by gcongr
  have g6 : P.lenmac * W * 2 * P.n * P.fcomm + (P.lenmac + 1) * W * 2 * P.n * P.fcomm
      ≤ P.lenmac * W' * 2 * P.n * P.fcomm + (P.lenmac + 1) * W' * 2 * P.n * P.fcomm := by gcongr
  have g7 : P.lenmac * ((A + X) * 4 * P.ctxLen * P.noise) * 2 * P.n * P.fcomm
          + (P.lenmac + 1) * ((A + X) * 4 * P.ctxLen * P.noise) * 2 * P.n * P.fcomm
          + (P.lenmac + 1) * ((A + X) * 4 * P.ctxLen * (P.noise - 1)) * 2 * P.n * P.fcomm
          + (A + X) * 4 * P.ctxLen * (P.lenmac + 1) * 2 * P.n * P.fcomm
      ≤ P.lenmac * ((A' + X') * 4 * P.ctxLen * P.noise) * 2 * P.n * P.fcomm
          + (P.lenmac + 1) * ((A' + X') * 4 * P.ctxLen * P.noise) * 2 * P.n * P.fcomm
          + (P.lenmac + 1) * ((A' + X') * 4 * P.ctxLen * (P.noise - 1)) * 2 * P.n * P.fcomm
          + (A' + X') * 4 * P.ctxLen * (P.lenmac + 1) * 2 * P.n * P.fcomm := by gcongr
  have g8 := all_mono P.toEstParams (cdiv_mono (b := P.n - P.t) r1)
  have g9 := all_mono P.toEstParams (cdiv_mono (b := P.n - P.t) r2)
  have g10 : P.all (cdiv (W + (A + X) * 4 * P.ctxLen * P.noise) P.binsupDim) ≤ P.all (cdiv (W' + (A' + X') * 4 * P.ctxLen * P.noise) P.binsupDim) :=
    all_mono P.toEstParams (cdiv_mono (by gcongr))
  refine ⟨Nat.add_le_add g1 g2, g3, g4, rfl, g5, g6, g7, rfl, g8, g9, g10, ?_, ?_⟩
  · simp only [MalEst.garbleTotal]
    omega
  · simp only [MalEst.preprocTotal]
    omega

/-- C125, communication: "Verification" is `3 ⌈128 / f⌉ + 2 lencheck + 2 lenmac` elements from each party to each party, for every circuit. -/
theorem C125_verification (inp nand nxor : Nat) : ∃ m, P.malicious inp nand nxor = some m ∧
    ∀ coins, P.f * coins < 128 + P.f → 128 ≤ P.f * coins →
      m.verification = P.n * P.n * P.fcomm * (3 * coins + 2 * P.lencheck + 2 * P.lenmac) := by
  have hB : BlockNums P.l inp nand nxor _ _ _ := ⟨rfl, rfl, rfl⟩
  refine ⟨_, malicious_forms P hl ht hb hf inp nand nxor hB, fun coins h1 h2 => ?_⟩
  have hc : cdiv 128 P.f = coins := by
    apply le_antisymm
    · exact (cdiv_le_iff hf).2 (by rwa [Nat.mul_comm])
    · by_contra hlt
      have h3 := le_cdiv_mul 128 hf
      have h4 : (cdiv 128 P.f + 1) * P.f ≤ coins * P.f := Nat.mul_le_mul_right _ (by omega)
      rw [Nat.add_mul, Nat.one_mul, Nat.mul_comm coins] at h4
      omega
  simp only [hc, EstParams.all]
  ring

/-- C125, communication: if the number of parties is at most `C` times the packing parameter, then the garbling phase of the malicious
estimate is at most linear in the number of input wires and gates, with a factor which does not depend on the number of parties. -/
theorem C125_scale (C : Nat) (hC : P.n ≤ C * P.l) : ∃ b, ∀ inp nand nxor, ∃ m, P.malicious inp nand nxor = some m ∧
    m.garbleTotal ≤ P.fcomm * (P.lenmac + 1) * C * ((6 * C + 6) * (2 * P.keyLen + 1) + 2 * (3 * (P.keyLen + 1) + 1) + 8 * P.ctxLen)
      * (inp + nand + nxor) + b := by
  refine ⟨P.fcomm * (P.lenmac + 1) * C * ((6 * C + 6) * (2 * P.keyLen + 1) + 2 * (3 * (P.keyLen + 1) + 1) + 8 * P.ctxLen) * (3 * P.l)
    + P.fcomm * (4 * C * P.n * P.l) + (P.all (cdiv 128 P.f) + P.all P.lencheck + (P.all (cdiv 128 P.f) + P.all P.lenmac + P.all P.lenmac)
      + (P.all (cdiv 128 P.f) + P.all P.lencheck)), fun inp nand nxor => ?_⟩
  have hB : BlockNums P.l inp nand nxor _ _ _ := ⟨rfl, rfl, rfl⟩
  have k1 := mul_cdiv_le hl hC nand
  have k2 := mul_cdiv_le hl hC nxor
  have k3 := mul_cdiv_le hl hC inp
  generalize hA : cdiv nand P.l = A, hX : cdiv nxor P.l = X at hB k1 k2
  generalize cdiv inp P.l = I at hB k3
  generalize hW : I + A + X = W at hB
  have kG : P.n * (A + X) ≤ C * (inp + nand + nxor + 3 * P.l) := by
    calc P.n * (A + X) = P.n * A + P.n * X := by ring
      _ ≤ C * (nand + P.l) + C * (nxor + P.l) := Nat.add_le_add k1 k2
      _ = C * (nand + nxor + 2 * P.l) := by ring
      _ ≤ _ := Nat.mul_le_mul_left _ (by omega)
  have kW : P.n * W ≤ C * (inp + nand + nxor + 3 * P.l) := by
    calc P.n * W = P.n * I + P.n * A + P.n * X := by rw [← hW]; ring
      _ ≤ C * (inp + P.l) + C * (nand + P.l) + C * (nxor + P.l) := Nat.add_le_add (Nat.add_le_add k3 k1) k2
      _ = _ := by ring
  refine ⟨_, malicious_forms P hl ht hb hf inp nand nxor hB, ?_⟩
  have h1 := transComm_scale P.toEstParams hl hC (P.lenmac + 1) W (2 * P.keyLen + 1)
  have h2 := transComm_scale P.toEstParams hl hC (P.lenmac + 1) (2 * (A + X)) (2 * P.keyLen + 1)
  have h3 : (P.lenmac + 1) * selMults P.keyLen A X * 2 * P.n * P.fcomm
      ≤ P.fcomm * (P.lenmac + 1) * (2 * (3 * (P.keyLen + 1) + 1)) * (P.n * (A + X)) := by
    have : selMults P.keyLen A X ≤ (3 * (P.keyLen + 1) + 1) * (A + X) := by unfold selMults; nlinarith
    calc (P.lenmac + 1) * selMults P.keyLen A X * 2 * P.n * P.fcomm
        ≤ (P.lenmac + 1) * ((3 * (P.keyLen + 1) + 1) * (A + X)) * 2 * P.n * P.fcomm := by gcongr
      _ = _ := by ring
  have e1 : P.fcomm * ((2 * C + 2) * (P.lenmac + 1) * (2 * P.keyLen + 1) * (P.n * W) + 2 * C * P.n * P.l)
      ≤ P.fcomm * ((2 * C + 2) * (P.lenmac + 1) * (2 * P.keyLen + 1) * (C * (inp + nand + nxor + 3 * P.l)) + 2 * C * P.n * P.l) := by gcongr
  have e2 : P.fcomm * ((2 * C + 2) * (P.lenmac + 1) * (2 * P.keyLen + 1) * (P.n * (2 * (A + X))) + 2 * C * P.n * P.l)
      ≤ P.fcomm * ((2 * C + 2) * (P.lenmac + 1) * (2 * P.keyLen + 1) * (2 * (C * (inp + nand + nxor + 3 * P.l))) + 2 * C * P.n * P.l) := by
    rw [show P.n * (2 * (A + X)) = 2 * (P.n * (A + X)) by ring]
    gcongr
  have e3 : P.fcomm * (P.lenmac + 1) * (2 * (3 * (P.keyLen + 1) + 1)) * (P.n * (A + X))
      ≤ P.fcomm * (P.lenmac + 1) * (2 * (3 * (P.keyLen + 1) + 1)) * (C * (inp + nand + nxor + 3 * P.l)) := by gcongr
  have e4 : (P.lenmac + 1) * (4 * (A + X) * P.ctxLen) * 2 * P.n * P.fcomm
      ≤ P.fcomm * (P.lenmac + 1) * (8 * P.ctxLen) * (C * (inp + nand + nxor + 3 * P.l)) := by
    calc (P.lenmac + 1) * (4 * (A + X) * P.ctxLen) * 2 * P.n * P.fcomm = P.fcomm * (P.lenmac + 1) * (8 * P.ctxLen) * (P.n * (A + X)) := by ring
      _ ≤ _ := by gcongr
  simp only [MalEst.garbleTotal]
  refine (Nat.add_le_add (Nat.add_le_add (Nat.add_le_add (Nat.add_le_add (h1.trans e1) (h2.trans e2)) (h3.trans e3)) e4) le_rfl).trans
    (le_of_eq ?_)
  exact scale_form P.fcomm P.lenmac C P.keyLen P.ctxLen P.n P.l (inp + nand + nxor) _

end

section
variable (P : MalParams) (hl : 0 < P.l) (hn : P.t + P.l ≤ P.n) (hb : 0 < P.binsupDim)
include hl hn hb

/-- C125, computation: both estimates exist, and in both phases and for all times of an addition and of a multiplication and numbers of threads,
the malicious estimate is not below the semi-honest one, and so is each of the figures which both print.  (For `t + l = 1` and an empty
circuit "Verification" has fewer than 0 additions, see the example below.) -/
theorem C125_comp (hf : 0 < P.f) (h2 : 2 ≤ P.t + P.l) (threads ta tm : Rat) (h1 : 0 < threads) (h3 : 0 ≤ ta) (h4 : 0 ≤ tm)
    (inp nand nxor : Nat) : ∃ s m, P.opsSemihon inp nand nxor = some s ∧ P.opsMalicious inp nand nxor = some m ∧
      ∀ (f : OpsFigures → Ops), f ∈ [OpsFigures.transform, OpsFigures.plaintexts, OpsFigures.ciphertexts, OpsFigures.garble, OpsFigures.keys,
        OpsFigures.masks, OpsFigures.errors, OpsFigures.rand, OpsFigures.zero, OpsFigures.bitrand, OpsFigures.preproc] →
      (f s).time threads ta tm ≤ (f m).time threads ta tm := by
  have hB : BlockNums P.l inp nand nxor _ _ _ := ⟨rfl, rfl, rfl⟩
  generalize cdiv nand P.l = A, cdiv nxor P.l = X at hB
  generalize cdiv inp P.l + A + X = W at hB
  refine ⟨_, _, opsSemihon_forms P.toEstParams hl hn hb inp nand nxor hB, opsMalicious_forms P hl hn hb hf inp nand nxor hB, ?_⟩
  have m1 : ∀ x, x ≤ (P.lenmac + 1) * x := fun x => Nat.le_mul_of_pos_left x (Nat.succ_pos _)
  have m2 : ∀ x, x ≤ x * (P.lenmac + 1) := fun x => Nat.le_mul_of_pos_right x (Nat.succ_pos _)
  have mu := fun x => multOps_nonneg P.toEstParams hl hn x
  have sm : ∀ x : Nat, OpsLe ⟨0, 0⟩ (Ops.smul x ⟨1, 0⟩) := fun x => OpsLe.smul_nonneg ⟨by decide, by decide⟩ (Int.natCast_nonneg x)
  have a1 := ((transOps_mono P.toEstParams hl hn (m1 (W * (2 * P.keyLen + 1)))).add (OpsLe.refl (P.opsSelect (2 * (A + X) * (2 * P.keyLen + 1))))).add
    (transOps_mono P.toEstParams hl hn (m1 (2 * (A + X) * (2 * P.keyLen + 1))))
  have a2 := (multOps_mono P.toEstParams hl hn (m1 (selMults P.keyLen A X))).add (OpsLe.refl (P.opsPlain A X))
  have a3 := (OpsLe.refl (P.opsCtx (A + X))).add_right (mu ((P.lenmac + 1) * (4 * (A + X) * P.ctxLen)))
  have a4 := mu (P.lenmac * (W * 2 * P.keyLen))
  have a5 := (mu (P.lenmac * W)).add_nonneg ((mu ((P.lenmac + 1) * W)).add_nonneg (sm W))
  have a6 : OpsLe ((multOps P.toEstParams ((A + X) * 4 * P.ctxLen * (P.noise - 1))).add (multOps P.toEstParams ((A + X) * 4 * P.ctxLen)))
      ((((multOps P.toEstParams (P.lenmac * ((A + X) * 4 * P.ctxLen * P.noise))).add
          ((multOps P.toEstParams ((P.lenmac + 1) * ((A + X) * 4 * P.ctxLen * P.noise))).add (Ops.smul ((A + X) * 4 * P.ctxLen * P.noise : Nat) ⟨1, 0⟩))).add
          (multOps P.toEstParams ((P.lenmac + 1) * ((A + X) * 4 * P.ctxLen * (P.noise - 1))))).add
          (multOps P.toEstParams ((A + X) * 4 * P.ctxLen * (P.lenmac + 1)))) := by
    refine OpsLe.add ?_ (multOps_mono P.toEstParams hl hn (m2 _))
    have q := ((mu (P.lenmac * ((A + X) * 4 * P.ctxLen * P.noise))).add_nonneg
      ((mu ((P.lenmac + 1) * ((A + X) * 4 * P.ctxLen * P.noise))).add_nonneg (sm ((A + X) * 4 * P.ctxLen * P.noise)))).add
      (multOps_mono P.toEstParams hl hn (m1 ((A + X) * 4 * P.ctxLen * (P.noise - 1))))
    simpa only [Ops.add, zero_add] using q
  have a7 := randOps_mono P.toEstParams hl hn (cdiv_mono (b := P.n - P.t) (randNum_le P A X W))
  have a8 := zeroOps_mono P.toEstParams hl hn (cdiv_mono (b := P.n - P.t) (zeroNum_le P A X W))
  have a9 := OpsLe.refl (bitOps P.toEstParams (cdiv (W + (A + X) * 4 * P.ctxLen * P.noise) P.binsupDim))
  have a10 := checkOps_nonneg P hl hn h2 (checkNums P A X W)
  have a11 := ((opsShare_nonneg P.toEstParams hl hn (cdiv P.lenmac (2 * P.l)) 0 (by omega)).add_nonneg ((nV_nonneg P.toEstParams hl hn).smul_nonneg
    (show (0 : Int) ≤ (cdiv P.lenmac (2 * P.l) : Nat) * P.n by positivity))).add_nonneg (opsRobust_nonneg P.toEstParams hl hn (cdiv P.lenmac (2 * P.l)))
  have b1 := ((a1.add a2).add a3).add a10
  have b2 := ((a4.add a5).add a6).add (((a11.add a7).add a8).add a9)
  simp only [List.forall_mem_cons, List.not_mem_nil, false_imp_iff, implies_true, and_true]
  refine ⟨a1.time h1 h3 h4, a2.time h1 h3 h4, a3.time h1 h3 h4, b1.time h1 h3 h4, a4.time h1 h3 h4, a5.time h1 h3 h4, a6.time h1 h3 h4,
    a7.time h1 h3 h4, a8.time h1 h3 h4, a9.time h1 h3 h4, b2.time h1 h3 h4⟩

/-- The multiplications of the semi-honest estimate are those of `Verif.CompEst`, which C114 compares with the code. -/
theorem C125_same (inp nand nxor : Nat) : ∃ s c, P.opsSemihon inp nand nxor = some s ∧ P.compSemihon inp nand nxor = some c ∧
    s.transform.muls = c.transform ∧ s.plaintexts.muls = c.plaintexts ∧ s.ciphertexts.muls = c.ciphertexts ∧ s.errors.muls = c.errors ∧
    s.rand.muls = c.rand ∧ s.zero.muls = c.zero ∧ s.bitrand.muls = c.bitrand ∧ s.garble.muls = c.garble ∧ s.preproc.muls = c.preproc := by
  have hB : BlockNums P.l inp nand nxor _ _ _ := ⟨rfl, rfl, rfl⟩
  have hA := hB.and
  have hX := hB.xor
  have hW := hB.wires
  generalize hA' : cdiv nand P.l = A, hX' : cdiv nxor P.l = X at hB
  generalize hW' : cdiv inp P.l + A + X = W at hB
  have h0 : 0 < P.n := by omega
  refine ⟨_, _, opsSemihon_forms P.toEstParams hl hn hb inp nand nxor hB, by
    unfold EstParams.compSemihon
    simp only [estCeil_some hl, Option.bind_some, hA', hX', hW', EstParams.compError, EstParams.compMult, EstParams.compTrans,
      EstParams.compDegreduce, EstParams.compRandshare, EstParams.compRand, EstParams.compZero, EstParams.compBitrand, Est.add, estRand, estZero,
      estBitrand, estCeil_some h0, Option.map_some, estCeil_some (show 0 < P.n - P.t by omega), estCeil_some hb, Nat.zero_add, Nat.add_zero]
    rfl, ?_⟩
  have e1 : W + W * 2 * P.keyLen = W * (2 * P.keyLen + 1) := by ring
  have e2 : 2 * (A + X) + 2 * (A + X) * 2 * P.keyLen = 2 * (A + X) * (2 * P.keyLen + 1) := by ring
  simp only [OpsFigures.garble, OpsFigures.preproc, CompFigures.garble, CompFigures.preproc, muls_add, muls_trans P.toEstParams hl hn,
    muls_mult P.toEstParams hl hn, muls_rand P.toEstParams hl hn, muls_zero P.toEstParams hl hn, muls_bit P.toEstParams hl hn, e1, e2,
    EstParams.opsSelect, EstParams.compSelect, EstParams.opsPlain, EstParams.opsCtx, EstParams.opsEcc, EstParams.compEcc, muls_smul,
    randNum, zeroNum, selMults]
  push_cast
  refine ⟨?_, ?_, ?_, ?_, ?_, ?_, ?_, ?_, ?_⟩ <;> first | trivial | ring1

end

/-- The parameters of the example in `README.md:127-161` and the defaults of the scripts. -/
def readmeMal : MalParams :=
  { f := 18, n := 128, t := 31, l := 33, binsupDim := 14, keyLen := 127, ctxLen := 555, noise := 2, lenmac := 3, lencheck := 3 }

/-- The totals of the example in the README (all parties, bytes), and those of the semi-honest protocol. -/
example : (readmeMal.malicious 256 6400 30263).map (fun e => (e.garbleTotal, e.preprocTotal)) = some (20956207104, 149539994880)
    ∧ (readmeMal.semihon 256 6400 30263).map (fun e => (e.garble, e.preproc)) = some (3342767616, 33157496832) := by decide +kernel

/-- The additions and multiplications of a party. -/
example : (readmeMal.opsMalicious 256 6400 30263).map (fun e => (e.garble, e.preproc))
      = some (⟨4038986434, 4044846560⟩, ⟨37428096353, 37672757600⟩)
    ∧ (readmeMal.opsSemihon 256 6400 30263).map (fun e => (e.garble, e.preproc)) = some (⟨1217996958, 1221465714⟩, ⟨7215381347, 7285319552⟩) := by
  decide +kernel

/-- The theorems apply to these parameters. -/
example : ∃ s m, readmeMal.semihon 256 6400 30263 = some s ∧ readmeMal.malicious 256 6400 30263 = some m ∧ s.garble ≤ m.garbleTotal := by
  obtain ⟨s, m, h1, h2, _, _, _, _, _, _, _, _, _, h3, _⟩ := C125_comm readmeMal (by decide) (by decide) (by decide) (by decide) 256 6400 30263
  exact ⟨s, m, h1, h2, h3⟩

/-- C125, time: the printed time is that of the additions and multiplications one after the other, divided among the threads. -/
theorem C125_threads (a b : Ops) (k : Nat) (hk : 0 < k) (ta tm : Rat) : (⟨1, 0⟩ : Ops).time 1 ta tm = ta ∧ (⟨0, 1⟩ : Ops).time 1 ta tm = tm ∧
    (a.add b).time k ta tm = a.time k ta tm + b.time k ta tm ∧ k * a.time k ta tm = a.time 1 ta tm := by
  have hk' : (k : Rat) ≠ 0 := by exact_mod_cast hk.ne'
  unfold Ops.time Ops.add
  refine ⟨by simp, by simp, ?_, ?_⟩
  · push_cast
    ring
  · field_simp

/-- 3 additions of 2 seconds and 5 multiplications of 4 seconds take 13 seconds with two threads. -/
example : (⟨3, 5⟩ : Ops).time 2 2 4 = 13 := by norm_num [Ops.time]

/-- With `t + l = 1` and an empty circuit "Verification" is -8 additions. -/
example : (({ readmeMal with n := 3, t := 0, l := 1 } : MalParams).opsMalicious 0 0 0).map (fun e => e.verification.adds) = some (-8) := by
  decide +kernel

end Verif.Props
