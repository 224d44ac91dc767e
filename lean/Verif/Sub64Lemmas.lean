import Verif.Sub64
import Verif.CutLemmas
import Verif.KernelRfl
import Verif.ShippedSpec

namespace Verif

open Data

theorem sub64_gates : allFrom (fun q => sub64Cert.okCode (sub64Net.slot q)) 0 439 = true := by
  decide +kernel

theorem sub64_topo : allFrom (sub64Net.gateOk sub64Rank) 0 439 = true := by
  decide +kernel

theorem sub64_outs : allFrom (sub64Net.wireOk sub64Rank 439) 503 64 = true := by
  decide +kernel

theorem sub64_head : sub64Head = String.ofList sub64Net.headText := by krfl

theorem sub64_blocks : sub64Blocks = (List.range 4).map (sub64Net.block 128) := by krfl

theorem sub64_checked : sub64Net.Checked sub64Rank where
  gate q hq := allFrom_iff sub64_topo q (Nat.zero_le q) (by simpa [sub64Net] using hq)
  outs w h1 h2 := allFrom_iff sub64_outs w (by simpa [sub64Net] using h1) (by simpa [sub64Net] using h2)
  wires := by simp [sub64Net]
  outsLe := by simp [sub64Net]

theorem sub64_small : sub64Net.Small := by
  constructor <;> simp [sub64Net]

theorem sub64_text : sub64Text.toList = sub64Net.text sub64Tail.toList :=
  Net.text_blocks sub64_small sub64_checked 128 4 (by norm_num) (by simp [sub64Net]) _ _ _
    sub64_head sub64_blocks

theorem sub64_parse : fromBristol sub64Text.toList = some sub64Net.circuit := by
  rw [sub64_text]
  exact Net.parse sub64_small sub64_checked _

theorem sub64_proper : ProperFile sub64Text := by
  refine ⟨sub64Net.desc, ?_, Net.proper sub64_small sub64_checked⟩
  rw [sub64_text]
  exact Net.isFile sub64_small _

/-! ## Values of the signals -/

/-- Borrow into position `i` of `x - y`. -/
def borrow (x y : BitVec 64) (i : Nat) : Bool := !(BitVec.carry i x (~~~y) true)

theorem borrow_zero (x y : BitVec 64) : borrow x y 0 = false := by
  simp [borrow]

theorem borrow_succ (x y : BitVec 64) (i : Nat) (h : i < 64) :
    borrow x y (i + 1) = ((!x.getLsbD i && y.getLsbD i) || (!x.getLsbD i && borrow x y i)
      || (y.getLsbD i && borrow x y i)) := by
  unfold borrow
  rw [BitVec.carry_succ, BitVec.getLsbD_not]
  simp only [h, decide_true, Bool.true_and]
  cases x.getLsbD i <;> cases y.getLsbD i <;> cases BitVec.carry i x (~~~y) true <;> rfl

theorem sub_getLsbD (x y : BitVec 64) (i : Nat) (h : i < 64) :
    (x - y).getLsbD i = xor (xor (x.getLsbD i) (y.getLsbD i)) (borrow x y i) := by
  have e : x - y = x + ~~~y + BitVec.setWidth 64 (BitVec.ofBool true) := by
    rw [BitVec.sub_eq_add_neg, BitVec.neg_eq_not_add, ← BitVec.add_assoc]
    rfl
  rw [e, BitVec.getLsbD_add_add_bool h, BitVec.getLsbD_not]
  unfold borrow
  simp only [h, decide_true, Bool.true_and]
  cases x.getLsbD i <;> cases y.getLsbD i <;> cases BitVec.carry i x (~~~y) true <;> rfl

/-- Values of the signals. -/
def sub64Base (x y : BitVec 64) (v : Nat) : Bool :=
  if v < 64 then x.getLsbD v else if v < 128 then y.getLsbD (v - 64)
  else if v < 192 then borrow x y (v - 128) else if v < 256 then (x - y).getLsbD (v - 192) else true

/-- Position in the truth tables. -/
def sub64Pos (x y : BitVec 64) (b : Nat) : Nat :=
  (x.getLsbD b).toNat + 2 * (y.getLsbD b).toNat + 4 * (if b < 64 then borrow x y b else false).toNat

theorem sub64_nf (x y : BitVec 64) (v : Nat) (h : v < 257) :
    par (sub64Base x y) sub64Cert.size (sub64Cert.nf v) = sub64Base x y v :=
  par_bit _ 257 v h

theorem sub64_sound (x y : BitVec 64) : sub64Cert.Sound (sub64Base x y) (sub64Pos x y) where
  one := by
    rw [show sub64Cert.one = 256 from rfl, sub64_nf x y 256 (by norm_num)]
    rfl
  full b := by
    change Nat.testBit 255 _ = true
    unfold sub64Pos
    cases x.getLsbD b <;> cases y.getLsbD b <;> cases (if b < 64 then borrow x y b else false) <;> rfl
  inp b v n h := by
    change sub64In b v = some n at h
    change Nat.testBit n _ = _
    unfold sub64In at h
    by_cases hb : b < 64
    · have e : Nat.blt b 64 = true := by simpa [Nat.blt_eq] using hb
      rw [e, bsel_true] at h
      unfold sub64Pos
      rw [if_pos hb]
      cases e1 : Nat.beq v b with
      | true =>
        rw [e1] at h
        cases h
        rw [Nat.eq_of_beq_eq_true e1, sub64_nf x y b (by omega), sub64Base, if_pos hb]
        cases x.getLsbD b <;> cases y.getLsbD b <;> cases borrow x y b <;> rfl
      | false =>
        rw [e1, bsel_false] at h
        cases e2 : Nat.beq v (Nat.add 64 b) with
        | true =>
          rw [e2] at h
          cases h
          rw [Nat.eq_of_beq_eq_true e2]
          change _ = par _ _ (sub64Cert.nf (64 + b))
          rw [sub64_nf x y (64 + b) (by omega), sub64Base, if_neg (by omega), if_pos (by omega),
            Nat.add_sub_cancel_left]
          cases x.getLsbD b <;> cases y.getLsbD b <;> cases borrow x y b <;> rfl
        | false =>
          rw [e2, bsel_false] at h
          cases e3 : Nat.beq v (Nat.add 128 b) with
          | true =>
            rw [e3] at h
            cases h
            rw [Nat.eq_of_beq_eq_true e3]
            change _ = par _ _ (sub64Cert.nf (128 + b))
            rw [sub64_nf x y (128 + b) (by omega), sub64Base, if_neg (by omega), if_neg (by omega),
              if_pos (by omega), Nat.add_sub_cancel_left]
            cases x.getLsbD b <;> cases y.getLsbD b <;> cases borrow x y b <;> rfl
          | false =>
            rw [e3] at h
            cases h
    · have e : Nat.blt b 64 = false := by
        cases e : Nat.blt b 64
        · rfl
        · exact absurd (by simpa [Nat.blt_eq] using e) hb
      rw [e] at h
      cases h
  out b n L h := by
    change sub64Out b n = some L at h
    change Nat.testBit n _ = _
    unfold sub64Out at h
    cases e0 : Nat.beq b 0 with
    | true =>
      rw [e0, bsel_true] at h
      obtain rfl := Nat.eq_of_beq_eq_true e0
      unfold sub64Pos
      rw [if_pos (by norm_num), borrow_zero]
      cases e1 : Nat.beq n 0x66 with
      | true =>
        rw [e1] at h
        cases h
        rw [Nat.eq_of_beq_eq_true e1, WireCert.mask_single, sub64_nf x y 192 (by norm_num)]
        change _ = (x - y).getLsbD 0
        rw [sub_getLsbD x y 0 (by norm_num), borrow_zero]
        cases x.getLsbD 0 <;> cases y.getLsbD 0 <;> rfl
      | false =>
        rw [e1, bsel_false] at h
        cases e2 : Nat.beq n 0x44 with
        | false => rw [e2] at h; cases h
        | true =>
          rw [e2] at h
          cases h
          rw [Nat.eq_of_beq_eq_true e2, WireCert.mask_single, sub64_nf x y 129 (by norm_num)]
          change _ = borrow x y 1
          rw [borrow_succ x y 0 (by norm_num), borrow_zero]
          cases x.getLsbD 0 <;> cases y.getLsbD 0 <;> rfl
    | false =>
      rw [e0, bsel_false] at h
      cases e : Nat.blt b 64 with
      | false => rw [e] at h; cases h
      | true =>
        have hb : b < 64 := by simpa [Nat.blt_eq] using e
        rw [e, bsel_true] at h
        unfold sub64Pos
        rw [if_pos hb]
        cases e1 : Nat.beq n 0x96 with
        | true =>
          rw [e1] at h
          cases h
          rw [Nat.eq_of_beq_eq_true e1, WireCert.mask_single]
          change _ = par _ _ (sub64Cert.nf (192 + b))
          rw [sub64_nf x y (192 + b) (by omega), sub64Base, if_neg (by omega), if_neg (by omega),
            if_neg (by omega), if_pos (by omega), Nat.add_sub_cancel_left, sub_getLsbD x y b hb]
          cases x.getLsbD b <;> cases y.getLsbD b <;> cases borrow x y b <;> rfl
        | false =>
          rw [e1, bsel_false] at h
          cases e2 : Nat.beq n 0xD4 with
          | false => rw [e2] at h; cases h
          | true =>
            rw [e2, bsel_true] at h
            cases e3 : Nat.blt b 63 with
            | false => rw [e3] at h; cases h
            | true =>
              have hb' : b < 63 := by simpa [Nat.blt_eq] using e3
              rw [e3] at h
              cases h
              rw [Nat.eq_of_beq_eq_true e2, WireCert.mask_single]
              change _ = par _ _ (sub64Cert.nf (129 + b))
              rw [sub64_nf x y (129 + b) (by omega), sub64Base, if_neg (by omega), if_neg (by omega),
                if_pos (by omega), show 129 + b - 128 = b + 1 by omega, borrow_succ x y b hb]
              cases x.getLsbD b <;> cases y.getLsbD b <;> cases borrow x y b <;> rfl

/-! ## Inputs and outputs -/

theorem sub64_inputs : allFrom (fun w => sub64Cert.isSig w w) 0 128 = true := by
  decide +kernel

theorem sub64_outputs : allFrom (fun i => sub64Cert.isSig (Nat.add 503 i) (Nat.add 192 i)) 0 64 = true := by
  decide +kernel

theorem sub64_eval (x y : BitVec 64) :
    sub64Net.circuit.eval [bitsOf x, bitsOf y] = some [bitsOf (x - y)] := by
  refine Net.eval_cert (N := sub64Net) (x := x) (y := y) (z := x - y) sub64_checked (sub64_sound x y)
    (fun q hq => allFrom_iff sub64_gates q (Nat.zero_le q) (by simpa [sub64Net] using hq))
    (fun w => w) (fun i => 192 + i)
    (fun w hw => allFrom_iff sub64_inputs w (Nat.zero_le w) (by simpa [sub64Net] using hw))
    (fun i hi => allFrom_iff sub64_outputs i (Nat.zero_le i) (by simpa [sub64Net] using hi)) ?_ ?_ ?_
  · intro i hi
    have hi : i < 64 := hi
    rw [sub64_nf x y i (by omega), sub64Base, if_pos hi]
    rfl
  · intro i hi
    have hi : i < 64 := hi
    rw [show sub64Net.n1 = 64 from rfl, sub64_nf x y (64 + i) (by omega), sub64Base, if_neg (by omega),
      if_pos (by omega), Nat.add_sub_cancel_left]
    rfl
  · intro i hi
    have hi : i < 64 := hi
    rw [sub64_nf x y (192 + i) (by omega), sub64Base, if_neg (by omega), if_neg (by omega),
      if_neg (by omega), if_pos (by omega), Nat.add_sub_cancel_left]
    rfl

end Verif
