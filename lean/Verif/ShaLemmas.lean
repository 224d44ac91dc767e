import Verif.Sha
import Verif.ShaSpecLemmas
import Verif.CutLemmas

/-!
# The values of the signals of the SHA-256 circuit
-/

namespace Verif

open Data Sha

/-! ## Words -/

section
variable (block : BitVec 512) (hash : BitVec 256)

/-- Message schedule. -/
def shaW (t : Nat) : Word := msgWord (wordsOf 16 block) t

/-- Working variable `a`. -/
def shaA (u : Nat) : Word := varA (schedule (wordsOf 16 block) 48) (wordsOf 8 hash) u

/-- Working variable `e`. -/
def shaE (u : Nat) : Word := varE (schedule (wordsOf 16 block) 48) (wordsOf 8 hash) u

/-- `Ch` in step `u + 1`. -/
def shaCh (u : Nat) : Word := ch (shaE block hash (u + 3)) (shaE block hash (u + 2)) (shaE block hash (u + 1))

/-- `Maj` in step `u + 1`. -/
def shaMaj (u : Nat) : Word := maj (shaA block hash (u + 3)) (shaA block hash (u + 2)) (shaA block hash (u + 1))

/-- Value of word `s` of group `u`. -/
def shaValAt (u s : Nat) : Word :=
  match s with
  | 0 => shaW block u
  | 1 => if u < 8 then at' (compressWords (wordsOf 16 block) (wordsOf 8 hash)) u
      else shaW block (u - 16) + smallSigma0 (shaW block (u - 15))
  | 2 => shaW block (u - 7) + smallSigma1 (shaW block (u - 2))
  | 3 => smallSigma0 (shaW block (u - 15))
  | 4 => smallSigma1 (shaW block (u - 2))
  | 5 => shaA block hash u
  | 6 => shaE block hash u
  | 7 => bigSigma1 (shaE block hash (u + 3))
  | 8 => shaCh block hash u
  | 9 => shaE block hash u + shaW block u
  | 10 => bigSigma1 (shaE block hash (u + 3)) + shaCh block hash u
  | 11 => shaE block hash u + shaW block u + (bigSigma1 (shaE block hash (u + 3)) + shaCh block hash u)
  | 12 => shaE block hash u + shaW block u + (bigSigma1 (shaE block hash (u + 3)) + shaCh block hash u)
      + at' constants u
  | 13 => bigSigma0 (shaA block hash (u + 3))
  | 14 => shaMaj block hash u
  | _ => bigSigma0 (shaA block hash (u + 3)) + shaMaj block hash u

/-- Value of a word. -/
def shaVal (n : Nat) : Word := shaValAt block hash (n / 16) (n % 16)

variable {block hash}

theorem shaVal_num (u s : Nat) (h : s < 16) : shaVal block hash (shaNum u s) = shaValAt block hash u s := by
  have e1 : shaNum u s / 16 = u := by
    change (16 * u + s) / 16 = u; omega
  have e2 : shaNum u s % 16 = s := by
    change (16 * u + s) % 16 = s; omega
  rw [shaVal, e1, e2]

theorem sha_const (u : Nat) (h : u < 64) : BitVec.ofNat 32 (shaKTree.leaf u) = at' constants u := by
  revert u
  decide +kernel

/-- What an operation says about the value of a word. -/
def ShaOp.Holds (val : Nat → Word) (z : Word) : ShaOp → Prop
  | .none => True
  | .add x y => z = val x + val y
  | .addk x c => z = val x + BitVec.ofNat 32 c
  | .ch x y w => z = Sha.ch (val x) (val y) (val w)
  | .maj x y w => z = Sha.maj (val x) (val y) (val w)
  | .rot x i j k => z = (val x).rotateRight i ^^^ (val x).rotateRight j ^^^ (val x).rotateRight k
  | .shf x i j k => z = (val x).rotateRight i ^^^ (val x).rotateRight j ^^^ (val x >>> k)

theorem holds_if {val : Nat → Word} {z : Word} (lo hi u : Nat) (o : ShaOp)
    (h : lo ≤ u → u < hi → o.Holds val z) : (shaIf lo hi u o).Holds val z := by
  unfold shaIf
  cases e1 : Nat.ble lo u with
  | false => trivial
  | true =>
    cases e2 : Nat.blt u hi with
    | false => trivial
    | true => exact h (Nat.le_of_ble_eq_true e1) (by simpa [Nat.blt_eq] using e2)

theorem add_five (a b c d e : Word) : a + b + c + d + e = a + e + (b + c) + d := by
  ac_rfl

theorem add_four (a b c d : Word) : a + b + c + d = d + c + (b + a) := by
  ac_rfl

theorem temp1_eq (t : Nat) : temp1 (schedule (wordsOf 16 block) 48) (wordsOf 8 hash) t
    = shaE block hash t + shaW block t + (bigSigma1 (shaE block hash (t + 3)) + shaCh block hash t)
      + at' constants t :=
  add_five _ _ _ _ _

theorem shaW_ge (u : Nat) (h1 : 16 ≤ u) (h2 : u < 64) : shaW block u
    = shaW block (u - 16) + smallSigma0 (shaW block (u - 15))
      + (shaW block (u - 7) + smallSigma1 (shaW block (u - 2))) := by
  unfold shaW
  rw [msgWord_ge (wordsOf_length 16 block) u h1 h2]
  exact add_four _ _ _ _

theorem shaA_ge (u : Nat) (h1 : 4 ≤ u) : shaA block hash u
    = shaE block hash (u - 4) + shaW block (u - 4)
      + (bigSigma1 (shaE block hash (u - 4 + 3)) + shaCh block hash (u - 4)) + at' constants (u - 4)
      + (bigSigma0 (shaA block hash (u - 4 + 3)) + shaMaj block hash (u - 4)) := by
  obtain ⟨t, rfl⟩ : ∃ t, u = t + 4 := ⟨u - 4, by omega⟩
  rw [Nat.add_sub_cancel, ← temp1_eq]
  exact varA_succ _ _ t

theorem shaE_ge (u : Nat) (h1 : 4 ≤ u) : shaE block hash u
    = shaA block hash (u - 4) + (shaE block hash (u - 4) + shaW block (u - 4)
      + (bigSigma1 (shaE block hash (u - 4 + 3)) + shaCh block hash (u - 4)) + at' constants (u - 4)) := by
  obtain ⟨t, rfl⟩ : ∃ t, u = t + 4 := ⟨u - 4, by omega⟩
  rw [Nat.add_sub_cancel, ← temp1_eq]
  exact varE_succ _ _ t

theorem shaA_low (j : Nat) (h : j < 4) : shaA block hash (3 - j) = at' (wordsOf 8 hash) j := by
  unfold shaA varA
  by_cases h0 : j = 0
  · subst h0
    rfl
  · rw [if_pos (by omega), show 3 - (3 - j) = j by omega]

theorem shaE_low (j : Nat) (h : 4 ≤ j) (h' : j < 8) : shaE block hash (7 - j) = at' (wordsOf 8 hash) j := by
  unfold shaE varE
  by_cases h0 : j = 4
  · subst h0
    rfl
  · rw [if_pos (by omega), show 7 - (7 - j) = j by omega]

theorem shaOpAt_holds (u s : Nat) (h : s < 16) :
    (shaOpAt u s).Holds (shaVal block hash) (shaValAt block hash u s) := by
  have num : ∀ u s, s < 16 → shaVal block hash (shaNum u s) = shaValAt block hash u s := shaVal_num
  interval_cases s
  · refine holds_if 16 64 u _ fun h1 h2 => ?_
    simp only [ShaOp.Holds]
    rw [num _ _ (by norm_num), num _ _ (by norm_num)]
    simp only [shaValAt]
    rw [if_neg (by omega)]
    exact shaW_ge u h1 h2
  · change ShaOp.Holds _ _ (bsel (Nat.blt u 4) _ (bsel (Nat.blt u 8) _ _))
    by_cases c1 : u < 4
    · rw [blt_of_lt c1, bsel_true]
      simp only [ShaOp.Holds]
      rw [num _ _ (by norm_num), num _ _ (by norm_num)]
      simp only [shaValAt]
      rw [if_pos (by omega), compress_at _ _ (wordsOf_length 8 hash) u (by omega), if_pos c1]
      exact congrArg (· + _) (shaA_low u c1).symm
    · rw [blt_of_not c1, bsel_false]
      by_cases c2 : u < 8
      · rw [blt_of_lt c2, bsel_true]
        simp only [ShaOp.Holds]
        rw [num _ _ (by norm_num), num _ _ (by norm_num)]
        simp only [shaValAt]
        rw [if_pos c2, compress_at _ _ (wordsOf_length 8 hash) u (by omega), if_neg c1]
        exact congrArg (· + _) (shaE_low u (by omega) c2).symm
      · rw [blt_of_not c2, bsel_false]
        refine holds_if 16 64 u _ fun h1 h2 => ?_
        simp only [ShaOp.Holds]
        rw [num _ _ (by norm_num), num _ _ (by norm_num)]
        simp only [shaValAt]
        rw [if_neg c2]
        rfl
  · refine holds_if 16 64 u _ fun h1 h2 => ?_
    simp only [ShaOp.Holds]
    rw [num _ _ (by norm_num), num _ _ (by norm_num)]
    rfl
  · refine holds_if 16 64 u _ fun h1 h2 => ?_
    simp only [ShaOp.Holds]
    rw [num _ _ (by norm_num)]
    rfl
  · refine holds_if 16 64 u _ fun h1 h2 => ?_
    simp only [ShaOp.Holds]
    rw [num _ _ (by norm_num)]
    rfl
  · refine holds_if 4 68 u _ fun h1 h2 => ?_
    simp only [ShaOp.Holds]
    rw [num _ _ (by norm_num), num _ _ (by norm_num)]
    exact shaA_ge u h1
  · refine holds_if 4 68 u _ fun h1 h2 => ?_
    simp only [ShaOp.Holds]
    rw [num _ _ (by norm_num), num _ _ (by norm_num)]
    exact shaE_ge u h1
  · refine holds_if 0 64 u _ fun h1 h2 => ?_
    simp only [ShaOp.Holds]
    rw [num _ _ (by norm_num)]
    rfl
  all_goals
    refine holds_if 0 64 u _ fun h1 h2 => ?_
  · change _ = ch _ _ _
    rw [num _ _ (by norm_num), num _ _ (by norm_num), num _ _ (by norm_num)]
    rfl
  · change _ = shaVal _ _ _ + shaVal _ _ _
    rw [num _ _ (by norm_num), num _ _ (by norm_num)]
    rfl
  · change _ = shaVal _ _ _ + shaVal _ _ _
    rw [num _ _ (by norm_num), num _ _ (by norm_num)]
    rfl
  · change _ = shaVal _ _ _ + shaVal _ _ _
    rw [num _ _ (by norm_num), num _ _ (by norm_num)]
    rfl
  · change _ = shaVal _ _ _ + BitVec.ofNat 32 (shaKTree.leaf u)
    rw [num _ _ (by norm_num), sha_const u h2]
    rfl
  · change _ = BitVec.rotateRight (shaVal _ _ _) 2 ^^^ BitVec.rotateRight (shaVal _ _ _) 13
      ^^^ BitVec.rotateRight (shaVal _ _ _) 22
    rw [num _ _ (by norm_num)]
    rfl
  · change _ = maj _ _ _
    rw [num _ _ (by norm_num), num _ _ (by norm_num), num _ _ (by norm_num)]
    rfl
  · change _ = shaVal _ _ _ + shaVal _ _ _
    rw [num _ _ (by norm_num), num _ _ (by norm_num)]
    rfl

theorem shaOp_holds (n : Nat) : (shaOp n).Holds (shaVal block hash) (shaVal block hash n) :=
  shaOpAt_holds (n / 16) (n % 16) (Nat.mod_lt _ (by norm_num))

end

/-! ## Signals -/

section
variable (block : BitVec 512) (hash : BitVec 256)

/-- Carry into position `k` of the addition for word `n`. -/
noncomputable def shaCarry (n k : Nat) : Bool :=
  match shaOp n with
  | .add x y => BitVec.carry k (shaVal block hash x) (shaVal block hash y) false
  | .addk x c => BitVec.carry k (shaVal block hash x) (BitVec.ofNat 32 c) false
  | _ => false

/-- Values of the signals. -/
noncomputable def shaSig (v : Nat) : Bool :=
  if v < 34816 then (shaVal block hash (v / 32)).getLsbD (v % 32)
  else if v < 69632 then shaCarry block hash ((v - 34816) / 32) ((v - 34816) % 32)
  else true

/-- Exclusive or of the signals in a set. -/
noncomputable def shaPar (m : Nat) : Bool := par (shaSig block hash) 69633 m

variable {block hash}

theorem shaPar_xor (a b : Nat) :
    shaPar block hash (Nat.xor a b) = xor (shaPar block hash a) (shaPar block hash b) := par_xor _ _ _ _

theorem shaPar_one (v : Nat) (h : v < 69633) : shaPar block hash (shaOne v) = shaSig block hash v :=
  par_bit _ _ _ h

theorem shaSig_bit (n k : Nat) (hn : n < 1088) (hk : k < 32) :
    shaSig block hash (shaBit n k) = (shaVal block hash n).getLsbD k := by
  change shaSig block hash (32 * n + k) = _
  rw [shaSig, if_pos (by omega), show (32 * n + k) / 32 = n by omega, show (32 * n + k) % 32 = k by omega]

/-- The words which an operation reads are in range. -/
def ShaOp.InRange : ShaOp → Prop
  | .none => True
  | .add x y => x < 1088 ∧ y < 1088
  | .addk x c => x < 1088 ∧ c < 2 ^ 32
  | .ch x y z => x < 1088 ∧ y < 1088 ∧ z < 1088
  | .maj x y z => x < 1088 ∧ y < 1088 ∧ z < 1088
  | .rot x i j k => x < 1088 ∧ i < 32 ∧ j < 32 ∧ k < 32
  | .shf x i j k => x < 1088 ∧ i < 32 ∧ j < 32 ∧ k < 32

instance (o : ShaOp) : Decidable o.InRange := by
  cases o <;> unfold ShaOp.InRange <;> infer_instance

theorem shaOp_small : ∀ u, u < 68 → ∀ s, s < 16 → (shaOpAt u s).InRange := by
  decide +kernel

theorem shaOpAt_none (u s : Nat) (hu : 68 ≤ u) : shaOpAt u s = .none := by
  have h16 : ∀ o, shaIf 16 64 u o = .none := fun o => by
    unfold shaIf
    rw [blt_of_not (by omega)]
    cases Nat.ble 16 u <;> rfl
  have h4 : ∀ o, shaIf 4 68 u o = .none := fun o => by
    unfold shaIf
    rw [blt_of_not (by omega)]
    cases Nat.ble 4 u <;> rfl
  have h0 : ∀ o, shaIf 0 64 u o = .none := fun o => by
    unfold shaIf
    rw [blt_of_not (by omega)]
    rfl
  unfold shaOpAt
  rw [blt_of_not (show ¬ u < 4 by omega), blt_of_not (show ¬ u < 8 by omega)]
  simp only [h16, h4, h0, bsel_false]
  cases Nat.blt s 8 <;> cases Nat.blt s 4 <;> cases Nat.blt s 2 <;> cases Nat.beq s 0 <;> cases Nat.beq s 2 <;>
    cases Nat.blt s 6 <;> cases Nat.beq s 4 <;> cases Nat.beq s 6 <;> rfl

theorem shaOp_range (n : Nat) : (shaOp n).InRange := by
  by_cases h : n < 1088
  · exact shaOp_small (n / 16) (by omega) (n % 16) (Nat.mod_lt _ (by norm_num))
  · have : shaOp n = .none := shaOpAt_none (n / 16) (n % 16) (by omega)
    rw [this]
    trivial

theorem shaOp_none (n : Nat) (h : 1088 ≤ n) : shaOp n = .none := shaOpAt_none (n / 16) (n % 16) (by omega)

theorem getLsbD_rot (x : Word) (r k : Nat) (hr : r < 32) (hk : k < 32) :
    (x.rotateRight r).getLsbD k = x.getLsbD ((k + r) % 32) := by
  rw [BitVec.getLsbD_rotateRight_of_lt hr]
  by_cases h : k < 32 - r
  · rw [decide_eq_true h, cond_true]
    congr 1
    omega
  · rw [decide_eq_false h, cond_false, decide_eq_true hk, Bool.true_and]
    congr 1
    omega

/-- The normal form of a signal has its value. -/
theorem shaNf_par (v : Nat) (h : v < 69633) : shaPar block hash (shaNf v) = shaSig block hash v := by
  unfold shaNf
  by_cases c : v < 34816
  · rw [blt_of_lt c, bsel_true]
    have hv : v = shaBit (v / 32) (v % 32) := by
      change v = 32 * (v / 32) + v % 32
      omega
    have hh := shaOp_holds (block := block) (hash := hash) (v / 32)
    have hr := shaOp_range (v / 32)
    have hk : v % 32 < 32 := Nat.mod_lt _ (by norm_num)
    have bit : ∀ x i, x < 1088 → shaPar block hash (shaOne (shaBit x (i % 32)))
        = (shaVal block hash x).getLsbD (i % 32) := by
      intro x i hx
      have hi : i % 32 < 32 := Nat.mod_lt _ (by norm_num)
      rw [shaPar_one _ (by change 32 * x + i % 32 < _; omega), shaSig_bit x _ hx hi]
    change shaPar block hash (ShaOp.rec _ _ _ _ _ _ _ (shaOp (v / 32))) = _
    cases e : shaOp (v / 32) with
    | rot x i j l =>
      rw [e] at hh hr
      obtain ⟨hx, hi, hj, hl⟩ := hr
      change shaPar block hash (Nat.xor (shaOne (shaBit x ((v % 32 + i) % 32)))
        (Nat.xor (shaOne (shaBit x ((v % 32 + j) % 32))) (shaOne (shaBit x ((v % 32 + l) % 32))))) = _
      rw [shaPar_xor, shaPar_xor, bit x _ hx, bit x _ hx, bit x _ hx]
      conv_rhs => rw [hv, shaSig_bit _ _ (by omega) hk]
      simp only [ShaOp.Holds] at hh
      rw [hh, BitVec.getLsbD_xor, BitVec.getLsbD_xor, getLsbD_rot _ i _ hi hk, getLsbD_rot _ j _ hj hk,
        getLsbD_rot _ l _ hl hk, Bool.xor_assoc]
    | shf x i j l =>
      rw [e] at hh hr
      obtain ⟨hx, hi, hj, hl⟩ := hr
      change shaPar block hash (Nat.xor (shaOne (shaBit x ((v % 32 + i) % 32)))
        (Nat.xor (shaOne (shaBit x ((v % 32 + j) % 32)))
          (bsel (Nat.blt (v % 32 + l) 32) (shaOne (shaBit x (v % 32 + l))) 0))) = _
      rw [shaPar_xor, shaPar_xor, bit x _ hx, bit x _ hx]
      conv_rhs => rw [hv, shaSig_bit _ _ (by omega) hk]
      simp only [ShaOp.Holds] at hh
      rw [hh, BitVec.getLsbD_xor, BitVec.getLsbD_xor, getLsbD_rot _ i _ hi hk, getLsbD_rot _ j _ hj hk,
        BitVec.getLsbD_ushiftRight, Bool.xor_assoc]
      suffices e : shaPar block hash (bsel (Nat.blt (v % 32 + l) 32) (shaOne (shaBit x (v % 32 + l))) 0)
          = (shaVal block hash x).getLsbD (l + v % 32) by rw [e]
      by_cases c : v % 32 + l < 32
      · rw [blt_of_lt c, bsel_true, Nat.add_comm l]
        have := bit x (v % 32 + l) hx
        rw [Nat.mod_eq_of_lt c] at this
        exact this
      · rw [blt_of_not c, bsel_false, BitVec.getLsbD_of_ge _ _ (by omega)]
        exact par_zero _ _
    | _ => exact shaPar_one v h
  · rw [blt_of_not c, bsel_false]
    exact shaPar_one v h

/-! ## Boxes -/

/-- Position in truth tables over three bits. -/
def shaIdx (a b c : Bool) : Nat := a.toNat + 2 * b.toNat + 4 * c.toNat

theorem shaIdx_lt (a b c : Bool) : shaIdx a b c < 8 := by
  cases a <;> cases b <;> cases c <;> decide

variable (block hash) in
/-- Position in the truth tables of a box. -/
noncomputable def shaPos (b : Nat) : Nat :=
  match shaOp (b / 32) with
  | .add x y => shaIdx ((shaVal block hash x).getLsbD (b % 32)) ((shaVal block hash y).getLsbD (b % 32))
      (shaCarry block hash (b / 32) (b % 32))
  | .addk x _ => shaIdx ((shaVal block hash x).getLsbD (b % 32)) false (shaCarry block hash (b / 32) (b % 32))
  | .ch x y z => shaIdx ((shaVal block hash x).getLsbD (b % 32)) ((shaVal block hash y).getLsbD (b % 32))
      ((shaVal block hash z).getLsbD (b % 32))
  | .maj x y z => shaIdx ((shaVal block hash x).getLsbD (b % 32)) ((shaVal block hash y).getLsbD (b % 32))
      ((shaVal block hash z).getLsbD (b % 32))
  | _ => 0

theorem shaPos_lt (b : Nat) : shaPos block hash b < 8 := by
  unfold shaPos
  split <;> first | exact shaIdx_lt _ _ _ | decide

theorem box_lt {b : Nat} (h : shaOp (b / 32) ≠ .none) : b < 34816 := by
  by_contra hb
  exact h (shaOp_none _ (by omega))

theorem shaSig_carry (b : Nat) (h : b < 34816) :
    shaSig block hash (34816 + b) = shaCarry block hash (b / 32) (b % 32) := by
  rw [shaSig, if_neg (by omega), if_pos (by omega), Nat.add_sub_cancel_left]

theorem shaSig_carry_succ (b : Nat) (h : b < 34816) (hk : b % 32 < 31) :
    shaSig block hash (34817 + b) = shaCarry block hash (b / 32) (b % 32 + 1) := by
  rw [shaSig, if_neg (by omega), if_pos (by omega), show 34817 + b - 34816 = b + 1 by omega,
    show (b + 1) / 32 = b / 32 by omega, show (b + 1) % 32 = b % 32 + 1 by omega]

theorem shaSig_self (b : Nat) (h : b < 34816) :
    shaSig block hash b = (shaVal block hash (b / 32)).getLsbD (b % 32) := by
  rw [shaSig, if_pos h]

theorem carry_low (x : Word) (c k : Nat) (h : c % 2 ^ k = 0) (hk : k < 32) :
    BitVec.carry k x (BitVec.ofNat 32 c) false = false := by
  unfold BitVec.carry
  have e : c % 2 ^ 32 % 2 ^ k = 0 := by
    rw [Nat.mod_mod_of_dvd _ (pow_dvd_pow 2 (by omega)), h]
  simp only [BitVec.toNat_ofNat, e, Bool.toNat_false, decide_eq_false_iff_not]
  have := Nat.mod_lt x.toNat (Nat.two_pow_pos k)
  omega

theorem low_bit (c k : Nat) (h : shaLow c (k + 1) = true) :
    c % 2 ^ k = 0 ∧ c.testBit k = true := by
  have h1 : 2 * (c % 2 ^ (k + 1)) = 2 ^ (k + 1) := Nat.eq_of_beq_eq_true h
  have h2 : c % 2 ^ (k + 1) = 2 ^ k := by
    rw [Nat.pow_succ] at h1 ⊢
    omega
  constructor
  · have := Nat.mod_mod_of_dvd c (pow_dvd_pow 2 (show k ≤ k + 1 by omega))
    rw [← this, h2, Nat.mod_self]
  · have : (c % 2 ^ (k + 1)).testBit k = c.testBit k := by
      rw [Nat.testBit_mod_two_pow]
      simp
    rw [← this, h2, Nat.testBit_two_pow_self]

theorem getLsbD_ofNat' (c k : Nat) (hk : k < 32) : (BitVec.ofNat 32 c).getLsbD k = c.testBit k := by
  rw [BitVec.getLsbD_ofNat]
  simp [hk]

theorem add_bit (x y : Word) (k : Nat) (hk : k < 32) :
    (x + y).getLsbD k = xor (x.getLsbD k) (xor (y.getLsbD k) (BitVec.carry k x y false)) :=
  BitVec.getLsbD_add hk x y

theorem idx_a (a b c : Bool) : Nat.testBit 0xAA (shaIdx a b c) = a := by
  cases a <;> cases b <;> cases c <;> decide

theorem idx_b (a b c : Bool) : Nat.testBit 0xCC (shaIdx a b c) = b := by
  cases a <;> cases b <;> cases c <;> decide

theorem idx_c (a b c : Bool) : Nat.testBit 0xF0 (shaIdx a b c) = c := by
  cases a <;> cases b <;> cases c <;> decide

theorem idx_nc (a b c : Bool) : Nat.testBit 0x0F (shaIdx a b c) = !c := by
  cases a <;> cases b <;> cases c <;> decide

theorem shaPick_sound {x y z v n : Nat} (h : shaPick x y z v = some n) {a b c : Bool}
    (ha : shaSig block hash x = a) (hb : shaSig block hash y = b) (hc : shaSig block hash z = c) :
    Nat.testBit n (shaIdx a b c) = shaSig block hash v := by
  unfold shaPick at h
  cases e1 : Nat.beq v x with
  | true =>
    rw [e1] at h
    cases h
    rw [idx_a, Nat.eq_of_beq_eq_true e1, ha]
  | false =>
    rw [e1, bsel_false] at h
    cases e2 : Nat.beq v y with
    | true =>
      rw [e2] at h
      cases h
      rw [idx_b, Nat.eq_of_beq_eq_true e2, hb]
    | false =>
      rw [e2, bsel_false] at h
      cases e3 : Nat.beq v z with
      | true =>
        rw [e3] at h
        cases h
        rw [idx_c, Nat.eq_of_beq_eq_true e3, hc]
      | false =>
        rw [e3] at h
        cases h

theorem shaPick_mem {x y z v n : Nat} (h : shaPick x y z v = some n) : v = x ∨ v = y ∨ v = z := by
  unfold shaPick at h
  cases e1 : Nat.beq v x with
  | true => exact Or.inl (Nat.eq_of_beq_eq_true e1)
  | false =>
    rw [e1, bsel_false] at h
    cases e2 : Nat.beq v y with
    | true => exact Or.inr (Or.inl (Nat.eq_of_beq_eq_true e2))
    | false =>
      rw [e2, bsel_false] at h
      cases e3 : Nat.beq v z with
      | true => exact Or.inr (Or.inr (Nat.eq_of_beq_eq_true e3))
      | false =>
        rw [e3] at h
        cases h

theorem shaIn_sound (b v n : Nat) (h : shaIn b v = some n) :
    Nat.testBit n (shaPos block hash b) = shaPar block hash (shaNf v) := by
  have hk : b % 32 < 32 := Nat.mod_lt _ (by norm_num)
  have hr := shaOp_range (b / 32)
  have hh := shaOp_holds (block := block) (hash := hash) (b / 32)
  have bit : ∀ x, x < 1088 → shaBit x (b % 32) < 69633 := fun x hx => by
    change 32 * x + b % 32 < _
    omega
  suffices hs : Nat.testBit n (shaPos block hash b) = shaSig block hash v ∧ v < 69633 by
    rw [hs.1, shaNf_par v hs.2]
  change ShaOp.rec (motive := fun _ => Option Nat) _ _ _ _ _ _ _ (shaOp (b / 32)) = some n at h
  unfold shaPos
  cases e : shaOp (b / 32) with
  | none => rw [e] at h; cases h
  | rot => rw [e] at h; cases h
  | shf => rw [e] at h; cases h
  | add x y =>
    have hb := box_lt (b := b) (by rw [e]; simp)
    rw [e] at h hr
    change shaPick (shaBit x (b % 32)) (shaBit y (b % 32)) (34816 + b) v = some n at h
    obtain ⟨hx, hy⟩ := hr
    refine ⟨shaPick_sound h (shaSig_bit x _ hx hk) (shaSig_bit y _ hy hk) (shaSig_carry b hb), ?_⟩
    rcases shaPick_mem h with rfl | rfl | rfl
    · exact bit x hx
    · exact bit y hy
    · omega
  | ch x y z =>
    rw [e] at h hr
    change shaPick (shaBit x (b % 32)) (shaBit y (b % 32)) (shaBit z (b % 32)) v = some n at h
    obtain ⟨hx, hy, hz⟩ := hr
    refine ⟨shaPick_sound h (shaSig_bit x _ hx hk) (shaSig_bit y _ hy hk) (shaSig_bit z _ hz hk), ?_⟩
    rcases shaPick_mem h with rfl | rfl | rfl
    · exact bit x hx
    · exact bit y hy
    · exact bit z hz
  | maj x y z =>
    rw [e] at h hr
    change shaPick (shaBit x (b % 32)) (shaBit y (b % 32)) (shaBit z (b % 32)) v = some n at h
    obtain ⟨hx, hy, hz⟩ := hr
    refine ⟨shaPick_sound h (shaSig_bit x _ hx hk) (shaSig_bit y _ hy hk) (shaSig_bit z _ hz hk), ?_⟩
    rcases shaPick_mem h with rfl | rfl | rfl
    · exact bit x hx
    · exact bit y hy
    · exact bit z hz
  | addk x c =>
    have hb := box_lt (b := b) (by rw [e]; simp)
    rw [e] at h hr hh
    obtain ⟨hx, -⟩ := hr
    change bsel (Nat.beq v (shaBit x (b % 32))) (some 0xAA) (bsel (Nat.beq v (34816 + b)) (some 0xF0)
      (bsel (shaLow c (b % 32)) (bsel (Nat.beq (v + 1) (shaBit x (b % 32))) (some 0xF0)
        (bsel (Nat.beq (v + 1) b) (some 0x0F) none)) none)) = some n at h
    simp only
    cases e1 : Nat.beq v (shaBit x (b % 32)) with
    | true =>
      rw [e1] at h
      cases h
      rw [idx_a, Nat.eq_of_beq_eq_true e1, shaSig_bit x _ hx hk]
      exact ⟨rfl, bit x hx⟩
    | false =>
      rw [e1, bsel_false] at h
      cases e2 : Nat.beq v (34816 + b) with
      | true =>
        rw [e2] at h
        cases h
        rw [idx_c, Nat.eq_of_beq_eq_true e2, shaSig_carry b hb]
        exact ⟨rfl, by omega⟩
      | false =>
        rw [e2, bsel_false] at h
        cases e3 : shaLow c (b % 32) with
        | false => rw [e3] at h; cases h
        | true =>
          rw [e3, bsel_true] at h
          obtain ⟨k, hk'⟩ : ∃ k, b % 32 = k + 1 := by
            refine ⟨b % 32 - 1, ?_⟩
            by_contra hn
            have h0 : b % 32 = 0 := by omega
            rw [h0] at e3
            have : 2 * (c % 2 ^ 0) = 2 ^ 0 := Nat.eq_of_beq_eq_true e3
            simp at this
          obtain ⟨l1, l2⟩ := low_bit c k (by rw [← hk']; exact e3)
          have hc0 := carry_low (shaVal block hash x) c k l1 (by omega)
          have hcar : shaCarry block hash (b / 32) (b % 32) = (shaVal block hash x).getLsbD k := by
            unfold shaCarry
            rw [e, hk']
            simp only
            rw [BitVec.carry_succ, hc0, getLsbD_ofNat' c k (by omega), l2]
            cases (shaVal block hash x).getLsbD k <;> rfl
          cases e4 : Nat.beq (v + 1) (shaBit x (b % 32)) with
          | true =>
            rw [e4] at h
            cases h
            have hv : v + 1 = 32 * x + b % 32 := Nat.eq_of_beq_eq_true e4
            have hv' : v = shaBit x k := by
              change v = 32 * x + k
              omega
            rw [idx_c, hcar, hv', shaSig_bit x k hx (by omega)]
            exact ⟨rfl, by change 32 * x + k < _; omega⟩
          | false =>
            rw [e4, bsel_false] at h
            cases e5 : Nat.beq (v + 1) b with
            | false => rw [e5] at h; cases h
            | true =>
              rw [e5] at h
              cases h
              have hv : v + 1 = b := Nat.eq_of_beq_eq_true e5
              simp only [ShaOp.Holds] at hh
              rw [idx_nc, hcar, shaSig_self v (by omega), show v / 32 = b / 32 by omega,
                show v % 32 = k by omega, hh, add_bit _ _ k (by omega), hc0, getLsbD_ofNat' c k (by omega), l2]
              refine ⟨?_, by omega⟩
              cases (shaVal block hash x).getLsbD k <;> rfl

theorem idx_sum (a b c : Bool) : Nat.testBit 0x96 (shaIdx a b c) = xor a (xor b c) := by
  cases a <;> cases b <;> cases c <;> decide

theorem idx_maj (a b c : Bool) : Nat.testBit 0xE8 (shaIdx a b c) = Bool.atLeastTwo a b c := by
  cases a <;> cases b <;> cases c <;> decide

theorem idx_sum0 (a b : Bool) : Nat.testBit 0x66 (shaIdx a b false) = xor a (xor b false) := by
  cases a <;> cases b <;> decide

theorem idx_maj0 (a b : Bool) : Nat.testBit 0x88 (shaIdx a b false) = Bool.atLeastTwo a b false := by
  cases a <;> cases b <;> decide

theorem idx_ch (a b c : Bool) : Nat.testBit 0xD8 (shaIdx a b c) = xor (a && b) (!a && c) := by
  cases a <;> cases b <;> cases c <;> decide

theorem shaSum_sound {b k s v c t : Nat} {L : List Nat} (h : shaSum b k s v c t = some L) {p : Nat}
    (hs : Nat.testBit s p = shaSig block hash v) (hv : v < 69633)
    (hc : k < 31 → Nat.testBit c p = shaSig block hash (34817 + b)) (hb : b < 34816) :
    ∃ w, L = [w] ∧ Nat.testBit t p = shaSig block hash w ∧ w < 69633 := by
  unfold shaSum at h
  cases e1 : Nat.beq t s with
  | true =>
    rw [e1] at h
    cases h
    exact ⟨v, rfl, by rw [Nat.eq_of_beq_eq_true e1, hs], hv⟩
  | false =>
    rw [e1, bsel_false] at h
    cases e2 : Nat.beq t c with
    | false => rw [e2] at h; cases h
    | true =>
      rw [e2, bsel_true] at h
      by_cases hk : k < 31
      · rw [blt_of_lt hk] at h
        cases h
        refine ⟨34817 + b, rfl, by rw [Nat.eq_of_beq_eq_true e2, hc hk], ?_⟩
        have hne : b < 34816 := hb
        omega
      · rw [blt_of_not hk] at h
        cases h

/-- Below the lowest one of the constant, the sum with the constant has the bits of the word. -/
theorem sha_alias (b : Nat) (hb : b < 34816) (h11 : b / 32 % 16 = 11) (hu : b / 32 / 16 < 64)
    (hc : shaKTree.leaf (b / 32 / 16) % 2 ^ (b % 32 + 1) = 0) :
    shaSig block hash (b + 32) = (shaVal block hash (b / 32)).getLsbD (b % 32) := by
  have hk : b % 32 < 32 := Nat.mod_lt _ (by norm_num)
  have hb' : b + 32 < 34816 := by omega
  have hop : shaOp (b / 32 + 1) = .addk (b / 32) (shaKTree.leaf (b / 32 / 16)) := by
    have e1 : Nat.div (b / 32 + 1) 16 = b / 32 / 16 := by
      change (b / 32 + 1) / 16 = _
      omega
    have e2 : Nat.mod (b / 32 + 1) 16 = 12 := by
      change (b / 32 + 1) % 16 = _
      omega
    have e3 : shaNum (b / 32 / 16) 11 = b / 32 := by
      change 16 * (b / 32 / 16) + 11 = _
      omega
    rw [shaOp, e1, e2]
    change shaIf 0 64 (b / 32 / 16) (.addk (shaNum (b / 32 / 16) 11) (shaKTree.leaf (b / 32 / 16))) = _
    rw [e3]
    unfold shaIf
    rw [blt_of_lt hu]
    rfl
  have hh := shaOp_holds (block := block) (hash := hash) (b / 32 + 1)
  rw [hop] at hh
  simp only [ShaOp.Holds] at hh
  have hz : ∀ k, k ≤ b % 32 + 1 → shaKTree.leaf (b / 32 / 16) % 2 ^ k = 0 := fun k hk' => by
    rw [← Nat.mod_mod_of_dvd _ (pow_dvd_pow 2 hk'), hc, Nat.zero_mod]
  have hbit : (shaKTree.leaf (b / 32 / 16)).testBit (b % 32) = false := by
    have : (shaKTree.leaf (b / 32 / 16) % 2 ^ (b % 32 + 1)).testBit (b % 32)
        = (shaKTree.leaf (b / 32 / 16)).testBit (b % 32) := by
      rw [Nat.testBit_mod_two_pow]
      simp
    rw [← this, hc, Nat.zero_testBit]
  rw [shaSig_self _ hb', show (b + 32) / 32 = b / 32 + 1 by omega, show (b + 32) % 32 = b % 32 by omega, hh,
    add_bit _ _ _ hk, carry_low _ _ _ (hz _ (by omega)) hk, getLsbD_ofNat' _ _ hk, hbit]
  simp

theorem shaOp_eleven (n : Nat) (h : n % 16 = 11) (h' : shaOp n ≠ .none) : n / 16 < 64 := by
  by_contra hu
  apply h'
  have e : Nat.mod n 16 = 11 := h
  rw [shaOp, e]
  change shaIf 0 64 (n / 16) _ = _
  unfold shaIf
  rw [blt_of_not hu]
  rfl

theorem shaOut_sound (b t : Nat) (L : List Nat) (h : shaOut b t = some L) :
    ∃ w, L = [w] ∧ Nat.testBit t (shaPos block hash b) = shaSig block hash w ∧ w < 69633 := by
  have hk : b % 32 < 32 := Nat.mod_lt _ (by norm_num)
  have hh := shaOp_holds (block := block) (hash := hash) (b / 32)
  change ShaOp.rec (motive := fun _ => Option (List Nat)) _ _ _ _ _ _ _ (shaOp (b / 32)) = some L at h
  cases e : shaOp (b / 32) with
  | none => rw [e] at h; cases h
  | rot => rw [e] at h; cases h
  | shf => rw [e] at h; cases h
  | add x y =>
    have hne : shaOp (b / 32) ≠ .none := by rw [e]; simp
    have hb := box_lt hne
    rw [e] at h hh
    simp only [ShaOp.Holds] at hh
    have hcar : ∀ k, shaCarry block hash (b / 32) k
        = BitVec.carry k (shaVal block hash x) (shaVal block hash y) false := fun k => by
      unfold shaCarry
      rw [e]
    have hbit := add_bit (shaVal block hash x) (shaVal block hash y) (b % 32) hk
    rw [← hcar, ← hh] at hbit
    have hnext : b % 32 < 31 → shaSig block hash (34817 + b) = Bool.atLeastTwo
        ((shaVal block hash x).getLsbD (b % 32)) ((shaVal block hash y).getLsbD (b % 32))
        (shaCarry block hash (b / 32) (b % 32)) := fun h31 => by
      rw [shaSig_carry_succ b hb h31, hcar, hcar, BitVec.carry_succ]
    have hpos : shaPos block hash b = shaIdx ((shaVal block hash x).getLsbD (b % 32))
        ((shaVal block hash y).getLsbD (b % 32)) (shaCarry block hash (b / 32) (b % 32)) := by
      unfold shaPos
      rw [e]
    -- the signal for the sum
    have hsig : ∀ m, m = b % 32 + 1 → ∀ v, bsel (Nat.beq (Nat.mod (b / 32) 16) 11)
        (bsel (Nat.beq (Nat.mod (shaKTree.leaf (Nat.div (b / 32) 16)) (2 ^ m)) 0) (b + 32) b) b = v →
        shaSig block hash v = (shaVal block hash (b / 32)).getLsbD (b % 32) ∧ v < 69633 := by
      intro m hm v hv
      cases e1 : Nat.beq (Nat.mod (b / 32) 16) 11 with
      | false =>
        rw [e1] at hv
        cases hv
        exact ⟨shaSig_self b hb, by change b < _; omega⟩
      | true =>
        rw [e1, bsel_true] at hv
        have h11 : b / 32 % 16 = 11 := Nat.eq_of_beq_eq_true e1
        cases e2 : Nat.beq (Nat.mod (shaKTree.leaf (Nat.div (b / 32) 16)) (2 ^ m)) 0 with
        | false =>
          rw [e2] at hv
          cases hv
          exact ⟨shaSig_self b hb, by change b < _; omega⟩
        | true =>
          rw [e2] at hv
          cases hv
          subst hm
          exact ⟨sha_alias b hb h11 (shaOp_eleven _ h11 hne) (Nat.eq_of_beq_eq_true e2),
            by change b + 32 < _; omega⟩
    cases e0 : Nat.beq (b % 32) 0 with
    | true =>
      have h0 : b % 32 = 0 := Nat.eq_of_beq_eq_true e0
      change bsel (Nat.beq (b % 32) 0) (shaSum b (b % 32) 0x66 _ 0x88 t) _ = some L at h
      rw [e0, bsel_true] at h
      have hc0 : shaCarry block hash (b / 32) (b % 32) = false := by
        rw [hcar, h0]
        simp
      rw [hc0] at hbit hnext hpos
      obtain ⟨g1, g2⟩ := hsig 1 (by omega) _ rfl
      refine shaSum_sound h ?_ g2 ?_ hb
      · rw [hpos, idx_sum0, ← hbit]
        exact g1.symm
      · intro h31
        rw [hpos, idx_maj0, hnext h31]
    | false =>
      change bsel (Nat.beq (b % 32) 0) _ (shaSum b (b % 32) 0x96 _ 0xE8 t) = some L at h
      rw [e0, bsel_false] at h
      obtain ⟨g1, g2⟩ := hsig (b % 32 + 1) rfl _ rfl
      refine shaSum_sound h ?_ g2 ?_ hb
      · rw [hpos, idx_sum, ← hbit]
        exact g1.symm
      · intro h31
        rw [hpos, idx_maj, hnext h31]
  | ch x y z =>
    have hb := box_lt (b := b) (by rw [e]; simp)
    rw [e] at h hh
    simp only [ShaOp.Holds] at hh
    change bsel (Nat.beq t 0xD8) (some [b]) none = some L at h
    cases e1 : Nat.beq t 0xD8 with
    | false => rw [e1] at h; cases h
    | true =>
      rw [e1] at h
      cases h
      refine ⟨b, rfl, ?_, by omega⟩
      unfold shaPos
      rw [e, Nat.eq_of_beq_eq_true e1, shaSig_self b hb, hh]
      simp only [ch, idx_ch, BitVec.getLsbD_xor, BitVec.getLsbD_and, BitVec.getLsbD_not, hk, decide_true,
        Bool.true_and]
  | maj x y z =>
    have hb := box_lt (b := b) (by rw [e]; simp)
    rw [e] at h hh
    simp only [ShaOp.Holds] at hh
    change bsel (Nat.beq t 0xE8) (some [b]) none = some L at h
    cases e1 : Nat.beq t 0xE8 with
    | false => rw [e1] at h; cases h
    | true =>
      rw [e1] at h
      cases h
      refine ⟨b, rfl, ?_, by omega⟩
      unfold shaPos
      rw [e, Nat.eq_of_beq_eq_true e1, shaSig_self b hb, hh]
      simp only [maj, idx_maj, BitVec.getLsbD_xor, BitVec.getLsbD_and]
      cases (shaVal block hash x).getLsbD (b % 32) <;> cases (shaVal block hash y).getLsbD (b % 32) <;>
        cases (shaVal block hash z).getLsbD (b % 32) <;> rfl
  | addk x c =>
    have hb := box_lt (b := b) (by rw [e]; simp)
    rw [e] at h hh
    simp only [ShaOp.Holds] at hh
    have hcar : ∀ k, shaCarry block hash (b / 32) k
        = BitVec.carry k (shaVal block hash x) (BitVec.ofNat 32 c) false := fun k => by
      unfold shaCarry
      rw [e]
    have hbit := add_bit (shaVal block hash x) (BitVec.ofNat 32 c) (b % 32) hk
    rw [← hcar, ← hh, getLsbD_ofNat' c _ hk] at hbit
    have hnext : b % 32 < 31 → shaSig block hash (34817 + b) = Bool.atLeastTwo
        ((shaVal block hash x).getLsbD (b % 32)) (c.testBit (b % 32))
        (shaCarry block hash (b / 32) (b % 32)) := fun h31 => by
      rw [shaSig_carry_succ b hb h31, hcar, hcar, BitVec.carry_succ, getLsbD_ofNat' c _ hk]
    have hpos : shaPos block hash b = shaIdx ((shaVal block hash x).getLsbD (b % 32))
        false (shaCarry block hash (b / 32) (b % 32)) := by
      unfold shaPos
      rw [e]
    have htest : Nat.beq (Nat.mod (Nat.shiftRight c (b % 32)) 2) 1 = c.testBit (b % 32) := by
      rw [Nat.testBit_eq_decide_div_mod_eq]
      have e : Nat.mod (Nat.shiftRight c (b % 32)) 2 = c / 2 ^ (b % 32) % 2 := by
        rw [← Nat.shiftRight_eq_div_pow]
        rfl
      rw [e]
      rcases Nat.mod_two_eq_zero_or_one (c / 2 ^ (b % 32)) with h | h <;> rw [h] <;> rfl
    change bsel (Nat.beq (c % 2 ^ (b % 32)) 0)
      (bsel (Nat.beq t 0x55) (bsel (Nat.beq (Nat.mod (Nat.shiftRight c (b % 32)) 2) 1) (some [b]) none) none)
      (bsel (Nat.beq (Nat.mod (Nat.shiftRight c (b % 32)) 2) 1) (shaSum b (b % 32) 0xA5 b 0xFA t)
        (shaSum b (b % 32) 0x5A b 0xA0 t)) = some L at h
    rw [htest] at h
    cases e0 : Nat.beq (c % 2 ^ (b % 32)) 0 with
    | true =>
      rw [e0, bsel_true] at h
      cases e1 : Nat.beq t 0x55 with
      | false => rw [e1] at h; cases h
      | true =>
        rw [e1, bsel_true] at h
        cases e2 : c.testBit (b % 32) with
        | false => rw [e2] at h; cases h
        | true =>
          rw [e2] at h
          cases h
          refine ⟨b, rfl, ?_, by omega⟩
          rw [hcar, carry_low _ c _ (Nat.eq_of_beq_eq_true e0) hk] at hbit
          rw [hcar, carry_low _ c _ (Nat.eq_of_beq_eq_true e0) hk] at hpos
          rw [hpos, Nat.eq_of_beq_eq_true e1, shaSig_self b hb, hbit, e2]
          cases (shaVal block hash x).getLsbD (b % 32) <;> decide
    | false =>
      rw [e0, bsel_false] at h
      cases e2 : c.testBit (b % 32) with
      | true =>
        rw [e2, bsel_true] at h
        rw [e2] at hbit hnext
        refine shaSum_sound h ?_ (by omega) ?_ hb
        · rw [hpos, shaSig_self b hb, hbit]
          cases (shaVal block hash x).getLsbD (b % 32) <;> cases shaCarry block hash (b / 32) (b % 32) <;> decide
        · intro h31
          rw [hpos, hnext h31]
          cases (shaVal block hash x).getLsbD (b % 32) <;> cases shaCarry block hash (b / 32) (b % 32) <;> decide
      | false =>
        rw [e2, bsel_false] at h
        rw [e2] at hbit hnext
        refine shaSum_sound h ?_ (by omega) ?_ hb
        · rw [hpos, shaSig_self b hb, hbit]
          cases (shaVal block hash x).getLsbD (b % 32) <;> cases shaCarry block hash (b / 32) (b % 32) <;> decide
        · intro h31
          rw [hpos, hnext h31]
          cases (shaVal block hash x).getLsbD (b % 32) <;> cases shaCarry block hash (b / 32) (b % 32) <;> decide

theorem sha_sound : shaCert.Sound (shaSig block hash) (shaPos block hash) where
  one := by
    change shaPar block hash (shaNf 69632) = true
    rw [shaNf_par _ (by norm_num), shaSig, if_neg (by norm_num), if_neg (by norm_num)]
  full b := by
    change Nat.testBit 255 _ = true
    have := shaPos_lt (block := block) (hash := hash) b
    interval_cases shaPos block hash b <;> decide
  inp b v n h := shaIn_sound b v n h
  out b n L h := by
    obtain ⟨w, rfl, h1, h2⟩ := shaOut_sound (block := block) (hash := hash) b n L h
    rw [WireCert.mask_single]
    exact h1.trans (shaNf_par w h2).symm

end

end Verif
