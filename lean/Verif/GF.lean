import Verif.Basic
import Verif.GFTablesLemmas
import Mathlib.Algebra.Ring.InjSurj

/-!
# Model of `src/math/galois/mod.rs`

`GF W` is the type of in-range field elements.  Its multiplication and division are defined by
polynomial arithmetic (`gmul`, `ginv`); `GF.mul_refines`/`GF.div_refines` below say that the C log-table
functions return exactly these values, so the instance *is* the arithmetic the Rust code performs
after a successful `init`.
-/

namespace Verif

open Galois

/-- Supported widths ("W is expected to be less than 30", `src/math/galois/mod.rs:12`). -/
class Width (W : Nat) : Prop where
  one_le : 1 ≤ W
  le_29 : W ≤ 29

instance : Width 2 := ⟨by omega, by omega⟩
instance : Width 3 := ⟨by omega, by omega⟩
instance : Width 4 := ⟨by omega, by omega⟩
instance : Width 8 := ⟨by omega, by omega⟩
instance : Width 18 := ⟨by omega, by omega⟩

/-- `struct GF<const W: u8>(u32)`, `src/math/galois/mod.rs:14`, restricted to in-range values. -/
@[ext] structure GF (W : Nat) where
  val : Nat
  lt : val < 2 ^ W
deriving DecidableEq

namespace GF

variable {W : Nat}

instance : Zero (GF W) := ⟨⟨0, by positivity⟩⟩

/-- `AddAssign`/`Add`, `src/math/galois/mod.rs:131-180`: xor. -/
instance : Add (GF W) := ⟨fun a b => ⟨a.val ^^^ b.val, Nat.xor_lt_two_pow a.lt b.lt⟩⟩

/-- `Sub` is `Add`, `src/math/galois/mod.rs:182-230`. -/
instance : Sub (GF W) := ⟨fun a b => a + b⟩

instance : Neg (GF W) := ⟨fun a => a⟩

variable [hW : Width W]

theorem W_ne_zero : W ≠ 0 := by have := hW.one_le; omega

instance : One (GF W) := ⟨⟨1, Nat.one_lt_two_pow W_ne_zero⟩⟩

instance : Mul (GF W) := ⟨fun a b => ⟨gmul W a.val b.val, gmul_lt W _ _ W_ne_zero b.lt⟩⟩

/-- Inverse of a non-zero element. -/
def inv' (a : GF W) : GF W := ⟨ginv W a.val, gpow_lt W _ _ W_ne_zero a.lt⟩

instance : Pow (GF W) ℕ := ⟨fun a n => ⟨gpow W a.val n, gpow_lt W _ _ W_ne_zero a.lt⟩⟩

instance : SMul ℕ (GF W) := ⟨fun n a => if n % 2 = 1 then a else 0⟩
instance : SMul ℤ (GF W) := ⟨fun n a => if n % 2 = 1 then a else 0⟩
instance : NatCast (GF W) := ⟨fun n => if n % 2 = 1 then 1 else 0⟩
instance : IntCast (GF W) := ⟨fun n => if n % 2 = 1 then 1 else 0⟩

/-- The residue class of an element. -/
noncomputable def toK (a : GF W) : K W := Galois.val W a.val

omit hW in
theorem toK_injective : Function.Injective (toK (W := W)) := by
  intro a b h
  exact GF.ext (val_inj W _ _ a.lt b.lt h)

omit hW in
theorem toK_add_self (x : GF W) : toK x + toK x = 0 := by
  unfold toK
  rw [← val_xor, Nat.xor_self, val_zero]

theorem natCast_K (n : ℕ) : (n : K W) = if n % 2 = 1 then 1 else 0 := by
  have h2 : (2 : K W) = 0 := by
    have := toK_add_self (1 : GF W)
    have h1 : toK (1 : GF W) = 1 := val_one W
    rw [h1] at this
    rw [← one_add_one_eq_two]; exact this
  conv_lhs => rw [← Nat.div_add_mod n 2]
  push_cast
  rw [h2, zero_mul, zero_add]
  rcases Nat.mod_two_eq_zero_or_one n with h | h <;> simp [h]

theorem intCast_K (n : ℤ) : (n : K W) = if n % 2 = 1 then 1 else 0 := by
  have h2 : (2 : K W) = 0 := by
    have := natCast_K (W := W) 2
    simpa using this
  conv_lhs => rw [← Int.mul_ediv_add_emod n 2]
  push_cast
  rw [h2, zero_mul, zero_add]
  rcases Int.emod_two_eq_zero_or_one n with h | h <;> simp [h]

noncomputable instance instCommRing : CommRing (GF W) :=
  Function.Injective.commRing toK toK_injective
    (val_zero W) (val_one W)
    (fun _ _ => val_xor W _ _)
    (fun a b => val_gmul W _ _ W_ne_zero a.lt b.lt)
    (fun a => by
      have := toK_add_self a
      exact eq_neg_of_add_eq_zero_left this)
    (fun a b => by
      have h1 : toK (a - b) = toK a + toK b := val_xor W _ _
      rw [h1, sub_eq_add_neg, ← eq_neg_of_add_eq_zero_left (toK_add_self b)])
    (fun n a => by
      have h : n • a = if n % 2 = 1 then a else 0 := rfl
      rw [h, nsmul_eq_mul, natCast_K]
      split
      · simp
      · simp; exact val_zero W)
    (fun n a => by
      have h : n • a = if n % 2 = 1 then a else 0 := rfl
      rw [h, zsmul_eq_mul, intCast_K]
      split
      · simp
      · simp; exact val_zero W)
    (fun a n => val_gpow W _ _ W_ne_zero a.lt)
    (fun n => by
      have h : (n : GF W) = if n % 2 = 1 then 1 else 0 := rfl
      rw [h, natCast_K]
      split
      · exact val_one W
      · exact val_zero W)
    (fun n => by
      have h : (n : GF W) = if n % 2 = 1 then 1 else 0 := rfl
      rw [h, intCast_K]
      split
      · exact val_one W
      · exact val_zero W)

omit hW in
theorem zero_val : (0 : GF W).val = 0 := rfl
theorem one_val : (1 : GF W).val = 1 := rfl
omit hW in
theorem add_val (a b : GF W) : (a + b).val = a.val ^^^ b.val := rfl
omit hW in
theorem sub_val (a b : GF W) : (a - b).val = a.val ^^^ b.val := rfl
theorem mul_val (a b : GF W) : (a * b).val = gmul W a.val b.val := rfl

omit hW in
theorem add_self (a : GF W) : a + a = 0 := by
  apply GF.ext; rw [add_val, Nat.xor_self]; rfl

theorem toK_mul (a b : GF W) : toK (a * b) = toK a * toK b :=
  val_gmul W _ _ W_ne_zero a.lt b.lt

theorem mul_inv_cancel' (a : GF W) (h : a ≠ 0) : a * inv' a = 1 := by
  have ha : a.val ≠ 0 := fun h0 => h (GF.ext h0)
  obtain ⟨_, h2⟩ := ginv_spec hW.one_le (by have := hW.le_29; omega) ha a.lt
  apply toK_injective
  rw [toK_mul]
  exact h2.trans (val_one W).symm

/-- The field of the supported width.  The inverse of zero is zero by Mathlib's convention; the code
returns `u32::MAX` there (see `Props/Field.lean`). -/
noncomputable instance instField : Field (GF W) where
  inv a := if a = 0 then 0 else inv' a
  exists_pair_ne := ⟨0, 1, fun h => by have := congrArg GF.val h; exact absurd this (by change ¬ 0 = 1; omega)⟩
  mul_inv_cancel a h := by
    rw [if_neg h]; exact mul_inv_cancel' a h
  inv_zero := if_pos rfl
  nnqsmul := _
  nnqsmul_def := fun _ _ => rfl
  qsmul := _
  qsmul_def := fun _ _ => rfl

/-- `From<u32>` below `ORDER`. -/
def ofU32 (v : Nat) : GF W := ⟨v % 2 ^ W, Nat.mod_lt _ (by positivity)⟩

noncomputable instance instCodeField : CodeField (GF W) where
  order := 2 ^ W
  ofU32 := ofU32
  one_lt_order := Nat.one_lt_two_pow W_ne_zero
  ofU32_inj a b ha hb h := by
    have := congrArg GF.val h
    simpa [ofU32, Nat.mod_eq_of_lt ha, Nat.mod_eq_of_lt hb] using this
  ofU32_zero := GF.ext (by simp [ofU32]; rfl)
  ofU32_one := GF.ext (by
    simp only [ofU32]; exact Nat.mod_eq_of_lt (Nat.one_lt_two_pow W_ne_zero))
  add_self := add_self

/-- The C multiplication returns the field product. -/
theorem mul_refines {t : Tables} (ht : GoodTables W t) (a b : GF W) :
    logtableMultiply W t a.val b.val = .val (a * b).val :=
  multiply_spec hW.one_le hW.le_29 ht a.lt b.lt

/-- The C division returns the field quotient. -/
theorem div_refines {t : Tables} (ht : GoodTables W t) (a b : GF W) (hb : b ≠ 0) :
    logtableDivide W t a.val b.val = .val (a / b).val := by
  have hb0 : b.val ≠ 0 := fun h0 => hb (GF.ext h0)
  rw [divide_spec hW.one_le hW.le_29 ht a.lt b.lt hb0, div_eq_mul_inv]
  congr 1
  have : (b⁻¹ : GF W) = inv' b := if_neg hb
  rw [this]
  rfl

end GF

/-! ## Conversion and serialization -/

/-- `impl From<u32> for GF<W>`, `src/math/galois/mod.rs:60-70`, on the raw integer. -/
def rustFromU32 (W : Nat) (t : Tables) (v : Nat) : Outcome Nat :=
  if 2 ^ W ≤ v then logtableMultiply W t v 1 else .val v

/-- `GF::NUM_BYTES`, `src/math/galois/mod.rs:21`. -/
def numBytes (W : Nat) : Nat := (W + 7) / 8

/-- The first `k` little-endian bytes of `v` (`to_le_bytes`). -/
def leBytes : Nat → Nat → List Nat
  | 0, _ => []
  | k + 1, v => v % 256 :: leBytes k (v / 256)

/-- `from_le_bytes`. -/
def ofLeBytes : List Nat → Nat
  | [] => 0
  | b :: bs => b + 256 * ofLeBytes bs

/-- `Serialize for GF<W>`, `src/math/galois/mod.rs:302-314`: the first `NUM_BYTES` of the four
little-endian bytes, as a tuple (no length prefix in bincode). -/
def gfSerialize (W : Nat) (v : Nat) : List Nat := (leBytes 4 v).take (numBytes W)

/-- `Deserialize for GF<W>`, `src/math/galois/mod.rs:316-347`: reads `NUM_BYTES` bytes into the low
bytes of a zeroed `u32`, returns the value and the unread input; `none` at end of input. -/
def gfDeserialize (W : Nat) (input : List Nat) : Option (Nat × List Nat) :=
  if numBytes W ≤ input.length then
    some (ofLeBytes ((input.take (numBytes W)) ++ List.replicate (4 - numBytes W) 0),
      input.drop (numBytes W))
  else none

/-- `bincode::serialize(&Vec<GF<W>>)`: `u64` little-endian length, then the elements. -/
def vecSerialize (W : Nat) (vs : List Nat) : List Nat :=
  leBytes 8 vs.length ++ vs.flatMap (gfSerialize W)

/-- Element loop of `bincode::deserialize::<Vec<GF<W>>>`. -/
def elemsDeserialize (W : Nat) : Nat → List Nat → Option (List Nat)
  | 0, _ => some []
  | k + 1, input =>
    (gfDeserialize W input).bind fun (v, rest) =>
      (elemsDeserialize W k rest).map fun vs => v :: vs

/-- `bincode::deserialize::<Vec<GF<W>>>` (trailing bytes are allowed). -/
def vecDeserialize (W : Nat) (input : List Nat) : Option (List Nat) :=
  if 8 ≤ input.length then elemsDeserialize W (ofLeBytes (input.take 8)) (input.drop 8) else none

/-! ## Process-wide state -/

/-- The statics of `src/math/galois/mod.rs:29-52`.  Rust creates one copy of a `static` inside a
generic function, shared by all instantiations: `once` is `INIT`, `dist` is `DIST` (the width whose
range it was created with).  `tables` is `galois_log_tables`/`galois_ilog_tables`. -/
structure Proc where
  once : Bool
  dist : Option Nat
  tables : Nat → Option Tables

/-- State at process start. -/
def Proc.start : Proc := ⟨false, none, fun _ => none⟩

/-- `GF::<W>::init()`, lines 36-52; the result is `true` for `Ok`. -/
def Proc.init (W : Nat) (s : Proc) : Outcome (Proc × Bool) :=
  if s.once then .val (s, true)
  else
    (createLogTables W).bind fun r =>
      match r with
      | some t => .val (⟨true, s.dist, fun w => if w = W then some t else s.tables w⟩, true)
      | none => .val (⟨true, s.dist, s.tables⟩, false)

/-- The width whose range `GF::<W>::rand` samples from, lines 29-33 and 55-57. -/
def Proc.distWidth (W : Nat) (s : Proc) : Nat := s.dist.getD W

/-- The state after `GF::<W>::rand`. -/
def Proc.afterRand (W : Nat) (s : Proc) : Proc := { s with dist := some (s.distWidth W) }

/-- `a * b` in `GF<W>`: a null table pointer is undefined behaviour (unless an operand is 0). -/
def Proc.mul (W : Nat) (s : Proc) (x y : Nat) : Outcome Nat :=
  match s.tables W with
  | some t => logtableMultiply W t x y
  | none => if x = 0 ∨ y = 0 then .val 0 else .ub

/-- `a / b` in `GF<W>`. -/
def Proc.div (W : Nat) (s : Proc) (x y : Nat) : Outcome Nat :=
  match s.tables W with
  | some t => logtableDivide W t x y
  | none => if y = 0 then .val 0xFFFFFFFF else if x = 0 then .val 0 else .ub

/-- Calls a program may make. `rand W v`: `GF::<W>::rand` was called and returned `v`. -/
inductive FieldCall where
  | init (W : Nat)
  | rand (W v : Nat)
  | mul (W x y : Nat)
  | div (W x y : Nat)

/-- One call; the result is the returned number (1/0 for `Ok`/`Err` of `init`).  `rand W v` is only
possible if `v` is in the range sampled from; impossible calls are reported as `none`. -/
def Proc.call (s : Proc) : FieldCall → Option (Outcome (Proc × Nat))
  | .init W => some ((s.init W).bind fun (s', ok) => .val (s', if ok then 1 else 0))
  | .rand W v => if v < 2 ^ s.distWidth W then some (.val (s.afterRand W, v)) else none
  | .mul W x y => some ((s.mul W x y).bind fun v => .val (s, v))
  | .div W x y => some ((s.div W x y).bind fun v => .val (s, v))

end Verif
