import Verif.GFSerLemmas

/-!
# Properties C01-C07: the field `GF<W>`
-/

open Polynomial

namespace Verif.Props

open Verif Verif.Galois

/-! ### C01: table initialisation -/

/-- C01. For every width 1..29 the first `init` of a process terminates normally with `Ok`, without
the self-check firing (`exit`), and without any out-of-bounds access, read of uninitialised memory or
`int` overflow (`ub`); afterwards the tables of that width exist. -/
theorem C01_init_ok (W : Nat) (h1 : 1 ≤ W) (h2 : W ≤ 29) :
    ∃ t, Proc.start.init W =
      .val (⟨true, none, fun w => if w = W then some t else none⟩, true) := by
  obtain ⟨t, ht, _⟩ := createLogTables_good h1 h2
  exact ⟨t, by simp [Proc.init, Proc.start, ht, Outcome.bind]⟩

/-- C01. Widths above 30 are refused without touching memory. -/
theorem C01_init_err (W : Nat) (h : 31 ≤ W) :
    Proc.start.init W = .val (⟨true, none, fun _ => none⟩, false) := by
  simp [Proc.init, Proc.start, createLogTables, show 30 < W by omega, Outcome.bind]

/-- C01. Width 30, accepted by the C code, overflows an `int` index. -/
theorem C01_init_thirty : Proc.start.init 30 = .ub := by
  have key : ∀ W, createLogTables W = .ub → Proc.start.init W = .ub := by
    intro W h
    simp [Proc.init, Proc.start, h, Outcome.bind]
  exact key 30 createLogTables_thirty

example : (1 ≤ 18 ∧ 18 ≤ 29) ∧ (31 : Nat) ≤ 32 := by omega

/-! ### C02: multiplication is polynomial multiplication modulo the table's polynomial -/

/-- C02. Whatever the operands, the multiplication function of an initialised width returns an
in-range value which, as a polynomial over GF(2), is the product of the operands modulo the
polynomial in the table (with its leading term `X^W`). -/
theorem C02_mul_is_poly_mul (W : Nat) (h1 : 1 ≤ W) (h2 : W ≤ 29) :
    ∃ t, createLogTables W = .val (some t) ∧
      ∀ x y, x < 2 ^ W → y < 2 ^ W → ∃ z, logtableMultiply W t x y = .val z ∧ z < 2 ^ W ∧
        toPoly z = (toPoly x * toPoly y) %ₘ (toPoly (primPoly W ||| 2 ^ W)) := by
  obtain ⟨t, ht, hg⟩ := createLogTables_good h1 h2
  have hw : W ≠ 0 := by omega
  refine ⟨t, ht, fun x y hx hy => ⟨gmul W x y, multiply_spec h1 h2 hg hx hy, gmul_lt W x y hw hy, ?_⟩⟩
  have hv := val_gmul W x y hw hx hy
  unfold val at hv
  rw [← map_mul, AdjoinRoot.mk_eq_mk] at hv
  have hmod : (toPoly (gmul W x y)) %ₘ modulus W = (toPoly x * toPoly y) %ₘ modulus W := by
    rw [← sub_eq_zero, ← sub_modByMonic, (modByMonic_eq_zero_iff_dvd (monic_modulus W)).2 hv]
  rw [(modByMonic_eq_self_iff (monic_modulus W)).2] at hmod
  · exact hmod
  · rw [degree_modulus]
    exact degree_toPoly_lt (gmul_lt W x y hw hy)

/-- The coefficients of `toPoly` are the bits. -/
theorem C02_toPoly_coeff (b i : Nat) : (toPoly b).coeff i = if b.testBit i then 1 else 0 :=
  coeff_toPoly b i

/-- The reduced product is really reduced: the modulus has degree `W`. -/
theorem C02_modulus_degree (W : Nat) : (toPoly (primPoly W ||| 2 ^ W)).degree = W :=
  degree_modulus W

/-- x^3 * x^2 = x^5 = x^2 + x in GF(16). -/
example : gmul 4 8 4 = 6 := by decide +kernel

/-! ### C03: field laws -/

/-- C03. The laws of a field, stated for the functions the code calls: `M x y z` means that
multiplying `x` and `y` returns `z`, `D` likewise for division; addition and subtraction are xor. -/
theorem C03_field_laws (W : Nat) (h1 : 1 ≤ W) (h2 : W ≤ 29) :
    ∃ t, createLogTables W = .val (some t) ∧
      let M := fun x y z => logtableMultiply W t x y = .val z
      let D := fun x y z => logtableDivide W t x y = .val z
      let R := fun x => x < 2 ^ W
      (∀ x y, R x → R y → R (x ^^^ y)) ∧
      (∀ x y, R x → R y → ∃ z, M x y z ∧ R z) ∧
      (∀ x y, R x → R y → y ≠ 0 → ∃ q, D x y q ∧ R q ∧ M q y x) ∧
      (∀ x y z, R x → R y → (M x y z ↔ M y x z)) ∧
      (∀ x y z xy yz, R x → R y → R z → M x y xy → M y z yz → ∃ r, M xy z r ∧ M x yz r) ∧
      (∀ x y z a b, R x → R y → R z → M x y a → M x z b → M x (y ^^^ z) (a ^^^ b)) ∧
      (∀ x, R x → M x 1 x) ∧ (∀ x, M x 0 0) ∧
      (∀ x, x ^^^ 0 = x) ∧ (∀ x : Nat, x ^^^ x = 0) ∧
      (∀ x y : Nat, x ^^^ y = y ^^^ x) ∧ (∀ x y z : Nat, (x ^^^ y) ^^^ z = x ^^^ (y ^^^ z)) := by
  have : Width W := ⟨h1, h2⟩
  obtain ⟨t, ht, hg⟩ := createLogTables_good h1 h2
  refine ⟨t, ht, ?_⟩
  intro M D R
  have hM : ∀ x y z (hx : R x) (hy : R y), M x y z ↔ ((⟨x, hx⟩ : GF W) * ⟨y, hy⟩).val = z := by
    intro x y z hx hy
    have := GF.mul_refines hg (⟨x, hx⟩ : GF W) ⟨y, hy⟩
    simp only [] at this
    show logtableMultiply W t x y = .val z ↔ _
    rw [this]
    constructor
    · intro h; injection h
    · intro h; rw [h]
  refine ⟨fun x y hx hy => Nat.xor_lt_two_pow hx hy, ?_, ?_, ?_, ?_, ?_, ?_, ?_, Nat.xor_zero,
    Nat.xor_self, Nat.xor_comm, Nat.xor_assoc⟩
  · intro x y hx hy
    exact ⟨_, (hM x y _ hx hy).2 rfl, GF.lt _⟩
  · intro x y hx hy hy0
    have hne : (⟨y, hy⟩ : GF W) ≠ 0 := fun h => hy0 (congrArg GF.val h)
    refine ⟨_, GF.div_refines hg (⟨x, hx⟩ : GF W) ⟨y, hy⟩ hne, GF.lt _, ?_⟩
    refine (hM _ y x (GF.lt _) hy).2 ?_
    exact congrArg GF.val (div_mul_cancel₀ (⟨x, hx⟩ : GF W) hne)
  · intro x y z hx hy
    rw [hM x y z hx hy, hM y x z hy hx, mul_comm]
  · intro x y z xy yz hx hy hz h3 h4
    rw [hM _ _ _ hx hy] at h3
    rw [hM _ _ _ hy hz] at h4
    subst h3 h4
    refine ⟨((⟨x, hx⟩ : GF W) * ⟨y, hy⟩ * ⟨z, hz⟩).val, (hM _ z _ (GF.lt _) hz).2 rfl,
      (hM x _ _ hx (GF.lt _)).2 ?_⟩
    rw [mul_assoc]
  · intro x y z a b hx hy hz h3 h4
    rw [hM _ _ _ hx hy] at h3
    rw [hM _ _ _ hx hz] at h4
    subst h3 h4
    refine (hM x _ _ hx (Nat.xor_lt_two_pow hy hz)).2 ?_
    exact congrArg GF.val (mul_add (⟨x, hx⟩ : GF W) ⟨y, hy⟩ ⟨z, hz⟩)
  · intro x hx
    exact (hM x 1 x hx (Nat.one_lt_two_pow (by omega))).2 (congrArg GF.val (mul_one (⟨x, hx⟩ : GF W)))
  · intro x
    show logtableMultiply W t x 0 = .val 0
    simp [logtableMultiply]

/-- C03. The Lean field used by all the other theorems is the arithmetic of the code. -/
theorem C03_instance_is_code (W : Nat) [hW : Width W] :
    ∃ t, createLogTables W = .val (some t) ∧ ∀ a b : GF W,
      logtableMultiply W t a.val b.val = .val (a * b).val ∧
      (b ≠ 0 → logtableDivide W t a.val b.val = .val (a / b).val) ∧
      (a + b).val = a.val ^^^ b.val ∧ (a - b).val = a.val ^^^ b.val ∧
      (0 : GF W).val = 0 ∧ (1 : GF W).val = 1 := by
  obtain ⟨t, ht, hg⟩ := createLogTables_good hW.one_le hW.le_29
  exact ⟨t, ht, fun a b => ⟨GF.mul_refines hg a b, fun hb => GF.div_refines hg a b hb, rfl, rfl, rfl, rfl⟩⟩

/-- C03. The field has exactly `2^W` elements. -/
theorem C03_card (W : Nat) : Nat.card (GF W) = 2 ^ W := by
  have e : GF W ≃ Fin (2 ^ W) :=
    ⟨fun a => ⟨a.val, a.lt⟩, fun i => ⟨i.1, i.2⟩, fun _ => rfl, fun _ => rfl⟩
  rw [Nat.card_congr e, Nat.card_eq_fintype_card, Fintype.card_fin]

/-- C03. Division by zero is not trapped: it returns `u32::MAX`, which is not a field element for any
supported width. -/
theorem C03_div_zero (W : Nat) (h2 : W ≤ 29) (t : Tables) (x : Nat) :
    ∃ v, logtableDivide W t x 0 = .val v ∧ 2 ^ W ≤ v := by
  refine ⟨0xFFFFFFFF, by simp [logtableDivide], ?_⟩
  exact le_trans (Nat.pow_le_pow_right (by norm_num) h2) (by norm_num)

example : (⟨3, by norm_num⟩ : GF 4) * ⟨7, by norm_num⟩ = ⟨9, by norm_num⟩ := by decide +kernel

/-! ### C04: conversion from integers -/

/-- C04, the part that holds: below `ORDER` the conversion is the identity. -/
theorem C04_from_u32_partial (W v : Nat) (t : Tables) (hv : v < 2 ^ W) :
    rustFromU32 W t v = .val v := by
  simp [rustFromU32, Nat.not_le.2 hv]

/-- C04 is false: every value from `ORDER` on makes the conversion index the log table past its end,
for every supported width. -/
theorem C04_from_u32_false (W : Nat) (h1 : 1 ≤ W) (h2 : W ≤ 29) :
    ∃ t, createLogTables W = .val (some t) ∧ ∀ v, 2 ^ W ≤ v → rustFromU32 W t v = .ub := by
  obtain ⟨t, ht, hg⟩ := createLogTables_good h1 h2
  refine ⟨t, ht, fun v hv => ?_⟩
  have : 0 < 2 ^ W := by positivity
  rw [rustFromU32, if_pos hv, logtableMultiply, if_neg (by omega), Block.read, if_neg]
  · rfl
  · rw [hg.logSize]; omega

example : (2 : Nat) ^ 18 ≤ 262144 ∧ 262144 < 2 ^ 32 := by norm_num

/-! ### C05: element encoding -/

/-- C05. Every element is encoded in exactly `ceil(W/8)` bytes and decodes to itself, whatever bytes
follow. -/
theorem C05_roundtrip (W v : Nat) (hW : W ≤ 32) (hv : v < 2 ^ W) (rest : List Nat) :
    (gfSerialize W v).length = (W + 7) / 8 ∧ (∀ b ∈ gfSerialize W v, b < 256) ∧
      gfDeserialize W (gfSerialize W v ++ rest) = some (v, rest) := by
  obtain ⟨h1, h2⟩ := gf_roundtrip W v hW hv rest
  exact ⟨h1, fun b hb => leBytes_byte 4 v b (List.mem_of_mem_take hb), h2⟩

/-- C05, second half, holds when the width fills its bytes. -/
theorem C05_decode_in_range_partial (W : Nat) (h8 : W % 8 = 0) (input rest : List Nat)
    (v : Nat) (hb : ∀ b ∈ input, b < 256) (h : gfDeserialize W input = some (v, rest)) :
    v < 2 ^ W := by
  unfold gfDeserialize at h
  split at h
  · rename_i hlen
    simp only [Option.some.injEq, Prod.mk.injEq] at h
    rw [ofLeBytes_append, ofLeBytes_replicate_zero, mul_zero, add_zero] at h
    rw [← h.1]
    have := ofLeBytes_lt (input.take (numBytes W)) (fun b hb' => hb b (List.mem_of_mem_take hb'))
    rw [List.length_take, min_eq_left hlen] at this
    calc _ < 256 ^ numBytes W := this
      _ = 2 ^ W := by
        rw [show (256 : Nat) = 2 ^ 8 by norm_num, ← pow_mul]
        congr 1
        unfold numBytes; omega
  · simp at h

/-- C05, second half, is false in general: for the width 18 used by the programs, the bytes
`ff ff ff` are accepted as the non-element 16777215. -/
theorem C05_decode_in_range_false :
    ¬ ∀ (W : Nat) (input rest : List Nat) (v : Nat), 1 ≤ W → W ≤ 29 → (∀ b ∈ input, b < 256) →
      gfDeserialize W input = some (v, rest) → v < 2 ^ W := by
  intro h
  have := h 18 [255, 255, 255] [] 16777215 (by norm_num) (by norm_num) (by simp) (by decide +kernel)
  norm_num at this

example : gfSerialize 18 200000 = [64, 13, 3] ∧ gfDeserialize 18 [64, 13, 3, 7] = some (200000, [7]) := by
  decide +kernel

/-! ### C06: vector payloads -/

/-- C06. A payload holding `k` elements is `8 + NUM_BYTES * k` bytes long and decodes to the same
vector. -/
theorem C06_vec_roundtrip (W : Nat) (hW : W ≤ 32) (vs rest : List Nat) (hk : vs.length < 2 ^ 64)
    (hv : ∀ v ∈ vs, v < 2 ^ W) :
    (vecSerialize W vs).length = 8 + (W + 7) / 8 * vs.length ∧
      vecDeserialize W (vecSerialize W vs ++ rest) = some vs := by
  have hlen : (leBytes 8 vs.length).length = 8 := leBytes_length 8 _
  constructor
  · have : ∀ us : List Nat, (∀ v ∈ us, v < 2 ^ W) →
        (us.flatMap (gfSerialize W)).length = numBytes W * us.length := by
      intro us hus
      induction us with
      | nil => simp
      | cons u us ih =>
        rw [List.flatMap_cons, List.length_append, ih (fun x hx => hus x (by simp [hx])),
          (gf_roundtrip W u hW (hus u (by simp)) []).1, List.length_cons]
        ring
    rw [vecSerialize, List.length_append, hlen, this vs hv]
    rfl
  · unfold vecDeserialize vecSerialize
    rw [if_pos (by simp [hlen]), List.append_assoc]
    have h1 : (leBytes 8 vs.length ++ (vs.flatMap (gfSerialize W) ++ rest)).take 8
        = leBytes 8 vs.length := by
      conv_lhs => rw [← hlen]
      exact List.take_left
    have h2 : (leBytes 8 vs.length ++ (vs.flatMap (gfSerialize W) ++ rest)).drop 8
        = vs.flatMap (gfSerialize W) ++ rest := by
      conv_lhs => rw [← hlen]
      exact List.drop_left
    rw [h1, h2, ofLeBytes_leBytes 8 _ (lt_of_lt_of_eq hk (by norm_num)), elems_roundtrip W hW vs rest hv]

example : vecSerialize 18 [1, 262143] = [2, 0, 0, 0, 0, 0, 0, 0, 1, 0, 0, 255, 255, 3] := by
  decide +kernel

/-! ### C07: several widths in one process -/

/-- Run a list of calls from a state; `none` if some `rand` could not have returned what is claimed. -/
def runCalls (s : Proc) : List FieldCall → Option (Outcome (Proc × List Nat))
  | [] => some (.val (s, []))
  | c :: cs =>
    match s.call c with
    | none => none
    | some .exit => some .exit
    | some .ub => some .ub
    | some (.val (s', r)) =>
      match runCalls s' cs with
      | none => none
      | some .exit => some .exit
      | some .ub => some .ub
      | some (.val (s'', rs)) => some (.val (s'', r :: rs))

/-- A call of width `W` on in-range arguments. -/
def CallOf (W : Nat) : FieldCall → Prop
  | .init W' => W' = W
  | .rand W' _ => W' = W
  | .mul W' x y => W' = W ∧ x < 2 ^ W ∧ y < 2 ^ W
  | .div W' x y => W' = W ∧ x < 2 ^ W ∧ y < 2 ^ W ∧ y ≠ 0

/-- C07, the part that holds: a process that only uses one supported width and starts with `init` runs
every sequence of calls on in-range arguments without undefined behaviour, and every result is in
range. -/
theorem C07_single_width_partial (W : Nat) (h1 : 1 ≤ W) (h2 : W ≤ 29) (cs : List FieldCall)
    (hcs : ∀ c ∈ cs, CallOf W c) (o : Outcome (Proc × List Nat))
    (hrun : runCalls Proc.start (.init W :: cs) = some o) :
    ∃ s rs, o = .val (s, rs) ∧ rs.length = cs.length + 1 ∧ ∀ r ∈ rs, r < 2 ^ W := by
  have : Width W := ⟨h1, h2⟩
  obtain ⟨t, ht, hg⟩ := createLogTables_good h1 h2
  have h2w : 1 < 2 ^ W := Nat.one_lt_two_pow (by omega)
  have key : ∀ (cs : List FieldCall) (s : Proc), s.once = true → s.tables W = some t →
      (s.dist = none ∨ s.dist = some W) → (∀ c ∈ cs, CallOf W c) →
      ∀ o, runCalls s cs = some o →
      ∃ s' rs, o = .val (s', rs) ∧ rs.length = cs.length ∧ ∀ r ∈ rs, r < 2 ^ W := by
    intro cs
    induction cs with
    | nil =>
      intro s _ _ _ _ o ho
      simp only [runCalls, Option.some.injEq] at ho
      exact ⟨s, [], ho.symm, rfl, by simp⟩
    | cons c cs ih =>
      intro s hs1 hs2 hs3 hc o ho
      have hc0 := hc c (by simp)
      have hcs' : ∀ c ∈ cs, CallOf W c := fun c h => hc c (by simp [h])
      have step : ∀ s' r, s.call c = some (.val (s', r)) → r < 2 ^ W → s'.once = true →
          s'.tables W = some t → (s'.dist = none ∨ s'.dist = some W) →
          ∃ s'' rs, o = .val (s'', rs) ∧ rs.length = (c :: cs).length ∧ ∀ r ∈ rs, r < 2 ^ W := by
        intro s' r hcall hr g1 g2 g3
        rw [runCalls, hcall] at ho
        simp only [] at ho
        cases hrec : runCalls s' cs with
        | none => rw [hrec] at ho; simp at ho
        | some o' =>
          obtain ⟨s'', rs, e, hl, hr'⟩ := ih s' g1 g2 g3 hcs' o' hrec
          subst e
          rw [hrec] at ho
          simp only [Option.some.injEq] at ho
          refine ⟨s'', r :: rs, ho.symm, by simp [hl], ?_⟩
          intro x hx
          rw [List.mem_cons] at hx
          rcases hx with rfl | hx
          · exact hr
          · exact hr' x hx
      cases c with
      | init W' =>
        refine step s 1 ?_ h2w hs1 hs2 hs3
        simp [Proc.call, Proc.init, hs1, Outcome.bind]
      | rand W' v =>
        simp only [CallOf] at hc0
        subst hc0
        have hd : s.distWidth W' = W' := by
          unfold Proc.distWidth
          rcases hs3 with h | h <;> rw [h] <;> rfl
        by_cases hv : v < 2 ^ W'
        · refine step (s.afterRand W') v ?_ hv hs1 hs2 (Or.inr ?_)
          · simp [Proc.call, hd, hv]
          · simp [Proc.afterRand, hd]
        · rw [runCalls] at ho
          simp [Proc.call, hd, hv] at ho
      | mul W' x y =>
        obtain ⟨rfl, hx, hy⟩ := hc0
        refine step s _ ?_ (gmul_lt W' x y (by omega) hy) hs1 hs2 hs3
        simp [Proc.call, Proc.mul, hs2, multiply_spec h1 h2 hg hx hy, Outcome.bind]
      | div W' x y =>
        obtain ⟨rfl, hx, hy, hy0⟩ := hc0
        obtain ⟨hil, _⟩ := ginv_spec h1 (by omega : W' ≤ 30) hy0 hy
        refine step s _ ?_ (gmul_lt W' x (ginv W' y) (by omega) hil) hs1 hs2 hs3
        simp [Proc.call, Proc.div, hs2, divide_spec h1 h2 hg hx hy hy0, Outcome.bind]
  have hinit : Proc.start.call (.init W) =
      some (.val (⟨true, none, fun w => if w = W then some t else none⟩, 1)) := by
    simp [Proc.call, Proc.init, Proc.start, ht, Outcome.bind]
  rw [runCalls, hinit] at hrun
  simp only [] at hrun
  cases hrec : runCalls ⟨true, none, fun w => if w = W then some t else none⟩ cs with
  | none => rw [hrec] at hrun; simp at hrun
  | some o' =>
    obtain ⟨s', rs, e, hl, hr⟩ := key cs _ rfl (by simp) (Or.inl rfl) hcs o' hrec
    subst e
    rw [hrec] at hrun
    simp only [Option.some.injEq] at hrun
    refine ⟨s', 1 :: rs, hrun.symm, by simp [hl], ?_⟩
    intro x hx
    rw [List.mem_cons] at hx
    rcases hx with rfl | hx
    · exact h2w
    · exact hr x hx

/-- C07 is false for two widths: after `GF::<18>::init()` and `GF::<8>::init()` both returned `Ok`,
multiplying two elements of `GF<8>` dereferences a null pointer. -/
theorem C07_second_width_false :
    ∃ s rs, runCalls Proc.start [.init 18, .init 8] = some (.val (s, rs)) ∧ rs = [1, 1] ∧
      s.mul 8 3 5 = .ub := by
  have key : ∀ W V t, createLogTables W = .val (some t) → V ≠ W →
      ∃ s rs, runCalls Proc.start [.init W, .init V] = some (.val (s, rs)) ∧ rs = [1, 1] ∧
      s.mul V 3 5 = .ub := by
    intro W V t ht hne
    refine ⟨⟨true, none, fun w => if w = W then some t else none⟩, [1, 1], ?_, rfl, ?_⟩
    · simp [runCalls, Proc.call, Proc.init, Proc.start, ht, Outcome.bind]
    · simp [Proc.mul, hne]
  obtain ⟨t, ht, _⟩ := createLogTables_good (w := 18) (by omega) (by omega)
  exact key 18 8 t ht (by omega)

/-- C07 is false for sampling: once `GF::<18>::rand` was called, `GF::<8>::rand` may return 200000. -/
theorem C07_rand_width_false :
    ∃ s, runCalls Proc.start [.rand 18 5, .rand 8 200000] = some (.val (s, [5, 200000])) ∧
      ¬ 200000 < 2 ^ 8 := by
  refine ⟨⟨false, some 18, fun _ => none⟩, ?_, by norm_num⟩
  simp [runCalls, Proc.call, Proc.distWidth, Proc.afterRand, Proc.start]

/-- C07 is false after a failure: a second `init` of an unsupported width reports success. -/
theorem C07_init_after_failure_false :
    ∃ s, runCalls Proc.start [.init 31, .init 31] = some (.val (s, [0, 1])) := by
  refine ⟨⟨true, none, fun _ => none⟩, ?_⟩
  simp [runCalls, Proc.call, Proc.init, Proc.start, createLogTables, Outcome.bind]

/-- A history the positive statement talks about. -/
example : ∀ c ∈ [FieldCall.rand 18 7, .mul 18 7 200000, .div 18 5 7], CallOf 18 c := by
  simp [CallOf]

end Verif.Props
