import Verif.GF
import Verif.BinsupWeight

/-!
# Arithmetic in GF(2^18) for many elements at once

Number `j` of a list holds bit `j` of all elements: its bit `c` is bit `j` of element `c`.
-/

namespace Verif

open Galois

/-- The list `P` holds the elements `f c` with `k` bits, for `c < M`. -/
structure Lanes (k M : Nat) (P : List Nat) (f : Nat → Nat) : Prop where
  len : P.length = k
  bit : ∀ c < M, ∀ j, (P.getD j 0).testBit c = (f c).testBit j

theorem getD_zipWith (h : Nat → Nat → Nat) (h0 : h 0 0 = 0) {P Q : List Nat} (hl : P.length = Q.length) (j : Nat) :
    (List.zipWith h P Q).getD j 0 = h (P.getD j 0) (Q.getD j 0) := by
  simp only [List.getD_eq_getElem?_getD, List.getElem?_zipWith]
  by_cases hj : j < P.length
  · rw [List.getElem?_eq_getElem hj, List.getElem?_eq_getElem (by omega)]
    rfl
  · rw [List.getElem?_eq_none (by omega), List.getElem?_eq_none (by omega)]
    exact h0.symm

theorem Lanes.xor {k M : Nat} {P Q : List Nat} {f g : Nat → Nat} (hP : Lanes k M P f) (hQ : Lanes k M Q g) :
    Lanes k M (List.zipWith Nat.xor P Q) (fun c => f c ^^^ g c) where
  len := by rw [List.length_zipWith, hP.len, hQ.len, Nat.min_self]
  bit := fun c hc j => by
    rw [getD_zipWith _ rfl (hP.len.trans hQ.len.symm), Nat.testBit_xor, ← hP.bit c hc, ← hQ.bit c hc]
    exact Nat.testBit_xor ..

/-- The elements from place `i` on. -/
theorem Lanes.shift {k M : Nat} {P : List Nat} {f : Nat → Nat} (hP : Lanes k M P f) (i : Nat) :
    Lanes k (M - i) (P.map fun x => Nat.shiftRight x i) (fun c => f (c + i)) where
  len := by rw [List.length_map, hP.len]
  bit := fun c hc j => by
    rw [← hP.bit (c + i) (by omega) j]
    simp only [List.getD_eq_getElem?_getD, List.getElem?_map]
    cases P[j]? with
    | none => simp
    | some x =>
      simp only [Option.map_some, Option.getD_some]
      rw [Nat.add_comm c i]
      exact Nat.testBit_shiftRight ..

theorem Lanes.mono {k M M' : Nat} {P : List Nat} {f : Nat → Nat} (hP : Lanes k M P f) (h : M' ≤ M) : Lanes k M' P f :=
  ⟨hP.len, fun c hc => hP.bit c (by omega)⟩

/-- The same element `r` everywhere. -/
def constLanes (M r k : Nat) : List Nat := (List.range k).map fun j => if r.testBit j then 2 ^ M - 1 else 0

theorem constLanes_ok {k M r : Nat} (hr : r < 2 ^ k) : Lanes k M (constLanes M r k) (fun _ => r) where
  len := by simp [constLanes]
  bit := fun c hc j => by
    unfold constLanes
    by_cases hj : j < k
    · rw [List.getD_eq_getElem?_getD, List.getElem?_map, List.getElem?_range hj]
      simp only [Option.map_some, Option.getD_some]
      by_cases hb : r.testBit j = true
      · rw [if_pos hb, hb, Nat.testBit_two_pow_sub_one]
        simpa using hc
      · rw [if_neg hb, Nat.zero_testBit]
        simpa using hb
    · rw [List.getD_eq_getElem?_getD, List.getElem?_eq_none (by simpa using hj), Option.getD_none, Nat.zero_testBit]
      exact (Nat.testBit_lt_two_pow (hr.trans_le (Nat.pow_le_pow_right (by norm_num) (by omega)))).symm

/-- The elements `0, 1, …, 2 ^ m - 1`. -/
def countLanes : Nat → List Nat
  | 0 => []
  | m + 1 => (countLanes m).map (fun x => Nat.lor x (Nat.shiftLeft x (2 ^ m))) ++ [Nat.shiftLeft (2 ^ 2 ^ m - 1) (2 ^ m)]

theorem countLanes_ok (m : Nat) : Lanes m (2 ^ m) (countLanes m) (fun c => c) ∧ ∀ x ∈ countLanes m, x < 2 ^ 2 ^ m := by
  induction m with
  | zero =>
    refine ⟨⟨rfl, fun c hc j => ?_⟩, by simp [countLanes]⟩
    obtain rfl : c = 0 := by omega
    simp [countLanes]
  | succ m ih =>
    obtain ⟨ih, ih2⟩ := ih
    have hpow : (2 : Nat) ^ (m + 1) = 2 ^ m + 2 ^ m := by rw [Nat.pow_succ]; omega
    refine ⟨⟨by simp [countLanes, ih.len], fun c hc j => ?_⟩, fun x hx => ?_⟩
    · unfold countLanes
      rcases Nat.lt_trichotomy j m with hj | rfl | hj
      · rw [List.getD_eq_getElem?_getD, List.getElem?_append_left (by rw [List.length_map, ih.len]; exact hj), List.getElem?_map,
          List.getElem?_eq_getElem (by rw [ih.len]; exact hj)]
        simp only [Option.map_some, Option.getD_some]
        have hx := ih2 _ (List.getElem_mem (by rw [ih.len]; exact hj : j < (countLanes m).length))
        have hb : ∀ c < 2 ^ m, ((countLanes m)[j]'(by rw [ih.len]; exact hj)).testBit c = c.testBit j := by
          intro c hc
          rw [← ih.bit c hc j, List.getD_eq_getElem _ _ (by rw [ih.len]; exact hj)]
        refine (Nat.testBit_or ..).trans ?_
        change (_ || Nat.testBit (_ <<< _) c) = _
        rw [Nat.testBit_shiftLeft]
        rcases Nat.lt_or_ge c (2 ^ m) with hcm | hcm
        · rw [hb c hcm, decide_eq_false (by omega)]
          simp
        · rw [Nat.testBit_lt_two_pow (hx.trans_le (Nat.pow_le_pow_right (by norm_num) hcm)), decide_eq_true (by omega), Bool.false_or,
            Bool.true_and, hb (c - 2 ^ m) (by omega)]
          obtain ⟨e, rfl⟩ := Nat.exists_eq_add_of_le hcm
          rw [Nat.add_sub_cancel_left]
          exact (Nat.testBit_two_pow_add_gt hj e).symm
      · rw [List.getD_eq_getElem?_getD, List.getElem?_append_right (by rw [List.length_map, ih.len]), List.length_map, ih.len, Nat.sub_self]
        simp only [List.getElem?_cons_zero, Option.getD_some]
        change Nat.testBit (_ <<< _) c = _
        rw [Nat.testBit_shiftLeft, Nat.testBit_two_pow_sub_one]
        rcases Nat.lt_or_ge c (2 ^ j) with hcm | hcm
        · rw [decide_eq_false (by omega), Nat.testBit_lt_two_pow hcm]
          simp
        · rw [decide_eq_true (by omega), decide_eq_true (by omega)]
          obtain ⟨e, rfl⟩ := Nat.exists_eq_add_of_le hcm
          rw [testBit_top (by omega)]
          rfl
      · rw [List.getD_eq_getElem?_getD, List.getElem?_eq_none (by rw [List.length_append, List.length_map, ih.len, List.length_singleton]; omega),
          Option.getD_none, Nat.zero_testBit]
        exact (Nat.testBit_lt_two_pow (hc.trans_le (Nat.pow_le_pow_right (by norm_num) (by omega)))).symm
    · unfold countLanes at hx
      rcases List.mem_append.1 hx with hx | hx
      · obtain ⟨y, hy, rfl⟩ := List.mem_map.1 hx
        have := ih2 y hy
        refine Nat.or_lt_two_pow (this.trans_le (Nat.pow_le_pow_right (by norm_num) (by rw [hpow]; exact Nat.le_add_left ..))) ?_
        change y <<< _ < _
        rw [Nat.shiftLeft_eq, hpow, Nat.pow_add]
        exact Nat.mul_lt_mul_of_pos_right this (by positivity)
      · rw [List.mem_singleton] at hx
        subst hx
        change (_ - 1) <<< _ < _
        rw [Nat.shiftLeft_eq, hpow, Nat.pow_add]
        exact Nat.mul_lt_mul_of_pos_right (Nat.sub_lt (by positivity) (by norm_num)) (by positivity)

/-- `k xs`, with the elements of the list evaluated first. -/
def forceList {α : Type} : List Nat → (List Nat → α) → α
  | [], k => k []
  | x :: xs, k => force x fun x => forceList xs fun xs => k (x :: xs)

theorem forceList_eq {α : Type} (xs : List Nat) (k : List Nat → α) : forceList xs k = k xs := by
  induction xs generalizing k with
  | nil => rfl
  | cons x xs ih => rw [forceList, force_eq, ih]

/-- `stepB 18`: multiplication by `x`. -/
def stepLanes : List Nat → List Nat
  | [b0, b1, b2, b3, b4, b5, b6, b7, b8, b9, b10, b11, b12, b13, b14, b15, b16, b17] =>
    [b17, b0, b1, b2, b3, b4, b5, Nat.xor b6 b17, b7, b8, b9, b10, b11, b12, b13, b14, b15, b16]
  | _ => []

/-- `gmulAux 18`. -/
def mulLanes : List Nat → List Nat → List Nat → List Nat
  | [], _, acc => acc
  | a :: as, b, acc => forceList (stepLanes b) fun b' => forceList (List.zipWith (fun x y => Nat.xor x (Nat.land a y)) acc b) fun acc' =>
    mulLanes as b' acc'

theorem Lanes.step {M : Nat} {P : List Nat} {f : Nat → Nat} (hP : Lanes 18 M P f) : Lanes 18 M (stepLanes P) (fun c => stepB 18 (f c)) := by
  obtain ⟨len, bit⟩ := hP
  match P, len with
  | [b0, b1, b2, b3, b4, b5, b6, b7, b8, b9, b10, b11, b12, b13, b14, b15, b16, b17], _ =>
    refine ⟨rfl, fun c hc j => ?_⟩
    have hb := bit c hc
    have hlt : f c < 2 ^ 18 := by
      refine Nat.lt_pow_two_of_testBit _ fun i hi => ?_
      rw [← hb i, List.getD_eq_getElem?_getD, List.getElem?_eq_none (by simpa using hi)]
      simp
    have h0 : b0.testBit c = (f c).testBit 0 := hb 0
    have h1 : b1.testBit c = (f c).testBit 1 := hb 1
    have h2 : b2.testBit c = (f c).testBit 2 := hb 2
    have h3 : b3.testBit c = (f c).testBit 3 := hb 3
    have h4 : b4.testBit c = (f c).testBit 4 := hb 4
    have h5 : b5.testBit c = (f c).testBit 5 := hb 5
    have h6 : b6.testBit c = (f c).testBit 6 := hb 6
    have h7 : b7.testBit c = (f c).testBit 7 := hb 7
    have h8 : b8.testBit c = (f c).testBit 8 := hb 8
    have h9 : b9.testBit c = (f c).testBit 9 := hb 9
    have h10 : b10.testBit c = (f c).testBit 10 := hb 10
    have h11 : b11.testBit c = (f c).testBit 11 := hb 11
    have h12 : b12.testBit c = (f c).testBit 12 := hb 12
    have h13 : b13.testBit c = (f c).testBit 13 := hb 13
    have h14 : b14.testBit c = (f c).testBit 14 := hb 14
    have h15 : b15.testBit c = (f c).testBit 15 := hb 15
    have h16 : b16.testBit c = (f c).testBit 16 := hb 16
    have h17 : b17.testBit c = (f c).testBit 17 := hb 17
    have ht : ∀ j < 19, Nat.testBit 262273 j = (j == 0 || j == 7 || j == 18) := by decide
    have hfull : fullPoly 18 = 262273 := by decide
    rw [stepB_eq 18 (f c) (by norm_num) hlt]
    have hs : ((f c) <<< 1).testBit 18 = b17.testBit c := by
      rw [Nat.testBit_shiftLeft, h17]
      rfl
    have hsel : (if ((f c) <<< 1).testBit 18 = true then ((f c) <<< 1) ^^^ fullPoly 18 else (f c) <<< 1).testBit j
        = (((f c) <<< 1).testBit j ^^ (b17.testBit c && (fullPoly 18).testBit j)) := by
      rw [hs]
      cases b17.testBit c <;> simp [Nat.testBit_xor]
    rw [hsel, Nat.testBit_shiftLeft, hfull]
    rcases Nat.lt_or_ge j 19 with hj | hj
    · rw [ht j hj]
      interval_cases j
      all_goals simp [stepLanes, h0, h1, h2, h3, h4, h5, h6, h7, h8, h9, h10, h11, h12, h13, h14, h15, h16, h17]
    · rw [List.getD_eq_getElem?_getD, List.getElem?_eq_none (by simp [stepLanes]; omega), Option.getD_none, Nat.zero_testBit,
        Nat.testBit_lt_two_pow (hlt.trans_le (Nat.pow_le_pow_right (by norm_num) (by omega))),
        Nat.testBit_lt_two_pow (show 262273 < 2 ^ j from lt_of_lt_of_le (by norm_num) (Nat.pow_le_pow_right (by norm_num : 0 < 2) hj))]
      simp

theorem mulLanes_ok {M : Nat} (as : List Nat) {b acc : List Nat} {fa fb fc : Nat → Nat} (ha : Lanes as.length M as fa) (hb : Lanes 18 M b fb)
    (hc : Lanes 18 M acc fc) : Lanes 18 M (mulLanes as b acc) (fun c => gmulAux 18 as.length (fa c) (fb c) (fc c)) := by
  induction as generalizing b acc fa fb fc with
  | nil => exact hc
  | cons a as ih =>
    rw [mulLanes, forceList_eq, forceList_eq]
    have hbit : ∀ c < M, a.testBit c = (fa c).testBit 0 := fun c hc => ha.bit c hc 0
    refine ih (fa := fun c => fa c >>> 1) ⟨rfl, fun c hcM j => ?_⟩ hb.step (fc := fun c => if fa c &&& 1 = 1 then fc c ^^^ fb c else fc c) ⟨?_, fun c hcM j => ?_⟩
    · rw [Nat.testBit_shiftRight, Nat.add_comm 1 j, ← ha.bit c hcM (j + 1), List.getD_cons_succ]
    · rw [List.length_zipWith, hc.len, hb.len, Nat.min_self]
    · have hif : (fa c &&& 1 = 1) ↔ (fa c).testBit 0 = true := by
        rw [Nat.testBit_zero, Nat.and_one_is_mod]; simp
      rw [getD_zipWith _ (by simp) (hc.len.trans hb.len.symm)]
      refine (Nat.testBit_xor ..).trans ?_
      rw [show (Nat.land a (b.getD j 0)).testBit c = (a.testBit c && (b.getD j 0).testBit c) from Nat.testBit_and .., hc.bit c hcM,
        hb.bit c hcM, hbit c hcM]
      cases h : (fa c).testBit 0
      · rw [if_neg (by rw [hif, h]; simp)]
        simp
      · rw [if_pos (by rw [hif, h]), Nat.testBit_xor]
        simp

/-- The product of the elements `q - P[· + i]`, for `i` in the list, and `acc`. -/
def prodLanes (Q P : List Nat) : List Nat → List Nat → List Nat
  | [], acc => acc
  | i :: is, acc => forceList (List.zipWith Nat.xor Q (P.map fun x => Nat.shiftRight x i)) fun d =>
    forceList (mulLanes d acc (List.replicate 18 0)) fun acc' => prodLanes Q P is acc'

/-- The same for numbers. -/
def prodNat (q c : Nat) : List Nat → Nat → Nat
  | [], acc => acc
  | i :: is, acc => prodNat q c is (gmul 18 (q ^^^ (c + i)) acc)

theorem prodLanes_ok {M : Nat} {Q P : List Nat} {f : Nat → Nat} (hQ : Lanes 18 M Q f) (hP : Lanes 18 M P fun c => c) (b : Nat) (is : List Nat)
    (hi : ∀ i ∈ is, i ≤ b) {acc : List Nat} {g : Nat → Nat} (ha : Lanes 18 (M - b) acc g) :
    Lanes 18 (M - b) (prodLanes Q P is acc) (fun c => prodNat (f c) c is (g c)) := by
  induction is generalizing acc g with
  | nil => exact ha
  | cons i is ih =>
    rw [prodLanes, forceList_eq, forceList_eq]
    refine ih (fun j hj => hi j (List.mem_cons_of_mem _ hj)) (g := fun c => gmul 18 (f c ^^^ (c + i)) (g c)) ?_
    have hd : Lanes 18 (M - b) (List.zipWith Nat.xor Q (P.map fun x => Nat.shiftRight x i)) (fun c => f c ^^^ (c + i)) :=
      (hQ.mono (Nat.sub_le ..)).xor ((hP.shift i).mono (by have := hi i List.mem_cons_self; omega))
    have h0 : Lanes 18 (M - b) (List.replicate 18 0) (fun _ => 0) := ⟨rfl, fun c _ j => by
      rw [List.getD_eq_getElem?_getD, List.getElem?_replicate]
      split <;> simp⟩
    have := mulLanes_ok _ (hd.len ▸ hd) ha h0
    rw [hd.len] at this
    exact this

/-- The places at which an element is not zero. -/
def anyLane : List Nat → Nat
  | [] => 0
  | x :: xs => Nat.lor x (anyLane xs)

theorem anyLane_bit (P : List Nat) (c : Nat) (h : (anyLane P).testBit c = true) : ∃ j, (P.getD j 0).testBit c = true := by
  induction P with
  | nil => simp [anyLane] at h
  | cons x xs ih =>
    rw [anyLane, show (Nat.lor x (anyLane xs)).testBit c = (x.testBit c || (anyLane xs).testBit c) from Nat.testBit_or .., Bool.or_eq_true] at h
    rcases h with h | h
    · exact ⟨0, h⟩
    · obtain ⟨j, hj⟩ := ih h
      exact ⟨j + 1, hj⟩

/-- The numbers with a bit for each `c` in a list. -/
def marks : List Nat → Nat
  | [] => 0
  | c :: cs => Nat.lor (2 ^ c) (marks cs)

theorem marks_bit (cs : List Nat) (c : Nat) (h : (marks cs).testBit c = true) : c ∈ cs := by
  induction cs with
  | nil => simp [marks] at h
  | cons x xs ih =>
    rw [marks, show (Nat.lor (2 ^ x) (marks xs)).testBit c = ((2 ^ x).testBit c || (marks xs).testBit c) from Nat.testBit_or ..,
      Bool.or_eq_true, Nat.testBit_two_pow] at h
    rcases h with h | h
    · rw [List.mem_cons]
      exact Or.inl (of_decide_eq_true h).symm
    · exact List.mem_cons_of_mem _ (ih h)

/-- Whether, for all `c` with `lo ≤ c < 2 ^ 18 - 64` which are not in `bad`, the products of `r - (c + i)` and of `c - (c + i)` over the `i` in the
list differ. -/
def differLanes (rs is bad : List Nat) (lo : Nat) : Bool :=
  forceList (countLanes 18) fun P => forceList (constLanes (2 ^ 18) 1 18) fun one => forceList (prodLanes P P is one) fun T =>
    rs.all fun r => forceList (constLanes (2 ^ 18) r 18) fun R => forceList (prodLanes R P is one) fun U =>
      Nat.beq (Nat.mod (Nat.shiftRight (Nat.lor (anyLane (List.zipWith Nat.xor U T)) (marks bad)) lo) (2 ^ (2 ^ 18 - 64 - lo)))
        (2 ^ (2 ^ 18 - 64 - lo) - 1)

theorem differLanes_ok {rs is bad : List Nat} {lo : Nat} (h : differLanes rs is bad lo = true) (hi : ∀ i ∈ is, i ≤ 64) {r : Nat} (hr : r ∈ rs)
    (hr' : r < 2 ^ 18) {c : Nat} (hlo : lo ≤ c) (hc : c < 2 ^ 18 - 64) (hb : c ∉ bad) : prodNat r c is 1 ≠ prodNat c c is 1 := by
  unfold differLanes at h
  simp only [forceList_eq, List.all_eq_true] at h
  have h := Nat.eq_of_beq_eq_true (h r hr)
  have hP := (countLanes_ok 18).1
  have h1 : Lanes 18 (2 ^ 18 - 64) (constLanes (2 ^ 18) 1 18) (fun _ => 1) := (constLanes_ok (by norm_num)).mono (Nat.sub_le ..)
  have hT := prodLanes_ok hP hP 64 is hi h1
  have hU := prodLanes_ok (constLanes_ok hr') hP 64 is hi h1
  have hD := hU.xor hT
  intro e
  have hbit := congrArg (fun x => x.testBit (c - lo)) h
  simp only [Nat.testBit_two_pow_sub_one] at hbit
  rw [show Nat.mod = (fun a b => a % b) from rfl] at hbit
  simp only [Nat.testBit_mod_two_pow] at hbit
  rw [decide_eq_true (by omega), Bool.true_and, show ∀ x, Nat.shiftRight x lo = x >>> lo from fun _ => rfl, Nat.testBit_shiftRight,
    Nat.add_sub_cancel' hlo, show ∀ x y : Nat, Nat.lor x y = x ||| y from fun _ _ => rfl, Nat.testBit_or, Bool.or_eq_true] at hbit
  rcases hbit with hbit | hbit
  · obtain ⟨j, hj⟩ := anyLane_bit _ _ hbit
    rw [hD.bit c (by omega) j, e, Nat.xor_self, Nat.zero_testBit] at hj
    exact Bool.false_ne_true hj
  · exact hb (marks_bit _ _ hbit)

/-- The products in the field. -/
theorem prodNat_val (q : GF 18) (c : Nat) (is : List Nat) (hc : ∀ i ∈ is, c + i < 2 ^ 18) (a : GF 18) :
    prodNat q.val c is a.val = ((is.map fun i => q - GF.ofU32 (c + i)).prod * a).val := by
  induction is generalizing a with
  | nil => simp [prodNat]
  | cons i is ih =>
    have hv : (GF.ofU32 (c + i) : GF 18).val = c + i := Nat.mod_eq_of_lt (hc i List.mem_cons_self)
    have : gmul 18 (q.val ^^^ (c + i)) a.val = ((q - GF.ofU32 (c + i)) * a).val := by
      rw [GF.mul_val, GF.sub_val, hv]
    rw [prodNat, this, ih (fun j hj => hc j (List.mem_cons_of_mem _ hj)), List.map_cons, List.prod_cons]
    congr 1
    ring

theorem differ_prod {rs is bad : List Nat} {lo : Nat} (h : differLanes rs is bad lo = true) (hi : ∀ i ∈ is, i ≤ 64) {r : Nat} (hr : r ∈ rs)
    (hr' : r < 2 ^ 18) {c : Nat} (hlo : lo ≤ c) (hc : c < 2 ^ 18 - 64) (hb : c ∉ bad) :
    (is.map fun i => (GF.ofU32 r - GF.ofU32 (c + i) : GF 18)).prod ≠ (is.map fun i => (GF.ofU32 c - GF.ofU32 (c + i) : GF 18)).prod := by
  intro e
  have h1 : (1 : GF 18).val = 1 := rfl
  have hv : ∀ x < 2 ^ 18, (GF.ofU32 x : GF 18).val = x := fun x hx => Nat.mod_eq_of_lt hx
  have hci : ∀ i ∈ is, c + i < 2 ^ 18 := fun i h => by have := hi i h; omega
  have a := prodNat_val (GF.ofU32 r) c is hci 1
  have b := prodNat_val (GF.ofU32 c) c is hci 1
  rw [h1, hv _ hr'] at a
  rw [h1, hv _ (by omega)] at b
  exact differLanes_ok h hi hr hr' hlo hc hb (by rw [a, b, e])

end Verif
