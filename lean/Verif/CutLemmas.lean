import Verif.Cut
import Verif.Props.Circuit
import Verif.ShippedSpec
import Verif.EndToEndSpec

/-!
# Soundness of the checks of `Verif/Cut.lean`
-/

namespace Verif

theorem blt_of_lt {a b : Nat} (h : a < b) : Nat.blt a b = true := by simpa [Nat.blt_eq] using h

theorem blt_of_not {a b : Nat} (h : ¬ a < b) : Nat.blt a b = false := by
  cases e : Nat.blt a b
  · rfl
  · exact absurd (by simpa [Nat.blt_eq] using e) h

theorem beq_of_ne {a b : Nat} (h : a ≠ b) : Nat.beq a b = false := by
  cases e : Nat.beq a b
  · rfl
  · exact absurd (Nat.eq_of_beq_eq_true e) h

open Props (joinToks)

/-! ## Parity of sets of signals -/

/-- Exclusive or of the values of the signals in a set (the bits of `m`) below `N`. -/
def par (base : Nat → Bool) : Nat → Nat → Bool
  | 0, _ => false
  | N + 1, m => xor (par base N m) (m.testBit N && base N)

theorem par_zero (base : Nat → Bool) (N : Nat) : par base N 0 = false := by
  induction N with
  | zero => rfl
  | succ N ih => simp [par, ih]

theorem par_xor (base : Nat → Bool) (N m m' : Nat) :
    par base N (Nat.xor m m') = xor (par base N m) (par base N m') := by
  induction N with
  | zero => rfl
  | succ N ih =>
    have : (Nat.xor m m').testBit N = xor (m.testBit N) (m'.testBit N) := Nat.testBit_xor m m' N
    simp only [par, ih, this]
    cases par base N m <;> cases par base N m' <;> cases m.testBit N <;> cases m'.testBit N <;>
      cases base N <;> rfl

theorem par_bit (base : Nat → Bool) (N v : Nat) (h : v < N) :
    par base N (Nat.shiftLeft 1 v) = base v := by
  have e : Nat.shiftLeft 1 v = 2 ^ v := by
    change 1 <<< v = _
    rw [Nat.one_shiftLeft]
  rw [e]
  have small : ∀ N, N ≤ v → par base N (2 ^ v) = false := by
    intro N
    induction N with
    | zero => intro _; rfl
    | succ N ih =>
      intro h
      rw [par, ih (by omega), Nat.testBit_two_pow_of_ne (by omega)]
      rfl
  induction N with
  | zero => omega
  | succ N ih =>
    rw [par]
    by_cases hv : v = N
    · subst hv
      rw [small v (le_refl v), Nat.testBit_two_pow_self]
      simp
    · rw [ih (by omega), Nat.testBit_two_pow_of_ne hv]
      simp

/-! ## Certificates -/

/-- Value of a claim, for values of the base signals and of the inputs of the boxes (as positions in the
truth tables). -/
noncomputable def WireCert.den (C : WireCert) (base : Nat → Bool) (ρ : Nat → Nat) : Claim → Bool
  | .sig vs => par base C.size (C.mask vs)
  | .box b n => (C.table n).testBit (ρ b)

/-- The certificate describes the values of the base signals and of the boxes correctly. -/
structure WireCert.Sound (C : WireCert) (base : Nat → Bool) (ρ : Nat → Nat) : Prop where
  one : par base C.size (C.nf C.one) = true
  full : ∀ b, C.full.testBit (ρ b) = true
  inp : ∀ b v n, C.inNode b v = some n → (C.table n).testBit (ρ b) = par base C.size (C.nf v)
  out : ∀ b n L, C.out b n = some L → (C.table n).testBit (ρ b) = par base C.size (C.mask L)

variable {C : WireCert} {base : Nat → Bool} {ρ : Nat → Nat}

theorem WireCert.mask_nil : C.mask [] = 0 := rfl

theorem WireCert.mask_cons (v : Nat) (vs : List Nat) : C.mask (v :: vs) = Nat.xor (C.nf v) (C.mask vs) := rfl

theorem WireCert.mask_single (v : Nat) : C.mask [v] = C.nf v := by
  rw [WireCert.mask_cons, WireCert.mask_nil]
  exact Nat.xor_zero (C.nf v)

theorem WireCert.sigOf_sound (S : C.Sound base ρ) {c : Claim} {m : Nat} (h : C.sigOf c = some m) :
    C.den base ρ c = par base C.size m := by
  cases c with
  | sig vs =>
    cases h
    rfl
  | box b n =>
    simp only [WireCert.sigOf] at h
    cases e : C.out b n with
    | none => rw [e] at h; cases h
    | some vs =>
      rw [e] at h
      cases h
      exact S.out b n vs e

theorem WireCert.sigTab_sound (S : C.Sound base ρ) {b : Nat} {vs : List Nat} {t : Nat}
    (h : C.sigTab b vs = some t) : t.testBit (ρ b) = par base C.size (C.mask vs) := by
  match vs with
  | [] => cases h
  | v :: w :: vs => cases h
  | [v] =>
    simp only [WireCert.sigTab] at h
    cases e : C.inNode b v with
    | none => rw [e] at h; cases h
    | some n =>
      rw [e] at h
      cases h
      rw [WireCert.mask_single]
      exact S.inp b v n e

theorem WireCert.tabOf_sound (S : C.Sound base ρ) {b : Nat} {c : Claim} {t : Nat}
    (h : C.tabOf b c = some t) : t.testBit (ρ b) = C.den base ρ c := by
  cases c with
  | sig vs => exact WireCert.sigTab_sound S h
  | box b' n =>
    simp only [WireCert.tabOf] at h
    cases e : Nat.beq b' b with
    | true =>
      rw [e] at h
      cases h
      rw [Nat.eq_of_beq_eq_true e]
      rfl
    | false =>
      rw [e] at h
      simp only [bsel_false] at h
      cases e' : C.out b' n with
      | none => rw [e'] at h; cases h
      | some vs =>
        rw [e'] at h
        rw [WireCert.sigTab_sound S h]
        exact (S.out b' n vs e').symm

theorem eq2_iff {f : Nat → Nat → Nat} {x y : Option Nat} {z : Nat} (h : eq2 f x y z = true) :
    ∃ u v, x = some u ∧ y = some v ∧ f u v = z := by
  cases x with
  | none => cases h
  | some u =>
    cases y with
    | none => cases h
    | some v => exact ⟨u, v, rfl, rfl, Nat.eq_of_beq_eq_true h⟩

theorem testBit_xor' (x y i : Nat) : (Nat.xor x y).testBit i = xor (x.testBit i) (y.testBit i) :=
  Nat.testBit_xor x y i

theorem testBit_land' (x y i : Nat) : (Nat.land x y).testBit i = (x.testBit i && y.testBit i) :=
  Nat.testBit_and x y i

/-- The claims satisfy the equation of every gate that passes the check. -/
theorem WireCert.ok_sound (S : C.Sound base ρ) {k a b o : Nat} (h : C.ok k a b o = true) :
    GateEq (fun w => C.den base ρ (C.claim w)) (mkCode k a b o) := by
  unfold WireCert.ok at h
  unfold mkCode
  cases hc : C.claim o with
  | sig vs =>
    rw [hc] at h
    simp only at h
    by_cases h0 : k = 0
    · subst h0
      obtain ⟨u, v, hu, hv, e⟩ := eq2_iff (by simpa using h)
      rw [if_pos rfl]
      simp only [GateEq, hc]
      rw [show (#v[a, b] : Vector Nat 2)[0] = a from rfl, show (#v[a, b] : Vector Nat 2)[1] = b from rfl,
        WireCert.sigOf_sound S hu, WireCert.sigOf_sound S hv, ← par_xor, e]
      rfl
    · have e0 : Nat.beq k 0 = false := by
        cases e : Nat.beq k 0
        · rfl
        · exact absurd (Nat.eq_of_beq_eq_true e) h0
      rw [e0] at h
      by_cases h1 : k = 1
      · subst h1
        simp at h
      · have e1 : Nat.beq k 1 = false := by
          cases e : Nat.beq k 1
          · rfl
          · exact absurd (Nat.eq_of_beq_eq_true e) h1
        rw [e1] at h
        obtain ⟨u, v, hu, hv, e⟩ := eq2_iff (by simpa using h)
        cases hv
        rw [if_neg h0, if_neg h1]
        simp only [GateEq, hc]
        rw [show (#v[a] : Vector Nat 1)[0] = a from rfl, WireCert.sigOf_sound S hu]
        change par base C.size (C.mask vs) = _
        rw [← e, par_xor, S.one]
        simp
  | box x n =>
    rw [hc] at h
    simp only at h
    by_cases h0 : k = 0
    · subst h0
      obtain ⟨u, v, hu, hv, e⟩ := eq2_iff (by simpa using h)
      rw [if_pos rfl]
      simp only [GateEq, hc]
      rw [show (#v[a, b] : Vector Nat 2)[0] = a from rfl, show (#v[a, b] : Vector Nat 2)[1] = b from rfl,
        ← WireCert.tabOf_sound S hu, ← WireCert.tabOf_sound S hv, ← testBit_xor', e]
      rfl
    · have e0 : Nat.beq k 0 = false := by
        cases e : Nat.beq k 0
        · rfl
        · exact absurd (Nat.eq_of_beq_eq_true e) h0
      rw [e0] at h
      by_cases h1 : k = 1
      · subst h1
        obtain ⟨u, v, hu, hv, e⟩ := eq2_iff (by simpa using h)
        rw [if_neg h0, if_pos rfl]
        simp only [GateEq, hc]
        rw [show (#v[a, b] : Vector Nat 2)[0] = a from rfl, show (#v[a, b] : Vector Nat 2)[1] = b from rfl,
          ← WireCert.tabOf_sound S hu, ← WireCert.tabOf_sound S hv, ← testBit_land', e]
        rfl
      · have e1 : Nat.beq k 1 = false := by
          cases e : Nat.beq k 1
          · rfl
          · exact absurd (Nat.eq_of_beq_eq_true e) h1
        rw [e1] at h
        obtain ⟨u, v, hu, hv, e⟩ := eq2_iff (by simpa using h)
        cases hv
        rw [if_neg h0, if_neg h1]
        simp only [GateEq, hc]
        rw [show (#v[a] : Vector Nat 1)[0] = a from rfl, ← WireCert.tabOf_sound S hu]
        change (C.table n).testBit (ρ x) = _
        rw [← e, testBit_xor', S.full x]
        simp

theorem WireCert.isSig_sound (S : C.Sound base ρ) {w v : Nat} (h : C.isSig w v = true) :
    C.den base ρ (C.claim w) = par base C.size (C.nf v) := by
  unfold WireCert.isSig at h
  cases e : C.sigOf (C.claim w) with
  | none => rw [e] at h; cases h
  | some m =>
    rw [e] at h
    rw [WireCert.sigOf_sound S e, Nat.eq_of_beq_eq_true h]

/-! ## Ranges of checks -/

theorem allFrom_iff {P : Nat → Bool} {k i : Nat} (h : allFrom P i k = true) :
    ∀ q, i ≤ q → q < i + k → P q = true := by
  induction k generalizing i with
  | zero => intro q h1 h2; omega
  | succ k ih =>
    have h' : bsel (P i) (allFrom P (i + 1) k) false = true := h
    cases e : P i with
    | false => rw [e] at h'; cases h'
    | true =>
      rw [e] at h'
      intro q h1 h2
      by_cases hq : q = i
      · subst hq; exact e
      · exact ih h' q (by omega) (by omega)

/-! ## Well-formedness and evaluation -/

theorem decodeGate_outWire (c : Nat) : (decodeGate c).outWire = codeO c := by
  unfold decodeGate mkCode
  split
  · rfl
  · split <;> rfl

theorem decodeGate_inWires (c w : Nat) (h : w ∈ (decodeGate c).inWires) :
    w = codeA c ∨ (codeKind c < 2 ∧ w = codeB c) := by
  unfold decodeGate mkCode at h
  split at h
  · simp only [Gate.inWires, List.mem_cons, List.not_mem_nil, or_false] at h
    rcases h with h | h
    · exact Or.inl h
    · exact Or.inr ⟨by omega, h⟩
  · split at h
    · simp only [Gate.inWires, List.mem_cons, List.not_mem_nil, or_false] at h
      rcases h with h | h
      · exact Or.inl h
      · exact Or.inr ⟨by omega, h⟩
    · simp only [Gate.inWires, List.mem_cons, List.not_mem_nil, or_false] at h
      exact Or.inl h

theorem wireOk_iff {N : Net} {rank : Nat → Nat} {q w : Nat} (h : N.wireOk rank q w = true) :
    w < N.n1 + N.n2 ∨ ∃ p, p < q ∧ codeO (N.slot p) = w := by
  unfold Net.wireOk at h
  cases e : Nat.blt w (Nat.add N.n1 N.n2) with
  | true =>
    have : w < N.n1 + N.n2 := by simpa [Nat.blt_eq] using e
    exact Or.inl this
  | false =>
    rw [e] at h
    cases e' : Nat.blt (rank w) q with
    | false => rw [e'] at h; cases h
    | true =>
      rw [e'] at h
      exact Or.inr ⟨rank w, by simpa [Nat.blt_eq] using e', Nat.eq_of_beq_eq_true h⟩

theorem gateOk_iff {N : Net} {rank : Nat → Nat} {q : Nat} (h : N.gateOk rank q = true) :
    codeO (N.slot q) < N.numWires ∧ N.n1 + N.n2 ≤ codeO (N.slot q) ∧ rank (codeO (N.slot q)) = q ∧
      ∀ w ∈ (decodeGate (N.slot q)).inWires, w < N.n1 + N.n2 ∨ ∃ p, p < q ∧ codeO (N.slot p) = w := by
  unfold Net.gateOk at h
  generalize N.slot q = c at h ⊢
  have bsel_true : ∀ {a b : Bool}, bsel a b false = true → a = true ∧ b = true := by
    intro a b; cases a <;> simp
  obtain ⟨h1, h⟩ := bsel_true h
  obtain ⟨h2, h⟩ := bsel_true h
  obtain ⟨h3, h⟩ := bsel_true h
  obtain ⟨h4, h⟩ := bsel_true h
  have h2' : N.n1 + N.n2 ≤ codeO c := Nat.le_of_ble_eq_true h2
  refine ⟨by simpa [Nat.blt_eq] using h1, h2', Nat.eq_of_beq_eq_true h3, fun w hw => ?_⟩
  rcases decodeGate_inWires c w hw with rfl | ⟨hk, rfl⟩
  · exact wireOk_iff h4
  · have : Nat.ble 2 (codeKind c) = false := by
      cases e : Nat.ble 2 (codeKind c)
      · rfl
      · have := Nat.le_of_ble_eq_true e
        omega
    rw [this] at h
    exact wireOk_iff h

theorem topological_from {N : Net} {rank : Nat → Nat}
    (h : ∀ q, q < N.numGates → N.gateOk rank q = true) (k q : Nat) (hk : q + k = N.numGates)
    (known : List Nat) (hknown : ∀ w, w ∈ known ↔ w < N.n1 + N.n2 ∨ ∃ p, p < q ∧ codeO (N.slot p) = w) :
    Topological known ((List.range' q k).map fun q => decodeGate (N.slot q)) := by
  induction k generalizing q known with
  | zero => trivial
  | succ k ih =>
    rw [List.range'_succ, List.map_cons]
    obtain ⟨h1, h2, h3, h4⟩ := gateOk_iff (h q (by omega))
    refine ⟨fun w hw => (hknown w).2 (h4 w hw), ?_, ih (q + 1) (by omega) _ ?_⟩
    · rw [decodeGate_outWire, hknown]
      rintro (hlt | ⟨p, hp, e⟩)
      · omega
      · have := (gateOk_iff (h p (by omega))).2.2.1
        rw [e] at this
        omega
    · intro w
      rw [List.mem_cons, decodeGate_outWire, hknown]
      constructor
      · rintro (rfl | hw | ⟨p, hp, e⟩)
        · exact Or.inr ⟨q, by omega, rfl⟩
        · exact Or.inl hw
        · exact Or.inr ⟨p, by omega, e⟩
      · rintro (hw | ⟨p, hp, e⟩)
        · exact Or.inr (Or.inl hw)
        · by_cases hpq : p = q
          · subst hpq
            exact Or.inl e.symm
          · exact Or.inr (Or.inr ⟨p, by omega, e⟩)

/-- The checks of a circuit: every gate passes, and the output wires are driven. -/
structure Net.Checked (N : Net) (rank : Nat → Nat) : Prop where
  gate : ∀ q, q < N.numGates → N.gateOk rank q = true
  outs : ∀ w, N.numWires - N.m ≤ w → w < N.numWires → N.wireOk rank N.numGates w = true
  wires : N.n1 + N.n2 ≤ N.numWires
  outsLe : N.m ≤ N.numWires

theorem Net.wf {N : Net} {rank : Nat → Nat} (h : N.Checked rank) : N.circuit.WF := by
  have hin : N.circuit.inputs.flatten = List.range (N.n1 + N.n2) := by
    simp only [Net.circuit, List.flatten_cons, List.flatten_nil, List.append_nil]
    rw [List.range_eq_range']
    simpa using List.range'_append (s := 0) (m := N.n1) (n := N.n2) (step := 1)
  refine ⟨?_, ?_, ?_, ?_, ?_⟩
  · intro w hw
    rw [hin, List.mem_range] at hw
    exact lt_of_lt_of_le hw h.wires
  · intro g hg
    obtain ⟨q, hq, rfl⟩ := List.mem_map.1 hg
    rw [decodeGate_outWire]
    exact (gateOk_iff (h.gate q (List.mem_range.1 hq))).1
  · rw [hin]
    exact List.nodup_range
  · rw [hin]
    have := topological_from h.gate N.numGates 0 (by omega) (List.range (N.n1 + N.n2))
      (by intro w; simp)
    rw [← List.range_eq_range'] at this
    exact this
  · intro w hw
    simp only [Net.circuit, List.flatten_cons, List.flatten_nil, List.append_nil] at hw
    obtain ⟨i, hi, rfl⟩ := List.mem_range'.1 hw
    have := h.outsLe
    rcases wireOk_iff (h.outs (N.numWires - N.m + 1 * i) (by omega) (by omega)) with hlt | ⟨p, hp, e⟩
    · exact Or.inl (by rw [hin]; exact List.mem_range.2 hlt)
    · exact Or.inr ⟨decodeGate (N.slot p), List.mem_map.2 ⟨p, List.mem_range.2 hp, rfl⟩, by
        rw [decodeGate_outWire, e]⟩

/-- `eval` returns the output part of any assignment satisfying the gates. -/
theorem Net.eval_eq {N : Net} {rank : Nat → Nat} (h : N.Checked rank) (a : Nat → Bool)
    (ha : ∀ q, q < N.numGates → GateEq a (decodeGate (N.slot q))) :
    N.circuit.eval [(List.range' 0 N.n1).map a, (List.range' N.n1 N.n2).map a]
      = some [(List.range' (N.numWires - N.m) N.m).map a] := by
  obtain ⟨outs, e, _, h3⟩ := Props.C22_eval N.circuit (Net.wf h)
    [(List.range' 0 N.n1).map a, (List.range' N.n1 N.n2).map a] (by simp [Net.circuit])
  rw [e, h3 _ (List.Perm.refl _) a ⟨rfl, ?_⟩]
  · rfl
  · intro g hg
    obtain ⟨q, hq, rfl⟩ := List.mem_map.1 hg
    exact ha q (List.mem_range.1 hq)

/-- A circuit with a certificate computes the values of the signals claimed for its output wires, when the
signals claimed for its input wires have the values of the inputs. -/
theorem Net.eval_cert {N : Net} {rank : Nat → Nat} (h : N.Checked rank) {C : WireCert} {base : Nat → Bool}
    {ρ : Nat → Nat} (S : C.Sound base ρ) (hg : ∀ q, q < N.numGates → C.okCode (N.slot q) = true)
    (inSig outSig : Nat → Nat) (hi : ∀ w, w < N.n1 + N.n2 → C.isSig w (inSig w) = true)
    (ho : ∀ i, i < N.m → C.isSig (N.numWires - N.m + i) (outSig i) = true)
    {x : BitVec N.n1} {y : BitVec N.n2} {z : BitVec N.m}
    (hx : ∀ i, i < N.n1 → par base C.size (C.nf (inSig i)) = x.getLsbD i)
    (hy : ∀ i, i < N.n2 → par base C.size (C.nf (inSig (N.n1 + i))) = y.getLsbD i)
    (hz : ∀ i, i < N.m → par base C.size (C.nf (outSig i)) = z.getLsbD i) :
    N.circuit.eval [bitsOf x, bitsOf y] = some [bitsOf z] := by
  have ev := Net.eval_eq h (fun w => C.den base ρ (C.claim w)) fun q hq => WireCert.ok_sound S (hg q hq)
  have e1 : (List.range' 0 N.n1).map (fun w => C.den base ρ (C.claim w)) = bitsOf x := by
    rw [bitsOf, ← List.range_eq_range']
    refine List.map_congr_left fun i hi' => ?_
    have hi' := List.mem_range.1 hi'
    rw [WireCert.isSig_sound S (hi i (by omega)), hx i hi']
  have e2 : (List.range' N.n1 N.n2).map (fun w => C.den base ρ (C.claim w)) = bitsOf y := by
    rw [bitsOf, List.range'_eq_map_range, List.map_map]
    refine List.map_congr_left fun i hi' => ?_
    have hi' := List.mem_range.1 hi'
    simp only [Function.comp]
    rw [WireCert.isSig_sound S (hi (N.n1 + i) (by omega)), hy i hi']
  have e3 : (List.range' (N.numWires - N.m) N.m).map (fun w => C.den base ρ (C.claim w)) = bitsOf z := by
    rw [bitsOf, List.range'_eq_map_range, List.map_map]
    refine List.map_congr_left fun i hi' => ?_
    have hi' := List.mem_range.1 hi'
    simp only [Function.comp]
    rw [WireCert.isSig_sound S (ho i hi'), hz i hi']
  rw [← e1, ← e2, ← e3]
  exact ev

/-! ## Text -/

theorem digs_eq (f n : Nat) (acc : List Char) (h : n < 10 ^ f) :
    digs f n acc = if f = 0 then acc else Nat.toDigits 10 n ++ acc := by
  induction f generalizing n acc with
  | zero => rfl
  | succ f ih =>
    rw [if_neg (by omega)]
    have hd : ∀ d, d < 10 → Char.ofNat (Nat.add 48 d) = Nat.digitChar d := by decide
    have step : digs (f + 1) n acc = bsel (Nat.blt n 10) (Char.ofNat (Nat.add 48 n) :: acc)
      (digs f (Nat.div n 10) (Char.ofNat (Nat.add 48 (Nat.mod n 10)) :: acc)) := rfl
    rw [step]
    by_cases hn : n < 10
    · have : Nat.blt n 10 = true := by simpa [Nat.blt_eq] using hn
      rw [this, bsel_true, hd n hn, Nat.toDigits_of_lt_base hn]
      rfl
    · have : Nat.blt n 10 = false := by
        cases e : Nat.blt n 10
        · rfl
        · exact absurd (by simpa [Nat.blt_eq] using e) hn
      have hf : f ≠ 0 := by
        rintro rfl
        omega
      rw [this, bsel_false, ih (Nat.div n 10) _ (by
        have : n / 10 < 10 ^ f := by
          rw [Nat.div_lt_iff_lt_mul (by norm_num)]
          rw [pow_succ] at h
          exact h
        exact this), if_neg hf, hd (Nat.mod n 10) (Nat.mod_lt _ (by norm_num))]
      rw [Nat.toDigits_of_base_le (by norm_num) (by omega : 10 ≤ n)]
      rw [List.append_assoc]
      rfl

theorem digs_ten (n : Nat) (acc : List Char) (h : n < 2 ^ 32) :
    digs 10 n acc = Nat.toDigits 10 n ++ acc := by
  rw [digs_eq 10 n acc (by omega), if_neg (by norm_num)]

/-- The line of a gate without its newline. -/
def lineOf (g : Gate) : List Char :=
  joinToks ((g.fanIn :: 1 :: g.wires).map fun n => Nat.toDigits 10 n) ++ g.name

theorem gateLine_eq (c : Nat) (ho : codeO c < 2 ^ 32) (rest : List Char) :
    gateLine c rest = lineOf (decodeGate c) ++ '\n' :: rest := by
  have ha : codeA c < 2 ^ 32 := lt_trans (Nat.mod_lt _ (by norm_num)) (by norm_num)
  have hb : codeB c < 2 ^ 32 := lt_trans (Nat.mod_lt _ (by norm_num)) (by norm_num)
  unfold gateLine decodeGate mkCode lineOf
  by_cases h0 : codeKind c = 0
  · rw [if_pos h0, h0]
    simp only [digs_ten _ _ ha, digs_ten _ _ hb, digs_ten _ _ ho]
    simp [Gate.fanIn, Gate.wires, Gate.name, joinToks]
    rfl
  · have e0 : Nat.beq (codeKind c) 0 = false := by
      cases e : Nat.beq (codeKind c) 0
      · rfl
      · exact absurd (Nat.eq_of_beq_eq_true e) h0
    rw [if_neg h0, e0]
    by_cases h1 : codeKind c = 1
    · rw [if_pos h1, h1]
      simp only [digs_ten _ _ ha, digs_ten _ _ hb, digs_ten _ _ ho]
      simp [Gate.fanIn, Gate.wires, Gate.name, joinToks]
      rfl
    · have e1 : Nat.beq (codeKind c) 1 = false := by
        cases e : Nat.beq (codeKind c) 1
        · rfl
        · exact absurd (Nat.eq_of_beq_eq_true e) h1
      rw [if_neg h1, e1]
      simp only [digs_ten _ _ ha, digs_ten _ _ ho]
      simp [Gate.fanIn, Gate.wires, Gate.name, joinToks]
      rfl

theorem gateLines_eq (slot : Nat → Nat) (k q : Nat) (rest : List Char)
    (h : ∀ p, q ≤ p → p < q + k → codeO (slot p) < 2 ^ 32) :
    gateLines slot k q rest
      = ((List.range' q k).flatMap fun p => lineOf (decodeGate (slot p)) ++ ['\n']) ++ rest := by
  induction k generalizing q with
  | zero => rfl
  | succ k ih =>
    have step : gateLines slot (k + 1) q rest = gateLine (slot q) (gateLines slot k (q + 1) rest) := rfl
    rw [step, ih (q + 1) fun p h1 h2 => h p (by omega) (by omega),
      gateLine_eq _ (h q (le_refl q) (by omega)), List.range'_succ, List.flatMap_cons]
    simp

theorem lineOf_ok (g : Gate) : GateLine g (lineOf g) := by
  have hname : g.name ≠ [] ∧ ∀ c ∈ g.name, ¬ Blank c := by
    cases g <;> simp [Gate.name, Blank]
  refine ⟨?_, _, Props.forall₂_toDigits _, ?_⟩
  · unfold lineOf
    rw [List.mem_append, not_or]
    refine ⟨Props.newline_not_mem_join _ fun t ht => (Props.toks_ok _ t ht).2,
      fun hc => hname.2 _ hc (by simp [Blank])⟩
  · have h1 : Layout [g.name] g.name := by
      have := Layout.cons [] g.name [] [] (by simp) hname.1 hname.2 (.nil [] (by simp)) (Or.inl rfl)
      simpa using this
    exact Props.layout_joinToks _ (Props.toks_ok _) _ _ h1

theorem gateLines_ok (gs : List Gate) (rest : List Char) :
    GateLines gs ((gs.flatMap fun g => lineOf g ++ ['\n']) ++ rest) := by
  induction gs with
  | nil => exact .nil _
  | cons g gs ih =>
    have := GateLines.cons g _ gs _ (lineOf_ok g) ih
    simpa using this

/-- The text of the file: the header, the lines of the gates, and anything after them. -/
noncomputable def Net.text (N : Net) (tail : List Char) : List Char :=
  N.headText ++ ((N.gates.flatMap fun g => lineOf g ++ ['\n']) ++ tail)

theorem layout_blank {a : List (List Char)} {b : List Char} {c : Char} (hc : Blank c)
    (h : Layout a b) : Layout a (c :: b) := by
  cases h with
  | nil ws hws =>
    refine .nil _ fun d hd => ?_
    rcases List.mem_cons.1 hd with rfl | hd
    · exact hc
    · exact hws d hd
  | cons ws tok rest toks hws hne htok hl hrest =>
    have := Layout.cons (c :: ws) tok rest toks (fun d hd => by
      rcases List.mem_cons.1 hd with rfl | hd
      · exact hc
      · exact hws d hd) hne htok hl hrest
    simpa using this

theorem layout_tok {a : List (List Char)} {b : List Char} {c : Char} (hc : Blank c) (n : Nat)
    (h : Layout a b) : Layout (Nat.toDigits 10 n :: a) (Nat.toDigits 10 n ++ c :: b) := by
  have := Layout.cons [] (Nat.toDigits 10 n) (c :: b) a (by simp) (Props.denotes_toDigits n).1
    (fun d hd => Props.digit_not_blank ((Props.denotes_toDigits n).2.1 d hd)) (layout_blank hc h)
    (Or.inr ⟨c, b, rfl, hc⟩)
  simpa using this

/-- Numbers of the file are in range. -/
structure Net.Small (N : Net) : Prop where
  gates : N.numGates < 2 ^ 32
  wires : N.numWires < 2 ^ 32
  n1 : N.n1 < 2 ^ 32
  n2 : N.n2 < 2 ^ 32
  m : N.m < 2 ^ 32

theorem Net.isFile {N : Net} (hs : N.Small) (tail : List Char) : IsBristolFile N.desc (N.text tail) := by
  have nl : ∀ n : Nat, '\n' ∉ Nat.toDigits 10 n := fun n hc =>
    Props.digit_not_blank ((Props.denotes_toDigits n).2.1 _ hc) (by simp [Blank])
  have hlen : N.gates.length = N.numGates := by simp [Net.gates]
  refine ⟨Nat.toDigits 10 N.numGates ++ ' ' :: Nat.toDigits 10 N.numWires,
    '2' :: ' ' :: (Nat.toDigits 10 N.n1 ++ ' ' :: (Nat.toDigits 10 N.n2 ++ [' '])),
    '1' :: ' ' :: (Nat.toDigits 10 N.m ++ [' ']), [], _, ?_, ?_,
    ⟨N.desc.header.map (Nat.toDigits 10), Props.forall₂_toDigits _, ?_⟩, gateLines_ok N.gates tail⟩
  · simp [Net.text, Net.headText, digs_ten _ _ hs.gates, digs_ten _ _ hs.wires, digs_ten _ _ hs.n1,
      digs_ten _ _ hs.n2, digs_ten _ _ hs.m]
  · intro l hl
    simp only [List.mem_cons, List.not_mem_nil, or_false] at hl
    rcases hl with rfl | rfl | rfl | rfl <;> simp [nl]
  · have sp : Blank ' ' := Or.inl rfl
    have ln : Blank '\n' := by simp [Blank]
    have h0 : Layout [] ['\n', '\n'] := .nil _ (by simp [Blank])
    have h1 := layout_tok sp 1 (layout_tok sp N.m h0)
    have h2 := layout_tok sp 2 (layout_tok sp N.n1 (layout_tok sp N.n2 (layout_blank ln h1)))
    have h3 := layout_tok sp N.numGates (layout_tok ln N.numWires h2)
    have t1 : Nat.toDigits 10 1 = ['1'] := by decide
    have t2 : Nat.toDigits 10 2 = ['2'] := by decide
    simp only [BristolDesc.header, Net.desc, hlen, List.map_cons, List.map_nil, List.cons_append,
      List.nil_append, List.length_cons, List.length_nil]
    rw [t1, t2] at h3 ⊢
    simpa [t1] using h3

theorem Net.valid {N : Net} {rank : Nat → Nat} (hs : N.Small) (h : N.Checked rank) : N.desc.Valid := by
  have hlen : N.gates.length = N.numGates := by simp [Net.gates]
  refine ⟨hs.wires, by rw [Net.desc, hlen]; exact hs.gates, by simp [Net.desc], by simp [Net.desc],
    by simpa [Net.desc] using h.wires, by simpa [Net.desc] using h.outsLe, ?_⟩
  intro g hg w hw
  obtain ⟨q, hq, rfl⟩ := List.mem_map.1 hg
  have hq := List.mem_range.1 hq
  obtain ⟨h1, _, _, h4⟩ := gateOk_iff (h.gate q hq)
  have hsub : w ∈ (decodeGate (N.slot q)).inWires ∨ w = codeO (N.slot q) := by
    rw [← decodeGate_outWire]
    revert hw
    generalize decodeGate (N.slot q) = g
    cases g <;> simp [Gate.wires, Gate.inWires, Gate.outWire] <;> tauto
  rcases hsub with hin | rfl
  · rcases h4 w hin with hlt | ⟨p, hp, rfl⟩
    · exact lt_of_lt_of_le hlt h.wires
    · exact (gateOk_iff (h.gate p (by omega))).1
  · exact h1

/-- The parser turns the text into the circuit. -/
theorem Net.parse {N : Net} {rank : Nat → Nat} (hs : N.Small) (h : N.Checked rank) (tail : List Char) :
    fromBristol (N.text tail) = some N.circuit := by
  obtain ⟨c, e, h1, h2, h3, h4, h5, h6⟩ :=
    Props.C21_parse_partial N.desc (Net.valid hs h) _ (Net.isFile hs tail)
  rw [e]
  obtain ⟨gates, inputs, outputs, numWires⟩ := c
  simp only [Net.desc] at h1 h2 h3 h4 h5 h6
  subst h1 h2
  obtain ⟨x, y, rfl⟩ : ∃ x y, inputs = [x, y] :=
    List.length_eq_two.1 (by simpa using congrArg List.length h3)
  obtain ⟨z, rfl⟩ : ∃ z, outputs = [z] :=
    List.length_eq_one_iff.1 (by simpa using congrArg List.length h5)
  simp only [List.map_cons, List.map_nil, List.cons.injEq, and_true] at h3
  simp only [List.flatten_cons, List.flatten_nil, List.append_nil, List.sum_cons, List.sum_nil,
    Nat.add_zero, List.reverse_cons, List.reverse_nil, List.nil_append] at h4 h6
  have hr : List.range (N.n1 + N.n2) = List.range' 0 N.n1 ++ List.range' N.n1 N.n2 := by
    rw [List.range_eq_range']
    simpa using (List.range'_append (s := 0) (m := N.n1) (n := N.n2) (step := 1)).symm
  rw [hr] at h4
  obtain ⟨rfl, rfl⟩ := List.append_inj h4 (by rw [h3.1, List.length_range'])
  subst h6
  rfl

theorem Net.proper {N : Net} {rank : Nat → Nat} (hs : N.Small) (h : N.Checked rank) : N.desc.Proper := by
  refine ⟨Net.valid hs h, ?_, ?_⟩
  · have := topological_from h.gate N.numGates 0 (by omega) (List.range (N.n1 + N.n2))
      (by intro w; simp)
    rw [← List.range_eq_range'] at this
    simpa [Net.desc, Net.gates] using this
  · intro w h1 h2
    simp only [Net.desc, List.sum_cons, List.sum_nil, Nat.add_zero] at h1 h2 ⊢
    rcases wireOk_iff (h.outs w h1 h2) with hlt | ⟨p, hp, e⟩
    · exact Or.inl hlt
    · exact Or.inr ⟨decodeGate (N.slot p), List.mem_map.2 ⟨p, List.mem_range.2 hp, rfl⟩, by
        rw [decodeGate_outWire, e]⟩

/-! ## Blocks of text -/

theorem flatMap_blocks {α : Type} (f : Nat → List α) (size n : Nat) (hsize : 0 < size) (B : Nat)
    (hB : n ≤ size * B) (b0 : Nat) :
    (List.range' b0 (B - b0)).flatMap (fun j => (List.range' (size * j) (min size (n - size * j))).flatMap f)
      = (List.range' (size * b0) (n - size * b0)).flatMap f := by
  obtain ⟨d, hd⟩ : ∃ d, d = B - b0 := ⟨_, rfl⟩
  rw [← hd]
  induction d generalizing b0 with
  | zero =>
    have : n - size * b0 = 0 := by
      have : size * B ≤ size * b0 := Nat.mul_le_mul_left _ (by omega)
      omega
    rw [this]
    rfl
  | succ d ih =>
    rw [List.range'_succ, List.flatMap_cons, ih (b0 + 1) (by omega), ← List.flatMap_append]
    congr 1
    rw [Nat.mul_add, Nat.mul_one]
    by_cases hc : size ≤ n - size * b0
    · rw [min_eq_left hc]
      have e : n - size * b0 = size + (n - (size * b0 + size)) := by omega
      conv_rhs => rw [e]
      simp
    · have e : n - (size * b0 + size) = 0 := by omega
      rw [min_eq_right (by omega), e]
      simp

/-- The text of the file from its blocks. -/
theorem Net.text_blocks {N : Net} {rank : Nat → Nat} (hs : N.Small) (h : N.Checked rank) (size B : Nat)
    (hsize : 0 < size) (hB : N.numGates ≤ size * B) (head : String) (blocks : List String) (tail : String)
    (h1 : head = String.ofList N.headText) (h2 : blocks = (List.range B).map (N.block size)) :
    (head ++ String.join blocks ++ tail).toList = N.text tail.toList := by
  have hj : ∀ l : List String, (String.join l).toList = l.flatMap String.toList := by
    have hf : ∀ (l : List String) (acc : String), (l.foldl (fun r s => r ++ s) acc).toList
        = acc.toList ++ l.flatMap String.toList := by
      intro l
      induction l with
      | nil => simp
      | cons x l ih =>
        intro acc
        rw [List.foldl_cons, ih, String.toList_append, List.flatMap_cons, List.append_assoc]
    intro l
    have := hf l ""
    simpa [String.join] using this
  rw [String.toList_append, String.toList_append, hj, h1, h2, String.toList_ofList, List.append_assoc]
  unfold Net.text
  congr 2
  have hb : ∀ j, (N.block size j).toList = (List.range' (size * j) (min size (N.numGates - size * j))).flatMap
      fun p => lineOf (decodeGate (N.slot p)) ++ ['\n'] := by
    intro j
    rw [Net.block, String.toList_ofList, gateLines_eq, List.append_nil]
    intro p h1 h2
    have := (gateOk_iff (h.gate p (by omega))).1
    exact lt_trans this hs.wires
  rw [List.flatMap_map]
  simp only [hb]
  have := flatMap_blocks (fun p => lineOf (decodeGate (N.slot p)) ++ ['\n']) size N.numGates hsize B hB 0
  simp only [Nat.sub_zero, Nat.mul_zero] at this
  rw [List.range_eq_range', this, Net.gates, List.flatMap_map, List.range_eq_range']

end Verif
