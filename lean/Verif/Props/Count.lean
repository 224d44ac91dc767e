import Verif.CompEstLemmas

/-!
# C114: the number of field multiplications, and the script `scripts/computation_estimates.py`

`randC`, `garbleC`, … are the models of the protocols with a counter of field multiplications.  The theorems say that they compute the same as the
models without a counter, and how much they count; and compare this with `n` times the script's figure (the script's figures are those of one
party, and leaders are spread evenly).
-/

namespace Verif.Props

open Verif

section
variable {F : Type} [CodeField F] [DecidableEq F]

/-- The script is run for the parameters of the context. -/
structure Matches (P : EstParams) (ctx : Ctx F) : Prop where
  n : ctx.n = P.n
  t : ctx.t = P.t
  l : ctx.l = P.l

theorem Matches.ok {P : EstParams} {ctx : Ctx F} (hp : Matches P ctx) (h : ctx.Good) : EstOk P := by
  obtain ⟨_, s2, _⟩ := h.sizes
  have := h.posL
  exact ⟨by rw [← hp.l]; omega, by rw [← hp.l, ← hp.t, ← hp.n]; exact s2⟩

/-! ## The three kinds of shares -/

/-- **C114** (`rand`): the parties together perform exactly `n` times the multiplications of the script's `__rand`. -/
theorem C114_rand (P : EstParams) (ctx : Ctx F) (h : ctx.Good) (hp : Matches P ctx) (m : Mat F) (hm : m.WF)
    (hc : m.ncols = P.n) (hr : m.rows.length = P.n - P.t) (num : Nat) (tapes : List (List (List F))) :
    ∃ e, P.compRand num = some e ∧ Costs (randC ctx m num tapes) (rand ctx m num tapes) (P.n * e) := by
  refine ⟨_, compRand_eq (hp.ok h) num, (costs_rand h hm (hc.trans hp.n.symm) num _
    (by rw [hr]; exact numBatches_cdiv (Ok.dim (hp.ok h))) tapes).of_eq ?_⟩
  rw [hp.n, hp.t, hp.l, hr]

/-- **C114** (`zero`): exactly `n` times the script's `__zero`. -/
theorem C114_zero (P : EstParams) (ctx : Ctx F) (h : ctx.Good) (hp : Matches P ctx) (m : Mat F) (hm : m.WF)
    (hc : m.ncols = P.n) (hr : m.rows.length = P.n - P.t) (num : Nat) (tapes : List (List (List F))) :
    ∃ e, P.compZero num = some e ∧ Costs (zeroC ctx m num tapes) (zero ctx m num tapes) (P.n * e) := by
  refine ⟨_, compZero_eq (hp.ok h) num, (costs_zero h hm (hc.trans hp.n.symm) num _
    (by rw [hr]; exact numBatches_cdiv (Ok.dim (hp.ok h))) tapes).of_eq ?_⟩
  rw [hp.n, hp.l, hr]

/-- **C114** (`randbit`): exactly `n` times the script's `__bitrand`, with the dimension of the binary matrix that is used. -/
theorem C114_randbit (P : EstParams) (ctx : Ctx F) (h : ctx.Good) (hp : Matches P ctx) (m : Mat F) (hm : m.WF)
    (hc : m.ncols = P.n) (hb : 0 < P.binsupDim) (hr : m.rows.length = P.binsupDim) (num : Nat) (bits : List (List (List Bool)))
    (tapes : List (List (List F))) :
    ∃ e, P.compBitrand num = some e ∧ Costs (randbitC ctx m num bits tapes) (randbit ctx m num bits tapes) (P.n * e) := by
  refine ⟨_, compBitrand_eq (hp.ok h) hb num, (costs_randbit h hm (hc.trans hp.n.symm) num _
    (by rw [hr]; exact numBatches_cdiv hb) bits tapes).of_eq ?_⟩
  rw [hp.n, hp.t, hp.l, hr]

/-! ## Multiplication -/

/-- **C114** (`mult`): at most `n` times the script's `mult`, exactly if the number of parties divides the number of products, and the script is
too high by less than `n` degree reductions. -/
theorem C114_mult (P : EstParams) (ctx : Ctx F) (h : ctx.Good) (hp : Matches P ctx) (num : Nat) (tapes vxs vys randoms zeros : List (List F))
    (hx : ∀ v ∈ vxs, v.length = num) :
    ∃ e k, P.compMult num = some e ∧ Costs (multC ctx num tapes vxs vys randoms zeros) (mult ctx num tapes vxs vys randoms zeros) k ∧
      k ≤ P.n * e.comm ∧ P.n * e.comm ≤ k + (P.n - 1) * redCost P.n P.t P.l ∧ (k = P.n * e.comm ↔ P.n ∣ num) := by
  have ok := hp.ok h
  refine ⟨_, _, compMult_eq ok num, costs_mult h num tapes vxs vys randoms zeros hx, ?_⟩
  obtain ⟨r1, r2, r3⟩ := round_bounds (num := num) (Ok.pos ok) (redCost_pos ok)
  have e1 : num * multCost ctx.n ctx.t ctx.l = num * P.n + num * redCost P.n P.t P.l := by
    rw [hp.n, hp.t, hp.l]
    unfold multCost
    ring
  have e2 : P.n * (num + cdiv num P.n * redCost P.n P.t P.l) = num * P.n + P.n * (cdiv num P.n * redCost P.n P.t P.l) := by ring
  simp only
  rw [e1, e2, ← r3]
  rw [Nat.add_mul] at r2
  refine ⟨by omega, by omega, by omega⟩

/-! ## Preprocessing -/

/-- **C114** (`preproc`): for circuits without INV gates whose numbers of blocks are multiples of the packing parameter, the multiplications of a run
of the preprocessing are at most `n` times the script's total, exactly if the number of parties divides the number of errors. -/
theorem C114_preproc (P : EstParams) (ctx : Ctx F) (h : ctx.Good) (hp : Matches P ctx) (hbd : 0 < P.binsupDim) (hnoise : P.noise = 2)
    (c : Circuit) (circ : PackedCircuit) (hpack : c.pack P.l = some circ) (hinv : numKind c.gates .inv = 0)
    (hdw : P.l ∣ circ.inputs.length + circ.gates.length) (hdi : P.l ∣ (circ.gates.flatMap PackedGate.inps).length)
    (desc : PreProcCount) (hd : circ.describe P.n P.t P.l ⟨P.keyLen, P.ctxLen⟩ = some desc) (m mb : Mat F)
    (hm : m.WF) (hc : m.ncols = P.n) (hr : m.rows.length = P.n - P.t) (hmb : mb.WF) (hcb : mb.ncols = P.n) (hrb : mb.rows.length = P.binsupDim)
    (tp : PreTapes F) :
    ∃ e k, P.compSemihon c.inputs.flatten.length (numKind c.gates .and) (numKind c.gates .xor) = some e ∧
      Costs (preprocC ctx m mb desc tp) (preproc ctx m mb desc tp) k ∧
      k ≤ P.n * e.preproc ∧ P.n * e.preproc ≤ k + 2 * ((P.n - 1) * redCost P.n P.t P.l) ∧ (k = P.n * e.preproc ↔ P.n ∣ desc.errors) := by
  have ok := hp.ok h
  obtain ⟨e, he, A, X, W, hA, hX, hW, _, _, _, e1, e2, e3, e4⟩ := compSemihon_eq ok hbd hnoise c.inputs.flatten.length (numKind c.gates .and)
    (numKind c.gates .xor)
  obtain ⟨hl, A', X', V, W', I, hA', hX', hV, hW', hI, eW, eI, _, hdesc⟩ := pack_elems hpack P.n P.keyLen
  rw [hinv, cdiv_zero hl] at hV
  subst hV
  obtain rfl : A' = A := hA'.trans hA.symm
  obtain rfl : X' = X := hX'.trans hX.symm
  obtain rfl : W' = W := hW'.trans (by rw [hW]; rfl)
  obtain ⟨d1, d2, d3, d4, d5⟩ := hdesc P.t ⟨P.keyLen, P.ctxLen⟩ desc rfl hd
  rw [eW] at hdw
  rw [eI] at hdi
  obtain rfl : I = 2 * (A' + X') := by omega
  simp only [Nat.zero_mul, Nat.add_zero] at d3 d4 d5
  refine ⟨e, _, he, costs_preproc h hm (hc.trans hp.n.symm) (by rw [hr]; exact Ok.dim ok) hmb (hcb.trans hp.n.symm) (by rw [hrb]; exact hbd) desc tp, ?_⟩
  have f1 : desc.numKeys + desc.randoms + 3 * desc.errors = EstRand P W' A' X' := by
    rw [d2, d3, d5]
    unfold EstRand
    rw [cdiv_mul_of_dvd _ hl hdw, cdiv_mul_of_dvd _ hl hdi]
    ring
  have f2 : desc.zeros + 2 * desc.errors = EstZero P W' A' X' := by
    rw [d4, d5]
    unfold EstZero
    rw [cdiv_mul_of_dvd _ hl hdw, cdiv_mul_of_dvd _ hl hdi]
    ring
  obtain ⟨r1, r2, r3⟩ := round_bounds (num := desc.errors) (Ok.pos ok) (redCost_pos ok)
  rw [f1, f2, d1, hr, hrb, hp.n, hp.t, hp.l]
  unfold CompFigures.preproc
  rw [e1, e2, e3, e4, ← d5]
  generalize cdiv (EstRand P W' A' X') (P.n - P.t) * ((P.n - (P.t + P.l)) * (P.t + P.l) + (P.n - P.t) * P.n) = a
  generalize cdiv (EstZero P W' A' X') (P.n - P.t) * (P.l * P.n + (P.n - P.t) * P.n) = b
  generalize cdiv (W' + 2 * desc.errors) P.binsupDim * ((P.n - P.t) * (P.t + P.l) + P.binsupDim * P.n) = z
  have g1 : 2 * desc.errors * multCost P.n P.t P.l = 2 * (P.n * desc.errors) + 2 * (desc.errors * redCost P.n P.t P.l) := by
    unfold multCost
    ring
  have g2 : P.n * (2 * (desc.errors + cdiv desc.errors P.n * redCost P.n P.t P.l) + (a + b + z))
      = P.n * (a + b + z) + (2 * (P.n * desc.errors) + 2 * (P.n * (cdiv desc.errors P.n * redCost P.n P.t P.l))) := by ring
  rw [g1, g2, ← r3]
  rw [Nat.add_mul] at r2
  refine ⟨by omega, by omega, by omega⟩

/-! ## Garbling -/

/-- **C114** (`garble`): the number of multiplications in a run of `garble` depends on the packed circuit and the parameters only. -/
theorem C114_garble (hash : List Nat → List Nat) (rng : List Nat → Nat → F) (ctx : Ctx F) (h : ctx.Good) (lpn : LpnParams) (c : PackedCircuit)
    (g : GarbleCtx F) (hnew : GarbleCtx.new hash rng ctx lpn c = some g) (tp : GarbleTapes F) (pre : List (PreProc F)) :
    Costs (garbleC ctx g tp pre) (garble ctx g tp pre) (garbleCost ctx.n ctx.t ctx.l lpn.keyLen lpn.mssgLen c) :=
  costs_garble h (countCtx_of_new hnew) tp pre

end

/-- What the script misses for each of `b` groups of `l` transformations: a party evaluates matrices with `n` rows for both sharings (the script counts
an interpolation for the other shares only, and `l` instead of `n` rows for the second matrix). -/
def transGap (n t l k b : Nat) : Nat := (2 * k + 1) * b * (n * (t * (t + l) + n * (n - l)))

theorem rtCost_gap {P : EstParams} (ok : EstOk P) :
    rtCost P.n P.t P.l = P.n * (3 * (P.l * P.n) + (P.n - P.t) * (P.t + P.l)) + P.n * (P.t * (P.t + P.l) + P.n * (P.n - P.l)) := by
  have h1 := ok.n
  obtain ⟨x, hx⟩ : ∃ x, P.n = P.t + P.l + x := ⟨P.n - (P.t + P.l), by omega⟩
  have a : P.n - P.t = P.l + x := by omega
  have b : P.n - P.l = P.t + x := by omega
  unfold rtCost
  rw [a, b, hx]
  ring

/-- Circuits for which the script's other simplifications do not matter: no INV gates, full blocks, no wire twice in a block of inputs, and numbers of
blocks which are multiples of the packing parameter. -/
structure Regular (l : Nat) (c : Circuit) (p : PackedCircuit) : Prop where
  pack : c.pack l = some p
  noInv : numKind c.gates .inv = 0
  blocks : ∀ b ∈ p.blocks, b.length = l
  inps : ∀ ws ∈ p.gates.flatMap PackedGate.inps, ws.length = l ∧ ws.Nodup
  dvdW : l ∣ p.inputs.length + p.gates.length
  dvdI : l ∣ (p.gates.flatMap PackedGate.inps).length

/-- **C114** (`garble`, the gap): what the parties multiply in a run of `garble` is `n` times the script's total plus `transGap` – up to the script's
rounding of the number of degree reductions which each party leads. -/
theorem C114_garble_gap (P : EstParams) (ok : EstOk P) (hbd : 0 < P.binsupDim) (hnoise : P.noise = 2) (c : Circuit) (p : PackedCircuit)
    (hr : Regular P.l c p) :
    ∃ e, P.compSemihon c.inputs.flatten.length (numKind c.gates .and) (numKind c.gates .xor) = some e ∧
      ∀ W I gap, W = p.inputs.length + p.gates.length → I = (p.gates.flatMap PackedGate.inps).length →
        gap = transGap P.n P.t P.l P.keyLen (W / P.l + I / P.l) →
        garbleCost P.n P.t P.l P.keyLen P.ctxLen p ≤ P.n * e.garble + gap ∧
        P.n * e.garble + gap ≤ garbleCost P.n P.t P.l P.keyLen P.ctxLen p + 3 * ((P.n - 1) * redCost P.n P.t P.l) ∧
        (P.n ∣ W * (2 * P.keyLen + 1) → P.n ∣ I * (2 * P.keyLen + 1) → P.n ∣ (p.gates.map fun g => g.kind.numMult P.keyLen).sum →
          garbleCost P.n P.t P.l P.keyLen P.ctxLen p = P.n * e.garble + gap) := by
  obtain ⟨e, he, A, X, W, hA, hX, hW, e1, e2, e3, _, _, _, _⟩ := compSemihon_eq ok hbd hnoise c.inputs.flatten.length (numKind c.gates .and)
    (numKind c.gates .xor)
  obtain ⟨hl, c1, c2, c3, c4⟩ := pack_counts hr.pack
  obtain ⟨_, A', X', V, W', I, hA', hX', hV, hW', hI, eW, eI, _, _⟩ := pack_elems hr.pack P.n P.keyLen
  rw [hr.noInv, cdiv_zero hl] at hV c4
  subst hV
  obtain rfl : A' = A := hA'.trans hA.symm
  obtain rfl : X' = X := hX'.trans hX.symm
  obtain rfl : W' = W := hW'.trans (by rw [hW]; rfl)
  obtain rfl : I = 2 * (A' + X') := by omega
  have hdw := hr.dvdW
  have hdi := hr.dvdI
  refine ⟨e, he, ?_⟩
  rintro W I gap rfl rfl rfl
  rw [eW] at hdw ⊢
  rw [eI] at hdi ⊢
  have hbl : p.blocks.length = W' := by rw [← eW]; simp [PackedCircuit.blocks]
  have s1 : (p.gates.map fun g => gateCost P.n P.t P.l P.keyLen P.ctxLen g.kind).sum
      = A' * gateCost P.n P.t P.l P.keyLen P.ctxLen .and + X' * gateCost P.n P.t P.l P.keyLen P.ctxLen .xor := by
    have := sum_kinds (gateCost P.n P.t P.l P.keyLen P.ctxLen) (p.gates.map PackedGate.kind)
    rw [List.map_map, c2, c3, c4, Nat.zero_mul, Nat.add_zero, ← hA, ← hX] at this
    exact this
  have s2 : (p.gates.map fun g => g.kind.numMult P.keyLen).sum = A' * (3 * (P.keyLen + 1) + 1) + X' * (P.keyLen + 1) := by
    have := sum_kinds (GateKind.numMult P.keyLen) (p.gates.map PackedGate.kind)
    rw [List.map_map, c2, c3, c4, Nat.zero_mul, Nat.add_zero, ← hA, ← hX] at this
    exact this
  have s3 : (p.blocks.map fun b => transCost P.n P.t P.l b.length b.length).sum = W' * redCost P.n P.t P.l := by
    rw [sum_map_const (k := redCost P.n P.t P.l) fun b hb => ?_, hbl]
    rw [hr.blocks b hb]
    unfold transCost redCost
    rw [show P.l + P.n - (P.t + P.l) = P.n - P.t by omega]
  have s4 : ((p.gates.flatMap PackedGate.inps).map fun ws => transCost P.n P.t P.l (sortDedup ws).length ws.length
      + P.n * (sortDedup ws).length).sum = 2 * (A' + X') * (redCost P.n P.t P.l + P.n * P.l) := by
    rw [sum_map_const (k := redCost P.n P.t P.l + P.n * P.l) fun ws hws => ?_, eI]
    obtain ⟨h1, h2⟩ := hr.inps ws hws
    rw [sortDedup_length_nodup h2, h1]
    unfold transCost redCost
    rw [show P.l + P.n - (P.t + P.l) = P.n - P.t by omega]
  have hcd : ∀ {x : Nat}, P.l ∣ x → cdiv x P.l = x / P.l := by
    rintro x ⟨y, rfl⟩
    unfold cdiv
    rw [Nat.mul_div_cancel_left _ hl, show P.l * y + P.l - 1 = (P.l - 1) + P.l * y by omega, Nat.add_mul_div_left _ _ hl,
      Nat.div_eq_of_lt (by omega), Nat.zero_add]
  have hcw : (W' + P.l - 1) / P.l = W' / P.l := hcd hdw
  have hci : (2 * (A' + X') + P.l - 1) / P.l = 2 * (A' + X') / P.l := hcd hdi
  obtain ⟨r1, r2, r3⟩ := round_bounds (num := W' * (2 * P.keyLen + 1)) (Ok.pos ok) (redCost_pos ok)
  obtain ⟨q1, q2, q3⟩ := round_bounds (num := 2 * (A' + X') * (2 * P.keyLen + 1)) (Ok.pos ok) (redCost_pos ok)
  obtain ⟨u1, u2, u3⟩ := round_bounds (num := A' * (3 * (P.keyLen + 1) + 1) + X' * (P.keyLen + 1)) (Ok.pos ok) (redCost_pos ok)
  unfold garbleCost CompFigures.garble
  simp only
  rw [s1, s2, s3, s4, hbl, eI, hcw, hci, e1, e2, e3, cdiv_mul_of_dvd _ hl hdw, cdiv_mul_of_dvd _ hl hdi, hcd hdw, hcd hdi, rtCost_gap ok,
    ← r3, ← q3, ← u3]
  rw [Nat.add_mul] at r2 q2 u2
  have k1 : ∀ w i T G R : Nat, (2 * P.keyLen + 1) * ((w + i) * (P.n * T + P.n * G) + W' * R + 2 * (A' + X') * (R + P.n * P.l))
      + (A' * gateCost P.n P.t P.l P.keyLen P.ctxLen .and + X' * gateCost P.n P.t P.l P.keyLen P.ctxLen .xor)
      = P.n * ((w * (2 * P.keyLen + 1) + i * (2 * P.keyLen + 1)) * T) + (2 * P.keyLen + 1) * (w + i) * (P.n * G)
        + W' * (2 * P.keyLen + 1) * R + 2 * (A' + X') * (2 * P.keyLen + 1) * R + P.n * (2 * (A' + X') * (2 * P.keyLen + 1) * P.l)
        + P.n * (4 * (A' + X') * rowCost P.keyLen P.ctxLen) + P.n * (A' * (3 * (P.keyLen + 1) + 1) + X' * (P.keyLen + 1))
        + (A' * (3 * (P.keyLen + 1) + 1) + X' * (P.keyLen + 1)) * redCost P.n P.t P.l := by
    intro w i T G R
    unfold gateCost multCost
    simp only [GateKind.numMult, GateKind.numRows]
    ring
  rw [k1]
  unfold transGap
  have k2 : ∀ a b₁ b₂ c d R x y z : Nat, P.n * (a + (b₁ + b₂) * R + c + (x + y * R) + z)
      = P.n * a + P.n * (b₁ * R) + P.n * (b₂ * R) + P.n * c + P.n * x + P.n * (y * R) + P.n * z := by
    intros
    ring
  rw [k2 _ _ _ _ 0]
  refine ⟨by omega, by omega, ?_⟩
  intro h1 h2 h3
  omega

/-- **C114** (negative): for such circuits with at least one gate, a threshold `t ≥ 1` with `2 * (t + l) ≤ n + 1` (without which products cannot be
reconstructed) and keys of at least 8 elements, the script is always too low: the parties multiply more often in a run of `garble` than `n` times what
it prints. -/
theorem C114_garble_estimate_false {F : Type} [CodeField F] [DecidableEq F] (P : EstParams) (ctx : Ctx F) (h : ctx.Good) (hp : Matches P ctx)
    (hbd : 0 < P.binsupDim) (hnoise : P.noise = 2) (ht : 1 ≤ P.t) (hn : 2 * (P.t + P.l) ≤ P.n + 1) (hk : 8 ≤ P.keyLen)
    (c : Circuit) (p : PackedCircuit) (hr : Regular P.l c p) (hg : p.gates ≠ [])
    (hash : List Nat → List Nat) (rng : List Nat → Nat → F) (g : GarbleCtx F) (hnew : GarbleCtx.new hash rng ctx ⟨P.keyLen, P.ctxLen⟩ p = some g)
    (tp : GarbleTapes F) (pre : List (PreProc F)) :
    ∃ e k, P.compSemihon c.inputs.flatten.length (numKind c.gates .and) (numKind c.gates .xor) = some e ∧
      Costs (garbleC ctx g tp pre) (garble ctx g tp pre) k ∧ P.n * e.garble < k := by
  have ok := hp.ok h
  obtain ⟨e, he, hgap⟩ := C114_garble_gap P ok hbd hnoise c p hr
  have hC := C114_garble hash rng ctx h _ p g hnew tp pre
  rw [hp.n, hp.t, hp.l] at hC
  refine ⟨e, _, he, hC, ?_⟩
  obtain ⟨_, h2, _⟩ := hgap _ _ _ rfl rfl rfl
  have hl := ok.l
  have hW : 1 ≤ (p.inputs.length + p.gates.length) / P.l := by
    refine (Nat.one_le_div_iff hl).2 (Nat.le_of_dvd ?_ hr.dvdW)
    have := List.length_pos_of_ne_nil hg
    omega
  have key : 3 * ((P.n - 1) * redCost P.n P.t P.l) < transGap P.n P.t P.l P.keyLen
      ((p.inputs.length + p.gates.length) / P.l + (p.gates.flatMap PackedGate.inps).length / P.l) := by
    refine Nat.lt_of_lt_of_le ?_ (show 17 * 1 * (P.n * (P.t * (P.t + P.l) + P.n * (P.n - P.l))) ≤ _ from
      Nat.mul_le_mul_right _ (Nat.mul_le_mul (by omega) (Nat.le_add_right_of_le hW)))
    obtain ⟨x, hx⟩ : ∃ x, P.n = P.t + P.l + x := ⟨P.n - (P.t + P.l), by omega⟩
    have a : P.n - P.t = P.l + x := by omega
    have b : P.n - P.l = P.t + x := by omega
    have hx1 : P.t + P.l ≤ x + 1 := by omega
    unfold redCost
    rw [a, b]
    have hc : 3 * (P.l * P.n + (P.l + x) * (P.t + P.l)) < 17 * (P.t * (P.t + P.l) + P.n * (P.t + x)) := by
      have h5 : P.l ≤ x := by omega
      have h6 : P.l * P.n ≤ x * P.n := Nat.mul_le_mul_right _ h5
      have h7 : (P.l + x) * (P.t + P.l) ≤ (x + x) * P.n := Nat.mul_le_mul (by omega) (by omega)
      have h8 : P.n * (P.t + x) = P.t * P.n + x * P.n := by ring
      have h9 : (x + x) * P.n = 2 * (x * P.n) := by ring
      have h10 : 0 < P.t * P.n := Nat.mul_pos ht (by omega)
      omega
    calc 3 * ((P.n - 1) * (P.l * P.n + (P.l + x) * (P.t + P.l)))
        = (P.n - 1) * (3 * (P.l * P.n + (P.l + x) * (P.t + P.l))) := by ring
      _ ≤ P.n * (3 * (P.l * P.n + (P.l + x) * (P.t + P.l))) := Nat.mul_le_mul_right _ (by omega)
      _ < P.n * (17 * (P.t * (P.t + P.l) + P.n * (P.t + x))) := Nat.mul_lt_mul_of_pos_left hc (by omega)
      _ = _ := by ring
  exact Nat.lt_of_add_lt_add_right (Nat.lt_of_le_of_lt h2 (Nat.add_lt_add_left key _))

/-! ## Concrete cases -/

/-- The defaults of the script (`n = 128`, `t = 31`, keys of length 127, ciphertexts of length 555, `binsup_dim = 14`) with `l = 16`: for a group of
transformations a party multiplies 26496 times, the script counts 10703. -/
example : rtCost 128 31 16 = 128 * 26496 ∧
    (⟨18, 128, 31, 16, 14, 127, 555, 2⟩ : EstParams).compRandshare 16 = some ⟨10703, 159, 256, 0⟩ := by decide +kernel

/-- A circuit for which all conditions hold. -/
example : ∃ (p : PackedCircuit) (e : CompFigures),
    Regular 2 ⟨[.and ⟨#v[0, 1], 4⟩, .and ⟨#v[1, 2], 5⟩, .xor ⟨#v[2, 3], 6⟩, .xor ⟨#v[3, 0], 7⟩], [[0, 1], [2, 3]], [[4, 5, 6, 7]], 8⟩ p ∧
    (⟨4, 7, 2, 2, 2, 8, 9, 2⟩ : EstParams).compSemihon 4 2 2 = some e ∧
    7 * e.garble = 45479 ∧ garbleCost 7 2 2 8 9 p = 65641 := by
  refine ⟨_, _, ⟨rfl, by decide +kernel, by decide +kernel, by decide +kernel, by decide +kernel, by decide +kernel⟩, rfl, ?_, ?_⟩
  all_goals decide +kernel

end Verif.Props
