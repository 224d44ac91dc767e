import Verif.EstimatesLemmas

/-!
# The estimate of the communication, compared with what the parties count

`scripts/communication_estimates.py --semi-honest` is given the numbers of input wires, AND gates and XOR gates of a circuit;
`README.md:143-144` says that INV gates can be considered as XOR gates, since the latter are more expensive.
-/

open Verif

namespace Verif.Props

/-! ### C93: the estimate of the communication -/

section
variable (P : EstParams) (ht : P.t < P.n) (hb : 0 < P.binsupDim) (hnoise : P.noise = 2) (c : Circuit) (p : PackedCircuit)
  (hp : c.pack P.l = some p)
include ht hb hnoise hp

/-- C93, garbling phase, circuits without INV gates: the field elements of the messages of `garble` are those of the estimate,
except that the script rounds once where the code rounds for each of the `2K+1` coordinates.  So the estimate is never too high,
and too low by less than `4(2K+1)` elements between each pair of parties. -/
theorem C93_garble_bounds (hinv : numKind c.gates .inv = 0) :
    ∃ e, P.semihon c.inputs.flatten.length (numKind c.gates .and) (numKind c.gates .xor) = some e ∧
      ∀ elems, elems = garbleElems P.n P.l P.keyLen (p.inputs.length + p.gates.length) (p.gates.flatMap PackedGate.inps).length
        (p.gates.map PackedGate.kind) →
      e.garble ≤ P.fcomm * elems ∧ P.fcomm * elems ≤ e.garble + P.fcomm * (P.n * P.n * (4 * (2 * P.keyLen + 1))) := by
  obtain ⟨hl, A, X, V, W, I, hA, hX, hV, hW, hI, _, _, hel', _⟩ := pack_elems hp P.n P.keyLen
  obtain ⟨e, he, A', X', W', hA', hX', hW', hg, _⟩ := semihon_eq P hl ht hb hnoise c.inputs.flatten.length (numKind c.gates .and)
    (numKind c.gates .xor)
  rw [hinv, cdiv_zero hl] at hV
  subst hV
  obtain rfl : A' = A := hA'.trans hA.symm
  obtain rfl : X' = X := hX'.trans hX.symm
  obtain rfl : W' = W := hW'.trans hW.symm
  obtain rfl : I = 2 * (A' + X') := by omega
  refine ⟨e, he, fun elems hel => ?_⟩
  rw [hel', Nat.add_zero X'] at hel
  have m1 := cdiv_mul_le W' (2 * P.keyLen + 1) hl
  have m2 := cdiv_mul_le (2 * (A' + X')) (2 * P.keyLen + 1) hl
  have m3 := mul_cdiv_lt W' (2 * P.keyLen + 1) hl (by omega)
  have m4 := mul_cdiv_lt (2 * (A' + X')) (2 * P.keyLen + 1) hl (by omega)
  rw [hel, hg, ← Nat.mul_add]
  constructor
  · refine Nat.mul_le_mul_left _ ?_
    gcongr
  · refine Nat.mul_le_mul_left _ ?_
    have k2 := Nat.mul_le_mul_right (P.n * P.n * 2) (show cdiv W' P.l * (2 * P.keyLen + 1) + cdiv (2 * (A' + X')) P.l * (2 * P.keyLen + 1)
      ≤ cdiv (W' * (2 * P.keyLen + 1)) P.l + cdiv (2 * (A' + X') * (2 * P.keyLen + 1)) P.l + 2 * (2 * P.keyLen + 1) by omega)
    rw [Nat.add_mul _ (2 * (2 * P.keyLen + 1)), show 2 * (2 * P.keyLen + 1) * (P.n * P.n * 2)
      = P.n * P.n * (4 * (2 * P.keyLen + 1)) by ring] at k2
    omega

/-- C93 for circuits without INV gates whose numbers of blocks of wires and of gate inputs are multiples of the packing parameter:
the field elements of the messages of `garble` and of `preproc` take exactly the bytes of the estimate.  (For other circuits the
claim is false: `C93_rounding_false`, `C93_inv_false`.) -/
theorem C93_exact_partial (hinv : numKind c.gates .inv = 0) (hdw : P.l ∣ p.inputs.length + p.gates.length)
    (hdi : P.l ∣ (p.gates.flatMap PackedGate.inps).length) :
    ∃ e, P.semihon c.inputs.flatten.length (numKind c.gates .and) (numKind c.gates .xor) = some e ∧
      e.garble = P.fcomm * garbleElems P.n P.l P.keyLen (p.inputs.length + p.gates.length) (p.gates.flatMap PackedGate.inps).length
        (p.gates.map PackedGate.kind) ∧
      ∀ d, p.describe P.n P.t P.l ⟨P.keyLen, P.ctxLen⟩ = some d →
        e.preproc = P.fcomm * preprocElems P.n (P.n - P.t) P.binsupDim d := by
  obtain ⟨hl, A, X, V, W, I, hA, hX, hV, hW, hI, eW, eI, hel, hdesc⟩ := pack_elems hp P.n P.keyLen
  obtain ⟨e, he, A', X', W', hA', hX', hW', hg, hpre⟩ := semihon_eq P hl ht hb hnoise c.inputs.flatten.length
    (numKind c.gates .and) (numKind c.gates .xor)
  rw [hinv, cdiv_zero hl] at hV
  subst hV
  obtain rfl : A' = A := hA'.trans hA.symm
  obtain rfl : X' = X := hX'.trans hX.symm
  obtain rfl : W' = W := hW'.trans hW.symm
  obtain rfl : I = 2 * (A' + X') := by omega
  rw [eW] at hdw
  rw [eI] at hdi
  have m1 := cdiv_mul_of_dvd (2 * P.keyLen + 1) hl hdw
  have m2 := cdiv_mul_of_dvd (2 * P.keyLen + 1) hl hdi
  refine ⟨e, he, ?_, fun d hd => ?_⟩
  · rw [hel, hg, m1, m2, Nat.add_zero X']
  · obtain ⟨d1, d2, d3, d4, d5⟩ := hdesc P.t _ d rfl hd
    rw [hpre]
    unfold preprocElems EstRand EstZero
    rw [d1, d2, d3, d4, d5, m1, m2, Nat.add_zero X']
    refine preproc_congr _ _ _ _ ?_ ?_ ?_ ?_ <;> ring

/-- C93, preprocessing phase, circuits without INV gates: the field elements of the messages of `preproc` take at least the bytes of
the estimate. -/
theorem C93_preproc_bound (hinv : numKind c.gates .inv = 0) (d : PreProcCount)
    (hd : p.describe P.n P.t P.l ⟨P.keyLen, P.ctxLen⟩ = some d) :
    ∃ e, P.semihon c.inputs.flatten.length (numKind c.gates .and) (numKind c.gates .xor) = some e ∧
      e.preproc ≤ P.fcomm * preprocElems P.n (P.n - P.t) P.binsupDim d := by
  obtain ⟨hl, A, X, V, W, I, hA, hX, hV, hW, hI, eW, eI, hel, hdesc⟩ := pack_elems hp P.n P.keyLen
  obtain ⟨e, he, A', X', W', hA', hX', hW', hg, hpre⟩ := semihon_eq P hl ht hb hnoise c.inputs.flatten.length
    (numKind c.gates .and) (numKind c.gates .xor)
  rw [hinv, cdiv_zero hl] at hV
  subst hV
  obtain rfl : A' = A := hA'.trans hA.symm
  obtain rfl : X' = X := hX'.trans hX.symm
  obtain rfl : W' = W := hW'.trans hW.symm
  obtain rfl : I = 2 * (A' + X') := by omega
  have m1 := cdiv_mul_le W' (2 * P.keyLen + 1) hl
  have m2 := cdiv_mul_le (2 * (A' + X')) (2 * P.keyLen + 1) hl
  obtain ⟨d1, d2, d3, d4, d5⟩ := hdesc P.t _ d rfl hd
  refine ⟨e, he, ?_⟩
  rw [hpre]
  unfold preprocElems EstRand EstZero
  rw [d1, d2, d3, d4, d5, Nat.add_zero X']
  have k1 := Nat.mul_le_mul_right (P.n + P.t) (Nat.add_le_add m1 m2)
  have k2 := Nat.mul_le_mul_right P.n (Nat.mul_le_mul_right 2 (Nat.add_le_add m1 m2))
  refine preproc_le _ _ _ _ ?_ ?_ ?_ ?_
  · simp only [] at *
    omega
  · simp only [] at *
    omega
  · simp only []
    omega
  · simp only []
    omega

/-- C93, INV gates counted as XOR gates: if the packing parameter divides the number of XOR gates, the number of blocks of wires and
twice the number of blocks of gates, then the field elements of the messages of `garble` and of `preproc` take at most the bytes of
the estimate. -/
theorem C93_inv_partial (hx : P.l ∣ numKind c.gates .xor) (hdw : P.l ∣ p.inputs.length + p.gates.length)
    (hdi : P.l ∣ 2 * p.gates.length) :
    ∃ e, P.semihon c.inputs.flatten.length (numKind c.gates .and) (numKind c.gates .xor + numKind c.gates .inv) = some e ∧
      P.fcomm * garbleElems P.n P.l P.keyLen (p.inputs.length + p.gates.length) (p.gates.flatMap PackedGate.inps).length
        (p.gates.map PackedGate.kind) ≤ e.garble ∧
      ∀ d, p.describe P.n P.t P.l ⟨P.keyLen, P.ctxLen⟩ = some d →
        P.fcomm * preprocElems P.n (P.n - P.t) P.binsupDim d ≤ e.preproc := by
  obtain ⟨hl, A, X, V, W, I, hA, hX, hV, hW, hI, eW, eI, hel, hdesc⟩ := pack_elems hp P.n P.keyLen
  obtain ⟨e, he, A', X', W', hA', hX', hW', hg, hpre⟩ := semihon_eq P hl ht hb hnoise c.inputs.flatten.length
    (numKind c.gates .and) (numKind c.gates .xor + numKind c.gates .inv)
  rw [cdiv_add_of_dvd hl hx, ← hX, ← hV] at hX'
  obtain rfl : A' = A := hA'.trans hA.symm
  obtain rfl : W' = W := by omega
  have hgl : p.gates.length = A' + X' := by
    have := (pack_counts hp).2.1
    omega
  rw [eW] at hdw
  rw [hgl] at hdi
  have m1 := cdiv_mul_of_dvd (2 * P.keyLen + 1) hl hdw
  have m2 := cdiv_mul_of_dvd (2 * P.keyLen + 1) hl hdi
  have hIle : I ≤ 2 * (A' + X') := by omega
  have m3 := Nat.mul_le_mul_right (2 * P.keyLen + 1) (cdiv_mono (b := P.l) hIle)
  refine ⟨e, he, ?_, fun d hd => ?_⟩
  · rw [hel, hg, m1, m2, hX']
    refine Nat.mul_le_mul_left _ ?_
    rw [hX'] at m3 hIle
    gcongr
  · obtain ⟨d1, d2, d3, d4, d5⟩ := hdesc P.t _ d rfl hd
    rw [hpre]
    unfold preprocElems EstRand EstZero
    rw [d1, d2, d3, d4, d5, m1, m2, hX']
    rw [hX'] at m3
    have k0 : (A' + X) * 4 * P.ctxLen + V * 2 * P.ctxLen ≤ (A' + (X + V)) * 4 * P.ctxLen := by
      rw [← Nat.add_mul]
      exact Nat.mul_le_mul_right _ (by omega)
    have k1 := Nat.mul_le_mul_right (P.n + P.t) (Nat.add_le_add_left m3 (cdiv W' P.l * (2 * P.keyLen + 1)))
    have k2 := Nat.mul_le_mul_right P.n (Nat.mul_le_mul_right 2 (Nat.add_le_add_left m3 (cdiv W' P.l * (2 * P.keyLen + 1))))
    refine preproc_ge _ _ _ _ ?_ ?_ ?_ k0
    · simp only [] at *
      omega
    · simp only [] at *
      omega
    · simp only [] at *
      omega

end

section
variable {F : Type} [CodeField F] [DecidableEq F]

/-- C93 over the TCP network: for a circuit as in `C93_exact_partial`, in every schedule of `garble` the bytes which all parties
count (without the IDs) are those of the estimate and 8 for each message. -/
theorem C93_garble_partial (cd : Codec F) (hc : cd.Ok) (P : EstParams) (hB : 0 < P.fcomm) (hw : cd.Width P.fcomm) (ctx : Ctx F)
    (hn : ctx.n = P.n) (hll : ctx.l = P.l) (ht : P.t < P.n) (hbd : 0 < P.binsupDim) (hnoise : P.noise = 2)
    (c : Circuit) (circ : PackedCircuit) (hp : c.pack P.l = some circ) (hinv : numKind c.gates .inv = 0)
    (hdw : P.l ∣ circ.inputs.length + circ.gates.length) (hdi : P.l ∣ (circ.gates.flatMap PackedGate.inps).length)
    (hash : List Nat → List Nat) (rng : List Nat → Nat → F) (g : GarbleCtx F)
    (hnew : GarbleCtx.new hash rng ctx ⟨P.keyLen, P.ctxLen⟩ circ = some g) (seahash : List Nat → Nat) (lead : ProtocolID → Nat)
    (hlead : ∀ id, chooseLeader seahash id none ctx.n = some (lead id)) (tp : GarbleTapes F) (pre : List (PreProc F))
    (hpre : pre.length = ctx.n) (hb : P.fcomm * (2 * ((ctx.n + ctx.t) * (2 * P.keyLen + 1))) < 2 ^ 63)
    (hK : P.fcomm * (3 * (P.keyLen + 1)) < 2 ^ 63) (id : ProtocolID) (hid : id.length ≤ 239) (ids : List ProtocolID)
    (hids : garbleIdsOf id circ.inputs.length ctx.l (circ.gates.map PackedGate.kind) = some ids)
    (tables : List (List (List (List F)))) (st : GarbleState F) (h : garble ctx g tp pre = some (tables, st)) :
    ∃ e jobs outs, P.semihon c.inputs.flatten.length (numKind c.gates .and) (numKind c.gates .xor) = some e ∧
      garbleJobs cd ctx g lead tp pre id = some jobs ∧ NetScheduleFree ctx.n jobs outs ∧
      ∀ (es : List FStep) (f : Full (GOut F)), (Full.start ctx.n).run ctx.n jobs es = some f → f.Stuck ctx.n jobs →
        (∑ p ∈ Finset.range ctx.n, ∑ q ∈ Finset.range ctx.n, ((f.stats q)[p]?).getD 0).1 = e.garble
          + 8 * garbleMsgs P.n P.l (circ.inputs.length + circ.gates.length) (circ.gates.flatMap PackedGate.inps).length
            (circ.gates.map PackedGate.kind) := by
  obtain ⟨e, he, hg, _⟩ := C93_exact_partial P ht hbd hnoise c circ hp hinv hdw hdi
  obtain ⟨jobs, outs, k1, k2, k3⟩ := C83_garble_bytes cd hc P.fcomm hB hw ctx hash rng ⟨P.keyLen, P.ctxLen⟩ circ g hnew seahash lead
    hlead tp pre hpre hb hK id hid ids hids tables st h
  refine ⟨e, jobs, outs, he, k1, k2, fun es f hrun hst => ?_⟩
  rw [k3 es f hrun hst, garbleBytes_split, hg, hn, hll, Nat.add_comm]

/-- C93 over the TCP network: for a circuit as in `C93_exact_partial`, in every schedule of `preproc` the bytes which all parties
count (without the IDs) are those of the estimate and 8 for each of the `7n²` messages. -/
theorem C93_preproc_partial (cd : Codec F) (hc : cd.Ok) (P : EstParams) (hB : 0 < P.fcomm) (hw : cd.Width P.fcomm) (ctx : Ctx F)
    (hn : ctx.n = P.n) (ht : P.t < P.n) (hbd : 0 < P.binsupDim) (hnoise : P.noise = 2) (hn32 : ctx.n < 2 ^ 32)
    (c : Circuit) (circ : PackedCircuit) (hp : c.pack P.l = some circ) (hinv : numKind c.gates .inv = 0)
    (hdw : P.l ∣ circ.inputs.length + circ.gates.length) (hdi : P.l ∣ (circ.gates.flatMap PackedGate.inps).length)
    (desc : PreProcCount) (hd : circ.describe P.n P.t P.l ⟨P.keyLen, P.ctxLen⟩ = some desc) (m mb : Mat F)
    (hm : m.rows.length = P.n - P.t) (hmb : mb.rows.length = P.binsupDim)
    (hr : P.fcomm * (desc.numKeys + desc.randoms + 3 * desc.errors) < 2 ^ 63)
    (hz : P.fcomm * (desc.zeros + 2 * desc.errors) < 2 ^ 63) (hb : P.fcomm * (desc.masks + 2 * desc.errors) < 2 ^ 63)
    (tp : PreTapes F) (id : ProtocolID) (hid : id.length ≤ 250) (res : List (PreProc F))
    (h : preproc ctx m mb desc tp = some res) :
    ∃ e jobs outs, P.semihon c.inputs.flatten.length (numKind c.gates .and) (numKind c.gates .xor) = some e ∧
      preprocJobs cd ctx m mb desc tp id = some jobs ∧ NetScheduleFree ctx.n jobs outs ∧
      ∀ (es : List FStep) (f : Full (List F)), (Full.start ctx.n).run ctx.n jobs es = some f → f.Stuck ctx.n jobs →
        (∑ p ∈ Finset.range ctx.n, ∑ q ∈ Finset.range ctx.n, ((f.stats q)[p]?).getD 0).1 = e.preproc + 8 * (7 * (P.n * P.n)) := by
  obtain ⟨e, he, _, hg⟩ := C93_exact_partial P ht hbd hnoise c circ hp hinv hdw hdi
  obtain ⟨jobs, outs, k1, k2, k3⟩ := C83_preproc cd hc P.fcomm hB hw ctx hn32 m mb desc hr hz hb tp id hid res h
  refine ⟨e, jobs, outs, he, k1, k2, fun es f hrun hst => ?_⟩
  have k4 := (k3 es f hrun hst).2
  rw [hg desc hd, ← hm, ← hmb, Nat.add_comm, ← preprocBytes_split P.n P.fcomm m.rows.length mb.rows.length id.length desc (by omega),
    ← hn, Prod.fst_sum]
  refine Finset.sum_congr rfl fun p hp => ?_
  rw [Prod.fst_sum]
  refine Finset.sum_congr rfl fun q hq => ?_
  obtain ⟨el, hel, hs⟩ := k4 p (Finset.mem_range.1 hp) q (Finset.mem_range.1 hq)
  rw [hs, Option.getD_some, hel]
  rfl

end

/-- C93 is false because of the rounding: for the half adder, seven parties, packing parameter 2 and LPN keys of length 1, the field
elements of the messages of `garble` take 1596 bytes and the estimate is 1498 bytes; those of `preproc` take 6062 bytes and
the estimate is 5915 bytes. -/
theorem C93_rounding_false : ∃ (c : Circuit) (p : PackedCircuit) (P : EstParams) (e : SemihonEst) (d : PreProcCount),
    c = halfAdderCircuit ∧ P = ⟨4, 7, 2, 2, 2, 1, 3, 2⟩ ∧ c.pack P.l = some p ∧
    P.semihon c.inputs.flatten.length (numKind c.gates .and) (numKind c.gates .xor) = some e ∧
    p.describe P.n P.t P.l ⟨P.keyLen, P.ctxLen⟩ = some d ∧
    e.garble = 1498 ∧ e.preproc = 5915 ∧
    P.fcomm * garbleElems P.n P.l P.keyLen (p.inputs.length + p.gates.length) (p.gates.flatMap PackedGate.inps).length
      (p.gates.map PackedGate.kind) = 1596 ∧
    P.fcomm * preprocElems P.n (P.n - P.t) P.binsupDim d = 6062 := by
  refine ⟨_, _, _, _, _, rfl, rfl, rfl, rfl, rfl, ?_⟩
  decide +kernel

/-- A circuit with two AND gates and two INV gates; packed with parameter 2 it is the circuit of the examples of `garble`. -/
def invCircuit : Circuit := ⟨[.and ⟨#v[0, 1], 2⟩, .and ⟨#v[1, 1], 3⟩, .inv ⟨#v[2], 4⟩, .inv ⟨#v[3], 5⟩], [[0], [1]], [[4, 5]], 6⟩

/-- C93 is false for INV gates, although the estimate counts them as XOR gates: seven parties garble a circuit with two AND gates
and two INV gates, packing parameter 2, LPN keys of length 1.  In every schedule they count 4130 bytes without IDs; with 8 bytes for
each of the 322 messages the estimate is 4074 bytes. -/
theorem C93_inv_false : ∃ (P : EstParams) (e : SemihonEst), P = ⟨4, 7, 2, 2, 2, 1, 3, 2⟩ ∧ invCircuit.pack P.l = some exCirc ∧
    P.semihon invCircuit.inputs.flatten.length (numKind invCircuit.gates .and)
      (numKind invCircuit.gates .xor + numKind invCircuit.gates .inv) = some e ∧
    e.garble + 8 * garbleMsgs P.n P.l (exCirc.inputs.length + exCirc.gates.length) (exCirc.gates.flatMap PackedGate.inps).length
      (exCirc.gates.map PackedGate.kind) = 4074 ∧
    ∃ (ctx : Ctx (GF 4)) (g : GarbleCtx (GF 4)) (tp : GarbleTapes (GF 4)) (pre : List (PreProc (GF 4)))
      (jobs : List (Job (GOut (GF 4)))) (outs : List _), exCtx = some ctx ∧
      garbleJobs (gfCodec 4) ctx g (fun id => id.sum % 7) tp pre [9] = some jobs ∧ NetScheduleFree 7 jobs outs ∧
      ∀ (es : List FStep) (f : Full (GOut (GF 4))), (Full.start 7).run 7 jobs es = some f → f.Stuck 7 jobs →
        (∑ p ∈ Finset.range 7, ∑ q ∈ Finset.range 7, ((f.stats q)[p]?).getD 0).1 = 4130 := by
  have h : invCircuit.pack 2 = some exCirc := by decide +kernel
  refine ⟨_, _, rfl, h, rfl, by decide +kernel, ?_⟩
  obtain ⟨ctx, g, tp, pre, jobs, outs, h1, h2, h3, h4⟩ := exGarble_bytes
  exact ⟨ctx, g, tp, pre, jobs, outs, h1, h2, h3, fun es f hrun hst => by rw [h4 es f hrun hst]⟩

/-- C93 is false for INV gates in the preprocessing phase as well: a XOR gate and an INV gate fill one block in the estimate, but two
blocks in the code. -/
theorem C93_inv_preproc_false : ∃ (c : Circuit) (p : PackedCircuit) (P : EstParams) (e : SemihonEst) (d : PreProcCount),
    c = ⟨[.xor ⟨#v[0, 1], 2⟩, .inv ⟨#v[2], 3⟩], [[0], [1]], [[3]], 4⟩ ∧ P = ⟨4, 7, 2, 2, 2, 1, 3, 2⟩ ∧ c.pack P.l = some p ∧
    P.semihon c.inputs.flatten.length (numKind c.gates .and) (numKind c.gates .xor + numKind c.gates .inv) = some e ∧
    p.describe P.n P.t P.l ⟨P.keyLen, P.ctxLen⟩ = some d ∧
    e.preproc < P.fcomm * preprocElems P.n (P.n - P.t) P.binsupDim d := by
  refine ⟨_, _, _, _, _, rfl, rfl, rfl, rfl, rfl, ?_⟩
  decide +kernel

/-- With packing parameter 2, four inputs, two AND gates and two XOR gates make four blocks of wires and four of gate inputs, and the
estimate is exact. -/
example : ∃ (p : PackedCircuit) (e : SemihonEst),
    (⟨[.and ⟨#v[0, 1], 4⟩, .and ⟨#v[1, 2], 5⟩, .xor ⟨#v[2, 3], 6⟩, .xor ⟨#v[3, 0], 7⟩], [[0, 1], [2, 3]], [[4, 5, 6, 7]], 8⟩
      : Circuit).pack 2 = some p ∧ (⟨4, 7, 2, 2, 2, 1, 3, 2⟩ : EstParams).semihon 4 2 2 = some e ∧
    (2 ∣ p.inputs.length + p.gates.length) ∧ (2 ∣ (p.gates.flatMap PackedGate.inps).length) ∧
    e.garble = garbleElems 7 2 1 (p.inputs.length + p.gates.length) (p.gates.flatMap PackedGate.inps).length
      (p.gates.map PackedGate.kind) := by
  refine ⟨_, _, rfl, rfl, ?_, ?_, ?_⟩ <;> decide +kernel

end Verif.Props
