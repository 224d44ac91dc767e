import Verif.ScaleLemmas
import Verif.Props.Estimates

/-!
# How the communication grows with the circuit and with the number of parties

If the packing parameter is proportional to the number of parties, then the cost of a gate does not depend on the number of parties.
-/

open Verif

namespace Verif.Props

section
variable {F : Type} [CodeField F] [DecidableEq F]

/-! ### C105: communication per gate -/

/-- C105.  If the number of parties is at most `C` times the packing parameter, then the bytes which all parties count in `garble` are at most
linear in the number of input wires and gates, with a factor which depends on `C`, the length of the keys, the size of a field element and
(for the count with IDs) the length of the IDs, but not on the number of parties; and a term which does not depend on the circuit.  In
any case they are at least linear in the number of input wires and gates times the number of parties divided by the packing parameter. -/
theorem C105_garble (cd : Codec F) (hc : cd.Ok) (B : Nat) (hB : 0 < B) (hw : cd.Width B) (ctx : Ctx F) (C : Nat) (hC : ctx.n ≤ C * ctx.l)
    (hash : List Nat → List Nat) (rng : List Nat → Nat → F) (lpn : LpnParams) (c : Circuit) (circ : PackedCircuit)
    (hp : c.pack ctx.l = some circ) (g : GarbleCtx F)
    (hnew : GarbleCtx.new hash rng ctx lpn circ = some g) (seahash : List Nat → Nat) (lead : ProtocolID → Nat)
    (hlead : ∀ id, chooseLeader seahash id none ctx.n = some (lead id)) (tp : GarbleTapes F) (pre : List (PreProc F))
    (hpre : pre.length = ctx.n) (hb : B * (2 * ((ctx.n + ctx.t) * (2 * lpn.keyLen + 1))) < 2 ^ 63)
    (hK : B * (3 * (lpn.keyLen + 1)) < 2 ^ 63) (id : ProtocolID) (hid : id.length ≤ 239) (ids : List ProtocolID)
    (hids : garbleIdsOf id circ.inputs.length ctx.l (circ.gates.map PackedGate.kind) = some ids)
    (tables : List (List (List (List F)))) (st : GarbleState F) (h : garble ctx g tp pre = some (tables, st)) :
    ∃ jobs outs, garbleJobs cd ctx g lead tp pre id = some jobs ∧ NetScheduleFree ctx.n jobs outs ∧
      ∀ (es : List FStep) (f : Full (GOut F)), (Full.start ctx.n).run ctx.n jobs es = some f → f.Stuck ctx.n jobs →
        ∀ total size, total = ∑ p ∈ Finset.range ctx.n, ∑ q ∈ Finset.range ctx.n, ((f.stats q)[p]?).getD 0 →
          size = c.inputs.flatten.length + c.gates.length →
          total.1 ≤ (8 + B) * ((2 * lpn.keyLen + 1) * C * ((6 * C + 14) * size + (20 * C + 4 * ctx.n + 52) * ctx.l)) ∧
          total.2 ≤ (8 + B + (id.length + 1 + 2 * idBytes (4 + 4 * size)))
            * ((2 * lpn.keyLen + 1) * C * ((6 * C + 14) * size + (20 * C + 4 * ctx.n + 52) * ctx.l)) ∧
          B * (2 * (2 * lpn.keyLen + 1) * ctx.n * size) ≤ ctx.l * total.1 := by
  obtain ⟨jobs, outs, k1, k2, k3⟩ := C83_garble_bytes cd hc B hB hw ctx hash rng lpn circ g hnew seahash lead
    hlead tp pre hpre hb hK id hid ids hids tables st h
  refine ⟨jobs, outs, k1, k2, fun es f hrun hst total size htot hsize => ?_⟩
  rw [k3 es f hrun hst] at htot
  have hub := garbleElems_le hp (K := lpn.keyLen) hC hsize
  have hlb := garbleElems_ge hp ctx.n lpn.keyLen hsize
  obtain ⟨hl, A, X, V, W, I, hA, hX, hV, hW, hI, eW, eI, _, _⟩ := pack_elems hp ctx.n lpn.keyLen
  have hcd : ∀ x, cdiv x ctx.l ≤ x := fun x => (cdiv_le_iff hl).2 (Nat.le_mul_of_pos_right _ hl)
  have hWI : W + I ≤ 4 * size := by
    have h1 := hcd (numKind c.gates .and)
    have h2 := hcd (numKind c.gates .xor)
    have h3 := hcd (numKind c.gates .inv)
    have h4 := hcd c.inputs.flatten.length
    have h5 := numKind_sum c.gates
    omega
  have hby := garbleBytes_le ctx.n ctx.l B lpn.keyLen id.length (circ.inputs.length + circ.gates.length)
    (circ.gates.flatMap PackedGate.inps).length (circ.gates.map PackedGate.kind) (by rw [List.length_map]; omega) hl
  have hms := garbleMsgs_le ctx.n ctx.l lpn.keyLen (circ.inputs.length + circ.gates.length)
    (circ.gates.flatMap PackedGate.inps).length (circ.gates.map PackedGate.kind)
  have hsp := garbleBytes_split ctx.n ctx.l B lpn.keyLen id.length (circ.inputs.length + circ.gates.length)
    (circ.gates.flatMap PackedGate.inps).length (circ.gates.map PackedGate.kind)
  have hid' : idBytes (4 + (circ.inputs.length + circ.gates.length) + (circ.gates.flatMap PackedGate.inps).length) ≤ idBytes (4 + 4 * size) :=
    idBytes_mono (by rw [eW, eI]; omega)
  rw [← htot] at hby hsp
  refine ⟨?_, ?_, ?_⟩
  · rw [hsp]
    refine le_trans ?_ (Nat.mul_le_mul_left _ hub)
    rw [Nat.add_mul]
    omega
  · refine hby.trans (Nat.mul_le_mul (by omega) hub)
  · rw [hsp]
    have := Nat.mul_le_mul_left B hlb
    rw [show ∀ x, B * (ctx.l * x) = ctx.l * (B * x) from fun x => by ring] at this
    exact this.trans (Nat.mul_le_mul_left _ (Nat.le_add_left _ _))

/-- C105.  If the number of parties is at most `C` times the packing parameter and `C` times the numbers of rows of the two matrices, then
the bytes which all parties count in `preproc` are at most linear in the number of input wires and gates, with a factor which does not depend on
the number of parties, and a term which does not depend on the circuit. -/
theorem C105_preproc (cd : Codec F) (hc : cd.Ok) (B : Nat) (hB : 0 < B) (hw : cd.Width B) (ctx : Ctx F) (hn32 : ctx.n < 2 ^ 32)
    (ht : ctx.t ≤ ctx.n) (C : Nat) (hC0 : 0 < C) (hC : ctx.n ≤ C * ctx.l) (c : Circuit) (circ : PackedCircuit) (hp : c.pack ctx.l = some circ)
    (lpn : LpnParams) (desc : PreProcCount) (hd : circ.describe ctx.n ctx.t ctx.l lpn = some desc) (m mb : Mat F)
    (hm0 : 0 < m.rows.length) (hm1 : m.rows.length ≤ ctx.n) (hm2 : ctx.n ≤ C * m.rows.length)
    (hb0 : 0 < mb.rows.length) (hb1 : mb.rows.length ≤ ctx.n) (hb2 : ctx.n ≤ C * mb.rows.length)
    (hr : B * (desc.numKeys + desc.randoms + 3 * desc.errors) < 2 ^ 63)
    (hz : B * (desc.zeros + 2 * desc.errors) < 2 ^ 63) (hb : B * (desc.masks + 2 * desc.errors) < 2 ^ 63)
    (tp : PreTapes F) (id : ProtocolID) (hid : id.length ≤ 250) (res : List (PreProc F))
    (h : preproc ctx m mb desc tp = some res) :
    ∃ jobs outs, preprocJobs cd ctx m mb desc tp id = some jobs ∧ NetScheduleFree ctx.n jobs outs ∧
      ∀ (es : List FStep) (f : Full (List F)), (Full.start ctx.n).run ctx.n jobs es = some f → f.Stuck ctx.n jobs →
        ∀ total size, total = ∑ p ∈ Finset.range ctx.n, ∑ q ∈ Finset.range ctx.n, ((f.stats q)[p]?).getD 0 →
          size = c.inputs.flatten.length + c.gates.length →
          total.1 ≤ 56 * (ctx.n * ctx.n) + B * (C * C * (((10 + 12 * C) * (2 * lpn.keyLen + 1) + 44 * lpn.mssgLen) * size
            + ((40 + 40 * C + 8 * ctx.n) * (2 * lpn.keyLen + 1) + 176 * lpn.mssgLen) * ctx.l) + 3 * C * (ctx.n * ctx.n)) ∧
          total.2 = total.1 + 7 * (id.length + idBytes (4 + 2 * ctx.n)) * (ctx.n * ctx.n) := by
  obtain ⟨jobs, outs, k1, k2, k3⟩ := C83_preproc cd hc B hB hw ctx hn32 m mb desc hr hz hb tp id hid res h
  refine ⟨jobs, outs, k1, k2, fun es f hrun hst total size htot hsize => ?_⟩
  have k4 := (k3 es f hrun hst).2
  have hsum : total = ∑ p ∈ Finset.range ctx.n, ∑ q ∈ Finset.range ctx.n, preprocBytes ctx.n B m.rows.length mb.rows.length id.length desc p q := by
    rw [htot]
    refine Finset.sum_congr rfl fun p hp => Finset.sum_congr rfl fun q hq => ?_
    obtain ⟨el, hel, hs⟩ := k4 p (Finset.mem_range.1 hp) q (Finset.mem_range.1 hq)
    rw [hs, Option.getD_some, hel]
    rfl
  have hn0 : 0 < ctx.n := by omega
  have h1 : total.1 = 8 * (7 * (ctx.n * ctx.n)) + B * preprocElems ctx.n m.rows.length mb.rows.length desc := by
    rw [← preprocBytes_split ctx.n B m.rows.length mb.rows.length id.length desc hn0, hsum, Prod.fst_sum]
    exact Finset.sum_congr rfl fun p _ => Prod.fst_sum
  have h2 : total.2 = total.1 + 7 * (id.length + idBytes (4 + 2 * ctx.n)) * (ctx.n * ctx.n) := by
    rw [hsum, Prod.fst_sum, Prod.snd_sum]
    simp only [Prod.fst_sum, Prod.snd_sum, preprocBytes, Finset.sum_add_distrib, Finset.sum_const, Finset.card_range, smul_eq_mul]
    ring
  refine ⟨?_, h2⟩
  have hub := preprocElems_le hp hC0 hC ht hm0 hm2 hm1 hb0 hb2 hb1 hsize hd
  rw [h1]
  have := Nat.mul_le_mul_left B hub
  omega

end

/-- Seven parties over GF(16) with packing parameter 2, so that `C = 4`: the circuit of `C93_inv_false` with two inputs and four gates, where
the parties count 4130 bytes.  The circuit repeated many times over would cost at most `9 · 3 · 4 · 38` bytes for each gate, and at least
`2 · 3 · 7 / 2 = 21`. -/
example : ∃ (ctx : Ctx (GF 4)) (g : GarbleCtx (GF 4)) (tp : GarbleTapes (GF 4)) (pre : List (PreProc (GF 4)))
    (jobs : List (Job (GOut (GF 4)))) (outs : List _), exCtx = some ctx ∧ invCircuit.pack ctx.l = some exCirc ∧ ctx.n ≤ 4 * ctx.l ∧
    garbleJobs (gfCodec 4) ctx g (fun id => id.sum % 7) tp pre [9] = some jobs ∧ NetScheduleFree 7 jobs outs ∧
    ∀ (es : List FStep) (f : Full (GOut (GF 4))), (Full.start 7).run 7 jobs es = some f → f.Stuck 7 jobs →
      ∀ total, total = ∑ p ∈ Finset.range 7, ∑ q ∈ Finset.range 7, ((f.stats q)[p]?).getD 0 →
      total.1 = 4130 ∧ total.1 ≤ 9 * (3 * 4 * (38 * 6 + (80 + 28 + 52) * 2)) ∧ 2 * 3 * 7 * 6 ≤ 2 * total.1 := by
  have h : invCircuit.pack 2 = some exCirc := by decide +kernel
  obtain ⟨ctx, g, tp, pre, jobs, outs, h1, h2, h3, h4⟩ := exGarble_bytes
  obtain ⟨ctx', h', _, hn, ht, hl⟩ := exCtx_good
  rw [h', Option.some.injEq] at h1
  subst h1
  refine ⟨ctx', g, tp, pre, jobs, outs, h', by rw [hl]; exact h, by omega, h2, h3, fun es f hrun hst total htot => ?_⟩
  rw [htot, h4 es f hrun hst]
  decide

end Verif.Props
