import Verif.ShippedPrivacySpec
import Verif.ShippedRunLemmas
import Verif.ShippedSort
import Verif.ShippedHide
import Verif.Props.PrivacyNet

/-!
# Privacy of garbling the circuits shipped in `data/circ`
-/

namespace Verif

open Props

/-- A file is not both private and leaking. -/
theorem private_not_leaks {hash : List Nat → List Nat} {rng : List Nat → Nat → GF 18} {ctx : Ctx (GF 18)} {lpn : LpnParams} {m mb : Mat (GF 18)}
    {lead : ProtocolID → Nat} {id id' : ProtocolID} {cs : List Char} (h : FilePrivate hash rng ctx lpn m mb lead id id' cs) :
    ¬ FileLeaks hash rng ctx lpn m mb lead id id' cs := by
  rintro ⟨circ', p', desc', g', h1', h2', h3', h4', Cs, hC, h5'⟩
  obtain ⟨circ, p, desc, g, h1, h2, h3, h4, h5⟩ := h
  obtain rfl : circ' = circ := Option.some.inj (h1'.symm.trans h1)
  obtain rfl : p' = p := Option.some.inj (h2'.symm.trans h2)
  obtain rfl : desc' = desc := Option.some.inj (h3'.symm.trans h3)
  obtain rfl : g' = g := Option.some.inj (h4'.symm.trans h4)
  obtain ⟨gtp, hgtp⟩ := garbleTapes_exist ctx g'
  exact h5' gtp hgtp (h5 gtp hgtp Cs hC).1

/-- The coalition which sees more of a gate input than it should. -/
theorem leaky_coalition {ctx : Ctx (GF 18)} {p : PackedCircuit} {i : Nat} {ws : List Nat} (ht : 2 ≤ ctx.t) (hn : ctx.t + 2 * ctx.l ≤ ctx.n)
    (hi : (p.gates.flatMap PackedGate.inps)[i]? = some ws) (hnd : ¬ ws.Nodup)
    (hf : ∀ w ∈ ws, ∀ bs ∈ p.blocks, w ∈ bs → bs.length = ctx.l)
    (hr : ws.length + 2 ≤ ctx.l ∨ ws.length + 1 ≤ ctx.l ∧ ws.length - ws.toFinset.card ≠ i % ctx.n) :
    ∃ Cs q, Coalition ctx Cs ∧ Cs.card = ctx.t ∧ p.LeakyInput ctx Cs i q ws := by
  have ho : ws.toFinset.card < ws.length := by
    rcases Nat.lt_or_ge ws.toFinset.card ws.length with h | h
    · exact h
    · exact absurd ((Multiset.toFinset_card_eq_card_iff_nodup (m := (ws : Multiset Nat))).1 (le_antisymm (List.toFinset_card_le ws) h)) hnd
  have hin := Nat.mod_lt i (show ctx.n > 0 by omega)
  obtain ⟨q, hq1, hq2⟩ : ∃ q, ws.length + q < ctx.l ∧ ws.length + q - ws.toFinset.card ≠ i % ctx.n := by
    rcases hr with hr | ⟨hr, h⟩
    · by_cases h : ws.length - ws.toFinset.card = i % ctx.n
      · exact ⟨1, by omega, by omega⟩
      · exact ⟨0, by omega, h⟩
    · exact ⟨0, by omega, h⟩
  have hsub : ({i % ctx.n, q} : Finset Nat) ⊆ (Finset.range ctx.n).erase (ws.length + q - ws.toFinset.card) := by
    intro x hx
    simp only [Finset.mem_insert, Finset.mem_singleton] at hx
    rw [Finset.mem_erase, Finset.mem_range]
    rcases hx with rfl | rfl
    · exact ⟨hq2.symm, hin⟩
    · exact ⟨by omega, by omega⟩
  have h2 : ({i % ctx.n, q} : Finset Nat).card ≤ ctx.t := (Finset.card_le_two).trans ht
  have h3 : ctx.t ≤ ((Finset.range ctx.n).erase (ws.length + q - ws.toFinset.card)).card := by
    have := Finset.pred_card_le_card_erase (s := Finset.range ctx.n) (a := ws.length + q - ws.toFinset.card)
    rw [Finset.card_range] at this
    omega
  obtain ⟨Cs, c1, c2, c3⟩ := Finset.exists_subsuperset_card_eq hsub h2 h3
  refine ⟨Cs, q, ⟨fun x hx => ?_, c3.le⟩, c3, hi, c1 (by simp), c1 (by simp), hq1, fun h => ?_,
    fun w hw b bs hb hm => Or.inl (hf w hw bs (List.mem_of_getElem? hb) hm)⟩
  · have := c2 hx
    rw [Finset.mem_erase, Finset.mem_range] at this
    exact this.2
  · exact (Finset.mem_erase.1 (c2 h)).1 rfl

/-- The same, if the wires of the gate input may also be in a block `b` with as many free places, the leader of which is corrupted, too. -/
theorem leaky_coalition3 {ctx : Ctx (GF 18)} {p : PackedCircuit} {i b : Nat} {ws : List Nat} (ht : 3 ≤ ctx.t)
    (hn : ctx.t + 2 * ctx.l ≤ ctx.n) (hi : (p.gates.flatMap PackedGate.inps)[i]? = some ws) (hnd : ws.toFinset.card < ws.length)
    (hf : ∀ w ∈ ws, ∀ b' bs, p.blocks[b']? = some bs → w ∈ bs → bs.length = ctx.l ∨ b' = b ∧ bs.length = ws.length)
    (hr : ∃ q, ws.length + (ws.length + q - ws.toFinset.card) < ctx.l ∧ ws.length + q - ws.toFinset.card ≠ i % ctx.n ∧
      ws.length + q - ws.toFinset.card ≠ b % ctx.n) :
    ∃ Cs q, Coalition ctx Cs ∧ Cs.card = ctx.t ∧ p.LeakyInput ctx Cs i q ws := by
  have hin := Nat.mod_lt i (show ctx.n > 0 by omega)
  have hbn := Nat.mod_lt b (show ctx.n > 0 by omega)
  obtain ⟨q, hq1, hq2, hq3⟩ := hr
  have hsub : ({i % ctx.n, b % ctx.n, q} : Finset Nat) ⊆ (Finset.range ctx.n).erase (ws.length + q - ws.toFinset.card) := by
    intro x hx
    simp only [Finset.mem_insert, Finset.mem_singleton] at hx
    rw [Finset.mem_erase, Finset.mem_range]
    rcases hx with rfl | rfl | rfl
    · exact ⟨hq2.symm, hin⟩
    · exact ⟨hq3.symm, hbn⟩
    · exact ⟨by omega, by omega⟩
  have h2 : ({i % ctx.n, b % ctx.n, q} : Finset Nat).card ≤ ctx.t := (Finset.card_le_three).trans ht
  have h3 : ctx.t ≤ ((Finset.range ctx.n).erase (ws.length + q - ws.toFinset.card)).card := by
    have := Finset.pred_card_le_card_erase (s := Finset.range ctx.n) (a := ws.length + q - ws.toFinset.card)
    rw [Finset.card_range] at this
    omega
  obtain ⟨Cs, c1, c2, c3⟩ := Finset.exists_subsuperset_card_eq hsub h2 h3
  refine ⟨Cs, q, ⟨fun x hx => ?_, c3.le⟩, c3, hi, c1 (by simp), c1 (by simp), by omega, fun h => ?_, fun w hw b' bs hb hm => ?_⟩
  · have := c2 hx
    rw [Finset.mem_erase, Finset.mem_range] at this
    exact this.2
  · exact (Finset.mem_erase.1 (c2 h)).1 rfl
  · rcases hf w hw b' bs hb hm with h | ⟨rfl, h⟩
    · exact Or.inl h
    · exact Or.inr (Or.inl ⟨c1 (by simp), by omega⟩)

section
variable {N : Net} {rank : Nat → Nat} (hs : N.Small) (hc : N.Checked rank) {text : String} {tail : List Char}
  (ht : text.toList = N.text tail)
include hs hc ht

/-- The parameters of the run. -/
theorem net_params {a x v : Nat} (hcnt : numKind N.circuit.gates .and = a ∧ numKind N.circuit.gates .inv = v ∧
      numKind N.circuit.gates .xor = x) (hsum : N.n1 + N.n2 + a + x + v ≤ N.numWires)
    {ctx : Ctx (GF 18)} {lpn : LpnParams} {m mb : Mat (GF 18)} {seahash : List Nat → Nat} {lead : ProtocolID → Nat} {id id' : ProtocolID}
    (R : RunParams ctx lpn N.numWires m mb seahash lead id id') (hash : List Nat → List Nat) (rng : List Nat → Nat → GF 18) :
    ∃ p desc g, fromBristol text.toList = some N.circuit ∧ N.circuit.pack ctx.l = some p ∧
      p.describe ctx.n ctx.t ctx.l lpn = some desc ∧ GarbleCtx.new hash rng ctx lpn p = some g ∧
      PreParams (gfCodec 18) ctx m mb desc ∧ (∀ gtp : GarbleTapes (GF 18), gtp.Ok ctx g → GarbleParams hash rng ctx lpn p g gtp desc) ∧
      3 * (desc.numKeys + desc.randoms + 3 * desc.errors) < 2 ^ 63 ∧ 3 * (desc.zeros + 2 * desc.errors) < 2 ^ 63 ∧
      3 * (desc.masks + 2 * desc.errors) < 2 ^ 63 ∧ 3 * (2 * ((ctx.n + ctx.t) * (2 * lpn.keyLen + 1))) < 2 ^ 63 := by
  have hf : IsBristolFile N.desc text.toList := by
    rw [ht]
    exact Net.isFile hs tail
  have ho : CodeField.order (GF 18) = 2 ^ 18 := rfl
  have R1 := R.fit
  have R2 := R.key
  have R3 := R.parties
  have hb : 3 * (2 * ((ctx.n + ctx.t) * (2 * lpn.keyLen + 1))) < 2 ^ 63 := by
    have : (ctx.n + ctx.t) * (2 * lpn.keyLen + 1) ≤ 2 ^ 19 * 2 ^ 20 := prod_bound (by omega) (by omega)
    norm_num at this ⊢
    omega
  obtain ⟨circ, h1, hwf, -, hnw, -⟩ := parse_proper (Net.proper hs hc) hf
  have hcirc : circ = N.circuit := by
    have h1 := h1
    rw [ht, Net.parse hs hc] at h1
    exact (Option.some.inj h1).symm
  subst hcirc
  obtain ⟨p, hp⟩ := Option.isSome_iff_exists.1 ((C23_pack_total N.circuit ctx.l).2 (by have := R.good.posL; omega))
  have ok := pack_ok hwf hp
  have hfit : ∀ w ∈ p.blocks.flatten, ctx.n + ctx.l + w < CodeField.order (GF 18) := by
    intro w hw
    have : w < N.numWires := by
      change w < N.desc.numWires
      rw [← hnw]
      rcases (pack_wires hp w).1 hw with h | ⟨g, hg, rfl⟩
      · exact hwf.inRange w h
      · exact hwf.gateRange g hg
    rw [ho]
    omega
  obtain ⟨desc, hdesc⟩ := describe_some p ctx.n ctx.t ctx.l lpn R.good.posL
  obtain ⟨g, A, hnew, hspec⟩ := garbleCtx_new hash rng R.good lpn ok hfit (by rw [ho]; exact R.code)
  have hin : N.circuit.inputs.flatten.length = N.n1 + N.n2 := by simp [Net.circuit]
  obtain ⟨c1, c2, c3⟩ := hcnt
  obtain ⟨s1, s2, s3⟩ := sizes_small hp ctx.n ctx.t lpn (by omega) (by omega) (by omega) R.code.le
    (by rw [hin, c1, c2, c3]; omega) desc hdesc
  refine ⟨p, desc, g, h1, hp, hdesc, hnew, ⟨R.good, R.mult, by omega, R.deal, R.dealBin, R.binary, gfCodec_ok 18 (by norm_num), by omega, by omega,
    by omega⟩, fun gtp hgtp => ⟨R.good, R.parties, R.mult, ok, hfit, by rw [ho]; exact R.code, hnew, hgtp,
      ⟨desc, hdesc, rfl, rfl, rfl, le_rfl, le_rfl⟩, by omega, by omega⟩, s1, s2, s3, hb⟩

/-- A file of a net is garbled privately, if no gate input which is not full has a wire twice or what is seen of it is hidden. -/
theorem net_private {a x v : Nat} (hcnt : numKind N.circuit.gates .and = a ∧ numKind N.circuit.gates .inv = v ∧
      numKind N.circuit.gates .xor = x) (hsum : N.n1 + N.n2 + a + x + v ≤ N.numWires)
    {ctx : Ctx (GF 18)} {lpn : LpnParams} {m mb : Mat (GF 18)} {seahash : List Nat → Nat} {lead : ProtocolID → Nat} {id id' : ProtocolID}
    (R : RunParams ctx lpn N.numWires m mb seahash lead id id')
    (hids : ∀ k ∈ idCounts a x v (N.n1 + N.n2) ctx.l, k ≤ 2 ^ 63 ∧ ¬ ∃ j, k = 256 ^ j)
    (hm : m.AllOutputs ctx.t) (hmb : mb.UniformBits ctx.t) (hD : ∀ p, N.circuit.pack ctx.l = some p → p.Hides ctx)
    (hash : List Nat → List Nat) (rng : List Nat → Nat → GF 18) : FilePrivate hash rng ctx lpn m mb lead id id' text.toList := by
  obtain ⟨p, desc, g, h1, h2, h3, h4, P, G, s1, s2, s3, hb⟩ := net_params hs hc ht hcnt hsum R hash rng
  refine ⟨N.circuit, p, desc, g, h1, h2, h3, h4, fun gtp hgtp Cs hC => ?_⟩
  have hids : (garbleIdsOf id' p.inputs.length ctx.l (p.gates.map PackedGate.kind)).isSome := by
    rw [ids_iff h2, hcnt.1, hcnt.2.1, hcnt.2.2, show N.circuit.inputs.flatten.length = N.n1 + N.n2 by simp [Net.circuit]]
    exact hids
  have hd := hD p h2
  have R2 := R.key
  exact ⟨C91_run_private_partial P (G gtp hgtp) hm hmb hd (fun id => (chooseLeader_lt R.lead).2 id) Cs hC id id' hids,
    C92_run_private P (G gtp hgtp) hm hmb hd 3 (by norm_num) (gfCodec_width 18 (by norm_num)) s1 s2 s3 seahash R.lead hb
      (by omega) id id' R.id R.id' hids Cs hC⟩

/-- A file of a net leaks, if some gate input is as in `leaky_coalition`. -/
theorem net_leaks {a x v : Nat} (hcnt : numKind N.circuit.gates .and = a ∧ numKind N.circuit.gates .inv = v ∧
      numKind N.circuit.gates .xor = x) (hsum : N.n1 + N.n2 + a + x + v ≤ N.numWires)
    {ctx : Ctx (GF 18)} {lpn : LpnParams} {m mb : Mat (GF 18)} {seahash : List Nat → Nat} {lead : ProtocolID → Nat} {id id' : ProtocolID}
    (R : RunParams ctx lpn N.numWires m mb seahash lead id id') (h2t : 2 ≤ ctx.t)
    (hL : ∀ p, N.circuit.pack ctx.l = some p → ∃ i : Nat, ∃ ws : List Nat, (p.gates.flatMap PackedGate.inps)[i]? = some ws ∧ ¬ ws.Nodup ∧
      (∀ w ∈ ws, ∀ bs ∈ p.blocks, w ∈ bs → bs.length = ctx.l) ∧
      (ws.length + 2 ≤ ctx.l ∨ ws.length + 1 ≤ ctx.l ∧ ws.length - ws.toFinset.card ≠ i % ctx.n))
    (hash : List Nat → List Nat) (rng : List Nat → Nat → GF 18) : FileLeaks hash rng ctx lpn m mb lead id id' text.toList := by
  obtain ⟨p, desc, g, h1, h2, h3, h4, P, G, -⟩ := net_params hs hc ht hcnt hsum R hash rng
  obtain ⟨i, ws, k1, k2, k3, k4⟩ := hL p h2
  obtain ⟨Cs, q, hC, hcard, K⟩ := leaky_coalition h2t R.parties k1 k2 k3 k4
  exact ⟨N.circuit, p, desc, g, h1, h2, h3, h4, Cs, hC, fun gtp hgtp =>
    C91_run_private_false P (G gtp hgtp) (fun id => (chooseLeader_lt R.lead).2 id) Cs hC hcard id id' i q ws K⟩

/-- A file of a net leaks, if some coalition sees more of a gate input than it should. -/
theorem net_leaks_of {a x v : Nat} (hcnt : numKind N.circuit.gates .and = a ∧ numKind N.circuit.gates .inv = v ∧
      numKind N.circuit.gates .xor = x) (hsum : N.n1 + N.n2 + a + x + v ≤ N.numWires)
    {ctx : Ctx (GF 18)} {lpn : LpnParams} {m mb : Mat (GF 18)} {seahash : List Nat → Nat} {lead : ProtocolID → Nat} {id id' : ProtocolID}
    (R : RunParams ctx lpn N.numWires m mb seahash lead id id')
    (hL : ∀ p, N.circuit.pack ctx.l = some p → ∃ i q ws Cs, Coalition ctx Cs ∧ Cs.card = ctx.t ∧ p.LeakyInput ctx Cs i q ws)
    (hash : List Nat → List Nat) (rng : List Nat → Nat → GF 18) : FileLeaks hash rng ctx lpn m mb lead id id' text.toList := by
  obtain ⟨p, desc, g, h1, h2, h3, h4, P, G, -⟩ := net_params hs hc ht hcnt hsum R hash rng
  obtain ⟨i, q, ws, Cs, hC, hcard, K⟩ := hL p h2
  exact ⟨N.circuit, p, desc, g, h1, h2, h3, h4, Cs, hC, fun gtp hgtp =>
    C91_run_private_false P (G gtp hgtp) (fun id => (chooseLeader_lt R.lead).2 id) Cs hC hcard id id' i q ws K⟩

end

/-! ## The last XOR block of `sub64.txt` -/

theorem sub64_selfLeakOk : ∀ l ∈ [11, 14, 16, 17, 18, 19, 22], sub64Sort.selfLeakOk sub64Net l 1 = true := by decide +kernel

/-- The numbers of wires and of different wires. -/
theorem sub64_tail : ∀ x ∈ [(11, 5, 2), (14, 5, 2), (16, 9, 3), (17, 7, 2), (18, 7, 2), (19, 9, 3), (22, 5, 2)],
    (sub64Sort.tailWires sub64Net x.1 0 1).length = x.2.1 ∧ (sub64Sort.tailWires sub64Net x.1 0 1).dedup.length = x.2.2 ∧
      fullPart sub64Sort.xor.cnt x.1 < sub64Sort.xor.cnt := by decide +kernel

theorem sub64_leaky3 {ctx : Ctx (GF 18)} (ht : 3 ≤ ctx.t) (hn : ctx.t + 2 * ctx.l ≤ ctx.n)
    (hl : ctx.l ∈ [11, 14, 17, 18, 19, 22] ∨ ctx.l = 16 ∧ ctx.n ≠ 41) (p : PackedCircuit) (hp : sub64Net.circuit.pack ctx.l = some p) :
    ∃ i q ws Cs, Coalition ctx Cs ∧ Cs.card = ctx.t ∧ p.LeakyInput ctx Cs i q ws := by
  have hl' : ctx.l ∈ [11, 14, 16, 17, 18, 19, 22] := by
    simp only [List.mem_cons, List.not_mem_nil, or_false] at hl ⊢
    omega
  have key : ∀ len o, (ctx.l, len, o) ∈ [(11, 5, 2), (14, 5, 2), (16, 9, 3), (17, 7, 2), (18, 7, 2), (19, 9, 3), (22, 5, 2)] → o < len →
      (∃ q, len + (len + q - o) < ctx.l ∧ len + q - o ≠ (2 * ((63 + ctx.l - 1) / ctx.l + 313 / ctx.l) + 1) % ctx.n ∧
        len + q - o ≠ ((128 + ctx.l - 1) / ctx.l + (63 + ctx.l - 1) / ctx.l + 313 / ctx.l) % ctx.n) →
      ∃ i q ws Cs, Coalition ctx Cs ∧ Cs.card = ctx.t ∧ p.LeakyInput ctx Cs i q ws := by
    intro len o hm hlt hq
    obtain ⟨h1, h2, h3⟩ := sub64_tail _ hm
    have ho : (sub64Sort.tailWires sub64Net ctx.l 0 1).toFinset.card = o := by
      rw [List.card_toFinset]
      exact h2
    have hi := sub64_sort.xorInp hp (k := 1) (by norm_num) h3
    obtain ⟨Cs, q, h⟩ := leaky_coalition3 (b := sub64Sort.xorTail sub64Net ctx.l) ht hn hi (by rw [ho, h1]; exact hlt)
      (sub64_sort.selfLeak sub64_checked hp (sub64_selfLeakOk _ hl')) (by
        rw [ho, h1]
        exact hq)
    exact ⟨_, q, _, Cs, h⟩
  have three : ∀ a x y : Nat, ∃ q < 3, a + q ≠ x ∧ a + q ≠ y := by
    intro a x y
    by_cases h0 : a ≠ x ∧ a ≠ y
    · exact ⟨0, by omega, by omega⟩
    · by_cases h1 : a + 1 ≠ x ∧ a + 1 ≠ y
      · exact ⟨1, by omega, by omega⟩
      · exact ⟨2, by omega, by omega⟩
  have pick : ∀ len o, o < len → len + (len + 2 - o) < ctx.l →
      (ctx.l, len, o) ∈ [(11, 5, 2), (14, 5, 2), (16, 9, 3), (17, 7, 2), (18, 7, 2), (19, 9, 3), (22, 5, 2)] →
      ∃ i q ws Cs, Coalition ctx Cs ∧ Cs.card = ctx.t ∧ p.LeakyInput ctx Cs i q ws := by
    intro len o h1 h2 hm
    obtain ⟨q, h3, h4, h5⟩ := three (len - o) ((2 * ((63 + ctx.l - 1) / ctx.l + 313 / ctx.l) + 1) % ctx.n)
      (((128 + ctx.l - 1) / ctx.l + (63 + ctx.l - 1) / ctx.l + 313 / ctx.l) % ctx.n)
    have e : len + q - o = len - o + q := by omega
    exact key len o hm h1 ⟨q, by omega, by rw [e]; exact h4, by rw [e]; exact h5⟩
  rcases hl with hl | ⟨hl, h41⟩
  · simp only [List.mem_cons, List.not_mem_nil, or_false] at hl
    rcases hl with hl | hl | hl | hl | hl | hl
    · exact pick 5 2 (by norm_num) (by omega) (by rw [hl]; decide)
    · exact pick 5 2 (by norm_num) (by omega) (by rw [hl]; decide)
    · exact pick 7 2 (by norm_num) (by omega) (by rw [hl]; decide)
    · exact pick 7 2 (by norm_num) (by omega) (by rw [hl]; decide)
    · exact pick 9 3 (by norm_num) (by omega) (by rw [hl]; decide)
    · exact pick 5 2 (by norm_num) (by omega) (by rw [hl]; decide)
  · refine key 9 3 (by rw [hl]; decide) (by norm_num) ⟨0, by omega, ?_, ?_⟩
    · rw [hl]
      norm_num
      rcases Nat.lt_or_ge ctx.n 48 with h | h
      · have : 47 % ctx.n = 47 - ctx.n := by rw [Nat.mod_eq_sub_mod (by omega), Nat.mod_eq_of_lt (by omega)]
        omega
      · rw [Nat.mod_eq_of_lt (by omega)]
        norm_num
    · rw [hl]
      norm_num
      rw [Nat.mod_eq_of_lt (by omega)]
      norm_num

end Verif
