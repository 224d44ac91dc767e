import Verif.ShippedRunSpec
import Verif.ShippedIds
import Verif.Props.EndToEnd

/-!
# Running the circuits shipped in `data/circ`
-/

namespace Verif

open Props

theorem cdiv_le_self (a l : Nat) (hl : 0 < l) : cdiv a l ≤ a := by
  rw [cdiv_le_iff hl]
  exact Nat.le_mul_of_pos_right _ hl

/-- Products of bounded numbers. -/
theorem prod_bound {a b A B : Nat} (h : a ≤ A) (h' : b ≤ B) : a * b ≤ A * B := Nat.mul_le_mul h h'

/-- The numbers of shares needed for a circuit of at most `2 ^ 18` wires. -/
theorem sizes_small {c : Circuit} {l : Nat} {p : PackedCircuit} (h : c.pack l = some p) (n t : Nat) (lpn : LpnParams)
    (hn : n ≤ 2 ^ 18) (ht : t ≤ 2 ^ 18) (hK : lpn.keyLen ≤ 2 ^ 18) (hQ : lpn.mssgLen ≤ 2 ^ 18)
    (hw : c.inputs.flatten.length + numKind c.gates .and + numKind c.gates .xor + numKind c.gates .inv ≤ 2 ^ 18)
    (desc : PreProcCount) (hd : p.describe n t l lpn = some desc) :
    3 * (desc.numKeys + desc.randoms + 3 * desc.errors) < 2 ^ 63 ∧ 3 * (desc.zeros + 2 * desc.errors) < 2 ^ 63 ∧
      3 * (desc.masks + 2 * desc.errors) < 2 ^ 63 := by
  obtain ⟨hl, A, X, V, W, I, hA, hX, hV, hW, hI, -, -, -, h5⟩ := pack_elems h n lpn.keyLen
  obtain ⟨d1, d2, d3, d4, d5⟩ := h5 t lpn desc rfl hd
  have a1 := cdiv_le_self (numKind c.gates .and) l hl
  have a2 := cdiv_le_self (numKind c.gates .xor) l hl
  have a3 := cdiv_le_self (numKind c.gates .inv) l hl
  have a4 := cdiv_le_self c.inputs.flatten.length l hl
  have hW' : W ≤ 2 ^ 18 := by omega
  have hI' : I ≤ 2 ^ 19 := by omega
  have w1 := (cdiv_le_self W l hl).trans hW'
  have w2 := (cdiv_le_self I l hl).trans hI'
  have k1 : 2 * lpn.keyLen + 1 ≤ 2 ^ 20 := by omega
  have k2 : 3 * (lpn.keyLen + 1) + 1 ≤ 2 ^ 20 := by omega
  have k3 : lpn.keyLen + 1 ≤ 2 ^ 20 := by omega
  have hAX : A + X ≤ 2 ^ 18 := by omega
  have hXV : X + V ≤ 2 ^ 18 := by omega
  have hA' : A ≤ 2 ^ 18 := by omega
  have hV' : V ≤ 2 ^ 18 := by omega
  have b1 : W * 2 * lpn.keyLen ≤ 2 ^ 18 * 2 * 2 ^ 18 := prod_bound (prod_bound hW' le_rfl) hK
  have b2 : (cdiv W l * (2 * lpn.keyLen + 1) + cdiv I l * (2 * lpn.keyLen + 1)) * (n + t)
      ≤ (2 ^ 18 * 2 ^ 20 + 2 ^ 19 * 2 ^ 20) * (2 ^ 18 + 2 ^ 18) :=
    prod_bound (Nat.add_le_add (prod_bound w1 k1) (prod_bound w2 k1)) (Nat.add_le_add hn ht)
  have b3 : (cdiv W l * (2 * lpn.keyLen + 1) + cdiv I l * (2 * lpn.keyLen + 1)) * 2 * n
      ≤ (2 ^ 18 * 2 ^ 20 + 2 ^ 19 * 2 ^ 20) * 2 * 2 ^ 18 :=
    prod_bound (prod_bound (Nat.add_le_add (prod_bound w1 k1) (prod_bound w2 k1)) le_rfl) hn
  have b4 : A * (3 * (lpn.keyLen + 1) + 1) + (X + V) * (lpn.keyLen + 1) ≤ 2 ^ 18 * 2 ^ 20 + 2 ^ 18 * 2 ^ 20 :=
    Nat.add_le_add (prod_bound hA' k2) (prod_bound hXV k3)
  have b5 : (A + X) * 4 * lpn.mssgLen + V * 2 * lpn.mssgLen ≤ 2 ^ 18 * 4 * 2 ^ 18 + 2 ^ 18 * 2 * 2 ^ 18 :=
    Nat.add_le_add (prod_bound (prod_bound hAX le_rfl) hQ) (prod_bound (prod_bound hV' le_rfl) hQ)
  rw [← d2] at b1
  rw [← d5] at b5
  have b6 := Nat.add_le_add b2 b4
  rw [← d3] at b6
  have b7 := Nat.add_le_add b3 b4
  rw [← d4] at b7
  rw [← d1] at hW'
  norm_num at *
  omega

theorem ctxNew_circ {hash : List Nat → List Nat} {rng : List Nat → Nat → GF 18} {ctx : Ctx (GF 18)} {lpn : LpnParams}
    {p : PackedCircuit} {g : GarbleCtx (GF 18)} (h : GarbleCtx.new hash rng ctx lpn p = some g) : g.circ = p := by
  unfold GarbleCtx.new at h
  simp only [Option.bind_eq_some_iff, Option.map_eq_some_iff] at h
  obtain ⟨_, _, _, _, _, _, _, _, _, _, rfl⟩ := h
  rfl

section
variable {N : Net} {rank : Nat → Nat} (hs : N.Small) (hc : N.Checked rank) {text : String} {tail : List Char}
  (ht : text.toList = N.text tail)
include hs hc ht

/-- A file of a net for which the IDs suffice is garbled. -/
theorem net_garbled {a x v : Nat} (hcnt : numKind N.circuit.gates .and = a ∧ numKind N.circuit.gates .inv = v ∧
      numKind N.circuit.gates .xor = x) (hsum : N.n1 + N.n2 + a + x + v ≤ N.numWires)
    {ctx : Ctx (GF 18)} {lpn : LpnParams} {m mb : Mat (GF 18)} {seahash : List Nat → Nat} {lead : ProtocolID → Nat} {id id' : ProtocolID}
    (R : RunParams ctx lpn N.numWires m mb seahash lead id id')
    (hids : ∀ k ∈ idCounts a x v (N.n1 + N.n2) ctx.l, k ≤ 2 ^ 63 ∧ ¬ ∃ j, k = 256 ^ j)
    (hash : List Nat → List Nat) (rng : List Nat → Nat → GF 18) :
    ∃ d, IsBristolFile d text.toList ∧ FileGarbled hash rng ctx lpn m mb lead id id' d text.toList := by
  have hf : IsBristolFile N.desc text.toList := by
    rw [ht]
    exact Net.isFile hs tail
  have ho : CodeField.order (GF 18) = 2 ^ 18 := rfl
  have R1 := R.fit
  have R2 := R.key
  have R3 := R.parties
  have hb : 3 * (2 * ((ctx.n + ctx.t) * (2 * lpn.keyLen + 1))) < 2 ^ 63 := by
    have : (ctx.n + ctx.t) * (2 * lpn.keyLen + 1) ≤ 2 ^ 19 * 2 ^ 20 := prod_bound (by omega) (by omega)
    norm_num at this ⊢
    omega
  obtain ⟨circ, p, desc, g, h1, h2, h3, h4, h5⟩ := C84_tcp (gfCodec 18) (C45_codec 18 (by norm_num)) 3 (by norm_num)
    (gfCodec_width 18 (by norm_num)) ctx R.good R.parties R.mult (by omega) hash rng lpn (by rw [ho]; exact R.code) hb (by omega)
    N.desc (Net.proper hs hc) text.toList hf (by rw [ho]; exact R.fit) m mb R.deal R.dealBin R.binary seahash lead R.lead id id' R.id R.id'
  have hcirc : circ = N.circuit := by
    rw [ht, Net.parse hs hc] at h1
    exact (Option.some.inj h1).symm
  subst hcirc
  have hin : N.circuit.inputs.flatten.length = N.n1 + N.n2 := by simp [Net.circuit]
  obtain ⟨c1, c2, c3⟩ := hcnt
  obtain ⟨s1, s2, s3⟩ := sizes_small h2 ctx.n ctx.t lpn (by omega) (by omega) (by omega) R.code.le
    (by rw [hin, c1, c2, c3]; omega) desc h3
  refine ⟨N.desc, hf, N.circuit, p, desc, g, h1, h2, h3, h4, h5 s1 s2 s3 ?_⟩
  rw [ids_iff h2, c1, c2, c3, hin]
  exact hids

/-- A file of a net for which the IDs do not suffice makes `garble` panic. -/
theorem net_panics {a x v : Nat} (hcnt : numKind N.circuit.gates .and = a ∧ numKind N.circuit.gates .inv = v ∧
      numKind N.circuit.gates .xor = x) {l : Nat} (hl : 0 < l)
    (hids : ¬ ∀ k ∈ idCounts a x v (N.n1 + N.n2) l, k ≤ 2 ^ 63 ∧ ¬ ∃ j, k = 256 ^ j) : FilePanics l text.toList := by
  obtain ⟨p, hp⟩ := Option.isSome_iff_exists.1 ((C23_pack_total N.circuit l).2 (by omega))
  refine ⟨N.circuit, p, by rw [ht]; exact Net.parse hs hc tail, hp, fun hash rng ctx lpn g hcl hg lead gtp pre id => ?_⟩
  have hin : N.circuit.inputs.flatten.length = N.n1 + N.n2 := by simp [Net.circuit]
  obtain ⟨c1, c2, c3⟩ := hcnt
  have : garbleIdsOf id p.inputs.length l (p.gates.map PackedGate.kind) = none := by
    rw [← Option.not_isSome_iff_eq_none, ids_iff hp, c1, c2, c3, hin]
    exact hids
  unfold garbleJobs
  rw [ctxNew_circ hg, hcl, this, Option.bind_none]

end

end Verif
