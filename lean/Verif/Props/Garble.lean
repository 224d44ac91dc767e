import Verif.GarbleExist
import Verif.Props.MathMod
import Verif.Props.Sharing
import Verif.Props.Core
import Verif.Props.Lpn

/-!
# Properties of garbling: C49, C55-C63, C66, C76
-/

open Polynomial

namespace Verif.Props
open Verif
open Verif.CodeField (ofU32)

variable {F : Type} [CodeField F] [DecidableEq F] {hash : List Nat → List Nat} {rng : List Nat → Nat → F} {ctx : Ctx F}
  {lpn : LpnParams} {c : PackedCircuit} {g : GarbleCtx F} {tp : GarbleTapes F} {pre : List (PreProc F)}
  {masks keys errors : List (List F)} {nr nz : Nat} {tables : List (List (List (List F)))} {st : GarbleState F}

/-! ### The example -/

/-- One input block, an `AND` gate which reads wire 1 twice in its second slot, and an `INV` gate. -/
def exCirc : PackedCircuit where
  gates := [.and ⟨#v[[0, 1], [1, 1]], [2, 3]⟩, .inv ⟨#v[[2, 3]], [4, 5]⟩]
  inputs := [[0, 1]]
  outputs := [[4, 5]]
  numWires := 6
  gatesPerBlock := 2

theorem exCirc_ok : exCirc.Ok 2 := by
  constructor <;> decide

/-- Runs with this circuit, for 7 parties over GF(16), exist for all secrets. -/
theorem exSetup (hash : List Nat → List Nat) (rng : List Nat → Nat → GF 4) (masks keys errors : List (List (GF 4)))
    (hm : masks.length = 3) (hk : keys.length = 6) (he : errors.length = 18)
    (hml : ∀ r ∈ masks, r.length = 2) (hkl : ∀ r ∈ keys, r.length = 2) (hel : ∀ r ∈ errors, r.length = 2) :
    ∃ ctx g tp pre nr nz, exCtx = some ctx ∧ Setup hash rng ctx ⟨1, 3⟩ exCirc g tp pre masks keys errors nr nz := by
  obtain ⟨ctx, h1, h2, h3, h4, h5⟩ := exCtx_good
  have ho : CodeField.order (GF 4) = 16 := by
    show 2 ^ 4 = 16
    norm_num
  obtain ⟨g, tp, pre, d, _, hs⟩ := setup_exists hash rng h2 (by omega) (by omega) ⟨1, 3⟩ (c := exCirc)
    (by rw [h5]; exact exCirc_ok)
    (by
      rw [h3, h5, ho]
      decide)
    (by rw [ho]; decide) masks keys errors hm hk he (by rw [h5]; exact hml) (by rw [h5]; exact hkl) (by rw [h5]; exact hel)
  exact ⟨ctx, g, tp, pre, _, _, h1, hs⟩

/-- For example with all secrets 1. -/
theorem exSetup_ones : ∃ ctx g tp pre nr nz, exCtx = some ctx ∧
    Setup id (fun _ _ => (1 : GF 4)) ctx ⟨1, 3⟩ exCirc g tp pre (List.replicate 3 [1, 1]) (List.replicate 6 [1, 1])
      (List.replicate 18 [1, 1]) nr nz := by
  apply exSetup <;> simp

/-! ### C66: shapes -/

/-- C66. `garble` succeeds with one table per packed gate, and every party's table has 4 rows for `AND` and `XOR`, 2 for
`INV`, and `lpn_mssg_len` columns. -/
theorem C66_shapes (s : Setup hash rng ctx lpn c g tp pre masks keys errors nr nz) :
    ∃ tables st, garble ctx g tp pre = some (tables, st) ∧ tables.length = c.gates.length ∧
      ∀ (gid : Nat) (gate : PackedGate), c.gates[gid]? = some gate → ∃ table, tables[gid]? = some table ∧
        table.length = ctx.n ∧ ∀ t ∈ table,
          t.length = (match gate with | .and _ => 4 | .xor _ => 4 | .inv _ => 2) ∧ ∀ row ∈ t, row.length = lpn.mssgLen := by
  obtain ⟨tables, st, d, _, h1, _, _, _, _, h2, h3⟩ := garble_rows s
  refine ⟨tables, st, h1, h2, ?_⟩
  intro gid gate hg
  obtain ⟨table, T, t1, _, rfl, _⟩ := h3 gid gate hg
  refine ⟨_, t1, by simp [tab2], ?_⟩
  intro t ht
  obtain ⟨i, _, rfl⟩ := List.mem_map.1 ht
  constructor
  · cases gate <;> simp [PackedGate.kind, GateKind.numRows]
  · intro row hrow
    obtain ⟨r, _, rfl⟩ := List.mem_map.1 hrow
    simp

/-- The tables of the example: 7 parties, 4 and 2 rows, 3 columns. -/
example : ∃ (ctx : Ctx (GF 4)) (g : GarbleCtx (GF 4)) (tp : GarbleTapes (GF 4)) (pre : List (PreProc (GF 4)))
    (tables : List (List (List (List (GF 4))))) (st : GarbleState (GF 4)), garble ctx g tp pre = some (tables, st) ∧
      tables.length = 2 ∧ ∃ t0 t1 : List (List (List (GF 4))), tables[0]? = some t0 ∧ tables[1]? = some t1 ∧
        t0.length = 7 ∧ t1.length = 7 ∧ (∀ t ∈ t0, t.length = 4) ∧ ∀ t ∈ t1, t.length = 2 := by
  obtain ⟨ctx, g, tp, pre, nr, nz, h, hs⟩ := exSetup_ones
  obtain ⟨ctx', h', _, hn, _, _⟩ := exCtx_good
  rw [h', Option.some.injEq] at h
  subst h
  obtain ⟨tables, st, h1, h2, h3⟩ := C66_shapes hs
  obtain ⟨t0, a1, a2, a3⟩ := h3 0 _ rfl
  obtain ⟨t1, b1, b2, b3⟩ := h3 1 _ rfl
  exact ⟨ctx', g, tp, pre, tables, st, h1, h2, t0, t1, a1, b1, by omega, by omega, fun t ht => (a3 t ht).1,
    fun t ht => (b3 t ht).1⟩

/-! ### C49: consumption of the material -/

/-- C49. Every party is left with its random, zero and error shares but for as many as `describe` reports, which are
taken from the front. -/
theorem C49_consumed (s : Setup hash rng ctx lpn c g tp pre masks keys errors nr nz) :
    ∃ d tables st, c.describe ctx.n ctx.t ctx.l lpn = some d ∧ garble ctx g tp pre = some (tables, st) ∧
      st.randoms = (pre.map (·.randoms)).map (List.drop d.randoms) ∧
      st.zeros = (pre.map (·.zeros)).map (List.drop d.zeros) ∧
      st.errors = (pre.map (·.errors)).map (List.drop d.errors) ∧ st.rows = List.replicate ctx.n [] ∧
      ∀ p ∈ pre, p.masks.length = d.masks ∧ p.keys.shape = d.keys ∧ d.randoms ≤ p.randoms.length ∧
        d.zeros ≤ p.zeros.length ∧ d.errors ≤ p.errors.length := by
  obtain ⟨tables, st, d, hd, h1, h2, h3, h4, h5, _, _⟩ := garble_rows s
  refine ⟨d, tables, st, hd, h1, h3, h4, h5, h2, ?_⟩
  intro p hp
  obtain ⟨d', hd', dm, dk, dsh, dr, dz, de⟩ := s.material.count
  rw [hd, Option.some.injEq] at hd'
  subst hd'
  obtain ⟨i, hi, rfl⟩ := List.mem_iff_getElem.1 hp
  have hi' : i < ctx.n := by rw [← s.material.len]; exact hi
  have len : ∀ (f : PreProc F → List F) (num : Nat) (q : Nat → F[X]), pre.map f = tabShares ctx.n num q →
      (f pre[i]).length = num := by
    intro f num q h
    have := congrArg (fun y => y[i]?) h
    unfold tabShares at this
    rw [List.getElem?_map, List.getElem?_eq_getElem hi, getElem?_tab _ _ _ hi', Option.map_some, Option.some.injEq] at this
    rw [this]
    simp
  obtain ⟨M, _, hM1, _⟩ := (vecSharing_iff _ _ _ _ _).1 s.material.masks
  obtain ⟨E, _, hE1, _⟩ := (vecSharing_iff _ _ _ _ _).1 s.material.errors
  obtain ⟨rs, hrs, hrl⟩ := s.material.randoms
  obtain ⟨G, _, hG1, _⟩ := (vecSharing_iff _ _ _ _ _).1 hrs
  obtain ⟨Z, _, hZ1, _⟩ := vecZero_tab s.material.zeros
  have l1 := len (·.masks) _ _ hM1
  have l2 := len (·.errors) _ _ hE1
  have l3 := len (·.randoms) _ _ hG1
  have l4 := len (·.zeros) _ _ hZ1
  exact ⟨by omega, dsh _ hp, by omega, by omega, by omega⟩

/-- C49. With exactly the material which `describe` reports, everything is used up. -/
theorem C49_exact (s : Setup hash rng ctx lpn c g tp pre masks keys errors nr nz) (d : PreProcCount)
    (hd : c.describe ctx.n ctx.t ctx.l lpn = some d)
    (h : ∀ p ∈ pre, p.randoms.length = d.randoms ∧ p.zeros.length = d.zeros ∧ p.errors.length = d.errors) :
    ∃ tables, garble ctx g tp pre = some (tables, ⟨List.replicate ctx.n [], List.replicate ctx.n [],
      List.replicate ctx.n [], List.replicate ctx.n []⟩) := by
  obtain ⟨d', tables, st, hd', h1, h2, h3, h4, h5, _⟩ := C49_consumed s
  rw [hd, Option.some.injEq] at hd'
  subst hd'
  have key : ∀ (f : PreProc F → List F) (num : Nat), (∀ p ∈ pre, (f p).length = num) →
      (pre.map f).map (List.drop num) = List.replicate ctx.n [] := by
    intro f num hf
    rw [List.eq_replicate_iff]
    refine ⟨by simp [s.material.len], ?_⟩
    intro x hx
    obtain ⟨y, hy, rfl⟩ := List.mem_map.1 hx
    obtain ⟨p, hp, rfl⟩ := List.mem_map.1 hy
    exact List.drop_eq_nil_of_le (le_of_eq (hf p hp))
  refine ⟨tables, ?_⟩
  rw [h1]
  rw [key _ _ fun p hp => (h p hp).1] at h2
  rw [key _ _ fun p hp => (h p hp).2.1] at h3
  rw [key _ _ fun p hp => (h p hp).2.2] at h4
  obtain ⟨a, b, e, f⟩ := st
  simp only [] at h2 h3 h4 h5
  rw [h2, h3, h4, h5]

/-- What the example needs. -/
example : (exCirc.describe 7 2 2 ⟨1, 3⟩).map (fun d => (d.masks, d.keys, d.randoms, d.zeros, d.errors))
    = some (3, (2, 1, 3), 117, 177, 18) := by decide +kernel

/-! ### C55: selection -/

/-- C55. If block `b`'s polynomials have degree below `k` and the map sends the wires of a gate input to blocks, the
selected shares of all parties lie on polynomials of degree below `k + l - 1`, whose values at the position of each
wire are those of the wire's block. -/
theorem C55_select {n l k B cols : Nat} (hn : n + l ≤ CodeField.order F) (hl : 1 ≤ l) (hk : 1 ≤ k)
    (lookup : Nat → Option Nat) (ws : List Nat) (hw : ws.length ≤ l)
    (hfit : ∀ w ∈ ws, n + l + w < CodeField.order F) (bl : Nat → Nat)
    (hbl : ∀ w ∈ ws, lookup w = some (bl w) ∧ bl w < B) (Y : Nat → Nat → F[X])
    (hY : ∀ b < B, ∀ e < cols, (Y b e).degree < k) :
    ∃ S : Nat → F[X], (∀ e < cols, (S e).degree < (k + l - 1 : Nat)) ∧
      (∀ w ∈ ws, ∀ e < cols, (S e).eval (ofU32 (w + (n + l))) = (Y (bl w) e).eval (ofU32 (w + (n + l)))) ∧
      ∀ p < n, selectInput n l p cols lookup
          ((List.range B).map fun b => (List.range cols).map fun e => (Y b e).eval (ofU32 p)) ws
        = some ((List.range cols).map fun e => (S e).eval (ofU32 p)) :=
  selectInput_tab hn hl hk B cols lookup bl ws hw hfit hbl Y hY

/-- Selection of wires 3, 1, 3 from two blocks. -/
example : selectInput 7 3 2 1 (fun w => if w = 3 then some 1 else if w = 1 then some 0 else none)
    ([[ofU32 5], [ofU32 9]] : List (List (GF 4))) [3, 1, 3]
    = some [(ofU32 2 - ofU32 13) / (ofU32 11 - ofU32 13) * ofU32 5
        + (ofU32 2 - ofU32 11) / (ofU32 13 - ofU32 11) * ofU32 9] := by
  decide +kernel

/-! ### C56: masks of the gate inputs -/

/-- C56. Slot `x` of the mask of input `i` of a gate is the mask of the wire read there. -/
theorem C56_masks (s : Setup hash rng ctx lpn c g tp pre masks keys errors nr nz) :
    ∃ out inp rr rz, garbleInputs ctx g tp pre = some (out, inp, rr, rz) ∧
      ∀ (gid i : Nat) (gate : PackedGate), c.gates[gid]? = some gate → i < gate.inps.length → ∃ q : F[X],
        EntrySharing ctx.n (ctx.t + ctx.l) inp (c.inputRow gid i) (2 * lpn.keyLen) q ∧
        ∀ (x w b s' : Nat), (c.inpWires gid i)[x]? = some w → c.Drives b s' w →
          q.eval (ofU32 (ctx.n + x)) = at2 masks b s' := by
  obtain ⟨out, inp, rr, rz, h1, h2⟩ := setup_inputs s
  refine ⟨out, inp, rr, rz, h1, ?_⟩
  intro gid i gate hg hi
  rw [inps_length_kind] at hi
  obtain ⟨q, q1, q2⟩ := h2 gid i gate hg hi (2 * lpn.keyLen) (by omega)
  refine ⟨q, q1, ?_⟩
  intro x w b s' hx hb
  rw [q2 x w b s' hx hb, if_neg (by omega)]

/-- In the example, slot 0 of the second input of the `AND` gate is wire 1, in slot 1 of the input block. -/
example : (exCirc.inpWires 0 1)[0]? = some 1 ∧ exCirc.Drives 0 1 1 ∧ exCirc.inputRow 0 1 = 1 :=
  ⟨by decide, ⟨[0, 1], by decide, by decide⟩, by decide⟩

/-! ### C57: labels of the gate inputs -/

/-- C57, what does hold.  As entry `j` of label `bit` of a wire in slot `s'` of block `b`, the gates which read the wire
receive entry number `b * 2 * k + bit * k + j` of the key array. The wire's own gate uses entry number
`(bit * k + j) * numBlocks + b` (`label`). The two agree if the numbers do, e.g. for the first entry of the first
block and the last entry of the last one.  Missing: all other entries, see `C57_labels_false`. -/
theorem C57_labels_partial (s : Setup hash rng ctx lpn c g tp pre masks keys errors nr nz) :
    ∃ out inp rr rz, garbleInputs ctx g tp pre = some (out, inp, rr, rz) ∧
      ∀ (gid i : Nat) (gate : PackedGate), c.gates[gid]? = some gate → i < gate.inps.length →
        ∀ bit < 2, ∀ j < lpn.keyLen, ∃ q : F[X],
          EntrySharing ctx.n (ctx.t + ctx.l) inp (c.inputRow gid i) (bit * lpn.keyLen + j) q ∧
          ∀ (x w b s' : Nat), (c.inpWires gid i)[x]? = some w → c.Drives b s' w →
            q.eval (ofU32 (ctx.n + x)) = at2 keys (b * (2 * lpn.keyLen) + (bit * lpn.keyLen + j)) s' ∧
            (b * (2 * lpn.keyLen - 1) = (bit * lpn.keyLen + j) * (c.blocks.length - 1) →
              q.eval (ofU32 (ctx.n + x)) = label lpn.keyLen c.blocks.length keys b bit j s') := by
  obtain ⟨out, inp, rr, rz, h1, h2⟩ := setup_inputs s
  refine ⟨out, inp, rr, rz, h1, ?_⟩
  intro gid i gate hg hi bit hbit j hj
  rw [inps_length_kind] at hi
  have hlt : bit * lpn.keyLen + j < 2 * lpn.keyLen := by
    have := Nat.mul_le_mul_right lpn.keyLen (show bit ≤ 1 by omega)
    omega
  obtain ⟨q, q1, q2⟩ := h2 gid i gate hg hi (bit * lpn.keyLen + j) (by omega)
  refine ⟨q, q1, ?_⟩
  intro x w b s' hx hb
  have h3 := q2 x w b s' hx hb
  rw [if_pos hlt] at h3
  refine ⟨h3, fun he => ?_⟩
  rw [h3, label]
  obtain ⟨ws, hb1, _⟩ := hb
  have hb := (List.getElem?_eq_some_iff.1 hb1).1
  congr 1
  obtain ⟨B, hB⟩ : ∃ B, c.blocks.length = B + 1 := ⟨c.blocks.length - 1, by omega⟩
  obtain ⟨k, hk⟩ : ∃ k, 2 * lpn.keyLen = k + 1 := ⟨2 * lpn.keyLen - 1, by omega⟩
  rw [hB, Nat.add_sub_cancel, hk, Nat.add_sub_cancel] at he
  rw [hB, hk, Nat.mul_add, he, Nat.mul_add]
  omega

/-- C57 fails: for every wire which is read by a gate and every label entry for which the numbers of
`C57_labels_partial` differ, there are keys for which the gate receives something else than the label of the wire. -/
theorem C57_labels_false (hash : List Nat → List Nat) (rng : List Nat → Nat → F) {ctx : Ctx F} (good : ctx.Good)
    (parties : ctx.t + 2 * ctx.l ≤ ctx.n) (mult : 2 * (ctx.t + ctx.l - 1) < ctx.n) (lpn : LpnParams)
    {c : PackedCircuit} (circ : c.Ok ctx.l) (fit : ∀ w ∈ c.blocks.flatten, ctx.n + ctx.l + w < CodeField.order F)
    (code : lpn.mssgLen < CodeField.order F) (gid i : Nat) (gate : PackedGate) (hgate : c.gates[gid]? = some gate)
    (hi : i < gate.inps.length) (x w b s' : Nat) (hx : (c.inpWires gid i)[x]? = some w) (hd : c.Drives b s' w)
    (bit j : Nat) (hbit : bit < 2) (hj : j < lpn.keyLen)
    (hne : b * (2 * lpn.keyLen - 1) ≠ (bit * lpn.keyLen + j) * (c.blocks.length - 1)) :
    ∃ g tp pre masks keys errors nr nz, Setup hash rng ctx lpn c g tp pre masks keys errors nr nz ∧
      ∃ out inp rr rz, garbleInputs ctx g tp pre = some (out, inp, rr, rz) ∧ ∃ q : F[X],
        EntrySharing ctx.n (ctx.t + ctx.l) inp (c.inputRow gid i) (bit * lpn.keyLen + j) q ∧
        q.eval (ofU32 (ctx.n + x)) ≠ label lpn.keyLen c.blocks.length keys b bit j s' := by
  obtain ⟨ws, hd1, hd2⟩ := id hd
  have hb := (List.getElem?_eq_some_iff.1 hd1).1
  have hs : s' < ctx.l := lt_of_lt_of_le (List.getElem?_eq_some_iff.1 hd2).1 (circ.blockLen ws (List.mem_of_getElem? hd1))
  have hlt : bit * lpn.keyLen + j < 2 * lpn.keyLen := by
    have := Nat.mul_le_mul_right lpn.keyLen (show bit ≤ 1 by omega)
    omega
  set idx := b * (2 * lpn.keyLen) + (bit * lpn.keyLen + j) with hidx
  have hidx1 : idx < 2 * lpn.keyLen * c.blocks.length := by
    have := Nat.mul_le_mul_right (2 * lpn.keyLen) (show b + 1 ≤ c.blocks.length from hb)
    rw [Nat.add_mul, Nat.one_mul, Nat.mul_comm c.blocks.length] at this
    omega
  have hidx2 : (bit * lpn.keyLen + j) * c.blocks.length + b < 2 * lpn.keyLen * c.blocks.length := by
    have := Nat.mul_le_mul_right c.blocks.length (show bit * lpn.keyLen + j + 1 ≤ 2 * lpn.keyLen from hlt)
    rw [Nat.add_mul _ 1, Nat.one_mul] at this
    omega
  have hdiff : (bit * lpn.keyLen + j) * c.blocks.length + b ≠ idx := by
    intro he
    apply hne
    obtain ⟨B, hB⟩ : ∃ B, c.blocks.length = B + 1 := ⟨c.blocks.length - 1, by omega⟩
    obtain ⟨k, hk⟩ : ∃ k, 2 * lpn.keyLen = k + 1 := ⟨2 * lpn.keyLen - 1, by omega⟩
    rw [hB, Nat.add_sub_cancel, hk, Nat.add_sub_cancel]
    rw [hidx, hB, hk, Nat.mul_add, Nat.mul_add] at he
    omega
  let keys : List (List F) := (List.range (2 * lpn.keyLen * c.blocks.length)).map fun m =>
    List.replicate ctx.l (if m = idx then 1 else 0)
  have hkey : ∀ m < 2 * lpn.keyLen * c.blocks.length, at2 keys m s' = if m = idx then 1 else 0 := by
    intro m hm
    unfold at2
    rw [List.getD_eq_getElem?_getD, List.getD_eq_getElem?_getD, getElem?_tab _ _ _ hm, Option.getD_some,
      List.getElem?_replicate, if_pos hs, Option.getD_some]
  obtain ⟨g, tp, pre, d, _, hs⟩ := setup_exists hash rng good parties mult lpn circ fit code
    (List.replicate c.blocks.length (List.replicate ctx.l 0)) keys
    (List.replicate (c.gates.map fun x => x.kind.numRows * lpn.mssgLen).sum (List.replicate ctx.l 0))
    (by simp) (by simp [keys]) (by simp) (fun r hr => by rw [List.eq_of_mem_replicate hr, List.length_replicate])
    (fun r hr => by
      obtain ⟨m, _, rfl⟩ := List.mem_map.1 hr
      rw [List.length_replicate])
    (fun r hr => by rw [List.eq_of_mem_replicate hr, List.length_replicate])
  obtain ⟨out, inp, rr, rz, h1, h2⟩ := C57_labels_partial hs
  obtain ⟨q, q1, q2⟩ := h2 gid i gate hgate hi bit hbit j hj
  refine ⟨g, tp, pre, _, keys, _, _, _, hs, out, inp, rr, rz, h1, q, q1, ?_⟩
  rw [(q2 x w b s' hx hd).1, ← hidx, hkey idx hidx1, if_pos rfl, label, hkey _ hidx2, if_neg hdiff]
  exact one_ne_zero

/-- The `INV` gate of the example reads wire 2 of the `AND` gate's block, number 1 of 3. -/
example : exCirc.gates[1]? = some (.inv ⟨#v[[2, 3]], [4, 5]⟩) ∧ (exCirc.inpWires 1 0)[0]? = some 2 ∧ exCirc.Drives 1 0 2 ∧
    1 * (2 * 1 - 1) ≠ (0 * 1 + 0) * (exCirc.blocks.length - 1) :=
  ⟨by decide, by decide, ⟨[2, 3], by decide, by decide⟩, by decide⟩

/-! ### C58, C59, C60: the rows of a table -/

/-- The messages in a table are determined by it. -/
theorem encrypts_msg (s : Setup hash rng ctx lpn c g tp pre masks keys errors nr nz) (hlen : lpn.keyLen + 1 ≤ lpn.mssgLen)
    {gid width rows : Nat} {key msg msg' : Nat → Nat → Nat → F} {table : List (List (List F))}
    (h : Encrypts hash rng ctx lpn g.enc c errors gid width rows key msg table)
    (h' : Encrypts hash rng ctx lpn g.enc c errors gid width rows key msg' table) :
    ∀ r < rows, ∀ x < width, ∀ j < lpn.keyLen + 1, msg r x j = msg' r x j := by
  intro r hr x hx j hj
  obtain ⟨A, hg⟩ := s.spec
  have hfit := s.good.fit
  have hpar := s.parties
  have hu := TableSharing.unique (by omega) (by omega) h h' r hr
  have e1 := mulVec_entry hg.enc s.code (msg r x)
  have e2 := mulVec_entry hg.enc s.code (msg' r x)
  have he : ((List.range lpn.mssgLen).map fun a => ∑ j ∈ Finset.range (lpn.keyLen + 1), g.enc.entry a j * msg r x j)
      = (List.range lpn.mssgLen).map fun a => ∑ j ∈ Finset.range (lpn.keyLen + 1), g.enc.entry a j * msg' r x j := by
    apply List.map_congr_left
    intro a ha
    have := hu a (List.mem_range.1 ha) x hx
    unfold rowSecret at this
    exact add_left_cancel (add_right_cancel this)
  have := C10_unique_decoding (lpn.keyLen + 1) lpn.mssgLen 0 (by omega) hlen s.code (by omega) g.enc hg.enc
    ((List.range lpn.mssgLen).map fun a => ∑ j ∈ Finset.range (lpn.keyLen + 1), g.enc.entry a j * msg' r x j)
    ((List.range (lpn.keyLen + 1)).map (msg r x)) ((List.range (lpn.keyLen + 1)).map (msg' r x)) _ _ (by simp) (by simp)
    (by simp) e1 e2 (by rw [he, hdist_tab]; simp) (by rw [hdist_tab]; simp)
  have := congrArg (fun y => y[j]?) this
  rw [getElem?_tab _ _ _ hj, getElem?_tab _ _ _ hj, Option.some.injEq] at this
  exact this

/-- C58. Row `2i + j` of an `AND` gate encrypts, in every slot, label number `e = (i + a)(j + b) + c` and the bit
`c + e`, where `a`, `b` and `c` are the masks of the wires read and of the output. -/
theorem C58_and (s : Setup hash rng ctx lpn c g tp pre masks keys errors nr nz)
    (hrun : garble ctx g tp pre = some (tables, st)) (mb : Nat → Nat → Nat) (hmb : MaskBits masks mb)
    (gid : Nat) (gate : PackedGateInfo 2) (hg : c.gates[gid]? = some (.and gate)) (db ds : Nat → Nat → Nat)
    (hsrc : ∀ x < gate.out.length, c.Sources (.and gate) x (db x) (ds x)) :
    ∃ table, tables[gid]? = some table ∧
      Encrypts hash rng ctx lpn g.enc c errors gid gate.out.length 4
        (fun r x => readKey .and lpn.keyLen keys (db x) (ds x) r)
        (fun r x j => labelMsg lpn.keyLen c.blocks.length masks keys (c.inputs.length + gid)
          (((r / 2 + mb (db x 0) (ds x 0)) * (r % 2 + mb (db x 1) (ds x 1)) + mb (c.inputs.length + gid) x) % 2) j x)
        table := by
  exact garble_bits s hrun hmb hg db ds hsrc

/-- C59. Row `2i + j` of an `XOR` gate encrypts, in every slot, label number `e = i + a + j + b + c` and the bit
`c + e`. -/
theorem C59_xor (s : Setup hash rng ctx lpn c g tp pre masks keys errors nr nz)
    (hrun : garble ctx g tp pre = some (tables, st)) (mb : Nat → Nat → Nat) (hmb : MaskBits masks mb)
    (gid : Nat) (gate : PackedGateInfo 2) (hg : c.gates[gid]? = some (.xor gate)) (db ds : Nat → Nat → Nat)
    (hsrc : ∀ x < gate.out.length, c.Sources (.xor gate) x (db x) (ds x)) :
    ∃ table, tables[gid]? = some table ∧
      Encrypts hash rng ctx lpn g.enc c errors gid gate.out.length 4
        (fun r x => readKey .xor lpn.keyLen keys (db x) (ds x) r)
        (fun r x j => labelMsg lpn.keyLen c.blocks.length masks keys (c.inputs.length + gid)
          ((r / 2 + mb (db x 0) (ds x 0) + (r % 2 + mb (db x 1) (ds x 1)) + mb (c.inputs.length + gid) x) % 2) j x)
        table := by
  exact garble_bits s hrun hmb hg db ds hsrc

/-- C60, what does hold.  Row `i` of an `INV` gate encrypts, in every slot, label number `e = i + a + c` and the bit
`c + e`: the label of the value which is *not* negated. -/
theorem C60_inv_partial (s : Setup hash rng ctx lpn c g tp pre masks keys errors nr nz)
    (hrun : garble ctx g tp pre = some (tables, st)) (mb : Nat → Nat → Nat) (hmb : MaskBits masks mb)
    (gid : Nat) (gate : PackedGateInfo 1) (hg : c.gates[gid]? = some (.inv gate)) (db ds : Nat → Nat → Nat)
    (hsrc : ∀ x < gate.out.length, c.Sources (.inv gate) x (db x) (ds x)) :
    ∃ table, tables[gid]? = some table ∧
      Encrypts hash rng ctx lpn g.enc c errors gid gate.out.length 2
        (fun r x b => readLabel lpn.keyLen keys (db x 0) r b (ds x 0))
        (fun r x j => labelMsg lpn.keyLen c.blocks.length masks keys (c.inputs.length + gid)
          ((r + mb (db x 0) (ds x 0) + mb (c.inputs.length + gid) x) % 2) j x)
        table := by
  exact garble_bits s hrun hmb hg db ds hsrc

/-- C60 fails, in every run and for every `INV` gate: no row holds, in any slot, the label of the negated value. -/
theorem C60_inv_false (s : Setup hash rng ctx lpn c g tp pre masks keys errors nr nz) (hlen : lpn.keyLen + 1 ≤ lpn.mssgLen)
    (hrun : garble ctx g tp pre = some (tables, st)) (mb : Nat → Nat → Nat) (hmb : MaskBits masks mb)
    (gid : Nat) (gate : PackedGateInfo 1) (hg : c.gates[gid]? = some (.inv gate)) (db ds : Nat → Nat → Nat)
    (hsrc : ∀ x < gate.out.length, c.Sources (.inv gate) x (db x) (ds x)) (table : List (List (List F)))
    (htab : tables[gid]? = some table) (msg : Nat → Nat → Nat → F)
    (henc : Encrypts hash rng ctx lpn g.enc c errors gid gate.out.length 2
        (fun r x b => readLabel lpn.keyLen keys (db x 0) r b (ds x 0)) msg table)
    (r : Nat) (hr : r < 2) (x : Nat) (hx : x < gate.out.length) :
    ¬ ∀ j < lpn.keyLen + 1, msg r x j = labelMsg lpn.keyLen c.blocks.length masks keys (c.inputs.length + gid)
          ((r + mb (db x 0) (ds x 0) + 1 + mb (c.inputs.length + gid) x) % 2) j x := by
  intro hmsg
  obtain ⟨table', h1, h2⟩ := C60_inv_partial s hrun mb hmb gid gate hg db ds hsrc
  rw [htab, Option.some.injEq] at h1
  subst h1
  have := encrypts_msg s hlen henc h2 r hr x hx lpn.keyLen (by omega)
  rw [hmsg _ (by omega)] at this
  simp only [labelMsg, if_neg (lt_irrefl _)] at this
  have := add_left_cancel this
  rw [cast_mod_two, cast_mod_two] at this
  push_cast at this
  apply one_ne_zero (α := F)
  linear_combination this

/-- The masks of the example are bits, and its `AND` gate reads wires 0 and 1, which are in the input block. -/
example : MaskBits (List.replicate 3 [1, 1] : List (List (GF 4))) (fun _ s => if s < 2 then 1 else 0) ∧
    ∀ x < 2, exCirc.Sources (.and ⟨#v[[0, 1], [1, 1]], [2, 3]⟩) x (fun _ => 0) (fun i => if i = 0 then x else 1) := by
  constructor
  · intro b s
    refine ⟨by simp only []; split <;> decide, fun hb => ?_⟩
    simp only [List.length_replicate] at hb
    unfold at2
    have hr : (List.replicate 3 [1, 1] : List (List (GF 4))).getD b [] = [1, 1] := by
      rw [List.getD_eq_getElem _ _ (by simpa using hb), List.getElem_replicate]
    rw [hr]
    match s with
    | 0 => simp
    | 1 => simp
    | s + 2 => simp
  · intro x hx i hi
    have : i = 0 ∨ i = 1 := by
      have : i < 2 := hi
      omega
    have hx : x = 0 ∨ x = 1 := by omega
    rcases this with rfl | rfl <;> rcases hx with rfl | rfl
    · exact ⟨0, by decide, [0, 1], by decide, by decide⟩
    · exact ⟨1, by decide, [0, 1], by decide, by decide⟩
    · exact ⟨1, by decide, [0, 1], by decide, by decide⟩
    · exact ⟨1, by decide, [0, 1], by decide, by decide⟩

/-! ### C61: the last element of a plaintext -/

/-- C61, what does hold.  A row of an `AND` gate holds the label of the output with the right number. Its last element is
the *value* `(i + a)(j + b)` of the output.  Missing: that it is the colour bit, see `C61_colour_false`. -/
theorem C61_colour_partial (s : Setup hash rng ctx lpn c g tp pre masks keys errors nr nz)
    (hrun : garble ctx g tp pre = some (tables, st)) (mb : Nat → Nat → Nat) (hmb : MaskBits masks mb)
    (gid : Nat) (gate : PackedGateInfo 2) (hg : c.gates[gid]? = some (.and gate)) (db ds : Nat → Nat → Nat)
    (hsrc : ∀ x < gate.out.length, c.Sources (.and gate) x (db x) (ds x)) :
    ∃ table, tables[gid]? = some table ∧
      Encrypts hash rng ctx lpn g.enc c errors gid gate.out.length 4
        (fun r x => readKey .and lpn.keyLen keys (db x) (ds x) r)
        (fun r x j => if j < lpn.keyLen then label lpn.keyLen c.blocks.length keys (c.inputs.length + gid)
          (((r / 2 + mb (db x 0) (ds x 0)) * (r % 2 + mb (db x 1) (ds x 1)) + mb (c.inputs.length + gid) x) % 2) j x
          else (((r / 2 + mb (db x 0) (ds x 0)) * (r % 2 + mb (db x 1) (ds x 1)) % 2 : Nat) : F))
        table := by
  obtain ⟨table, h1, h2⟩ := garble_bits s hrun hmb hg db ds hsrc
  refine ⟨table, h1, h2.congr (fun _ _ _ _ _ _ => rfl) ?_⟩
  intro r hr x hx j hj
  have m2 := maskOut s hmb hg x
  rw [labelMsg]
  simp only [rowBit, PackedGate.kind]
  split
  · rfl
  · rw [m2, cast_mod_two, cast_mod_two]
    push_cast
    linear_combination (mb (c.inputs.length + gid) x : F) * (two_eq_zero : (2 : F) = 0)

/-- C61 fails: in every run, the last element of a row of an `AND` gate is the colour bit of the output only in slots in
which the mask of the output is zero. -/
theorem C61_colour_false (s : Setup hash rng ctx lpn c g tp pre masks keys errors nr nz)
    (hlen : lpn.keyLen + 1 ≤ lpn.mssgLen)
    (hrun : garble ctx g tp pre = some (tables, st)) (mb : Nat → Nat → Nat) (hmb : MaskBits masks mb)
    (gid : Nat) (gate : PackedGateInfo 2) (hg : c.gates[gid]? = some (.and gate)) (db ds : Nat → Nat → Nat)
    (hsrc : ∀ x < gate.out.length, c.Sources (.and gate) x (db x) (ds x)) (table : List (List (List F)))
    (htab : tables[gid]? = some table) (msg : Nat → Nat → Nat → F)
    (henc : Encrypts hash rng ctx lpn g.enc c errors gid gate.out.length 4
        (fun r x => readKey .and lpn.keyLen keys (db x) (ds x) r) msg table)
    (r : Nat) (hr : r < 4) (x : Nat) (hx : x < gate.out.length) :
    msg r x lpn.keyLen = (((r / 2 + mb (db x 0) (ds x 0)) * (r % 2 + mb (db x 1) (ds x 1))
      + mb (c.inputs.length + gid) x) % 2 : Nat) ↔ mb (c.inputs.length + gid) x = 0 := by
  obtain ⟨table', h1, h2⟩ := C61_colour_partial s hrun mb hmb gid gate hg db ds hsrc
  rw [htab, Option.some.injEq] at h1
  subst h1
  have := encrypts_msg s hlen henc h2 r hr x hx lpn.keyLen (by omega)
  rw [this]
  simp only [if_neg (lt_irrefl _)]
  rw [cast_mod_two, cast_mod_two, Nat.cast_add]
  have hb : mb (c.inputs.length + gid) x = 0 ∨ mb (c.inputs.length + gid) x = 1 := by
    have := (hmb (c.inputs.length + gid) x).1
    omega
  rcases hb with hb | hb <;> rw [hb]
  · simp
  · simp

/-- The mask of the output wires of the example is 1, so the colour bit is never found. -/
example : ∃ (ctx : Ctx (GF 4)) (g : GarbleCtx (GF 4)) (tp : GarbleTapes (GF 4)) (pre : List (PreProc (GF 4))) (nr nz : Nat),
    exCtx = some ctx ∧ Setup id (fun _ _ => (1 : GF 4)) ctx ⟨1, 3⟩ exCirc g tp pre (List.replicate 3 [1, 1])
      (List.replicate 6 [1, 1]) (List.replicate 18 [1, 1]) nr nz := exSetup_ones

/-! ### C62: decryption -/

/-- C62. Every entry of a table is a sharing. Slot `x` of entry `(r, a)` is row `a` of the gate's matrix, times the sum of
the labels received for row `r`, plus entry `a` of the encoding of a message of `k + 1` elements, plus an error
which is set aside for this entry. -/
theorem C62_rows (s : Setup hash rng ctx lpn c g tp pre masks keys errors nr nz)
    (hrun : garble ctx g tp pre = some (tables, st)) (mb : Nat → Nat → Nat) (hmb : MaskBits masks mb) (gid : Nat)
    (gate : PackedGate) (hg : c.gates[gid]? = some gate)
    (db ds : Nat → Nat → Nat) (hsrc : ∀ x < gate.out.length, c.Sources gate x (db x) (ds x)) :
    ∃ table, tables[gid]? = some table ∧
      Encrypts hash rng ctx lpn g.enc c errors gid gate.out.length (match gate with | .and _ => 4 | .xor _ => 4 | .inv _ => 2)
        (fun r x b => match gate with
          | .and _ => readLabel lpn.keyLen keys (db x 0) (r / 2) b (ds x 0) + readLabel lpn.keyLen keys (db x 1) (r % 2) b (ds x 1)
          | .xor _ => readLabel lpn.keyLen keys (db x 0) (r / 2) b (ds x 0) + readLabel lpn.keyLen keys (db x 1) (r % 2) b (ds x 1)
          | .inv _ => readLabel lpn.keyLen keys (db x 0) r b (ds x 0))
        (fun r x j => labelMsg lpn.keyLen c.blocks.length masks keys (c.inputs.length + gid)
          (rowBit gate.kind r (mb (db x 0) (ds x 0)) (mb (db x 1) (ds x 1)) (mb (c.inputs.length + gid) x)) j x) table := by
  obtain ⟨table, h1, h2⟩ := garble_bits s hrun hmb hg db ds hsrc
  refine ⟨table, h1, ?_⟩
  cases gate <;> exact h2

/-- C62. Reconstruction gives the slots: `recon` of the shares of any entry succeeds with them. -/
theorem C62_recon (s : Setup hash rng ctx lpn c g tp pre masks keys errors nr nz) (gid width rows : Nat) (hw : width ≤ ctx.l)
    (key msg : Nat → Nat → Nat → F) (table : List (List (List F)))
    (henc : Encrypts hash rng ctx lpn g.enc c errors gid width rows key msg table) :
    ∃ ps : PackedSharing F, PackedSharing.new (ctx.t + 2 * ctx.l - 2) ctx.n ((defaultPos ctx.n ctx.l).take width) = some ps ∧
      ∀ r < rows, ∀ a < lpn.mssgLen, ∃ shares,
        (table.mapM fun t => (t[r]?).bind fun row => row[a]?) = some shares ∧
        ps.recon shares = some (.ok ((List.range width).map fun x => rowSecret rng ctx.l lpn g.enc
          (hash (c.nonceString ctx.l gid)) (key r x) (msg r x) (at2 errors (c.errorIdx lpn.mssgLen gid r a) x) r a x)) := by
  have hl := s.good.posL
  have hp := s.parties
  have hnew : ∃ ps : PackedSharing F, PackedSharing.new (ctx.t + 2 * ctx.l - 2) ctx.n ((defaultPos ctx.n ctx.l).take width)
      = some ps := by
    unfold PackedSharing.new
    simp only []
    rw [if_pos (by omega)]
    exact ⟨_, rfl⟩
  obtain ⟨ps, hps⟩ := hnew
  refine ⟨ps, hps, ?_⟩
  intro r hr a ha
  obtain ⟨T, t1, t2, t3⟩ := henc
  refine ⟨(List.range ctx.n).map fun i => (T r a).eval (ofU32 i), ?_, ?_⟩
  · rw [t2]
    rw [List.mapM_map]
    apply mapM_some_map
    intro i _
    simp only [Function.comp_apply]
    rw [getElem?_tab _ _ _ hr, Option.bind_some, getElem?_tab _ _ _ ha]
  · have hfit := s.good.fit
    rw [(C16_recon_iff _ _ _ (by omega) ps hps _ (by simp)).1]
    refine ⟨T r a, ?_, rfl, (t3 r hr a ha).symm⟩
    rw [show ctx.t + 2 * ctx.l - 2 + 1 = ctx.t + 2 * ctx.l - 1 by omega]
    exact t1 r hr a ha

/-- C62. Someone who knows a row's slot and the key can decode the message if there are at most `e` errors in it, for
`2e < lpn_mssg_len - lpn_key_len`: after the product of matrix and key has been subtracted, the row is within distance
`e` of the encoding of the message and of no other encoding. -/
theorem C62_decode (s : Setup hash rng ctx lpn c g tp pre masks keys errors nr nz) (hlen : lpn.keyLen + 1 ≤ lpn.mssgLen)
    (e : Nat) (he : 2 * e < lpn.mssgLen - lpn.keyLen) (gid r x : Nat) (key msg : Nat → F)
    (herr : ((List.range lpn.mssgLen).filter fun a => at2 errors (c.errorIdx lpn.mssgLen gid r a) x ≠ 0).length ≤ e)
    (word : List F) (hword : word = (List.range lpn.mssgLen).map fun a =>
      rowSecret rng ctx.l lpn g.enc (hash (c.nonceString ctx.l gid)) key msg (at2 errors (c.errorIdx lpn.mssgLen gid r a) x) r a x
        - ∑ b ∈ Finset.range lpn.keyLen, rng (hash (c.nonceString ctx.l gid))
            (((r * lpn.mssgLen + a) * lpn.keyLen + b) * ctx.l + x) * key b) :
    (∃ code, g.enc.mulVec ((List.range (lpn.keyLen + 1)).map msg) = some code ∧ hdist code word ≤ e) ∧
    ∀ m code, m.length = lpn.keyLen + 1 → g.enc.mulVec m = some code → hdist code word ≤ e →
      m = (List.range (lpn.keyLen + 1)).map msg := by
  obtain ⟨A, hg⟩ := s.spec
  have hmul := mulVec_entry hg.enc s.code msg
  have hd : hdist ((List.range lpn.mssgLen).map fun a => ∑ j ∈ Finset.range (lpn.keyLen + 1), g.enc.entry a j * msg j) word
      ≤ e := by
    refine le_trans (le_of_eq ?_) herr
    rw [hword, hdist_tab]
    congr 1
    apply List.filter_congr
    intro a _
    rw [decide_eq_decide]
    simp only [rowSecret]
    constructor
    · intro h1 h2
      apply h1
      rw [h2]
      ring
    · intro h1 h2
      apply h1
      linear_combination -h2
  refine ⟨⟨_, hmul, hd⟩, ?_⟩
  intro m code hm hc hcd
  exact C10_unique_decoding (lpn.keyLen + 1) lpn.mssgLen e (by omega) hlen s.code (by omega) g.enc hg.enc word m _ code _
    (by rw [hword]; simp) hm (by simp) hc hmul hcd hd

/-- With 3 columns and messages of 1 + 1 elements no error can be corrected, with 5 columns one. -/
example : 2 * 0 < 3 - 1 ∧ 2 * 1 < 5 - 1 ∧ 1 + 1 ≤ 5 := by decide

/-! ### C63: the keys of the rows -/

/-- C63 fails, in every run and for every gate which reads a wire twice in a slot: in this slot, rows 0 and 3 are
encrypted with the zero key, i.e. they are the encoding of the message plus the error. -/
theorem C63_masked_false (s : Setup hash rng ctx lpn c g tp pre masks keys errors nr nz)
    (hrun : garble ctx g tp pre = some (tables, st)) (mb : Nat → Nat → Nat) (hmb : MaskBits masks mb) (gid : Nat)
    (gate : PackedGate) (hg : c.gates[gid]? = some gate) (harity : gate.inps.length = 2) (db ds : Nat → Nat → Nat)
    (hsrc : ∀ x < gate.out.length, c.Sources gate x (db x) (ds x)) :
    ∃ table sec, tables[gid]? = some table ∧
      TableSharing ctx.n (ctx.t + 2 * ctx.l - 1) (defaultPos ctx.n ctx.l) gate.out.length 4 lpn.mssgLen sec table ∧
      ∀ x w, (c.inpWires gid 0)[x]? = some w → (c.inpWires gid 1)[x]? = some w → ∀ r ∈ [0, 3], ∀ a < lpn.mssgLen,
        sec r a x = ∑ j ∈ Finset.range (lpn.keyLen + 1), g.enc.entry a j *
            labelMsg lpn.keyLen c.blocks.length masks keys (c.inputs.length + gid)
              (rowBit gate.kind r (mb (db x 0) (ds x 0)) (mb (db x 1) (ds x 1)) (mb (c.inputs.length + gid) x)) j x
          + at2 errors (c.errorIdx lpn.mssgLen gid r a) x := by
  obtain ⟨table, h1, h2⟩ := garble_bits s hrun hmb hg db ds hsrc
  rw [inps_length_kind] at harity
  have hrows : gate.kind.numRows = 4 := by
    cases hk : gate.kind <;> rw [hk] at harity <;> simp [GateKind.arity, GateKind.numRows] at *
  rw [hrows] at h2
  refine ⟨table, _, h1, h2, ?_⟩
  intro x w hw0 hw1 r hr a ha
  obtain ⟨hx, w0, w1, a1, a2, b1, b2⟩ := pair_sources s.circ hg harity hsrc hw0 hw1
  rw [hw0, Option.some.injEq] at a1
  rw [hw1, Option.some.injEq] at b1
  subst a1 b1
  obtain ⟨e1, e2⟩ := drives_unique s.circ.nodup a2 b2
  have hkey : ∀ b, readKey gate.kind lpn.keyLen keys (db x) (ds x) r b = 0 := by
    intro b
    have hr' : r / 2 = r % 2 := by
      rcases List.mem_cons.1 hr with rfl | hr
      · rfl
      · rw [List.mem_singleton] at hr
        subst hr
        rfl
    unfold readKey
    cases hk : gate.kind <;> rw [hk] at harity <;> simp only [GateKind.arity] at harity <;> simp only []
    · rw [e1, e2, hr']
      exact CodeField.add_self _
    · rw [e1, e2, hr']
      exact CodeField.add_self _
    · omega
  unfold rowSecret
  rw [Finset.sum_eq_zero (s := Finset.range lpn.keyLen) (fun b _ => by simp only []; rw [hkey b, mul_zero]), zero_add]

/-- C63, what does hold.  The key of row `r` is the sum of the labels received, and if the entries of the key array are
different from each other, it has no zero entry in the slots in which the gate reads different wires.
Missing: gates which read a wire twice in a slot. -/
theorem C63_masked_partial (s : Setup hash rng ctx lpn c g tp pre masks keys errors nr nz)
    (hrun : garble ctx g tp pre = some (tables, st)) (mb : Nat → Nat → Nat) (hmb : MaskBits masks mb) (gid : Nat)
    (gate : PackedGate) (hg : c.gates[gid]? = some gate) (harity : gate.inps.length = 2) (db ds : Nat → Nat → Nat)
    (hsrc : ∀ x < gate.out.length, c.Sources gate x (db x) (ds x))
    (hkeys : ∀ m < keys.length, ∀ m' < keys.length, ∀ x < ctx.l, ∀ x' < ctx.l, at2 keys m x = at2 keys m' x' →
      m = m' ∧ x = x') :
    ∃ table key, tables[gid]? = some table ∧
      Encrypts hash rng ctx lpn g.enc c errors gid gate.out.length 4 key
        (fun r x j => labelMsg lpn.keyLen c.blocks.length masks keys (c.inputs.length + gid)
          (rowBit gate.kind r (mb (db x 0) (ds x 0)) (mb (db x 1) (ds x 1)) (mb (c.inputs.length + gid) x)) j x) table ∧
      ∀ x w w', (c.inpWires gid 0)[x]? = some w → (c.inpWires gid 1)[x]? = some w' → w ≠ w' →
        ∀ r < 4, ∀ b < lpn.keyLen, key r x b ≠ 0 := by
  obtain ⟨table, h1, h2⟩ := garble_bits s hrun hmb hg db ds hsrc
  rw [inps_length_kind] at harity
  have hrows : gate.kind.numRows = 4 := by
    cases hk : gate.kind <;> rw [hk] at harity <;> simp [GateKind.arity, GateKind.numRows] at *
  rw [hrows] at h2
  refine ⟨table, _, h1, h2, ?_⟩
  intro x w w' hw0 hw1 hne r hr b hb h0
  obtain ⟨hx, w0, w1, a1, a2, b1, b2⟩ := pair_sources s.circ hg harity hsrc hw0 hw1
  rw [hw0, Option.some.injEq] at a1
  rw [hw1, Option.some.injEq] at b1
  subst a1 b1
  have hkey : readLabel lpn.keyLen keys (db x 0) (r / 2) b (ds x 0)
      + readLabel lpn.keyLen keys (db x 1) (r % 2) b (ds x 1) ≠ 0 := by
    intro h0
    rw [← sub_eq_add', sub_eq_zero] at h0
    unfold readLabel at h0
    obtain ⟨u1, u2⟩ := drives_lt s.circ a2
    obtain ⟨v1, v2⟩ := drives_lt s.circ b2
    have hlen := keys_length s
    have idx : ∀ bl < c.blocks.length, ∀ bit < 2, bl * (2 * lpn.keyLen) + (bit * lpn.keyLen + b) < keys.length ∧
        bit * lpn.keyLen + b < 2 * lpn.keyLen := by
      intro bl hbl bit hbit
      have h4 : bit * lpn.keyLen + b < 2 * lpn.keyLen := by
        have := Nat.mul_le_mul_right lpn.keyLen (show bit ≤ 1 by omega)
        omega
      have := Nat.mul_le_mul_right (2 * lpn.keyLen) (show bl + 1 ≤ c.blocks.length from hbl)
      rw [Nat.add_mul, Nat.one_mul, Nat.mul_comm c.blocks.length, ← hlen] at this
      omega
    obtain ⟨i1, j1⟩ := idx _ u1 (r / 2) (by omega)
    obtain ⟨i2, j2⟩ := idx _ v1 (r % 2) (by omega)
    obtain ⟨k1, k2⟩ := hkeys _ i1 _ i2 _ u2 _ v2 h0
    have k3 : db x 0 = db x 1 := by
      have := congrArg (fun y => y / (2 * lpn.keyLen)) k1
      rw [Nat.mul_comm (db x 0), Nat.mul_comm (db x 1), Nat.mul_add_div (by omega), Nat.mul_add_div (by omega),
        Nat.div_eq_of_lt j1, Nat.div_eq_of_lt j2] at this
      omega
    apply hne
    rw [k3, k2] at a2
    obtain ⟨ws, p1, p2⟩ := a2
    obtain ⟨ws', q1, q2⟩ := b2
    rw [p1, Option.some.injEq] at q1
    subst q1
    rw [p2, Option.some.injEq] at q2
    exact q2
  unfold readKey at h0
  cases hk : gate.kind <;> rw [hk] at harity h0 <;> simp only [GateKind.arity] at harity <;> simp only [] at h0
  · exact hkey h0
  · exact hkey h0
  · omega

/-- The `AND` gate of the example reads wire 1 twice in slot 1, and different wires in slot 0. -/
example : (exCirc.inpWires 0 0)[1]? = some 1 ∧ (exCirc.inpWires 0 1)[1]? = some 1 ∧ (exCirc.inpWires 0 0)[0]? = some 0 ∧
    (exCirc.inpWires 0 1)[0]? = some 1 := by decide

/-! ### C76: rows and values -/

/-- What a gate computes. -/
def gateFn (kind : GateKind) (u v : Bool) : Bool :=
  match kind with
  | .and => u && v
  | .xor => u ^^ v
  | .inv => !u

/-- The row which is chosen by the colour bits `i` and `j` of the wires read. -/
def colourRow (kind : GateKind) (i j : Nat) : Nat :=
  match kind with
  | .and => 2 * i + j
  | .xor => 2 * i + j
  | .inv => i

/-- C76, what does hold.  Let `v` give values to the wires. In every slot of an `AND` or `XOR` gate, the row which the
colour bits (value plus mask) of the wires read choose holds the label of the output whose number is the colour bit of
the gate's result.  Missing: `INV` gates, see `C76_colours_false`. -/
theorem C76_colours_partial (s : Setup hash rng ctx lpn c g tp pre masks keys errors nr nz)
    (hrun : garble ctx g tp pre = some (tables, st)) (mb : Nat → Nat → Nat) (hmb : MaskBits masks mb) (v : Nat → Bool)
    (gid : Nat) (gate : PackedGate) (hg : c.gates[gid]? = some gate) (hkind : gate.kind ≠ .inv) (db ds : Nat → Nat → Nat)
    (hsrc : ∀ x < gate.out.length, c.Sources gate x (db x) (ds x)) :
    ∃ table msg, tables[gid]? = some table ∧
      Encrypts hash rng ctx lpn g.enc c errors gid gate.out.length gate.kind.numRows
        (fun r x => readKey gate.kind lpn.keyLen keys (db x) (ds x) r) msg table ∧
      ∀ x w w', (c.inpWires gid 0)[x]? = some w → (c.inpWires gid 1)[x]? = some w' → ∀ j < lpn.keyLen + 1,
        msg (colourRow gate.kind (((v w).toNat + mb (db x 0) (ds x 0)) % 2) (((v w').toNat + mb (db x 1) (ds x 1)) % 2)) x j
          = labelMsg lpn.keyLen c.blocks.length masks keys (c.inputs.length + gid)
            (((gateFn gate.kind (v w) (v w')).toNat + mb (c.inputs.length + gid) x) % 2) j x := by
  obtain ⟨table, h1, h2⟩ := garble_bits s hrun hmb hg db ds hsrc
  refine ⟨table, _, h1, h2, ?_⟩
  intro x w w' hw hw' j hj
  congr 1
  have b0 := (hmb (db x 0) (ds x 0)).1
  have b1 := (hmb (db x 1) (ds x 1)).1
  generalize mb (db x 0) (ds x 0) = p at *
  generalize mb (db x 1) (ds x 1) = q at *
  generalize mb (c.inputs.length + gid) x = y at *
  have hp : p = 0 ∨ p = 1 := by omega
  have hq : q = 0 ∨ q = 1 := by omega
  cases hk : gate.kind
  · rcases hp with rfl | rfl <;> rcases hq with rfl | rfl <;> cases v w <;> cases v w' <;>
      simp [rowBit, colourRow, gateFn] <;> omega
  · rcases hp with rfl | rfl <;> rcases hq with rfl | rfl <;> cases v w <;> cases v w' <;>
      simp [rowBit, colourRow, gateFn] <;> omega
  · exact absurd hk hkind

/-- C76 fails, in every run and for every `INV` gate: for no values of the wires does the row chosen by the colour bit hold
the label of the negated value. -/
theorem C76_colours_false (s : Setup hash rng ctx lpn c g tp pre masks keys errors nr nz)
    (hlen : lpn.keyLen + 1 ≤ lpn.mssgLen)
    (hrun : garble ctx g tp pre = some (tables, st)) (mb : Nat → Nat → Nat) (hmb : MaskBits masks mb) (v : Nat → Bool)
    (gid : Nat) (gate : PackedGateInfo 1) (hg : c.gates[gid]? = some (.inv gate)) (db ds : Nat → Nat → Nat)
    (hsrc : ∀ x < gate.out.length, c.Sources (.inv gate) x (db x) (ds x)) (table : List (List (List F)))
    (htab : tables[gid]? = some table) (msg : Nat → Nat → Nat → F)
    (henc : Encrypts hash rng ctx lpn g.enc c errors gid gate.out.length 2
        (fun r x => readKey .inv lpn.keyLen keys (db x) (ds x) r) msg table)
    (x w : Nat) (hw : (c.inpWires gid 0)[x]? = some w) (hx : x < gate.out.length) :
    ¬ ∀ j < lpn.keyLen + 1, msg (colourRow .inv (((v w).toNat + mb (db x 0) (ds x 0)) % 2) 0) x j
      = labelMsg lpn.keyLen c.blocks.length masks keys (c.inputs.length + gid)
          (((gateFn .inv (v w) false).toNat + mb (c.inputs.length + gid) x) % 2) j x := by
  intro h
  refine C60_inv_false s hlen hrun mb hmb gid gate hg db ds hsrc table htab msg henc _ (Nat.mod_lt _ (by decide)) x hx
    (fun j hj => (h j hj).trans ?_)
  congr 1
  have b0 := (hmb (db x 0) (ds x 0)).1
  generalize mb (db x 0) (ds x 0) = p at *
  generalize mb (c.inputs.length + gid) x = y at *
  have hp : p = 0 ∨ p = 1 := by omega
  rcases hp with rfl | rfl <;> cases v w <;> simp [gateFn] <;> omega

/-- With input mask 1 and output mask 0, value 1 has colour bit 0; row 0 holds label 1, although the negation is 0. -/
example : colourRow .inv ((true.toNat + 1) % 2) 0 = 0 ∧ rowBit .inv 0 1 0 0 = 1 ∧
    ((gateFn .inv true false).toNat + 0) % 2 = 0 := by decide

end Verif.Props
