import Verif.QueryLemmas
import Verif.LpnCostLemmas
import Verif.ShippedCount
import Verif.EndToEndLemmas
import Verif.Props.Garble
import Verif.Props.Shipped

/-!
# C116: how many LPN queries are made about a label
-/

namespace Verif.Props

theorem rowBit_lt (kind : GateKind) (r a b c : Nat) : rowBit kind r a b c < 2 := by
  cases kind <;> simp only [rowBit] <;> omega

theorem getElem?_map_range {α : Type*} (f : Nat → α) {n x : Nat} (h : x < n) : ((List.range n).map f)[x]? = some (f x) := by
  rw [List.getElem?_map, List.getElem?_range h]
  rfl

section
variable {F : Type} [CodeField F] [DecidableEq F] {hash : List Nat → List Nat} {rng : List Nat → Nat → F} {ctx : Ctx F}
  {lpn : LpnParams} {c : PackedCircuit} {g : GarbleCtx F} {tp : GarbleTapes F} {pre : List (PreProc F)}
  {masks keys errors : List (List F)} {nr nz : Nat} {tables : List (List (List (List F)))} {st : GarbleState F}

/-- C116. Each place where a gate reads wire `w`, which is in slot `sl` of block `blk`, gives `lpn_mssg_len` LPN queries about each label of the wire:
for the row of the gate's table which belongs to this label and a known label `act` of the other wire, every entry of the row, less the known
parts, is the product of a public vector and the unknown label, plus an error. -/
theorem C116_query (s : Setup hash rng ctx lpn c g tp pre masks keys errors nr nz) (hrun : garble ctx g tp pre = some (tables, st))
    (mb : Nat → Nat → Nat) (hmb : MaskBits masks mb) {w blk sl : Nat} (hd : c.Drives blk sl w) (act : Nat → Nat) (hact : ∀ v, act v < 2)
    {gid x i : Nat} (hread : (gid, x, i) ∈ c.readSet ctx.l w) :
    ∃ gate table, c.gates[gid]? = some gate ∧ tables[gid]? = some table ∧
      ∃ r, r = readRow gate.kind i (1 - act w) (act (c.otherWire gid x i)) ∧ r < gate.kind.numRows ∧
      ∃ known : Nat → F, (gate.kind.arity = 1 → known = 0) ∧
        (gate.kind.arity = 2 → ∃ o so, c.Drives o so (c.otherWire gid x i) ∧
          ∀ b, known b = readLabel lpn.keyLen keys o (act (c.otherWire gid x i)) b so) ∧
        ∃ bit < 2, ∃ ps : PackedSharing F,
        PackedSharing.new (ctx.t + 2 * ctx.l - 2) ctx.n ((defaultPos ctx.n ctx.l).take gate.out.length) = some ps ∧
        ∀ a < lpn.mssgLen, ∃ shares vals v, (table.mapM fun t => (t[r]?).bind fun row => row[a]?) = some shares ∧
          ps.recon shares = some (.ok vals) ∧ vals[x]? = some v ∧
          v - ∑ b ∈ Finset.range lpn.keyLen, rng (hash (c.nonceString ctx.l gid)) (((r * lpn.mssgLen + a) * lpn.keyLen + b) * ctx.l + x) * known b
              - ∑ j ∈ Finset.range (lpn.keyLen + 1),
                  g.enc.entry a j * labelMsg lpn.keyLen c.blocks.length masks keys (c.inputs.length + gid) bit j x
            = ∑ b ∈ Finset.range lpn.keyLen, rng (hash (c.nonceString ctx.l gid)) (((r * lpn.mssgLen + a) * lpn.keyLen + b) * ctx.l + x) *
                readLabel lpn.keyLen keys blk (1 - act w) b sl
              + at2 errors (c.errorIdx lpn.mssgLen gid r a) x := by
  unfold PackedCircuit.readSet at hread
  simp only [Finset.mem_filter, Finset.mem_product, Finset.mem_range] at hread
  obtain ⟨⟨hgid, hx, hi⟩, hw⟩ := hread
  obtain ⟨gate, hg⟩ : ∃ gate, c.gates[gid]? = some gate := ⟨_, List.getElem?_eq_getElem hgid⟩
  have hgm : gate ∈ c.gates := List.mem_of_getElem? hg
  have hin : ∀ j, c.inpWires gid j = gate.inps.getD j [] := by
    intro j
    unfold PackedCircuit.inpWires
    rw [hg]
    rfl
  have hlen : gate.inps.length = gate.kind.arity := by cases gate <;> simp [PackedGate.inps, PackedGate.kind, GateKind.arity]
  have hilt : i < gate.kind.arity := by
    by_contra hge
    rw [hin, List.getD_eq_getElem?_getD, List.getElem?_eq_none (l := gate.inps) (i := i) (by omega)] at hw
    simp at hw
  have hmemI : ∀ j < gate.kind.arity, gate.inps.getD j [] ∈ gate.inps := by
    intro j hj
    rw [List.getD_eq_getElem?_getD, List.getElem?_eq_getElem (by omega)]
    exact List.getElem_mem _
  have hal : ∀ j < gate.kind.arity, (gate.inps.getD j []).length = gate.out.length := fun j hj => s.circ.aligned gate hgm _ (hmemI j hj)
  have hxlt : x < gate.out.length := by
    rw [← hal i hilt, ← hin]
    exact (List.getElem?_eq_some_iff.1 hw).1
  obtain ⟨place, hplace⟩ := places_exist (p := c)
  have hsrc : ∀ y < gate.out.length, c.Sources gate y (fun j => (place ((gate.inps.getD j []).getD y 0)).1)
      (fun j => (place ((gate.inps.getD j []).getD y 0)).2) := by
    intro y hy j hj
    have hyl : y < (gate.inps.getD j []).length := by rw [hal j hj]; exact hy
    have e : (gate.inps.getD j [])[y]? = some ((gate.inps.getD j []).getD y 0) := by
      rw [List.getD_eq_getElem?_getD (l := gate.inps.getD j []), List.getElem?_eq_getElem hyl]
      rfl
    exact ⟨_, e, hplace _ (s.circ.driven gate hgm _ (hmemI j hj) _ (List.mem_of_getElem? e))⟩
  obtain ⟨table, htab, henc⟩ := garble_bits s hrun hmb hg (fun y j => (place ((gate.inps.getD j []).getD y 0)).1)
    (fun y j => (place ((gate.inps.getD j []).getD y 0)).2) hsrc
  have hout : gate.out.length ≤ ctx.l := by
    refine s.circ.blockLen _ ?_
    unfold PackedCircuit.blocks
    exact List.mem_append_right _ (List.mem_map_of_mem hgm)
  obtain ⟨ps, hps, hrec⟩ := C62_recon s gid _ _ hout _ _ table henc
  have hwi : (gate.inps.getD i []).getD x 0 = w := by
    rw [hin] at hw
    rw [List.getD_eq_getElem?_getD (l := gate.inps.getD i []), hw]
    rfl
  have hpw : place w = (blk, sl) := by
    have hmem : w ∈ c.blocks.flatten := by
      rw [hin] at hw
      exact s.circ.driven gate hgm _ (hmemI i hilt) w (List.mem_of_getElem? hw)
    obtain ⟨h1, h2⟩ := drives_unique s.circ.nodup (hplace w hmem) hd
    exact Prod.ext h1 h2
  have hother : c.otherWire gid x i = (gate.inps.getD (1 - i) []).getD x 0 := by
    unfold PackedCircuit.otherWire
    rw [hin, ← List.getD_eq_getElem?_getD]
  have ha := hact (c.otherWire gid x i)
  have hb := hact w
  generalize hact' : act (c.otherWire gid x i) = o at ha ⊢
  have hrlt : readRow gate.kind i (1 - act w) o < gate.kind.numRows := by
    unfold readRow GateKind.numRows
    cases gate <;> simp only [PackedGate.kind] <;> (try split) <;> omega
  refine ⟨gate, table, hg, htab, _, rfl, hrlt, ?_⟩
  have finish : ∀ known : Nat → F,
      (∀ b, readKey gate.kind lpn.keyLen keys (fun j => (place ((gate.inps.getD j []).getD x 0)).1)
          (fun j => (place ((gate.inps.getD j []).getD x 0)).2) (readRow gate.kind i (1 - act w) o) b
        = readLabel lpn.keyLen keys blk (1 - act w) b sl + known b) →
      ∃ bit < 2, ∃ ps : PackedSharing F,
        PackedSharing.new (ctx.t + 2 * ctx.l - 2) ctx.n ((defaultPos ctx.n ctx.l).take gate.out.length) = some ps ∧
        ∀ a < lpn.mssgLen, ∃ shares vals v,
          (table.mapM fun t => (t[readRow gate.kind i (1 - act w) o]?).bind fun row => row[a]?) = some shares ∧
          ps.recon shares = some (.ok vals) ∧ vals[x]? = some v ∧
          v - ∑ b ∈ Finset.range lpn.keyLen, rng (hash (c.nonceString ctx.l gid)) (((readRow gate.kind i (1 - act w) o * lpn.mssgLen + a) * lpn.keyLen + b) * ctx.l + x) * known b
              - ∑ j ∈ Finset.range (lpn.keyLen + 1),
                  g.enc.entry a j * labelMsg lpn.keyLen c.blocks.length masks keys (c.inputs.length + gid) bit j x
            = ∑ b ∈ Finset.range lpn.keyLen, rng (hash (c.nonceString ctx.l gid)) (((readRow gate.kind i (1 - act w) o * lpn.mssgLen + a) * lpn.keyLen + b) * ctx.l + x) *
                readLabel lpn.keyLen keys blk (1 - act w) b sl
              + at2 errors (c.errorIdx lpn.mssgLen gid (readRow gate.kind i (1 - act w) o) a) x := by
    intro known hkey
    refine ⟨_, rowBit_lt gate.kind (readRow gate.kind i (1 - act w) o)
      (mb (place ((gate.inps.getD 0 []).getD x 0)).1 (place ((gate.inps.getD 0 []).getD x 0)).2)
      (mb (place ((gate.inps.getD 1 []).getD x 0)).1 (place ((gate.inps.getD 1 []).getD x 0)).2) (mb (c.inputs.length + gid) x),
      ps, hps, fun a haN => ?_⟩
    · obtain ⟨shares, h1, h2⟩ := hrec _ hrlt a haN
      refine ⟨shares, _, _, h1, h2, getElem?_map_range _ hxlt, ?_⟩
      unfold rowSecret
      simp only [hkey, mul_add, Finset.sum_add_distrib]
      ring
  have h01 : i = 0 ∨ i = 1 := by
    have : gate.kind.arity ≤ 2 := by cases gate <;> simp [PackedGate.kind, GateKind.arity]
    omega
  have hmo : ∀ j < gate.kind.arity, (gate.inps.getD j []).getD x 0 ∈ c.blocks.flatten := by
    intro j hj
    obtain ⟨v, e1, e2⟩ := hsrc x hxlt j hj
    have : (gate.inps.getD j []).getD x 0 = v := by rw [List.getD_eq_getElem?_getD (l := gate.inps.getD j []), e1]; rfl
    rw [this]
    obtain ⟨ws, h1, h2⟩ := e2
    exact List.mem_flatten.2 ⟨ws, List.mem_of_getElem? h1, List.mem_of_getElem? h2⟩
  by_cases har : gate.kind.arity = 1
  · have hi0 : i = 0 := by omega
    subst hi0
    refine ⟨0, fun _ => rfl, fun h2 => by omega, finish 0 fun b => ?_⟩
    have hk : gate.kind = .inv := by cases gate <;> simp [PackedGate.kind, GateKind.arity] at har ⊢
    rw [hk]
    simp only [readKey, readRow, hwi, hpw, Pi.zero_apply, add_zero]
  · have har2 : gate.kind.arity = 2 := by cases gate <;> simp [PackedGate.kind, GateKind.arity] at har ⊢
    refine ⟨fun b => readLabel lpn.keyLen keys (place (c.otherWire gid x i)).1 o b (place (c.otherWire gid x i)).2, fun h1 => absurd h1 har,
      fun _ => ⟨_, _, ?_, fun b => rfl⟩, finish _ fun b => ?_⟩
    rotate_left
    · have hq : ∀ p q : Nat, q < 2 → (2 * p + q) / 2 = p ∧ (2 * p + q) % 2 = q := by omega
      have hk : gate.kind = .and ∨ gate.kind = .xor := by cases gate <;> simp [PackedGate.kind, GateKind.arity] at har ⊢
      rw [hother]
      rcases h01 with h0 | h0 <;> subst h0 <;> rcases hk with hk | hk <;> rw [hk] <;>
        simp only [readKey, readRow, if_true, one_ne_zero, if_false, hwi, hpw, Nat.sub_zero, Nat.sub_self,
          hq _ o ha, hq _ (1 - act w) (by omega)] <;> ring
    rw [hother]
    exact hplace _ (hmo _ (by omega))

/-- The `AND` gate of the example reads wire 1 three times, so there are queries about label 1 of this wire in three places. -/
example : exCirc.readSet 2 1 = {(0, 1, 0), (0, 0, 1), (0, 1, 1)} := by decide

/-- All labels, vectors and errors are 1, the key length is 1: with the encoded message subtracted there remains the label plus the error. -/
example : ∃ (ctx : Ctx (GF 4)) (g : GarbleCtx (GF 4)) (tp : GarbleTapes (GF 4)) (pre : List (PreProc (GF 4)))
    (tables : List (List (List (List (GF 4))))) (st : GarbleState (GF 4)) (table : List (List (List (GF 4)))),
    garble ctx g tp pre = some (tables, st) ∧ tables[0]? = some table ∧ ∃ known : GF 4, ∃ bit < 2, ∃ ps : PackedSharing (GF 4),
      ∀ a < 3, ∃ shares vals v, (table.mapM fun t => (t[2]?).bind fun row => row[a]?) = some shares ∧ ps.recon shares = some (.ok vals) ∧
        vals[1]? = some v ∧ v - 1 * known - ∑ j ∈ Finset.range 2, g.enc.entry a j *
          labelMsg 1 3 (List.replicate 3 [1, 1]) (List.replicate 6 [1, 1]) 1 bit j 1 = 1 * 1 + 1 := by
  obtain ⟨ctx, g, tp, pre, nr, nz, h, hs⟩ := exSetup_ones
  obtain ⟨ctx', h', _, hn, ht, hl⟩ := exCtx_good
  rw [h', Option.some.injEq] at h
  subst h
  obtain ⟨tables, st, h1, -, -⟩ := C66_shapes hs
  have hmask : MaskBits (List.replicate 3 [1, 1] : List (List (GF 4))) (fun _ s => if s < 2 then 1 else 0) := by
    intro b s
    refine ⟨by simp only []; split <;> decide, fun hb => ?_⟩
    simp only [List.length_replicate] at hb
    unfold at2
    have hr : (List.replicate 3 [1, 1] : List (List (GF 4))).getD b [] = [1, 1] := by
      rw [List.getD_eq_getElem _ _ (by simpa using hb), List.getElem_replicate]
    rw [hr]
    match s with
    | 0 => simp
    | 1 => simp
    | s + 2 => simp
  obtain ⟨gate, table, e1, e2, r, e3, -, known, -, -, bit, hbit, ps, -, e4⟩ := C116_query hs h1 (fun _ s => if s < 2 then 1 else 0)
    hmask (w := 1) (blk := 0) (sl := 1) ⟨[0, 1], rfl, rfl⟩ (fun _ => 0) (fun _ => by norm_num) (gid := 0) (x := 1) (i := 0)
    (by rw [hl]; decide)
  refine ⟨ctx', g, tp, pre, tables, st, table, h1, e2, known 0, bit, hbit, ps, fun a ha => ?_⟩
  obtain ⟨shares, vals, v, f1, f2, f3, f4⟩ := e4 a ha
  rw [show exCirc.gates[0]? = some (.and ⟨#v[[0, 1], [1, 1]], [2, 3]⟩) from rfl, Option.some.injEq] at e1
  subst e1
  have hr : r = 2 := e3
  subst hr
  refine ⟨shares, vals, v, f1, f2, f3, ?_⟩
  have hlab : readLabel 1 (List.replicate 6 [1, 1] : List (List (GF 4))) 0 (1 - 0) 0 1 = 1 := by simp [readLabel, at2]
  have herr : at2 (List.replicate 18 [1, 1] : List (List (GF 4))) (exCirc.errorIdx 3 0 2 a) 1 = 1 := by
    have hlt : exCirc.errorIdx 3 0 2 a < 18 := by
      simp only [PackedCircuit.errorIdx, List.take_zero, List.map_nil, List.sum_nil]
      omega
    unfold at2
    rw [List.getD_eq_getElem (List.replicate 18 [1, 1]) [] (by simpa using hlt), List.getElem_replicate]
    rfl
  rw [Finset.sum_range_one, Finset.sum_range_one, herr, hlab] at f4
  exact f4

/-- C116. The queries have different error terms: no two of them take the same slot of the same error sharing. -/
theorem C116_errors {c : PackedCircuit} {l N w : Nat} {act : Nat → Nat} (hact : act w < 2) (hother : ∀ v, act v < 2) {gid x i gid' x' i' a a' : Nat}
    (h : (gid, x, i) ∈ c.readSet l w) (h' : (gid', x', i') ∈ c.readSet l w) (ha : a < N) (ha' : a' < N) {gate gate' : PackedGate}
    (hg : c.gates[gid]? = some gate) (hg' : c.gates[gid']? = some gate')
    (he : c.errorIdx N gid (readRow gate.kind i (1 - act w) (act (c.otherWire gid x i))) a
      = c.errorIdx N gid' (readRow gate'.kind i' (1 - act w) (act (c.otherWire gid' x' i'))) a') (hx : x = x') :
    gid = gid' ∧ i = i' ∧ a = a' := by
  have hrlt : ∀ (k : GateKind) (j o : Nat), o < 2 → readRow k j (1 - act w) o < k.numRows := by
    intro k j o ho
    unfold readRow GateKind.numRows
    cases k <;> simp only [] <;> (try split) <;> omega
  obtain ⟨e1, e2, e3⟩ := errorIdx_inj hg hg' (hrlt _ _ _ (hother _)) (hrlt _ _ _ (hother _)) ha ha' he
  subst e1 e3 hx
  rw [hg, Option.some.injEq] at hg'
  subst hg'
  refine ⟨rfl, ?_, rfl⟩
  unfold PackedCircuit.readSet at h h'
  simp only [Finset.mem_filter, Finset.mem_product, Finset.mem_range] at h h'
  obtain ⟨⟨-, -, hi⟩, hw⟩ := h
  obtain ⟨⟨-, -, hi'⟩, hw'⟩ := h'
  by_contra hne
  have hswap : 1 - i = i' ∧ 1 - i' = i := by omega
  unfold PackedCircuit.otherWire at e2
  rw [hswap.1, hswap.2, hw, hw', Option.getD_some] at e2
  have hk : gate.kind ≠ .inv := by
    intro hk
    have h1 : (c.inpWires gid 1)[x]? = some w := by
      rcases (by omega : i = 1 ∨ i' = 1) with e | e <;> subst e <;> assumption
    unfold PackedCircuit.inpWires at h1
    rw [hg] at h1
    cases gate with
    | inv g => simp [PackedGate.inps] at h1
    | _ => simp [PackedGate.kind] at hk
  unfold readRow at e2
  cases hk' : gate.kind with
  | inv => exact hk hk'
  | _ =>
    simp only [hk'] at e2
    split at e2 <;> split at e2 <;> omega

/-- C116. There are `lpn_mssg_len` queries about the label for each read of the wire by the gates of the circuit which was packed. -/
theorem C116_count (c : Circuit) (l : Nat) (p : PackedCircuit) (h : c.pack l = some p) (w N : Nat) :
    (p.readSet l w ×ˢ Finset.range N).card = c.numReads w * N := by
  rw [Finset.card_product, Finset.card_range, pack_reads h]

end

/-- C116. So the estimate is for the right number of queries if no wire is read twice.  Missing: wires which are read more often,
`C116_estimate_false`. -/
theorem C116_estimate_partial (c : Circuit) (l : Nat) (p : PackedCircuit) (h : c.pack l = some p) (w N : Nat) (hw : c.numReads w ≤ 1) :
    (p.readSet l w ×ˢ Finset.range N).card ≤ N := by
  rw [C116_count c l p h]
  exact (Nat.mul_le_mul_right N hw).trans_eq (Nat.one_mul N)

/-- C116. The shipped circuits have wires which are read several times. -/
theorem C116_shipped : (∃ c, fromBristol sub64Text.toList = some c ∧ 4 ≤ c.numReads 440) ∧
    (∃ c, fromBristol aesText.toList = some c ∧ 8 ≤ c.numReads 1) ∧ ∃ c, fromBristol shaText.toList = some c ∧ 12 ≤ c.numReads 10 := by
  refine ⟨⟨_, sub64_parse, ?_⟩, ⟨_, aes_parse, ?_⟩, ⟨_, sha_parse, ?_⟩⟩
  · refine le_trans ?_ (Net.reads_ge sub64Net [66, 67, 69, 71] (by decide) (by decide) 440)
    decide +kernel
  · refine le_trans ?_ (Net.reads_ge aesNet [1, 2704, 2736, 2748, 2754, 2760, 2792, 2814] (by decide) (by simp [aesNet]) 1)
    decide +kernel
  · refine le_trans ?_ (Net.reads_ge shaNet [19131, 19162, 26221, 26225, 26293, 31092, 31113, 31159, 43351, 43674, 62776, 62978] (by decide)
      (by simp [shaNet]) 10)
    decide +kernel

/-- C116 is false for the shipped AES circuit and the default parameters: there are at least 4440 queries about the label of an input wire.  For
that many queries the script's own estimate is below 74 bits, whereas the cost of this attack on 555 queries, for which the parameters are chosen, is
80 bits or more. -/
theorem C116_estimate_false : ∃ c, fromBristol aesText.toList = some c ∧
    (∀ l p, c.pack l = some p → 4440 ≤ (p.readSet l 1 ×ˢ Finset.range 555).card) ∧
    (∃ x : ℝ, secLpn 2 (2 ^ 18) 4440 127 = .real x ∧ x < 74) ∧
    ∃ x : ℝ, guass 555 127 (555 * (2 ^ 18 - 1) / (2 ^ 2 * 2 ^ 18)) = some (.real x) ∧ 80 ≤ x := by
  obtain ⟨-, ⟨c, h1, h2⟩, -⟩ := C116_shipped
  refine ⟨c, h1, fun l p hp => ?_, ?_, ?_⟩
  · rw [C116_count c l p hp]
    omega
  · obtain ⟨x, e1, -, e2, -⟩ := secLpn_bounds 2 (2 ^ 18) 4440 127 (by norm_num) (by norm_num) (Or.inl (by norm_num))
    refine ⟨x, e1, lt_of_le_of_lt e2 ?_⟩
    have h := gaussCost_lt 4440 127 1109 74 (by norm_num) (by decide +kernel)
    have h0 : (0 : ℝ) < gaussCost 4440 127 1109 := lt_of_lt_of_le one_pos (guass_arg 4440 127 1109 (by norm_num) (by norm_num))
    rw [show 4440 * (2 ^ 18 - 1) / (2 ^ 2 * 2 ^ 18) = 1109 from by norm_num]
    unfold log2r
    rw [Real.logb_lt_iff_lt_rpow (by norm_num) h0]
    exact_mod_cast h
  · rw [show 555 * (2 ^ 18 - 1) / (2 ^ 2 * 2 ^ 18) = 138 from by norm_num]
    refine ⟨_, guass_eq 555 127 138 (by norm_num) (by norm_num), ?_⟩
    have h := gaussCost_ge 555 127 138 80 (by norm_num) (by decide +kernel)
    have h0 : (0 : ℝ) < gaussCost 555 127 138 := lt_of_lt_of_le one_pos (guass_arg 555 127 138 (by norm_num) (by norm_num))
    show 80 ≤ Real.logb 2 (gaussCost 555 127 138)
    rw [Real.le_logb_iff_rpow_le (by norm_num) h0]
    exact_mod_cast h

/-- C116. More queries never help the parties: with `f` times as many queries, and errors, the attack costs no more. -/
theorem C116_more (N k t f : Nat) (hf : 1 ≤ f) (hk : 1 ≤ k) (hkN : k < N - k) (h : k + t ≤ N) :
    ∃ x y : ℝ, guass N k t = some (.real x) ∧ guass (f * N) k (f * t) = some (.real y) ∧ y ≤ x := by
  have hfN : N ≤ f * N := Nat.le_mul_of_pos_left N hf
  exact ⟨_, _, guass_eq N k t hk (by omega), guass_eq (f * N) k (f * t) hk (by omega),
    log2r_le (guass_arg (f * N) k (f * t) hk (by omega)) (gaussCost_times N k t f hf hkN.le h)⟩

/-- Three times the default number of queries. -/
example : ∃ x y : ℝ, guass 555 127 138 = some (.real x) ∧ guass 1665 127 414 = some (.real y) ∧ y ≤ x :=
  C116_more 555 127 138 3 (by norm_num) (by norm_num) (by norm_num) (by norm_num)

end Verif.Props
