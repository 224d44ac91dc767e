import Verif.RowKeyLemmas
import Verif.Props.EndToEnd
import Verif.Props.Eval
import Verif.RowKeyShipped

/-!
# C118: the keys of the rows of garbled tables
-/

open Verif

namespace Verif.Props

section
variable {F : Type} [CodeField F] [DecidableEq F] {c : Codec F} {ctx : Ctx F} {m mb : Mat F} {d : PreProcCount}

omit [CodeField F] [DecidableEq F] in
/-- Entries of labels with different numbers have different places in the array of keys. -/
theorem key_row_inj {k b b' i j v v' : Nat} (hi : i < k) (hj : j < k) (hv : v < 2) (hv' : v' < 2)
    (h : b * (2 * k) + (v * k + i) = b' * (2 * k) + (v' * k + j)) : b = b' ∧ v = v' ∧ i = j := by
  have e1 : b * (2 * k) + (v * k + i) = (2 * b + v) * k + i := by ring
  have e2 : b' * (2 * k) + (v' * k + j) = (2 * b' + v') * k + j := by ring
  rw [e1, e2] at h
  have hd := congrArg (· / k) h
  have hm := congrArg (· % k) h
  simp only [Nat.mul_comm _ k, Nat.mul_add_div (show 0 < k by omega), Nat.mul_add_mod, Nat.div_eq_of_lt hi, Nat.div_eq_of_lt hj,
    Nat.mod_eq_of_lt hi, Nat.mod_eq_of_lt hj] at hd hm
  omega

/-- C118. The key of a row is uniformly random, over the randomness of `preproc`: each key has the probability `q^-k`.  Missing: the first and the last row of gates
which read the same wire twice, for which this fails (`C118_zero`). -/
theorem C118_uniform_partial [Finite F] (P : PreParams c ctx m mb d) (hm : m.AllOutputs ctx.t) (hmb : mb.UniformBits ctx.t) {p : PackedCircuit}
    (ok : p.Ok ctx.l) {lpn : LpnParams} (hd : p.describe ctx.n ctx.t ctx.l lpn = some d) {place : Nat → Nat × Nat} {gt : Gate}
    (hplace : ∀ w ∈ gt.inWires, p.Drives (place w).1 (place w).2 w) {r : Nat} (hr : r < gt.kind.numRows)
    (hne : gt.inWires.Nodup ∨ r = 1 ∨ r = 2) (K : Nat → F) :
    tapeFraction ctx m mb d (RowKeyIs ctx m mb d lpn.keyLen place gt r K) = (1 / Nat.card F : ℚ) ^ lpn.keyLen := by
  obtain ⟨_, _, -, -, -, hk, -⟩ := describe_eq hd
  have hnum : d.numKeys = 2 * lpn.keyLen * p.blocks.length := by
    unfold PreProcCount.numKeys
    rw [hk]
  set k := lpn.keyLen with hkdef
  have hbs : ∀ w ∈ gt.inWires, (place w).1 < p.blocks.length ∧ (place w).2 < ctx.l := by
    intro w hw
    obtain ⟨ws, h1, h2⟩ := hplace w hw
    have h3 := (List.getElem?_eq_some_iff.1 h1).1
    have h4 := (List.getElem?_eq_some_iff.1 h2).1
    have := ok.blockLen ws (List.mem_of_getElem? h1)
    exact ⟨h3, by omega⟩
  have hsame : ∀ u ∈ gt.inWires, ∀ v ∈ gt.inWires, place u = place v → u = v := by
    intro u hu v hv h
    obtain ⟨ws, h1, h2⟩ := hplace u hu
    obtain ⟨ws', h1', h2'⟩ := hplace v hv
    rw [h, h1', Option.some.injEq] at h1
    subst h1
    rw [h, h2', Option.some.injEq] at h2
    exact h2.symm
  have hrow : ∀ w ∈ gt.inWires, ∀ b < 2, ∀ j < k, (place w).1 * (2 * k) + (b * k + j) < d.numKeys := by
    intro w hw b hb j hj
    have h1 := Nat.mul_le_mul_right (2 * k) (show (place w).1 + 1 ≤ p.blocks.length from (hbs w hw).1)
    rw [Nat.add_mul, Nat.one_mul, Nat.mul_comm p.blocks.length] at h1
    have := Nat.mul_le_mul_right k (show b ≤ 1 by omega)
    omega
  -- gates with two inputs
  have two : ∀ u v : Nat, u ∈ gt.inWires → v ∈ gt.inWires → r < 4 → (u ≠ v ∨ r / 2 ≠ r % 2) →
      tapeFraction ctx m mb d (fun tp => ∃ pre keys, preproc ctx m mb d tp = some pre ∧
        VecSharing ctx.n (ctx.t + ctx.l) (defaultPos ctx.n ctx.l) keys (pre.map fun p => p.keys.flat) ∧
        ∀ j < k, readLabel k keys (place u).1 (r / 2) j (place u).2 + readLabel k keys (place v).1 (r % 2) j (place v).2 = K j)
        = (1 / Nat.card F : ℚ) ^ k := by
    intro u v hu hv h4 huv
    have := keys_solutions P hm hmb k (fun j => (place u).1 * (2 * k) + (r / 2 * k + j)) (place u).2
      (fun g j => K j - g ((place v).1 * (2 * k) + (r % 2 * k + j)) (place v).2)
      (fun j hj => hrow u hu _ (by omega) j hj) (hbs u hu).2 (fun i hi j hj h => by omega)
      (fun g g' h j hj => by
        rw [h _ _ (hrow v hv _ (by omega) j hj) (hbs v hv).2]
        intro i hi hij hs
        obtain ⟨e1, e2, -⟩ := key_row_inj hj hi (by omega) (by omega) hij
        rcases huv with h | h
        · exact h (hsame u hu v hv (Prod.ext e1.symm hs.symm))
        · exact h e2.symm)
    rw [← this]
    congr 1
    funext tp
    simp only [eq_sub_iff_add_eq]
    rfl
  cases gt with
  | inv g =>
    have := keys_solutions P hm hmb k (fun j => (place g.inp[0]).1 * (2 * k) + (r * k + j)) (place g.inp[0]).2 (fun _ j => K j)
      (fun j hj => hrow _ (by simp [Gate.inWires]) r (by simpa [Gate.kind, GateKind.numRows] using hr) j hj)
      (hbs _ (by simp [Gate.inWires])).2 (fun i hi j hj h => by omega) (fun _ _ _ _ _ => rfl)
    exact this
  | and g =>
    refine two g.inp[0] g.inp[1] (by simp [Gate.inWires]) (by simp [Gate.inWires]) (by simpa [Gate.kind, GateKind.numRows] using hr) ?_
    rcases hne with h | h
    · exact Or.inl (by simpa [Gate.inWires] using h)
    · exact Or.inr (by omega)
  | xor g =>
    refine two g.inp[0] g.inp[1] (by simp [Gate.inWires]) (by simp [Gate.inWires]) (by simpa [Gate.kind, GateKind.numRows] using hr) ?_
    rcases hne with h | h
    · exact Or.inl (by simpa [Gate.inWires] using h)
    · exact Or.inr (by omega)

/-- C118 is false for gates which read the same wire twice: the key of the first and of the last row is always zero. -/
theorem C118_zero (P : PreParams c ctx m mb d) (k : Nat) (place : Nat → Nat × Nat) {gt : Gate} (hw : ¬ gt.inWires.Nodup) {b : Nat} (hb : b < 2)
    (K : Nat → F) (tp : PreTapes F) (htp : tp.Ok ctx.n ctx.t ctx.l m mb d) :
    RowKeyIs ctx m mb d k place gt (3 * b) K tp ↔ ∀ j < k, K j = 0 := by
  have h2 : (2 : F) = 0 := two_eq_zero
  have hzero : ∀ keys : List (List F), ∀ j, readKey gt.kind k keys (fun i => (place (gt.inWires.getD i 0)).1)
      (fun i => (place (gt.inWires.getD i 0)).2) (3 * b) j = 0 := by
    intro keys j
    have q : 3 * b / 2 = 3 * b % 2 := by omega
    cases gt with
    | inv g => exact absurd (by simp [Gate.inWires]) hw
    | and g =>
      have h : g.inp[0] = g.inp[1] := by simpa [Gate.inWires] using hw
      simp only [Gate.kind, readKey, Gate.inWires, List.getD_cons_zero, List.getD_cons_succ, q, h]
      linear_combination readLabel k keys (place g.inp[1]).1 (3 * b % 2) j (place g.inp[1]).2 * h2
    | xor g =>
      have h : g.inp[0] = g.inp[1] := by simpa [Gate.inWires] using hw
      simp only [Gate.kind, readKey, Gate.inWires, List.getD_cons_zero, List.getD_cons_succ, q, h]
      linear_combination readLabel k keys (place g.inp[1]).1 (3 * b % 2) j (place g.inp[1]).2 * h2
  constructor
  · rintro ⟨_, keys, -, -, h⟩ j hj
    rw [← h j hj, hzero]
  · intro h
    obtain ⟨pre, _, keys, _, _, _, h1, _, _, _, _, _, _, h8, _⟩ := C50_preproc ctx P.good P.mult m mb P.mat P.matb P.binary d tp htp
    exact ⟨pre, keys, h1, by assumption, fun j hj => by rw [hzero, h j hj]⟩

/-- C118, exactly: for keys which are not empty and fields with more than one element, the key of a row is uniformly random if and only if it is not the
first or the last row of a gate which reads the same wire twice. -/
theorem C118_iff [Finite F] (P : PreParams c ctx m mb d) (hm : m.AllOutputs ctx.t) (hmb : mb.UniformBits ctx.t) {p : PackedCircuit}
    (ok : p.Ok ctx.l) {lpn : LpnParams} (hk : 0 < lpn.keyLen) (hd : p.describe ctx.n ctx.t ctx.l lpn = some d) {place : Nat → Nat × Nat} {gt : Gate}
    (hplace : ∀ w ∈ gt.inWires, p.Drives (place w).1 (place w).2 w) {r : Nat} (hr : r < gt.kind.numRows) :
    (∀ K, tapeFraction ctx m mb d (RowKeyIs ctx m mb d lpn.keyLen place gt r K) = (1 / Nat.card F : ℚ) ^ lpn.keyLen) ↔
      gt.inWires.Nodup ∨ r = 1 ∨ r = 2 := by
  refine ⟨fun h => ?_, fun h K => C118_uniform_partial P hm hmb ok hd hplace hr h K⟩
  by_contra hc
  push Not at hc
  obtain ⟨h1, h2, h3⟩ := hc
  obtain ⟨b, hb, rfl⟩ : ∃ b < 2, r = 3 * b := by
    have : r < 4 := by
      cases gt <;> simp [Gate.kind, GateKind.numRows] at hr <;> omega
    rcases (by omega : r = 0 ∨ r = 3) with h | h
    · exact ⟨0, by omega, by omega⟩
    · exact ⟨1, by omega, by omega⟩
  have hone := h (fun _ => 1)
  have : tapeFraction ctx m mb d (RowKeyIs ctx m mb d lpn.keyLen place gt (3 * b) fun _ => 1) = 0 := by
    unfold tapeFraction
    have : IsEmpty {tp : PreTapes F // tp.Ok ctx.n ctx.t ctx.l m mb d ∧ RowKeyIs ctx m mb d lpn.keyLen place gt (3 * b) (fun _ => 1) tp} :=
      ⟨fun tp => one_ne_zero ((C118_zero P lpn.keyLen place h1 hb (fun _ => (1 : F)) tp.1 tp.2.1).1 tp.2.2 0 hk)⟩
    rw [Nat.card_of_isEmpty, Nat.cast_zero, zero_div]
  rw [this] at hone
  have hq : (0 : ℚ) < Nat.card F := by exact_mod_cast (Nat.card_pos (α := F))
  have : (0 : ℚ) < (1 / Nat.card F) ^ lpn.keyLen := by positivity
  linarith

end

section
variable {F : Type} [CodeField F] [DecidableEq F]
variable {hash : List Nat → List Nat} {rng : List Nat → Nat → F} {ctx : Ctx F} {lpn : LpnParams} {enc : Mat F} {p : PackedCircuit} {S : Scheme F}
  {errors : List (List F)} {place : Nat → Nat × Nat} {mask : Nat → Nat} {results : List (List (List (List F)))}

/-- C118, consequence: the messages of the first and of the last row of a gate which reads the same wire twice can be read without any label. -/
theorem C118_clear (henc : rsGenMat (lpn.keyLen + 1) lpn.mssgLen = some enc) (hcode : lpn.mssgLen < CodeField.order F)
    (hlen : lpn.keyLen + 1 ≤ lpn.mssgLen) {e : Nat} (he : 2 * e < lpn.mssgLen - lpn.keyLen) {gt : Gate}
    (h : HoldsGate hash rng ctx lpn enc p S errors place mask results gt) {gates : List Gate} (hgt : gt ∈ gates)
    (hfew : FewErrors p lpn.mssgLen errors e place gates) {w : Nat} (hw : gt.inWires = [w, w]) {b : Nat} (hb : b < 2) (m : List F) :
    ReadsClear ctx lpn enc p place results e gt (3 * b) m ↔
      m = (List.range (lpn.keyLen + 1)).map (S.msg gt.outWire (S.row gt.kind (3 * b) (mask w) (mask w) (mask gt.outWire))) := by
  have hrow : evalRow gt.kind b b = 3 * b := by
    cases gt with
    | inv g => simp [Gate.inWires] at hw
    | and g => simp only [Gate.kind, evalRow]; omega
    | xor g => simp only [Gate.kind, evalRow]; omega
  have hkey : ∀ j, evalKey gt.kind (S.key w b) (S.key w b) j = 0 := by
    have h2 : (2 : F) = 0 := two_eq_zero
    intro j
    cases gt with
    | inv g => simp [Gate.inWires] at hw
    | and g => simp only [Gate.kind, evalKey]; linear_combination S.key w b j * h2
    | xor g => simp only [Gate.kind, evalKey]; linear_combination S.key w b j * h2
  have key := decrypts_iff henc hcode hlen he h hgt hfew (colour := fun _ => b) (lab := fun w => S.key w b) (fun _ _ => hb) (fun _ _ _ _ => rfl) m
  simp only [hw, List.getD_cons_zero, List.getD_cons_succ, hrow] at key
  rw [← key]
  have hun : ∀ (nonce : List Nat) (x : Nat) (row : List F),
      unmaskRow rng ctx.l lpn nonce (evalKey gt.kind (S.key w b) (S.key w b)) (3 * b) x row = row := by
    intro nonce x row
    unfold unmaskRow
    simp only [hkey, mul_zero, Finset.sum_const_zero, sub_zero]
    apply List.ext_getElem
    · simp
    · intro i h1 h2
      simp
  unfold Decrypts ReadsClear
  simp only [hw, List.getD_cons_zero, List.getD_cons_succ, hrow, hun]

/-- C118, for runs: for every proper circuit file with an AND gate which reads the same wire twice, all parameters as in C84, and all coins, both labels of the
output wire of the gate can be read from its table without any label, if no row has too many errors. -/
theorem C118_run (ctx : Ctx F) (good : ctx.Good) (parties : ctx.t + 2 * ctx.l ≤ ctx.n) (mult : 2 * (ctx.t + ctx.l - 1) < ctx.n)
    (hash : List Nat → List Nat) (rng : List Nat → Nat → F) (lpn : LpnParams) (code : lpn.mssgLen < CodeField.order F)
    (hlen : lpn.keyLen + 1 ≤ lpn.mssgLen) (d : BristolDesc) (hd : d.Proper) (cs : List Char) (hf : IsBristolFile d cs)
    (fit : ctx.n + ctx.l + d.numWires ≤ CodeField.order F) (m mb : Mat F) (hm : DealMat ctx.n m) (hmb : DealMat ctx.n mb)
    (hbin : mb.Binary) {w o : Nat} (hgt : Gate.and ⟨#v[w, w], o⟩ ∈ d.gates) :
    ∃ circ p desc g, fromBristol cs = some circ ∧ circ.pack ctx.l = some p ∧ p.describe ctx.n ctx.t ctx.l lpn = some desc ∧
      GarbleCtx.new hash rng ctx lpn p = some g ∧
      ∀ (tp : PreTapes F), tp.Ok ctx.n ctx.t ctx.l m mb desc → ∀ (gtp : GarbleTapes F), gtp.Ok ctx g →
        ∃ pre tables st keys errors place, preproc ctx m mb desc tp = some pre ∧ garble ctx g gtp pre = some (tables, st) ∧
          VecSharing ctx.n (ctx.t + ctx.l) (defaultPos ctx.n ctx.l) keys (pre.map (·.keys.flat)) ∧
          VecSharing ctx.n (ctx.t + ctx.l) (defaultPos ctx.n ctx.l) errors (pre.map (·.errors)) ∧ Places d p place ∧
          ∀ results, (List.range ctx.n).mapM (fun i => tables.mapM fun T => T[i]?) = some results →
            ∀ e, 2 * e < lpn.mssgLen - lpn.keyLen → FewErrors p lpn.mssgLen errors e place d.gates →
              ∀ bit < 2, ∃ r < 4, ∃ v, ∀ m : List F, ReadsClear ctx lpn g.enc p place results e (.and ⟨#v[w, w], o⟩) r m ↔
                m = (List.range lpn.keyLen).map (fun j => label lpn.keyLen p.blocks.length keys (place o).1 bit j (place o).2) ++ [v] := by
  obtain ⟨circ, p, desc, g, h1, h2, h3, h4, h5⟩ :=
    C84_sequential ctx good parties mult hash rng lpn code d hd cs hf fit m mb hm hmb hbin
  refine ⟨circ, p, desc, g, h1, h2, h3, h4, fun tp htp gtp hgtp => ?_⟩
  obtain ⟨pre, tables, st, masks, keys, errors, place, mask, k1, k2, k3, k4, k5, k6, k7, k8, k9⟩ := h5 tp htp gtp hgtp
  refine ⟨pre, tables, st, keys, errors, place, k1, k2, k5, k6, k7, fun results hres e he hfew bit hbit => ?_⟩
  have henc : rsGenMat (lpn.keyLen + 1) lpn.mssgLen = some g.enc := by
    unfold GarbleCtx.new at h4
    obtain ⟨_, _, h4⟩ := Option.bind_eq_some_iff.1 h4
    obtain ⟨_, _, h4⟩ := Option.bind_eq_some_iff.1 h4
    obtain ⟨enc, he, h4⟩ := Option.bind_eq_some_iff.1 h4
    obtain ⟨_, _, h4⟩ := Option.bind_eq_some_iff.1 h4
    obtain ⟨_, _, rfl⟩ := Option.map_eq_some_iff.1 h4
    exact he
  have hdr : ∀ v, v = o ∨ v = w → p.Drives (place v).1 (place v).2 v := by
    intro v hv
    refine k7 v ?_
    rcases hv with rfl | rfl
    · exact Or.inr ⟨_, hgt, rfl⟩
    · rcases topo_known hd.topo _ hgt v (by simp [Gate.inWires]) with h | h
      · exact Or.inl (List.mem_range.1 h)
      · exact Or.inr h
  have hmo := (k8.masks o (hdr o (Or.inl rfl))).1
  have hmw := (k8.masks w (hdr w (Or.inr rfl))).1
  have hrow : ∀ (x z : Fin 2) (bit : Fin 2), rowBit .and (3 * ((bit.1 + x + z) % 2)) x x z = bit.1 := by decide
  have key := C118_clear henc code hlen he (holds_code (k9 results hres _ hgt)) hgt hfew (w := w) rfl
    (b := (bit + mask w + mask o) % 2) (Nat.mod_lt _ (by norm_num))
  refine ⟨3 * ((bit + mask w + mask o) % 2), by omega, at2 masks (place o).1 (place o).2 + (bit : F), fun m => ?_⟩
  rw [key m, show (codeScheme lpn.keyLen p.blocks.length masks keys place).row = rowBit from rfl,
    show (Gate.and ⟨#v[w, w], o⟩).kind = .and from rfl, show (Gate.and ⟨#v[w, w], o⟩).outWire = o from rfl]
  rw [hrow ⟨mask w, hmw⟩ ⟨mask o, hmo⟩ ⟨bit, hbit⟩, map_succ_append]
  rw [List.map_congr_left (g := fun j => label lpn.keyLen p.blocks.length keys (place o).1 bit j (place o).2)
    fun j hj => by simp [codeScheme, labelMsg, List.mem_range.1 hj]]
  rw [show (codeScheme lpn.keyLen p.blocks.length masks keys place).msg o bit lpn.keyLen
    = at2 masks (place o).1 (place o).2 + (bit : F) by simp [codeScheme, labelMsg]]

end

/-- A circuit with one gate, the AND of a wire with itself. -/
def twice : BristolDesc where
  numWires := 2
  inpLens := [1]
  outLens := [1]
  gates := [.and ⟨#v[0, 0], 1⟩]

theorem twice_proper : twice.Proper := by
  refine ⟨?_, ?_, ?_⟩
  · constructor <;> decide
  · simp [Topological, twice, Gate.inWires, Gate.outWire, List.range_succ]
  · intro w h1 h2
    simp [twice] at h1 h2
    interval_cases w
    exact Or.inr ⟨_, List.mem_cons_self, rfl⟩

/-- C118 is false: a file with a gate which reads the same wire twice is accepted, and the key of the first row of this gate is always zero. -/
theorem C118_false : ∃ circ, fromBristol "1 2\n1 1\n1 1\n\n2 1 0 0 1 AND\n".toList = some circ ∧ ∃ gt ∈ circ.gates,
    ∀ {F : Type} [CodeField F] [DecidableEq F] {c : Codec F} {ctx : Ctx F} {m mb : Mat F} {d : PreProcCount}, PreParams c ctx m mb d →
      ∀ (k : Nat) (place : Nat → Nat × Nat) (tp : PreTapes F), tp.Ok ctx.n ctx.t ctx.l m mb d →
        RowKeyIs ctx m mb d k place gt 0 (fun _ => 0) tp :=
  ⟨⟨[.and ⟨#v[0, 0], 1⟩], [[0]], [[1]], 2⟩, by decide +kernel, .and ⟨#v[0, 0], 1⟩, List.mem_cons_self,
    fun P k place tp htp => (C118_zero P k place (by decide) (b := 0) (by norm_num) _ tp htp).2 fun _ _ => rfl⟩

/-- No gate of the shipped circuits reads the same wire twice, so that C118 holds for them. -/
theorem C118_shipped : ∀ s ∈ [sub64Text, aesText, shaText], ∃ circ, fromBristol s.toList = some circ ∧ ∀ gt ∈ circ.gates, gt.inWires.Nodup := by
  intro s hs
  simp only [List.mem_cons, List.not_mem_nil, or_false] at hs
  rcases hs with rfl | rfl | rfl
  · exact ⟨_, sub64_parse, Net.distinct sub64_distinct (by simp [sub64Net])⟩
  · exact ⟨_, aes_parse, Net.distinct aes_distinct (by simp [aesNet])⟩
  · exact ⟨_, sha_parse, Net.distinct sha_distinct (by simp [shaNet])⟩

/-- `C118_run` for the circuit with one gate: 7 parties, two of them corrupted, and two secrets per sharing. -/
example (hash : List Nat → List Nat) (rng : List Nat → Nat → GF 4) : ∃ (ctx : Ctx (GF 4)) (circ : Circuit) (p : PackedCircuit) (desc : PreProcCount) (g : GarbleCtx (GF 4)),
    circ.pack ctx.l = some p ∧ ∃ tp gtp pre tables st keys errors place, preproc ctx exDeal exDeal desc tp = some pre ∧
      garble ctx g gtp pre = some (tables, st) ∧ Places twice p place ∧
      ∀ results, (List.range ctx.n).mapM (fun i => tables.mapM fun T => T[i]?) = some results → FewErrors (F := GF 4) p 5 errors 1 place twice.gates →
        ∀ bit < 2, ∃ r < 4, ∃ v, ∀ m : List (GF 4), ReadsClear ctx ⟨2, 5⟩ g.enc p place results 1 (.and ⟨#v[0, 0], 1⟩) r m ↔
          m = [label 2 p.blocks.length keys (place 1).1 bit 0 (place 1).2, label 2 p.blocks.length keys (place 1).1 bit 1 (place 1).2, v] := by
  obtain ⟨ctx, hctx, hg, hn, ht, hl⟩ := exCtx_good
  have ho : CodeField.order (GF 4) = 16 := by
    show 2 ^ 4 = 16
    norm_num
  obtain ⟨circ, p, desc, g, h1, h2, h3, h4, h5⟩ := C118_run ctx hg (by omega) (by omega) hash rng ⟨2, 5⟩ (by rw [ho]; decide) (by decide)
    twice twice_proper (printBristol twice) (C21_printed_is_file _) (by rw [hn, hl, ho]; decide) exDeal exDeal (by rw [hn]; exact exDeal_ok.1)
    (by rw [hn]; exact exDeal_ok.1) exDeal_ok.2 (w := 0) (o := 1) List.mem_cons_self
  obtain ⟨tp, htp⟩ := preTapes_exist ctx.n ctx.t ctx.l exDeal exDeal (by simp [exDeal]) (by simp [exDeal]) desc
  obtain ⟨gtp, hgtp⟩ := garbleTapes_exist ctx g
  obtain ⟨pre, tables, st, keys, errors, place, k1, k2, -, -, k3, k4⟩ := h5 tp htp gtp hgtp
  refine ⟨ctx, circ, p, desc, g, h2, tp, gtp, pre, tables, st, keys, errors, place, k1, k2, k3, fun results hres hfew bit hbit => ?_⟩
  exact k4 results hres 1 (by norm_num) hfew bit hbit

end Verif.Props
