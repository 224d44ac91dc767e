import Verif.EvalLemmas
import Verif.Props.EndToEnd

/-!
# Evaluation of the garbled circuit
-/

open Verif
open Verif.CodeField (ofU32)

namespace Verif.Props

section
variable {F : Type} [CodeField F] [DecidableEq F]

/-- The number of the label in the chosen row, for the tables as they should be: the colour of the result. -/
theorem intended_row {a : Nat → Bool} {mask : Nat → Nat} {gt : Gate} (heq : GateEq a gt) {colour : Nat → Nat}
    (hmask : ∀ w ∈ gt.outWire :: gt.inWires, mask w < 2) (hcol : ∀ w ∈ gt.inWires, colour w = ((a w).toNat + mask w) % 2) :
    intendedRow gt.kind (evalRow gt.kind (colour (gt.inWires.getD 0 0)) (colour (gt.inWires.getD 1 0)))
      (mask (gt.inWires.getD 0 0)) (mask (gt.inWires.getD 1 0)) (mask gt.outWire) = ((a gt.outWire).toNat + mask gt.outWire) % 2 := by
  cases gt with
  | xor g =>
    have m0 := hmask _ (by simp [Gate.inWires] : g.inp[0] ∈ (Gate.xor g).outWire :: (Gate.xor g).inWires)
    have m1 := hmask _ (by simp [Gate.inWires] : g.inp[1] ∈ (Gate.xor g).outWire :: (Gate.xor g).inWires)
    have m2 : mask g.out < 2 := hmask _ List.mem_cons_self
    have key : ∀ (u v : Bool) (x y z : Fin 2),
        intendedRow .xor (evalRow .xor ((u.toNat + x) % 2) ((v.toNat + y) % 2)) x y z = ((xor u v).toNat + z) % 2 := by decide
    have h0 := hcol _ (by simp [Gate.inWires] : g.inp[0] ∈ (Gate.xor g).inWires)
    have h1 := hcol _ (by simp [Gate.inWires] : g.inp[1] ∈ (Gate.xor g).inWires)
    simp only [Gate.inWires, Gate.kind, Gate.outWire, List.getD_cons_zero, List.getD_cons_succ]
    rw [h0, h1, show a g.out = _ from heq]
    exact key (a g.inp[0]) (a g.inp[1]) ⟨_, m0⟩ ⟨_, m1⟩ ⟨_, m2⟩
  | and g =>
    have m0 := hmask _ (by simp [Gate.inWires] : g.inp[0] ∈ (Gate.and g).outWire :: (Gate.and g).inWires)
    have m1 := hmask _ (by simp [Gate.inWires] : g.inp[1] ∈ (Gate.and g).outWire :: (Gate.and g).inWires)
    have m2 : mask g.out < 2 := hmask _ List.mem_cons_self
    have key : ∀ (u v : Bool) (x y z : Fin 2),
        intendedRow .and (evalRow .and ((u.toNat + x) % 2) ((v.toNat + y) % 2)) x y z = ((u && v).toNat + z) % 2 := by decide
    have h0 := hcol _ (by simp [Gate.inWires] : g.inp[0] ∈ (Gate.and g).inWires)
    have h1 := hcol _ (by simp [Gate.inWires] : g.inp[1] ∈ (Gate.and g).inWires)
    simp only [Gate.inWires, Gate.kind, Gate.outWire, List.getD_cons_zero, List.getD_cons_succ]
    rw [h0, h1, show a g.out = _ from heq]
    exact key (a g.inp[0]) (a g.inp[1]) ⟨_, m0⟩ ⟨_, m1⟩ ⟨_, m2⟩
  | inv g =>
    have m0 := hmask _ (by simp [Gate.inWires] : g.inp[0] ∈ (Gate.inv g).outWire :: (Gate.inv g).inWires)
    have m2 : mask g.out < 2 := hmask _ List.mem_cons_self
    have key : ∀ (u : Bool) (x z : Fin 2), ((u.toNat + x) % 2 + x + 1 + z) % 2 = ((!u).toNat + z) % 2 := by decide
    have h0 := hcol _ (by simp [Gate.inWires] : g.inp[0] ∈ (Gate.inv g).inWires)
    simp only [Gate.inWires, Gate.kind, Gate.outWire, List.getD_cons_zero, intendedRow, evalRow]
    rw [h0, show a g.out = _ from heq]
    exact key (a g.inp[0]) ⟨_, m0⟩ ⟨_, m2⟩

/-- The tables as this code has them: the same, except that an INV gate does not negate. -/
theorem code_row {a : Nat → Bool} {mask : Nat → Nat} {gt : Gate} (heq : GateEq a gt) {colour : Nat → Nat}
    (hmask : ∀ w ∈ gt.outWire :: gt.inWires, mask w < 2) (hcol : ∀ w ∈ gt.inWires, colour w = ((a w).toNat + mask w) % 2) :
    rowBit gt.kind (evalRow gt.kind (colour (gt.inWires.getD 0 0)) (colour (gt.inWires.getD 1 0)))
      (mask (gt.inWires.getD 0 0)) (mask (gt.inWires.getD 1 0)) (mask gt.outWire)
      = ((xor (a gt.outWire) (gt.kind = .inv)).toNat + mask gt.outWire) % 2 := by
  have h := intended_row heq hmask hcol
  cases gt with
  | xor g =>
    refine Eq.trans h ?_
    simp [Gate.kind]
  | and g =>
    refine Eq.trans h ?_
    simp [Gate.kind]
  | inv g =>
    have m0 := hmask _ (by simp [Gate.inWires] : g.inp[0] ∈ (Gate.inv g).outWire :: (Gate.inv g).inWires)
    have m2 : mask g.out < 2 := hmask _ List.mem_cons_self
    have key : ∀ (u : Bool) (x z : Fin 2), ((u.toNat + x) % 2 + x + z) % 2 = ((xor (!u) true).toNat + z) % 2 := by decide
    have h0 := hcol _ (by simp [Gate.inWires] : g.inp[0] ∈ (Gate.inv g).inWires)
    simp only [Gate.inWires, Gate.kind, Gate.outWire, List.getD_cons_zero, rowBit, evalRow]
    rw [h0, show a g.out = _ from heq]
    simpa using key (a g.inp[0]) ⟨_, m0⟩ ⟨_, m2⟩

omit [CodeField F] [DecidableEq F] in
theorem map_succ_append {k : Nat} (f : Nat → F) : (List.range (k + 1)).map f = (List.range k).map f ++ [f k] := by
  rw [List.range_succ, List.map_append]
  rfl

/-- C107, for tables as they should be.  If the gates are garbled as in `intendedScheme`, i.e. if the three disagreements of C57, C60 and C61 were
not there, then the evaluation gives, for every wire, the label whose number is the colour, and the colour is the value of the wire in the
circuit plus its mask; and the evaluation does not get stuck.  So the holder of the masks of the output wires gets the outputs of the circuit. -/
theorem C107_intended (hash : List Nat → List Nat) (rng : List Nat → Nat → F) (ctx : Ctx F) (lpn : LpnParams) (enc : Mat F) (p : PackedCircuit)
    (keys errors : List (List F)) (place : Nat → Nat × Nat) (mask : Nat → Nat) (hmask : ∀ w, mask w < 2)
    (results : List (List (List (List F))))
    (henc : rsGenMat (lpn.keyLen + 1) lpn.mssgLen = some enc) (hcode : lpn.mssgLen < CodeField.order F) (hlen : lpn.keyLen + 1 ≤ lpn.mssgLen)
    (e : Nat) (he : 2 * e < lpn.mssgLen - lpn.keyLen) (inputs : List Nat) (gates : List Gate) (topo : Topological inputs gates)
    (hholds : ∀ gt ∈ gates, HoldsGate hash rng ctx lpn enc p (intendedScheme lpn.keyLen p.blocks.length keys place) errors place mask results gt)
    (hfew : FewErrors p lpn.mssgLen errors e place gates) (a : Nat → Bool) (hsat : ∀ gt ∈ gates, GateEq a gt) :
    (∀ (colour : Nat → Nat) (lab : Nat → Nat → F),
      (∀ w ∈ inputs, colour w = ((a w).toNat + mask w) % 2 ∧
        ∀ j < lpn.keyLen, lab w j = label lpn.keyLen p.blocks.length keys (place w).1 (colour w) j (place w).2) →
      Evaluation hash rng ctx lpn enc p place results e gates colour lab →
      ∀ w, w ∈ inputs ∨ (∃ gt ∈ gates, gt.outWire = w) → colour w = ((a w).toNat + mask w) % 2 ∧
        ∀ j < lpn.keyLen, lab w j = label lpn.keyLen p.blocks.length keys (place w).1 (colour w) j (place w).2) ∧
    Evaluation hash rng ctx lpn enc p place results e gates (fun w => ((a w).toNat + mask w) % 2)
      (fun w j => label lpn.keyLen p.blocks.length keys (place w).1 (((a w).toNat + mask w) % 2) j (place w).2) := by
  have hmsg : ∀ gt ∈ gates, ∀ (colour : Nat → Nat) (lab : Nat → Nat → F), (∀ w ∈ gt.inWires, colour w = ((a w).toNat + mask w) % 2 ∧
        ∀ j < lpn.keyLen, lab w j = label lpn.keyLen p.blocks.length keys (place w).1 (colour w) j (place w).2) → ∀ m,
      (Decrypts hash rng ctx lpn enc p place results e colour lab gt m ↔
        m = (List.range lpn.keyLen).map (fun j => label lpn.keyLen p.blocks.length keys (place gt.outWire).1
          (((a gt.outWire).toNat + mask gt.outWire) % 2) j (place gt.outWire).2) ++
          [((((a gt.outWire).toNat + mask gt.outWire) % 2 : Nat) : F)]) := by
    intro gt hgt colour lab hin m
    rw [decrypts_iff henc hcode hlen he (hholds gt hgt) hgt hfew (fun w hw => by rw [(hin w hw).1]; omega)
      (fun w hw j hj => (hin w hw).2 j hj) m, show (intendedScheme lpn.keyLen p.blocks.length keys place).row = intendedRow from rfl,
      intended_row (hsat gt hgt) (fun w _ => hmask w) fun w hw => (hin w hw).1, map_succ_append]
    have e1 : (List.range lpn.keyLen).map ((intendedScheme lpn.keyLen p.blocks.length keys place).msg gt.outWire (((a gt.outWire).toNat + mask gt.outWire) % 2))
        = (List.range lpn.keyLen).map (fun j => label lpn.keyLen p.blocks.length keys (place gt.outWire).1
          (((a gt.outWire).toNat + mask gt.outWire) % 2) j (place gt.outWire).2) :=
      List.map_congr_left fun j hj => by simp [intendedScheme, List.mem_range.1 hj]
    have e2 : (intendedScheme lpn.keyLen p.blocks.length keys place).msg gt.outWire (((a gt.outWire).toNat + mask gt.outWire) % 2) lpn.keyLen
        = ((((a gt.outWire).toNat + mask gt.outWire) % 2 : Nat) : F) := by simp [intendedScheme]
    rw [e1, e2]
  constructor
  · intro colour lab hin hev
    clear hholds hfew
    induction gates generalizing inputs with
    | nil =>
      rintro w (hw | ⟨_, h, _⟩)
      · exact hin w hw
      · simp at h
    | cons gt gs ih =>
      obtain ⟨t1, t2, t3⟩ := topo
      have hout : colour gt.outWire = ((a gt.outWire).toNat + mask gt.outWire) % 2 ∧
          ∀ j < lpn.keyLen, lab gt.outWire j = label lpn.keyLen p.blocks.length keys (place gt.outWire).1 (colour gt.outWire) j (place gt.outWire).2 := by
        obtain ⟨hc2, hd⟩ := hev gt List.mem_cons_self
        have := (hmsg gt List.mem_cons_self colour lab (fun w hw => hin w (t1 w hw)) _).1 hd
        obtain ⟨l1, l2⟩ := List.append_inj' this rfl
        have l2 : (colour gt.outWire : F) = ((((a gt.outWire).toNat + mask gt.outWire) % 2 : Nat) : F) := by simpa using l2
        have hcol : colour gt.outWire = ((a gt.outWire).toNat + mask gt.outWire) % 2 := by
          have hb : ((a gt.outWire).toNat + mask gt.outWire) % 2 < 2 := Nat.mod_lt _ (by omega)
          revert l2 hc2 hb
          generalize colour gt.outWire = x
          generalize ((a gt.outWire).toNat + mask gt.outWire) % 2 = y
          intro hx l2 hy
          interval_cases x <;> interval_cases y <;> simp at l2 ⊢
        refine ⟨hcol, fun j hj => ?_⟩
        have := congrArg (fun l => l[j]?) l1
        simp only [List.getElem?_map, List.getElem?_range hj, Option.map_some, Option.some.injEq] at this
        rw [this, hcol]
      have := ih (gt.outWire :: inputs) t3 (fun g hg => hsat g (List.mem_cons_of_mem _ hg))
        (fun g hg => hmsg g (List.mem_cons_of_mem _ hg))
        (by
          intro w hw
          rcases List.mem_cons.1 hw with rfl | hw
          · exact hout
          · exact hin w hw)
        (fun g hg => hev g (List.mem_cons_of_mem _ hg))
      rintro w (hw | ⟨g, hg, rfl⟩)
      · exact this w (Or.inl (List.mem_cons_of_mem _ hw))
      · rcases List.mem_cons.1 hg with rfl | hg
        · exact hout
        · exact this _ (Or.inr ⟨g, hg, rfl⟩)
  · intro gt hgt
    refine ⟨Nat.mod_lt _ (by omega), ?_⟩
    rw [hmsg gt hgt _ _ (fun w _ => ⟨rfl, fun j _ => rfl⟩)]

/-- What an evaluator gets from a gate of the tables of this code. -/
theorem code_gate {hash : List Nat → List Nat} {rng : List Nat → Nat → F} {ctx : Ctx F} {lpn : LpnParams} {enc : Mat F} {p : PackedCircuit}
    {masks keys errors : List (List F)} {place : Nat → Nat × Nat} {mask : Nat → Nat} {results : List (List (List (List F)))} {gt : Gate}
    (henc : rsGenMat (lpn.keyLen + 1) lpn.mssgLen = some enc) (hcode : lpn.mssgLen < CodeField.order F) (hlen : lpn.keyLen + 1 ≤ lpn.mssgLen)
    {e : Nat} (he : 2 * e < lpn.mssgLen - lpn.keyLen)
    (h : GarbledGate hash rng ctx lpn enc p masks keys errors place mask results gt) {gates : List Gate} (hgt : gt ∈ gates)
    (hfew : FewErrors p lpn.mssgLen errors e place gates) {a : Nat → Bool} (hsat : GateEq a gt)
    (hmask : ∀ w ∈ gt.outWire :: gt.inWires, mask w < 2) (hout : at2 masks (place gt.outWire).1 (place gt.outWire).2 = (mask gt.outWire : F))
    {colour : Nat → Nat} {lab : Nat → Nat → F} (hin : ∀ w ∈ gt.inWires, colour w = ((a w).toNat + mask w) % 2 ∧
      ∀ j < lpn.keyLen, lab w j = readLabel lpn.keyLen keys (place w).1 (colour w) j (place w).2) (m : List F) :
    Decrypts hash rng ctx lpn enc p place results e colour lab gt m ↔
      m = (List.range lpn.keyLen).map (fun j => label lpn.keyLen p.blocks.length keys (place gt.outWire).1
          (((xor (a gt.outWire) (gt.kind = .inv)).toNat + mask gt.outWire) % 2) j (place gt.outWire).2) ++
          [((xor (a gt.outWire) (gt.kind = .inv)).toNat : F)] := by
  rw [decrypts_iff henc hcode hlen he (holds_code h) hgt hfew (fun w hw => by rw [(hin w hw).1]; omega)
    (fun w hw j hj => (hin w hw).2 j hj) m,
    show (codeScheme lpn.keyLen p.blocks.length masks keys place).row = rowBit from rfl, code_row hsat hmask fun w hw => (hin w hw).1, map_succ_append]
  have e1 : (List.range lpn.keyLen).map ((codeScheme lpn.keyLen p.blocks.length masks keys place).msg gt.outWire
      (((xor (a gt.outWire) (gt.kind = .inv)).toNat + mask gt.outWire) % 2))
      = (List.range lpn.keyLen).map (fun j => label lpn.keyLen p.blocks.length keys (place gt.outWire).1
        (((xor (a gt.outWire) (gt.kind = .inv)).toNat + mask gt.outWire) % 2) j (place gt.outWire).2) :=
    List.map_congr_left fun j hj => by simp [codeScheme, labelMsg, List.mem_range.1 hj]
  have e2 : (codeScheme lpn.keyLen p.blocks.length masks keys place).msg gt.outWire
      (((xor (a gt.outWire) (gt.kind = .inv)).toNat + mask gt.outWire) % 2) lpn.keyLen
      = ((xor (a gt.outWire) (gt.kind = .inv)).toNat : F) := by
    simp only [codeScheme, labelMsg, lt_irrefl, if_false]
    rw [hout, cast_mod_two]
    push_cast
    linear_combination (mask gt.outWire : F) * (two_eq_zero : (2 : F) = 0)
  rw [e1, e2]

theorem topo_known {known : List Nat} {gates : List Gate} (h : Topological known gates) :
    ∀ gt ∈ gates, ∀ w ∈ gt.inWires, w ∈ known ∨ ∃ g ∈ gates, g.outWire = w := by
  induction gates generalizing known with
  | nil => simp
  | cons g gs ih =>
    obtain ⟨t1, t2, t3⟩ := h
    intro gt hgt w hw
    rcases List.mem_cons.1 hgt with rfl | hgt
    · exact Or.inl (t1 w hw)
    · rcases ih t3 gt hgt w hw with h | ⟨g', hg', rfl⟩
      · rcases List.mem_cons.1 h with rfl | h
        · exact Or.inr ⟨g, List.mem_cons_self, rfl⟩
        · exact Or.inl h
      · exact Or.inr ⟨g', List.mem_cons_of_mem _ hg', rfl⟩

/-- C107, for the tables of this code.  For every run of `preproc` and `garble` as in C84, and for someone who holds the colours of the input wires
of a gate and the labels *which the gate uses* for them (see C57): from the table of an AND or XOR gate comes the right label of the output
wire, and the *value* of the output wire.  From the table of an INV gate come the label and the value of the input wire.  Missing: that it is the
colour which comes with the label, that an INV gate negates (both `C107_false`), and that the labels are those which the next
gates use (C57_labels_false); with these, the whole circuit could be evaluated (`C107_intended`). -/
theorem C107_gate_partial (ctx : Ctx F) (good : ctx.Good) (parties : ctx.t + 2 * ctx.l ≤ ctx.n) (mult : 2 * (ctx.t + ctx.l - 1) < ctx.n)
    (hash : List Nat → List Nat) (rng : List Nat → Nat → F) (lpn : LpnParams) (code : lpn.mssgLen < CodeField.order F)
    (hlen : lpn.keyLen + 1 ≤ lpn.mssgLen) (d : BristolDesc) (hd : d.Proper) (cs : List Char) (hf : IsBristolFile d cs)
    (fit : ctx.n + ctx.l + d.numWires ≤ CodeField.order F) (m mb : Mat F) (hm : DealMat ctx.n m) (hmb : DealMat ctx.n mb)
    (hbin : mb.Binary) :
    ∃ circ p desc g, fromBristol cs = some circ ∧ circ.pack ctx.l = some p ∧ p.describe ctx.n ctx.t ctx.l lpn = some desc ∧
      GarbleCtx.new hash rng ctx lpn p = some g ∧
      ∀ (tp : PreTapes F), tp.Ok ctx.n ctx.t ctx.l m mb desc → ∀ (gtp : GarbleTapes F), gtp.Ok ctx g →
        ∃ pre tables st masks keys errors place mask, preproc ctx m mb desc tp = some pre ∧
          garble ctx g gtp pre = some (tables, st) ∧
          VecSharing ctx.n (ctx.t + ctx.l) (defaultPos ctx.n ctx.l) masks (pre.map (·.masks)) ∧
          VecSharing ctx.n (ctx.t + ctx.l) (defaultPos ctx.n ctx.l) keys (pre.map (·.keys.flat)) ∧
          VecSharing ctx.n (ctx.t + ctx.l) (defaultPos ctx.n ctx.l) errors (pre.map (·.errors)) ∧
          Places d p place ∧ GoodSecrets p masks errors place mask ∧
          ∀ results, (List.range ctx.n).mapM (fun i => tables.mapM fun T => T[i]?) = some results →
            ∀ e, 2 * e < lpn.mssgLen - lpn.keyLen → FewErrors p lpn.mssgLen errors e place d.gates →
            ∀ (a : Nat → Bool) (colour : Nat → Nat) (lab : Nat → Nat → F) (gt : Gate), gt ∈ d.gates → GateEq a gt →
              (∀ w ∈ gt.inWires, colour w = ((a w).toNat + mask w) % 2 ∧
                ∀ j < lpn.keyLen, lab w j = readLabel lpn.keyLen keys (place w).1 (colour w) j (place w).2) →
              ∀ v, Decrypts hash rng ctx lpn g.enc p place results e colour lab gt v ↔
                v = (List.range lpn.keyLen).map (fun j => label lpn.keyLen p.blocks.length keys (place gt.outWire).1
                    (((xor (a gt.outWire) (gt.kind = .inv)).toNat + mask gt.outWire) % 2) j (place gt.outWire).2) ++
                  [((xor (a gt.outWire) (gt.kind = .inv)).toNat : F)] := by
  obtain ⟨circ, p, desc, g, h1, h2, h3, h4, h5⟩ :=
    C84_sequential ctx good parties mult hash rng lpn code d hd cs hf fit m mb hm hmb hbin
  refine ⟨circ, p, desc, g, h1, h2, h3, h4, fun tp htp gtp hgtp => ?_⟩
  obtain ⟨pre, tables, st, masks, keys, errors, place, mask, k1, k2, k3, k4, k5, k6, k7, k8, k9⟩ := h5 tp htp gtp hgtp
  refine ⟨pre, tables, st, masks, keys, errors, place, mask, k1, k2, k4, k5, k6, k7, k8, fun results hres e he hfew a colour lab gt hgt hsat hin v => ?_⟩
  have henc : rsGenMat (lpn.keyLen + 1) lpn.mssgLen = some g.enc := by
    unfold GarbleCtx.new at h4
    obtain ⟨_, _, h4⟩ := Option.bind_eq_some_iff.1 h4
    obtain ⟨_, _, h4⟩ := Option.bind_eq_some_iff.1 h4
    obtain ⟨enc, he, h4⟩ := Option.bind_eq_some_iff.1 h4
    obtain ⟨_, _, h4⟩ := Option.bind_eq_some_iff.1 h4
    obtain ⟨_, _, rfl⟩ := Option.map_eq_some_iff.1 h4
    exact he
  have hdr : ∀ w ∈ gt.outWire :: gt.inWires, p.Drives (place w).1 (place w).2 w := by
    intro w hw
    refine k7 w ?_
    rcases List.mem_cons.1 hw with rfl | hw
    · exact Or.inr ⟨gt, hgt, rfl⟩
    · rcases topo_known hd.topo gt hgt w hw with h | h
      · exact Or.inl (List.mem_range.1 h)
      · exact Or.inr h
  exact code_gate henc code hlen he (k9 results hres gt hgt) hgt hfew hsat (fun w hw => (k8.masks w (hdr w hw)).1)
    (k8.masks _ (hdr _ List.mem_cons_self)).2 hin v

/-- C107 fails, in every run: the element which follows the label is the colour of the output wire only if its mask is 0, for an AND or XOR gate, or
1, for an INV gate; so the next row cannot be chosen.  Nor is it the value of the output wire, for an INV gate. -/
theorem C107_false (ctx : Ctx F) (good : ctx.Good) (parties : ctx.t + 2 * ctx.l ≤ ctx.n) (mult : 2 * (ctx.t + ctx.l - 1) < ctx.n)
    (hash : List Nat → List Nat) (rng : List Nat → Nat → F) (lpn : LpnParams) (code : lpn.mssgLen < CodeField.order F)
    (hlen : lpn.keyLen + 1 ≤ lpn.mssgLen) (d : BristolDesc) (hd : d.Proper) (cs : List Char) (hf : IsBristolFile d cs)
    (fit : ctx.n + ctx.l + d.numWires ≤ CodeField.order F) (m mb : Mat F) (hm : DealMat ctx.n m) (hmb : DealMat ctx.n mb)
    (hbin : mb.Binary) :
    ∃ circ p desc g, fromBristol cs = some circ ∧ circ.pack ctx.l = some p ∧ p.describe ctx.n ctx.t ctx.l lpn = some desc ∧
      GarbleCtx.new hash rng ctx lpn p = some g ∧
      ∀ (tp : PreTapes F), tp.Ok ctx.n ctx.t ctx.l m mb desc → ∀ (gtp : GarbleTapes F), gtp.Ok ctx g →
        ∃ pre tables st masks keys errors place mask, preproc ctx m mb desc tp = some pre ∧
          garble ctx g gtp pre = some (tables, st) ∧
          VecSharing ctx.n (ctx.t + ctx.l) (defaultPos ctx.n ctx.l) masks (pre.map (·.masks)) ∧
          VecSharing ctx.n (ctx.t + ctx.l) (defaultPos ctx.n ctx.l) keys (pre.map (·.keys.flat)) ∧
          VecSharing ctx.n (ctx.t + ctx.l) (defaultPos ctx.n ctx.l) errors (pre.map (·.errors)) ∧
          Places d p place ∧ GoodSecrets p masks errors place mask ∧
          ∀ results, (List.range ctx.n).mapM (fun i => tables.mapM fun T => T[i]?) = some results →
            ∀ e, 2 * e < lpn.mssgLen - lpn.keyLen → FewErrors p lpn.mssgLen errors e place d.gates →
            ∀ (a : Nat → Bool) (colour : Nat → Nat) (lab : Nat → Nat → F) (gt : Gate), gt ∈ d.gates → GateEq a gt →
              (∀ w ∈ gt.inWires, colour w = ((a w).toNat + mask w) % 2 ∧
                ∀ j < lpn.keyLen, lab w j = readLabel lpn.keyLen keys (place w).1 (colour w) j (place w).2) →
              ∃ v, Decrypts hash rng ctx lpn g.enc p place results e colour lab gt v ∧
                (∀ v', Decrypts hash rng ctx lpn g.enc p place results e colour lab gt v' → v' = v) ∧
                (v[lpn.keyLen]? = some ((((a gt.outWire).toNat + mask gt.outWire) % 2 : Nat) : F) ↔ (mask gt.outWire = 1 ↔ gt.kind = .inv)) ∧
                (gt.kind = .inv → v[lpn.keyLen]? ≠ some ((a gt.outWire).toNat : F)) := by
  obtain ⟨circ, p, desc, g, h1, h2, h3, h4, h5⟩ :=
    C107_gate_partial ctx good parties mult hash rng lpn code hlen d hd cs hf fit m mb hm hmb hbin
  refine ⟨circ, p, desc, g, h1, h2, h3, h4, fun tp htp gtp hgtp => ?_⟩
  obtain ⟨pre, tables, st, masks, keys, errors, place, mask, k1, k2, k3, k4, k5, k6, k7, k8⟩ := h5 tp htp gtp hgtp
  refine ⟨pre, tables, st, masks, keys, errors, place, mask, k1, k2, k3, k4, k5, k6, k7,
    fun results hres e he hfew a colour lab gt hgt hsat hin => ?_⟩
  have hv := k8 results hres e he hfew a colour lab gt hgt hsat hin
  have hlast : ∀ (l : List F) (x : F), l.length = lpn.keyLen → (l ++ [x])[lpn.keyLen]? = some x := by
    intro l x hl
    rw [← hl, List.getElem?_concat_length]
  have hmask : mask gt.outWire < 2 := (k7.masks _ (k6 _ (Or.inr ⟨gt, hgt, rfl⟩))).1
  refine ⟨_, (hv _).2 rfl, fun v' h => (hv v').1 h, ?_, ?_⟩
  · rw [hlast _ _ (by simp), Option.some.injEq]
    revert hmask
    generalize mask gt.outWire = x
    generalize a gt.outWire = y
    intro hx
    by_cases hk : gt.kind = .inv <;> cases y <;> interval_cases x <;> simp [hk]
  · intro hk
    rw [hlast _ _ (by simp), ne_eq, Option.some.injEq]
    generalize a gt.outWire = y
    cases y <;> simp [hk]

end

/-- Such tables exist: seven parties hold tables of the half adder as they should be, over GF(16), with the masks 0, 1, 0, 1 of the four wires.  The
evaluation with the inputs 1 and 1 ends with the colour 0 for wire 2 (value 0, mask 0) and the colour 0 for wire 3 (value 1, mask 1). -/
example : ∃ (ctx : Ctx (GF 4)) (p : PackedCircuit) (enc : Mat (GF 4)) (place : Nat → Nat × Nat) (results : List (List (List (List (GF 4))))),
    exCtx = some ctx ∧ (∃ colour lab, Evaluation id (fun _ _ => (1 : GF 4)) ctx ⟨1, 3⟩ enc p place results 0 halfAdder.gates colour lab ∧
      colour 0 = 1 ∧ colour 1 = 0) ∧
    ∀ (colour : Nat → Nat) (lab : Nat → Nat → GF 4), colour 0 = 1 → colour 1 = 0 →
      (∀ w < 2, ∀ j < 1, lab w j = label 1 p.blocks.length [[1, 2], [3, 4], [5, 6]] (place w).1 (colour w) j (place w).2) →
      Evaluation id (fun _ _ => (1 : GF 4)) ctx ⟨1, 3⟩ enc p place results 0 halfAdder.gates colour lab → colour 2 = 0 ∧ colour 3 = 0 := by
  obtain ⟨ctx, hctx, hg, hn, ht, hl⟩ := exCtx_good
  have ho : CodeField.order (GF 4) = 16 := by
    show 2 ^ 4 = 16
    norm_num
  obtain ⟨circ, hc, hwf, hgates, hnw, hinp⟩ := parse_proper halfAdder_proper (C21_printed_is_file halfAdder)
  obtain ⟨p, hp⟩ := Option.isSome_iff_exists.1 ((C23_pack_total circ ctx.l).2 (by omega))
  obtain ⟨place, hplace⟩ := places_exist (p := p)
  obtain ⟨enc, henc⟩ : ∃ enc : Mat (GF 4), rsGenMat (1 + 1) 3 = some enc := ⟨_, rsGenMat_eq (by omega) (by rw [ho]; decide)⟩
  set a : Nat → Bool := fun w => w ≠ 2 with ha
  set mask : Nat → Nat := fun w => w % 2 with hmask
  obtain ⟨results, hres⟩ := tables_exist (hash := id) (rng := fun _ _ => (1 : GF 4)) (lpn := ⟨1, 3⟩) (enc := enc)
    (S := intendedScheme 1 p.blocks.length [[1, 2], [3, 4], [5, 6]] place) (errors := []) (mask := mask) hg (by omega) hwf hp hplace
  rw [hgates] at hres
  obtain ⟨h1, h2⟩ := C107_intended id (fun _ _ => (1 : GF 4)) ctx ⟨1, 3⟩ enc p [[1, 2], [3, 4], [5, 6]] [] place mask (fun w => Nat.mod_lt _ (by omega))
    results henc (by rw [ho]; decide) (by decide) 0 (by decide) _ _ halfAdder_proper.topo hres
    (fun gt _ gid x _ r _ => by simp [at2]) a (by simp [halfAdder, GateEq, ha])
  refine ⟨ctx, p, enc, place, results, hctx, ⟨_, _, h2, by simp [ha, hmask], by simp [ha, hmask]⟩, fun colour lab c0 c1 hlab hev => ?_⟩
  have h3 := h1 colour lab (by
    intro w hw
    have hw : w < 2 := by simpa [halfAdder] using hw
    refine ⟨?_, hlab w hw⟩
    interval_cases w
    · simpa [ha, hmask] using c0
    · simpa [ha, hmask] using c1) hev
  have e2 := (h3 2 (Or.inr ⟨_, List.mem_cons_self, rfl⟩)).1
  have e3 := (h3 3 (Or.inr ⟨_, List.mem_cons_of_mem _ List.mem_cons_self, rfl⟩)).1
  exact ⟨by simpa [ha, hmask] using e2, by simpa [ha, hmask] using e3⟩

/-- A file with one INV gate. -/
def notFile : BristolDesc := ⟨2, [1], [1], [.inv ⟨#v[0], 1⟩]⟩

theorem notFile_proper : notFile.Proper := by
  refine ⟨?_, ?_, ?_⟩
  · constructor <;> simp [notFile, Gate.wires]
  · simp [Topological, notFile, Gate.inWires, Gate.outWire]
  · intro w h1 h2
    simp [notFile] at h1 h2
    exact Or.inr ⟨_, List.mem_cons_self, by simp [Gate.outWire]; omega⟩

/-- Seven parties garble the file with one INV gate over GF(16): in every run without errors, an evaluator with the input 1 gets the output 1. -/
example : ∃ ctx p desc g, exCtx = some ctx ∧ p.describe 7 2 2 ⟨1, 3⟩ = some desc ∧ GarbleCtx.new id (fun _ _ => (1 : GF 4)) ctx ⟨1, 3⟩ p = some g ∧
    ∀ (tp : PreTapes (GF 4)), tp.Ok 7 2 2 exDeal exDeal desc → ∀ (gtp : GarbleTapes (GF 4)), gtp.Ok ctx g →
      ∃ pre tables st errors place, preproc ctx exDeal exDeal desc tp = some pre ∧ garble ctx g gtp pre = some (tables, st) ∧
        VecSharing 7 4 (defaultPos 7 2) errors (pre.map (·.errors)) ∧
        ∀ results, (List.range ctx.n).mapM (fun i => tables.mapM fun T => T[i]?) = some results →
          FewErrors p 3 errors 0 place notFile.gates → ∃ colour lab,
            (∃ v, Decrypts id (fun _ _ => (1 : GF 4)) ctx ⟨1, 3⟩ g.enc p place results 0 colour lab (.inv ⟨#v[0], 1⟩) v) ∧
            ∀ v, Decrypts id (fun _ _ => (1 : GF 4)) ctx ⟨1, 3⟩ g.enc p place results 0 colour lab (.inv ⟨#v[0], 1⟩) v → v[1]? = some 1 := by
  obtain ⟨ctx, hctx, hg, hn, ht, hl⟩ := exCtx_good
  have ho : CodeField.order (GF 4) = 16 := by
    show 2 ^ 4 = 16
    norm_num
  obtain ⟨circ, p, desc, g, h1, h2, h3, h4, h5⟩ := C107_gate_partial ctx hg (by omega) (by omega) id (fun _ _ => (1 : GF 4)) ⟨1, 3⟩
    (by rw [ho]; decide) (by decide) notFile notFile_proper (printBristol notFile)
    (C21_printed_is_file _) (by rw [hn, hl, ho]; decide) exDeal exDeal (by rw [hn]; exact exDeal_ok.1) (by rw [hn]; exact exDeal_ok.1)
    exDeal_ok.2
  rw [hn, ht, hl] at h3 h5
  refine ⟨ctx, p, desc, g, hctx, h3, h4, fun tp htp gtp hgtp => ?_⟩
  obtain ⟨pre, tables, st, masks, keys, errors, place, mask, k1, k2, k3, k4, k5, k6, k7, k8⟩ := h5 tp htp gtp hgtp
  refine ⟨pre, tables, st, errors, place, k1, k2, k5, fun results hres hfew => ?_⟩
  have h := k8 results (by rw [← hn]; exact hres) 0 (by decide) hfew (fun w => w = 0) (fun w => ((decide (w = 0)).toNat + mask w) % 2)
    (fun w j => readLabel 1 keys (place w).1 (((decide (w = 0)).toNat + mask w) % 2) j (place w).2) (.inv ⟨#v[0], 1⟩) List.mem_cons_self
    (by simp [GateEq]) (fun w _ => ⟨rfl, fun j _ => rfl⟩)
  refine ⟨_, _, ⟨_, (h _).2 rfl⟩, fun v hv => ?_⟩
  rw [(h v).1 hv]
  simp [Gate.kind, Gate.outWire]

end Verif.Props
