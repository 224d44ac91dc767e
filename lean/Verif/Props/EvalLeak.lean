import Verif.Props.Eval

/-!
# What the evaluation of the garbled circuit tells about the values of the wires
-/

open Verif
open Verif.CodeField (ofU32)

namespace Verif.Props

section
variable {F : Type} [CodeField F] [DecidableEq F]

/-- C123, for tables as they should be.  Whatever the values of the wires are, there are masks, and only these, which lead to given colours. -/
theorem C123_masks (a : Nat → Bool) (colour : Nat → Nat) (hc : ∀ w, colour w < 2) :
    ∃! mask : Nat → Nat, (∀ w, mask w < 2) ∧ ∀ w, ((a w).toNat + mask w) % 2 = colour w := by
  refine ⟨fun w => (colour w + (a w).toNat) % 2, ⟨fun w => Nat.mod_lt _ (by omega), fun w => ?_⟩, ?_⟩
  · have := hc w
    have := Bool.toNat_le (a w)
    show ((a w).toNat + (colour w + (a w).toNat) % 2) % 2 = colour w
    omega
  · rintro mask ⟨h1, h2⟩
    funext w
    have := h1 w
    have := h2 w
    have := hc w
    have := Bool.toNat_le (a w)
    show mask w = (colour w + (a w).toNat) % 2
    omega

/-- C123, for tables as they should be (`intendedScheme`, see C107).  What an evaluator gets depends on the colours alone: if the same labels are used for
other values of the wires, with other masks such that the colours of the inputs and of the gates' outputs are the same, the evaluator gets the same colours and labels for all
wires.  Missing: the tables of this code are not of this kind, `C123_false`. -/
theorem C123_intended_partial (hash : List Nat → List Nat) (rng : List Nat → Nat → F) (ctx : Ctx F) (lpn : LpnParams) (enc : Mat F) (p : PackedCircuit)
    (keys : List (List F)) (place : Nat → Nat × Nat)
    (henc : rsGenMat (lpn.keyLen + 1) lpn.mssgLen = some enc) (hcode : lpn.mssgLen < CodeField.order F) (hlen : lpn.keyLen + 1 ≤ lpn.mssgLen)
    (e : Nat) (he : 2 * e < lpn.mssgLen - lpn.keyLen) (inputs : List Nat) (gates : List Gate) (topo : Topological inputs gates)
    (a a' : Nat → Bool) (hsat : ∀ gt ∈ gates, GateEq a gt) (hsat' : ∀ gt ∈ gates, GateEq a' gt)
    (mask mask' : Nat → Nat) (hmask : ∀ w, mask w < 2) (hmask' : ∀ w, mask' w < 2)
    (hsame : ∀ w, ((a w).toNat + mask w) % 2 = ((a' w).toNat + mask' w) % 2)
    (errors errors' : List (List F)) (results results' : List (List (List (List F))))
    (hholds : ∀ gt ∈ gates, HoldsGate hash rng ctx lpn enc p (intendedScheme lpn.keyLen p.blocks.length keys place) errors place mask results gt)
    (hholds' : ∀ gt ∈ gates, HoldsGate hash rng ctx lpn enc p (intendedScheme lpn.keyLen p.blocks.length keys place) errors' place mask' results' gt)
    (hfew : FewErrors p lpn.mssgLen errors e place gates) (hfew' : FewErrors p lpn.mssgLen errors' e place gates)
    (colour colour' : Nat → Nat) (lab lab' : Nat → Nat → F)
    (hin : ∀ w ∈ inputs, colour w = ((a w).toNat + mask w) % 2 ∧
        ∀ j < lpn.keyLen, lab w j = label lpn.keyLen p.blocks.length keys (place w).1 (colour w) j (place w).2)
    (hin' : ∀ w ∈ inputs, colour' w = ((a' w).toNat + mask' w) % 2 ∧
        ∀ j < lpn.keyLen, lab' w j = label lpn.keyLen p.blocks.length keys (place w).1 (colour' w) j (place w).2)
    (hev : Evaluation hash rng ctx lpn enc p place results e gates colour lab)
    (hev' : Evaluation hash rng ctx lpn enc p place results' e gates colour' lab') :
    ∀ w, w ∈ inputs ∨ (∃ gt ∈ gates, gt.outWire = w) → colour w = colour' w ∧ ∀ j < lpn.keyLen, lab w j = lab' w j := by
  intro w hw
  obtain ⟨h1, h2⟩ := (C107_intended hash rng ctx lpn enc p keys errors place mask hmask results henc hcode hlen e he inputs gates topo hholds hfew a hsat).1
    colour lab hin hev w hw
  obtain ⟨h1', h2'⟩ := (C107_intended hash rng ctx lpn enc p keys errors' place mask' hmask' results' henc hcode hlen e he inputs gates topo hholds' hfew'
    a' hsat').1 colour' lab' hin' hev' w hw
  have hc : colour w = colour' w := by rw [h1, h1', hsame]
  exact ⟨hc, fun j hj => by rw [h2 j hj, h2' j hj, hc]⟩

/-- C123 fails, in every run of `preproc` and `garble` as in C84 and whatever the masks are: who opens a row of an AND or XOR gate with the labels which the
gate uses gets the value of the output wire, and who opens a row of an INV gate gets the value of the input wire. -/
theorem C123_false (ctx : Ctx F) (good : ctx.Good) (parties : ctx.t + 2 * ctx.l ≤ ctx.n) (mult : 2 * (ctx.t + ctx.l - 1) < ctx.n)
    (hash : List Nat → List Nat) (rng : List Nat → Nat → F) (lpn : LpnParams) (code : lpn.mssgLen < CodeField.order F)
    (hlen : lpn.keyLen + 1 ≤ lpn.mssgLen) (d : BristolDesc) (hd : d.Proper) (cs : List Char) (hf : IsBristolFile d cs)
    (fit : ctx.n + ctx.l + d.numWires ≤ CodeField.order F) (m mb : Mat F) (hm : DealMat ctx.n m) (hmb : DealMat ctx.n mb)
    (hbin : mb.Binary) :
    ∃ circ p desc g, fromBristol cs = some circ ∧ circ.pack ctx.l = some p ∧ p.describe ctx.n ctx.t ctx.l lpn = some desc ∧
      GarbleCtx.new hash rng ctx lpn p = some g ∧
      ∀ (tp : PreTapes F), tp.Ok ctx.n ctx.t ctx.l m mb desc → ∀ (gtp : GarbleTapes F), gtp.Ok ctx g →
        ∃ pre tables st masks keys errors place mask, preproc ctx m mb desc tp = some pre ∧
          garble ctx g gtp pre = some (tables, st) ∧
          VecSharing ctx.n (ctx.t + ctx.l) (defaultPos ctx.n ctx.l) masks (pre.map (·.masks)) ∧
          VecSharing ctx.n (ctx.t + ctx.l) (defaultPos ctx.n ctx.l) keys (pre.map (·.keys.flat)) ∧
          VecSharing ctx.n (ctx.t + ctx.l) (defaultPos ctx.n ctx.l) errors (pre.map (·.errors)) ∧
          Places d p place ∧ GoodSecrets p masks errors place mask ∧
          ∀ results, (List.range ctx.n).mapM (fun i => tables.mapM fun T => T[i]?) = some results →
            ∀ e, 2 * e < lpn.mssgLen - lpn.keyLen → FewErrors p lpn.mssgLen errors e place d.gates →
            ∀ (a : Nat → Bool) (colour : Nat → Nat) (lab : Nat → Nat → F) (gt : Gate), gt ∈ d.gates → GateEq a gt →
              (∀ w ∈ gt.inWires, colour w = ((a w).toNat + mask w) % 2 ∧
                ∀ j < lpn.keyLen, lab w j = readLabel lpn.keyLen keys (place w).1 (colour w) j (place w).2) →
              (∃ v, Decrypts hash rng ctx lpn g.enc p place results e colour lab gt v) ∧
              ∀ v, Decrypts hash rng ctx lpn g.enc p place results e colour lab gt v →
                v[lpn.keyLen]? = some (((a (if gt.kind = .inv then gt.inWires.getD 0 0 else gt.outWire)).toNat : Nat) : F) := by
  obtain ⟨circ, p, desc, g, h1, h2, h3, h4, h5⟩ := C107_gate_partial ctx good parties mult hash rng lpn code hlen d hd cs hf fit m mb hm hmb hbin
  refine ⟨circ, p, desc, g, h1, h2, h3, h4, fun tp htp gtp hgtp => ?_⟩
  obtain ⟨pre, tables, st, masks, keys, errors, place, mask, k1, k2, k3, k4, k5, k6, k7, k8⟩ := h5 tp htp gtp hgtp
  refine ⟨pre, tables, st, masks, keys, errors, place, mask, k1, k2, k3, k4, k5, k6, k7, fun results hr e he hfew a colour lab gt hgt heq hin => ?_⟩
  have h := k8 results hr e he hfew a colour lab gt hgt heq hin
  refine ⟨⟨_, (h _).2 rfl⟩, fun v hv => ?_⟩
  rw [(h v).1 hv, List.getElem?_append_right (by simp)]
  simp only [List.length_map, List.length_range, Nat.sub_self, List.getElem?_cons_zero, Option.some.injEq]
  congr 2
  cases gt with
  | xor g => simp [Gate.kind, Gate.outWire]
  | and g => simp [Gate.kind, Gate.outWire]
  | inv g =>
    have hq : a g.out = !a g.inp[0] := heq
    simp [Gate.kind, Gate.outWire, Gate.inWires, hq]

end

/-- Seven parties garble the half adder over GF(16).  In every run without errors, for all inputs and whatever the masks are, opening the row of the AND gate
gives its value. -/
example (x y : Bool) : ∃ ctx p desc g, exCtx = some ctx ∧ p.describe 7 2 2 ⟨1, 3⟩ = some desc ∧
    GarbleCtx.new id (fun _ _ => (1 : GF 4)) ctx ⟨1, 3⟩ p = some g ∧
    ∀ (tp : PreTapes (GF 4)), tp.Ok 7 2 2 exDeal exDeal desc → ∀ (gtp : GarbleTapes (GF 4)), gtp.Ok ctx g →
      ∃ pre tables st errors place, preproc ctx exDeal exDeal desc tp = some pre ∧ garble ctx g gtp pre = some (tables, st) ∧
        VecSharing 7 4 (defaultPos 7 2) errors (pre.map (·.errors)) ∧
        ∀ results, (List.range ctx.n).mapM (fun i => tables.mapM fun T => T[i]?) = some results →
          FewErrors p 3 errors 0 place halfAdder.gates → ∃ colour lab,
            (∃ v, Decrypts id (fun _ _ => (1 : GF 4)) ctx ⟨1, 3⟩ g.enc p place results 0 colour lab (.and ⟨#v[0, 1], 3⟩) v) ∧
            ∀ v, Decrypts id (fun _ _ => (1 : GF 4)) ctx ⟨1, 3⟩ g.enc p place results 0 colour lab (.and ⟨#v[0, 1], 3⟩) v →
              v[1]? = some (((x && y).toNat : Nat) : GF 4) := by
  obtain ⟨ctx, hctx, hg, hn, ht, hl⟩ := exCtx_good
  have ho : CodeField.order (GF 4) = 16 := by
    show 2 ^ 4 = 16
    norm_num
  obtain ⟨circ, p, desc, g, h1, h2, h3, h4, h5⟩ := C123_false ctx hg (by omega) (by omega) id (fun _ _ => (1 : GF 4)) ⟨1, 3⟩
    (by rw [ho]; decide) (by decide) halfAdder halfAdder_proper (printBristol halfAdder)
    (C21_printed_is_file _) (by rw [hn, hl, ho]; decide) exDeal exDeal (by rw [hn]; exact exDeal_ok.1) (by rw [hn]; exact exDeal_ok.1)
    exDeal_ok.2
  rw [hn, ht, hl] at h3 h5
  refine ⟨ctx, p, desc, g, hctx, h3, h4, fun tp htp gtp hgtp => ?_⟩
  obtain ⟨pre, tables, st, masks, keys, errors, place, mask, k1, k2, k3, k4, k5, k6, k7, k8⟩ := h5 tp htp gtp hgtp
  refine ⟨pre, tables, st, errors, place, k1, k2, k5, fun results hres hfew => ?_⟩
  let a : Nat → Bool := fun w => if w = 0 then x else if w = 1 then y else x && y
  obtain ⟨q1, q2⟩ := k8 results (by rw [← hn]; exact hres) 0 (by decide) hfew a (fun w => ((a w).toNat + mask w) % 2)
    (fun w j => readLabel 1 keys (place w).1 (((a w).toNat + mask w) % 2) j (place w).2) (.and ⟨#v[0, 1], 3⟩)
    (by simp [halfAdder]) (by simp [GateEq, a]) (fun w _ => ⟨rfl, fun j _ => rfl⟩)
  exact ⟨_, _, q1, fun v hv => q2 v hv⟩

end Verif.Props
