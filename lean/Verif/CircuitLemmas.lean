import Verif.CircuitSpec
import Mathlib.Data.List.Forall2
import Mathlib.Tactic.Linarith

namespace Verif

/-! ## Parser -/

theorem isAsciiWs_iff (c : Char) : isAsciiWs c = true ↔ Blank c := by
  unfold isAsciiWs Blank
  simp only [Bool.or_eq_true, decide_eq_true_eq]
  tauto

theorem splitWsAux_blank (ws cs : List Char) (h : ∀ c ∈ ws, Blank c) :
    splitWsAux [] (ws ++ cs) = splitWsAux [] cs := by
  induction ws with
  | nil => rfl
  | cons c ws ih =>
    rw [List.cons_append, splitWsAux, if_pos ((isAsciiWs_iff c).2 (h c List.mem_cons_self)), if_pos rfl]
    exact ih fun d hd => h d (List.mem_cons_of_mem _ hd)

theorem splitWsAux_tok (cur tok cs : List Char) (h : ∀ c ∈ tok, ¬ Blank c) :
    splitWsAux cur (tok ++ cs) = splitWsAux (cur ++ tok) cs := by
  induction tok generalizing cur with
  | nil => simp
  | cons c tok ih =>
    rw [List.cons_append, splitWsAux, if_neg (fun hc => h c List.mem_cons_self ((isAsciiWs_iff c).1 hc)),
      ih _ fun d hd => h d (List.mem_cons_of_mem _ hd)]
    simp

theorem splitWs_layout {toks : List (List Char)} {cs : List Char} (h : Layout toks cs) :
    splitWs cs = toks := by
  unfold splitWs
  induction h with
  | nil ws hws =>
    have := splitWsAux_blank ws [] hws
    rw [List.append_nil] at this
    rw [this]; rfl
  | cons ws tok rest toks hws hne htok hl hrest ih =>
    rw [List.append_assoc, splitWsAux_blank ws _ hws, splitWsAux_tok [] tok rest htok, List.nil_append]
    rcases hrest with rfl | ⟨c, r, rfl, hc⟩
    · rw [splitWsAux, if_neg hne]
      rw [splitWsAux, if_pos rfl] at ih
      rw [← ih]
    · rw [splitWsAux, if_pos ((isAsciiWs_iff c).2 hc), if_neg hne]
      rw [splitWsAux, if_pos ((isAsciiWs_iff c).2 hc), if_pos rfl] at ih
      rw [ih]

theorem ofDigitChars_ge (cs : List Char) (acc : Nat) : acc ≤ Nat.ofDigitChars 10 cs acc := by
  induction cs generalizing acc with
  | nil => simp
  | cons c cs ih =>
    rw [Nat.ofDigitChars_cons]
    exact le_trans (by omega) (ih _)

theorem parseDigits_eq (cs : List Char) (acc : Nat) (h : ∀ c ∈ cs, c.isDigit)
    (hv : Nat.ofDigitChars 10 cs acc < 2 ^ 32) :
    parseDigits acc cs = some (Nat.ofDigitChars 10 cs acc) := by
  induction cs generalizing acc with
  | nil => simp [parseDigits]
  | cons c cs ih =>
    rw [parseDigits, if_pos (h c List.mem_cons_self)]
    rw [Nat.ofDigitChars_cons] at hv ⊢
    rw [mul_comm 10 acc] at hv ⊢
    have hge := ofDigitChars_ge cs (acc * 10 + (c.toNat - '0'.toNat))
    simp only
    rw [if_pos (lt_of_le_of_lt hge hv)]
    exact ih _ (fun d hd => h d (List.mem_cons_of_mem _ hd)) hv

theorem parseU32_eq {n : Nat} {tok : List Char} (h : Denotes n tok) (hn : n < 2 ^ 32) :
    parseU32 tok = some n := by
  obtain ⟨hne, hd, hv⟩ := h
  subst hv
  match tok, hne, hd, hn with
  | c :: cs, _, hd, hn =>
    have hplus : c ≠ '+' := by
      rintro rfl
      exact absurd (hd '+' List.mem_cons_self) (by decide)
    unfold parseU32
    split
    · exact absurd (by assumption) (List.cons_ne_nil _ _)
    · rename_i heq
      injection heq with h1 _
      exact absurd h1 hplus
    · exact parseDigits_eq _ 0 hd hn

theorem nextNum_eq {n : Nat} {tok : List Char} {ts : List (List Char)} (h : Denotes n tok)
    (hn : n < 2 ^ 32) : nextNum (tok :: ts) = some (n, ts) := by
  rw [nextNum, parseU32_eq h hn]; rfl

theorem takeNums_eq {ns : List Nat} {toks ts : List (List Char)} (h : List.Forall₂ Denotes ns toks)
    (hn : ∀ n ∈ ns, n < 2 ^ 32) : takeNums ns.length (toks ++ ts) = some (ns, ts) := by
  induction h with
  | nil => rfl
  | cons hd _ ih =>
    rw [List.length_cons, takeNums, List.cons_append, nextNum_eq hd (hn _ List.mem_cons_self)]
    simp only [Option.bind_some]
    rw [ih fun n hn' => hn n (List.mem_cons_of_mem _ hn')]
    rfl

theorem scanInputs_eq (lens : List Nat) (start : Nat) (h : start + lens.sum < 2 ^ 32) :
    ∃ inputs, scanInputs start lens = some inputs ∧ inputs.map List.length = lens ∧
      inputs.flatten = List.range' start lens.sum := by
  induction lens generalizing start with
  | nil => exact ⟨[], rfl, rfl, rfl⟩
  | cons v vs ih =>
    rw [List.sum_cons] at h
    obtain ⟨r, h1, h2, h3⟩ := ih (start + v) (by omega)
    refine ⟨List.range' start v :: r, ?_, ?_, ?_⟩
    · rw [scanInputs, if_pos (by omega), h1, Nat.add_sub_cancel]
      rfl
    · simp [h2]
    · rw [List.flatten_cons, h3, List.sum_cons, List.range'_append_1]

theorem scanOutputs_eq (lens : List Nat) (top : Nat) (h : lens.sum ≤ top) :
    ∃ outs, scanOutputs top lens = some outs ∧ outs.map List.length = lens ∧
      outs.reverse.flatten = List.range' (top - lens.sum) lens.sum := by
  induction lens generalizing top with
  | nil => exact ⟨[], rfl, rfl, rfl⟩
  | cons v vs ih =>
    rw [List.sum_cons] at h
    obtain ⟨r, h1, h2, h3⟩ := ih (top - v) (by omega)
    refine ⟨List.range' (top - v) v :: r, ?_, ?_, ?_⟩
    · rw [scanOutputs, if_pos (by omega)]
      simp only
      rw [h1]
      rfl
    · simp [h2]
    · rw [List.reverse_cons, List.flatten_append, h3, List.sum_cons]
      simp only [List.flatten_cons, List.flatten_nil, List.append_nil]
      rw [show top - (v + vs.sum) = top - v - vs.sum by omega]
      rw [show List.range' (top - v) v = List.range' (top - v - vs.sum + vs.sum) v by
        congr 1; omega, List.range'_append_1, Nat.add_comm v]

theorem readLine_line (line rest : List Char) (h : '\n' ∉ line) :
    readLine (line ++ '\n' :: rest) = (line ++ ['\n'], rest) := by
  induction line with
  | nil => simp [readLine]
  | cons c cs ih =>
    simp only [List.mem_cons, not_or] at h
    rw [List.cons_append, readLine, if_neg (fun hc => h.1 hc.symm), ih h.2]
    simp

theorem readLine_last (line : List Char) (h : '\n' ∉ line) : readLine line = (line, []) := by
  induction line with
  | nil => rfl
  | cons c cs ih =>
    simp only [List.mem_cons, not_or] at h
    rw [readLine, if_neg (fun hc => h.1 hc.symm), ih h.2]

theorem layout_newline {toks : List (List Char)} {cs : List Char} (h : Layout toks cs) :
    Layout toks (cs ++ ['\n']) := by
  induction h with
  | nil ws hws =>
    refine .nil _ ?_
    intro c hc
    rcases List.mem_append.1 hc with hc | hc
    · exact hws c hc
    · simp only [List.mem_singleton] at hc
      subst hc
      simp [Blank]
  | cons ws tok rest toks hws hne htok hl hrest ih =>
    rw [List.append_assoc (ws ++ tok)]
    refine .cons ws tok _ toks hws hne htok ih ?_
    right
    rcases hrest with rfl | ⟨c, r, rfl, hc⟩
    · exact ⟨'\n', [], rfl, by simp [Blank]⟩
    · exact ⟨c, r ++ ['\n'], rfl, hc⟩

theorem forall₂_append_inv {α β : Type} {R : α → β → Prop} {l1 l2 : List α} {m : List β}
    (h : List.Forall₂ R (l1 ++ l2) m) :
    ∃ m1 m2, m = m1 ++ m2 ∧ List.Forall₂ R l1 m1 ∧ List.Forall₂ R l2 m2 := by
  induction l1 generalizing m with
  | nil => exact ⟨[], m, rfl, .nil, h⟩
  | cons a l1 ih =>
    cases h with
    | cons h1 h2 =>
      obtain ⟨m1, m2, rfl, e1, e2⟩ := ih h2
      exact ⟨_ :: m1, m2, rfl, .cons h1 e1, e2⟩

theorem parseGate_eq {g : Gate} {line : List Char} {nums : List (List Char)}
    (hn : List.Forall₂ Denotes (g.fanIn :: 1 :: g.wires) nums) (hw : ∀ w ∈ g.wires, w < 2 ^ 32)
    (hl : Layout (nums ++ [g.name]) line) : parseGate line = some g := by
  unfold parseGate
  simp only
  rw [splitWs_layout hl]
  simp only [List.getLast?_append, List.getLast?_singleton, Option.some_or, Option.bind_some,
    List.dropLast_append_of_ne_nil (List.cons_ne_nil g.name []), List.dropLast_singleton,
    List.append_nil]
  cases hn with
  | cons h1 hn =>
  cases hn with
  | cons h2 hn =>
  have hsplit : g.wires = g.inWires ++ [g.outWire] := by cases g <;> rfl
  have hlen : g.inWires.length = g.fanIn := by cases g <;> rfl
  have hfan : g.fanIn < 2 ^ 32 := by cases g <;> simp [Gate.fanIn]
  rw [hsplit] at hn hw
  obtain ⟨m1, m2, rfl, e1, e2⟩ := forall₂_append_inv hn
  cases e2 with
  | cons e2 e3 =>
  cases e3
  rw [nextNum_eq h1 hfan]
  simp only [Option.bind_some]
  rw [nextNum_eq h2 (by norm_num)]
  simp only [Option.bind_some]
  rw [← hlen, takeNums_eq e1 (fun n hn => hw n (by simp [hn]))]
  simp only [Option.bind_some]
  rw [nextNum_eq e2 (hw _ (by simp))]
  simp only [Option.bind_some]
  have hv2 : ∀ v : Vector Nat 2, #v[v[0], v[1]] = v := by
    intro v
    ext i hi
    match i, hi with
    | 0, _ => rfl
    | 1, _ => rfl
  have hv1 : ∀ v : Vector Nat 1, #v[v[0]] = v := by
    intro v
    ext i hi
    match i, hi with
    | 0, _ => rfl
  rcases g with ⟨i, o⟩ | ⟨i, o⟩ | ⟨i, o⟩
  · simp [mkGate, Gate.name, Gate.inWires, Gate.outWire, hv2]
  · simp [mkGate, Gate.name, Gate.inWires, Gate.outWire, hv2]
  · simp [mkGate, Gate.name, Gate.inWires, Gate.outWire, hv1]

theorem parseGates_eq {gs : List Gate} {cs : List Char} (h : GateLines gs cs)
    (hw : ∀ g ∈ gs, ∀ w ∈ g.wires, w < 2 ^ 32) : parseGates gs.length cs = some gs := by
  induction h with
  | nil rest => rfl
  | last g line hg =>
    obtain ⟨hnl, nums, h1, h2⟩ := hg
    rw [List.length_singleton, parseGates, readLine_last line hnl,
      parseGate_eq h1 (hw g List.mem_cons_self) h2]
    rfl
  | cons g line gs rest hg hl ih =>
    obtain ⟨hnl, nums, h1, h2⟩ := hg
    rw [List.length_cons, parseGates, readLine_line line rest hnl,
      parseGate_eq h1 (hw g List.mem_cons_self) (layout_newline h2)]
    simp only [Option.bind_some]
    rw [ih fun g hg => hw g (List.mem_cons_of_mem _ hg)]
    rfl

/-! ## Evaluation -/

/-- A wire vector as an assignment. -/
def look (w : List Bool) (i : Nat) : Bool := w[i]?.getD false

theorem setWire_eq {w : List Bool} {i : Nat} {v : Bool} (h : i < w.length) :
    setWire w i v = some (w.set i v) := if_pos h

theorem look_set_self {w : List Bool} {i : Nat} {v : Bool} (h : i < w.length) :
    look (w.set i v) i = v := by
  simp [look, h]

theorem look_set_ne {w : List Bool} {i j : Nat} {v : Bool} (h : i ≠ j) :
    look (w.set i v) j = look w j := by
  simp [look, h]

theorem getElem?_look {w : List Bool} {i : Nat} (h : i < w.length) : w[i]? = some (look w i) := by
  simp [look, h]

theorem setWires_eq (w : List Bool) (ps : List (Nat × Bool)) (hr : ∀ p ∈ ps, p.1 < w.length)
    (hn : (ps.map Prod.fst).Nodup) :
    ∃ w', setWires w ps = some w' ∧ w'.length = w.length ∧ (∀ p ∈ ps, look w' p.1 = p.2) ∧
      ∀ i, i ∉ ps.map Prod.fst → look w' i = look w i := by
  induction ps generalizing w with
  | nil => exact ⟨w, rfl, rfl, by simp, by simp⟩
  | cons p ps ih =>
    obtain ⟨i, v⟩ := p
    simp only [List.map_cons, List.nodup_cons] at hn
    have hi : i < w.length := hr (i, v) List.mem_cons_self
    obtain ⟨w', h1, h2, h3, h4⟩ := ih (w.set i v)
      (fun p hp => by rw [List.length_set]; exact hr p (List.mem_cons_of_mem _ hp)) hn.2
    refine ⟨w', ?_, by rw [h2, List.length_set], ?_, ?_⟩
    · rw [setWires, setWire_eq hi]; exact h1
    · intro p hp
      rcases List.mem_cons.1 hp with rfl | hp
      · rw [h4 i hn.1, look_set_self hi]
      · exact h3 p hp
    · intro j hj
      simp only [List.map_cons, List.mem_cons, not_or] at hj
      rw [h4 j hj.2, look_set_ne (fun h => hj.1 h.symm)]

/-- The value a gate's output must have. -/
def gateVal (a : Nat → Bool) : Gate → Bool
  | .xor g => xor (a g.inp[0]) (a g.inp[1])
  | .and g => a g.inp[0] && a g.inp[1]
  | .inv g => !(a g.inp[0])

theorem gateEq_iff (a : Nat → Bool) (g : Gate) : GateEq a g ↔ a g.outWire = gateVal a g := by
  cases g <;> rfl

theorem gateVal_congr {a b : Nat → Bool} {g : Gate} (h : ∀ w ∈ g.inWires, a w = b w) :
    gateVal a g = gateVal b g := by
  cases g <;> simp_all [gateVal, Gate.inWires]

theorem evalGate_eq (w : List Bool) (g : Gate) (hi : ∀ x ∈ g.inWires, x < w.length)
    (ho : g.outWire < w.length) : evalGate w g = some (w.set g.outWire (gateVal (look w) g)) := by
  cases g <;> simp only [Gate.inWires, List.mem_cons, List.not_mem_nil, or_false, forall_eq_or_imp,
    forall_eq] at hi <;> simp only [Gate.outWire] at ho
  · rw [evalGate, getElem?_look hi.1, getElem?_look hi.2]
    simp only [Option.bind_some]
    rw [setWire_eq ho]; rfl
  · rw [evalGate, getElem?_look hi.1, getElem?_look hi.2]
    simp only [Option.bind_some]
    rw [setWire_eq ho]; rfl
  · rw [evalGate, getElem?_look hi]
    simp only [Option.bind_some]
    rw [setWire_eq ho]; rfl

theorem evalGates_eq (w : List Bool) (gs : List Gate) (known : List Nat)
    (hk : ∀ x ∈ known, x < w.length) (ho : ∀ g ∈ gs, g.outWire < w.length)
    (ht : Topological known gs) :
    ∃ w', evalGates w gs = some w' ∧ w'.length = w.length ∧ (∀ x ∈ known, look w' x = look w x) ∧
      ∀ g ∈ gs, GateEq (look w') g := by
  induction gs generalizing w known with
  | nil => exact ⟨w, rfl, rfl, fun _ _ => rfl, by simp⟩
  | cons g gs ih =>
    obtain ⟨h1, h2, h3⟩ := ht
    have hog := ho g List.mem_cons_self
    obtain ⟨w', e1, e2, e3, e4⟩ := ih (w.set g.outWire (gateVal (look w) g)) (g.outWire :: known)
      (by
        intro x hx
        rw [List.length_set]
        rcases List.mem_cons.1 hx with rfl | hx
        · exact hog
        · exact hk x hx)
      (fun g' hg' => by rw [List.length_set]; exact ho g' (List.mem_cons_of_mem _ hg')) h3
    have hsame : ∀ x ∈ known, look w' x = look w x := by
      intro x hx
      rw [e3 x (List.mem_cons_of_mem _ hx), look_set_ne]
      rintro rfl
      exact h2 hx
    refine ⟨w', ?_, by rw [e2, List.length_set], hsame, ?_⟩
    · rw [evalGates, evalGate_eq w g (fun x hx => hk x (h1 x hx)) hog]
      exact e1
    · intro g' hg'
      rcases List.mem_cons.1 hg' with rfl | hg'
      · rw [gateEq_iff, e3 _ List.mem_cons_self, look_set_self hog]
        exact gateVal_congr fun x hx => (hsame x (h1 x hx)).symm
      · exact e4 g' hg'

/-- Two assignments satisfying the same gates and agreeing on the known wires agree on driven wires. -/
theorem topological_unique {a b : Nat → Bool} {known : List Nat} {gs : List Gate}
    (ht : Topological known gs) (hk : ∀ x ∈ known, a x = b x) (ha : ∀ g ∈ gs, GateEq a g)
    (hb : ∀ g ∈ gs, GateEq b g) : ∀ g ∈ gs, a g.outWire = b g.outWire := by
  induction gs generalizing known with
  | nil => simp
  | cons g gs ih =>
    obtain ⟨h1, h2, h3⟩ := ht
    have hg : a g.outWire = b g.outWire := by
      rw [(gateEq_iff a g).1 (ha g List.mem_cons_self), (gateEq_iff b g).1 (hb g List.mem_cons_self)]
      exact gateVal_congr fun x hx => hk x (h1 x hx)
    intro g' hg'
    rcases List.mem_cons.1 hg' with rfl | hg'
    · exact hg
    · refine ih h3 ?_ (fun g hg => ha g (List.mem_cons_of_mem _ hg))
        (fun g hg => hb g (List.mem_cons_of_mem _ hg)) g' hg'
      intro x hx
      rcases List.mem_cons.1 hx with rfl | hx
      · exact hg
      · exact hk x hx

theorem map_eq_of_flatten {a b : Nat → Bool} {l : List (List Nat)}
    (h : ∀ x ∈ l.flatten, a x = b x) : l.map (fun ws => ws.map a) = l.map (fun ws => ws.map b) := by
  apply List.map_congr_left
  intro ws hws
  apply List.map_congr_left
  intro x hx
  exact h x (List.mem_flatten.2 ⟨ws, hws, hx⟩)

theorem eq_of_map_eq {a b : Nat → Bool} {l : List (List Nat)}
    (h : l.map (fun ws => ws.map a) = l.map (fun ws => ws.map b)) :
    ∀ x ∈ l.flatten, a x = b x := by
  intro x hx
  obtain ⟨ws, hws, hx⟩ := List.mem_flatten.1 hx
  have := List.map_inj_left.1 h ws hws
  exact List.map_inj_left.1 this x hx

theorem map_of_zip {a : Nat → Bool} (ws : List Nat) (vs : List Bool) (hlen : vs.length = ws.length)
    (hz : ∀ p ∈ List.zip ws vs, a p.1 = p.2) : ws.map a = vs := by
  induction ws generalizing vs with
  | nil =>
    have : vs = [] := by simpa using hlen
    simp [this]
  | cons w ws ihw =>
    match vs, hlen with
    | v :: vs, hlen =>
      rw [List.map_cons, ihw vs (by simpa using hlen)
        (fun p hp => hz p (by rw [List.zip_cons_cons]; exact List.mem_cons_of_mem _ hp))]
      have := hz (w, v) (by simp)
      simp only at this
      rw [this]

/-- The pairs (input wire, value). -/
theorem zip_inputs (inputs : List (List Nat)) (ins : List (List Bool))
    (h : ins.map List.length = inputs.map List.length) :
    let ps := (List.zip inputs ins).flatMap fun p => List.zip p.1 p.2
    ps.map Prod.fst = inputs.flatten ∧
      ∀ a : Nat → Bool, (∀ p ∈ ps, a p.1 = p.2) → inputs.map (fun ws => ws.map a) = ins := by
  induction inputs generalizing ins with
  | nil =>
    have : ins = [] := by simpa using h
    subst this
    simp
  | cons ws inputs ih =>
    match ins, h with
    | vs :: ins, h =>
      simp only [List.map_cons, List.cons.injEq] at h
      obtain ⟨h1, h2⟩ := ih ins h.2
      simp only at h1 h2 ⊢
      rw [List.zip_cons_cons, List.flatMap_cons]
      constructor
      · rw [List.map_append, h1, List.map_fst_zip (le_of_eq h.1.symm)]
        simp
      · intro a ha
        rw [List.map_cons, h2 a fun p hp => ha p (List.mem_append_right _ hp)]
        congr 1
        have hz : ∀ p ∈ List.zip ws vs, a p.1 = p.2 := fun p hp => ha p (List.mem_append_left _ hp)
        exact map_of_zip ws vs h.1 hz

/-! ## Packing -/

theorem chunks_eq {α : Type} (k : Nat) (l : List α) (hk : k ≠ 0) :
    chunks k l = if l = [] then [] else l.take k :: chunks k (l.drop k) := by
  rw [chunks]
  by_cases hl : l = [] <;> simp [hl, hk]

theorem chunks_flatten {α : Type} (k : Nat) (l : List α) (hk : k ≠ 0) : (chunks k l).flatten = l := by
  induction h : l.length using Nat.strong_induction_on generalizing l with
  | _ n ih =>
    rw [chunks_eq k l hk]
    split
    · simp_all
    · rename_i hl
      have : l.length ≠ 0 := by simpa using hl
      rw [List.flatten_cons, ih (l.drop k).length (by simp; omega) _ rfl, List.take_append_drop]

theorem chunks_length {α : Type} (k : Nat) (l : List α) (hk : k ≠ 0) :
    (chunks k l).length = (l.length + k - 1) / k := by
  induction h : l.length using Nat.strong_induction_on generalizing l with
  | _ n ih =>
    rw [chunks_eq k l hk]
    split
    · rename_i hl
      subst hl
      simp only [List.length_nil] at h ⊢
      subst h
      rw [Nat.div_eq_of_lt (by omega)]
    · rename_i hl
      have hne : l.length ≠ 0 := by simpa using hl
      rw [List.length_cons, ih (l.drop k).length (by simp; omega) _ rfl, List.length_drop]
      by_cases hlk : l.length ≤ k
      · rw [show l.length - k + k - 1 = k - 1 by omega, Nat.div_eq_of_lt (by omega : k - 1 < k)]
        rw [show n + k - 1 = n - 1 + k by omega, Nat.add_div_right _ (by omega),
          Nat.div_eq_of_lt (by omega)]
      · rw [show n + k - 1 = (l.length - k + k - 1) + k by omega, Nat.add_div_right _ (by omega)]

/-- Every chunk but the last is full, the last is not empty. -/
theorem chunks_sizes {α : Type} (k : Nat) (l : List α) (hk : k ≠ 0) :
    (∀ c ∈ chunks k l, 1 ≤ c.length ∧ c.length ≤ k) ∧ ∀ c ∈ (chunks k l).dropLast, c.length = k := by
  induction h : l.length using Nat.strong_induction_on generalizing l with
  | _ n ih =>
    rw [chunks_eq k l hk]
    split
    · simp
    · rename_i hl
      have hne : l.length ≠ 0 := by simpa using hl
      obtain ⟨h1, h2⟩ := ih (l.drop k).length (by simp; omega) _ rfl
      constructor
      · intro c hc
        rcases List.mem_cons.1 hc with rfl | hc
        · rw [List.length_take]; omega
        · exact h1 c hc
      · intro c hc
        by_cases he : chunks k (l.drop k) = []
        · rw [he] at hc; simp at hc
        · rw [List.dropLast_cons_of_ne_nil he] at hc
          rcases List.mem_cons.1 hc with rfl | hc
          · have : l.drop k ≠ [] := by
              intro hd
              rw [hd, chunks_eq k [] hk] at he
              simp at he
            have : (l.drop k).length ≠ 0 := fun h0 => this (List.length_eq_zero_iff.1 h0)
            rw [List.length_drop] at this
            rw [List.length_take]; omega
          · exact h2 c hc

theorem sortGates_perm {N : Nat} (gs : List (GateInfo N)) : (sortGates gs).Perm gs :=
  List.perm_insertionSort _ _

theorem packGateInfo_some {N : Nat} {k : Nat} {gs : List (GateInfo N)} {ps : List (PackedGateInfo N)}
    (h : packGateInfo k gs = some ps) :
    k ≠ 0 ∧ ps = (chunks k (sortGates gs)).map PackedGateInfo.ofGates := by
  unfold packGateInfo chunks? at h
  split at h
  · simp at h
  · rename_i hk
    simp only [Option.map_some, Option.some.injEq] at h
    exact ⟨hk, h.symm⟩

theorem pack_some {c : Circuit} {k : Nat} {p : PackedCircuit} (h : c.pack k = some p) :
    k ≠ 0 ∧ p.gates = (chunks k (sortGates (andGates c.gates))).map (fun g => .and (.ofGates g))
      ++ (chunks k (sortGates (xorGates c.gates))).map (fun g => .xor (.ofGates g))
      ++ (chunks k (sortGates (invGates c.gates))).map (fun g => .inv (.ofGates g)) ∧
    p.inputs = chunks k c.inputs.flatten ∧ p.outputs = chunks k c.outputs.flatten ∧
    p.numWires = c.numWires ∧ p.gatesPerBlock = k := by
  unfold Circuit.pack at h
  obtain ⟨as, ha, h⟩ := Option.bind_eq_some_iff.1 h
  obtain ⟨xs, hx, h⟩ := Option.bind_eq_some_iff.1 h
  obtain ⟨is, hi, h⟩ := Option.bind_eq_some_iff.1 h
  obtain ⟨inputs, hin, h⟩ := Option.bind_eq_some_iff.1 h
  obtain ⟨outputs, hout, h⟩ := Option.map_eq_some_iff.1 h
  obtain ⟨hk, rfl⟩ := packGateInfo_some ha
  obtain ⟨_, rfl⟩ := packGateInfo_some hx
  obtain ⟨_, rfl⟩ := packGateInfo_some hi
  unfold chunks? at hin hout
  rw [if_neg hk] at hin hout
  injection hin with hin
  injection hout with hout
  subst h hin hout
  refine ⟨hk, ?_, rfl, rfl, rfl, rfl⟩
  simp [List.map_map, Function.comp_def]

theorem gates_perm_kinds (gs : List Gate) :
    ((andGates gs).map Gate.and ++ (xorGates gs).map Gate.xor ++ (invGates gs).map Gate.inv).Perm gs := by
  induction gs with
  | nil => simp [andGates, xorGates, invGates]
  | cons g gs ih =>
    rcases g with g | g | g
    · have h1 : andGates (.xor g :: gs) = andGates gs := rfl
      have h2 : xorGates (.xor g :: gs) = g :: xorGates gs := rfl
      have h3 : invGates (.xor g :: gs) = invGates gs := rfl
      rw [h1, h2, h3, List.map_cons]
      refine List.Perm.trans ?_ (ih.cons (Gate.xor g))
      rw [List.append_assoc, List.cons_append]
      refine List.perm_middle.trans ?_
      rw [List.append_assoc]
    · have h1 : andGates (.and g :: gs) = g :: andGates gs := rfl
      have h2 : xorGates (.and g :: gs) = xorGates gs := rfl
      have h3 : invGates (.and g :: gs) = invGates gs := rfl
      rw [h1, h2, h3, List.map_cons]
      exact ih.cons (Gate.and g)
    · have h1 : andGates (.inv g :: gs) = andGates gs := rfl
      have h2 : xorGates (.inv g :: gs) = xorGates gs := rfl
      have h3 : invGates (.inv g :: gs) = g :: invGates gs := rfl
      rw [h1, h2, h3, List.map_cons]
      exact List.perm_middle.trans (ih.cons (Gate.inv g))

end Verif
