import Verif.CircuitLemmas
import Mathlib.Data.Prod.Lex
import Mathlib.Algebra.Order.BigOperators.Group.List

/-!
# Properties C21-C25 (and C67-C69): circuits (`src/circuit.rs`)
-/

namespace Verif.Props

/-! ### C21: parsing -/

/-- C21, everything except the order of the outputs: every Bristol fashion file is accepted; the gates are
those of the file in order, the inputs are consecutive wires from 0 and the outputs are the last wires,
but listed in reverse. -/
theorem C21_parse_partial (d : BristolDesc) (hv : d.Valid) (cs : List Char) (hf : IsBristolFile d cs) :
    ∃ c, fromBristol cs = some c ∧ c.gates = d.gates ∧ c.numWires = d.numWires ∧
      c.inputs.map List.length = d.inpLens ∧ c.inputs.flatten = List.range d.inpLens.sum ∧
      c.outputs.reverse.map List.length = d.outLens ∧
      c.outputs.reverse.flatten = List.range' (d.numWires - d.outLens.sum) d.outLens.sum := by
  obtain ⟨l1, l2, l3, l4, rest, rfl, hnl, ⟨nums, hnums, hlay⟩, hg⟩ := hf
  simp only [List.mem_cons, List.not_mem_nil, or_false, forall_eq_or_imp, forall_eq] at hnl
  have hi : ∀ n ∈ d.inpLens, n < 2 ^ 32 := fun n hn => by
    have := List.le_sum_of_mem hn
    have := hv.inputs; have := hv.wires; omega
  have ho : ∀ n ∈ d.outLens, n < 2 ^ 32 := fun n hn => by
    have := List.le_sum_of_mem hn
    have := hv.outputs; have := hv.wires; omega
  unfold BristolDesc.header at hnums
  rw [List.append_assoc, List.append_assoc] at hnums
  obtain ⟨m1, m2, rfl, e1, hnums⟩ := forall₂_append_inv hnums
  obtain ⟨m2, m3, rfl, e2, hnums⟩ := forall₂_append_inv hnums
  obtain ⟨m3, m4, rfl, e3, e4⟩ := forall₂_append_inv hnums
  cases e1 with
  | cons a1 e1 =>
  cases e1 with
  | cons a2 e1 =>
  cases e1 with
  | cons a3 e1 =>
  cases e1
  cases e3 with
  | cons b1 e3 =>
  cases e3
  obtain ⟨inputs, i1, i2, i3⟩ := scanInputs_eq d.inpLens 0 (by
    have := hv.inputs; have := hv.wires; omega)
  obtain ⟨outs, o1, o2, o3⟩ := scanOutputs_eq d.outLens.reverse d.numWires (by
    rw [List.sum_reverse]; exact hv.outputs)
  refine ⟨⟨d.gates, inputs, outs, d.numWires⟩, ?_, rfl, rfl, i2, ?_, ?_, ?_⟩
  · unfold fromBristol
    simp only
    rw [readLine_line l1 _ hnl.1]
    simp only
    rw [readLine_line l2 _ hnl.2.1]
    simp only
    rw [readLine_line l3 _ hnl.2.2.1]
    simp only
    rw [readLine_line l4 _ hnl.2.2.2]
    simp only
    have hmeta : l1 ++ ['\n'] ++ (l2 ++ ['\n']) ++ (l3 ++ ['\n']) ++ (l4 ++ ['\n'])
        = l1 ++ '\n' :: (l2 ++ '\n' :: (l3 ++ '\n' :: (l4 ++ ['\n']))) := by simp
    rw [hmeta, splitWs_layout hlay]
    simp only [List.cons_append, List.nil_append]
    rw [nextNum_eq a1 hv.numGates]
    simp only [Option.bind_some]
    rw [nextNum_eq a2 hv.wires]
    simp only [Option.bind_some]
    rw [nextNum_eq a3 hv.numInp]
    simp only [Option.bind_some]
    rw [takeNums_eq e2 hi]
    simp only [Option.bind_some]
    rw [i1]
    simp only [Option.bind_some]
    rw [nextNum_eq b1 hv.numOut]
    simp only [Option.bind_some]
    rw [← List.append_nil m4, takeNums_eq e4 ho]
    simp only [Option.bind_some]
    rw [o1]
    simp only [Option.bind_some]
    rw [parseGates_eq hg (fun g hg w hw => by
      have := hv.gates g hg w hw; have := hv.wires; omega)]
    rfl
  · rw [i3, List.range_eq_range']
  · rw [List.map_reverse, o2, List.reverse_reverse]
  · rw [o3, List.sum_reverse]

/-- C21. With at most one output value the outputs are as described. -/
theorem C21_single_output (d : BristolDesc) (hv : d.Valid) (cs : List Char) (hf : IsBristolFile d cs)
    (h1 : d.outLens.length ≤ 1) :
    ∃ c, fromBristol cs = some c ∧ c.outputs.map List.length = d.outLens ∧
      c.outputs.flatten = List.range' (d.numWires - d.outLens.sum) d.outLens.sum := by
  obtain ⟨c, e, _, _, _, _, h2, h3⟩ := C21_parse_partial d hv cs hf
  refine ⟨c, e, ?_⟩
  have hl : c.outputs.length ≤ 1 := by
    have := congrArg List.length h2
    simp at this
    omega
  have hr : c.outputs.reverse = c.outputs := by
    match hc : c.outputs, hl with
    | [], _ => rfl
    | [_], _ => rfl
  rw [hr] at h2 h3
  exact ⟨h2, h3⟩

/-- Tokens joined by single spaces. -/
def joinToks : List (List Char) → List Char
  | [] => []
  | t :: ts => t ++ ' ' :: joinToks ts

/-- The usual printed form of a description. -/
def printBristol (d : BristolDesc) : List Char :=
  let line := fun (ns : List Nat) => joinToks (ns.map fun n => Nat.toDigits 10 n)
  line [d.gates.length, d.numWires] ++ '\n' :: (line (d.inpLens.length :: d.inpLens) ++ '\n' ::
    (line (d.outLens.length :: d.outLens) ++ '\n' :: ([] ++ '\n' ::
      (d.gates.flatMap fun g => line (g.fanIn :: 1 :: g.wires) ++ g.name ++ ['\n']))))

theorem denotes_toDigits (n : Nat) : Denotes n (Nat.toDigits 10 n) :=
  ⟨Nat.toDigits_ne_nil, fun _ hc => Nat.isDigit_of_mem_toDigits (by norm_num) (by norm_num) hc,
    Nat.ofDigitChars_ten_toDigits⟩

theorem digit_not_blank {c : Char} (h : c.isDigit) : ¬ Blank c := by
  rintro (rfl | rfl | rfl | rfl | rfl) <;> exact absurd h (by decide)

theorem layout_joinToks (toks : List (List Char)) (h : ∀ t ∈ toks, t ≠ [] ∧ ∀ c ∈ t, ¬ Blank c)
    (more : List (List Char)) (rest : List Char) (hm : Layout more rest) :
    Layout (toks ++ more) (joinToks toks ++ rest) := by
  induction toks with
  | nil => exact hm
  | cons t ts ih =>
    have ih := ih fun t ht => h t (List.mem_cons_of_mem _ ht)
    have hs : ∀ {a : List (List Char)} {b : List Char}, Layout a b → Layout a (' ' :: b) := by
      intro a b hab
      cases hab with
      | nil ws hws =>
        refine .nil _ fun c hc => ?_
        rcases List.mem_cons.1 hc with rfl | hc
        · exact Or.inl rfl
        · exact hws c hc
      | cons ws tok rest toks hws hne htok hl hrest =>
        have := Layout.cons (' ' :: ws) tok rest toks (fun c hc => by
          rcases List.mem_cons.1 hc with rfl | hc
          · exact Or.inl rfl
          · exact hws c hc) hne htok hl hrest
        simpa using this
    have := Layout.cons [] t (' ' :: (joinToks ts ++ rest)) (ts ++ more) (by simp)
      (h t List.mem_cons_self).1 (h t List.mem_cons_self).2 (hs ih)
      (Or.inr ⟨' ', _, rfl, Or.inl rfl⟩)
    simpa [joinToks] using this

theorem toks_ok (ns : List Nat) : ∀ t ∈ ns.map (fun n => Nat.toDigits 10 n), t ≠ [] ∧ ∀ c ∈ t, ¬ Blank c := by
  intro t ht
  obtain ⟨n, _, rfl⟩ := List.mem_map.1 ht
  exact ⟨(denotes_toDigits n).1, fun c hc => digit_not_blank ((denotes_toDigits n).2.1 c hc)⟩

theorem forall₂_toDigits (ns : List Nat) : List.Forall₂ Denotes ns (ns.map fun n => Nat.toDigits 10 n) := by
  induction ns with
  | nil => exact .nil
  | cons n ns ih => exact .cons (denotes_toDigits n) ih

theorem newline_not_mem_join (toks : List (List Char)) (h : ∀ t ∈ toks, ∀ c ∈ t, ¬ Blank c) :
    '\n' ∉ joinToks toks := by
  induction toks with
  | nil => simp [joinToks]
  | cons t ts ih =>
    simp only [joinToks, List.mem_append, List.mem_cons, not_or]
    refine ⟨fun hc => h t List.mem_cons_self _ hc (by simp [Blank]), by decide,
      ih fun t ht => h t (List.mem_cons_of_mem _ ht)⟩

/-- The printed form is a Bristol fashion file, so the theorems above apply to every description. -/
theorem C21_printed_is_file (d : BristolDesc) : IsBristolFile d (printBristol d) := by
  have hgate : ∀ g : Gate, GateLine g (joinToks ((g.fanIn :: 1 :: g.wires).map fun n => Nat.toDigits 10 n)
      ++ g.name) := by
    intro g
    have hname : g.name ≠ [] ∧ ∀ c ∈ g.name, ¬ Blank c := by
      cases g <;> simp [Gate.name, Blank]
    refine ⟨?_, _, forall₂_toDigits _, ?_⟩
    · rw [List.mem_append, not_or]
      refine ⟨newline_not_mem_join _ fun t ht => (toks_ok _ t ht).2, fun hc => hname.2 _ hc (by simp [Blank])⟩
    · have h1 : Layout [g.name] g.name := by
        have := Layout.cons [] g.name [] [] (by simp) hname.1 hname.2 (.nil [] (by simp)) (Or.inl rfl)
        simpa using this
      exact layout_joinToks _ (toks_ok _) _ _ h1
  have hgates : ∀ gs : List Gate, GateLines gs (gs.flatMap fun g =>
      joinToks ((g.fanIn :: 1 :: g.wires).map fun n => Nat.toDigits 10 n) ++ g.name ++ ['\n']) := by
    intro gs
    induction gs with
    | nil => exact .nil _
    | cons g gs ih =>
      have := GateLines.cons g _ gs _ (hgate g) ih
      simpa using this
  have hline : ∀ ns : List Nat, '\n' ∉ joinToks (ns.map fun n => Nat.toDigits 10 n) :=
    fun ns => newline_not_mem_join _ fun t ht => (toks_ok _ t ht).2
  refine ⟨_, _, _, [], _, rfl, ?_, ⟨_, forall₂_toDigits _, ?_⟩, hgates d.gates⟩
  · intro l hl
    simp only [List.mem_cons, List.not_mem_nil, or_false] at hl
    rcases hl with rfl | rfl | rfl | rfl
    · exact hline _
    · exact hline _
    · exact hline _
    · simp
  · have hnl : ∀ {a : List (List Char)} {b : List Char}, Layout a b → Layout a ('\n' :: b) := by
      intro a b hab
      cases hab with
      | nil ws hws =>
        refine .nil _ fun c hc => ?_
        rcases List.mem_cons.1 hc with rfl | hc
        · simp [Blank]
        · exact hws c hc
      | cons ws tok rest toks hws hne htok hl hrest =>
        have := Layout.cons ('\n' :: ws) tok rest toks (fun c hc => by
          rcases List.mem_cons.1 hc with rfl | hc
          · simp [Blank]
          · exact hws c hc) hne htok hl hrest
        simpa using this
    have h0 : Layout [] ['\n'] := .nil _ (by simp [Blank])
    have h3 := layout_joinToks _ (toks_ok (d.outLens.length :: d.outLens)) _ _ (hnl h0)
    have h2 := layout_joinToks _ (toks_ok (d.inpLens.length :: d.inpLens)) _ _ (hnl h3)
    have h1 := layout_joinToks _ (toks_ok [d.gates.length, d.numWires]) _ _ (hnl h2)
    have he : d.header.map (fun n => Nat.toDigits 10 n)
        = [d.gates.length, d.numWires].map (fun n => Nat.toDigits 10 n)
          ++ ((d.inpLens.length :: d.inpLens).map (fun n => Nat.toDigits 10 n)
          ++ ((d.outLens.length :: d.outLens).map (fun n => Nat.toDigits 10 n) ++ [])) := by
      simp [BristolDesc.header]
    rw [he]
    exact h1

/-- A half adder with two one-bit outputs. -/
def halfAdder : BristolDesc where
  numWires := 4
  inpLens := [1, 1]
  outLens := [1, 1]
  gates := [.xor ⟨#v[0, 1], 2⟩, .and ⟨#v[0, 1], 3⟩]

theorem halfAdder_valid : halfAdder.Valid := by
  constructor <;> decide

/-- C21 is false for two outputs: in the half adder the sum is wire 2 and the carry is wire 3, and the file
lists the sum first, but `outputs()` lists wire 3 first. -/
theorem C21_output_order_false : ∃ (d : BristolDesc) (cs : List Char) (c : Circuit), d.Valid ∧
    IsBristolFile d cs ∧ fromBristol cs = some c ∧
    c.outputs.flatten ≠ List.range' (d.numWires - d.outLens.sum) d.outLens.sum := by
  refine ⟨halfAdder, printBristol halfAdder,
    ⟨halfAdder.gates, [[0], [1]], [[3], [2]], 4⟩, halfAdder_valid, C21_printed_is_file _, ?_, ?_⟩
  · decide +kernel
  · decide

example : fromBristol "2 4\n2 1 1\n1 2\n\n2 1 0 1 2 XOR\n2 1  0 1 3 AND".toList
    = some ⟨[.xor ⟨#v[0, 1], 2⟩, .and ⟨#v[0, 1], 3⟩], [[0], [1]], [[2, 3]], 4⟩ := by
  decide +kernel

/-! ### C22: evaluation -/

/-- C22. For a well-formed circuit and inputs of the right lengths, `eval` succeeds; there is an
assignment satisfying inputs and gates, and every assignment satisfying the inputs and the gates, taken
in any order, has the returned values at the output wires. -/
theorem C22_eval (c : Circuit) (hc : c.WF) (ins : List (List Bool))
    (hl : ins.map List.length = c.inputs.map List.length) :
    ∃ outs, c.eval ins = some outs ∧ (∃ a, Sat c.inputs c.gates ins a) ∧
      ∀ gates' : List Gate, gates'.Perm c.gates → ∀ a, Sat c.inputs gates' ins a →
        outs = c.outputs.map fun ws => ws.map a := by
  obtain ⟨hz1, hz2⟩ := zip_inputs c.inputs ins hl
  obtain ⟨w, e1, e2, e3, e4⟩ := setWires_eq (List.replicate c.numWires false)
    ((List.zip c.inputs ins).flatMap fun p => List.zip p.1 p.2)
    (by
      intro p hp
      rw [List.length_replicate]
      refine hc.inRange p.1 ?_
      rw [← hz1]
      exact List.mem_map_of_mem hp)
    (by rw [hz1]; exact hc.inputsNodup)
  rw [List.length_replicate] at e2
  obtain ⟨w', f1, f2, f3, f4⟩ := evalGates_eq w c.gates c.inputs.flatten
    (fun x hx => by rw [e2]; exact hc.inRange x hx) (fun g hg => by rw [e2]; exact hc.gateRange g hg) hc.topo
  have hin : c.inputs.map (fun ws => ws.map (look w')) = ins := by
    rw [map_eq_of_flatten f3]
    exact hz2 _ e3
  have hout : ∀ x ∈ c.outputs.flatten, x < w'.length := by
    intro x hx
    rw [f2, e2]
    rcases hc.outputs x hx with h | ⟨g, hg, rfl⟩
    · exact hc.inRange x h
    · exact hc.gateRange g hg
  refine ⟨c.outputs.map fun ws => ws.map (look w'), ?_, ⟨look w', hin, f4⟩, ?_⟩
  · unfold Circuit.eval
    simp only
    rw [e1]
    simp only [Option.bind_some]
    rw [f1]
    simp only [Option.bind_some]
    have h1 : ∀ (ws : List Nat), (∀ x ∈ ws, x < w'.length) → ws.mapM (fun i => w'[i]?) = some (ws.map (look w')) := by
      intro ws hws
      induction ws with
      | nil => rfl
      | cons x ws ih =>
        rw [List.mapM_cons, getElem?_look (hws x List.mem_cons_self),
          ih fun y hy => hws y (List.mem_cons_of_mem _ hy)]
        rfl
    have h2 : ∀ (wss : List (List Nat)), (∀ x ∈ wss.flatten, x < w'.length) →
        wss.mapM (fun ws => ws.mapM fun i => w'[i]?) = some (wss.map fun ws => ws.map (look w')) := by
      intro wss hwss
      induction wss with
      | nil => rfl
      | cons ws wss ih =>
        rw [List.mapM_cons, h1 ws fun x hx => hwss x (by rw [List.flatten_cons]; exact List.mem_append_left _ hx),
          ih fun x hx => hwss x (by rw [List.flatten_cons]; exact List.mem_append_right _ hx)]
        rfl
    exact h2 _ hout
  · intro gates' hp a ⟨ha1, ha2⟩
    have hag : ∀ g ∈ c.gates, GateEq a g := fun g hg => ha2 g (hp.mem_iff.2 hg)
    have hk : ∀ x ∈ c.inputs.flatten, look w' x = a x := eq_of_map_eq (by rw [hin, ha1])
    have hu := topological_unique hc.topo hk f4 hag
    apply map_eq_of_flatten
    intro x hx
    rcases hc.outputs x hx with h | ⟨g, hg, rfl⟩
    · exact hk x h
    · exact hu g hg

/-- The half adder is well-formed and adds. -/
def halfAdderCircuit : Circuit := ⟨halfAdder.gates, [[0], [1]], [[2, 3]], 4⟩

theorem halfAdder_wf : halfAdderCircuit.WF := by
  constructor
  · decide
  · decide
  · decide
  · simp [halfAdderCircuit, halfAdder, Topological, Gate.inWires, Gate.outWire]
  · simp [halfAdderCircuit, halfAdder, Gate.outWire]

example : halfAdderCircuit.eval [[true], [true]] = some [[false, true]] := by decide +kernel

/-! ### C23: packing -/

/-- The gates of a packed gate, position by position. -/
def unpack : PackedGate → List Gate
  | .xor g => List.zipWith (fun p o => .xor ⟨#v[p.1, p.2], o⟩) (List.zip g.inp[0] g.inp[1]) g.out
  | .and g => List.zipWith (fun p o => .and ⟨#v[p.1, p.2], o⟩) (List.zip g.inp[0] g.inp[1]) g.out
  | .inv g => List.zipWith (fun p o => .inv ⟨#v[p], o⟩) g.inp[0] g.out

/-- Number of gates in a block. -/
def blockSize : PackedGate → Nat
  | .xor g => g.out.length
  | .and g => g.out.length
  | .inv g => g.out.length

/-- All wire vectors of a block have the block's length. -/
def Aligned : PackedGate → Prop
  | .xor g => g.inp[0].length = g.out.length ∧ g.inp[1].length = g.out.length
  | .and g => g.inp[0].length = g.out.length ∧ g.inp[1].length = g.out.length
  | .inv g => g.inp[0].length = g.out.length

theorem unpack_xor (gs : List (GateInfo 2)) : unpack (.xor (.ofGates gs)) = gs.map .xor := by
  induction gs with
  | nil => rfl
  | cons g gs ih =>
    have hv : #v[g.inp[0], g.inp[1]] = g.inp := by
      ext i hi
      match i, hi with
      | 0, _ => rfl
      | 1, _ => rfl
    have : unpack (.xor (.ofGates (g :: gs))) = .xor ⟨#v[g.inp[0], g.inp[1]], g.out⟩ ::
        unpack (.xor (.ofGates gs)) := by
      simp [unpack, PackedGateInfo.ofGates]
    rw [this, ih, hv, List.map_cons]

theorem unpack_and (gs : List (GateInfo 2)) : unpack (.and (.ofGates gs)) = gs.map .and := by
  induction gs with
  | nil => rfl
  | cons g gs ih =>
    have hv : #v[g.inp[0], g.inp[1]] = g.inp := by
      ext i hi
      match i, hi with
      | 0, _ => rfl
      | 1, _ => rfl
    have : unpack (.and (.ofGates (g :: gs))) = .and ⟨#v[g.inp[0], g.inp[1]], g.out⟩ ::
        unpack (.and (.ofGates gs)) := by
      simp [unpack, PackedGateInfo.ofGates]
    rw [this, ih, hv, List.map_cons]

theorem unpack_inv (gs : List (GateInfo 1)) : unpack (.inv (.ofGates gs)) = gs.map .inv := by
  induction gs with
  | nil => rfl
  | cons g gs ih =>
    have hv : #v[g.inp[0]] = g.inp := by
      ext i hi
      match i, hi with
      | 0, _ => rfl
    have : unpack (.inv (.ofGates (g :: gs))) = .inv ⟨#v[g.inp[0]], g.out⟩ ::
        unpack (.inv (.ofGates gs)) := by
      simp [unpack, PackedGateInfo.ofGates]
    rw [this, ih, hv, List.map_cons]

/-- The blocks unpack to the sorted gates. -/
theorem unpack_all {c : Circuit} {k : Nat} {p : PackedCircuit} (h : c.pack k = some p) :
    p.gates.flatMap unpack = (sortGates (andGates c.gates)).map .and
      ++ (sortGates (xorGates c.gates)).map .xor ++ (sortGates (invGates c.gates)).map .inv := by
  obtain ⟨hk, hg, _⟩ := pack_some h
  rw [hg, List.flatMap_append, List.flatMap_append, List.flatMap_map, List.flatMap_map, List.flatMap_map]
  simp only [unpack_and, unpack_xor, unpack_inv]
  have hfl : ∀ {α β : Type} (f : α → β) (l : List (List α)), l.flatMap (fun x => x.map f) = l.flatten.map f := by
    intro α β f l
    rw [List.map_flatten, List.flatMap_def]
  rw [hfl, hfl, hfl, chunks_flatten _ _ hk, chunks_flatten _ _ hk, chunks_flatten _ _ hk]

/-- C23. Packing keeps every gate exactly once, in aligned blocks of between 1 and `k` gates. -/
theorem C23_partition (c : Circuit) (k : Nat) (p : PackedCircuit) (h : c.pack k = some p) :
    (p.gates.flatMap unpack).Perm c.gates ∧
    ∀ b ∈ p.gates, Aligned b ∧ 1 ≤ blockSize b ∧ blockSize b ≤ k := by
  constructor
  · rw [unpack_all h]
    refine List.Perm.trans ?_ (gates_perm_kinds c.gates)
    exact (((sortGates_perm _).map _).append ((sortGates_perm _).map _)).append ((sortGates_perm _).map _)
  · obtain ⟨hk, hg, _⟩ := pack_some h
    intro b hb
    rw [hg, List.mem_append, List.mem_append, List.mem_map, List.mem_map, List.mem_map] at hb
    rcases hb with (⟨g, hg, rfl⟩ | ⟨g, hg, rfl⟩) | ⟨g, hg, rfl⟩
    all_goals
      have := (chunks_sizes k _ hk).1 g hg
      simp [Aligned, blockSize, PackedGateInfo.ofGates, this]

/-- C23. AND blocks come first, then XOR, then INV; only the last block of each kind may be short. -/
theorem C23_homogeneous (c : Circuit) (k : Nat) (p : PackedCircuit) (h : c.pack k = some p) :
    ∃ as xs is, p.gates = as ++ xs ++ is ∧ (∀ b ∈ as, b.kind = .and) ∧ (∀ b ∈ xs, b.kind = .xor) ∧
      (∀ b ∈ is, b.kind = .inv) ∧ (∀ b ∈ as.dropLast, blockSize b = k) ∧
      (∀ b ∈ xs.dropLast, blockSize b = k) ∧ ∀ b ∈ is.dropLast, blockSize b = k := by
  obtain ⟨hk, hg, _⟩ := pack_some h
  refine ⟨_, _, _, hg, ?_, ?_, ?_, ?_, ?_, ?_⟩
  · intro b hb; obtain ⟨g, _, rfl⟩ := List.mem_map.1 hb; rfl
  · intro b hb; obtain ⟨g, _, rfl⟩ := List.mem_map.1 hb; rfl
  · intro b hb; obtain ⟨g, _, rfl⟩ := List.mem_map.1 hb; rfl
  all_goals
    intro b hb
    rw [← List.map_dropLast] at hb
    obtain ⟨g, hg, rfl⟩ := List.mem_map.1 hb
    have := (chunks_sizes k _ hk).2 g hg
    simp [blockSize, PackedGateInfo.ofGates, this]

/-- C23. Inputs and outputs are cut into blocks of `k` wires in order. -/
theorem C23_io (c : Circuit) (k : Nat) (p : PackedCircuit) (h : c.pack k = some p) :
    p.inputs.flatten = c.inputs.flatten ∧ p.outputs.flatten = c.outputs.flatten ∧
    (∀ b ∈ p.inputs, 1 ≤ b.length ∧ b.length ≤ k) ∧ (∀ b ∈ p.outputs, 1 ≤ b.length ∧ b.length ≤ k) ∧
    (∀ b ∈ p.inputs.dropLast, b.length = k) ∧ (∀ b ∈ p.outputs.dropLast, b.length = k) ∧
    p.numWires = c.numWires ∧ p.gatesPerBlock = k := by
  obtain ⟨hk, _, hi, ho, hn, hkk⟩ := pack_some h
  rw [hi, ho]
  exact ⟨chunks_flatten _ _ hk, chunks_flatten _ _ hk, (chunks_sizes k _ hk).1, (chunks_sizes k _ hk).1,
    (chunks_sizes k _ hk).2, (chunks_sizes k _ hk).2, hn, hkk⟩

/-- C23. `pack` panics exactly for block size 0. -/
theorem C23_pack_total (c : Circuit) (k : Nat) : (c.pack k).isSome ↔ k ≠ 0 := by
  unfold Circuit.pack packGateInfo chunks?
  by_cases hk : k = 0 <;> simp [hk]

/-- Three XOR gates in blocks of two. -/
def xorChain : Circuit where
  gates := [.xor ⟨#v[0, 1], 3⟩, .and ⟨#v[1, 2], 4⟩, .xor ⟨#v[3, 2], 5⟩, .inv ⟨#v[4], 6⟩, .xor ⟨#v[5, 6], 7⟩]
  inputs := [[0, 1], [2]]
  outputs := [[7]]
  numWires := 8

example : xorChain.pack 2 = some
    { gates := [.and ⟨#v[[1], [2]], [4]⟩, .xor ⟨#v[[0, 3], [1, 2]], [3, 5]⟩, .xor ⟨#v[[5], [6]], [7]⟩,
        .inv ⟨#v[[4]], [6]⟩]
      inputs := [[0, 1], [2]], outputs := [[7]], numWires := 8, gatesPerBlock := 2 } := by
  decide +kernel

/-! ### C24: packing preserves semantics -/

theorem packedGateEq_iff (a : Nat → Bool) (b : PackedGate) (hb : Aligned b) :
    PackedGateEq a b ↔ ∀ g ∈ unpack b, GateEq a g := by
  have h2 : ∀ (f : Nat → Nat → Bool) (mk : Nat → Nat → Nat → Gate) (x y o : List Nat),
      (∀ u v w, GateEq a (mk u v w) ↔ a w = f u v) → x.length = o.length → y.length = o.length →
      (o.map a = List.zipWith f x y ↔
        ∀ g ∈ List.zipWith (fun (p : Nat × Nat) o => mk p.1 p.2 o) (List.zip x y) o, GateEq a g) := by
    intro f mk x y o hmk
    induction o generalizing x y with
    | nil => intro hx hy; simp [List.length_eq_zero_iff.1 hx, List.length_eq_zero_iff.1 hy]
    | cons w o ih =>
      intro hx hy
      match x, y, hx, hy with
      | u :: x, v :: y, hx, hy =>
        have := ih x y (by simpa using hx) (by simpa using hy)
        simp only [List.map_cons, List.zipWith_cons_cons, List.zip_cons_cons, List.cons.injEq,
          List.mem_cons, forall_eq_or_imp, this, hmk]
  have h1 : ∀ (x o : List Nat), x.length = o.length →
      (o.map a = x.map (fun u => !(a u)) ↔
        ∀ g ∈ List.zipWith (fun p o => Gate.inv ⟨#v[p], o⟩) x o, GateEq a g) := by
    intro x o
    induction o generalizing x with
    | nil => intro hx; simp [List.length_eq_zero_iff.1 hx]
    | cons w o ih =>
      intro hx
      match x, hx with
      | u :: x, hx =>
        have := ih x (by simpa using hx)
        simp only [List.map_cons, List.zipWith_cons_cons, List.cons.injEq, List.mem_cons,
          forall_eq_or_imp, this]
        simp [GateEq]
  cases b with
  | xor g =>
    exact h2 (fun x y => xor (a x) (a y)) (fun u v w => .xor ⟨#v[u, v], w⟩) _ _ _
      (fun _ _ _ => Iff.rfl) hb.1 hb.2
  | and g =>
    exact h2 (fun x y => a x && a y) (fun u v w => .and ⟨#v[u, v], w⟩) _ _ _
      (fun _ _ _ => Iff.rfl) hb.1 hb.2
  | inv g => exact h1 _ _ hb

/-- C24. An assignment satisfies the packed gates exactly if it satisfies the original gates. -/
theorem C24_same_equations (c : Circuit) (k : Nat) (p : PackedCircuit) (h : c.pack k = some p)
    (a : Nat → Bool) : (∀ b ∈ p.gates, PackedGateEq a b) ↔ ∀ g ∈ c.gates, GateEq a g := by
  obtain ⟨hp, hb⟩ := C23_partition c k p h
  constructor
  · intro hpe g hg
    have := hp.mem_iff.2 hg
    obtain ⟨b, hbm, hgb⟩ := List.mem_flatMap.1 this
    exact (packedGateEq_iff a b (hb b hbm).1).1 (hpe b hbm) g hgb
  · intro hge b hbm
    refine (packedGateEq_iff a b (hb b hbm).1).2 fun g hg => hge g ?_
    exact hp.mem_iff.1 (List.mem_flatMap.2 ⟨b, hbm, hg⟩)

/-- C24. For well-formed circuits the packed circuit, whose gates are not in topological order, still
determines all outputs: a satisfying assignment exists, and every one has the values `eval` returns at the
packed outputs. -/
theorem C24_semantics (c : Circuit) (hc : c.WF) (k : Nat) (p : PackedCircuit) (h : c.pack k = some p)
    (ins : List (List Bool)) (hl : ins.map List.length = c.inputs.map List.length) :
    ∃ outs, c.eval ins = some outs ∧
      (∃ a : Nat → Bool, p.inputs.flatten.map a = ins.flatten ∧ ∀ b ∈ p.gates, PackedGateEq a b) ∧
      ∀ a : Nat → Bool, p.inputs.flatten.map a = ins.flatten → (∀ b ∈ p.gates, PackedGateEq a b) →
        p.outputs.flatten.map a = outs.flatten := by
  obtain ⟨outs, e1, ⟨a, ha1, ha2⟩, e3⟩ := C22_eval c hc ins hl
  obtain ⟨hi, ho, _⟩ := C23_io c k p h
  have hflat : ∀ (a : Nat → Bool) (l : List (List Nat)), (l.map fun ws => ws.map a).flatten = l.flatten.map a := by
    intro a l; rw [List.map_flatten]
  refine ⟨outs, e1, ⟨a, ?_, (C24_same_equations c k p h a).2 ha2⟩, ?_⟩
  · rw [hi, ← hflat, ha1]
  · intro b hb1 hb2
    have hs : Sat c.inputs c.gates ins b := by
      refine ⟨?_, (C24_same_equations c k p h b).1 hb2⟩
      rw [hi, ← hflat] at hb1
      refine List.eq_iff_flatten_eq.2 ⟨hb1, ?_⟩
      rw [hl]
      simp
    rw [e3 c.gates (List.Perm.refl _) b hs, ho, hflat]

theorem xorChain_wf : xorChain.WF := by
  constructor
  · decide
  · decide
  · decide
  · simp [xorChain, Topological, Gate.inWires, Gate.outWire]
  · simp [xorChain, Gate.outWire]

/-- In the packed chain the XOR block of wire 7 precedes the INV block it depends on. -/
example : xorChain.WF ∧ (xorChain.pack 2).isSome := ⟨xorChain_wf, by decide +kernel⟩

/-! ### C25: counts -/

theorem countGate_foldl (gs : List PackedGate) (acc : Nat × Nat × Nat) :
    gs.foldl countGate acc = (acc.1 + (gs.filter (·.kind = .and)).length,
      acc.2.1 + (gs.filter (·.kind = .xor)).length, acc.2.2 + (gs.filter (·.kind = .inv)).length) := by
  induction gs generalizing acc with
  | nil => rfl
  | cons g gs ih =>
    rw [List.foldl_cons, ih]
    cases g <;> simp [countGate, PackedGate.kind, Nat.add_assoc, Nat.add_comm]

/-- Number of gates of a kind in a circuit. -/
def numKind (gs : List Gate) (κ : GateKind) : Nat :=
  (gs.filter fun g => match g with
    | .xor _ => κ = .xor
    | .and _ => κ = .and
    | .inv _ => κ = .inv).length

theorem numKind_eq (gs : List Gate) : numKind gs .and = (andGates gs).length ∧
    numKind gs .xor = (xorGates gs).length ∧ numKind gs .inv = (invGates gs).length := by
  induction gs with
  | nil => exact ⟨rfl, rfl, rfl⟩
  | cons g gs ih =>
    cases g <;> simp_all [numKind, andGates, xorGates, invGates]

/-- C25. The counts are the rounded-up quotients, and the number of blocks is their sum. -/
theorem C25_counts (c : Circuit) (k : Nat) (p : PackedCircuit) (h : c.pack k = some p) :
    p.gateCounts = ((numKind c.gates .and + k - 1) / k, (numKind c.gates .xor + k - 1) / k,
      (numKind c.gates .inv + k - 1) / k) ∧
    p.gates.length = p.gateCounts.1 + p.gateCounts.2.1 + p.gateCounts.2.2 := by
  obtain ⟨hk, hg, _⟩ := pack_some h
  have hf : ∀ {α : Type} (f : α → PackedGate) (l : List α) (κ κ' : GateKind),
      (∀ x, (f x).kind = κ) → ((l.map f).filter (fun g => decide (g.kind = κ'))).length =
        if κ = κ' then l.length else 0 := by
    intro α f l κ κ' hf
    induction l with
    | nil => simp
    | cons x l ih =>
      rw [List.map_cons, List.filter_cons, hf x]
      by_cases hκ : κ = κ' <;> simp_all
  have hc : p.gateCounts = ((numKind c.gates .and + k - 1) / k, (numKind c.gates .xor + k - 1) / k,
      (numKind c.gates .inv + k - 1) / k) := by
    unfold PackedCircuit.gateCounts
    rw [countGate_foldl, hg]
    simp only [List.filter_append, List.length_append, Nat.zero_add]
    rw [hf _ _ .and .and (fun _ => rfl), hf _ _ .xor .and (fun _ => rfl), hf _ _ .inv .and (fun _ => rfl),
      hf _ _ .and .xor (fun _ => rfl), hf _ _ .xor .xor (fun _ => rfl), hf _ _ .inv .xor (fun _ => rfl),
      hf _ _ .and .inv (fun _ => rfl), hf _ _ .xor .inv (fun _ => rfl), hf _ _ .inv .inv (fun _ => rfl)]
    obtain ⟨h1, h2, h3⟩ := numKind_eq c.gates
    simp only [chunks_length _ _ hk, (sortGates_perm _).length_eq, h1, h2, h3]
    simp
  refine ⟨hc, ?_⟩
  rw [hc, hg]
  obtain ⟨h1, h2, h3⟩ := numKind_eq c.gates
  simp [Nat.add_assoc, chunks_length _ _ hk, (sortGates_perm _).length_eq, h1, h2, h3]

example : (xorChain.pack 2).map (·.gateCounts) = some (1, 2, 1) := by decide +kernel

/-! ### C67: malformed gate lines -/

/-- C67 is false: an AND gate declared with three inputs is accepted, its third input dropped. -/
theorem C67_arity_false : parseGate "3 1 0 1 2 5 AND".toList = some (.and ⟨#v[0, 1], 5⟩) := by
  decide +kernel

/-- C67. What is rejected: unknown gate names, too few inputs for the gate kind, and files with fewer gate
lines than announced. -/
theorem C67_rejected_partial :
    (∀ ty inputs output, ty ≠ ['A', 'N', 'D'] → ty ≠ ['X', 'O', 'R'] → ty ≠ ['I', 'N', 'V'] →
      mkGate ty inputs output = none) ∧
    (∀ ty inputs output, inputs.length < 2 → ty ≠ ['I', 'N', 'V'] → mkGate ty inputs output = none) ∧
    (∀ ty output, mkGate ty [] output = none) ∧
    (∀ k, parseGates (k + 1) [] = none) := by
  refine ⟨?_, ?_, ?_, ?_⟩
  · intro ty inputs output h1 h2 h3
    simp [mkGate, h1, h2, h3]
  · intro ty inputs output h1 h2
    have : inputs[1]? = none := by simp; omega
    simp only [mkGate, this, Option.map_none]
    split
    · cases inputs[0]? <;> rfl
    · split
      · cases inputs[0]? <;> rfl
      · rw [if_neg (by simpa using h2)]
  · intro ty output
    simp [mkGate]
  · intro k
    rfl

/-! ### C68: inputs of the wrong shape -/

/-- C68 is false: missing input values are silently taken to be `false`. -/
theorem C68_missing_inputs_false : halfAdderCircuit.eval [[true]] = some [[true, false]] ∧
    halfAdderCircuit.eval [] = some [[false, false]] ∧
    halfAdderCircuit.eval [[true, true], [true], [true]] = some [[false, true]] := by
  decide +kernel

/-! ### C69: the order of packing -/

/-- The number of times a wire is read by gates of one kind. -/
def readers {N : Nat} (gs : List (GateInfo N)) (w : Nat) : Nat :=
  (gs.map fun g => g.inp.toList.count w).sum

/-- The most used input of a gate, with its number of readers (ties broken by wire number). -/
def busiest {N : Nat} (gs : List (GateInfo N)) (g : GateInfo N) : Nat ×ₗ Nat :=
  g.inp.toList.foldl (fun m w => max m (toLex (readers gs w, w))) (toLex (0, 0))

theorem weightLe_iff (a b : Nat × Nat) : weightLe a b = true ↔ toLex a ≤ toLex b := by
  rw [Prod.Lex.le_iff]
  simp [weightLe]

theorem lexMax_eq (a b : Nat × Nat) : toLex (lexMax a b) = max (toLex a) (toLex b) := by
  have := Prod.Lex.le_iff (x := toLex a) (y := toLex b)
  simp only [ofLex_toLex] at this
  unfold lexMax
  by_cases h : toLex a ≤ toLex b
  · rw [if_pos (this.1 h), max_eq_right h]
  · rw [if_neg (fun hh => h (this.2 hh)), max_eq_left (le_of_not_ge h)]

theorem gateWeight_eq {N : Nat} (gs : List (GateInfo N)) (g : GateInfo N) :
    toLex (gateWeight gs g) = busiest gs g := by
  have hf : ∀ w, fanOut gs w = readers gs w := by
    intro w
    unfold fanOut readers
    rw [List.count_flatMap]
    rfl
  unfold gateWeight busiest
  rw [List.foldl_map]
  generalize (0, 0) = m
  induction g.inp.toList generalizing m with
  | nil => rfl
  | cons w ws ih => rw [List.foldl_cons, List.foldl_cons, ih, lexMax_eq, hf]

/-- The specification of the packing order: sorted by busiest input, ties in file order. -/
def SortedByBusiest {N : Nat} (gs sorted : List (GateInfo N)) : Prop :=
  sorted.Pairwise (fun g h => busiest gs g ≤ busiest gs h) ∧
  ∀ m, sorted.filter (fun g => busiest gs g = m) = gs.filter (fun g => busiest gs g = m)

theorem sortGates_sorted {N : Nat} (gs : List (GateInfo N)) : SortedByBusiest gs (sortGates gs) := by
  let r : GateInfo N → GateInfo N → Prop := fun g1 g2 => weightLe (gateWeight gs g1) (gateWeight gs g2) = true
  have hr : ∀ a b, r a b ↔ busiest gs a ≤ busiest gs b := by
    intro a b
    show weightLe _ _ = true ↔ _
    rw [weightLe_iff, gateWeight_eq, gateWeight_eq]
  have : Std.Total r := ⟨fun a b => by rw [hr, hr]; exact le_total _ _⟩
  have : IsTrans (GateInfo N) r := ⟨fun a b c => by rw [hr, hr, hr]; exact le_trans⟩
  have hp : (sortGates gs).Pairwise r := List.pairwise_insertionSort r gs
  refine ⟨hp.imp fun h => (hr _ _).1 h, ?_⟩
  intro m
  have hsub : (gs.filter (fun g => busiest gs g = m)).Sublist (sortGates gs) := by
    refine List.sublist_insertionSort (r := r) ?_ List.filter_sublist
    refine List.pairwise_of_forall_mem_list fun a ha b hb => ?_
    rw [List.mem_filter] at ha hb
    rw [hr, of_decide_eq_true ha.2, of_decide_eq_true hb.2]
  have h2 := hsub.filter (fun g => decide (busiest gs g = m))
  rw [List.filter_filter] at h2
  simp only [Bool.and_self] at h2
  refine (h2.eq_of_length ?_).symm
  exact ((sortGates_perm gs).filter _).length_eq.symm

/-- C69. Within each kind the packed circuit lists the gates by busiest input, ties in file order. -/
theorem C69_order (c : Circuit) (k : Nat) (p : PackedCircuit) (h : c.pack k = some p) :
    SortedByBusiest (andGates c.gates) (andGates (p.gates.flatMap unpack)) ∧
    SortedByBusiest (xorGates c.gates) (xorGates (p.gates.flatMap unpack)) ∧
    SortedByBusiest (invGates c.gates) (invGates (p.gates.flatMap unpack)) := by
  rw [unpack_all h]
  have ha : andGates ((sortGates (andGates c.gates)).map .and
      ++ (sortGates (xorGates c.gates)).map .xor ++ (sortGates (invGates c.gates)).map .inv)
      = sortGates (andGates c.gates) := by
    simp [andGates, List.filterMap_append, List.filterMap_map]
  have hx : xorGates ((sortGates (andGates c.gates)).map .and
      ++ (sortGates (xorGates c.gates)).map .xor ++ (sortGates (invGates c.gates)).map .inv)
      = sortGates (xorGates c.gates) := by
    simp [xorGates, List.filterMap_append, List.filterMap_map]
  have hi : invGates ((sortGates (andGates c.gates)).map .and
      ++ (sortGates (xorGates c.gates)).map .xor ++ (sortGates (invGates c.gates)).map .inv)
      = sortGates (invGates c.gates) := by
    simp [invGates, List.filterMap_append, List.filterMap_map]
  rw [ha, hx, hi]
  exact ⟨sortGates_sorted _, sortGates_sorted _, sortGates_sorted _⟩

example : (xorChain.pack 2).isSome ∧ busiest (xorGates xorChain.gates) ⟨#v[5, 6], 7⟩ = toLex (1, 6) := by
  decide +kernel

end Verif.Props
