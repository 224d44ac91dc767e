import Verif.ParseLemmas
import Verif.Props.Circuit

/-!
# Properties C67, C68: which circuit files and inputs are accepted (`src/circuit.rs`)
-/

open Verif

namespace Verif.Props

/-! ### C67: malformed files -/

/-- C67. Exactly the texts of the grammar `LooseFile` are accepted, and as the circuit which the grammar gives; all others make the parser panic. -/
theorem C67_exact (cs : List Char) (c : Circuit) : fromBristol cs = some c ↔ LooseFile c cs := by
  unfold fromBristol LooseFile
  simp only [Option.bind_eq_some_iff, Option.map_eq_some_iff, Prod.exists]
  constructor
  · rintro ⟨ng, ts1, h1, nw, ts2, h2, ni, ts3, h3, il, ts4, h4, inputs, h5, no, ts5, h6, ol, ts6, h7, outputs, h8, gates, h9, rfl⟩
    obtain ⟨t1, e1, r1⟩ := (nextNum_iff _ _ _).1 h1
    obtain ⟨t2, rfl, r2⟩ := (nextNum_iff _ _ _).1 h2
    obtain ⟨t3, rfl, r3⟩ := (nextNum_iff _ _ _).1 h3
    obtain ⟨hil, toks, rfl, r4⟩ := (takeNums_iff _ _ _ _).1 h4
    obtain ⟨s1, s2, s3⟩ := (scanInputs_iff _ _).1 h5
    obtain ⟨t6, rfl, r6⟩ := (nextNum_iff _ _ _).1 h6
    obtain ⟨hol, toks', rfl, r7⟩ := (takeNums_iff _ _ _ _).1 h7
    obtain ⟨o1, o2, o3⟩ := (scanOutputs_iff _ _ _).1 h8
    obtain ⟨hg, hL⟩ := (parseGates_iff _ _ _).1 h9
    subst hil hol hg
    refine ⟨_, _, _, _, _, _, _, _, (readLine_iff _ _ _).1 rfl, (readLine_iff _ _ _).1 rfl, (readLine_iff _ _ _).1 rfl, (readLine_iff _ _ _).1 rfl,
      t1 :: t2 :: t3 :: (toks ++ t6 :: toks'), ts6, il, ol, ?_, ?_, s1, o1, s2, s3, o2, o3, hL⟩
    · rw [← splitWs_iff, e1]
      simp
    · have : [gates.length, nw, il.length] ++ il ++ [ol.length] ++ ol = gates.length :: nw :: il.length :: (il ++ (ol.length :: ol)) := by simp
      simp only [this]
      exact .cons r1 (.cons r2 (.cons r3 (List.rel_append r4 (.cons r6 r7))))
  · rintro ⟨l1, l2, l3, l4, q1, q2, q3, rest, f1, f2, f3, f4, nums, extra, il, ol, hlay, hf, s1, o1, s2, s3, o2, o3, hL⟩
    have g1 := (readLine_iff _ _ _).2 f1
    have g2 := (readLine_iff _ _ _).2 f2
    have g3 := (readLine_iff _ _ _).2 f3
    have g4 := (readLine_iff _ _ _).2 f4
    have hs := (splitWs_iff _ _).2 hlay
    have e : [c.gates.length, c.numWires, il.length] ++ il ++ [ol.length] ++ ol = c.gates.length :: c.numWires :: il.length :: (il ++ (ol.length :: ol)) := by simp
    rw [e, List.forall₂_cons_left_iff] at hf
    obtain ⟨t1, nums1, r1, hf1, rfl⟩ := hf
    rw [List.forall₂_cons_left_iff] at hf1
    obtain ⟨t2, nums2, r2, hf2, rfl⟩ := hf1
    rw [List.forall₂_cons_left_iff] at hf2
    obtain ⟨t3, nums3, r3, hf3, rfl⟩ := hf2
    obtain ⟨toks, m2, rfl, r4, hf4⟩ := forall₂_append_inv hf3
    rw [List.forall₂_cons_left_iff] at hf4
    obtain ⟨t6, toks', r6, r7, rfl⟩ := hf4
    rw [g1]
    simp only
    rw [g2]
    simp only
    rw [g3]
    simp only
    rw [g4]
    simp only
    refine ⟨c.gates.length, t2 :: t3 :: (toks ++ t6 :: toks') ++ extra, (nextNum_iff _ _ _).2 ⟨t1, by rw [hs]; simp, r1⟩, c.numWires,
      t3 :: (toks ++ t6 :: toks') ++ extra, (nextNum_iff _ _ _).2 ⟨t2, rfl, r2⟩, il.length, (toks ++ t6 :: toks') ++ extra,
      (nextNum_iff _ _ _).2 ⟨t3, rfl, r3⟩, il, t6 :: toks' ++ extra, (takeNums_iff _ _ _ _).2 ⟨rfl, toks, by simp, r4⟩, c.inputs,
      (scanInputs_iff _ _).2 ⟨s1, s2, s3⟩, ol.length, toks' ++ extra, (nextNum_iff _ _ _).2 ⟨t6, rfl, r6⟩, ol, extra,
      (takeNums_iff _ _ _ _).2 ⟨rfl, toks', rfl, r7⟩, c.outputs, (scanOutputs_iff _ _ _).2 ⟨o1, o2, o3⟩, c.gates, (parseGates_iff _ _ _).2 ⟨rfl, hL⟩, rfl⟩

/-- C67, as far as it holds: a file is rejected if one of the gate lines which the header announces ends with an unknown name, or lists fewer inputs than the gate
needs, or is missing.  (Here the file consists of four header lines and the lines `gateLines`; `announced` is the first number of the header.) -/
theorem C67_files_partial (hdr gateLines : List (List Char)) (hh : hdr.length = 4) (hn : ∀ l ∈ hdr ++ gateLines, '\n' ∉ l) (announced : Nat) (tok : List Char)
    (toks : List (List Char)) (hlay : Layout (tok :: toks) (hdr.map (· ++ ['\n'])).flatten) (ha : ReadsAs announced tok)
    (hbad : gateLines.length < announced ∨ ∃ i line, i < announced ∧ gateLines[i]? = some line ∧
      ∀ fanIn words name, Layout (fanIn :: words ++ [name]) line →
        (name ≠ "AND".toList ∧ name ≠ "XOR".toList ∧ name ≠ "INV".toList) ∨ ReadsAs 0 fanIn ∨ (name ≠ "INV".toList ∧ ReadsAs 1 fanIn)) :
    fromBristol ((hdr ++ gateLines).map (· ++ ['\n'])).flatten = none := by
  rw [Option.eq_none_iff_forall_ne_some]
  intro c hc
  obtain ⟨l1, l2, l3, l4, q1, q2, q3, rest, f1, f2, f3, f4, nums, extra, il, ol, hlay', hf, -, -, -, -, -, -, hL⟩ := (C67_exact _ _).1 hc
  match hdr, hh with
  | [a1, a2, a3, a4], _ =>
    have hnl : ∀ (l : List Char) (r : List Char), '\n' ∉ l → ∀ line rest', FirstLine (l ++ '\n' :: r) line rest' → line = l ++ ['\n'] ∧ rest' = r := by
      intro l r hl line rest' h
      have := (readLine_iff _ _ _).2 h
      rw [readLine_line l r hl, Prod.mk.injEq] at this
      exact ⟨this.1.symm, this.2.symm⟩
    simp only [List.cons_append, List.nil_append, List.map_cons, List.flatten_cons, List.append_assoc] at f1
    obtain ⟨rfl, rfl⟩ := hnl _ _ (hn a1 (by simp)) _ _ f1
    obtain ⟨rfl, rfl⟩ := hnl _ _ (hn a2 (by simp)) _ _ f2
    obtain ⟨rfl, rfl⟩ := hnl _ _ (hn a3 (by simp)) _ _ f3
    obtain ⟨rfl, rfl⟩ := hnl _ _ (hn a4 (by simp)) _ _ f4
    -- the number of gates
    have ht : tok :: toks = nums ++ extra := by
      have h1 := (splitWs_iff _ _).2 hlay
      have h2 := (splitWs_iff _ _).2 hlay'
      rw [← h1, ← h2]
      simp
    have hlen : c.gates.length = announced := by
      simp only [List.cons_append, List.nil_append, List.append_assoc] at hf
      rw [List.forall₂_cons_left_iff] at hf
      obtain ⟨t1, nums1, r1, -, rfl⟩ := hf
      simp only [List.cons_append, List.cons.injEq] at ht
      rw [← ht.1] at r1
      have := (parseU32_iff _ _).2 r1
      rw [(parseU32_iff _ _).2 ha, Option.some.injEq] at this
      exact this.symm
    obtain ⟨hle, hget⟩ := looseLines_get (fun l hl => hn l (by simp [hl])) hL
    rcases hbad with h | ⟨i, line, hi, hline, hbad⟩
    · omega
    · obtain ⟨line', h1, fo, ins, nums', extra', h3, h4, h5⟩ := hget i (c.gates[i]'(by omega)) (List.getElem?_eq_getElem (by omega))
      rw [hline, Option.some.injEq] at h1
      subst h1
      generalize c.gates[i]'(by omega) = g at h3 h4 h5
      rw [List.forall₂_cons_left_iff] at h4
      obtain ⟨t1, nums1, r1, -, rfl⟩ := h4
      have hlay2 : Layout (t1 :: (nums1 ++ extra') ++ [g.name]) line := by
        rw [← splitWs_iff]
        have e1 := (splitWs_iff _ _).2 h3
        have e2 := (splitWs_iff _ _).2 (layout_newline ((splitWs_iff _ _).1 (rfl : splitWs line = splitWs line)))
        rw [e2] at e1
        rw [e1]
        simp
      have hfan : g.inWires.length ≤ ins.length := h5.length_le
      have same : ∀ n, ReadsAs n t1 → ins.length = n := by
        intro n h
        have := (parseU32_iff _ _).2 r1
        rw [(parseU32_iff _ _).2 h, Option.some.injEq] at this
        exact this.symm
      rcases hbad t1 (nums1 ++ extra') g.name hlay2 with ⟨n1, n2, n3⟩ | h | ⟨h, h'⟩
      · cases g
        · exact n2 (by simp [Gate.name])
        · exact n1 (by simp [Gate.name])
        · exact n3 (by simp [Gate.name])
      · rw [same 0 h] at hfan
        cases g <;> simp [Gate.inWires] at hfan
      · rw [same 1 h'] at hfan
        cases g with
        | xor g => simp [Gate.inWires] at hfan
        | and g => simp [Gate.inWires] at hfan
        | inv g => exact h (by simp [Gate.name])

/-- A file with a plus sign, surplus words in the header, a third input, a wrong number of outputs and surplus words in the gate line: accepted. -/
example : fromBristol "+1 4 junk\n2 1 1\n1 1 more\n\n3 7 0 1 2 3 junk AND\nanything".toList = none ∧
    fromBristol "+1 4\n2 1 1\n1 1 more\n\n3 7 0 1 2 3 junk AND\nanything".toList = some ⟨[.and ⟨#v[0, 1], 3⟩], [[0], [1]], [[3]], 4⟩ := by decide +kernel

/-! ### C68: inputs of the wrong shape -/

/-- C68, what happens instead: for every circuit with distinct input wires and every list of input values, missing values count as `false` and surplus ones are ignored. -/
theorem C68_fit (c : Circuit) (hr : ∀ w ∈ c.inputs.flatten, w < c.numWires) (hn : c.inputs.flatten.Nodup) (ins : List (List Bool)) :
    c.eval ins = c.eval (fitInputs c.inputs ins) ∧ (fitInputs c.inputs ins).map List.length = c.inputs.map List.length ∧
      ∀ i ws, c.inputs[i]? = some ws → ∀ j < ws.length, ((fitInputs c.inputs ins).getD i []).getD j false = (ins.getD i []).getD j false := by
  refine ⟨eval_fit c hr hn ins, fitInputs_length _ _, fun i ws h j hj => ?_⟩
  unfold fitInputs
  simp [List.getD_eq_getElem?_getD, List.getElem?_map, List.getElem?_zipIdx, h, List.getElem?_eq_getElem hj]

/-- C68 is false for every well-formed circuit: `eval` never panics, whatever the shape of the inputs. -/
theorem C68_false (c : Circuit) (wf : c.WF) (ins : List (List Bool)) : ∃ outs, c.eval ins = some outs := by
  rw [(C68_fit c wf.inRange wf.inputsNodup ins).1]
  obtain ⟨outs, h, -⟩ := C22_eval c wf (fitInputs c.inputs ins) (fitInputs_length _ _)
  exact ⟨outs, h⟩

example : fitInputs [[0, 1], [2]] [[true]] = [[true, false], [false]] ∧ fitInputs [[0, 1], [2]] [[true, true, true], [], [true]] = [[true, true], [false]] := by
  decide

end Verif.Props
