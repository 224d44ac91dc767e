import Verif.ParseSpec
import Verif.CircuitLemmas

/-!
# Lemmas about the files which are accepted
-/

namespace Verif

/-! ## Tokens -/

theorem layout_aux (cs cur : List Char) (hcur : ∀ c ∈ cur, ¬ Blank c) : Layout (splitWsAux cur cs) (cur ++ cs) := by
  induction cs generalizing cur with
  | nil =>
    unfold splitWsAux
    split
    · rename_i h
      subst h
      exact .nil [] (by simp)
    · rename_i h
      rw [List.append_nil]
      have := Layout.cons [] cur [] [] (by simp) h hcur (.nil [] (by simp)) (Or.inl rfl)
      simpa using this
  | cons c cs ih =>
    unfold splitWsAux
    by_cases hc : Blank c
    · rw [if_pos ((isAsciiWs_iff c).2 hc)]
      have h0 := ih [] (by simp)
      have hrest : Layout (splitWsAux [] cs) (c :: cs) := by
        rw [List.nil_append] at h0
        generalize splitWsAux [] cs = toks at h0
        cases h0 with
        | nil _ hws =>
          refine .nil _ fun x hx => ?_
          rcases List.mem_cons.1 hx with rfl | hx
          · exact hc
          · exact hws x hx
        | cons ws tok rest toks hws h1 h2 h3 h4 =>
          have := Layout.cons (c :: ws) tok rest toks (fun x hx => by
            rcases List.mem_cons.1 hx with rfl | hx
            · exact hc
            · exact hws x hx) h1 h2 h3 h4
          simpa using this
      split
      · rename_i h
        subst h
        exact hrest
      · rename_i h
        have := Layout.cons [] cur (c :: cs) _ (by simp) h hcur hrest (Or.inr ⟨c, cs, rfl, hc⟩)
        simpa using this
    · rw [if_neg (by rw [isAsciiWs_iff]; exact hc)]
      have := ih (cur ++ [c]) (fun x hx => by
        rcases List.mem_append.1 hx with hx | hx
        · exact hcur x hx
        · rw [List.mem_singleton.1 hx]; exact hc)
      simpa using this

/-- The tokens of a text. -/
theorem splitWs_iff (toks : List (List Char)) (cs : List Char) : splitWs cs = toks ↔ Layout toks cs := by
  constructor
  · rintro rfl
    exact layout_aux cs [] (by simp)
  · exact splitWs_layout

theorem parseDigits_some {cs : List Char} {acc n : Nat} (h : parseDigits acc cs = some n) (ha : acc < 2 ^ 32) :
    (∀ c ∈ cs, c.isDigit) ∧ Nat.ofDigitChars 10 cs acc = n ∧ n < 2 ^ 32 := by
  induction cs generalizing acc with
  | nil =>
    simp only [parseDigits, Option.some.injEq] at h
    subst h
    exact ⟨by simp, by simp, ha⟩
  | cons c cs ih =>
    unfold parseDigits at h
    simp only at h
    split_ifs at h with hd hv
    obtain ⟨h1, h2, h3⟩ := ih h hv
    refine ⟨fun x hx => ?_, ?_, h3⟩
    · rcases List.mem_cons.1 hx with rfl | hx
      · exact hd
      · exact h1 x hx
    · rw [Nat.ofDigitChars_cons]
      rw [Nat.mul_comm 10 acc]
      exact h2

theorem parseU32_iff (tok : List Char) (n : Nat) : parseU32 tok = some n ↔ ReadsAs n tok := by
  constructor
  · intro h
    unfold parseU32 at h
    split at h
    · simp at h
    · rename_i cs
      split_ifs at h with hne
      obtain ⟨h1, h2, h3⟩ := parseDigits_some h (by norm_num)
      exact ⟨h3, Or.inr ⟨cs, rfl, hne, h1, h2⟩⟩
    · rename_i hne _
      obtain ⟨h1, h2, h3⟩ := parseDigits_some h (by norm_num)
      exact ⟨h3, Or.inl ⟨fun e => hne e, h1, h2⟩⟩
  · rintro ⟨hn, h | ⟨ds, rfl, h1, h2, h3⟩⟩
    · exact parseU32_eq h hn
    · unfold parseU32
      simp only
      rw [if_neg h1, parseDigits_eq ds 0 h2 (by rw [h3]; exact hn), h3]

theorem nextNum_iff (ts : List (List Char)) (n : Nat) (rest : List (List Char)) :
    nextNum ts = some (n, rest) ↔ ∃ tok, ts = tok :: rest ∧ ReadsAs n tok := by
  cases ts with
  | nil => simp [nextNum]
  | cons t ts =>
    simp only [nextNum, Option.map_eq_some_iff, Prod.mk.injEq, List.cons.injEq]
    constructor
    · rintro ⟨v, h, rfl, rfl⟩
      exact ⟨t, ⟨rfl, rfl⟩, (parseU32_iff _ _).1 h⟩
    · rintro ⟨tok, ⟨rfl, rfl⟩, h⟩
      exact ⟨n, (parseU32_iff _ _).2 h, rfl, rfl⟩

theorem takeNums_iff (k : Nat) (ts : List (List Char)) (ns : List Nat) (rest : List (List Char)) :
    takeNums k ts = some (ns, rest) ↔ ns.length = k ∧ ∃ toks, ts = toks ++ rest ∧ List.Forall₂ ReadsAs ns toks := by
  induction k generalizing ts ns with
  | zero =>
    simp only [takeNums, Option.some.injEq, Prod.mk.injEq, List.length_eq_zero_iff]
    constructor
    · rintro ⟨rfl, rfl⟩
      exact ⟨rfl, [], rfl, .nil⟩
    · rintro ⟨rfl, toks, rfl, h⟩
      cases h
      exact ⟨rfl, rfl⟩
  | succ k ih =>
    simp only [takeNums, Option.bind_eq_some_iff, Option.map_eq_some_iff, Prod.exists, Prod.mk.injEq]
    constructor
    · rintro ⟨v, ts', h1, ns', r', h2, rfl, rfl⟩
      obtain ⟨tok, rfl, hr⟩ := (nextNum_iff _ _ _).1 h1
      obtain ⟨hl, toks, rfl, hf⟩ := (ih _ _).1 h2
      exact ⟨by simp [hl], tok :: toks, rfl, .cons hr hf⟩
    · rintro ⟨hl, toks, rfl, hf⟩
      cases hf with
      | nil => simp at hl
      | cons hr hf =>
        rename_i v tok ns' toks'
        exact ⟨v, toks' ++ rest, (nextNum_iff _ _ _).2 ⟨tok, rfl, hr⟩, ns', rest, (ih _ _).2 ⟨by simpa using hl, toks', rfl, hf⟩, rfl, rfl⟩

/-! ## Lines -/

theorem readLine_iff (cs line rest : List Char) : readLine cs = (line, rest) ↔ FirstLine cs line rest := by
  constructor
  · intro h
    induction cs generalizing line rest with
    | nil =>
      simp only [readLine, Prod.mk.injEq] at h
      obtain ⟨rfl, rfl⟩ := h
      exact ⟨rfl, Or.inr ⟨by simp, rfl⟩⟩
    | cons c cs ih =>
      unfold readLine at h
      split_ifs at h with hc
      · rw [Prod.mk.injEq] at h
        obtain ⟨rfl, rfl⟩ := h
        subst hc
        exact ⟨rfl, Or.inl ⟨[], rfl, by simp⟩⟩
      · simp only [Prod.mk.injEq] at h
        obtain ⟨rfl, rfl⟩ := h
        obtain ⟨h1, h2⟩ := ih _ _ rfl
        refine ⟨by rw [List.cons_append, ← h1], ?_⟩
        rcases h2 with ⟨body, hb, hn⟩ | ⟨hn, hr⟩
        · refine Or.inl ⟨c :: body, by rw [hb]; rfl, ?_⟩
          simp only [List.mem_cons, not_or]
          exact ⟨fun e => hc e.symm, hn⟩
        · refine Or.inr ⟨?_, hr⟩
          simp only [List.mem_cons, not_or]
          exact ⟨fun e => hc e.symm, hn⟩
  · rintro ⟨rfl, ⟨body, rfl, hn⟩ | ⟨hn, rfl⟩⟩
    · rw [List.append_assoc]
      exact readLine_line body rest hn
    · rw [List.append_nil]
      exact readLine_last line hn

theorem mkGate_iff (ty : List Char) (ins : List Nat) (out : Nat) (g : Gate) :
    mkGate ty ins out = some g ↔ ty = g.name ∧ g.inWires <+: ins ∧ g.outWire = out := by
  have two : ∀ a b : Nat, [a, b] <+: ins ↔ ins[0]? = some a ∧ ins[1]? = some b := by
    intro a b
    match ins with
    | [] => simp
    | [x] => simp
    | x :: y :: r => simp [eq_comm]
  have one : ∀ a : Nat, [a] <+: ins ↔ ins[0]? = some a := by
    intro a
    match ins with
    | [] => simp
    | x :: r => simp [eq_comm]
  have ext2 : ∀ (h : GateInfo 2), h = ⟨#v[h.inp[0], h.inp[1]], h.out⟩ := by
    rintro ⟨v, o⟩
    congr 1
    ext i hi
    match i, hi with
    | 0, _ => rfl
    | 1, _ => rfl
  have ext1 : ∀ (h : GateInfo 1), h = ⟨#v[h.inp[0]], h.out⟩ := by
    rintro ⟨v, o⟩
    congr 1
    ext i hi
    match i, hi with
    | 0, _ => rfl
  constructor
  · intro h
    unfold mkGate at h
    split_ifs at h with h1 h2 h3
    · rw [Option.bind_eq_some_iff] at h
      obtain ⟨a, ha, h⟩ := h
      rw [Option.map_eq_some_iff] at h
      obtain ⟨b, hb, rfl⟩ := h
      exact ⟨h1, (two a b).2 ⟨ha, hb⟩, rfl⟩
    · rw [Option.bind_eq_some_iff] at h
      obtain ⟨a, ha, h⟩ := h
      rw [Option.map_eq_some_iff] at h
      obtain ⟨b, hb, rfl⟩ := h
      exact ⟨h2, (two a b).2 ⟨ha, hb⟩, rfl⟩
    · rw [Option.map_eq_some_iff] at h
      obtain ⟨a, ha, rfl⟩ := h
      exact ⟨h3, (one a).2 ha, rfl⟩
  · rintro ⟨rfl, h1, rfl⟩
    cases g with
    | xor g =>
      obtain ⟨ha, hb⟩ := (two _ _).1 h1
      unfold mkGate
      rw [if_neg (by simp [Gate.name]), if_pos (by simp [Gate.name]), ha, Option.bind_some, hb, Option.map_some]
      exact congrArg (fun x => some (Gate.xor x)) (ext2 g).symm
    | and g =>
      obtain ⟨ha, hb⟩ := (two _ _).1 h1
      unfold mkGate
      rw [if_pos (by simp [Gate.name]), ha, Option.bind_some, hb, Option.map_some]
      exact congrArg (fun x => some (Gate.and x)) (ext2 g).symm
    | inv g =>
      have ha := (one _).1 h1
      unfold mkGate
      rw [if_neg (by simp [Gate.name]), if_neg (by simp [Gate.name]), if_pos (by simp [Gate.name]), ha, Option.map_some]
      exact congrArg (fun x => some (Gate.inv x)) (ext1 g).symm

theorem parseGate_iff (line : List Char) (g : Gate) : parseGate line = some g ↔ LooseGate g line := by
  unfold parseGate LooseGate
  simp only [Option.bind_eq_some_iff, Prod.exists]
  constructor
  · rintro ⟨ty, hty, fan, ts1, h1, fo, ts2, h2, ins, ts3, h3, out, ts4, h4, h5⟩
    obtain ⟨hn, hp, rfl⟩ := (mkGate_iff _ _ _ _).1 h5
    obtain ⟨t1, e1, r1⟩ := (nextNum_iff _ _ _).1 h1
    obtain ⟨t2, rfl, r2⟩ := (nextNum_iff _ _ _).1 h2
    obtain ⟨hl, toks, rfl, r3⟩ := (takeNums_iff _ _ _ _).1 h3
    obtain ⟨t4, rfl, r4⟩ := (nextNum_iff _ _ _).1 h4
    subst hl
    refine ⟨fo, ins, t1 :: t2 :: (toks ++ [t4]), ts4, ?_, .cons r1 (.cons r2 (List.rel_append r3 (.cons r4 .nil))), hp⟩
    rw [← splitWs_iff, ← hn]
    have := List.dropLast_append_getLast? ty hty
    rw [← this, e1]
    simp
  · rintro ⟨fo, ins, nums, extra, hL, hf, hp⟩
    have hs := (splitWs_iff _ _).2 hL
    rw [List.forall₂_cons_left_iff] at hf
    obtain ⟨t1, nums, r1, hf, rfl⟩ := hf
    rw [List.forall₂_cons_left_iff] at hf
    obtain ⟨t2, nums, r2, hf, rfl⟩ := hf
    obtain ⟨toks, l2, rfl, r3, hf'⟩ := forall₂_append_inv hf
    rw [List.forall₂_cons_left_iff] at hf'
    obtain ⟨t4, nums, r4, hnil, rfl⟩ := hf'
    rw [List.forall₂_nil_left_iff] at hnil
    subst hnil
    have hs' : splitWs line = (t1 :: t2 :: (toks ++ t4 :: extra)) ++ [g.name] := by rw [hs]; simp
    refine ⟨g.name, by rw [hs', List.getLast?_concat], ins.length, t2 :: (toks ++ t4 :: extra), ?_, fo, toks ++ t4 :: extra, ?_, ins, t4 :: extra, ?_, g.outWire, extra, ?_, ?_⟩
    · rw [hs', List.dropLast_concat]
      exact (nextNum_iff _ _ _).2 ⟨t1, rfl, r1⟩
    · exact (nextNum_iff _ _ _).2 ⟨t2, rfl, r2⟩
    · exact (takeNums_iff _ _ _ _).2 ⟨rfl, toks, rfl, r3⟩
    · exact (nextNum_iff _ _ _).2 ⟨t4, rfl, r4⟩
    · exact (mkGate_iff _ _ _ _).2 ⟨rfl, hp, rfl⟩

theorem parseGates_iff (gs : List Gate) (k : Nat) (cs : List Char) : parseGates k cs = some gs ↔ gs.length = k ∧ LooseLines gs cs := by
  induction k generalizing gs cs with
  | zero =>
    simp only [parseGates, Option.some.injEq, List.length_eq_zero_iff]
    constructor
    · rintro rfl
      exact ⟨rfl, .nil _⟩
    · rintro ⟨rfl, -⟩
      rfl
  | succ k ih =>
    simp only [parseGates, Option.bind_eq_some_iff, Option.map_eq_some_iff]
    constructor
    · rintro ⟨g, hg, gs', hgs, rfl⟩
      obtain ⟨hl, hL⟩ := (ih _ _).1 hgs
      exact ⟨by simp [hl], .cons g gs' cs _ _ ((readLine_iff cs _ _).1 rfl) ((parseGate_iff _ _).1 hg) hL⟩
    · rintro ⟨hl, hL⟩
      cases hL with
      | nil => simp at hl
      | cons g gs' _ line rest h1 h2 h3 =>
        have hr := (readLine_iff _ _ _).2 h1
        exact ⟨g, by rw [hr]; exact (parseGate_iff _ _).2 h2, gs', by rw [hr]; exact (ih _ _).2 ⟨by simpa using hl, h3⟩, rfl⟩

/-- The lines of an accepted gate part. -/
theorem looseLines_get {gs : List Gate} {lines : List (List Char)} (hn : ∀ l ∈ lines, '\n' ∉ l) (h : LooseLines gs (lines.map (· ++ ['\n'])).flatten) :
    gs.length ≤ lines.length ∧ ∀ (i : Nat) g, gs[i]? = some g → ∃ line, lines[i]? = some line ∧ LooseGate g (line ++ ['\n']) := by
  induction lines generalizing gs with
  | nil =>
    cases h with
    | nil => simp
    | cons g gs cs line rest h1 h2 h3 =>
      exfalso
      have : line = [] := by
        have := h1.1
        simp at this
        exact this.1
      subst this
      obtain ⟨fo, ins, nums, extra, hL, -⟩ := h2
      have := (splitWs_iff _ _).2 hL
      simp [splitWs, splitWsAux] at this
  | cons l ls ih =>
    cases h with
    | nil => simp
    | cons g gs cs line rest h1 h2 h3 =>
      have e1 := (readLine_iff _ _ _).2 h1
      rw [List.map_cons, List.flatten_cons, List.append_assoc, List.singleton_append, readLine_line l _ (hn l (by simp)), Prod.mk.injEq] at e1
      obtain ⟨rfl, rfl⟩ := e1
      obtain ⟨i1, i2⟩ := ih (fun x hx => hn x (by simp [hx])) h3
      refine ⟨by simp; omega, fun i g' hg => ?_⟩
      cases i with
      | zero =>
        simp only [List.getElem?_cons_zero, Option.some.injEq] at hg
        subst hg
        exact ⟨l, rfl, h2⟩
      | succ i => exact i2 i g' (by simpa using hg)

/-! ## Inputs and outputs -/

theorem scanInputs_some {lens : List Nat} {start : Nat} {r : List (List Nat)} (hs : start < 2 ^ 32) (h : scanInputs start lens = some r) :
    start + lens.sum < 2 ^ 32 := by
  induction lens generalizing start r with
  | nil => simpa using hs
  | cons v vs ih =>
    unfold scanInputs at h
    simp only at h
    split_ifs at h with hv
    rw [Option.map_eq_some_iff] at h
    obtain ⟨r', h, -⟩ := h
    have := ih hv h
    rw [List.sum_cons]
    omega

theorem scanOutputs_some {lens : List Nat} {top : Nat} {r : List (List Nat)} (h : scanOutputs top lens = some r) : lens.sum ≤ top := by
  induction lens generalizing top r with
  | nil => simp
  | cons v vs ih =>
    unfold scanOutputs at h
    split_ifs at h with hv
    simp only [Option.map_eq_some_iff] at h
    obtain ⟨r', h, -⟩ := h
    have := ih h
    rw [List.sum_cons]
    omega

theorem eq_of_flatten {α : Type} {L L' : List (List α)} (h1 : L.flatten = L'.flatten) (h2 : L.map List.length = L'.map List.length) : L = L' :=
  List.eq_iff_flatten_eq.2 ⟨h1, h2⟩

theorem scanInputs_iff (lens : List Nat) (r : List (List Nat)) : scanInputs 0 lens = some r ↔
    lens.sum < 2 ^ 32 ∧ r.map List.length = lens ∧ r.flatten = List.range lens.sum := by
  constructor
  · intro h
    have hs := scanInputs_some (by norm_num) h
    rw [Nat.zero_add] at hs
    obtain ⟨r', h1, h2, h3⟩ := scanInputs_eq lens 0 (by omega)
    rw [h, Option.some.injEq] at h1
    subst h1
    exact ⟨hs, h2, by rw [h3, List.range_eq_range']⟩
  · rintro ⟨hs, h2, h3⟩
    obtain ⟨r', h1, h2', h3'⟩ := scanInputs_eq lens 0 (by omega)
    rw [h1, Option.some.injEq]
    exact eq_of_flatten (by rw [h3', h3, List.range_eq_range']) (by rw [h2, h2'])

theorem scanOutputs_iff (top : Nat) (lens : List Nat) (r : List (List Nat)) : scanOutputs top lens.reverse = some r ↔
    lens.sum ≤ top ∧ r.reverse.map List.length = lens ∧ r.reverse.flatten = List.range' (top - lens.sum) lens.sum := by
  constructor
  · intro h
    have hs := scanOutputs_some h
    obtain ⟨r', h1, h2, h3⟩ := scanOutputs_eq lens.reverse top hs
    rw [h, Option.some.injEq] at h1
    subst h1
    rw [List.sum_reverse] at hs h3
    exact ⟨hs, by rw [List.map_reverse, h2, List.reverse_reverse], h3⟩
  · rintro ⟨hs, h2, h3⟩
    obtain ⟨r', h1, h2', h3'⟩ := scanOutputs_eq lens.reverse top (by rwa [List.sum_reverse])
    rw [h1, Option.some.injEq]
    rw [List.sum_reverse] at h3'
    have : r'.reverse = r.reverse := eq_of_flatten (by rw [h3', h3]) (by rw [h2, List.map_reverse, h2', List.reverse_reverse])
    exact List.reverse_injective this

/-! ## Missing and surplus input values -/

theorem fitInputs_length (inputs : List (List Nat)) (ins : List (List Bool)) :
    (fitInputs inputs ins).map List.length = inputs.map List.length := by
  unfold fitInputs
  rw [List.map_map]
  refine List.ext_getElem? fun i => ?_
  rw [List.getElem?_map, List.getElem?_map, List.getElem?_zipIdx]
  cases inputs[i]? <;> simp

/-- The assignments made by `eval` are among those for the adjusted values, and the others are `false`. -/
theorem mem_fit {inputs : List (List Nat)} {ins : List (List Bool)} :
    (∀ q ∈ (List.zip inputs ins).flatMap (fun p => List.zip p.1 p.2), q ∈ (List.zip inputs (fitInputs inputs ins)).flatMap fun p => List.zip p.1 p.2) ∧
    ∀ q ∈ (List.zip inputs (fitInputs inputs ins)).flatMap (fun p => List.zip p.1 p.2),
      q ∈ (List.zip inputs ins).flatMap (fun p => List.zip p.1 p.2) ∨ q.2 = false := by
  have hget : ∀ (i : Nat) (ws : List Nat), inputs[i]? = some ws → (fitInputs inputs ins)[i]? = some (ws.zipIdx.map fun q => (ins.getD i []).getD q.2 false) := by
    intro i ws h
    unfold fitInputs
    simp [List.getElem?_map, List.getElem?_zipIdx, h]
  have hmem : ∀ (L : List (List Bool)) (q : Nat × Bool), q ∈ (List.zip inputs L).flatMap (fun p => List.zip p.1 p.2) ↔
      ∃ (i : Nat) (ws : List Nat) (vs : List Bool) (j : Nat), inputs[i]? = some ws ∧ L[i]? = some vs ∧ ws[j]? = some q.1 ∧ vs[j]? = some q.2 := by
    intro L q
    rw [List.mem_flatMap]
    constructor
    · rintro ⟨⟨ws, vs⟩, h1, h2⟩
      obtain ⟨i, hi⟩ := List.mem_iff_getElem?.1 h1
      obtain ⟨j, hj⟩ := List.mem_iff_getElem?.1 h2
      rw [List.getElem?_zip_eq_some] at hi hj
      exact ⟨i, ws, vs, j, hi.1, hi.2, hj.1, hj.2⟩
    · rintro ⟨i, ws, vs, j, h1, h2, h3, h4⟩
      exact ⟨(ws, vs), List.mem_iff_getElem?.2 ⟨i, List.getElem?_zip_eq_some.2 ⟨h1, h2⟩⟩, List.mem_iff_getElem?.2 ⟨j, List.getElem?_zip_eq_some.2 ⟨h3, h4⟩⟩⟩
  constructor
  · intro q hq
    obtain ⟨i, ws, vs, j, h1, h2, h3, h4⟩ := (hmem _ _).1 hq
    refine (hmem _ _).2 ⟨i, ws, _, j, h1, hget i ws h1, h3, ?_⟩
    rw [List.getElem?_map, List.getElem?_zipIdx, h3, List.getD_eq_getElem?_getD, h2]
    simp [List.getD_eq_getElem?_getD, h4]
  · intro q hq
    obtain ⟨i, ws, vs, j, h1, h2, h3, h4⟩ := (hmem _ _).1 hq
    rw [hget i ws h1, Option.some.injEq] at h2
    subst h2
    rw [List.getElem?_map, List.getElem?_zipIdx, h3] at h4
    simp only [Option.map_some, Option.some.injEq, Nat.zero_add] at h4
    cases h5 : ins[i]? with
    | none =>
      right
      rw [← h4]
      simp [List.getD_eq_getElem?_getD, h5]
    | some us =>
      cases h6 : us[j]? with
      | none =>
        right
        rw [← h4]
        simp [List.getD_eq_getElem?_getD, h5, h6]
      | some u =>
        left
        refine (hmem _ _).2 ⟨i, ws, us, j, h1, h5, h3, ?_⟩
        rw [← h4]
        simp [List.getD_eq_getElem?_getD, h5, h6]

theorem zip_sublist (inputs : List (List Nat)) (ins : List (List Bool)) :
    (((List.zip inputs ins).flatMap fun p => List.zip p.1 p.2).map Prod.fst).Sublist inputs.flatten := by
  induction inputs generalizing ins with
  | nil => simp
  | cons ws inputs ih =>
    cases ins with
    | nil => simp
    | cons vs ins =>
      rw [List.zip_cons_cons, List.flatMap_cons, List.map_append, List.flatten_cons]
      refine List.Sublist.append ?_ (ih ins)
      clear ih
      induction ws generalizing vs with
      | nil => simp
      | cons w ws ih =>
        cases vs with
        | nil => simp
        | cons v vs =>
          simp only [List.zip_cons_cons, List.map_cons]
          exact (ih vs).cons_cons w

theorem list_ext_look {w w' : List Bool} (hl : w.length = w'.length) (h : ∀ i, look w i = look w' i) : w = w' := by
  refine List.ext_getElem hl fun i h1 h2 => ?_
  have h0 := h i
  have e1 := getElem?_look h1
  have e2 := getElem?_look h2
  rw [List.getElem?_eq_getElem h1, Option.some.injEq] at e1
  rw [List.getElem?_eq_getElem h2, Option.some.injEq] at e2
  rw [e1, e2, h0]

theorem eval_fit (c : Circuit) (hr : ∀ w ∈ c.inputs.flatten, w < c.numWires) (hn : c.inputs.flatten.Nodup) (ins : List (List Bool)) :
    c.eval ins = c.eval (fitInputs c.inputs ins) := by
  have key : setWires (List.replicate c.numWires false) ((List.zip c.inputs ins).flatMap fun p => List.zip p.1 p.2) =
      setWires (List.replicate c.numWires false) ((List.zip c.inputs (fitInputs c.inputs ins)).flatMap fun p => List.zip p.1 p.2) := by
    have hs1 := zip_sublist c.inputs ins
    have hs2 := zip_sublist c.inputs (fitInputs c.inputs ins)
    obtain ⟨w1, e1, l1, a1, b1⟩ := setWires_eq (List.replicate c.numWires false) _
      (fun p hp => by rw [List.length_replicate]; exact hr _ (hs1.subset (List.mem_map_of_mem hp))) (hs1.nodup hn)
    obtain ⟨w2, e2, l2, a2, b2⟩ := setWires_eq (List.replicate c.numWires false) _
      (fun p hp => by rw [List.length_replicate]; exact hr _ (hs2.subset (List.mem_map_of_mem hp))) (hs2.nodup hn)
    rw [e1, e2]
    congr 1
    refine list_ext_look (by rw [l1, l2]) fun i => ?_
    have hrep : look (List.replicate c.numWires false) i = false := by
      unfold look
      rw [List.getElem?_replicate]
      split <;> rfl
    by_cases h2 : i ∈ ((List.zip c.inputs (fitInputs c.inputs ins)).flatMap fun p => List.zip p.1 p.2).map Prod.fst
    · obtain ⟨q, hq, rfl⟩ := List.mem_map.1 h2
      rw [a2 q hq]
      by_cases h1 : q.1 ∈ ((List.zip c.inputs ins).flatMap fun p => List.zip p.1 p.2).map Prod.fst
      · obtain ⟨q', hq', he⟩ := List.mem_map.1 h1
        have := a2 q' (mem_fit.1 q' hq')
        rw [he, a2 q hq] at this
        rw [← he, a1 q' hq', this]
      · rw [b1 _ h1, hrep]
        rcases mem_fit.2 q hq with h | h
        · exact absurd (List.mem_map_of_mem h) h1
        · rw [h]
    · have h1 : i ∉ ((List.zip c.inputs ins).flatMap fun p => List.zip p.1 p.2).map Prod.fst := by
        intro h
        obtain ⟨q, hq, rfl⟩ := List.mem_map.1 h
        exact h2 (List.mem_map_of_mem (mem_fit.1 q hq))
      rw [b1 i h1, b2 i h2]
  unfold Circuit.eval
  simp only
  rw [key]

end Verif
