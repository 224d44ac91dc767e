import Verif.Json
import Mathlib.Tactic.Ring
import Mathlib.Tactic.NormNum

/-!
# Writing and reading JSON texts
-/

namespace Verif

mutual
/-- Numbers fit into 64 bits, and strings are bytes. -/
def Json.Ok : Json → Prop
  | .num n => n < 2 ^ 64
  | .str _ => True
  | .arr l => Json.OkArr l
  | .obj l => Json.OkObj l

def Json.OkArr : List Json → Prop
  | [] => True
  | x :: l => x.Ok ∧ Json.OkArr l

def Json.OkObj : List (List Nat × Json) → Prop
  | [] => True
  | x :: l => x.2.Ok ∧ Json.OkObj l
end

theorem isDigit_iff {b : Nat} : isDigit b = true ↔ 48 ≤ b ∧ b ≤ 57 := by
  unfold isDigit
  simp

theorem decimal_digits (n : Nat) : ∀ b ∈ decimal n, isDigit b = true := by
  induction n using Nat.strongRecOn with
  | _ n ih =>
    rw [decimal]
    split
    · intro b hb
      rw [List.mem_singleton] at hb
      rw [hb, isDigit_iff]
      omega
    · intro b hb
      rw [List.mem_append, List.mem_singleton] at hb
      rcases hb with hb | hb
      · exact ih _ (by omega) b hb
      · rw [hb, isDigit_iff]
        omega

theorem decimal_ne_nil (n : Nat) : decimal n ≠ [] := by
  rw [decimal]
  split
  · simp
  · simp

theorem decimal_value (n : Nat) : (decimal n).foldl (fun a d => a * 10 + (d - 48)) 0 = n := by
  induction n using Nat.strongRecOn with
  | _ n ih =>
    rw [decimal]
    split
    · simp
    · rw [List.foldl_append, ih _ (by omega)]
      simp only [List.foldl_cons, List.foldl_nil]
      omega

theorem decimal_head (n : Nat) : (decimal n).head? ≠ some 48 ∨ (decimal n).length = 1 := by
  induction n using Nat.strongRecOn with
  | _ n ih =>
    rw [decimal]
    split
    · right
      rfl
    · left
      rw [List.head?_append_of_ne_nil _ (decimal_ne_nil _)]
      by_cases h : n / 10 < 10
      · rw [decimal, if_pos h]
        simp only [List.head?_cons, ne_eq, Option.some.injEq]
        omega
      · rcases ih (n / 10) (by omega) with h1 | h1
        · exact h1
        · exfalso
          rw [decimal, if_neg h, List.length_append, List.length_singleton] at h1
          have := List.length_pos_iff.2 (decimal_ne_nil (n / 10 / 10))
          omega

/-- A text which does not start with a digit. -/
def NoDigit (s : List Nat) : Prop := ∀ b, s.head? = some b → isDigit b = false

theorem takeWhile_digits {ds s : List Nat} (h : ∀ b ∈ ds, isDigit b = true) (hs : NoDigit s) :
    (ds ++ s).takeWhile isDigit = ds ∧ (ds ++ s).dropWhile isDigit = s := by
  induction ds with
  | nil =>
    cases s with
    | nil => exact ⟨rfl, rfl⟩
    | cons b s =>
      have := hs b rfl
      simp [this]
  | cons d ds ih =>
    obtain ⟨h1, h2⟩ := ih fun b hb => h b (List.mem_cons_of_mem _ hb)
    have := h d List.mem_cons_self
    simp [this, h1, h2]

theorem parseNum_decimal {n : Nat} (hn : n < 2 ^ 64) {s : List Nat} (hs : NoDigit s) : parseNum (decimal n ++ s) = some (n, s) := by
  unfold parseNum
  obtain ⟨h1, h2⟩ := takeWhile_digits (decimal_digits n) hs
  simp only [h1, h2, decimal_value]
  rw [if_neg, if_pos hn]
  rintro (h | ⟨h, h'⟩)
  · exact decimal_ne_nil n h
  · rcases decimal_head n with h3 | h3
    · exact h3 h
    · exact h' h3

theorem hexValue_hexDigit {d : Nat} (h : d < 16) : hexValue (hexDigit d) = some d := by
  unfold hexValue hexDigit
  split
  · rw [if_pos (by omega), Nat.add_sub_cancel_left]
  · rw [if_neg (by omega), if_pos (by omega), Nat.add_sub_cancel_left]

theorem parseStr_byte (esc : Escapes) (b : Nat) (r : List Nat) :
    parseStr (dumpByte esc b ++ r) = (parseStr r).map fun x => (b :: x.1, x.2) := by
  unfold dumpByte
  split
  · subst b; simp [parseStr]
  split
  · subst b; simp [parseStr]
  split
  · subst b; simp [parseStr]
  split
  · subst b; simp [parseStr]
  split
  · subst b; simp [parseStr]
  split
  · subst b; simp [parseStr]
  split
  · subst b; simp [parseStr]
  split
  · rename_i h
    have hb : b < 128 := by omega
    have h1 := hexValue_hexDigit (show b / 16 < 16 by omega)
    have h2 := hexValue_hexDigit (show b % 16 < 16 by omega)
    have h0 : hexValue 48 = some 0 := rfl
    have hu : ((0 * 16 + 0) * 16 + b / 16) * 16 + b % 16 = b := by omega
    simp only [List.cons_append, List.nil_append, parseStr, h0, h1, h2, Option.bind_some, hu]
    unfold utf8
    rw [if_pos hb]
    rfl
  · rename_i h1 h2 h3 h4 h5 h6 h7 h8
    rw [List.singleton_append]
    rw [parseStr.eq_def]
    split <;> simp_all

theorem parseStr_dump (esc : Escapes) (s r : List Nat) : parseStr (s.flatMap (dumpByte esc) ++ 34 :: r) = some (s, r) := by
  induction s with
  | nil => simp [parseStr]
  | cons b s ih => rw [List.flatMap_cons, List.append_assoc, parseStr_byte, ih, Option.map_some]

/-- What a value starts with. -/
def ValueHead (b : Nat) : Prop := b = 34 ∨ b = 91 ∨ b = 123 ∨ isDigit b = true

theorem Json.dump_head (esc : Escapes) (v : Json) : ∃ b s, v.dump esc = b :: s ∧ ValueHead b := by
  cases v with
  | num n =>
    rw [Json.dump]
    cases h : decimal n with
    | nil => exact absurd h (decimal_ne_nil n)
    | cons b s => exact ⟨b, s, rfl, Or.inr (Or.inr (Or.inr (decimal_digits n b (by rw [h]; exact List.mem_cons_self))))⟩
  | str s => exact ⟨34, _, by rw [Json.dump, dumpStr]; rfl, Or.inl rfl⟩
  | arr l => exact ⟨91, _, by rw [Json.dump]; rfl, Or.inr (Or.inl rfl)⟩
  | obj l => exact ⟨123, _, by rw [Json.dump]; rfl, Or.inr (Or.inr (Or.inl rfl))⟩

theorem skipWs_cons {b : Nat} (s : List Nat) (h : b ≠ 32 ∧ b ≠ 9 ∧ b ≠ 10 ∧ b ≠ 13) : skipWs (b :: s) = b :: s := by
  unfold skipWs
  rw [List.dropWhile_cons_of_neg]
  simp [h]

theorem ValueHead.noWs {b : Nat} (h : ValueHead b) : b ≠ 32 ∧ b ≠ 9 ∧ b ≠ 10 ∧ b ≠ 13 := by
  rcases h with h | h | h | h
  · omega
  · omega
  · omega
  · rw [isDigit_iff] at h
    omega

theorem ValueHead.ne {b : Nat} (h : ValueHead b) : b ≠ 93 ∧ b ≠ 125 := by
  rcases h with h | h | h | h
  · omega
  · omega
  · omega
  · rw [isDigit_iff] at h
    omega

theorem noDigit_cons {b : Nat} (s : List Nat) (h : isDigit b = false) : NoDigit (b :: s) := by
  intro c hc
  cases hc
  exact h

theorem dumpArr_head (esc : Escapes) (x : Json) (l : List Json) : ∃ b s, Json.dumpArr esc (x :: l) = b :: s ∧ ValueHead b := by
  obtain ⟨b, s, h, hb⟩ := x.dump_head esc
  cases l with
  | nil => exact ⟨b, s, by rw [Json.dumpArr, h], hb⟩
  | cons y l => exact ⟨b, _, by rw [Json.dumpArr, h]; rfl, hb⟩

theorem dumpObj_head (esc : Escapes) (x : List Nat × Json) (l : List (List Nat × Json)) : ∃ s, Json.dumpObj esc (x :: l) = 34 :: s := by
  cases l with
  | nil => exact ⟨_, by rw [Json.dumpObj, dumpStr]; rfl⟩
  | cons y l => exact ⟨_, by rw [Json.dumpObj, dumpStr]; rfl⟩

mutual
theorem parseVal_dump (esc : Escapes) : ∀ (v : Json), v.Ok → ∀ (rest : List Nat), NoDigit rest → ∀ fuel, (v.dump esc).length ≤ fuel →
    parseVal fuel (v.dump esc ++ rest) = some (v, rest)
  | .num n, hok, rest, hr, 0, hf => by
    obtain ⟨b, s, h, _⟩ := (Json.num n).dump_head esc
    rw [h] at hf
    simp at hf
  | .num n, hok, rest, hr, fuel + 1, hf => by
    obtain ⟨b, s, h, hb⟩ := (Json.num n).dump_head esc
    have hd : isDigit b = true := by
      rw [Json.dump] at h
      exact decimal_digits n b (by rw [h]; exact List.mem_cons_self)
    rw [isDigit_iff] at hd
    rw [Json.Ok] at hok
    have hp := parseNum_decimal hok hr
    rw [Json.dump] at h ⊢
    rw [h] at hp ⊢
    rw [List.cons_append, parseVal, skipWs_cons _ hb.noWs]
    split
    · rename_i heq
      cases heq
      omega
    · rename_i heq
      cases heq
      omega
    · rename_i heq
      cases heq
      omega
    · rename_i heq
      rw [← List.cons_append, hp]
      rfl
  | .str s, _, rest, hr, 0, hf => by
    simp [Json.dump, dumpStr] at hf
  | .str s, _, rest, hr, fuel + 1, hf => by
    rw [Json.dump, dumpStr, List.cons_append, List.cons_append, parseVal, skipWs_cons _ (by decide), List.append_assoc,
      List.singleton_append]
    simp only [parseStr_dump, Option.map_some]
  | .arr [], _, rest, hr, 0, hf => by
    simp [Json.dump] at hf
  | .arr [], _, rest, hr, fuel + 1, hf => by
    rw [Json.dump, Json.dumpArr, List.cons_append, List.cons_append, parseVal, skipWs_cons _ (by decide)]
    simp only [List.nil_append, List.singleton_append]
    rw [skipWs_cons _ (by decide)]
    rfl
  | .arr (x :: l), hok, rest, hr, 0, hf => by
    simp [Json.dump] at hf
  | .arr (x :: l), hok, rest, hr, fuel + 1, hf => by
    rw [Json.Ok] at hok
    have hl := parseElems_dump esc (x :: l) (by simp) hok rest fuel (by
      rw [Json.dump, List.length_append, List.length_cons, List.length_singleton] at hf
      omega)
    obtain ⟨b, s, h, hb⟩ := dumpArr_head esc x l
    rw [Json.dump, List.cons_append, List.cons_append, parseVal, skipWs_cons _ (by decide), List.append_assoc, List.singleton_append]
    simp only []
    rw [h] at hl ⊢
    rw [List.cons_append] at hl ⊢
    rw [skipWs_cons _ hb.noWs]
    split
    · rename_i heq
      cases heq
      exact absurd rfl hb.ne.1
    · rw [hl]
      rfl
  | .obj [], _, rest, hr, 0, hf => by
    simp [Json.dump] at hf
  | .obj [], _, rest, hr, fuel + 1, hf => by
    rw [Json.dump, Json.dumpObj, List.cons_append, List.cons_append, parseVal, skipWs_cons _ (by decide)]
    simp only [List.nil_append, List.singleton_append]
    rw [skipWs_cons _ (by decide)]
    rfl
  | .obj (x :: l), hok, rest, hr, 0, hf => by
    simp [Json.dump] at hf
  | .obj (x :: l), hok, rest, hr, fuel + 1, hf => by
    rw [Json.Ok] at hok
    have hl := parseMembers_dump esc (x :: l) (by simp) hok rest fuel (by
      rw [Json.dump, List.length_append, List.length_cons, List.length_singleton] at hf
      omega)
    obtain ⟨s, h⟩ := dumpObj_head esc x l
    rw [Json.dump, List.cons_append, List.cons_append, parseVal, skipWs_cons _ (by decide), List.append_assoc, List.singleton_append]
    simp only []
    rw [h] at hl ⊢
    rw [List.cons_append] at hl ⊢
    rw [skipWs_cons _ (by decide)]
    simp only [hl, Option.map_some]

theorem parseElems_dump (esc : Escapes) : ∀ (l : List Json), l ≠ [] → Json.OkArr l → ∀ (rest : List Nat) fuel,
    (Json.dumpArr esc l).length + 1 ≤ fuel → parseElems fuel (Json.dumpArr esc l ++ 93 :: rest) = some (l, rest)
  | [], h, _, _, _, _ => absurd rfl h
  | x :: l, _, _, _, 0, hf => by omega
  | [x], _, hok, rest, fuel + 1, hf => by
    rw [Json.OkArr] at hok
    rw [Json.dumpArr] at hf ⊢
    have := parseVal_dump esc x hok.1 (93 :: rest) (noDigit_cons _ (by decide)) fuel (by omega)
    rw [parseElems, this, Option.bind_some]
    simp only []
    rw [skipWs_cons _ (by decide)]
    rfl
  | x :: y :: l, _, hok, rest, fuel + 1, hf => by
    rw [Json.OkArr] at hok
    rw [Json.dumpArr] at hf ⊢
    rw [List.length_append, List.length_cons] at hf
    have h1 := parseVal_dump esc x hok.1 (44 :: (Json.dumpArr esc (y :: l) ++ 93 :: rest)) (noDigit_cons _ (by decide)) fuel (by omega)
    have h2 := parseElems_dump esc (y :: l) (by simp) hok.2 rest fuel (by omega)
    rw [List.append_assoc, List.cons_append, parseElems, h1, Option.bind_some]
    simp only []
    rw [skipWs_cons _ (by decide)]
    simp only [h2, Option.map_some]

theorem parseMembers_dump (esc : Escapes) : ∀ (l : List (List Nat × Json)), l ≠ [] → Json.OkObj l → ∀ (rest : List Nat) fuel,
    (Json.dumpObj esc l).length + 1 ≤ fuel → parseMembers fuel (Json.dumpObj esc l ++ 125 :: rest) = some (l, rest)
  | [], h, _, _, _, _ => absurd rfl h
  | x :: l, _, _, _, 0, hf => by omega
  | [(k, x)], _, hok, rest, fuel + 1, hf => by
    rw [Json.OkObj] at hok
    rw [Json.dumpObj] at hf ⊢
    rw [List.length_append, List.length_cons] at hf
    have := parseVal_dump esc x hok.1 (125 :: rest) (noDigit_cons _ (by decide)) fuel (by omega)
    rw [dumpStr, List.append_assoc, List.cons_append, List.cons_append, List.append_assoc, List.singleton_append, parseMembers,
      skipWs_cons _ (by decide)]
    simp only [parseStr_dump, Option.bind_some]
    rw [List.cons_append, skipWs_cons _ (by decide)]
    simp only [this, Option.bind_some]
    rw [skipWs_cons _ (by decide)]
    rfl
  | (k, x) :: y :: l, _, hok, rest, fuel + 1, hf => by
    rw [Json.OkObj] at hok
    rw [Json.dumpObj] at hf ⊢
    simp only [List.length_append, List.length_cons] at hf
    have h1 := parseVal_dump esc x hok.1 (44 :: (Json.dumpObj esc (y :: l) ++ 125 :: rest)) (noDigit_cons _ (by decide)) fuel (by omega)
    have h2 := parseMembers_dump esc (y :: l) (by simp) hok.2 rest fuel (by omega)
    simp only [dumpStr, List.append_assoc, List.cons_append, List.nil_append]
    rw [parseMembers, skipWs_cons _ (by decide)]
    simp only [parseStr_dump, Option.bind_some]
    rw [skipWs_cons _ (by decide)]
    simp only [h1, Option.bind_some]
    rw [skipWs_cons _ (by decide)]
    simp only [h2, Option.map_some]
end

/-- Reading what was written. -/
theorem Json.parse_dump (esc : Escapes) (v : Json) (h : v.Ok) : Json.parse (v.dump esc) = some v := by
  unfold Json.parse
  have := parseVal_dump esc v h [] (by intro b hb; cases hb) ((v.dump esc).length + 1) (by omega)
  rw [List.append_nil] at this
  rw [this]
  rfl

end Verif
