import Mathlib.Data.List.Basic

/-!
# The JSON texts which the benchmark programs write and read

`src/bin/preproc.rs` and `src/bin/garble.rs` use the crate `json` (0.12.4, `Cargo.toml:18`), which is not part of the repository.  The model
follows RFC 8259 and what the documentation says about `JsonValue::dump` (no white space, members in the order of insertion).  Left out are the values
which the programs do not use: `true`, `false`, `null`, negative numbers, fractions and exponents, which `parse` rejects here.  Texts are
lists of bytes.
-/

namespace Verif

/-- `json::JsonValue`. Strings are lists of bytes. -/
inductive Json
  | num (n : Nat)
  | str (s : List Nat)
  | arr (l : List Json)
  | obj (l : List (List Nat × Json))

/-- The bytes of a text in ASCII. -/
def ascii (s : String) : List Nat := s.toList.map Char.toNat

/-- The last digit after the others. -/
def decimal (n : Nat) : List Nat := if n < 10 then [48 + n] else decimal (n / 10) ++ [48 + n % 10]
termination_by n
decreasing_by omega

/-- A hexadecimal digit. -/
def hexDigit (d : Nat) : Nat := if d < 10 then 48 + d else 87 + d

/-- Which bytes `dump` writes as `\u00XX`, besides the control characters: it may do so with any byte below 128 which has no shorter
escape. -/
abbrev Escapes := Nat → Bool

/-- One byte of a string. -/
def dumpByte (esc : Escapes) (b : Nat) : List Nat :=
  if b = 34 then [92, 34]
  else if b = 92 then [92, 92]
  else if b = 8 then [92, 98]
  else if b = 9 then [92, 116]
  else if b = 10 then [92, 110]
  else if b = 12 then [92, 102]
  else if b = 13 then [92, 114]
  else if b < 32 ∨ b < 128 ∧ esc b then [92, 117, 48, 48, hexDigit (b / 16), hexDigit (b % 16)]
  else [b]

/-- A string with its quotes. -/
def dumpStr (esc : Escapes) (s : List Nat) : List Nat := 34 :: s.flatMap (dumpByte esc) ++ [34]

mutual
/-- `JsonValue::dump`. -/
def Json.dump (esc : Escapes) : Json → List Nat
  | .num n => decimal n
  | .str s => dumpStr esc s
  | .arr l => 91 :: Json.dumpArr esc l ++ [93]
  | .obj l => 123 :: Json.dumpObj esc l ++ [125]

/-- The elements of an array. -/
def Json.dumpArr (esc : Escapes) : List Json → List Nat
  | [] => []
  | [x] => x.dump esc
  | x :: y :: l => x.dump esc ++ 44 :: Json.dumpArr esc (y :: l)

/-- The members of an object. -/
def Json.dumpObj (esc : Escapes) : List (List Nat × Json) → List Nat
  | [] => []
  | [(k, x)] => dumpStr esc k ++ 58 :: x.dump esc
  | (k, x) :: y :: l => dumpStr esc k ++ 58 :: x.dump esc ++ 44 :: Json.dumpObj esc (y :: l)
end

/-- Space, tab, line feed and carriage return. -/
def skipWs (s : List Nat) : List Nat := s.dropWhile fun b => b = 32 || b = 9 || b = 10 || b = 13

/-- The value of a hexadecimal digit. -/
def hexValue (b : Nat) : Option Nat :=
  if 48 ≤ b ∧ b ≤ 57 then some (b - 48)
  else if 97 ≤ b ∧ b ≤ 102 then some (b - 87)
  else if 65 ≤ b ∧ b ≤ 70 then some (b - 55)
  else none

/-- The UTF-8 bytes of a code point below 65536; surrogates are rejected. -/
def utf8 (c : Nat) : Option (List Nat) :=
  if c < 128 then some [c]
  else if c < 2048 then some [192 + c / 64, 128 + c % 64]
  else if 55296 ≤ c ∧ c < 57344 then none
  else some [224 + c / 4096, 128 + c / 64 % 64, 128 + c % 64]

/-- The rest of a string after the opening quote: its bytes and what follows the closing quote. -/
def parseStr : List Nat → Option (List Nat × List Nat)
  | 34 :: r => some ([], r)
  | 92 :: 117 :: a :: b :: c :: d :: r =>
    (hexValue a).bind fun a => (hexValue b).bind fun b => (hexValue c).bind fun c => (hexValue d).bind fun d =>
      (utf8 (((a * 16 + b) * 16 + c) * 16 + d)).bind fun u => (parseStr r).map fun x => (u ++ x.1, x.2)
  | 92 :: 34 :: r => (parseStr r).map fun x => (34 :: x.1, x.2)
  | 92 :: 92 :: r => (parseStr r).map fun x => (92 :: x.1, x.2)
  | 92 :: 47 :: r => (parseStr r).map fun x => (47 :: x.1, x.2)
  | 92 :: 98 :: r => (parseStr r).map fun x => (8 :: x.1, x.2)
  | 92 :: 102 :: r => (parseStr r).map fun x => (12 :: x.1, x.2)
  | 92 :: 110 :: r => (parseStr r).map fun x => (10 :: x.1, x.2)
  | 92 :: 114 :: r => (parseStr r).map fun x => (13 :: x.1, x.2)
  | 92 :: 116 :: r => (parseStr r).map fun x => (9 :: x.1, x.2)
  | b :: r => if b = 92 ∨ b < 32 then none else (parseStr r).map fun x => (b :: x.1, x.2)
  | [] => none

/-- A decimal digit. -/
def isDigit (b : Nat) : Bool := 48 ≤ b && b ≤ 57

/-- A number without leading zeros, exact as long as it fits into 64 bits (others are rejected here). -/
def parseNum (s : List Nat) : Option (Nat × List Nat) :=
  let ds := s.takeWhile isDigit
  if ds = [] ∨ ds.head? = some 48 ∧ ds.length ≠ 1 then none
  else
    let n := ds.foldl (fun a d => a * 10 + (d - 48)) 0
    if n < 2 ^ 64 then some (n, s.dropWhile isDigit) else none

mutual
/-- A value at the beginning of a text, and the rest of the text. -/
def parseVal : Nat → List Nat → Option (Json × List Nat)
  | 0, _ => none
  | fuel + 1, s =>
    match skipWs s with
    | 34 :: r => (parseStr r).map fun x => (.str x.1, x.2)
    | 91 :: r =>
      match skipWs r with
      | 93 :: r => some (.arr [], r)
      | r => (parseElems fuel r).map fun x => (.arr x.1, x.2)
    | 123 :: r =>
      match skipWs r with
      | 125 :: r => some (.obj [], r)
      | r => (parseMembers fuel r).map fun x => (.obj x.1, x.2)
    | s => (parseNum s).map fun x => (.num x.1, x.2)

/-- The elements of an array, up to the closing bracket. -/
def parseElems : Nat → List Nat → Option (List Json × List Nat)
  | 0, _ => none
  | fuel + 1, s =>
    (parseVal fuel s).bind fun x =>
      match skipWs x.2 with
      | 93 :: r => some ([x.1], r)
      | 44 :: r => (parseElems fuel r).map fun y => (x.1 :: y.1, y.2)
      | _ => none

/-- The members of an object, up to the closing brace. -/
def parseMembers : Nat → List Nat → Option (List (List Nat × Json) × List Nat)
  | 0, _ => none
  | fuel + 1, s =>
    match skipWs s with
    | 34 :: r =>
      (parseStr r).bind fun k =>
        match skipWs k.2 with
        | 58 :: r =>
          (parseVal fuel r).bind fun x =>
            match skipWs x.2 with
            | 125 :: r => some ([(k.1, x.1)], r)
            | 44 :: r => (parseMembers fuel r).map fun y => ((k.1, x.1) :: y.1, y.2)
            | _ => none
        | _ => none
    | _ => none
end

/-- `json::parse`. (Of members with the same name, the crate keeps the last one; the programs write no such objects.) -/
def Json.parse (s : List Nat) : Option Json :=
  (parseVal (s.length + 1) s).bind fun x => if skipWs x.2 = [] then some x.1 else none

end Verif
