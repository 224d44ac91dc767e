import Mathlib.Data.Nat.Bitwise

/-!
# Model of the log-table arithmetic of `extern/galois/galois.c`

`int` values are natural numbers; every `int` operation of the modelled functions that could overflow
is checked explicitly (`intMax`), every array access is bounds-checked, and reading memory that
`malloc` returned but nobody wrote is an error.  All of these errors are `Outcome.ub`.
-/

namespace Verif.Galois

/-- `INT_MAX` for 32-bit `int`. -/
def intMax : Nat := 2147483647

/-- `prim_poly`, `extern/galois/galois.c:42-75` (C octal literals written in decimal/hex). -/
def primPoly : Nat → Nat
  | 1 => 0o1
  | 2 => 0o7
  | 3 => 0o13
  | 4 => 0o23
  | 5 => 0o45
  | 6 => 0o103
  | 7 => 0o211
  | 8 => 0o435
  | 9 => 0o1021
  | 10 => 0o2011
  | 11 => 0o4005
  | 12 => 0o10123
  | 13 => 0o20033
  | 14 => 0o42103
  | 15 => 0o100003
  | 16 => 0o210013
  | 17 => 0o400011
  | 18 => 0o1000201
  | 19 => 0o2000047
  | 20 => 0o4000011
  | 21 => 0o10000005
  | 22 => 0o20000003
  | 23 => 0o40000041
  | 24 => 0o100000207
  | 25 => 0o200000011
  | 26 => 0o400000107
  | 27 => 0o1000000047
  | 28 => 0o2000000011
  | 29 => 0o4000000005
  | 30 => 0o10040000007
  | _ => 0

/-- `nw[w]`, `galois.c:112-117`, for the widths `w ≤ 30` that reach it (`nw[0] = 0`). -/
def nw (w : Nat) : Nat := if w = 0 then 0 else 1 <<< w

/-- `nwm1[w]`, `galois.c:119-124`, for `w ≤ 30`. -/
def nwm1 (w : Nat) : Nat := if w = 0 then 0 else (1 <<< w) - 1

/-- Result of a C call: a value, process termination by `exit(1)`, or undefined behaviour. -/
inductive Outcome (α : Type) where
  | val (a : α)
  | exit
  | ub

/-- Sequencing of C statements. -/
def Outcome.bind {α β : Type} (o : Outcome α) (f : α → Outcome β) : Outcome β :=
  match o with
  | .val a => f a
  | .exit => .exit
  | .ub => .ub

/-- A heap block of `size` `int`s; `cell i = none` means never written. -/
structure Block where
  size : Nat
  cell : Nat → Option Nat

/-- `malloc(sizeof(int) * size)` (assumed to succeed). -/
def Block.malloc (size : Nat) : Block := ⟨size, fun _ => none⟩

/-- Read `a[i]`. -/
def Block.read (a : Block) (i : Nat) : Outcome Nat :=
  if i < a.size then
    match a.cell i with
    | some v => .val v
    | none => .ub
  else .ub

/-- Write `a[i] = v`. -/
def Block.write (a : Block) (i v : Nat) : Outcome Block :=
  if i < a.size then .val ⟨a.size, fun k => if k = i then some v else a.cell k⟩ else .ub

/-- The two tables of one width while being built. -/
structure Tables where
  log : Block
  ilog : Block

/-- `galois.c:162-165`, iterations `j .. j + k - 1`. -/
def clearLoop (w : Nat) : Nat → Nat → Tables → Outcome Tables
  | 0, _, t => .val t
  | k + 1, j, t =>
    (t.log.write j (nwm1 w)).bind fun log =>
    (t.ilog.write j 0).bind fun ilog =>
    clearLoop w k (j + 1) ⟨log, ilog⟩

/-- `galois.c:176-177`: multiply the running element by `x`. -/
def stepB (w b : Nat) : Nat :=
  let b2 := b <<< 1
  if b2 &&& nw w ≠ 0 then (b2 ^^^ primPoly w) &&& nwm1 w else b2

/-- `galois.c:168-178`, iterations `j .. j + k - 1`, with the self-check of lines 169-173 and the
signed shift of line 176. -/
def fillLoop (w : Nat) : Nat → Nat → Nat → Tables → Outcome Tables
  | 0, _, _, t => .val t
  | k + 1, j, b, t =>
    (t.log.read b).bind fun old =>
    if old ≠ nwm1 w then .exit
    else
      (t.log.write b j).bind fun log =>
      (t.ilog.write j b).bind fun ilog =>
      if b <<< 1 ≤ intMax then fillLoop w k (j + 1) (stepB w b) ⟨log, ilog⟩
      else .ub

/-- `galois.c:179-182`, iterations `j .. j + k - 1`; the index `j + nwm1[w]*2` is an `int`. -/
def copyLoop (w : Nat) : Nat → Nat → Tables → Outcome Tables
  | 0, _, t => .val t
  | k + 1, j, t =>
    (t.ilog.read j).bind fun v =>
    (t.ilog.write (j + nwm1 w) v).bind fun ilog =>
    if j + nwm1 w * 2 ≤ intMax then
      (ilog.read j).bind fun v2 =>
      (ilog.write (j + nwm1 w * 2) v2).bind fun ilog =>
      copyLoop w k (j + 1) ⟨t.log, ilog⟩
    else .ub

/-- `galois_create_log_tables`, `galois.c:146-185`, for a width whose tables do not exist yet
(line 151 otherwise returns 0 at once).  `none` is the return value -1, `some t` is 0 with the tables
left behind.  Allocation failures (lines 153, 156) are not modelled. -/
def createLogTables (w : Nat) : Outcome (Option Tables) :=
  if 30 < w then .val none
  else
    (clearLoop w (nw w) 0 ⟨Block.malloc (nw w), Block.malloc (nw w * 3)⟩).bind fun t =>
    (fillLoop w (nwm1 w) 0 1 t).bind fun t =>
    (copyLoop w (nwm1 w) 0 t).bind fun t => .val (some t)

/-- `galois_logtable_multiply`, `galois.c:187-197`.  `galois_ilog_tables[w]` was advanced by
`nwm1[w]` (line 183). -/
def logtableMultiply (w : Nat) (t : Tables) (x y : Nat) : Outcome Nat :=
  if x = 0 ∨ y = 0 then .val 0
  else
    (t.log.read x).bind fun lx =>
    (t.log.read y).bind fun ly =>
    t.ilog.read (nwm1 w + (lx + ly))

/-- `galois_logtable_divide`, `galois.c:199-210`; the return value -1 becomes `u32::MAX` through the
cast in `src/math/galois/mod.rs:235`. -/
def logtableDivide (w : Nat) (t : Tables) (x y : Nat) : Outcome Nat :=
  if y = 0 then .val 0xFFFFFFFF
  else if x = 0 then .val 0
  else
    (t.log.read x).bind fun lx =>
    (t.log.read y).bind fun ly =>
    if ly ≤ nwm1 w + lx then t.ilog.read (nwm1 w + lx - ly) else .ub

end Verif.Galois
