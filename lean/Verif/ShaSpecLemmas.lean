import Verif.ShaSpec
import Mathlib.Data.List.GetD
import Mathlib.Tactic.IntervalCases

/-!
# The words of SHA-256 as recurrences
-/

namespace Verif.Sha

section
variable (block : List Word)

theorem sched_length (n : Nat) : (schedule block n).length = block.length + n := by
  induction n with
  | zero => rfl
  | succ n ih => simp [schedule, ih]; omega

theorem sched_stable (hb : block.length = 16) (n m i : Nat) (h : i < n + 16) (hm : n ≤ m) :
    at' (schedule block m) i = at' (schedule block n) i := by
  induction m with
  | zero => obtain rfl : n = 0 := by omega
            rfl
  | succ m ih =>
    by_cases hn : n = m + 1
    · subst hn; rfl
    · rw [← ih (by omega)]
      simp only [schedule, at']
      rw [List.getD_append _ _ _ _ (by rw [sched_length]; omega)]

/-- Word `t` of the message schedule. -/
def msgWord (t : Nat) : Word := at' (schedule block 48) t

variable {block} (hb : block.length = 16)
include hb

theorem msgWord_lt (t : Nat) (h : t < 16) : msgWord block t = at' block t := by
  unfold msgWord
  rw [sched_stable block hb 0 48 t (by omega) (by omega)]
  rfl

theorem msgWord_ge (t : Nat) (h1 : 16 ≤ t) (h2 : t < 64) :
    msgWord block t = smallSigma1 (msgWord block (t - 2)) + msgWord block (t - 7)
      + smallSigma0 (msgWord block (t - 15)) + msgWord block (t - 16) := by
  obtain ⟨n, rfl⟩ : ∃ n, t = n + 16 := ⟨t - 16, by omega⟩
  unfold msgWord
  rw [sched_stable block hb (n + 1) 48 (n + 16) (by omega) (by omega),
    sched_stable block hb n 48 (n + 16 - 2) (by omega) (by omega),
    sched_stable block hb n 48 (n + 16 - 7) (by omega) (by omega),
    sched_stable block hb n 48 (n + 16 - 15) (by omega) (by omega),
    sched_stable block hb n 48 (n + 16 - 16) (by omega) (by omega)]
  have hl := sched_length block n
  have e : ∀ (l : List Word) (x : Word) (i : Nat), l.length = i → at' (l ++ [x]) i = x := by
    intro l x i h
    rw [at', List.getD_append_right _ _ _ _ (by omega), h, Nat.sub_self]
    rfl
  conv_lhs => rw [schedule]
  exact e _ _ _ (by omega)

end

section
variable (ws hash : List Word)

/-- The working variable `a` after `u - 3` steps; the initial `b`, `c`, `d` for `u = 2, 1, 0`. -/
def varA (u : Nat) : Word := if u < 3 then at' hash (3 - u) else (steps ws (State.init hash) (u - 3)).a

/-- The working variable `e` after `u - 3` steps; the initial `f`, `g`, `h` for `u = 2, 1, 0`. -/
def varE (u : Nat) : Word := if u < 3 then at' hash (7 - u) else (steps ws (State.init hash) (u - 3)).e

theorem varA_add (t : Nat) : varA ws hash (t + 3) = (steps ws (State.init hash) t).a := by
  unfold varA
  rw [if_neg (by omega), Nat.add_sub_cancel]

theorem varE_add (t : Nat) : varE ws hash (t + 3) = (steps ws (State.init hash) t).e := by
  unfold varE
  rw [if_neg (by omega), Nat.add_sub_cancel]

theorem steps_b (t : Nat) : (steps ws (State.init hash) t).b = varA ws hash (t + 2) := by
  cases t with
  | zero => rfl
  | succ t => exact (varA_add ws hash t).symm

theorem steps_c (t : Nat) : (steps ws (State.init hash) t).c = varA ws hash (t + 1) := by
  cases t with
  | zero => rfl
  | succ t => exact steps_b ws hash t

theorem steps_d (t : Nat) : (steps ws (State.init hash) t).d = varA ws hash t := by
  cases t with
  | zero => rfl
  | succ t => exact steps_c ws hash t

theorem steps_f (t : Nat) : (steps ws (State.init hash) t).f = varE ws hash (t + 2) := by
  cases t with
  | zero => rfl
  | succ t => exact (varE_add ws hash t).symm

theorem steps_g (t : Nat) : (steps ws (State.init hash) t).g = varE ws hash (t + 1) := by
  cases t with
  | zero => rfl
  | succ t => exact steps_f ws hash t

theorem steps_h (t : Nat) : (steps ws (State.init hash) t).h = varE ws hash t := by
  cases t with
  | zero => rfl
  | succ t => exact steps_g ws hash t

/-- `T1` of step `t + 1`. -/
def temp1 (t : Nat) : Word :=
  varE ws hash t + bigSigma1 (varE ws hash (t + 3))
    + ch (varE ws hash (t + 3)) (varE ws hash (t + 2)) (varE ws hash (t + 1)) + at' constants t + at' ws t

theorem varA_succ (t : Nat) : varA ws hash (t + 4) = temp1 ws hash t + (bigSigma0 (varA ws hash (t + 3))
    + maj (varA ws hash (t + 3)) (varA ws hash (t + 2)) (varA ws hash (t + 1))) := by
  rw [show t + 4 = (t + 1) + 3 from rfl, varA_add]
  simp only [steps, step, temp1]
  rw [steps_b, steps_c, steps_f, steps_g, steps_h, varA_add, varE_add]

theorem varE_succ (t : Nat) : varE ws hash (t + 4) = varA ws hash t + temp1 ws hash t := by
  rw [show t + 4 = (t + 1) + 3 from rfl, varE_add]
  simp only [steps, step, temp1]
  rw [steps_d, steps_f, steps_g, steps_h, varE_add]

end

/-! ## Output -/

theorem final_at (ws hash : List Word) (hh : hash.length = 8) (t j : Nat) (hj : j < 8) :
    at' (List.zipWith (· + ·) hash [(steps ws (State.init hash) t).a, (steps ws (State.init hash) t).b,
      (steps ws (State.init hash) t).c, (steps ws (State.init hash) t).d, (steps ws (State.init hash) t).e,
      (steps ws (State.init hash) t).f, (steps ws (State.init hash) t).g, (steps ws (State.init hash) t).h]) j
    = at' hash j + (if j < 4 then varA ws hash (t + 3 - j) else varE ws hash (t + 7 - j)) := by
  rw [steps_b, steps_c, steps_d, steps_f, steps_g, steps_h, ← varA_add, ← varE_add]
  generalize varA ws hash = A
  generalize varE ws hash = E
  match hash, hh with
  | [x0, x1, x2, x3, x4, x5, x6, x7], _ => interval_cases j <;> rfl

theorem compress_at (block hash : List Word) (hh : hash.length = 8) (j : Nat) (hj : j < 8) :
    at' (compressWords block hash) j = at' hash j + (if j < 4 then varA (schedule block 48) hash (67 - j)
      else varE (schedule block 48) hash (71 - j)) :=
  final_at (schedule block 48) hash hh 64 j hj

theorem compress_length (block hash : List Word) (hh : hash.length = 8) :
    (compressWords block hash).length = 8 := by
  simp [compressWords, hh]

/-! ## Numbers and words -/

theorem wordsOf_length {w : Nat} (n : Nat) (x : BitVec w) : (wordsOf n x).length = n := by
  simp [wordsOf]

theorem at_wordsOf {w : Nat} (n : Nat) (x : BitVec w) (i k : Nat) (hi : i < n) (hk : k < 32) :
    (at' (wordsOf n x) i).getLsbD k = x.getLsbD (32 * (n - 1 - i) + k) := by
  unfold at' wordsOf
  rw [List.getD_eq_getElem _ _ (by simpa using hi)]
  simp [hk]

theorem getLsbD_foldw (l : List Word) (acc : BitVec 256) (w : Nat) (hw : w < 256) :
    (l.foldl (fun (acc : BitVec 256) b => (acc <<< 32) ||| b.setWidth 256) acc).getLsbD w
      = if w < 32 * l.length then (at' l (l.length - 1 - w / 32)).getLsbD (w % 32)
        else acc.getLsbD (w - 32 * l.length) := by
  induction l generalizing acc with
  | nil => simp
  | cons b l ih =>
    rw [List.foldl_cons, ih]
    simp only [List.length_cons]
    by_cases h1 : w < 32 * l.length
    · rw [if_pos h1, if_pos (by omega)]
      congr 1
      have e : l.length + 1 - 1 - w / 32 = (l.length - 1 - w / 32) + 1 := by omega
      rw [e]
      rfl
    · rw [if_neg h1]
      rw [BitVec.getLsbD_or, BitVec.getLsbD_shiftLeft, BitVec.getLsbD_setWidth]
      by_cases h2 : w < 32 * (l.length + 1)
      · rw [if_pos h2]
        have e : l.length + 1 - 1 - w / 32 = 0 := by omega
        have e2 : w % 32 = w - 32 * l.length := by omega
        have h3 : w - 32 * l.length < 32 := by omega
        have h4 : w - 32 * l.length < 256 := by omega
        rw [e, e2]
        simp [h3, h4, at']
      · rw [if_neg h2]
        have h3 : ¬ w - 32 * l.length < 32 := by omega
        have h4 : w - 32 * l.length < 256 := by omega
        have h5 : w - 32 * (l.length + 1) = w - 32 * l.length - 32 := by omega
        simp [h3, h4, h5, BitVec.getLsbD_of_ge b (w - 32 * l.length) (by omega)]

theorem getLsbD_ofWords (l : List Word) (hl : l.length = 8) (w : Nat) (hw : w < 256) :
    (ofWords l).getLsbD w = (at' l (7 - w / 32)).getLsbD (w % 32) := by
  rw [ofWords, getLsbD_foldw l 0 w hw, if_pos (by omega), hl]

end Verif.Sha
