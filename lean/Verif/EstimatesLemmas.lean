import Verif.Estimates
import Verif.EstimatesSpec
import Verif.GarbleRows
import Verif.Props.AsyncComm
import Verif.Props.Circuit

/-!
# Lemmas about the estimate of the communication
-/

open Verif

namespace Verif.Props

/-! ### What the parties count, apart from lengths and IDs -/

/-- The bytes of `garble` without the IDs are 8 for each message and `B` for each field element. -/
theorem garbleBytes_split (n l B K a nOut nInp : Nat) (kinds : List GateKind) :
    (garbleBytes n l B K a nOut nInp kinds).1 = 8 * garbleMsgs n l nOut nInp kinds + B * garbleElems n l K nOut nInp kinds := by
  unfold garbleBytes garbleMsgs garbleElems
  simp only []
  ring

theorem sum_errShare (errors n : Nat) (hn : 0 < n) : ∑ p ∈ Finset.range n, errShare errors n p = errors := by
  obtain ⟨m, rfl⟩ : ∃ m, n = m + 1 := ⟨n - 1, by omega⟩
  rw [Finset.sum_range_succ, Finset.sum_congr rfl (g := fun _ => errors / (m + 1)) (by
    intro p hp
    have := Finset.mem_range.1 hp
    unfold errShare
    rw [if_pos (by omega)])]
  unfold errShare
  rw [if_neg (by omega), Finset.sum_const, Finset.card_range, smul_eq_mul, Nat.add_sub_cancel]
  have : m * (errors / (m + 1)) ≤ errors :=
    (Nat.mul_le_mul_right _ (Nat.le_succ m)).trans (Nat.mul_div_le errors (m + 1))
  omega

/-- The bytes of `preproc` without the IDs, between all parties. -/
theorem preprocBytes_split (n B rows brows a : Nat) (desc : PreProcCount) (hn : 0 < n) :
    ∑ p ∈ Finset.range n, ∑ q ∈ Finset.range n, (preprocBytes n B rows brows a desc p q).1
      = 8 * (7 * (n * n)) + B * preprocElems n rows brows desc := by
  unfold preprocBytes preprocElems
  simp only [mul_add, Finset.sum_add_distrib, Finset.sum_const, Finset.card_range, smul_eq_mul, ← Finset.mul_sum,
    sum_errShare _ _ hn]
  ring

/-! ### The estimate as a formula -/

/-- Rounded-up quotient. -/
def cdiv (a b : Nat) : Nat := (a + b - 1) / b

theorem estCeil_some {num batch : Nat} (h : 0 < batch) : estCeil num batch = some (cdiv num batch) := by
  unfold estCeil cdiv
  rw [if_neg (by omega)]

theorem cdiv_mono {a a' b : Nat} (h : a ≤ a') : cdiv a b ≤ cdiv a' b := Nat.div_le_div_right (by omega)

theorem cdiv_le_iff {a b k : Nat} (hb : 0 < b) : cdiv a b ≤ k ↔ a ≤ k * b := by
  unfold cdiv
  rw [Nat.div_le_iff_le_mul_add_pred hb]
  constructor <;> intro h <;> nlinarith [Nat.sub_add_cancel hb, Nat.mul_comm b k, Nat.add_sub_cancel_left (n := a) (m := b), show a + b - 1 = a + (b - 1) by omega]

theorem le_cdiv_mul (a : Nat) {b : Nat} (hb : 0 < b) : a ≤ cdiv a b * b := (cdiv_le_iff hb).1 le_rfl

theorem cdiv_lt (a : Nat) {b : Nat} (hb : 0 < b) : cdiv a b * b < a + b := by
  unfold cdiv
  have := Nat.div_mul_le_self (a + b - 1) b
  omega

theorem cdiv_mul_le (a m : Nat) {b : Nat} (hb : 0 < b) : cdiv (a * m) b ≤ cdiv a b * m := by
  rw [cdiv_le_iff hb]
  have := Nat.mul_le_mul_right m (le_cdiv_mul a hb)
  calc a * m ≤ cdiv a b * b * m := this
    _ = cdiv a b * m * b := by ring

theorem cdiv_mul_of_dvd {a b : Nat} (m : Nat) (hb : 0 < b) (h : b ∣ a) : cdiv (a * m) b = cdiv a b * m := by
  obtain ⟨k, rfl⟩ := h
  have e : ∀ x, cdiv (b * x) b = x := by
    intro x
    refine le_antisymm ((cdiv_le_iff hb).2 (by rw [mul_comm])) ?_
    have := le_cdiv_mul (b * x) hb
    exact Nat.le_of_mul_le_mul_right (by rw [mul_comm b x] at this; rwa [mul_comm b x]) hb
  rw [mul_assoc, e, e]

theorem mul_cdiv_lt (a m : Nat) {b : Nat} (hb : 0 < b) (hm : 0 < m) : cdiv a b * m < cdiv (a * m) b + m := by
  have h1 := cdiv_lt a hb
  have h2 := le_cdiv_mul (a * m) hb
  by_contra hlt
  have h3 : (cdiv (a * m) b + m) * b ≤ cdiv a b * m * b := Nat.mul_le_mul_right _ (by omega)
  have h4 : cdiv a b * b * m < (a + b) * m := Nat.mul_lt_mul_of_pos_right h1 hm
  nlinarith

section
variable (P : EstParams)

/-- Shares of random values, zeros and random bits which the estimate counts, for so many blocks of wires, of AND gates and of XOR
gates. -/
def EstRand (W A X : Nat) : Nat :=
  W * 2 * P.keyLen + 3 * ((A + X) * 4 * P.ctxLen)
    + (cdiv (W * (2 * P.keyLen + 1)) P.l + cdiv (2 * (A + X) * (2 * P.keyLen + 1)) P.l) * (P.n + P.t)
    + (A * (3 * (P.keyLen + 1) + 1) + X * (P.keyLen + 1))

def EstZero (W A X : Nat) : Nat :=
  2 * ((A + X) * 4 * P.ctxLen)
    + (cdiv (W * (2 * P.keyLen + 1)) P.l + cdiv (2 * (A + X) * (2 * P.keyLen + 1)) P.l) * 2 * P.n
    + (A * (3 * (P.keyLen + 1) + 1) + X * (P.keyLen + 1))

theorem preproc_form (n f E d k : Nat) {r r' z z' b b' : Nat} (hr : r = r') (hz : z = z') (hb : b = b') :
    0 + 0 + (0 + (0 + 0 + E * (2 - 1) * 2 * n * f) + 0 + (0 + 0 + E * 2 * n * f))
      + (n * cdiv r d * n * f + n * cdiv z d * n * f + n * cdiv b k * n * f)
    = f * (n * n * (cdiv r' d + cdiv z' d + cdiv b' k) + 4 * n * E) := by
  subst hr hz hb
  ring

/-- The totals of the estimate. -/
theorem semihon_eq (hl : 0 < P.l) (ht : P.t < P.n) (hb : 0 < P.binsupDim) (hnoise : P.noise = 2) (inp nand nxor : Nat) :
    ∃ e, P.semihon inp nand nxor = some e ∧ ∃ A X W, A = cdiv nand P.l ∧ X = cdiv nxor P.l ∧ W = cdiv inp P.l + A + X ∧
      e.garble = P.fcomm * ((cdiv (W * (2 * P.keyLen + 1)) P.l + cdiv (2 * (A + X) * (2 * P.keyLen + 1)) P.l) * (P.n * P.n * 2)
        + (W + 2 * (A + X)) * (2 * P.n * (2 * P.keyLen + 1)) + A * (2 * P.n * (1 + 3 * (P.keyLen + 1)))
        + X * (2 * P.n * (P.keyLen + 1))) ∧
      e.preproc = P.fcomm * (P.n * P.n * (cdiv (EstRand P W A X) (P.n - P.t) + cdiv (EstZero P W A X) (P.n - P.t)
        + cdiv (W + 2 * ((A + X) * 4 * P.ctxLen)) P.binsupDim) + 4 * P.n * ((A + X) * 4 * P.ctxLen)) := by
  have hd : 0 < P.n - P.t := by omega
  have w1 : ∀ w, w + w * 2 * P.keyLen = w * (2 * P.keyLen + 1) := fun w => by ring
  unfold EstParams.semihon EstParams.trans EstParams.randshare EstParams.shares EstParams.bits
  simp only [estCeil_some hl, estCeil_some hd, estCeil_some hb, Option.bind_some, Option.map_some, w1]
  refine ⟨_, rfl, _, _, _, rfl, rfl, rfl, ?_, ?_⟩
  · unfold SemihonEst.garble EstParams.all EstParams.degreduce EstParams.mult Est.add estRand estZero
    simp only [EstParams.degreduce]
    ring
  · unfold SemihonEst.preproc EstRand EstZero EstParams.error
    simp only [EstParams.degreduce, EstParams.mult, Est.add, estRand, estZero, estBitrand, hnoise, EstParams.all]
    refine preproc_form _ _ _ _ _ ?_ ?_ ?_ <;> ring

end

/-! ### The numbers of blocks -/

theorem sum_indicator (κ : GateKind) (ks : List GateKind) : (ks.map fun x => if x = κ then 1 else 0).sum = ks.count κ := by
  induction ks with
  | nil => rfl
  | cons k ks ih =>
    rw [List.map_cons, List.sum_cons, ih, List.count_cons, Nat.add_comm]
    by_cases h : k = κ <;> simp [h]

theorem arity_sum (ks : List GateKind) :
    (ks.map GateKind.arity).sum = 2 * ks.count .and + 2 * ks.count .xor + ks.count .inv ∧
    ks.length = ks.count .and + ks.count .xor + ks.count .inv := by
  induction ks with
  | nil => exact ⟨rfl, rfl⟩
  | cons k ks ih =>
    cases k <;> simp only [List.map_cons, List.sum_cons, List.count_cons, List.length_cons, GateKind.arity, ih.1] <;>
      simp <;> omega

/-- The blocks of a packed circuit. -/
theorem pack_counts {c : Circuit} {k : Nat} {p : PackedCircuit} (h : c.pack k = some p) :
    0 < k ∧ p.inputs.length = cdiv c.inputs.flatten.length k ∧
    (p.gates.map PackedGate.kind).count .and = cdiv (numKind c.gates .and) k ∧
    (p.gates.map PackedGate.kind).count .xor = cdiv (numKind c.gates .xor) k ∧
    (p.gates.map PackedGate.kind).count .inv = cdiv (numKind c.gates .inv) k := by
  obtain ⟨hk, _, hi, _⟩ := pack_some h
  obtain ⟨hc, _⟩ := C25_counts c k p h
  refine ⟨by omega, by rw [hi, chunks_length _ _ hk]; rfl, ?_, ?_, ?_⟩
  · have := sum_countGate (fun x => if x = .and then 1 else 0) p.gates (0, 0, 0)
    rw [sum_indicator] at this
    unfold PackedCircuit.gateCounts at hc
    rw [hc] at this
    simpa [cdiv] using this.symm
  · have := sum_countGate (fun x => if x = .xor then 1 else 0) p.gates (0, 0, 0)
    rw [sum_indicator] at this
    unfold PackedCircuit.gateCounts at hc
    rw [hc] at this
    simpa [cdiv] using this.symm
  · have := sum_countGate (fun x => if x = .inv then 1 else 0) p.gates (0, 0, 0)
    rw [sum_indicator] at this
    unfold PackedCircuit.gateCounts at hc
    rw [hc] at this
    simpa [cdiv] using this.symm

theorem cdiv_zero {b : Nat} (hb : 0 < b) : cdiv 0 b = 0 := Nat.eq_zero_of_le_zero ((cdiv_le_iff hb).2 (by omega))

/-- The field elements of the messages of `garble` for a packed circuit. -/
theorem pack_elems {c : Circuit} {l : Nat} {p : PackedCircuit} (h : c.pack l = some p) (n K : Nat) :
    0 < l ∧ ∃ A X V W I, A = cdiv (numKind c.gates .and) l ∧ X = cdiv (numKind c.gates .xor) l ∧
      V = cdiv (numKind c.gates .inv) l ∧ W = cdiv c.inputs.flatten.length l + A + X + V ∧ I = 2 * A + 2 * X + V ∧
      p.inputs.length + p.gates.length = W ∧ (p.gates.flatMap PackedGate.inps).length = I ∧
      garbleElems n l K (p.inputs.length + p.gates.length) (p.gates.flatMap PackedGate.inps).length (p.gates.map PackedGate.kind)
        = (cdiv W l * (2 * K + 1) + cdiv I l * (2 * K + 1)) * (n * n * 2) + (W + I) * (2 * n * (2 * K + 1))
          + A * (2 * n * (1 + 3 * (K + 1))) + (X + V) * (2 * n * (K + 1)) ∧
      ∀ t lpn d, lpn.keyLen = K → p.describe n t l lpn = some d →
        d.masks = W ∧ d.numKeys = W * 2 * K ∧
        d.randoms = (cdiv W l * (2 * K + 1) + cdiv I l * (2 * K + 1)) * (n + t) + (A * (3 * (K + 1) + 1) + (X + V) * (K + 1)) ∧
        d.zeros = (cdiv W l * (2 * K + 1) + cdiv I l * (2 * K + 1)) * 2 * n + (A * (3 * (K + 1) + 1) + (X + V) * (K + 1)) ∧
        d.errors = (A + X) * 4 * lpn.mssgLen + V * 2 * lpn.mssgLen := by
  obtain ⟨hl, c1, c2, c3, c4⟩ := pack_counts h
  obtain ⟨a1, a2⟩ := arity_sum (p.gates.map PackedGate.kind)
  rw [List.length_map] at a2
  have hW : p.inputs.length + p.gates.length = cdiv c.inputs.flatten.length l + cdiv (numKind c.gates .and) l
      + cdiv (numKind c.gates .xor) l + cdiv (numKind c.gates .inv) l := by
    rw [a2, c1, c2, c3, c4]
    omega
  have hI : (p.gates.flatMap PackedGate.inps).length = 2 * cdiv (numKind c.gates .and) l + 2 * cdiv (numKind c.gates .xor) l
      + cdiv (numKind c.gates .inv) l := by
    rw [flatMap_inps_length, a1, c2, c3, c4]
  refine ⟨hl, _, _, _, _, _, rfl, rfl, rfl, rfl, rfl, hW, hI, ?_, ?_⟩
  · rw [hW, hI]
    unfold garbleElems
    rw [c2, c3, c4, ← Nat.add_mul]
    change (cdiv _ l + cdiv _ l) * _ + _ + _ + _ = _
    ring
  · intro t lpn d hK hd
    obtain ⟨no, ni, b1, b2, e1, e2, e3, e4, _⟩ := describe_eq hd
    have hbl : p.blocks.length = p.inputs.length + p.gates.length := by simp [PackedCircuit.blocks]
    have hnb : ∀ {x y : Nat}, numBatches x l = some y → y = cdiv x l := by
      intro x y hxy
      unfold numBatches at hxy
      rw [if_neg (by omega), Option.some.injEq] at hxy
      exact hxy.symm
    have e5 : d.errors = p.gateCounts.1 * 4 * lpn.mssgLen + p.gateCounts.2.1 * 4 * lpn.mssgLen
        + p.gateCounts.2.2 * 2 * lpn.mssgLen := by
      unfold PackedCircuit.describe PreProcCount.ofCounts at hd
      obtain ⟨a, _, hd⟩ := Option.bind_eq_some_iff.1 hd
      obtain ⟨b, _, hd⟩ := Option.map_eq_some_iff.1 hd
      rw [← hd]
    have hm := sum_countGate (GateKind.numMult K) p.gates (0, 0, 0)
    have hc := (C25_counts c l p h).1
    unfold PackedCircuit.gateCounts at hc e5
    rw [hc] at hm e5
    simp only [GateKind.numMult] at hm
    rw [hK] at e2 e3 e4
    have h1 := hnb b1
    have h2 := hnb b2
    rw [hbl, hW] at h1 e1 e2
    rw [hI] at h2
    change cdiv _ l * _ + cdiv _ l * _ + cdiv _ l * _ = _ at hm
    change _ = cdiv _ l * _ * _ + cdiv _ l * _ * _ + cdiv _ l * _ * _ at e5
    simp only [Nat.zero_mul, Nat.add_zero] at hm
    unfold PreProcCount.numKeys
    rw [e1, e2, e3, e4, e5, h1, h2, ← hm]
    generalize cdiv (numKind c.gates .and) l = A
    generalize cdiv (numKind c.gates .xor) l = X
    generalize cdiv (numKind c.gates .inv) l = V
    refine ⟨rfl, ?_, ?_, ?_, ?_⟩
    · simp only []
      ring
    all_goals ring

theorem preproc_congr (f n d k : Nat) {r r' z z' b b' E E' : Nat} (hr : r = r') (hz : z = z') (hb : b = b') (hE : E = E') :
    f * (n * n * (cdiv r d + cdiv z d + cdiv b k) + 4 * n * E)
      = f * (n * n * ((r' + d - 1) / d + (z' + d - 1) / d + (b' + k - 1) / k) + 4 * n * E') := by
  subst hr hz hb hE
  rfl

theorem preproc_le (f n d k : Nat) {r r' z z' b b' E E' : Nat} (hr : r ≤ r') (hz : z ≤ z') (hb : b ≤ b') (hE : E ≤ E') :
    f * (n * n * (cdiv r d + cdiv z d + cdiv b k) + 4 * n * E)
      ≤ f * (n * n * ((r' + d - 1) / d + (z' + d - 1) / d + (b' + k - 1) / k) + 4 * n * E') := by
  refine Nat.mul_le_mul_left _ (Nat.add_le_add (Nat.mul_le_mul_left _ ?_) (Nat.mul_le_mul_left _ hE))
  exact Nat.add_le_add (Nat.add_le_add (cdiv_mono hr) (cdiv_mono hz)) (cdiv_mono hb)

theorem preproc_ge (f n d k : Nat) {r r' z z' b b' E E' : Nat} (hr : r' ≤ r) (hz : z' ≤ z) (hb : b' ≤ b) (hE : E' ≤ E) :
    f * (n * n * ((r' + d - 1) / d + (z' + d - 1) / d + (b' + k - 1) / k) + 4 * n * E')
      ≤ f * (n * n * (cdiv r d + cdiv z d + cdiv b k) + 4 * n * E) := by
  refine Nat.mul_le_mul_left _ (Nat.add_le_add (Nat.mul_le_mul_left _ ?_) (Nat.mul_le_mul_left _ hE))
  exact Nat.add_le_add (Nat.add_le_add (cdiv_mono hr) (cdiv_mono hz)) (cdiv_mono hb)

theorem cdiv_add_of_dvd {a x : Nat} {b : Nat} (hb : 0 < b) (h : b ∣ a) : cdiv (a + x) b = cdiv a b + cdiv x b := by
  obtain ⟨k, rfl⟩ := h
  unfold cdiv
  rw [show b * k + x + b - 1 = (x + b - 1) + b * k by omega, Nat.add_mul_div_left _ _ hb,
    show b * k + b - 1 = (b - 1) + b * k by omega, Nat.add_mul_div_left _ _ hb, Nat.div_eq_of_lt (show b - 1 < b by omega)]
  omega

end Verif.Props
