import Verif.EstimatesLemmas
import Mathlib.Tactic.GCongr

/-!
# Bounds on the amount of communication
-/

namespace Verif

open Verif.Props

theorem idBytes_mono {a b : Nat} (h : a ≤ b) : idBytes a ≤ idBytes b := by
  unfold idBytes
  have := Nat.clog_mono_right 2 h
  omega

theorem garbleMsgs_le (n l K nOut nInp : Nat) (kinds : List GateKind) :
    garbleMsgs n l nOut nInp kinds ≤ garbleElems n l K nOut nInp kinds := by
  unfold garbleMsgs garbleElems
  have h1 : n * n ≤ n * n * (2 * (2 * K + 1)) := Nat.le_mul_of_pos_right _ (by omega)
  have h2 : 2 * n ≤ 2 * n * (2 * K + 1) := Nat.le_mul_of_pos_right _ (by omega)
  have h3 : 4 * n ≤ 2 * n * (1 + 3 * (K + 1)) := by
    calc 4 * n = 2 * n * 2 := by ring
      _ ≤ _ := Nat.mul_le_mul_left _ (by omega)
  have h4 : 2 * n ≤ 2 * n * (K + 1) := Nat.le_mul_of_pos_right _ (by omega)
  gcongr

/-- Bytes against field elements. -/
theorem garbleBytes_le (n l B K a nOut nInp : Nat) (kinds : List GateKind) (hk : kinds.length ≤ nOut) (hl : 0 < l) :
    (garbleBytes n l B K a nOut nInp kinds).2
      ≤ (8 + B + (a + 1 + 2 * idBytes (4 + nOut + nInp))) * garbleElems n l K nOut nInp kinds := by
  have hc : ∀ x, (x + l - 1) / l ≤ x := fun x => (cdiv_le_iff hl).2 (Nat.le_mul_of_pos_right _ hl)
  generalize hJ : idBytes (4 + nOut + nInp) = J
  have i1 : idBytes (4 + kinds.length) ≤ J := hJ ▸ idBytes_mono (by omega)
  have i2 : idBytes ((nOut + l - 1) / l) ≤ J := hJ ▸ idBytes_mono (by have := hc nOut; omega)
  have i3 : idBytes ((nInp + l - 1) / l) ≤ J := hJ ▸ idBytes_mono (by have := hc nInp; omega)
  have i4 : idBytes nOut ≤ J := hJ ▸ idBytes_mono (by omega)
  have i5 : idBytes nInp ≤ J := hJ ▸ idBytes_mono (by omega)
  generalize hD : a + 1 + 2 * J = D
  have hm := garbleMsgs_le n l K nOut nInp kinds
  have key : (garbleBytes n l B K a nOut nInp kinds).2
      ≤ (8 + D) * garbleMsgs n l nOut nInp kinds + B * garbleElems n l K nOut nInp kinds := by
    unfold garbleBytes garbleMsgs garbleElems
    simp only []
    generalize (nOut + l - 1) / l = u at *
    generalize (nInp + l - 1) / l = v at *
    generalize kinds.count .and = A
    generalize kinds.count .xor = X
    generalize kinds.count .inv = V
    have e1 : u * (n * n * (8 + 2 * B * (2 * K + 1) + (a + idBytes (4 + kinds.length) + idBytes u)))
        ≤ u * (n * n * (8 + 2 * B * (2 * K + 1) + D)) := by gcongr; omega
    have e2 : v * (n * n * (8 + 2 * B * (2 * K + 1) + (a + idBytes (4 + kinds.length) + idBytes v)))
        ≤ v * (n * n * (8 + 2 * B * (2 * K + 1) + D)) := by gcongr; omega
    have e3 : nOut * (2 * n * (8 + B * (2 * K + 1) + (a + idBytes (4 + kinds.length) + idBytes nOut)))
        ≤ nOut * (2 * n * (8 + B * (2 * K + 1) + D)) := by gcongr; omega
    have e4 : nInp * (2 * n * (8 + B * (2 * K + 1) + (a + idBytes (4 + kinds.length) + idBytes nInp)))
        ≤ nInp * (2 * n * (8 + B * (2 * K + 1) + D)) := by gcongr; omega
    have e5 : A * (2 * n * (16 + B * (1 + 3 * (K + 1)) + (2 * (a + idBytes (4 + kinds.length)) + 1)))
        ≤ A * (2 * n * (16 + B * (1 + 3 * (K + 1)) + 2 * D)) := by gcongr; omega
    have e6 : (X + V) * (2 * n * (8 + B * (K + 1) + (a + idBytes (4 + kinds.length))))
        ≤ (X + V) * (2 * n * (8 + B * (K + 1) + D)) := by gcongr; omega
    refine (Nat.add_le_add (Nat.add_le_add (Nat.add_le_add (Nat.add_le_add (Nat.add_le_add e1 e2) e3) e4) e5) e6).trans (le_of_eq ?_)
    ring
  refine key.trans ?_
  have := Nat.mul_le_mul_left (8 + D) hm
  calc _ ≤ (8 + D) * garbleElems n l K nOut nInp kinds + B * garbleElems n l K nOut nInp kinds := by omega
    _ = _ := by ring

/-- What `n ≤ c l` gives for numbers of blocks. -/
theorem mul_cdiv_le {n c l : Nat} (hl : 0 < l) (hn : n ≤ c * l) (x : Nat) : n * cdiv x l ≤ c * (x + l) := by
  have h1 := cdiv_lt x hl
  calc n * cdiv x l ≤ c * l * cdiv x l := Nat.mul_le_mul_right _ hn
    _ = c * (cdiv x l * l) := by ring
    _ ≤ c * (x + l) := Nat.mul_le_mul_left _ h1.le

theorem numKind_sum (gs : List Gate) : numKind gs .and + numKind gs .xor + numKind gs .inv = gs.length := by
  unfold numKind
  induction gs with
  | nil => rfl
  | cons g gs ih =>
    have e : ∀ p : Gate → Bool, ((g :: gs).filter p).length = (if p g then 1 else 0) + (gs.filter p).length := by
      intro p
      rw [List.filter_cons]
      split
      · simp only [List.length_cons]
        omega
      · omega
    rw [e, e, e, List.length_cons, ← ih]
    cases g <;> simp <;> omega

/-- Blocks, and what they cost with `n ≤ c l` parties. -/
theorem blocks_le {n c l A X V W I a x v i S : Nat} (hl : 0 < l) (hn : n ≤ c * l) (hA : A = cdiv a l) (hX : X = cdiv x l)
    (hV : V = cdiv v l) (hW : W = cdiv i l + A + X + V) (hI : I = 2 * A + 2 * X + V) (hS : S = i + (a + x + v)) :
    n * W ≤ c * (S + 4 * l) ∧ n * I ≤ c * (2 * S + 6 * l) ∧ n * (A + X + V) ≤ c * (S + 4 * l) ∧
      n * n * (cdiv W l + cdiv I l) ≤ c * (c * (3 * S + 10 * l) + 2 * n * l) := by
  have ha := mul_cdiv_le hl hn a
  have hx := mul_cdiv_le hl hn x
  have hv := mul_cdiv_le hl hn v
  have hi := mul_cdiv_le hl hn i
  rw [← hA] at ha
  rw [← hX] at hx
  rw [← hV] at hv
  have hnW : n * W ≤ c * (S + 4 * l) := by
    rw [hW, hS]
    calc n * (cdiv i l + A + X + V) = n * cdiv i l + n * A + n * X + n * V := by ring
      _ ≤ c * (i + l) + c * (a + l) + c * (x + l) + c * (v + l) := by omega
      _ = _ := by ring
  have hnI : n * I ≤ c * (2 * S + 6 * l) := by
    rw [hI, hS]
    calc n * (2 * A + 2 * X + V) = 2 * (n * A) + 2 * (n * X) + n * V := by ring
      _ ≤ 2 * (c * (a + l)) + 2 * (c * (x + l)) + c * (v + l) := by omega
      _ ≤ 2 * (c * (a + l)) + 2 * (c * (x + l)) + 2 * (c * (v + l)) := by omega
      _ = c * (2 * (a + x + v) + 6 * l) := by ring
      _ ≤ _ := Nat.mul_le_mul_left _ (by omega)
  refine ⟨hnW, hnI, le_trans (Nat.mul_le_mul_left _ (by omega)) hnW, ?_⟩
  have h1 := mul_cdiv_le hl hn W
  have h2 := mul_cdiv_le hl hn I
  calc n * n * (cdiv W l + cdiv I l) = n * (n * cdiv W l + n * cdiv I l) := by ring
    _ ≤ n * (c * (W + l) + c * (I + l)) := Nat.mul_le_mul_left _ (by omega)
    _ = c * (n * W + n * I + 2 * n * l) := by ring
    _ ≤ c * (c * (S + 4 * l) + c * (2 * S + 6 * l) + 2 * n * l) := Nat.mul_le_mul_left _ (by omega)
    _ = _ := by ring

/-- The field elements of the messages of `garble`, when the number of parties is at most `c` times the packing parameter. -/
theorem garbleElems_le {c : Circuit} {l : Nat} {p : PackedCircuit} (h : c.pack l = some p) {n K C : Nat} (hn : n ≤ C * l) {S : Nat}
    (hS : S = c.inputs.flatten.length + c.gates.length) :
    garbleElems n l K (p.inputs.length + p.gates.length) (p.gates.flatMap PackedGate.inps).length (p.gates.map PackedGate.kind)
      ≤ (2 * K + 1) * C * ((6 * C + 14) * S + (20 * C + 4 * n + 52) * l) := by
  obtain ⟨hl, A, X, V, W, I, hA, hX, hV, hW, hI, _, _, hel, _⟩ := pack_elems h n K
  obtain ⟨b1, b2, b3, b4⟩ := blocks_le (S := S) hl hn hA hX hV hW hI (by rw [hS, numKind_sum])
  rw [hel]
  calc (cdiv W l * (2 * K + 1) + cdiv I l * (2 * K + 1)) * (n * n * 2) + (W + I) * (2 * n * (2 * K + 1))
          + A * (2 * n * (1 + 3 * (K + 1))) + (X + V) * (2 * n * (K + 1))
      ≤ (cdiv W l * (2 * K + 1) + cdiv I l * (2 * K + 1)) * (n * n * 2) + (W + I) * (2 * n * (2 * K + 1))
          + A * (2 * n * (4 * (2 * K + 1))) + (X + V) * (2 * n * (4 * (2 * K + 1))) := by
        gcongr <;> omega
    _ = (2 * K + 1) * (2 * (n * n * (cdiv W l + cdiv I l)) + 2 * (n * W) + 2 * (n * I) + 8 * (n * (A + X + V))) := by ring
    _ ≤ (2 * K + 1) * (2 * (C * (C * (3 * S + 10 * l) + 2 * n * l)) + 2 * (C * (S + 4 * l)) + 2 * (C * (2 * S + 6 * l))
          + 8 * (C * (S + 4 * l))) := by
        gcongr
    _ = _ := by ring

/-- And at least as many as the ratio of the number of parties and the packing parameter demands. -/
theorem garbleElems_ge {c : Circuit} {l : Nat} {p : PackedCircuit} (h : c.pack l = some p) (n K : Nat) {S : Nat}
    (hS : S = c.inputs.flatten.length + c.gates.length) :
    2 * (2 * K + 1) * n * S ≤ l * garbleElems n l K (p.inputs.length + p.gates.length) (p.gates.flatMap PackedGate.inps).length
      (p.gates.map PackedGate.kind) := by
  obtain ⟨hl, A, X, V, W, I, hA, hX, hV, hW, hI, _, _, hel, _⟩ := pack_elems h n K
  have hSW : S ≤ W * l := by
    have h1 := le_cdiv_mul (numKind c.gates .and) hl
    have h2 := le_cdiv_mul (numKind c.gates .xor) hl
    have h3 := le_cdiv_mul (numKind c.gates .inv) hl
    have h4 := le_cdiv_mul c.inputs.flatten.length hl
    rw [hS, ← numKind_sum, hW, hA, hX, hV, Nat.add_mul, Nat.add_mul, Nat.add_mul]
    omega
  rw [hel]
  calc 2 * (2 * K + 1) * n * S ≤ 2 * (2 * K + 1) * n * (W * l) := Nat.mul_le_mul_left _ hSW
    _ = l * (W * (2 * n * (2 * K + 1))) := by ring
    _ ≤ _ := by
      refine Nat.mul_le_mul_left _ ?_
      have : W * (2 * n * (2 * K + 1)) ≤ (W + I) * (2 * n * (2 * K + 1)) := Nat.mul_le_mul_right _ (by omega)
      omega

/-- The field elements of the messages of `preproc`. -/
theorem preprocElems_le {c : Circuit} {l : Nat} {p : PackedCircuit} (h : c.pack l = some p) {n t C r b : Nat} (hC : 0 < C) (hn : n ≤ C * l)
    (ht : t ≤ n) (hr : 0 < r) (hnr : n ≤ C * r) (hrn : r ≤ n) (hb : 0 < b) (hnb : n ≤ C * b) (hbn : b ≤ n) {S : Nat}
    (hS : S = c.inputs.flatten.length + c.gates.length) {lpn : LpnParams} {d : PreProcCount} (hd : p.describe n t l lpn = some d) :
    preprocElems n r b d ≤ C * C * (((10 + 12 * C) * (2 * lpn.keyLen + 1) + 44 * lpn.mssgLen) * S
      + ((40 + 40 * C + 8 * n) * (2 * lpn.keyLen + 1) + 176 * lpn.mssgLen) * l) + 3 * C * (n * n) := by
  obtain ⟨hl, A, X, V, W, I, hA, hX, hV, hW, hI, _, _, _, hdesc⟩ := pack_elems h n lpn.keyLen
  obtain ⟨b1, b2, b3, b4⟩ := blocks_le (S := S) hl hn hA hX hV hW hI (by rw [hS, numKind_sum])
  obtain ⟨d1, d2, d3, d4, d5⟩ := hdesc t lpn d rfl hd
  generalize lpn.keyLen = K at *
  generalize lpn.mssgLen = M at *
  have hgates : A * (3 * (K + 1) + 1) + (X + V) * (K + 1) ≤ (A + X + V) * (4 * (2 * K + 1)) := by
    calc _ ≤ A * (4 * (2 * K + 1)) + (X + V) * (4 * (2 * K + 1)) := by gcongr <;> omega
      _ = _ := by ring
  have hE : n * d.errors ≤ 4 * M * (C * (S + 4 * l)) := by
    rw [d5]
    calc n * ((A + X) * 4 * M + V * 2 * M) ≤ n * ((A + X) * 4 * M + V * 4 * M) := by gcongr; omega
      _ = 4 * M * (n * (A + X + V)) := by ring
      _ ≤ _ := Nat.mul_le_mul_left _ b3
  have hM : n * d.masks ≤ C * (S + 4 * l) := by rw [d1]; exact b1
  have hK : n * d.numKeys ≤ (2 * K + 1) * (C * (S + 4 * l)) := by
    rw [d2]
    calc n * (W * 2 * K) = 2 * K * (n * W) := by ring
      _ ≤ (2 * K + 1) * (C * (S + 4 * l)) := Nat.mul_le_mul (by omega) b1
  have hR : n * d.randoms ≤ (2 * K + 1) * (2 * (C * (C * (3 * S + 10 * l) + 2 * n * l)) + 4 * (C * (S + 4 * l))) := by
    rw [d3]
    calc n * ((cdiv W l * (2 * K + 1) + cdiv I l * (2 * K + 1)) * (n + t) + (A * (3 * (K + 1) + 1) + (X + V) * (K + 1)))
        ≤ n * ((cdiv W l * (2 * K + 1) + cdiv I l * (2 * K + 1)) * (n + n) + (A + X + V) * (4 * (2 * K + 1))) := by gcongr
      _ = (2 * K + 1) * (2 * (n * n * (cdiv W l + cdiv I l)) + 4 * (n * (A + X + V))) := by ring
      _ ≤ _ := by gcongr
  have hZ : n * d.zeros ≤ (2 * K + 1) * (2 * (C * (C * (3 * S + 10 * l) + 2 * n * l)) + 4 * (C * (S + 4 * l))) := by
    rw [d4]
    calc n * ((cdiv W l * (2 * K + 1) + cdiv I l * (2 * K + 1)) * 2 * n + (A * (3 * (K + 1) + 1) + (X + V) * (K + 1)))
        ≤ n * ((cdiv W l * (2 * K + 1) + cdiv I l * (2 * K + 1)) * 2 * n + (A + X + V) * (4 * (2 * K + 1))) := by gcongr
      _ = (2 * K + 1) * (2 * (n * n * (cdiv W l + cdiv I l)) + 4 * (n * (A + X + V))) := by ring
      _ ≤ _ := by gcongr
  have q1 := mul_cdiv_le hr hnr (d.numKeys + d.randoms + 3 * d.errors)
  have q2 := mul_cdiv_le hr hnr (d.zeros + 2 * d.errors)
  have q3 := mul_cdiv_le hb hnb (d.masks + 2 * d.errors)
  generalize hT : C * (S + 4 * l) = T at *
  generalize hU : C * (C * (3 * S + 10 * l) + 2 * n * l) = U at *
  calc preprocElems n r b d = n * (n * cdiv (d.numKeys + d.randoms + 3 * d.errors) r + n * cdiv (d.zeros + 2 * d.errors) r
          + n * cdiv (d.masks + 2 * d.errors) b) + 4 * (n * d.errors) := by
        unfold preprocElems cdiv
        ring
    _ ≤ n * (C * (d.numKeys + d.randoms + 3 * d.errors + n) + C * (d.zeros + 2 * d.errors + n) + C * (d.masks + 2 * d.errors + n))
          + 4 * (n * d.errors) := by
        refine Nat.add_le_add_right (Nat.mul_le_mul_left _ (Nat.add_le_add (Nat.add_le_add (q1.trans ?_) (q2.trans ?_)) (q3.trans ?_))) _ <;> gcongr
    _ = C * (n * d.numKeys + n * d.randoms + n * d.zeros + n * d.masks + 7 * (n * d.errors)) + 3 * C * (n * n) + 4 * (n * d.errors) := by ring
    _ ≤ C * (n * d.numKeys + n * d.randoms + n * d.zeros + n * d.masks + 7 * (n * d.errors)) + 3 * C * (n * n) + C * (4 * (n * d.errors)) := by
        have := Nat.le_mul_of_pos_left (4 * (n * d.errors)) hC
        omega
    _ = C * (n * d.numKeys + n * d.randoms + n * d.zeros + n * d.masks + 11 * (n * d.errors)) + 3 * C * (n * n) := by ring
    _ ≤ C * ((2 * K + 1) * T + (2 * K + 1) * (2 * U + 4 * T) + (2 * K + 1) * (2 * U + 4 * T) + (2 * K + 1) * T + 11 * (4 * M * T)) + 3 * C * (n * n) := by
        have : n * d.masks ≤ (2 * K + 1) * T := hM.trans (Nat.le_mul_of_pos_left _ (by omega))
        gcongr
    _ = _ := by
        rw [← hT, ← hU]
        ring

end Verif
