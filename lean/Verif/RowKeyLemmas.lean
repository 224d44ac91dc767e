import Verif.RowKeySpec
import Verif.LabelChance
import Verif.ReuseLemmas
import Verif.CutLemmas

/-!
# Lemmas about the keys of the rows of garbled tables
-/

namespace Verif

/-- Equations which give the values of a function at different places in terms of its values elsewhere: each has the probability `1 / q`. -/
theorem card_solutions {K J F : Type} [Fintype K] [DecidableEq K] [DecidableEq J] [Finite F] (x : J → K) (f : (K → F) → J → F) (S : Finset J)
    (hx : ∀ i ∈ S, ∀ j ∈ S, x i = x j → i = j) (hf : ∀ i ∈ S, ∀ j ∈ S, ∀ g v, f (Function.update g (x i) v) j = f g j) :
    Nat.card {g : K → F // ∀ j ∈ S, g (x j) = f g j} * Nat.card F ^ S.card = Nat.card (K → F) := by
  induction hn : S.card generalizing S with
  | zero =>
    rw [Finset.card_eq_zero] at hn
    subst hn
    rw [pow_zero, mul_one]
    exact Nat.card_congr (Equiv.subtypeUnivEquiv fun g => by simp)
  | succ n ih =>
    obtain ⟨j0, hj⟩ := Finset.card_pos.1 (show 0 < S.card by omega)
    have hne : ∀ i ∈ S, i ≠ j0 → x i ≠ x j0 := fun i hi h h' => h (hx i hi j0 hj h')
    have e : {g : K → F // ∀ j ∈ S, g (x j) = f g j} × F ≃ {g : K → F // ∀ j ∈ S.erase j0, g (x j) = f g j} :=
      { toFun := fun p => ⟨Function.update p.1.1 (x j0) p.2, fun j hj' => by
          obtain ⟨h1, h2⟩ := Finset.mem_erase.1 hj'
          rw [Function.update_of_ne (hne j h2 h1), hf j0 hj j h2]
          exact p.1.2 j h2⟩
        invFun := fun g => (⟨Function.update g.1 (x j0) (f g.1 j0), fun j hj' => by
          by_cases hjj : j = j0
          · subst hjj
            rw [Function.update_self, hf j hj' j hj']
          · rw [Function.update_of_ne (hne j hj' hjj), hf j0 hj j hj']
            exact g.2 j (Finset.mem_erase.2 ⟨hjj, hj'⟩)⟩, g.1 (x j0))
        left_inv := fun p => by
          refine Prod.ext (Subtype.ext ?_) ?_
          · simp only [Function.update_idem]
            rw [hf j0 hj j0 hj, ← p.1.2 j0 hj, Function.update_eq_self]
          · simp
        right_inv := fun g => Subtype.ext (by simp) }
    have h1 := ih (S.erase j0) (fun i hi j hj => hx i (Finset.mem_of_mem_erase hi) j (Finset.mem_of_mem_erase hj))
      (fun i hi j hj => hf i (Finset.mem_of_mem_erase hi) j (Finset.mem_of_mem_erase hj)) (by rw [Finset.card_erase_of_mem hj]; omega)
    rw [← Nat.card_congr e, Nat.card_prod] at h1
    rw [pow_succ, ← h1]
    ring

section
variable {F : Type} [CodeField F] [DecidableEq F] {c : Codec F} {ctx : Ctx F} {m mb : Mat F} {d : PreProcCount}

/-- The fraction of the randomness of `preproc` for which entries of the array of keys have values which are given in terms of the others. -/
theorem keys_solutions [Finite F] (P : PreParams c ctx m mb d) (hm : m.AllOutputs ctx.t) (hmb : mb.UniformBits ctx.t) (k : Nat) (row : Nat → Nat)
    (s : Nat) (f : (Nat → Nat → F) → Nat → F) (hrow : ∀ j < k, row j < d.numKeys) (hs : s < ctx.l)
    (hinj : ∀ i < k, ∀ j < k, row i = row j → i = j)
    (hf : ∀ g g', (∀ a b, a < d.numKeys → b < ctx.l → (∀ i < k, a = row i → b ≠ s) → g a b = g' a b) → ∀ j < k, f g j = f g' j) :
    tapeFraction ctx m mb d (fun tp => ∃ pre keys, preproc ctx m mb d tp = some pre ∧
      VecSharing ctx.n (ctx.t + ctx.l) (defaultPos ctx.n ctx.l) keys (pre.map fun p => p.keys.flat) ∧
      ∀ j < k, at2 keys (row j) s = f (at2 keys) j) = (1 / Nat.card F : ℚ) ^ k := by
  classical
  by_cases hk0 : k = 0
  · subst hk0
    have h1 := keys_fraction P hm hmb (fun g => ∀ j < 0, g (row j) s = f g j) (fun _ => True) (fun f => by simp)
    rw [h1, Nat.card_congr (Equiv.subtypeUnivEquiv fun g => trivial), pow_zero]
    refine div_self ?_
    exact_mod_cast (Nat.card_pos (α := Fin d.numKeys × Fin ctx.l → F)).ne'
  have hpos : 0 < d.numKeys := lt_of_le_of_lt (Nat.zero_le _) (hrow 0 (by omega))
  let x : Nat → Fin d.numKeys × Fin ctx.l := fun j => (if h : row j < d.numKeys then ⟨row j, h⟩ else ⟨0, hpos⟩, ⟨s, hs⟩)
  have hx1 : ∀ j < k, (x j).1.1 = row j := fun j hj => by simp [x, hrow j hj]
  let ext : (Fin d.numKeys × Fin ctx.l → F) → Nat → Nat → F := fun g a b =>
    if h : a < d.numKeys ∧ b < ctx.l then g (⟨a, h.1⟩, ⟨b, h.2⟩) else 0
  have h1 := keys_fraction P hm hmb (fun g => ∀ j < k, g (row j) s = f g j) (fun g => ∀ j ∈ Finset.range k, g (x j) = f (ext g) j) (fun g => by
    refine ⟨fun h j hj => ?_, fun h j hj => ?_⟩
    · have hj := Finset.mem_range.1 hj
      show g (x j).1.1 s = _
      rw [hx1 j hj, h j hj]
      exact hf _ _ (fun a b ha hb _ => by simp [ext, ha, hb]) j hj
    · have this : g (x j).1.1 s = _ := h j (Finset.mem_range.2 hj)
      rw [hx1 j hj] at this
      rw [this]
      exact hf _ _ (fun a b ha hb _ => by simp [ext, ha, hb]) j hj)
  rw [h1]
  have hcard := card_solutions (F := F) x (fun g => f (ext g)) (Finset.range k)
    (fun i hi j hj h => by
      have hi := Finset.mem_range.1 hi
      have hj := Finset.mem_range.1 hj
      have := congrArg (fun q => q.1.1) h
      simp only [hx1 i hi, hx1 j hj] at this
      exact hinj i hi j hj this)
    (fun i hi j hj g v => by
      have hi := Finset.mem_range.1 hi
      refine hf _ _ (fun a b ha hb hab => ?_) j (Finset.mem_range.1 hj)
      simp only [ext, ha, hb, and_self, dif_pos]
      rw [Function.update_of_ne]
      intro h
      have e1 := congrArg (fun q => q.1.1) h
      have e2 := congrArg (fun q => q.2.1) h
      simp only [hx1 i hi] at e1
      exact hab i hi e1 e2)
  rw [← hcard, Finset.card_range]
  have hq : (Nat.card F : ℚ) ≠ 0 := by exact_mod_cast (Nat.card_pos (α := F)).ne'
  have hN : (Nat.card {g : Fin d.numKeys × Fin ctx.l → F // ∀ j ∈ Finset.range k, g (x j) = f (ext g) j} : ℚ) ≠ 0 := by
    intro h0
    have h0 : Nat.card {g : Fin d.numKeys × Fin ctx.l → F // ∀ j ∈ Finset.range k, g (x j) = f (ext g) j} = 0 := by exact_mod_cast h0
    rw [h0, Nat.zero_mul] at hcard
    exact (Nat.card_pos (α := Fin d.numKeys × Fin ctx.l → F)).ne hcard
  push_cast
  rw [div_pow, one_pow]
  field_simp

end

/-- Gate `q`, if there is such a gate, does not read the same wire twice. -/
noncomputable def Net.distinctOk (N : Net) (q : Nat) : Bool :=
  bsel (Nat.ble N.numGates q) true
    ((fun c => bsel (Nat.ble 2 (codeKind c)) true (bsel (Nat.beq (codeA c) (codeB c)) false true)) (N.slot q))

/-- The check for `k` times 1024 gates. -/
noncomputable def Net.allDistinct (N : Net) (k : Nat) : Bool := allFrom (fun j => allFrom N.distinctOk (Nat.mul 1024 j) 1024) 0 k

theorem Net.distinct {N : Net} {k : Nat} (h : N.allDistinct k = true) (hk : N.numGates ≤ 1024 * k) :
    ∀ g ∈ N.circuit.gates, g.inWires.Nodup := by
  intro g hg
  obtain ⟨q, hq, rfl⟩ := List.mem_map.1 hg
  have hq := List.mem_range.1 hq
  have h1 := allFrom_iff h (q / 1024) (by omega) (by omega)
  have h2 := allFrom_iff h1 q (show 1024 * (q / 1024) ≤ q by omega) (show q < 1024 * (q / 1024) + 1024 by omega)
  unfold Net.distinctOk at h2
  have hb : Nat.ble N.numGates q = false := by
    rw [← Bool.not_eq_true, Nat.ble_eq]
    omega
  rw [hb] at h2
  beta_reduce at h2
  unfold decodeGate mkCode
  split_ifs with k0 k1
  · rw [k0] at h2
    have : codeA (N.slot q) ≠ codeB (N.slot q) := by
      intro e
      rw [e, Nat.beq_refl] at h2
      exact absurd h2 (by decide)
    simpa [Gate.inWires] using this
  · rw [k1] at h2
    have : codeA (N.slot q) ≠ codeB (N.slot q) := by
      intro e
      rw [e, Nat.beq_refl] at h2
      exact absurd h2 (by decide)
    simpa [Gate.inWires] using this
  · simp [Gate.inWires]

end Verif
