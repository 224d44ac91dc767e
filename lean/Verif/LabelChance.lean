import Verif.NoiseLemmas
import Verif.LpnErrSpec

/-!
# How likely it is that two sets of entries of the key array are the same
-/

namespace Verif

/-- Equations between entries of a function which can be solved one after the other: each has the probability `1 / q`. -/
theorem card_equations {K J F : Type} [Fintype K] [DecidableEq K] [DecidableEq J] [Finite F] (x y : J → K) (S : Finset J)
    (h : ∀ S' ⊆ S, S'.Nonempty → ∃ j0 ∈ S', x j0 ≠ y j0 ∧ ∀ i ∈ S', i ≠ j0 → x i ≠ x j0 ∧ y i ≠ x j0) :
    Nat.card {g : K → F // ∀ j ∈ S, g (x j) = g (y j)} * Nat.card F ^ S.card = Nat.card (K → F) := by
  induction hn : S.card generalizing S with
  | zero =>
    rw [Finset.card_eq_zero] at hn
    subst hn
    rw [pow_zero, mul_one]
    exact Nat.card_congr (Equiv.subtypeUnivEquiv fun g => by simp)
  | succ n ih =>
    obtain ⟨j0, hj, hne, hi⟩ := h S (Finset.Subset.refl S) (Finset.card_pos.1 (by omega))
    have e : {g : K → F // ∀ j ∈ S, g (x j) = g (y j)} × F ≃ {g : K → F // ∀ j ∈ S.erase j0, g (x j) = g (y j)} :=
      { toFun := fun p => ⟨Function.update p.1.1 (x j0) p.2, fun j hj' => by
          obtain ⟨h1, h2⟩ := Finset.mem_erase.1 hj'
          obtain ⟨h3, h4⟩ := hi j h2 h1
          rw [Function.update_of_ne h3, Function.update_of_ne h4]
          exact p.1.2 j h2⟩
        invFun := fun g => (⟨Function.update g.1 (x j0) (g.1 (y j0)), fun j hj' => by
          by_cases hjj : j = j0
          · subst hjj
            rw [Function.update_self, Function.update_of_ne hne.symm]
          · obtain ⟨h3, h4⟩ := hi j hj' hjj
            rw [Function.update_of_ne h3, Function.update_of_ne h4]
            exact g.2 j (Finset.mem_erase.2 ⟨hjj, hj'⟩)⟩, g.1 (x j0))
        left_inv := fun p => by
          refine Prod.ext (Subtype.ext ?_) ?_
          · simp only [Function.update_idem]
            rw [Function.update_of_ne hne.symm, ← p.1.2 j0 hj, Function.update_eq_self]
          · simp
        right_inv := fun g => Subtype.ext (by simp) }
    have h1 := ih (S.erase j0) (fun S' hS' => h S' (hS'.trans (Finset.erase_subset _ _))) (by rw [Finset.card_erase_of_mem hj]; omega)
    rw [← Nat.card_congr e, Nat.card_prod] at h1
    rw [pow_succ, ← h1]
    ring

/-- Equations between places, each with a number, whose numbers increase on both sides. -/
theorem increasing_solvable {K : Type} (num : K → Nat) (x y : Nat → K) (S : Finset Nat)
    (hx : ∀ i ∈ S, ∀ j ∈ S, i < j → num (x i) < num (x j)) (hy : ∀ i ∈ S, ∀ j ∈ S, i < j → num (y i) < num (y j))
    (hne : ∀ i ∈ S, num (x i) ≠ num (y i)) :
    ∀ S' ⊆ S, S'.Nonempty → ∃ j0 ∈ S', x j0 ≠ y j0 ∧ ∀ i ∈ S', i ≠ j0 → x i ≠ x j0 ∧ y i ≠ x j0 := by
  intro S' hS' hne'
  have inj : ∀ i ∈ S', ∀ j ∈ S', i ≠ j → x i ≠ x j := fun i hi j hj hij h => by
    rcases Nat.lt_or_gt_of_ne hij with h1 | h1
    · have := hx i (hS' hi) j (hS' hj) h1
      rw [h] at this
      omega
    · have := hx j (hS' hj) i (hS' hi) h1
      rw [h] at this
      omega
  by_cases hdown : (S'.filter fun j => num (y j) < num (x j)).Nonempty
  · obtain ⟨j0, hj0, hmax⟩ := Finset.exists_max_image _ id hdown
    obtain ⟨h1, h2⟩ := Finset.mem_filter.1 hj0
    refine ⟨j0, h1, fun h => hne j0 (hS' h1) (congrArg num h), fun i hi hij => ⟨inj i hi j0 h1 hij, fun h => ?_⟩⟩
    have h3 : num (y i) = num (x j0) := congrArg num h
    rcases Nat.lt_or_gt_of_ne hij with h4 | h4
    · have := hy i (hS' hi) j0 (hS' h1) h4
      omega
    · have h5 := hx j0 (hS' h1) i (hS' hi) h4
      have := hmax i (Finset.mem_filter.2 ⟨hi, by omega⟩)
      simp only [id] at this
      omega
  · obtain ⟨j0, h1, hmin⟩ := Finset.exists_min_image _ id hne'
    have up : ∀ j ∈ S', num (x j) < num (y j) := fun j hj => by
      by_contra hc
      exact hdown ⟨j, Finset.mem_filter.2 ⟨hj, by have := hne j (hS' hj); omega⟩⟩
    refine ⟨j0, h1, fun h => hne j0 (hS' h1) (congrArg num h), fun i hi hij => ⟨inj i hi j0 h1 hij, fun h => ?_⟩⟩
    have h3 : num (y i) = num (x j0) := congrArg num h
    have h4 := hmin i hi
    simp only [id] at h4
    have h5 := hx j0 (hS' h1) i (hS' hi) (by omega)
    have := up i hi
    omega

section
variable {F : Type} [CodeField F] [DecidableEq F] {c : Codec F} {ctx : Ctx F} {m mb : Mat F} {d : PreProcCount}

/-- The fraction of the randomness of `preproc` for which something is true of the labels in the array of keys. -/
theorem keys_fraction [Finite F] (P : PreParams c ctx m mb d) (hm : m.AllOutputs ctx.t) (hmb : mb.UniformBits ctx.t)
    (Q : (Nat → Nat → F) → Prop) (Q' : (Fin d.numKeys × Fin ctx.l → F) → Prop)
    (hQ : ∀ f, Q f ↔ Q' fun p => f p.1 p.2) :
    tapeFraction ctx m mb d (fun tp => ∃ pre keys, preproc ctx m mb d tp = some pre ∧
      VecSharing ctx.n (ctx.t + ctx.l) (defaultPos ctx.n ctx.l) keys (pre.map fun p => p.keys.flat) ∧ Q (at2 keys))
      = (Nat.card {g // Q' g} : ℚ) / Nat.card (Fin d.numKeys × Fin ctx.l → F) := by
  classical
  have : Fintype F := Fintype.ofFinite F
  obtain ⟨ids, br, bz, bb, H⟩ := P.hyp []
  rw [fraction_eq P hm hmb H _ (fun S => Q (at2 S.garble.keys)) (fun f => Q' fun p => f.1.2 p.1 p.2) ?_ ?_]
  · have e : {f : SecFun F ctx.l d // Q' fun p => f.1.2 p.1 p.2} ≃
        ((Fin d.masks → Fin ctx.l → Bool) × (Fin d.errors × Fin ctx.l → Bool × Bool × F)) × {g : Fin d.numKeys × Fin ctx.l → F // Q' g} :=
      { toFun := fun f => ((f.1.1.1, f.1.2), ⟨fun p => f.1.1.2 p.1 p.2, f.2⟩)
        invFun := fun f => ⟨((f.1.1, fun i x => f.2.1 (i, x)), f.1.2), f.2.2⟩
        left_inv := fun f => rfl
        right_inv := fun f => rfl }
    have e' : SecFun F ctx.l d ≃
        ((Fin d.masks → Fin ctx.l → Bool) × (Fin d.errors × Fin ctx.l → Bool × Bool × F)) × (Fin d.numKeys × Fin ctx.l → F) :=
      { toFun := fun f => ((f.1.1, f.2), fun p => f.1.2 p.1 p.2)
        invFun := fun f => ((f.1.1, fun i x => f.2 (i, x)), f.1.2)
        left_inv := fun f => rfl
        right_inv := fun f => rfl }
    rw [Nat.card_congr e, Nat.card_congr e', Nat.card_prod, Nat.card_prod (_ × _)]
    push_cast
    refine mul_div_mul_left _ _ ?_
    exact_mod_cast (Nat.card_pos (α := (Fin d.masks → Fin ctx.l → Bool) × (Fin d.errors × Fin ctx.l → Bool × Bool × F))).ne'
  · intro tp ht
    constructor
    · rintro ⟨pre, keys, h1, h2, h3⟩
      obtain ⟨pre', g1, -, g2, -⟩ := (hides_iff H ht _).2 rfl
      rw [h1, Option.some.injEq] at g1
      subst g1
      have hord := H.good.fit
      rw [vecSharing_unique (by omega) H.good.le H.good.posN g2 h2]
      exact h3
    · intro h
      obtain ⟨pre', g1, -, g2, -⟩ := (hides_iff H ht _).2 rfl
      exact ⟨pre', _, g1, g2, h⟩
  · intro S hS
    exact hQ _

end

end Verif
