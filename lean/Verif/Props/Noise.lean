import Verif.NoiseLemmas
import Verif.Props.LpnErrors

/-!
# C101: the distribution of the preprocessing material
-/

namespace Verif.Props

section
variable {F : Type} [CodeField F] [DecidableEq F] [Finite F] {c : Codec F} {ctx : Ctx F} {m mb : Mat F} {d : PreProcCount}

/-- C101, for an LPN bias of 2: wire masks, labels and LPN errors are independent, in all slots; masks are uniformly random bits, labels
are uniformly random, and errors are 0 but with probability `2^-lpn_tau`, and then uniformly random.  Missing for the full claim: other values of
`lpn_tau`, for which it is false (`C101_tau_false`). -/
theorem C101_distribution_partial (P : PreParams c ctx m mb d) (hm : m.AllOutputs ctx.t) (hmb : mb.UniformBits ctx.t) (debug : Bool)
    (M : GarbleSecrets F) (hM : M.Fit ctx.l d) :
    tapeFraction ctx m mb d (fun tp => Hides ctx (preprocTau debug 2 ctx m mb d tp) M) = idealProb 2 ctx.l d M := by
  have h : ∀ tp, preprocTau debug 2 ctx m mb d tp = preproc ctx m mb d tp := fun tp => by simp [preprocTau]
  simp only [h]
  exact hides_fraction P hm hmb hM

omit [Finite F] in
theorem idealProb_ones (tau l : Nat) (d : PreProcCount) : idealProb tau l d (⟨List.replicate d.masks (List.replicate l 0),
      List.replicate d.numKeys (List.replicate l 0), List.replicate d.errors (List.replicate l 1)⟩ : GarbleSecrets F)
    = ((1 / 2) ^ l) ^ d.masks * ((1 / Nat.card F) ^ l) ^ d.numKeys * (((1 / 2 ^ tau) * (1 / Nat.card F)) ^ l) ^ d.errors := by
  have h1 : ∀ (n : Nat) (v : F), ∀ i ∈ Finset.range n, ∀ x ∈ Finset.range l, at2 (List.replicate n (List.replicate l v)) i x = v := by
    intro n v i hi x hx
    rw [Finset.mem_range] at hi hx
    simp [at2, hi, hx]
  unfold idealProb
  simp only
  congr 1
  · congr 1
    · rw [Finset.prod_congr rfl fun i hi => Finset.prod_congr rfl fun x hx => by rw [h1 _ _ i hi x hx]]
      simp [bitProb]
    · simp
  · rw [Finset.prod_congr rfl fun i hi => Finset.prod_congr rfl fun x hx => by rw [h1 _ _ i hi x hx]]
    simp [noiseProb]

/-- C101 is false for every other value of `lpn_tau`, which is an option of the binaries: debug builds of `preproc` panic, whatever the
randomness; release builds ignore the value, errors are nonzero with probability `(q - 1) / 4q` and the distribution is not the one with the given
bias. -/
theorem C101_tau_false (P : PreParams c ctx m mb d) (hm : m.AllOutputs ctx.t) (hmb : mb.UniformBits ctx.t) (he : d.errors ≠ 0) (tau : Nat)
    (ht : tau ≠ 2) :
    (∀ tp, preprocTau true tau ctx m mb d tp = none) ∧
    (∀ tp, preprocTau false tau ctx m mb d tp = preprocTau false 2 ctx m mb d tp) ∧
    (∀ a < d.errors, ∀ x < ctx.l,
      tapeFraction ctx m mb d (ManyErrors ctx m mb d {a} x 0) = ((Nat.card F - 1 : Nat) : ℚ) / (4 * Nat.card F : Nat)) ∧
    ∃ M : GarbleSecrets F, M.Fit ctx.l d ∧
      tapeFraction ctx m mb d (fun tp => Hides ctx (preprocTau false tau ctx m mb d tp) M) ≠ idealProb tau ctx.l d M := by
  refine ⟨fun tp => by simp [preprocTau, ht], fun tp => rfl, fun a ha x hx => ?_, ?_⟩
  · rw [C99_binomial P hm hmb {a} (by simpa using ha) x hx 0]
    simp [binomTail]
  · refine ⟨⟨List.replicate d.masks (List.replicate ctx.l 0), List.replicate d.numKeys (List.replicate ctx.l 0),
      List.replicate d.errors (List.replicate ctx.l 1)⟩, ⟨⟨by simp, ?_⟩, ⟨by simp, ?_⟩, ⟨by simp, ?_⟩⟩, ?_⟩
    · exact fun x hx => by rw [List.eq_of_mem_replicate hx, List.length_replicate]
    · exact fun x hx => by rw [List.eq_of_mem_replicate hx, List.length_replicate]
    · exact fun x hx => by rw [List.eq_of_mem_replicate hx, List.length_replicate]
    · intro h
      have h2 : ∀ tp, preprocTau false tau ctx m mb d tp = preprocTau false 2 ctx m mb d tp := fun tp => rfl
      simp only [h2] at h
      rw [C101_distribution_partial P hm hmb false _ ⟨⟨by simp, fun x hx => by rw [List.eq_of_mem_replicate hx, List.length_replicate]⟩,
        ⟨by simp, fun x hx => by rw [List.eq_of_mem_replicate hx, List.length_replicate]⟩,
        ⟨by simp, fun x hx => by rw [List.eq_of_mem_replicate hx, List.length_replicate]⟩⟩, idealProb_ones, idealProb_ones] at h
      have hq : (0 : ℚ) < 1 / Nat.card F := by
        have : 0 < Nat.card F := Nat.card_pos
        positivity
      have hl : ctx.l ≠ 0 := Nat.one_le_iff_ne_zero.1 P.good.posL
      have h3 := mul_left_cancel₀ (by positivity) h
      have h4 := (pow_left_inj₀ (by positivity) (by positivity) he).1 h3
      have h5 := (pow_left_inj₀ (by positivity) (by positivity) hl).1 h4
      have h6 := mul_right_cancel₀ hq.ne' h5
      have h7 : (2 : ℚ) ^ 2 = 2 ^ tau := by simpa using h6
      exact ht (Nat.pow_right_injective (le_refl 2) (by exact_mod_cast h7.symm))

end

/-- 16 parties, 4 of them corrupted, prepare the garbling of AES. -/
example : ∃ (ctx : Ctx (GF 18)) (m mb : Mat (GF 18)) (desc : PreProcCount), ctx.n = 16 ∧ ctx.t = 4 ∧ ctx.l = 3 ∧ desc.errors ≠ 0 ∧
    (∀ M : GarbleSecrets (GF 18), M.Fit 3 desc →
      tapeFraction ctx m mb desc (fun tp => Hides ctx (preprocTau true 2 ctx m mb desc tp) M) = idealProb 2 3 desc M) ∧
    ∀ tau ≠ 2, ∀ tp, preprocTau true tau ctx m mb desc tp = none := by
  obtain ⟨ctx, m, mb, h1, h2, h3, -, -, hm, hmb, R⟩ := private_params 36919 (by norm_num) ⟨127, 556⟩ (by norm_num) (by norm_num)
  obtain ⟨p, desc, g, -, g2, g3, -, P, -⟩ := net_params aes_small aes_checked aes_text aes_counts (by simp [aesNet]) R (fun x => x) (fun _ _ => 0)
  have he : desc.errors ≠ 0 := by
    obtain ⟨gate, hg⟩ := List.exists_mem_of_ne_nil _ (aes_gates R.good.posL g2)
    obtain ⟨gid, hg⟩ := List.mem_iff_getElem?.1 hg
    have := rowErrors_lt g3 hg (r := 0) (by cases gate.kind <;> decide) (p.errorIdx 556 gid 0 0)
      (Finset.mem_image.2 ⟨0, by norm_num, rfl⟩)
    omega
  refine ⟨ctx, m, mb, desc, h1, h2, h3, he, fun M hM => ?_, fun tau ht => (C101_tau_false P hm hmb he tau ht).1⟩
  rw [← h3] at hM ⊢
  exact C101_distribution_partial P hm hmb true M hM

end Verif.Props
