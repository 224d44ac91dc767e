import Verif.PrivacyRtLemmas

/-!
# Changing coins layer by layer

The change of a coin may depend on values of both executions which are computed from coins of lower rank.
-/

open Polynomial

namespace Verif

variable {F : Type} [CodeField F] {ctx : Ctx F} {nr nz : Nat} {D : Type} [AddGroup D]

/-- Coins agree below rank `r`. -/
def Coins.AgreeBelow (rkR rkZ : Nat → Nat) (r : Nat) (ω ω' : Coins ctx nr nz) : Prop :=
  (∀ m < nr, rkR m < r → ω.g m = ω'.g m) ∧ ∀ m < nz, rkZ m < r → ω.z m = ω'.z m

/-- The layers: ranks of the coins, and the changes for given differences of values. -/
structure Layers (ctx : Ctx F) (nr nz : Nat) (D : Type) [AddGroup D] where
  rkR : Nat → Nat
  rkZ : Nat → Nat
  γ : Nat → D → Nat → F[X]
  ζ : Nat → D → Nat → F[X]
  num : Nat
  ltR : ∀ m < nr, rkR m < num
  ltZ : ∀ m < nz, rkZ m < num
  degγ : ∀ r d, ∀ m < nr, (γ r d m).degree < (ctx.t + ctx.l : Nat)
  zeroζ : ∀ r d, ∀ m < nz, (ζ r d m).degree < ctx.n ∧ ∀ v ∈ defaultPos ctx.n ctx.l, (ζ r d m).eval v = 0
  negγ : ∀ r d m, γ r (-d) m = -γ r d m
  negζ : ∀ r d m, ζ r (-d) m = -ζ r d m

/-- Values of rank `r` are computed from coins of lower rank. -/
def Layers.Local (Ly : Layers ctx nr nz D) (V : Nat → Coins ctx nr nz → D) : Prop :=
  ∀ r ω ω', Coins.AgreeBelow Ly.rkR Ly.rkZ r ω ω' → V r ω = V r ω'

/-- The changed coins, if `ω'` is used for the values of the other execution. -/
noncomputable def Layers.next (Ly : Layers ctx nr nz D) (V V' : Nat → Coins ctx nr nz → D) (ω ω' : Coins ctx nr nz) :
    Coins ctx nr nz :=
  ω.shift (fun m => Ly.γ (Ly.rkR m) (V (Ly.rkR m) ω - V' (Ly.rkR m) ω') m)
    (fun m => Ly.ζ (Ly.rkZ m) (V (Ly.rkZ m) ω - V' (Ly.rkZ m) ω') m)
    (fun m hm => Ly.degγ _ _ m hm) (fun m hm => Ly.zeroζ _ _ m hm)

theorem Layers.next_g (Ly : Layers ctx nr nz D) (V V' : Nat → Coins ctx nr nz → D) (ω ω' : Coins ctx nr nz) {m : Nat}
    (hm : m < nr) : (Ly.next V V' ω ω').g m = ω.g m + Ly.γ (Ly.rkR m) (V (Ly.rkR m) ω - V' (Ly.rkR m) ω') m :=
  Coins.shift_g _ _ _ _ _ hm

theorem Layers.next_z (Ly : Layers ctx nr nz D) (V V' : Nat → Coins ctx nr nz → D) (ω ω' : Coins ctx nr nz) {m : Nat}
    (hm : m < nz) : (Ly.next V V' ω ω').z m = ω.z m + Ly.ζ (Ly.rkZ m) (V (Ly.rkZ m) ω - V' (Ly.rkZ m) ω') m :=
  Coins.shift_z _ _ _ _ _ hm

theorem Coins.agreeBelow_eq (Ly : Layers ctx nr nz D) {ω ω' : Coins ctx nr nz}
    (h : Coins.AgreeBelow Ly.rkR Ly.rkZ Ly.num ω ω') : ω = ω' :=
  Coins.ext' (fun m hm => h.1 m hm (Ly.ltR m hm)) fun m hm => h.2 m hm (Ly.ltZ m hm)

theorem Coins.AgreeBelow.mono {rkR rkZ : Nat → Nat} {r s : Nat} {ω ω' : Coins ctx nr nz}
    (h : Coins.AgreeBelow rkR rkZ r ω ω') (hs : s ≤ r) : Coins.AgreeBelow rkR rkZ s ω ω' :=
  ⟨fun m hm hr => h.1 m hm (by omega), fun m hm hr => h.2 m hm (by omega)⟩

theorem Layers.next_agree (Ly : Layers ctx nr nz D) (V : Nat → Coins ctx nr nz → D) {V' : Nat → Coins ctx nr nz → D}
    (hV' : Ly.Local V') (ω : Coins ctx nr nz) {ω1 ω2 : Coins ctx nr nz} {r : Nat}
    (h : Coins.AgreeBelow Ly.rkR Ly.rkZ r ω1 ω2) :
    Coins.AgreeBelow Ly.rkR Ly.rkZ (r + 1) (Ly.next V V' ω ω1) (Ly.next V V' ω ω2) := by
  constructor
  · intro m hm hr
    rw [Ly.next_g _ _ _ _ hm, Ly.next_g _ _ _ _ hm, hV' _ _ _ (h.mono (by omega))]
  · intro m hm hr
    rw [Ly.next_z _ _ _ _ hm, Ly.next_z _ _ _ _ hm, hV' _ _ _ (h.mono (by omega))]

theorem Layers.exists_fix (Ly : Layers ctx nr nz D) (V : Nat → Coins ctx nr nz → D) {V' : Nat → Coins ctx nr nz → D}
    (hV' : Ly.Local V') (ω : Coins ctx nr nz) : ∃ ω', ω' = Ly.next V V' ω ω' := by
  have key : ∀ k, Coins.AgreeBelow Ly.rkR Ly.rkZ k ((Ly.next V V' ω)^[k] ω) ((Ly.next V V' ω)^[k + 1] ω) := by
    intro k
    induction k with
    | zero => exact ⟨fun m _ hr => absurd hr (by omega), fun m _ hr => absurd hr (by omega)⟩
    | succ k ih =>
      rw [Function.iterate_succ_apply', Function.iterate_succ_apply' _ (k + 1)]
      exact Ly.next_agree V hV' ω ih
  refine ⟨(Ly.next V V' ω)^[Ly.num] ω, ?_⟩
  have := Coins.agreeBelow_eq Ly (key Ly.num)
  rw [Function.iterate_succ_apply'] at this
  exact this

theorem Layers.fix_unique (Ly : Layers ctx nr nz D) (V : Nat → Coins ctx nr nz → D) {V' : Nat → Coins ctx nr nz → D}
    (hV' : Ly.Local V') (ω : Coins ctx nr nz) {ω1 ω2 : Coins ctx nr nz} (h1 : ω1 = Ly.next V V' ω ω1)
    (h2 : ω2 = Ly.next V V' ω ω2) : ω1 = ω2 := by
  apply Coins.agreeBelow_eq Ly
  have key : ∀ k, Coins.AgreeBelow Ly.rkR Ly.rkZ k ω1 ω2 := by
    intro k
    induction k with
    | zero => exact ⟨fun m _ hr => absurd hr (by omega), fun m _ hr => absurd hr (by omega)⟩
    | succ k ih =>
      rw [h1, h2]
      exact Ly.next_agree V hV' ω ih
  exact key _

theorem Layers.fix_symm (Ly : Layers ctx nr nz D) (V V' : Nat → Coins ctx nr nz → D) {ω ω' : Coins ctx nr nz}
    (h : ω' = Ly.next V V' ω ω') : ω = Ly.next V' V ω' ω := by
  apply Coins.ext'
  · intro m hm
    have := congrArg (fun w => w.g m) h
    simp only [Ly.next_g V V' ω ω' hm] at this
    rw [Ly.next_g _ _ _ _ hm, this, add_assoc, ← neg_sub, Ly.negγ, neg_add_cancel, add_zero]
  · intro m hm
    have := congrArg (fun w => w.z m) h
    simp only [Ly.next_z V V' ω ω' hm] at this
    rw [Ly.next_z _ _ _ _ hm, this, add_assoc, ← neg_sub, Ly.negζ, neg_add_cancel, add_zero]

/-- There is a bijection of the coins with the prescribed changes. -/
theorem Layers.bijection (Ly : Layers ctx nr nz D) {V V' : Nat → Coins ctx nr nz → D} (hV : Ly.Local V) (hV' : Ly.Local V') :
    ∃ e : Coins ctx nr nz ≃ Coins ctx nr nz, ∀ ω,
      (∀ m < nr, (e ω).g m = ω.g m + Ly.γ (Ly.rkR m) (V (Ly.rkR m) ω - V' (Ly.rkR m) (e ω)) m) ∧
      ∀ m < nz, (e ω).z m = ω.z m + Ly.ζ (Ly.rkZ m) (V (Ly.rkZ m) ω - V' (Ly.rkZ m) (e ω)) m := by
  choose T hT using Ly.exists_fix V hV'
  choose T' hT' using Ly.exists_fix V' hV
  refine ⟨⟨T, T', fun ω => ?_, fun ω => ?_⟩, fun ω => ⟨fun m hm => ?_, fun m hm => ?_⟩⟩
  · exact Ly.fix_unique V' hV (T ω) (hT' (T ω)) (Ly.fix_symm V V' (hT ω))
  · exact Ly.fix_unique V hV' (T' ω) (hT (T' ω)) (Ly.fix_symm V' V (hT' ω))
  · have := congrArg (fun w => w.g m) (hT ω)
    simp only [Ly.next_g V V' ω (T ω) hm] at this
    exact this
  · have := congrArg (fun w => w.z m) (hT ω)
    simp only [Ly.next_z V V' ω (T ω) hm] at this
    exact this

end Verif
