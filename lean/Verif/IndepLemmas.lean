import Verif.NoiseLemmas
import Verif.IndepSpec

/-!
# Lemmas for the independence of what corrupted parties see
-/

namespace Verif

/-- A bijection which respects two functions, from the sizes of their fibres. -/
theorem equiv_of_fibres {A B C : Type} [Finite A] [Finite B] (f : A → C) (g : B → C)
    (h : ∀ v, Nat.card {a // f a = v} = Nat.card {b // g b = v}) : ∃ e : A ≃ B, ∀ a, g (e a) = f a := by
  have e : ∀ v, Nonempty ({a // f a = v} ≃ {b // g b = v}) := fun v => ⟨(Finite.equivFinOfCardEq (h v)).trans
    (Finite.equivFinOfCardEq rfl).symm⟩
  have e := fun v => (e v).some
  refine ⟨(Equiv.sigmaFiberEquiv f).symm.trans ((Equiv.sigmaCongrRight e).trans (Equiv.sigmaFiberEquiv g)), fun a => ?_⟩
  exact (e (f a) ⟨a, rfl⟩).2

variable {F : Type} [CodeField F] [DecidableEq F] {c : Codec F} {ctx : Ctx F} {m mb : Mat F} {d : PreProcCount} {id : ProtocolID}
  {g : GarbleCtx F} {lead : ProtocolID → Nat} {gtp : GarbleTapes F} {gid : ProtocolID} {Cs : Finset Nat}

theorem RunPrivate.sees (h : RunPrivate c ctx m mb d id g lead gtp gid Cs) (V : Nat → PreView F × GarbleView F) {S S' : PreSecrets F}
    (hS : S.Fit ctx.l d) (hS' : S'.Fit ctx.l d) : ∃ e : TapesWith ctx m mb d S ≃ TapesWith ctx m mb d S',
      ∀ tp, Sees c ctx m mb d id g lead gtp gid Cs V tp.1 ↔ Sees c ctx m mb d id g lead gtp gid Cs V (e tp).1 := by
  obtain ⟨e, he⟩ := h S S' hS hS'
  refine ⟨e, fun tp => ?_⟩
  obtain ⟨pre, pre', h1, h2, h3⟩ := he tp
  constructor
  · rintro ⟨pre1, k1, k2⟩
    obtain rfl : pre = pre1 := Option.some.inj (h1.symm.trans k1)
    refine ⟨pre', h2, fun q hq => ?_⟩
    obtain ⟨⟨v, v1, v2⟩, w, w1, w2⟩ := h3 q hq
    obtain ⟨k3, k4⟩ := k2 q hq
    exact ⟨v2.trans (v1.symm.trans k3), w2.trans (w1.symm.trans k4)⟩
  · rintro ⟨pre1, k1, k2⟩
    obtain rfl : pre' = pre1 := Option.some.inj (h2.symm.trans k1)
    refine ⟨pre, h1, fun q hq => ?_⟩
    obtain ⟨⟨v, v1, v2⟩, w, w1, w2⟩ := h3 q hq
    obtain ⟨k3, k4⟩ := k2 q hq
    exact ⟨v1.trans (v2.symm.trans k3), w1.trans (w2.symm.trans k4)⟩

/-- The fraction of the randomness with given secrets. -/
theorem has_iff {ids : List ProtocolID} {br bz bb : Nat} (H : PreHyp c ctx m mb d id ids br bz bb) {tp : PreTapes F}
    (ht : tp.Ok ctx.n ctx.t ctx.l m mb d) {S : PreSecrets F} (hS : S.Fit ctx.l d) :
    HasSecrets ctx m mb d tp S ↔ tp.secrets ctx m mb d br bz bb = S :=
  ⟨fun h => H.secrets_unique ht hS h, fun h => h ▸ H.secrets_has ht⟩

theorem fn_iff {l : Nat} {d : PreProcCount} {S S' : PreSecrets F} (hS : S.Fit l d) (hS' : S'.Fit l d) :
    S = S' ↔ (PreSecrets.fn S : SecFun F l d) = PreSecrets.fn S' :=
  ⟨fun h => h ▸ rfl, fun h => congrArg Subtype.val ((fn_bijective l d).1 (a₁ := ⟨S, hS⟩) (a₂ := ⟨S', hS'⟩) h)⟩

theorem private_independent [Finite F] (P : PreParams c ctx m mb d) (hm : m.AllOutputs ctx.t) (hmb : mb.UniformBits ctx.t)
    (h : RunPrivate c ctx m mb d id g lead gtp gid Cs) : RunIndependent c ctx m mb d id g lead gtp gid Cs := by
  intro S hS V
  obtain ⟨ids, br, bz, bb, H⟩ := P.hyp []
  rw [fraction_and P H _ (fun S S' hS hS' => h.sees V hS hS') _ (fun S' => S' = S) (fun f => f = PreSecrets.fn S) (fun tp ht => has_iff H ht hS)
      (fun S' hS' => fn_iff hS' hS),
    fraction_eq P hm hmb H _ (fun S' => S' = S) (fun f => f = PreSecrets.fn S) (fun tp ht => has_iff H ht hS) (fun S' hS' => fn_iff hS' hS)]

/-- Views in terms of fractions. -/
theorem fraction_with [Finite F] (P : PreParams c ctx m mb d) (W : PreTapes F → Prop) (S : PreSecrets F) :
    (Nat.card {tp : TapesWith ctx m mb d S // W tp.1} : ℚ) = tapeFraction ctx m mb d (fun tp => HasSecrets ctx m mb d tp S ∧ W tp) *
      Nat.card {tp : PreTapes F // tp.Ok ctx.n ctx.t ctx.l m mb d} := by
  obtain ⟨ids, br, bz, bb, H⟩ := P.hyp []
  have hfin := finite_tapes ctx.n ctx.t ctx.l P.mat.2.2 P.matb.2.2 d
  obtain ⟨tp0⟩ : Nonempty (TapesWith ctx m mb d (onlyBit ctx.l d (errSizes d ctx.n) 0 0)) := H.zero_exists
  have hne : Nonempty {tp : PreTapes F // tp.Ok ctx.n ctx.t ctx.l m mb d} := ⟨tp0.1, tp0.2.1⟩
  have hp : (Nat.card {tp : PreTapes F // tp.Ok ctx.n ctx.t ctx.l m mb d} : ℚ) ≠ 0 := by exact_mod_cast (Nat.card_pos).ne'
  unfold tapeFraction
  rw [div_mul_cancel₀ _ hp]
  exact_mod_cast Nat.card_congr ((Equiv.subtypeSubtypeEquivSubtypeInter _ W).trans (Equiv.subtypeEquivRight fun _ => and_assoc))

/-- The runs end. -/
theorem sees_exists {hash : List Nat → List Nat} {rng : List Nat → Nat → F} {lpn : LpnParams} {circ : PackedCircuit}
    (P : PreParams c ctx m mb d) (G : GarbleParams hash rng ctx lpn circ g gtp d) (hL : ∀ id, lead id < ctx.n)
    (hids : (garbleIdsOf gid circ.inputs.length ctx.l (circ.gates.map PackedGate.kind)).isSome) {tp : PreTapes F}
    (ht : tp.Ok ctx.n ctx.t ctx.l m mb d) : ∃ V, Sees c ctx m mb d id g lead gtp gid Cs V tp := by
  obtain ⟨ids, br, bz, bb, H⟩ := P.hyp id
  obtain ⟨ids', hids'⟩ := Option.isSome_iff_exists.1 hids
  have G' := Props.params_grow G H
  have hfit := H.secrets_fit tp
  let x : TapesWith ctx m mb d (tp.secrets ctx m mb d br bz bb) := ⟨tp, ht, H.secrets_has ht⟩
  have hmat : preproc ctx m mb d tp = some ((List.range ctx.n).map (H.world hfit x).material) := by
    rw [H.preproc ht]
    exact congrArg some (List.map_congr_left fun p _ => (H.world_material hfit x p).symm)
  obtain ⟨go, gi, hG⟩ := G'.prepared
  let w := H.world hfit x
  obtain ⟨fin, hfin, hfl⟩ := G'.run (lead := lead) P.codec hG hL (garble_fit hfit) (worldEquiv ctx _ _ w).1 (worldEquiv ctx _ _ w).2
  exact ⟨fun q => (_, _), _, hmat, fun q _ => ⟨H.view ht q, hfin.view hG hids' (ids_length_eq hG hids' hfl) q⟩⟩

theorem independent_private [Finite F] (P : PreParams c ctx m mb d) (hm : m.AllOutputs ctx.t) (hmb : mb.UniformBits ctx.t)
    (hex : ∀ tp : PreTapes F, tp.Ok ctx.n ctx.t ctx.l m mb d → ∃ V, Sees c ctx m mb d id g lead gtp gid Cs V tp)
    (h : RunIndependent c ctx m mb d id g lead gtp gid Cs) : RunPrivate c ctx m mb d id g lead gtp gid Cs := by
  intro S S' hS hS'
  obtain ⟨ids, br, bz, bb, H⟩ := P.hyp []
  have hfin := finite_tapes ctx.n ctx.t ctx.l P.mat.2.2 P.matb.2.2 d
  have hfinW : ∀ S, Finite (TapesWith ctx m mb d S) := fun S =>
    Finite.of_injective (fun tp => (⟨tp.1, tp.2.1⟩ : {tp : PreTapes F // tp.Ok ctx.n ctx.t ctx.l m mb d})) fun a b h =>
      Subtype.ext (congrArg (fun z => z.1) h)
  have hu : tapeFraction ctx m mb d (fun tp => HasSecrets ctx m mb d tp S) = tapeFraction ctx m mb d (fun tp => HasSecrets ctx m mb d tp S') := by
    have := (Props.C90_secrets_uniform P hm hmb S S' hS hS').2
    unfold tapeFraction
    rw [this]
  have hcard : ∀ V, Nat.card {tp : TapesWith ctx m mb d S // Sees c ctx m mb d id g lead gtp gid Cs V tp.1}
      = Nat.card {tp : TapesWith ctx m mb d S' // Sees c ctx m mb d id g lead gtp gid Cs V tp.1} := by
    intro V
    have h1 := fraction_with P (Sees c ctx m mb d id g lead gtp gid Cs V) S
    have h2 := fraction_with P (Sees c ctx m mb d id g lead gtp gid Cs V) S'
    rw [h S hS V, hu, ← h S' hS' V, ← h2] at h1
    exact_mod_cast h1
  -- what is seen, as a function of the randomness
  let view : PreTapes F → Cs → Option (PreView F × GarbleView F) := fun tp q =>
    (preproc ctx m mb d tp).bind fun pre => (preprocView c ctx m mb d tp id q).bind fun v => (garbleView c ctx g lead gtp pre gid q).map fun w => (v, w)
  have hview : ∀ (tp : PreTapes F) V, tp.Ok ctx.n ctx.t ctx.l m mb d →
      (Sees c ctx m mb d id g lead gtp gid Cs V tp ↔ view tp = fun q : Cs => some (V q)) := by
    intro tp V ht
    obtain ⟨V', pre, k1, k2⟩ := hex tp ht
    constructor
    · rintro ⟨pre, k1, k2⟩
      funext q
      simp only [view, k1, (k2 q q.2).1, (k2 q q.2).2, Option.bind_some, Option.map_some]
    · intro k
      refine ⟨pre, k1, fun q hq => ?_⟩
      have := congrFun k ⟨q, hq⟩
      simp only [view, k1, (k2 q hq).1, (k2 q hq).2, Option.bind_some, Option.map_some, Option.some.injEq] at this
      rw [← this]
      exact k2 q hq
  obtain ⟨e, he⟩ := equiv_of_fibres (fun tp : TapesWith ctx m mb d S => view tp.1) (fun tp : TapesWith ctx m mb d S' => view tp.1) (by
    intro v
    by_cases hv : ∃ V : Nat → PreView F × GarbleView F, v = fun q : Cs => some (V q)
    · obtain ⟨V, rfl⟩ := hv
      rw [← Nat.card_congr (Equiv.subtypeEquivRight fun tp : TapesWith ctx m mb d S => hview tp.1 V tp.2.1),
        ← Nat.card_congr (Equiv.subtypeEquivRight fun tp : TapesWith ctx m mb d S' => hview tp.1 V tp.2.1)]
      exact hcard V
    · have emp : ∀ S, IsEmpty {tp : TapesWith ctx m mb d S // view tp.1 = v} := fun S => ⟨fun tp => by
        obtain ⟨V, hV⟩ := hex tp.1.1 tp.1.2.1
        exact hv ⟨V, tp.2.symm.trans ((hview _ V tp.1.2.1).1 hV)⟩⟩
      rw [Nat.card_of_isEmpty, Nat.card_of_isEmpty])
  refine ⟨e, fun tp => ?_⟩
  obtain ⟨V, hV⟩ := hex tp.1 tp.2.1
  have hV' : Sees c ctx m mb d id g lead gtp gid Cs V (e tp).1 := (hview _ V (e tp).2.1).2 ((he tp).trans ((hview _ V tp.2.1).1 hV))
  obtain ⟨pre, k1, k2⟩ := hV
  obtain ⟨pre', k1', k2'⟩ := hV'
  exact ⟨pre, pre', k1, k1', fun q hq => ⟨⟨_, (k2 q hq).1, (k2' q hq).1⟩, _, (k2 q hq).2, (k2' q hq).2⟩⟩

end Verif
