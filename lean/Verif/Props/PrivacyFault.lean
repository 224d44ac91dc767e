import Verif.AsyncFaultLemmas
import Verif.Props.PrivacyNet

/-!
# What the parties learn when tasks crash and connections break
-/

open Verif

namespace Verif.Props

/-- One step or failure of two executions which have come where they are by the same steps. -/
theorem fail_step {O : Type} {n : Nat} {Cs : Finset Nat} {jobs jobs' : List (Job O)} (h : NetAlike n Cs jobs jobs') (es : List FStep)
    (y y' : FailNet O) (e : NetFail) (h1 : (Full.start n).run n jobs es = some y.full) (h2 : (Full.start n).run n jobs' es = some y'.full)
    (he : y.ended = y'.ended) :
    Option.Rel (fun z z' => z.ended = z'.ended ∧ ∃ es, (Full.start n).run n jobs es = some z.full ∧
      (Full.start n).run n jobs' es = some z'.full) (y.step n jobs e) (y'.step n jobs' e) := by
  match e with
  | .fail lost => exact .some ⟨by simp only [he], es, h1, h2⟩
  | .step e =>
    show Option.Rel _ (if y.ended e = true then none else (y.full.step n jobs e).map fun f => { y with full := f })
      (if y'.ended e = true then none else (y'.full.step n jobs' e).map fun f => { y' with full := f })
    rw [← he]
    split
    · exact .none
    · have hstep := h (es ++ [e])
      have r1 : (Full.start n).run n jobs (es ++ [e]) = y.full.step n jobs e := by
        rw [Full.run_append, h1, Option.bind_some]
        simp [Full.run]
      have r2 : (Full.start n).run n jobs' (es ++ [e]) = y'.full.step n jobs' e := by
        rw [Full.run_append, h2, Option.bind_some]
        simp [Full.run]
      rw [r1, r2] at hstep
      cases hs : y.full.step n jobs e with
      | none =>
        rw [hs] at hstep
        cases hs' : y'.full.step n jobs' e with
        | none => exact .none
        | some g' =>
          rw [hs'] at hstep
          cases hstep
      | some g =>
        rw [hs] at hstep
        cases hs' : y'.full.step n jobs' e with
        | none =>
          rw [hs'] at hstep
          cases hstep
        | some g' => exact .some ⟨rfl, es ++ [e], r1.trans hs, r2.trans hs'⟩

/-- C92 with failures.  If the corrupted parties cannot tell two executions apart, they cannot do so either when any tasks end and any connections
break, at any time: with the same failures either both executions are possible and lead to states which they cannot tell apart, or none is. -/
theorem C92_failures {O : Type} {n : Nat} {Cs : Finset Nat} {jobs jobs' : List (Job O)} (h : NetAlike n Cs jobs jobs') (es : List NetFail) :
    Option.Rel (fun y y' => y.ended = y'.ended ∧ Full.Alike Cs y.full y'.full) ((FailNet.start n).run n jobs es)
      ((FailNet.start n).run n jobs' es) := by
  have key : ∀ (es : List NetFail) (es0 : List FStep) (y y' : FailNet O), (Full.start n).run n jobs es0 = some y.full →
      (Full.start n).run n jobs' es0 = some y'.full → y.ended = y'.ended →
      Option.Rel (fun y y' => y.ended = y'.ended ∧ Full.Alike Cs y.full y'.full) (y.run n jobs es) (y'.run n jobs' es) := by
    intro es
    induction es with
    | nil =>
      intro es0 y y' h1 h2 he
      have := h es0
      rw [h1, h2] at this
      cases this with
      | some hal => exact .some ⟨he, hal⟩
    | cons e es ih =>
      intro es0 y y' h1 h2 he
      have hst := fail_step h es0 y y' e h1 h2 he
      unfold FailNet.run
      revert hst
      generalize y.step n jobs e = a
      generalize y'.step n jobs' e = b
      intro hst
      cases hst with
      | none => exact .none
      | some hz =>
        obtain ⟨i1, es1, i2, i3⟩ := hz
        exact ih es1 _ _ i2 i3 i1
  exact key es [] _ _ rfl rfl rfl

/-- `k` steps, where each step or failure is chosen by `A`, given the state. -/
def failAdaptive {O : Type} (n : Nat) (jobs : List (Job O)) (A : FailNet O → NetFail) : Nat → FailNet O → Option (FailNet O)
  | 0, y => some y
  | k + 1, y => (y.step n jobs (A y)).bind fun y => failAdaptive n jobs A k y

/-- C92 with failures which the corrupted parties choose while the protocol runs, by looking at what they see. -/
theorem C92_failures_adaptive {O : Type} {n : Nat} {Cs : Finset Nat} {jobs jobs' : List (Job O)} (h : NetAlike n Cs jobs jobs')
    (A : FailNet O → NetFail) (hA : ∀ y y' : FailNet O, y.ended = y'.ended → y.full.Alike Cs y'.full → A y = A y') (k : Nat) :
    Option.Rel (fun y y' => y.ended = y'.ended ∧ Full.Alike Cs y.full y'.full) (failAdaptive n jobs A k (FailNet.start n))
      (failAdaptive n jobs' A k (FailNet.start n)) := by
  have key : ∀ (k : Nat) (es : List FStep) (y y' : FailNet O), (Full.start n).run n jobs es = some y.full →
      (Full.start n).run n jobs' es = some y'.full → y.ended = y'.ended →
      Option.Rel (fun y y' => y.ended = y'.ended ∧ Full.Alike Cs y.full y'.full) (failAdaptive n jobs A k y) (failAdaptive n jobs' A k y') := by
    intro k
    induction k with
    | zero =>
      intro es y y' h1 h2 he
      have := h es
      rw [h1, h2] at this
      cases this with
      | some hal => exact .some ⟨he, hal⟩
    | succ k ih =>
      intro es y y' h1 h2 he
      have hal := h es
      rw [h1, h2] at hal
      cases hal with
      | some hal =>
        have hst := fail_step h es y y' (A y) h1 h2 he
        unfold failAdaptive
        rw [← hA y y' he hal]
        revert hst
        generalize y.step n jobs (A y) = a
        generalize y'.step n jobs' (A y) = b
        intro hst
        cases hst with
        | none => exact .none
        | some hz =>
          obtain ⟨i1, es1, i2, i3⟩ := hz
          exact ih es1 _ _ i2 i3 i1
  exact key k [] _ _ rfl rfl rfl

/-- C92 with failures, `garble`: for any two secrets there is a bijection of the randomness such that in corresponding executions, with the same
steps and failures, the corrupted parties see the same. -/
theorem C92_garble_failures {F : Type} [CodeField F] [DecidableEq F] {hash : List Nat → List Nat} {rng : List Nat → Nat → F} {ctx : Ctx F}
    {lpn : LpnParams} {circ : PackedCircuit} {g : GarbleCtx F} {tp : GarbleTapes F} {d : PreProcCount} {c : Codec F} {lead : ProtocolID → Nat}
    (P : GarbleParams hash rng ctx lpn circ g tp d) (hc : c.Ok) (B : Nat) (hB : 0 < B) (hw : c.Width B) (seahash : List Nat → Nat)
    (hlead : ∀ id, chooseLeader seahash id none ctx.n = some (lead id))
    (hb : B * (2 * ((ctx.n + ctx.t) * (2 * lpn.keyLen + 1))) < 2 ^ 63) (hK : B * (3 * (lpn.keyLen + 1)) < 2 ^ 63) (id : ProtocolID)
    (hid : id.length ≤ 239) (hids : (garbleIdsOf id circ.inputs.length ctx.l (circ.gates.map PackedGate.kind)).isSome)
    (Cs : Finset Nat) (hC : Coalition ctx Cs) (hD : circ.Hides ctx) (M M' : GarbleSecrets F) (hM : M.Fit ctx.l d) (hM' : M'.Fit ctx.l d) :
    ∃ e : GarbleWorld ctx d M ≃ GarbleWorld ctx d M', ∀ w, (∀ q ∈ Cs, w.material q = (e w).material q) ∧
      ∃ jobs jobs', garbleJobs c ctx g lead tp ((List.range ctx.n).map w.material) id = some jobs ∧
        garbleJobs c ctx g lead tp ((List.range ctx.n).map (e w).material) id = some jobs' ∧
        ∀ es : List NetFail, Option.Rel (fun y y' => y.ended = y'.ended ∧ Full.Alike Cs y.full y'.full)
          ((FailNet.start ctx.n).run ctx.n jobs es) ((FailNet.start ctx.n).run ctx.n jobs' es) := by
  obtain ⟨e, he⟩ := C92_garble P hc B hB hw seahash hlead hb hK id hid hids Cs hC.parties
    (C89_garble_private_partial P hc (fun id => (chooseLeader_lt hlead).2 id) Cs hC hD id hids) M M' hM hM'
  refine ⟨e, fun w => ?_⟩
  obtain ⟨h1, jobs, jobs', h2, h3, h4⟩ := he w
  exact ⟨h1, jobs, jobs', h2, h3, C92_failures h4⟩

/-- The half adder with 7 parties and corrupted party 5; party 5 sees the same, whatever the wire masks, labels and errors are, when party 2 crashes
after it has sent one byte to party 5. -/
example : ∃ (ctx : Ctx (GF 4)) (g : GarbleCtx (GF 4)) (tp : GarbleTapes (GF 4)) (d : PreProcCount), exCtx = some ctx ∧
    ∀ M M' : GarbleSecrets (GF 4), M.Fit ctx.l d → M'.Fit ctx.l d → ∃ e : GarbleWorld ctx d M ≃ GarbleWorld ctx d M', ∀ w,
      (∀ q ∈ ({5} : Finset Nat), w.material q = (e w).material q) ∧
      ∃ jobs jobs', garbleJobs (gfCodec 4) ctx g (fun id => id.sum % 7) tp ((List.range ctx.n).map w.material) [7] = some jobs ∧
        garbleJobs (gfCodec 4) ctx g (fun id => id.sum % 7) tp ((List.range ctx.n).map (e w).material) [7] = some jobs' ∧
        ∀ es : List NetFail, Option.Rel (fun y y' => y.ended = y'.ended ∧ Full.Alike {5} y.full y'.full)
          ((FailNet.start ctx.n).run ctx.n jobs ([.step (.act 2 0), .step (.act 2 0), .step (.route 2), .step (.take 2 5), .step (.push 2 5 1),
            .fail (crashSteps 2)] ++ es))
          ((FailNet.start ctx.n).run ctx.n jobs' ([.step (.act 2 0), .step (.act 2 0), .step (.route 2), .step (.take 2 5), .step (.push 2 5 1),
            .fail (crashSteps 2)] ++ es)) := by
  obtain ⟨ctx, h1, h2, h3, h4, h5⟩ := exCtx_good
  have ho : CodeField.order (GF 4) = 16 := by
    show 2 ^ 4 = 16
    norm_num
  obtain ⟨g, tp, d, P⟩ := params_exist id (fun _ _ => (1 : GF 4)) h2 (by omega) (by omega) ⟨1, 3⟩ (c := exCirc)
    (by rw [h5]; exact exCirc_ok) (by rw [h3, h5, ho]; decide) (by rw [ho]; decide) (by rw [h3, h4]; decide) (by decide)
  refine ⟨ctx, g, tp, d, h1, fun M M' hM hM' => ?_⟩
  obtain ⟨e, he⟩ := C92_garble_failures P (gfCodec_ok 4 (by norm_num)) 1 (by norm_num) (gfCodec_width 4 (by norm_num)) List.sum
    (lead := fun id => id.sum % 7) (fun id => by
      unfold chooseLeader leaderFromProtoId
      have := Nat.mod_lt id.sum (show 7 > 0 by omega)
      simp only [h3]
      rw [if_neg (by omega), if_pos (by omega)]) (by rw [h3, h4]; decide) (by decide) [7] (by decide) (by rw [h5]; decide +kernel) {5}
    ⟨by simp; omega, by simp; omega⟩ (by
      left
      rw [h5]
      unfold PackedCircuit.Distinct
      decide) M M' hM hM'
  refine ⟨e, fun w => ?_⟩
  obtain ⟨i1, jobs, jobs', i2, i3, i4⟩ := he w
  exact ⟨i1, jobs, jobs', i2, i3, fun es => i4 _⟩

end Verif.Props
