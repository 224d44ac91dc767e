import Verif.GarbleRows

/-!
# Runs of `garble` exist for all secrets
-/

open Polynomial

namespace Verif

open CodeField (ofU32)

variable {F : Type} [CodeField F] [DecidableEq F]

/-- Every list of secret vectors has sharings. -/
theorem vecSharing_exists {n l k : Nat} (h : n + l ≤ CodeField.order F) (hk : l ≤ k) (secrets : List (List F))
    (hs : ∀ row ∈ secrets, row.length = l) :
    ∃ q : Nat → F[X], (∀ j < secrets.length, (q j).degree < k) ∧
      VecSharing n k (defaultPos n l) secrets (tabShares n secrets.length q) := by
  have g := defaultPos_good (F := F) h
  have hp : ∀ row ∈ secrets, ∃ p : F[X], p.degree < l ∧ (defaultPos n l).map (fun x => p.eval x) = row := by
    intro row hr
    have := exists_poly_of_values (defaultPos n l) g.nodup row (by rw [hs row hr, defaultPos_length])
    rwa [defaultPos_length] at this
  have hq : ∀ j : Nat, ∃ p : F[X], j < secrets.length →
      p.degree < l ∧ (defaultPos n l).map (fun x => p.eval x) = secrets.getD j [] := by
    intro j
    by_cases hj : j < secrets.length
    · obtain ⟨p, h1, h2⟩ := hp _ (List.getElem_mem hj)
      exact ⟨p, fun _ => ⟨h1, by rw [h2, List.getD_eq_getElem _ _ hj]⟩⟩
    · exact ⟨0, fun h => absurd h hj⟩
  choose q hq using hq
  refine ⟨q, fun j hj => degree_lt_mono (hq j hj).1 hk, ?_⟩
  have hsec : secrets = tabSecrets (defaultPos n l) secrets.length q := by
    unfold tabSecrets
    apply List.ext_getElem (by simp)
    intro i h1 h2
    rw [List.getElem_map, List.getElem_range, (hq i h1).2, List.getD_eq_getElem _ _ h1]
  have := vecSharing_of_tab n k (defaultPos n l) secrets.length q (fun j hj => degree_lt_mono (hq j hj).1 hk)
  rwa [← hsec] at this

theorem describe_some (c : PackedCircuit) (n t l : Nat) (lpn : LpnParams) (hl : 1 ≤ l) :
    ∃ d, c.describe n t l lpn = some d := by
  obtain ⟨a, ha⟩ := numBatches_some (c.inputs.length + c.gates.length) hl
  obtain ⟨b, hb⟩ := numBatches_some (c.gateCounts.1 * 2 + c.gateCounts.2.1 * 2 + c.gateCounts.2.2) hl
  unfold PackedCircuit.describe PreProcCount.ofCounts
  simp only [ha, hb, Option.bind_some, Option.map_some]
  exact ⟨_, rfl⟩

theorem setup_exists (hash : List Nat → List Nat) (rng : List Nat → Nat → F) {ctx : Ctx F} (good : ctx.Good)
    (parties : ctx.t + 2 * ctx.l ≤ ctx.n) (mult : 2 * (ctx.t + ctx.l - 1) < ctx.n) (lpn : LpnParams)
    {c : PackedCircuit} (circ : c.Ok ctx.l) (fit : ∀ w ∈ c.blocks.flatten, ctx.n + ctx.l + w < CodeField.order F)
    (code : lpn.mssgLen < CodeField.order F) (masks keys errors : List (List F))
    (hm : masks.length = c.blocks.length) (hk : keys.length = 2 * lpn.keyLen * c.blocks.length)
    (he : errors.length = (c.gates.map fun x => x.kind.numRows * lpn.mssgLen).sum)
    (hml : ∀ r ∈ masks, r.length = ctx.l) (hkl : ∀ r ∈ keys, r.length = ctx.l) (hel : ∀ r ∈ errors, r.length = ctx.l) :
    ∃ g tp pre d, c.describe ctx.n ctx.t ctx.l lpn = some d ∧
      Setup hash rng ctx lpn c g tp pre masks keys errors d.randoms d.zeros := by
  obtain ⟨d, hd⟩ := describe_some c ctx.n ctx.t ctx.l lpn good.posL
  obtain ⟨no, ni, hno, hni, e1, e2, e3, e4, e5⟩ := describe_eq hd
  obtain ⟨g, A, g1, g2⟩ := garbleCtx_new hash rng good lpn circ fit code
  obtain ⟨M, M1, M2⟩ := vecSharing_exists (k := ctx.t + ctx.l) good.fit (by omega) masks hml
  obtain ⟨K, K1, K2⟩ := vecSharing_exists (k := ctx.t + ctx.l) good.fit (by omega) keys hkl
  obtain ⟨E, E1, E2⟩ := vecSharing_exists (k := ctx.t + ctx.l) good.fit (by omega) errors hel
  have z1 := vecSharing_of_tab ctx.n (ctx.t + ctx.l) (defaultPos ctx.n ctx.l) d.randoms (fun _ => (0 : F[X]))
    (fun _ _ => by rw [degree_zero]; exact WithBot.bot_lt_coe _)
  have z2 := vecZero_of_tab (n := ctx.n) (k := ctx.n) (pos := defaultPos ctx.n ctx.l) (num := d.zeros) (fun _ => (0 : F[X]))
    (fun _ _ => by rw [degree_zero]; exact WithBot.bot_lt_coe _) (fun _ _ _ _ => eval_zero)
  have tapes : ∀ tfs : List (SharingTransform F), TransTapes ctx tfs (2 * g.lpn.keyLen + 1) (tfs.map fun tr =>
      List.replicate (2 * g.lpn.keyLen + 1) (List.replicate (ctx.t + ctx.l - tr.newPos.length) 0)) := by
    intro tfs
    refine ⟨by simp, ?_⟩
    intro k tr tp h1 h2
    rw [List.getElem?_map, h1, Option.map_some, Option.some.injEq] at h2
    subst h2
    refine ⟨by simp, ?_⟩
    intro x hx
    rw [List.eq_of_mem_replicate hx, List.length_replicate]
  refine ⟨g, ⟨g.tfOut.map fun tr => List.replicate (2 * g.lpn.keyLen + 1)
        (List.replicate (ctx.t + ctx.l - tr.newPos.length) 0),
      g.tfInp.map fun tr => List.replicate (2 * g.lpn.keyLen + 1)
        (List.replicate (ctx.t + ctx.l - tr.newPos.length) 0),
      g.circ.gates.map fun x => ⟨List.replicate 1 (List.replicate ctx.t 0), List.replicate
        (match x.kind with | .and => 3 * (g.lpn.keyLen + 1) | .xor => g.lpn.keyLen + 1 | .inv => g.lpn.keyLen + 1)
        (List.replicate ctx.t 0)⟩⟩,
    (List.range ctx.n).map fun i => ⟨(List.range masks.length).map fun j => (M j).eval (ofU32 i),
      ⟨d.keys, (List.range keys.length).map fun j => (K j).eval (ofU32 i)⟩,
      (List.range d.randoms).map fun _ => (0 : F[X]).eval (ofU32 i), (List.range d.zeros).map fun _ => (0 : F[X]).eval (ofU32 i),
      (List.range errors.length).map fun j => (E j).eval (ofU32 i)⟩, d, hd, ?_⟩
  refine ⟨good, parties, mult, circ, fit, code, g1, ⟨tapes _, tapes _, by simp, ?_⟩, ?_⟩
  · intro gid gate x h1 h2
    simp only [] at h2
    rw [List.getElem?_map, h1, Option.map_some, Option.some.injEq] at h2
    subst h2
    refine ⟨?_, ?_, ?_⟩
    · intro y hy
      rw [List.eq_of_mem_replicate hy, List.length_replicate]
    · intro y hy
      rw [List.eq_of_mem_replicate hy, List.length_replicate]
    · cases gate.kind <;> simp
  · refine ⟨⟨d, hd, by omega, ?_, ?_, le_refl _, le_refl _, ?_⟩, by simp, ?_, ?_, ?_, ?_, ?_⟩
    · rw [hk, e2]
    · intro p hp
      obtain ⟨i, _, rfl⟩ := List.mem_map.1 hp
      rfl
    · rw [e5, he, List.map_map]
      exact le_of_eq rfl
    · rw [List.map_map]; exact M2
    · rw [List.map_map]; exact K2
    · rw [List.map_map]; exact E2
    · refine ⟨tabSecrets (defaultPos ctx.n ctx.l) d.randoms (fun _ => (0 : F[X])), ?_, ?_⟩
      · rw [List.map_map]; exact z1
      · simp [tabSecrets]
    · rw [List.map_map]; exact z2

end Verif
