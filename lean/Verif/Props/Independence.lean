import Verif.IndepLemmas
import Verif.Props.Noise

/-!
# C102: what corrupted parties see is independent of the preprocessing material
-/

namespace Verif.Props

section
variable {F : Type} [CodeField F] [DecidableEq F] [Finite F] {hash : List Nat → List Nat} {rng : List Nat → Nat → F} {ctx : Ctx F} {lpn : LpnParams}
  {circ : PackedCircuit} {g : GarbleCtx F} {gtp : GarbleTapes F} {d : PreProcCount} {c : Codec F} {lead : ProtocolID → Nat} {m mb : Mat F}
  {id gid : ProtocolID} {Cs : Finset Nat}

/-- C102: if the matrices are such that the secrets are uniformly random, then a coalition learns nothing in the sense of C91, that is there are
bijections of the randomness, if and only if what it sees is independent of the secrets. -/
theorem C102_iff (P : PreParams c ctx m mb d) (G : GarbleParams hash rng ctx lpn circ g gtp d) (hm : m.AllOutputs ctx.t)
    (hmb : mb.UniformBits ctx.t) (hL : ∀ id, lead id < ctx.n)
    (hids : (garbleIdsOf gid circ.inputs.length ctx.l (circ.gates.map PackedGate.kind)).isSome) :
    RunPrivate c ctx m mb d id g lead gtp gid Cs ↔ RunIndependent c ctx m mb d id g lead gtp gid Cs :=
  ⟨private_independent P hm hmb, independent_private P hm hmb fun _ ht => sees_exists P G hL hids ht⟩

/-- C102: if the coalition learns nothing in the sense of C91, then whatever it has seen, the masks, labels and errors have the distribution of
C101. -/
theorem C102_posterior (P : PreParams c ctx m mb d) (h : RunPrivate c ctx m mb d id g lead gtp gid Cs) (M : GarbleSecrets F) (hM : M.Fit ctx.l d)
    (V : Nat → PreView F × GarbleView F) :
    tapeFraction ctx m mb d (fun tp => Hides ctx (preproc ctx m mb d tp) M ∧ Sees c ctx m mb d id g lead gtp gid Cs V tp)
      = idealProb 2 ctx.l d M * tapeFraction ctx m mb d (Sees c ctx m mb d id g lead gtp gid Cs V) :=
  hides_fraction_and P _ (fun _ _ hS hS' => h.sees V hS hS') hM

/-- C102, for matrices from which `t` parties learn nothing and circuits without a repeated wire in the gate input blocks which are not full, or with one for which the surplus is hidden (`PackedCircuit.Hides`): what
at most `t` parties see of `preproc` and `garble` is independent of the wire masks, labels and errors, whose distribution is the one of C101
whatever they see.  Missing for the full claim: the other circuits, for which it is false (`C102_independent_false`). -/
theorem C102_independent_partial (P : PreParams c ctx m mb d) (G : GarbleParams hash rng ctx lpn circ g gtp d) (hm : m.AllOutputs ctx.t)
    (hmb : mb.UniformBits ctx.t) (hD : circ.Hides ctx) (hL : ∀ id, lead id < ctx.n) (hC : Coalition ctx Cs)
    (hids : (garbleIdsOf gid circ.inputs.length ctx.l (circ.gates.map PackedGate.kind)).isSome) :
    RunIndependent c ctx m mb d id g lead gtp gid Cs ∧ ∀ M : GarbleSecrets F, M.Fit ctx.l d → ∀ V,
      tapeFraction ctx m mb d (fun tp => Hides ctx (preproc ctx m mb d tp) M ∧ Sees c ctx m mb d id g lead gtp gid Cs V tp)
        = idealProb 2 ctx.l d M * tapeFraction ctx m mb d (Sees c ctx m mb d id g lead gtp gid Cs V) := by
  have h := C91_run_private_partial P G hm hmb hD hL Cs hC id gid hids
  exact ⟨private_independent P hm hmb h, fun M hM V => C102_posterior P h M hM V⟩

/-- C102 is false for the circuits of `C89_garble_private_false`. -/
theorem C102_independent_false (P : PreParams c ctx m mb d) (G : GarbleParams hash rng ctx lpn circ g gtp d) (hm : m.AllOutputs ctx.t)
    (hmb : mb.UniformBits ctx.t) (hL : ∀ id, lead id < ctx.n) (hC : Coalition ctx Cs) (hcard : Cs.card = ctx.t)
    (hids : (garbleIdsOf gid circ.inputs.length ctx.l (circ.gates.map PackedGate.kind)).isSome) (i q : Nat) (ws : List Nat)
    (K : circ.LeakyInput ctx Cs i q ws) : ¬ RunIndependent c ctx m mb d id g lead gtp gid Cs :=
  fun h => C91_run_private_false P G hL Cs hC hcard id gid i q ws K ((C102_iff P G hm hmb hL hids).2 h)

end

section
variable {ctx : Ctx (GF 18)} {lpn : LpnParams} {m mb : Mat (GF 18)} {seahash : List Nat → Nat} {lead : ProtocolID → Nat} {id id' : ProtocolID}

section
variable {N : Net} {rank : Nat → Nat} (hs : N.Small) (hc : N.Checked rank) {text : String} {tail : List Char}
  (ht : text.toList = N.text tail)
include hs hc ht

/-- Leaks and independence. -/
theorem net_independent {a x v : Nat} (hcnt : numKind N.circuit.gates .and = a ∧ numKind N.circuit.gates .inv = v ∧
      numKind N.circuit.gates .xor = x) (hsum : N.n1 + N.n2 + a + x + v ≤ N.numWires)
    (R : RunParams ctx lpn N.numWires m mb seahash lead id id')
    (hids : ∀ k ∈ idCounts a x v (N.n1 + N.n2) ctx.l, k ≤ 2 ^ 63 ∧ ¬ ∃ j, k = 256 ^ j)
    (hm : m.AllOutputs ctx.t) (hmb : mb.UniformBits ctx.t) (hash : List Nat → List Nat) (rng : List Nat → Nat → GF 18) :
    (FilePrivate hash rng ctx lpn m mb lead id id' text.toList → FileIndependent hash rng ctx lpn m mb lead id id' text.toList) ∧
    (FileLeaks hash rng ctx lpn m mb lead id id' text.toList → ¬ FileIndependent hash rng ctx lpn m mb lead id id' text.toList) := by
  obtain ⟨p, desc, g, h1, h2, h3, h4, P, G, -⟩ := net_params hs hc ht hcnt hsum R hash rng
  have hids : (garbleIdsOf id' p.inputs.length ctx.l (p.gates.map PackedGate.kind)).isSome := by
    rw [ids_iff h2, hcnt.1, hcnt.2.1, hcnt.2.2, show N.circuit.inputs.flatten.length = N.n1 + N.n2 by simp [Net.circuit]]
    exact hids
  constructor
  · rintro ⟨circ', p', desc', g', h1', h2', h3', h4', h5⟩
    obtain rfl : N.circuit = circ' := Option.some.inj (h1.symm.trans h1')
    obtain rfl : p = p' := Option.some.inj (h2.symm.trans h2')
    obtain rfl : desc = desc' := Option.some.inj (h3.symm.trans h3')
    obtain rfl : g = g' := Option.some.inj (h4.symm.trans h4')
    exact ⟨_, _, _, _, h1, h2, h3, h4, fun gtp hgtp Cs hC => private_independent P hm hmb (h5 gtp hgtp Cs hC).1⟩
  · rintro ⟨circ', p', desc', g', h1', h2', h3', h4', Cs, hC, h5⟩ ⟨circ'', p'', desc'', g'', h1'', h2'', h3'', h4'', h6⟩
    obtain rfl : N.circuit = circ' := Option.some.inj (h1.symm.trans h1')
    obtain rfl : p = p' := Option.some.inj (h2.symm.trans h2')
    obtain rfl : desc = desc' := Option.some.inj (h3.symm.trans h3')
    obtain rfl : g = g' := Option.some.inj (h4.symm.trans h4')
    obtain rfl : N.circuit = circ'' := Option.some.inj (h1.symm.trans h1'')
    obtain rfl : p = p'' := Option.some.inj (h2.symm.trans h2'')
    obtain rfl : desc = desc'' := Option.some.inj (h3.symm.trans h3'')
    obtain rfl : g = g'' := Option.some.inj (h4.symm.trans h4'')
    obtain ⟨gtp, hgtp⟩ := garbleTapes_exist ctx g
    exact h5 gtp hgtp ((C102_iff P (G gtp hgtp) hm hmb (fun id => (chooseLeader_lt R.lead).2 id) hids).2 (h6 gtp hgtp Cs hC))

end

/-- C102 for `aes_128.txt`: what at most `t` parties see is independent of masks, labels and errors for exactly these packing parameters, of
those with which it is garbled at all. -/
theorem C102_aes_iff (R : RunParams ctx lpn 36919 m mb seahash lead id id') (hm : m.AllOutputs ctx.t) (hmb : mb.UniformBits ctx.t)
    (ht : 2 ≤ ctx.t) (hl : ctx.l < 193 ∧ ctx.l ≠ 146) (hash : List Nat → List Nat) (rng : List Nat → Nat → GF 18) :
    FileIndependent hash rng ctx lpn m mb lead id id' aesText.toList ↔ ctx.l ∈ [1, 2, 3, 4, 5, 8, 16, 25] := by
  have h := net_independent aes_small aes_checked aes_text aes_counts (by simp [aesNet]) R ((aes_ids ctx.l R.good.posL).2 (by omega)) hm hmb hash rng
  refine ⟨fun h1 => ?_, fun h1 => h.1 (C98_aes_partial R hm hmb h1 hash rng)⟩
  by_contra hn
  exact h.2 (C98_aes_false R ht hl hn hash rng) h1

/-- C102 for `sha256.txt`. -/
theorem C102_sha_iff (R : RunParams ctx lpn 135841 m mb seahash lead id id') (hm : m.AllOutputs ctx.t) (hmb : mb.UniformBits ctx.t)
    (ht : 2 ≤ ctx.t) (hl : ctx.l < 371) (hash : List Nat → List Nat) (rng : List Nat → Nat → GF 18) :
    FileIndependent hash rng ctx lpn m mb lead id id' shaText.toList ↔ ctx.l ≤ 4 := by
  have h := net_independent sha_small sha_checked sha_text sha_counts (by simp [shaNet]) R ((sha_ids ctx.l R.good.posL).2 (by omega)) hm hmb hash rng
  refine ⟨fun h1 => ?_, fun h1 => h.1 (C98_sha_partial R hm hmb h1 hash rng)⟩
  by_contra hn
  exact h.2 (C98_sha_false R ht ⟨by omega, hl⟩ hash rng) h1

end

/-- 16 parties, 4 of them corrupted, garble AES with three secrets per sharing. -/
example (hash : List Nat → List Nat) (rng : List Nat → Nat → GF 18) : ∃ ctx m mb, ctx.n = 16 ∧ ctx.t = 4 ∧ ctx.l = 3 ∧
    FileIndependent hash rng ctx ⟨127, 556⟩ m mb (fun id => id.sum % 16) [1] [2] aesText.toList := by
  obtain ⟨ctx, m, mb, h1, h2, h3, -, -, hm, hmb, R⟩ := private_params 36919 (by norm_num) ⟨127, 556⟩ (by norm_num) (by norm_num)
  exact ⟨ctx, m, mb, h1, h2, h3, (C102_aes_iff R hm hmb (by omega) (by omega) hash rng).2 (by rw [h3]; decide)⟩

end Verif.Props
