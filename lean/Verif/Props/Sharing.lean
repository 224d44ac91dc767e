import Verif.SharingLemmas
import Verif.MathModLemmas
import Verif.GF

/-!
# Properties C14-C20: packed secret sharing (`src/sharing.rs`)

`k = d + 1` below is the number of points that determine a sharing of degree at most `d`.
-/

open Polynomial

namespace Verif.Props

open CodeField (ofU32)

variable {F : Type} [CodeField F] [DecidableEq F]

/-- The concrete parameters used in the examples: 7 parties, degree 3, two secrets at the default
positions, over GF(16). -/
theorem examplePos : GoodPos (F := GF 4) 7 [ofU32 7, ofU32 8] := by
  refine ⟨by decide +kernel, ?_, ?_⟩
  · intro i hi
    interval_cases i <;> decide +kernel
  · show 7 ≤ 2 ^ 4
    norm_num

/-! ### C14: share, then reconstruct -/

/-- C14. For admissible positions and `l ≤ d + 1 ≤ n`, constructing the scheme succeeds, and for every
full secret vector and every random tape `share` returns `n` shares of one polynomial of degree at most
`d` taking the secrets at their positions; both reconstruction functions return the secrets. -/
theorem C14_share_recon (d n : Nat) (pos : List F) (hg : GoodPos n pos) (hl : pos.length ≤ d + 1)
    (hd : d + 1 ≤ n) :
    ∃ ps, PackedSharing.new d n pos = some ps ∧
      ∀ secrets tape : List F, secrets.length = pos.length → tape.length = d + 1 - pos.length →
        ∃ shares, ps.share secrets tape = some shares ∧ IsSharing n (d + 1) pos secrets shares ∧
          ps.semihonRecon shares = some secrets ∧ ps.recon shares = some (.ok secrets) := by
  have hnew : ∃ ps, PackedSharing.new d n pos = some ps := by
    unfold PackedSharing.new; simp only [if_pos hd]; exact ⟨_, rfl⟩
  obtain ⟨ps, hps⟩ := hnew
  refine ⟨ps, hps, fun secrets tape hs ht => ?_⟩
  obtain ⟨p, hp, h1, h2, h3⟩ := share_eq_eval hps hg hl secrets tape (by omega) (by omega)
  rw [List.drop_eq_nil_of_le (by omega), List.append_nil] at h2
  refine ⟨_, h1, ⟨p, hp, (range_map_eval n p).symm, h2.symm⟩, ?_, ?_⟩
  · rw [semihonRecon_eval hps hg.small p hp, h2]
  · rw [recon_eval hps hg.small _ (by simp [sharePos_length]) p hp (by rw [List.map_drop])]
    rw [if_pos rfl, h2]

/-- C14, short secret vectors: missing secrets are replaced by random values. -/
theorem C14_share_short (d n : Nat) (pos : List F) (hg : GoodPos n pos) (hl : pos.length ≤ d + 1)
    (ps : PackedSharing F) (hps : PackedSharing.new d n pos = some ps)
    (secrets tape : List F) (hs : secrets.length ≤ pos.length)
    (ht : tape.length = d + 1 - pos.length + (pos.length - secrets.length)) :
    ∃ shares, ps.share secrets tape = some shares ∧
      IsSharing n (d + 1) pos (secrets ++ tape.drop (d + 1 - pos.length)) shares := by
  obtain ⟨p, hp, h1, h2, h3⟩ := share_eq_eval hps hg hl secrets tape hs ht
  exact ⟨_, h1, p, hp, (range_map_eval n p).symm, h2.symm⟩

example : (PackedSharing.new 3 7 ([ofU32 7, ofU32 8] : List (GF 4))).isSome ∧
    ((PackedSharing.new 3 7 ([ofU32 7, ofU32 8] : List (GF 4))).bind fun ps =>
      (ps.share [ofU32 5, ofU32 9] [ofU32 1, ofU32 12]).bind fun s => ps.semihonRecon s)
      = some [ofU32 5, ofU32 9] := by
  decide +kernel

/-! ### C15: privacy -/

/-- C15. With degree `t + l - 1`: for every set of `t` parties, every secret vector and every vector of
`t` field elements there is exactly one random tape for which these parties' shares are that vector.
So the joint distribution of any `t` shares is uniform, whatever the secrets are. -/
theorem C15_privacy (t n : Nat) (pos : List F) (hg : GoodPos n pos) (hl : 1 ≤ pos.length)
    (ps : PackedSharing F) (hps : PackedSharing.new (t + pos.length - 1) n pos = some ps)
    (parties : List Nat) (hpn : parties.Nodup) (hpl : parties.length = t)
    (hplt : ∀ i ∈ parties, i < n)
    (secrets : List F) (hs : secrets.length = pos.length) (view : List F) (hv : view.length = t) :
    ∃! tape : List F, tape.length = t ∧
      ∃ shares, ps.share secrets tape = some shares ∧ parties.mapM (fun i => shares[i]?) = some view := by
  have hk : t + pos.length - 1 + 1 = t + pos.length := by omega
  have hdn := (new_eq hps).1
  have hget : ∀ (p : F[X]), parties.mapM (fun i => ((sharePos n).map fun x => p.eval x)[i]?)
      = some ((parties.map ofU32).map fun x => p.eval x) := by
    intro p
    rw [List.map_map]
    apply mapM_some_map
    intro i hi
    simp [sharePos, hplt i hi]
  -- the points fixed by secrets and view
  have hnd : (pos ++ parties.map ofU32).Nodup := by
    apply List.Nodup.append hg.nodup
    · apply List.Nodup.map_on _ hpn
      intro a ha b hb hab
      have := hg.small
      exact CodeField.ofU32_inj a b (by have := hplt a ha; omega) (by have := hplt b hb; omega) hab
    · intro x hx hy
      rw [List.mem_map] at hy
      obtain ⟨i, hi, rfl⟩ := hy
      exact hg.disj i (hplt i hi) hx
  have hlen : (pos ++ parties.map ofU32).length = t + pos.length := by simp [hpl]; omega
  obtain ⟨p, hp, hpv⟩ := exists_poly_of_values _ hnd (secrets ++ view) (by simp [hs, hpl, hv])
  rw [hlen] at hp
  rw [List.map_append] at hpv
  obtain ⟨hp1, hp2⟩ := List.append_inj hpv (by simp [hs])
  have key : ∀ tape : List F, tape.length = t → ∃ q : F[X], q.degree < (t + pos.length : Nat) ∧
      ps.share secrets tape = some ((sharePos n).map fun x => q.eval x) ∧
      pos.map (fun x => q.eval x) = secrets ∧
      ((sharePos n).take t).map (fun x => q.eval x) = tape := by
    intro tape ht
    obtain ⟨q, hq, h1, h2, h3⟩ := share_eq_eval hps hg (by omega) secrets tape (by omega) (by omega)
    rw [hk] at hq h2 h3
    rw [show t + pos.length - pos.length = t by omega] at h2 h3
    rw [List.drop_eq_nil_of_le (by omega), List.append_nil] at h2
    rw [List.take_of_length_le (l := tape) (by omega)] at h3
    exact ⟨q, hq, h1, h2, h3⟩
  refine ⟨((sharePos n).take t).map fun x => p.eval x, ⟨?_, ?_⟩, ?_⟩
  · simp [sharePos_length]; omega
  · have htl : (((sharePos n).take t).map fun x => p.eval x).length = t := by
      simp [sharePos_length]; omega
    obtain ⟨q, hq, h1, h2, h3⟩ := key _ htl
    have hpq : q = p := by
      have hnd2 : (pos ++ (sharePos n).take t).Nodup :=
        (allPos_nodup hg).sublist (List.Sublist.append_left (List.take_sublist _ _) _)
      have hlen2 : (pos ++ (sharePos n).take t : List F).length = t + pos.length := by
        simp [sharePos_length]; omega
      apply poly_eq_of_values _ hnd2 q p (by rw [hlen2]; exact hq) (by rw [hlen2]; exact hp)
      rw [List.map_append, List.map_append, h2, hp1, h3]
    subst hpq
    exact ⟨_, h1, by rw [hget, hp2]⟩
  · intro tape ⟨ht, shares, hsh, hview⟩
    obtain ⟨q, hq, h1, h2, h3⟩ := key tape ht
    rw [h1] at hsh
    injection hsh with hsh
    subst hsh
    rw [hget] at hview
    injection hview with hview
    have hpq : q = p := by
      apply poly_eq_of_values _ hnd q p (by rw [hlen]; exact hq) (by rw [hlen]; exact hp)
      rw [List.map_append, List.map_append, h2, hp1, hview, hp2]
    rw [← h3, hpq]

/-- 7 parties, threshold 2, parties 6 and 1. -/
example : GoodPos (F := GF 4) 7 [ofU32 7, ofU32 8] ∧
    (PackedSharing.new (2 + 2 - 1) 7 ([ofU32 7, ofU32 8] : List (GF 4))).isSome ∧
    ([6, 1] : List Nat).Nodup := ⟨examplePos, by decide +kernel, by decide⟩

/-! ### C16: tamper detection -/

/-- C16. `recon` accepts a vector of `n` shares exactly if they lie on a polynomial of degree at most
`d`, and then returns the values of that polynomial at the secret positions; otherwise it reports
malicious behaviour. -/
theorem C16_recon_iff (d n : Nat) (pos : List F) (hsm : n ≤ CodeField.order F)
    (ps : PackedSharing F) (hps : PackedSharing.new d n pos = some ps)
    (shares : List F) (hlen : shares.length = n) :
    (∀ secrets, ps.recon shares = some (.ok secrets) ↔ IsSharing n (d + 1) pos secrets shares) ∧
    (ps.recon shares = some (.error .maliciousBehavior) ↔ ¬ Consistent n (d + 1) shares) := by
  have hdn := (new_eq hps).1
  have hnd : ((sharePos n).drop (n - (d + 1)) : List F).Nodup :=
    (sharePos_nodup hsm).sublist (List.drop_sublist _ _)
  have hl2 : ((sharePos n).drop (n - (d + 1)) : List F).length = d + 1 := by
    simp [sharePos_length]; omega
  obtain ⟨p, hp, hpv⟩ := exists_poly_of_values _ hnd (shares.drop (n - (d + 1))) (by
    rw [hl2]; simp; omega)
  rw [hl2] at hp
  have hr := recon_eval hps hsm shares hlen p hp hpv.symm
  -- any polynomial through the shares is `p`
  have huniq : ∀ q : F[X], q.degree < (d + 1 : Nat) →
      shares = (List.range n).map (fun i => q.eval (ofU32 i)) → q = p := by
    intro q hq he
    apply poly_eq_of_values _ hnd q p (by rw [hl2]; exact hq) (by rw [hl2]; exact hp)
    rw [hpv, he, range_map_eval, List.map_drop]
  rw [hr]
  constructor
  · intro secrets
    constructor
    · intro h
      split at h
      · rename_i hc
        simp only [Option.some.injEq, Except.ok.injEq] at h
        exact ⟨p, hp, by rw [range_map_eval]; exact hc, h.symm⟩
      · simp at h
    · rintro ⟨q, hq, h1, h2⟩
      have := huniq q hq h1
      subst this
      rw [range_map_eval] at h1
      rw [if_pos h1, h2]
  · constructor
    · intro h
      split at h
      · simp at h
      · rename_i hc
        rintro ⟨q, hq, h1⟩
        have := huniq q hq h1
        subst this
        rw [range_map_eval] at h1
        exact hc h1
    · intro h
      rw [if_neg]
      intro hc
      exact h ⟨p, hp, by rw [range_map_eval]; exact hc⟩

/-- C16. Altering at least one and at most `n - d - 1` shares of a valid sharing is always detected. -/
theorem C16_tamper_detected (d n : Nat) (pos : List F) (hsm : n ≤ CodeField.order F)
    (ps : PackedSharing F) (hps : PackedSharing.new d n pos = some ps)
    (secrets shares shares' : List F) (hsh : IsSharing n (d + 1) pos secrets shares)
    (hlen : shares'.length = n) (h1 : 1 ≤ hdist shares shares')
    (h2 : hdist shares shares' ≤ n - d - 1) :
    ps.recon shares' = some (.error .maliciousBehavior) := by
  rw [(C16_recon_iff d n pos hsm ps hps shares' hlen).2]
  rintro ⟨q, hq, hq2⟩
  obtain ⟨p, hp, hp2, _⟩ := hsh
  have hdn := (new_eq hps).1
  rw [range_map_eval] at hp2 hq2
  rw [hp2, hq2, hdist_map, sharePos_length] at h1 h2
  by_cases hpq : p = q
  · subst hpq
    simp [sharePos_length] at h1
  · have := agree_lt (sharePos n) (sharePos_nodup hsm) p q hp hq hpq
    omega

/-- C16. A vector of the wrong length is refused with the other error. -/
theorem C16_wrong_length (d n : Nat) (pos : List F) (ps : PackedSharing F)
    (hps : PackedSharing.new d n pos = some ps) (shares : List F) (hlen : shares.length ≠ n) :
    ps.recon shares = some (.error .other) := by
  obtain ⟨_, hn, _⟩ := new_eq hps
  unfold PackedSharing.recon
  rw [hn, if_pos hlen]

/-- Three of seven shares altered (`n - d - 1 = 3`). -/
example : ((PackedSharing.new 3 7 ([ofU32 7, ofU32 8] : List (GF 4))).bind fun ps =>
      (ps.share [ofU32 5, ofU32 9] [ofU32 1, ofU32 12]).bind fun s =>
        some (decide (hdist s (vadd s [1, 0, ofU32 7, 0, 0, 1, 0]) = 3),
          (ps.recon (vadd s [1, 0, ofU32 7, 0, 0, 1, 0])).map fun r => match r with
            | .error .maliciousBehavior => true
            | _ => false)) = some (true, some true) := by
  decide +kernel

/-! ### C17: linearity -/

omit [DecidableEq F] in
/-- C17. Sums of share vectors are share vectors of the sums. -/
theorem C17_add (n k : Nat) (pos s1 s2 sh1 sh2 : List F) (h1 : IsSharing n k pos s1 sh1)
    (h2 : IsSharing n k pos s2 sh2) : IsSharing n k pos (vadd s1 s2) (vadd sh1 sh2) := by
  obtain ⟨p, hp, hp1, hp2⟩ := h1
  obtain ⟨q, hq, hq1, hq2⟩ := h2
  refine ⟨p + q, lt_of_le_of_lt (degree_add_le _ _) (max_lt hp hq), ?_, ?_⟩
  · rw [hp1, hq1, vadd, List.zipWith_map, List.zipWith_self]
    simp
  · rw [hp2, hq2, vadd, List.zipWith_map, List.zipWith_self]
    simp

omit [DecidableEq F] in
/-- C17. Multiples of share vectors are share vectors of the multiples. -/
theorem C17_smul (n k : Nat) (c : F) (pos s sh : List F) (h : IsSharing n k pos s sh) :
    IsSharing n k pos (vsmul c s) (vsmul c sh) := by
  obtain ⟨p, hp, hp1, hp2⟩ := h
  refine ⟨C c * p, ?_, ?_, ?_⟩
  · by_cases hc : c = 0
    · subst hc
      simp only [C_0, zero_mul, degree_zero]
      exact WithBot.bot_lt_coe k
    · rw [degree_C_mul hc]; exact hp
  · rw [hp1, vsmul, List.map_map]; simp
  · rw [hp2, vsmul, List.map_map]; simp

/-- C17. Reconstruction of any combination of sharings gives the combination of the secrets. -/
theorem C17_recon_combination (d n : Nat) (pos : List F) (hsm : n ≤ CodeField.order F)
    (ps : PackedSharing F) (hps : PackedSharing.new d n pos = some ps) (a b : F)
    (s1 s2 sh1 sh2 : List F) (h1 : IsSharing n (d + 1) pos s1 sh1)
    (h2 : IsSharing n (d + 1) pos s2 sh2) :
    ps.semihonRecon (vadd (vsmul a sh1) (vsmul b sh2)) = some (vadd (vsmul a s1) (vsmul b s2)) := by
  obtain ⟨p, hp, hp1, hp2⟩ := C17_add n (d + 1) pos _ _ _ _ (C17_smul n (d + 1) a pos s1 sh1 h1)
    (C17_smul n (d + 1) b pos s2 sh2 h2)
  rw [hp1, hp2, range_map_eval, semihonRecon_eval hps hsm p hp]

/-- A non-trivial sharing (the line `X`). -/
example : IsSharing (F := GF 4) 7 4 [ofU32 7, ofU32 8] [ofU32 7, ofU32 8]
    ((List.range 7).map ofU32) :=
  ⟨X, by rw [degree_X]; norm_num, by simp, by simp⟩

/-! ### C18: products -/

/-- C18. If `2d < n`, the entrywise product of two degree-`d` share vectors reconstructs under the
degree `n - 1` scheme to the entrywise product of the secrets. -/
theorem C18_product (d n : Nat) (pos : List F) (hsm : n ≤ CodeField.order F) (hd : 2 * d < n)
    (psn : PackedSharing F) (hps : PackedSharing.new (n - 1) n pos = some psn)
    (s1 s2 sh1 sh2 : List F) (h1 : IsSharing n (d + 1) pos s1 sh1)
    (h2 : IsSharing n (d + 1) pos s2 sh2) :
    IsSharing n (2 * d + 1) pos (vmul s1 s2) (vmul sh1 sh2) ∧
    psn.semihonRecon (vmul sh1 sh2) = some (vmul s1 s2) := by
  obtain ⟨p, hp, hp1, hp2⟩ := h1
  obtain ⟨q, hq, hq1, hq2⟩ := h2
  have hdeg : (p * q).degree < (2 * d + 1 : Nat) := by
    rw [degree_lt_iff_coeff_zero]
    intro m hm
    apply coeff_eq_zero_of_natDegree_lt
    have hp' : p.natDegree ≤ d := natDegree_le_iff_degree_le.2 (by
      rw [degree_le_iff_coeff_zero]
      intro m hm
      exact coeff_eq_zero_of_degree_lt (lt_of_lt_of_le hp (by exact_mod_cast hm)))
    have hq' : q.natDegree ≤ d := natDegree_le_iff_degree_le.2 (by
      rw [degree_le_iff_coeff_zero]
      intro m hm
      exact coeff_eq_zero_of_degree_lt (lt_of_lt_of_le hq (by exact_mod_cast hm)))
    have := natDegree_mul_le (p := p) (q := q)
    omega
  have e1 : vmul sh1 sh2 = (List.range n).map fun i => (p * q).eval (ofU32 i) := by
    rw [hp1, hq1, vmul, List.zipWith_map, List.zipWith_self]; simp
  have e2 : vmul s1 s2 = pos.map fun x => (p * q).eval x := by
    rw [hp2, hq2, vmul, List.zipWith_map, List.zipWith_self]; simp
  refine ⟨⟨p * q, hdeg, e1, e2⟩, ?_⟩
  rw [e1, e2, range_map_eval, semihonRecon_eval hps hsm (p * q)]
  refine lt_of_lt_of_le hdeg ?_
  have : n - 1 + 1 = n := by omega
  rw [this]
  exact_mod_cast (by omega : 2 * d + 1 ≤ n)

example : 2 * 3 < 7 ∧ (PackedSharing.new (7 - 1) 7 ([ofU32 7, ofU32 8] : List (GF 4))).isSome :=
  ⟨by norm_num, by decide +kernel⟩

/-! ### C19: random sharings -/

/-- C19. `rand` always returns consistent shares of degree at most `d`. -/
theorem C19_rand_consistent (d n : Nat) (pos : List F) (hsm : n ≤ CodeField.order F)
    (ps : PackedSharing F) (hps : PackedSharing.new d n pos = some ps) (tape : List F)
    (ht : tape.length = d + 1) :
    ∃ shares, ps.rand tape = some shares ∧ Consistent n (d + 1) shares := by
  obtain ⟨p, hp, h1, _⟩ := rand_eq_eval hps hsm tape ht
  exact ⟨_, h1, p, hp, (range_map_eval n p).symm⟩

/-- C19. For any `d + 1` distinct points and any values there, exactly one tape makes `rand` return the
sharing with these values at these points: the shared polynomial (hence its secrets) is uniform. -/
theorem C19_rand_uniform (d n : Nat) (pos : List F) (hsm : n ≤ CodeField.order F)
    (ps : PackedSharing F) (hps : PackedSharing.new d n pos = some ps)
    (pts vals : List F) (hpts : pts.Nodup) (hpl : pts.length = d + 1) (hvl : vals.length = d + 1) :
    ∃! tape : List F, tape.length = d + 1 ∧ ∃ shares, ps.rand tape = some shares ∧
      ∃ p : F[X], p.degree < (d + 1 : Nat) ∧ shares = (List.range n).map (fun i => p.eval (ofU32 i)) ∧
        pts.map (fun x => p.eval x) = vals := by
  have hdn := (new_eq hps).1
  have hnd : ((sharePos n).take (d + 1) : List F).Nodup :=
    (sharePos_nodup hsm).sublist (List.take_sublist _ _)
  have hl2 : ((sharePos n).take (d + 1) : List F).length = d + 1 := by simp [sharePos_length]; omega
  obtain ⟨p, hp, hpv⟩ := exists_poly_of_values pts hpts vals (by omega)
  rw [hpl] at hp
  refine ⟨((sharePos n).take (d + 1)).map fun x => p.eval x, ⟨by simpa using hl2, ?_⟩, ?_⟩
  · obtain ⟨q, hq, h1, h2⟩ := rand_eq_eval hps hsm (((sharePos n).take (d + 1)).map fun x => p.eval x)
      (by simpa using hl2)
    have : q = p := poly_eq_of_values _ hnd q p (by rw [hl2]; exact hq) (by rw [hl2]; exact hp) h2
    subst this
    exact ⟨_, h1, q, hq, (range_map_eval n q).symm, hpv⟩
  · rintro tape ⟨ht, shares, hsh, q, hq, hq1, hq2⟩
    obtain ⟨r, hr, h1, h2⟩ := rand_eq_eval hps hsm tape ht
    rw [h1] at hsh
    injection hsh with hsh
    have hqp : q = p := poly_eq_of_values pts hpts q p (by rw [hpl]; exact hq) (by rw [hpl]; exact hp)
      (by rw [hq2, hpv])
    subst hqp
    rw [range_map_eval] at hq1
    rw [← h2]
    have : (((sharePos n).map fun x => r.eval x).take (d + 1))
        = (((sharePos n).map fun x => q.eval x).take (d + 1)) := by rw [hsh, hq1]
    rw [← List.map_take, ← List.map_take] at this
    exact this

example : ((PackedSharing.new 1 4 ([ofU32 7] : List (GF 4))).bind fun ps => ps.rand [ofU32 3, ofU32 5])
    = some [ofU32 3, ofU32 5, ofU32 15, ofU32 9] := by decide +kernel

/-! ### C20: positions -/

omit [DecidableEq F] in
/-- C20. Share positions, default secret positions and wire positions are pairwise distinct as long as
they fit into the field. -/
theorem C20_positions_distinct (n l numWires : Nat) (h : n + l + numWires ≤ CodeField.order F) :
    (sharePos n ++ defaultPos n l ++ wireToPos n l (List.range numWires) : List F).Nodup := by
  have e : (sharePos n ++ defaultPos n l ++ wireToPos n l (List.range numWires) : List F)
      = (List.range (n + l + numWires)).map ofU32 := by
    rw [List.range_add, List.range_add, List.map_append, List.map_append]
    unfold sharePos defaultPos wireToPos
    simp only [List.map_map]
    congr 2
    funext x
    simp [Nat.add_comm]
  rw [e]
  apply List.Nodup.map_on _ List.nodup_range
  intro a ha b hb hab
  simp at ha hb
  exact CodeField.ofU32_inj a b (by omega) (by omega) hab

omit [DecidableEq F] in
/-- C20. Consequently the default positions are admissible for sharing. -/
theorem C20_default_good (n l : Nat) (h : n + l ≤ CodeField.order F) :
    GoodPos n (defaultPos n l : List F) := by
  have hnd := C20_positions_distinct (F := F) n l 0 (by omega)
  rw [List.nodup_append, List.nodup_append] at hnd
  refine ⟨hnd.1.2.1, ?_, by omega⟩
  intro i hi hm
  exact hnd.1.2.2 (ofU32 i) (by simp only [sharePos, List.mem_map, List.mem_range]; exact ⟨i, hi, rfl⟩)
    _ hm rfl

omit [DecidableEq F] in
/-- C20. Distinct wires have distinct positions, none of which is a party's position. -/
theorem C20_wires_good (n l numWires : Nat) (ws : List Nat) (h : n + l + numWires ≤ CodeField.order F)
    (hw : ws.Nodup) (hlt : ∀ w ∈ ws, w < numWires) : GoodPos n (wireToPos n l ws : List F) := by
  refine ⟨?_, ?_, by omega⟩
  · unfold wireToPos
    apply List.Nodup.map_on _ hw
    intro a ha b hb hab
    have := CodeField.ofU32_inj _ _ (by have := hlt a ha; omega) (by have := hlt b hb; omega) hab
    omega
  · intro i hi hm
    simp only [wireToPos, List.mem_map] at hm
    obtain ⟨w, hw', he⟩ := hm
    have := CodeField.ofU32_inj _ _ (by have := hlt w hw'; omega) (by omega) he
    omega

/-- 16 parties, packing 4: wires fit into GF(2^18) only up to 262124 wires. -/
example : 16 + 4 + 262124 ≤ CodeField.order (GF 18) := by
  show _ ≤ 2 ^ 18
  norm_num

end Verif.Props
