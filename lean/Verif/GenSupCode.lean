import Verif.GenSupSpec
import Verif.BinsupRank
import Verif.MathModLemmas
import Mathlib.Algebra.Module.ZMod

/-!
# Helper lemmas: the code generated by `scripts/gen_binary_supmat.py`
-/

open Polynomial

namespace Verif

/-! ### Lists -/

theorem sum_zipWith_range {R S : Type} [AddCommMonoid R] (f : S → List R → R) (v : List S) (M : List (List R)) (d : S)
    (h : v.length = M.length) :
    (List.zipWith f v M).sum = ∑ i ∈ Finset.range v.length, f (v.getD i d) (M.getD i []) := by
  induction v generalizing M with
  | nil => simp
  | cons a v ih =>
    cases M with
    | nil => simp at h
    | cons row M =>
      rw [List.zipWith_cons_cons, List.sum_cons, ih M (by simpa using h), List.length_cons, Finset.sum_range_succ', add_comm]
      simp

theorem getD_map_range {A : Type} (n : Nat) (g : Nat → A) (d : A) {i : Nat} (h : i < n) :
    ((List.range n).map g).getD i d = g i := by
  rw [List.getD_eq_getElem?_getD, List.getElem?_map, List.getElem?_range h]
  rfl

theorem flatMap_getD {A B : Type} (l : List A) (g : A → List B) (nb : Nat) (hg : ∀ a ∈ l, (g a).length = nb) (d : B) (a0 : A) :
    (l.flatMap g).length = nb * l.length ∧ ∀ j < l.length, ∀ c < nb, (l.flatMap g).getD (nb * j + c) d = (g (l.getD j a0)).getD c d := by
  induction l with
  | nil => exact ⟨by simp, fun j hj => absurd hj (by simp)⟩
  | cons a l ih =>
    obtain ⟨ih1, ih2⟩ := ih fun x hx => hg x (by simp [hx])
    have ha := hg a (by simp)
    rw [List.flatMap_cons]
    refine ⟨by rw [List.length_append, ih1, ha, List.length_cons]; ring, fun j hj c hc => ?_⟩
    cases j with
    | zero =>
      rw [Nat.mul_zero, Nat.zero_add, List.getD_append _ _ _ _ (by omega)]
      rfl
    | succ j =>
      rw [List.getD_append_right _ _ _ _ (by rw [ha, Nat.mul_succ]; omega), ha,
        show nb * (j + 1) + c - nb = nb * j + c by rw [Nat.mul_succ]; omega, ih2 j (by simpa using hj) c hc]
      rfl

section
variable {K : Type} [Field K] {k : Nat} {B : BinField K k}

/-! ### The field -/

theorem BinField.Ok.add_ofVec (hB : B.Ok) {l l' : List (ZMod 2)} (h : l.length = k) (h' : l'.length = k) :
    B.ofVec (List.zipWith (· + ·) l l') = B.ofVec l + B.ofVec l' := by
  rw [← hB.left (B.ofVec l + B.ofVec l'), hB.add, hB.right l h, hB.right l' h']

theorem BinField.Ok.vec_inj (hB : B.Ok) {x y : K} (h : B.vec x = B.vec y) : x = y := by
  rw [← hB.left x, h, hB.left]

/-- Coordinates. -/
def BinField.Ok.coord (hB : B.Ok) (r : Nat) : K →+ ZMod 2 :=
  AddMonoidHom.mk' (fun x => (B.vec x).getD r 0) fun x y => by
    have hx := hB.len x
    have hy := hB.len y
    by_cases hr : r < k
    · rw [hB.add, List.getD_eq_getElem _ _ (by rw [List.length_zipWith]; omega), List.getElem_zipWith,
        List.getD_eq_getElem _ _ (by omega), List.getD_eq_getElem _ _ (by omega)]
    · rw [List.getD_eq_default _ _ (by rw [hB.len]; omega), List.getD_eq_default _ _ (by omega),
        List.getD_eq_default _ _ (by omega), add_zero]

theorem BinField.Ok.vec_eq (hB : B.Ok) (x : K) : B.vec x = (List.range k).map fun r => hB.coord r x := by
  refine List.ext_getElem (by rw [hB.len, List.length_map, List.length_range]) fun r h1 h2 => ?_
  rw [List.getElem_map, List.getElem_range]
  change _ = (B.vec x).getD r 0
  rw [List.getD_eq_getElem _ _ h1]

theorem BinField.Ok.coord_ofVec (hB : B.Ok) (g : Nat → ZMod 2) {r : Nat} (hr : r < k) :
    hB.coord r (B.ofVec ((List.range k).map g)) = g r := by
  change (B.vec _).getD r 0 = _
  rw [hB.right _ (by simp), getD_map_range _ _ _ hr]

theorem BinField.Ok.eq_zero (hB : B.Ok) {x : K} (h : ∀ r < k, hB.coord r x = 0) : x = 0 := by
  apply hB.vec_inj
  rw [hB.vec_eq, hB.vec_eq]
  refine List.map_congr_left fun r hr => ?_
  rw [h r (List.mem_range.1 hr), map_zero]

theorem BinField.Ok.ofInt_inj (hB : B.Ok) {i j : Nat} (hi : i < 2 ^ k) (hj : j < 2 ^ k) (h : B.ofInt i = B.ofInt j) : i = j := by
  refine Nat.eq_of_testBit_eq fun b => ?_
  by_cases hb : b < k
  · have h1 := hB.coord_ofVec (fun c => if i.testBit (k - 1 - c) then 1 else 0) (r := k - 1 - b) (by omega)
    have h2 := hB.coord_ofVec (fun c => if j.testBit (k - 1 - c) then 1 else 0) (r := k - 1 - b) (by omega)
    unfold BinField.ofInt at h
    rw [h, h2] at h1
    simp only [show k - 1 - (k - 1 - b) = b by omega] at h1
    cases hi' : i.testBit b <;> cases hj' : j.testBit b <;> simp_all
  · rw [Nat.testBit_lt_two_pow (lt_of_lt_of_le hi (Nat.pow_le_pow_right (by norm_num) (by omega))),
      Nat.testBit_lt_two_pow (lt_of_lt_of_le hj (Nat.pow_le_pow_right (by norm_num) (by omega)))]

/-! ### The generator matrix of the outer code -/

theorem rsRows_get (base acc : List K) (r : Nat) (hl : acc.length = base.length) :
    (rsRows base acc r).length = r ∧ ∀ i < r, ∀ j < base.length,
      ((rsRows base acc r).getD i []).getD j 0 = acc.getD j 0 * base.getD j 0 ^ (i + 1) := by
  induction r generalizing acc with
  | zero => exact ⟨rfl, fun i hi => absurd hi (by omega)⟩
  | succ r ih =>
    obtain ⟨ih1, ih2⟩ := ih (List.zipWith (· * ·) acc base) (by simp [hl])
    unfold rsRows
    refine ⟨by rw [List.length_cons, ih1], fun i hi j hj => ?_⟩
    have hz : (List.zipWith (· * ·) acc base).getD j 0 = acc.getD j 0 * base.getD j 0 := by
      rw [List.getD_eq_getElem _ _ (by rw [List.length_zipWith]; omega), List.getElem_zipWith, List.getD_eq_getElem _ _ (by omega),
        List.getD_eq_getElem _ _ (by omega)]
    cases i with
    | zero => rw [List.getD_cons_zero, hz, Nat.zero_add, pow_one]
    | succ i =>
      rw [List.getD_cons_succ, ih2 i (by omega) j hj, hz, pow_succ' _ (i + 1)]
      ring

theorem genMatRs_get {nRs kRs : Nat} (hk : 1 ≤ kRs) {g : List (List K)} (h : genMatRs B nRs kRs = some g) :
    nRs < 2 ^ k ∧ g.length = kRs ∧ ∀ i < kRs, ∀ j < nRs, (g.getD i []).getD j 0 = B.ofInt (j + 1) ^ i := by
  unfold genMatRs at h
  simp only [] at h
  split at h
  · next hlt =>
    rw [Option.some.injEq] at h
    subst h
    obtain ⟨h1, h2⟩ := rsRows_get ((List.range' 1 nRs).map B.ofInt) ((List.range nRs).map fun _ => (1 : K)) (kRs - 1) (by simp)
    refine ⟨hlt, by rw [List.length_cons, h1]; omega, fun i hi j hj => ?_⟩
    cases i with
    | zero => rw [List.getD_cons_zero, getD_map_range _ _ _ hj, pow_zero]
    | succ i =>
      rw [List.getD_cons_succ, h2 i (by omega) j (by simpa using hj), getD_map_range _ _ _ hj, one_mul,
        List.getD_eq_getElem _ _ (by simpa using hj), List.getElem_map, List.getElem_range', Nat.one_mul, Nat.add_comm 1 j]
  · cases h

/-! ### Encoding -/

/-- Message symbol `i`. -/
def symHom (hB : B.Ok) (kr i : Nat) : (Nat → ZMod 2) →+ K :=
  AddMonoidHom.mk' (fun f => B.ofVec ((List.range k).map fun j => f (i + j * kr))) fun f g => by
    rw [← hB.add_ofVec (by simp) (by simp)]
    congr 1
    rw [List.zipWith_map_left, List.zipWith_map_right, List.zipWith_self]
    rfl

/-- Symbol `j` of the outer code word. -/
noncomputable def outHom (hB : B.Ok) (kr j : Nat) : (Nat → ZMod 2) →+ K :=
  ∑ i ∈ Finset.range kr, (AddMonoidHom.mulRight (B.ofInt (j + 1) ^ i)).comp (symHom hB kr i)

theorem outHom_apply (hB : B.Ok) (kr j : Nat) (f : Nat → ZMod 2) :
    outHom hB kr j f = ∑ i ∈ Finset.range kr, symHom hB kr i f * B.ofInt (j + 1) ^ i := by
  unfold outHom
  rw [AddMonoidHom.finsetSum_apply]
  rfl

/-- Bit `c` of block `j` of the code word. -/
noncomputable def bitHom (hB : B.Ok) (kr : Nat) (gBch : List (List (ZMod 2))) (j c : Nat) : (Nat → ZMod 2) →+ ZMod 2 :=
  ∑ r ∈ Finset.range k, (AddMonoidHom.mulRight ((gBch.getD r []).getD c 0)).comp ((hB.coord r).comp (outHom hB kr j))

theorem bitHom_apply (hB : B.Ok) (kr : Nat) (gBch : List (List (ZMod 2))) (j c : Nat) (f : Nat → ZMod 2) :
    bitHom hB kr gBch j c f = ∑ r ∈ Finset.range k, hB.coord r (outHom hB kr j f) * (gBch.getD r []).getD c 0 := by
  unfold bitHom
  rw [AddMonoidHom.finsetSum_apply]
  rfl

theorem symHom_congr (hB : B.Ok) (kr : Nat) {i : Nat} (hi : i < kr) {f g : Nat → ZMod 2} (h : ∀ x < kr * k, f x = g x) :
    symHom hB kr i f = symHom hB kr i g := by
  change B.ofVec _ = B.ofVec _
  congr 1
  refine List.map_congr_left fun j hj => h _ ?_
  have : (j + 1) * kr ≤ k * kr := Nat.mul_le_mul_right _ (List.mem_range.1 hj)
  rw [Nat.mul_comm kr k]
  rw [Nat.add_mul] at this
  omega

theorem bitHom_sum (hB : B.Ok) (kr : Nat) (gBch : List (List (ZMod 2))) (j c : Nat) (f : Nat → ZMod 2) :
    bitHom hB kr gBch j c f = ∑ x ∈ Finset.range (kr * k), f x * bitHom hB kr gBch j c (fun y => if y = x then 1 else 0) := by
  have hcongr : ∀ g : Nat → ZMod 2, (∀ x < kr * k, f x = g x) → bitHom hB kr gBch j c f = bitHom hB kr gBch j c g := by
    intro g h
    have : outHom hB kr j f = outHom hB kr j g := by
      rw [outHom_apply, outHom_apply]
      exact Finset.sum_congr rfl fun i hi => by rw [symHom_congr hB kr (Finset.mem_range.1 hi) h]
    rw [bitHom_apply, bitHom_apply, this]
  rw [hcongr (∑ x ∈ Finset.range (kr * k), f x • fun y => if y = x then 1 else 0) fun x hx => ?_, map_sum]
  · refine Finset.sum_congr rfl fun x _ => ?_
    exact ZMod.map_smul (bitHom hB kr gBch j c) (f x) _
  · rw [Finset.sum_apply]
    simp [Finset.sum_ite_eq, Finset.mem_range.2 hx]

theorem vecMat_length {R : Type} [Field R] (n : Nat) (v : List R) (M : List (List R)) : (vecMat n v M).length = n := by
  simp [vecMat]

theorem vecMat_getD {R : Type} [Field R] {n : Nat} {v : List R} {M : List (List R)} (h : v.length = M.length) {c : Nat} (hc : c < n) :
    (vecMat n v M).getD c 0 = ∑ i ∈ Finset.range v.length, v.getD i 0 * (M.getD i []).getD c 0 := by
  unfold vecMat
  rw [getD_map_range _ _ _ hc, sum_zipWith_range _ _ _ 0 h]

theorem encodeConcat_get (hB : B.Ok) {nRs kRs nBin : Nat} (hk : 1 ≤ kRs) {gRs : List (List K)}
    (hg : genMatRs B nRs kRs = some gRs) {gBch : List (List (ZMod 2))} (hb : gBch.length = k) (inp : List (ZMod 2))
    (hinp : inp.length = kRs * k) :
    ∃ w, encodeConcat B nRs nBin gRs gBch inp = some w ∧ w.length = nBin * nRs ∧
      ∀ j < nRs, ∀ c < nBin, w.getD (nBin * j + c) 0 = bitHom hB kRs gBch j c (fun x => inp.getD x 0) := by
  obtain ⟨_, g1, g2⟩ := genMatRs_get hk hg
  unfold encodeConcat
  simp only [g1, hb]
  rw [if_pos hinp]
  obtain ⟨f1, f2⟩ := flatMap_getD (vecMat nRs ((List.range kRs).map fun i => B.ofVec ((List.range k).map fun j =>
    inp.getD (i + j * kRs) 0)) gRs) (fun c => vecMat nBin (B.vec c) gBch) nBin (fun a _ => vecMat_length _ _ _) 0 0
  rw [vecMat_length] at f1 f2
  refine ⟨_, rfl, f1, fun j hj c hc => ?_⟩
  rw [f2 j hj c hc, vecMat_getD (by rw [hB.len, hb]) hc, hB.len, bitHom_apply]
  refine Finset.sum_congr rfl fun r _ => ?_
  congr 1
  change (B.vec _).getD r 0 = (B.vec _).getD r 0
  congr 2
  rw [vecMat_getD (by simp [g1]) hj, outHom_apply]
  simp only [List.length_map, List.length_range]
  refine Finset.sum_congr rfl fun i hi => ?_
  rw [getD_map_range _ _ _ (Finset.mem_range.1 hi), g2 i (Finset.mem_range.1 hi) j hj]
  rfl

/-! ### Distance -/

theorem weight_eq (n : Nat) (g : Nat → ZMod 2) :
    weight ((List.range n).map g) = ((Finset.range n).filter fun c => g c ≠ 0).card := by
  unfold weight
  rw [List.filter_map, List.length_map, ← List.toFinset_card_of_nodup (List.Nodup.filter _ List.nodup_range)]
  congr 1
  ext c
  simp

theorem outer_distance [DecidableEq K] (hB : B.Ok) {nRs kr : Nat} (hn : nRs < 2 ^ k) (f : Nat → ZMod 2) {x0 : Nat} (hx0 : x0 < kr * k)
    (hf : f x0 ≠ 0) : nRs + 1 ≤ ((Finset.range nRs).filter fun j => outHom hB kr j f ≠ 0).card + kr := by
  set P : K[X] := ∑ i ∈ Finset.range kr, C (symHom hB kr i f) * X ^ i with hP
  have hkr : 0 < kr := by
    rcases Nat.eq_zero_or_pos kr with h | h
    · rw [h, Nat.zero_mul] at hx0
      omega
    · exact h
  have hP0 : P ≠ 0 := by
    intro h0
    have h1 : P.coeff (x0 % kr) = symHom hB kr (x0 % kr) f := by
      rw [hP, finsetSum_coeff]
      simp only [coeff_C_mul_X_pow]
      rw [Finset.sum_eq_single (x0 % kr)]
      · simp
      · intro b _ hb
        rw [if_neg (Ne.symm hb)]
      · intro h
        exact absurd (Finset.mem_range.2 (Nat.mod_lt _ hkr)) h
    rw [h0, coeff_zero] at h1
    have hdiv : x0 / kr < k := Nat.div_lt_of_lt_mul hx0
    have h2 := hB.coord_ofVec (fun j => f (x0 % kr + j * kr)) (r := x0 / kr) hdiv
    have h3 : B.ofVec ((List.range k).map fun j => f (x0 % kr + j * kr)) = 0 := h1.symm
    rw [h3, map_zero, Nat.mul_comm, Nat.mod_add_div] at h2
    exact hf h2.symm
  have heval : ∀ j, P.eval (B.ofInt (j + 1)) = outHom hB kr j f := by
    intro j
    rw [hP, eval_finsetSum, outHom_apply]
    refine Finset.sum_congr rfl fun i hi => ?_
    rw [eval_mul, eval_C, eval_pow, eval_X]
  have hdeg : P.degree < kr := by
    rw [hP]
    refine lt_of_le_of_lt (degree_sum_le _ _) ?_
    rw [Finset.sup_lt_iff (by exact WithBot.bot_lt_coe _)]
    intro i hi
    exact lt_of_le_of_lt (degree_C_mul_X_pow_le i _) (by exact_mod_cast Finset.mem_range.1 hi)
  have hnd : ((List.range nRs).map fun j => B.ofInt (j + 1)).Nodup := by
    refine List.Nodup.map_on (fun a ha b hb h => ?_) List.nodup_range
    rw [List.mem_range] at ha hb
    have := hB.ofInt_inj (by omega) (by omega) h
    omega
  have hag := agree_lt (k := kr) ((List.range nRs).map fun j => B.ofInt (j + 1)) hnd P 0 hdeg
    (by rw [degree_zero]; exact WithBot.bot_lt_coe _) hP0
  rw [List.filter_map, List.length_map] at hag
  have hcard : ((Finset.range nRs).filter fun j => outHom hB kr j f = 0).card < kr := by
    refine lt_of_eq_of_lt ?_ hag
    rw [← List.toFinset_card_of_nodup (List.Nodup.filter _ List.nodup_range)]
    congr 1
    ext j
    simp [heval]
  have := Finset.card_filter_add_card_filter_not (s := Finset.range nRs) (fun j => outHom hB kr j f = 0)
  rw [Finset.card_range] at this
  have e : ((Finset.range nRs).filter fun j => outHom hB kr j f ≠ 0) = (Finset.range nRs).filter fun j => ¬ outHom hB kr j f = 0 := rfl
  rw [e]
  omega

theorem concat_distance (hB : B.Ok) {nRs kr nBin d : Nat} (hn : nRs < 2 ^ k) {gBch : List (List (ZMod 2))}
    (hg : Generates gBch nBin k d) (f : Nat → ZMod 2) {x0 : Nat} (hx0 : x0 < kr * k) (hf : f x0 ≠ 0) :
    (nRs + 1 - kr) * d ≤ ((Finset.range (nBin * nRs)).filter fun p => bitHom hB kr gBch (p / nBin) (p % nBin) f ≠ 0).card := by
  classical
  have hout := outer_distance hB hn f hx0 hf
  rw [Finset.card_filter, sum_range_mul]
  have hblock : ∀ j, outHom hB kr j f ≠ 0 → d ≤ ∑ c ∈ Finset.range nBin,
      if bitHom hB kr gBch ((nBin * j + c) / nBin) ((nBin * j + c) % nBin) f ≠ 0 then 1 else 0 := by
    intro j hj
    have hex : ∃ i < k, (fun r => hB.coord r (outHom hB kr j f)) i ≠ 0 := by
      by_contra hc
      push Not at hc
      exact hj (hB.eq_zero hc)
    have := hg.dist _ hex
    rw [weight_eq, Finset.card_filter] at this
    refine this.trans (le_of_eq (Finset.sum_congr rfl fun c hc => ?_))
    rw [Finset.mem_range] at hc
    have e1 : (nBin * j + c) / nBin = j := by
      rw [Nat.mul_add_div (by omega), Nat.div_eq_of_lt hc, Nat.add_zero]
    have e2 : (nBin * j + c) % nBin = c := by rw [Nat.mul_add_mod, Nat.mod_eq_of_lt hc]
    rw [e1, e2, bitHom_apply]
  calc (nRs + 1 - kr) * d ≤ ((Finset.range nRs).filter fun j => outHom hB kr j f ≠ 0).card * d := Nat.mul_le_mul_right _ (by omega)
    _ = ∑ j ∈ (Finset.range nRs).filter (fun j => outHom hB kr j f ≠ 0), d := by rw [Finset.sum_const, smul_eq_mul]
    _ ≤ ∑ j ∈ (Finset.range nRs).filter (fun j => outHom hB kr j f ≠ 0), ∑ c ∈ Finset.range nBin,
        (if bitHom hB kr gBch ((nBin * j + c) / nBin) ((nBin * j + c) % nBin) f ≠ 0 then 1 else 0) :=
      Finset.sum_le_sum fun j hj => hblock j (Finset.mem_filter.1 hj).2
    _ ≤ _ := Finset.sum_le_sum_of_subset (Finset.filter_subset _ _)

end

end Verif
