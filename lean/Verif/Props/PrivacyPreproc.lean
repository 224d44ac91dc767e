import Verif.PreCase
import Verif.Props.Privacy
import Verif.Props.Binsup

/-!
# C90 and C91: what the parties learn in `preproc`, and in `preproc` followed by `garble`
-/

open Polynomial

namespace Verif.Props

open CodeField (ofU32)

variable {F : Type} [CodeField F] [DecidableEq F]

/-- The bijection of the material with all coins as they are. -/
theorem material_bijection {ctx : Ctx F} (hgood : ctx.Good) {Cs : Finset Nat} (hC : Coalition ctx Cs) {d : PreProcCount}
    {M M' : GarbleSecrets F} (hM : M.Fit ctx.l d) (hM' : M'.Fit ctx.l d) :
    ∃ e : GarbleWorld ctx d M ≃ GarbleWorld ctx d M', ∀ w, ∀ q ∈ Cs, (e w).material q = w.material q := by
  let mv : SecShares ctx d M ≃ SecShares ctx d M' := Equiv.prodCongr
    (moveSharings hgood hC hM.masks.2 hM'.masks.2 hM.masks.1 hM'.masks.1)
    (Equiv.prodCongr (moveSharings hgood hC hM.keys.2 hM'.keys.2 hM.keys.1 hM'.keys.1)
      (moveSharings hgood hC hM.errors.2 hM'.errors.2 hM.errors.1 hM'.errors.1))
  refine ⟨(worldEquiv ctx d M).trans ((Equiv.prodCongr mv (Equiv.refl _)).trans (worldEquiv ctx d M').symm), fun w q hq => ?_⟩
  have h1 := moveSharings_shares hgood hC hM.masks.2 hM'.masks.2 hM.masks.1 hM'.masks.1 w.masks hq
  have h2 := moveSharings_shares hgood hC hM.keys.2 hM'.keys.2 hM.keys.1 hM'.keys.1 w.keys hq
  have h3 := moveSharings_shares hgood hC hM.errors.2 hM'.errors.2 hM.errors.1 hM'.errors.1 w.errors hq
  show (⟨_, ⟨d.keys, _⟩, w.coins.randoms q, w.coins.zeros q, _⟩ : PreProc F) = ⟨_, ⟨d.keys, _⟩, w.coins.randoms q, w.coins.zeros q, _⟩
  rw [← h1, ← h2, ← h3]
  rfl

/-- C90, for matrices from which `t` parties learn nothing.  A set of at most `t` parties which follow the protocol learns
nothing about the secrets in a run of `preproc`, from their randomness and all messages which they get: there is a bijection
between the randomness with any secrets and the randomness with any other secrets under which everything that they see is the
same.  Missing for the full claim: the other matrices, for which it is false (`C90_preproc_private_false`), among them all but one
of the matrices of the repository (`C90_bad_file`). -/
theorem C90_preproc_private_partial {c : Codec F} {ctx : Ctx F} {m mb : Mat F} {d : PreProcCount} (P : PreParams c ctx m mb d)
    (hm : m.AllOutputs ctx.t) (hmb : mb.UniformBits ctx.t) (Cs : Finset Nat) (hC : Coalition ctx Cs) (id : ProtocolID) :
    PreprocPrivate c ctx m mb d id Cs := by
  intro S S' hS hS'
  obtain ⟨ids, br, bz, bb, H⟩ := P.hyp id
  obtain ⟨NR, hR⟩ := rightInv_of_all P.mat.1 hm hC.size (by rw [P.mat.2.1]; exact hC.parties)
  obtain ⟨NB, hB, hbit⟩ := rightInv_of_bits P.matb.1 hmb hC.size (by rw [P.matb.2.1]; exact hC.parties)
  obtain ⟨e, he⟩ := material_bijection (d := d.full m br bz) P.good hC (garble_fit hS) (garble_fit hS')
  refine ⟨H.lift hC hR hB hbit hS hS' e, fun x q hq => ?_⟩
  exact ⟨_, H.view x.2.1 q, (H.retarget_view hC hR hB hbit hS hS' x _ hq (he _ q hq)).trans (H.view x.2.1 q)⟩

/-- C90: with such matrices the secrets are uniformly random: all secrets are possible, and all are the result of equally many
choices of the randomness. -/
theorem C90_secrets_uniform {c : Codec F} {ctx : Ctx F} {m mb : Mat F} {d : PreProcCount} (P : PreParams c ctx m mb d)
    (hm : m.AllOutputs ctx.t) (hmb : mb.UniformBits ctx.t) (S S' : PreSecrets F) (hS : S.Fit ctx.l d) (hS' : S'.Fit ctx.l d) :
    Nonempty (TapesWith ctx m mb d S) ∧ Nat.card (TapesWith ctx m mb d S) = Nat.card (TapesWith ctx m mb d S') := by
  have priv := C90_preproc_private_partial P hm hmb ∅ ⟨by simp, by simp⟩ []
  refine ⟨?_, Nat.card_congr (priv S S' hS hS').choose⟩
  obtain ⟨ids, br, bz, bb, H⟩ := P.hyp []
  obtain ⟨x⟩ := H.zero_exists (k := 0)
  exact ⟨(priv _ S (onlyBit_fit ctx.l d (errSizes d ctx.n) 0 (Or.inl rfl)) hS).choose x⟩

/-! ### The matrix for `rand` and `zero` -/

omit [DecidableEq F] in
/-- The matrix which the binary `preproc` computes (`/repo/src/bin/preproc.rs:89`) is as it should be. -/
theorem superInv_good {n t : Nat} (ht : t < n) (hn : n < CodeField.order F) {m : Mat F} (h : superInvMatrix n (n - t) = some m) :
    DealMat n m ∧ m.AllOutputs t := by
  have hm : m = { ncols := n, rows := (List.range (n - t)).map fun r => (rsPts n).map (· ^ (r + 1)) } := by
    rw [superInvMatrix, rsGenCols_eq (by omega) hn] at h
    exact (Option.some.inj h).symm
  have hrows : m.rows.length = n - t := by rw [hm]; simp
  have hcols : m.ncols = n := by rw [hm]
  refine ⟨⟨fun r hr => ?_, hcols, fun h0 => ?_⟩, fun T hT base y hbase hy => ?_⟩
  · rw [hcols]
    rw [hm] at hr
    obtain ⟨i, _, rfl⟩ := List.mem_map.1 hr
    simp [rsPts]
  · rw [h0] at hrows
    simp at hrows
    omega
  · have hcard : n - t ≤ (Finset.range n \ T).card := by
      have := Finset.le_card_sdiff T (Finset.range n)
      rw [Finset.card_range] at this
      omega
    obtain ⟨J, hJ, hJc⟩ := Finset.exists_subset_card_eq hcard
    obtain ⟨M, hM, x, ⟨x1, x2, x3⟩, -⟩ := C09_super_invertible (F := F) n (n - t) (by omega) hn J.toList J.nodup_toList
      (by rw [Finset.length_toList, hJc]) (fun j hj => Finset.mem_range.1 (Finset.mem_sdiff.1 (hJ (Finset.mem_toList.1 hj))).1) base
      (by rw [hbase, hcols]) y (by rw [hy, hrows])
    obtain rfl := Option.some.inj (hM.symm.trans h)
    refine ⟨x, by rw [x1, hcols], fun i hi => x2 i fun hiJ => ?_, x3⟩
    exact (Finset.mem_sdiff.1 (hJ (Finset.mem_toList.1 hiJ))).2 hi

omit [DecidableEq F] in
/-- The matrix which is read from a file. -/
theorem read_good (f : BinFile) (hk : 1 ≤ f.k) (hl : f.lines ≠ []) {mb : Mat F}
    (h : binarySuperInvMatrix (F := F) (binText f) = some mb) : DealMat f.lines.length mb ∧ mb.Binary := by
  rw [read_binText f hk hl] at h
  obtain rfl := Option.some.inj h
  refine ⟨⟨fun r hr => ?_, f.ncols_mat, fun h0 => ?_⟩, fun r hr x hx => ?_⟩
  · obtain ⟨i, _, rfl⟩ := List.mem_map.1 hr
    simp [BinFile.mat]
  · have := f.rows_mat (F := F)
    rw [h0] at this
    simp at this
    omega
  · obtain ⟨i, _, rfl⟩ := List.mem_map.1 hr
    obtain ⟨b, _, rfl⟩ := List.mem_map.1 hx
    split
    · right; rfl
    · left; rfl

/-- C90 for what the binary `preproc` computes and reads, if the file is good for `t` parties. -/
theorem C90_good_file {c : Codec F} {ctx : Ctx F} {m mb : Mat F} {d : PreProcCount} {f : BinFile} {n k t : Nat} (hf : GoodFor F f n k t)
    (hn : ctx.n < CodeField.order F) (ht : ctx.t ≤ t) (P : PreParams c ctx m mb d) (hm : superInvMatrix ctx.n (ctx.n - ctx.t) = some m)
    (hmb : binarySuperInvMatrix (binText f) = some mb) (Cs : Finset Nat) (hC : Coalition ctx Cs) (id : ProtocolID) :
    PreprocPrivate c ctx m mb d id Cs := by
  have hle := P.good.le
  have hl := P.good.posL
  obtain ⟨M, h1, h2, h3, h4, h5⟩ := hf
  obtain rfl := Option.some.inj (h1.symm.trans hmb)
  exact C90_preproc_private_partial P (superInv_good (by omega) hn hm).2 (fun T hT => h5 T (hT.trans ht)) Cs hC id

/-- Contexts over GF(2^18). -/
theorem ctx18 (n t l : Nat) (hl : 1 ≤ l) (htl : t + l ≤ n) (hn : n + l ≤ 2 ^ 18) :
    ∃ ctx : Ctx (GF 18), ctx.Good ∧ ctx.n = n ∧ ctx.t = t ∧ ctx.l = l := by
  have h1 : ∃ pss : PackedSharing (GF 18), PackedSharing.new (t + l - 1) n (defaultPos n l) = some pss := by
    unfold PackedSharing.new
    rw [if_pos (by omega)]
    exact ⟨_, rfl⟩
  have h2 : ∃ pss : PackedSharing (GF 18), PackedSharing.new (n - 1) n (defaultPos n l) = some pss := by
    unfold PackedSharing.new
    rw [if_pos (by omega)]
    exact ⟨_, rfl⟩
  obtain ⟨p, hp⟩ := h1
  obtain ⟨q, hq⟩ := h2
  exact ⟨⟨n, t, l, p, q⟩, ⟨hp, hq, hl, hn⟩, rfl, rfl, rfl⟩

/-- 128 parties, 31 of them corrupted, with the matrix of the repository. -/
example (c : Codec (GF 18)) (hc : c.Ok) (id : ProtocolID) (Cs : Finset Nat) (h1 : ∀ p ∈ Cs, p < 128) (h2 : Cs.card ≤ 31) :
    ∃ (ctx : Ctx (GF 18)) (m mb : Mat (GF 18)), ctx.n = 128 ∧ ctx.t = 31 ∧ ctx.l = 16 ∧ superInvMatrix 128 97 = some m ∧
      binarySuperInvMatrix (binText Binsup.n128_t31) = some mb ∧
      PreprocPrivate c ctx m mb ⟨1000, (2, 3, 1000), 500, 500, 2000⟩ id Cs := by
  have := charP_codeField (GF 18)
  have ho : CodeField.order (GF 18) = 2 ^ 18 := rfl
  obtain ⟨ctx, hg, hn, ht, hl⟩ := ctx18 128 31 16 (by norm_num) (by norm_num) (by norm_num)
  obtain ⟨m, hm⟩ : ∃ m : Mat (GF 18), superInvMatrix 128 97 = some m := by
    rw [superInvMatrix, rsGenCols_eq (by norm_num) (by rw [ho]; norm_num)]
    exact ⟨_, rfl⟩
  have hf := (C12_n128_t31 (F := GF 18)).1
  have hf' := hf
  obtain ⟨mb, hmb, -⟩ := hf'
  have g1 := superInv_good (n := 128) (t := 31) (by norm_num) (by rw [ho]; norm_num) hm
  have g2 := read_good Binsup.n128_t31 (by decide +kernel) (by decide +kernel) hmb
  rw [show Binsup.n128_t31.lines.length = 128 by decide +kernel] at g2
  refine ⟨ctx, m, mb, hn, ht, hl, hm, hmb, C90_good_file hf (by rw [hn, ho]; norm_num) (le_of_eq ht) ?_
    (by rw [hn, ht]; exact hm) hmb Cs ⟨by rwa [hn], by rwa [ht]⟩ id⟩
  exact ⟨hg, by omega, by omega, by rw [hn]; exact g1.1, by rw [hn]; exact g2.1, g2.2, hc, by decide, by decide, by decide⟩

/-! ### The defect -/

/-- C90 is false for a matrix from which at most `t` parties learn a sum of outputs: they learn the sum of the corresponding
secret bits (if all of these are used). -/
theorem C90_preproc_private_false {c : Codec F} {ctx : Ctx F} {m mb : Mat F} {d : PreProcCount} (P : PreParams c ctx m mb d)
    (T U : Finset Nat) (hT : Coalition ctx T) (hU : ∀ u ∈ U, u < mb.rows.length) (hne : U.Nonempty) (hleak : mb.Leaks T U)
    (batches b : Nat) (hbb : numBatches (d.masks + 2 * d.errors) mb.rows.length = some batches) (hb : b < batches)
    (hused : ∀ u ∈ U, u * batches + b < d.masks + 2 * d.errors) (id : ProtocolID) : ¬ PreprocPrivate c ctx m mb d id T := by
  intro hpriv
  obtain ⟨ids, br, bz, bb, H⟩ := P.hyp id
  obtain rfl := Option.some.inj (hbb.symm.trans H.bb)
  obtain ⟨u₀, hu₀⟩ := hne
  obtain ⟨x⟩ := H.zero_exists (k := u₀ * batches + b)
  obtain ⟨e, he⟩ := hpriv _ (onlyBit ctx.l d (errSizes d ctx.n) (u₀ * batches + b) 1)
    (onlyBit_fit ctx.l d (errSizes d ctx.n) (u₀ * batches + b) (Or.inl rfl))
    (onlyBit_fit ctx.l d (errSizes d ctx.n) (u₀ * batches + b) (Or.inr rfl))
  have hpoly : ∀ p ∈ T, x.1.polyB ctx p b = (e x).1.polyB ctx p b := by
    intro p hp
    obtain ⟨v, hv, hv'⟩ := he x p hp
    have hown : x.1.own p = (e x).1.own p := by
      rw [H.view x.2.1 p] at hv
      rw [H.view (e x).2.1 p] at hv'
      have h1 := congrArg Prod.fst (Option.some.inj hv)
      have h2 := congrArg Prod.fst (Option.some.inj hv')
      exact h1.trans h2.symm
    unfold PreTapes.own at hown
    simp only [Prod.mk.injEq] at hown
    unfold PreTapes.polyB
    rw [List.getD_eq_getElem?_getD (l := x.1.rbit), List.getD_eq_getElem?_getD (l := x.1.bits), hown.2.2.1, hown.2.2.2.1,
      ← List.getD_eq_getElem?_getD, ← List.getD_eq_getElem?_getD]
  have h1 := H.leak hT.parties hU hleak x.1 hb (ofU32 ctx.n)
  have h2 := H.leak hT.parties hU hleak (e x).1 hb (ofU32 ctx.n)
  have h3 : ∑ p ∈ T, (x.1.polyB ctx p b).eval (ofU32 ctx.n) = ∑ p ∈ T, ((e x).1.polyB ctx p b).eval (ofU32 ctx.n) :=
    Finset.sum_congr rfl fun p hp => by rw [hpoly p hp]
  rw [h3, ← h2] at h1
  rw [Finset.sum_congr rfl fun u hu => H.onlyBit_at (Or.inl rfl) x (hused u hu),
    Finset.sum_congr rfl fun u hu => H.onlyBit_at (Or.inr rfl) (e x) (hused u hu)] at h1
  simp only [ite_self, Finset.sum_const_zero] at h1
  have hpos : 0 < batches := by omega
  rw [Finset.sum_congr rfl (g := fun u => if u₀ = u then (1 : F) else 0) fun u _ => by
      congr 1
      rw [eq_iff_iff]
      constructor
      · intro h
        exact (Nat.eq_of_mul_eq_mul_right hpos (by omega)).symm
      · rintro rfl
        rfl, Finset.sum_ite_eq, if_pos hu₀] at h1
  exact zero_ne_one h1

/-- C90 is false with a file which is bad for at most `t` parties, with sufficiently many bits. -/
theorem C90_bad_file {c : Codec F} {ctx : Ctx F} {m mb : Mat F} {d : PreProcCount} {f : BinFile} {n k t : Nat} (hf : BadFor F f n k t)
    (hn : ctx.n = n) (ht : t ≤ ctx.t) (P : PreParams c ctx m mb d) (hmb : binarySuperInvMatrix (binText f) = some mb)
    (hd : (k - 1) ^ 2 < d.masks + 2 * d.errors) (id : ProtocolID) :
    ∃ T, Coalition ctx T ∧ ¬ PreprocPrivate c ctx m mb d id T := by
  obtain ⟨M, h1, h2, h3, ⟨T, U, h4, h5, h6, h7, h8⟩, -⟩ := hf
  obtain rfl := Option.some.inj (h1.symm.trans hmb)
  have hT : Coalition ctx T := ⟨fun p hp => by rw [hn]; exact Finset.mem_range.1 (h4 hp), h5.trans ht⟩
  have hk : 0 < k := by rw [← h3]; exact List.length_pos_iff.2 P.matb.2.2
  obtain ⟨bb, hbb⟩ := numBatches_some (d.masks + 2 * d.errors) (List.length_pos_iff.2 P.matb.2.2)
  obtain ⟨-, hle, hmin⟩ := numBatches_spec hbb
  rw [h3] at hle hmin
  have hpos : 0 < bb := by
    rcases Nat.eq_zero_or_pos bb with h | h
    · rw [h] at hle
      have := hle.1
      omega
    · exact h
  -- only the last row may be incomplete
  have hlast : (k - 1) * bb < d.masks + 2 * d.errors := by
    obtain ⟨j, rfl⟩ : ∃ j, k = j + 1 := ⟨k - 1, by omega⟩
    obtain ⟨a, rfl⟩ : ∃ a, bb = a + 1 := ⟨bb - 1, by omega⟩
    rw [Nat.add_sub_cancel] at *
    have hlt : (j + 1) * a < d.masks + 2 * d.errors := by
      by_contra hcon
      have := hmin ⟨by omega, ⟨a, rfl⟩⟩
      have : (j + 1) * a < (j + 1) * (a + 1) := Nat.mul_lt_mul_of_pos_left (by omega) (by omega)
      omega
    by_cases ha : j ≤ a
    · nlinarith
    · have : j * (a + 1) ≤ j * j := Nat.mul_le_mul_left _ (by omega)
      nlinarith
  refine ⟨T, hT, C90_preproc_private_false P T U hT (fun u hu => by rw [h3]; exact Finset.mem_range.1 (h6 hu)) h7 h8 bb 0 hbb hpos
    (fun u hu => ?_) id⟩
  have hu := Finset.mem_range.1 (h6 hu)
  have := Nat.mul_le_mul_right bb (show u ≤ k - 1 by omega)
  omega

/-- C90 is false for the example of `/repo/README.md:90-101`: 16 parties, threshold 5, three secrets per sharing and
`n16_t5.txt`.  Five parties learn something about the secrets, with every circuit which is not tiny. -/
theorem C90_readme_false {c : Codec (GF 18)} (hc : c.Ok) {ctx : Ctx (GF 18)} (hg : ctx.Good) (hn : ctx.n = 16) (ht : ctx.t = 5)
    (hl : ctx.l = 3) {m mb : Mat (GF 18)} (hm : superInvMatrix ctx.n (ctx.n - ctx.t) = some m)
    (hmb : binarySuperInvMatrix (binText Binsup.n16_t5) = some mb) {d : PreProcCount} (hd : 37 ≤ d.masks + 2 * d.errors)
    (sR : d.numKeys + d.randoms + 3 * d.errors < 2 ^ 64) (sZ : d.zeros + 2 * d.errors < 2 ^ 64) (sB : d.masks + 2 * d.errors < 2 ^ 64)
    (id : ProtocolID) : ∃ T, Coalition ctx T ∧ ¬ PreprocPrivate c ctx m mb d id T := by
  have := charP_codeField (GF 18)
  have ho : CodeField.order (GF 18) = 2 ^ 18 := rfl
  have g1 := superInv_good (by omega) (by rw [hn, ho]; norm_num) hm
  have g2 := read_good Binsup.n16_t5 (by decide +kernel) (by decide +kernel) hmb
  rw [show Binsup.n16_t5.lines.length = 16 by decide +kernel, ← hn] at g2
  exact C90_bad_file C12_n16_t5_false hn (le_of_eq ht.symm)
    ⟨hg, by omega, by omega, g1.1, g2.1, g2.2, hc, sR, sZ, sB⟩ hmb hd id

/-- There are such runs. -/
example (c : Codec (GF 18)) (hc : c.Ok) (id : ProtocolID) : ∃ (ctx : Ctx (GF 18)) (m mb : Mat (GF 18)) (T : Finset Nat),
    ctx.n = 16 ∧ ctx.t = 5 ∧ ctx.l = 3 ∧ superInvMatrix 16 11 = some m ∧ binarySuperInvMatrix (binText Binsup.n16_t5) = some mb ∧
      Coalition ctx T ∧ ¬ PreprocPrivate c ctx m mb ⟨100, (2, 3, 100), 50, 50, 200⟩ id T := by
  have := charP_codeField (GF 18)
  have ho : CodeField.order (GF 18) = 2 ^ 18 := rfl
  obtain ⟨ctx, hg, hn, ht, hl⟩ := ctx18 16 5 3 (by norm_num) (by norm_num) (by norm_num)
  obtain ⟨m, hm⟩ : ∃ m : Mat (GF 18), superInvMatrix 16 11 = some m := by
    rw [superInvMatrix, rsGenCols_eq (by norm_num) (by rw [ho]; norm_num)]
    exact ⟨_, rfl⟩
  obtain ⟨mb, hmb, -⟩ := C12_n16_t5_false (F := GF 18)
  obtain ⟨T, hT, h⟩ := C90_readme_false hc hg hn ht hl (m := m) (by rw [hn, ht]; exact hm) hmb (d := ⟨100, (2, 3, 100), 50, 50, 200⟩)
    (by decide) (by decide) (by decide) (by decide) id
  exact ⟨ctx, m, mb, T, hn, ht, hl, hm, hmb, hT, h⟩

/-! ## `preproc` and `garble` -/

/-- The parameters with the whole material which `preproc` returns. -/
theorem params_grow {hash : List Nat → List Nat} {rng : List Nat → Nat → F} {ctx : Ctx F} {lpn : LpnParams}
    {circ : PackedCircuit} {g : GarbleCtx F} {tp : GarbleTapes F} {d : PreProcCount} {c : Codec F} {m mb : Mat F} {id : ProtocolID}
    {ids : List ProtocolID} {br bz bb : Nat} (P : GarbleParams hash rng ctx lpn circ g tp d) (H : PreHyp c ctx m mb d id ids br bz bb) :
    GarbleParams hash rng ctx lpn circ g tp (d.full m br bz) := by
  obtain ⟨d₀, h1, h2, h3, h4, h5, h6⟩ := P.count
  have lR := H.leR
  have lZ := H.leZ
  exact { P with count := ⟨d₀, h1, h2, h3, h4,
    h5.trans (show d.randoms ≤ m.rows.length * br - 3 * d.errors - d.numKeys by omega),
    h6.trans (show d.zeros ≤ m.rows.length * bz - 2 * d.errors by omega)⟩ }

/-- C91, for matrices from which `t` parties learn nothing and circuits without a repeated wire in the gate input blocks
which are not full, or with one input which has repeated wires but is hidden (`PackedCircuit.Hides`).  A set of at most `t` parties which follow the protocols learns nothing about wire masks, labels and LPN
errors from a run of `preproc` followed by a run of `garble` with the resulting material.  Missing for the full claim: the other
matrices and circuits, for which it is false (`C91_run_private_false`, `C91_matrix_false`). -/
theorem C91_run_private_partial {hash : List Nat → List Nat} {rng : List Nat → Nat → F} {ctx : Ctx F} {lpn : LpnParams}
    {circ : PackedCircuit} {g : GarbleCtx F} {gtp : GarbleTapes F} {d : PreProcCount} {c : Codec F} {lead : ProtocolID → Nat}
    {m mb : Mat F} (P : PreParams c ctx m mb d) (G : GarbleParams hash rng ctx lpn circ g gtp d) (hm : m.AllOutputs ctx.t)
    (hmb : mb.UniformBits ctx.t) (hD : circ.Hides ctx) (hL : ∀ id, lead id < ctx.n) (Cs : Finset Nat) (hC : Coalition ctx Cs)
    (id gid : ProtocolID) (hids : (garbleIdsOf gid circ.inputs.length ctx.l (circ.gates.map PackedGate.kind)).isSome) :
    RunPrivate c ctx m mb d id g lead gtp gid Cs := by
  intro S S' hS hS'
  obtain ⟨ids, br, bz, bb, H⟩ := P.hyp id
  obtain ⟨NR, hR⟩ := rightInv_of_all P.mat.1 hm hC.size (by rw [P.mat.2.1]; exact hC.parties)
  obtain ⟨NB, hB, hbit⟩ := rightInv_of_bits P.matb.1 hmb hC.size (by rw [P.matb.2.1]; exact hC.parties)
  obtain ⟨e, he⟩ := C89_garble_private_partial (params_grow G H) P.codec hL Cs hC hD gid hids S.garble S'.garble (garble_fit hS) (garble_fit hS')
  have hmat : ∀ {S : PreSecrets F} (hS : S.Fit ctx.l d) (x : TapesWith ctx m mb d S),
      preproc ctx m mb d x.1 = some ((List.range ctx.n).map (H.world hS x).material) := by
    intro S hS x
    rw [H.preproc x.2.1]
    exact congrArg some (List.map_congr_left fun p _ => (H.world_material hS x p).symm)
  refine ⟨H.lift hC hR hB hbit hS hS' e, fun x => ⟨_, _, hmat hS x, hmat hS' _, fun q hq => ?_⟩⟩
  have hw : H.world hS' (H.lift hC hR hB hbit hS hS' e x) = e (H.world hS x) := H.retarget_world hC hR hB hbit hS hS' x _
  obtain ⟨v, hv, hv'⟩ := he (H.world hS x) q hq
  rw [hw]
  refine ⟨⟨_, H.view x.2.1 q, (H.retarget_view hC hR hB hbit hS hS' x _ hq ?_).trans (H.view x.2.1 q)⟩, v, hv, hv'⟩
  -- the views of `garble` contain the material
  have own : ∀ {pre : List (PreProc F)} {v}, garbleView c ctx g lead gtp pre gid q = some v → pre[q]? = v.1 := by
    intro pre v h
    unfold garbleView at h
    obtain ⟨jobs, -, h⟩ := Option.bind_eq_some_iff.1 h
    obtain ⟨outs, -, h⟩ := Option.map_eq_some_iff.1 h
    rw [← h]
  have h1 := (own hv').trans (own hv).symm
  have hqn := hC.parties q hq
  rw [List.getElem?_map, List.getElem?_map, List.getElem?_range hqn, Option.map_some, Option.map_some, Option.some.injEq] at h1
  exact h1

/-- C91 is false with the matrices with which C90 is false. -/
theorem C91_matrix_false {c : Codec F} {ctx : Ctx F} {m mb : Mat F} {d : PreProcCount} {id : ProtocolID} {Cs : Finset Nat}
    (h : ¬ PreprocPrivate c ctx m mb d id Cs) (g : GarbleCtx F) (lead : ProtocolID → Nat) (gtp : GarbleTapes F) (gid : ProtocolID) :
    ¬ RunPrivate c ctx m mb d id g lead gtp gid Cs := by
  intro hrun
  refine h fun S S' hS hS' => ?_
  obtain ⟨e, he⟩ := hrun S S' hS hS'
  refine ⟨e, fun x q hq => ?_⟩
  obtain ⟨pre, pre', -, -, hv⟩ := he x
  exact (hv q hq).1

/-- C91 is false for the circuits of `C89_garble_private_false`, whatever the matrices. -/
theorem C91_run_private_false {hash : List Nat → List Nat} {rng : List Nat → Nat → F} {ctx : Ctx F} {lpn : LpnParams}
    {circ : PackedCircuit} {g : GarbleCtx F} {gtp : GarbleTapes F} {d : PreProcCount} {c : Codec F} {lead : ProtocolID → Nat}
    {m mb : Mat F} (P : PreParams c ctx m mb d) (G : GarbleParams hash rng ctx lpn circ g gtp d) (hL : ∀ id, lead id < ctx.n)
    (Cs : Finset Nat) (hC : Coalition ctx Cs) (hcard : Cs.card = ctx.t) (id gid : ProtocolID) (i q : Nat) (ws : List Nat)
    (K : circ.LeakyInput ctx Cs i q ws) : ¬ RunPrivate c ctx m mb d id g lead gtp gid Cs := by
  intro hrun
  obtain ⟨ids, br, bz, bb, H⟩ := P.hyp id
  obtain ⟨b, s, hbl, hsl, seen⟩ := masks_seen (params_grow G H) P.codec hL Cs hC hcard gid i q ws K
  obtain ⟨d₀, hd₀, hdm, -⟩ := G.count
  obtain ⟨no, ni, -, -, e1, -⟩ := describe_eq hd₀
  -- all secrets are zero, but perhaps one mask
  let S : F → PreSecrets F := fun v => ⟨(List.range d.masks).map fun j => (List.range ctx.l).map fun k => if j = b ∧ k = s then v else 0,
    List.replicate d.numKeys (List.replicate ctx.l 0), List.replicate d.errors (List.replicate ctx.l 0),
    List.replicate d.errors (List.replicate ctx.l 0), List.replicate d.errors (List.replicate ctx.l 0)⟩
  have rep : ∀ n : Nat, ∀ y ∈ List.replicate n (List.replicate ctx.l (0 : F)), y.length = ctx.l ∧ ∀ v ∈ y, v = 0 ∨ v = 1 := by
    intro n y hy
    rw [List.eq_of_mem_replicate hy]
    exact ⟨by simp, fun v hv => Or.inl (List.eq_of_mem_replicate hv)⟩
  have hfit : ∀ v : F, IsBit v → (S v).Fit ctx.l d := fun v hv => ⟨⟨by simp [S], fun y hy => by
      obtain ⟨j, _, rfl⟩ := List.mem_map.1 hy
      refine ⟨by simp, fun z hz => ?_⟩
      obtain ⟨k, _, rfl⟩ := List.mem_map.1 hz
      split
      · exact hv
      · left; rfl⟩,
    ⟨by simp [S], fun y hy => (rep _ y hy).1⟩, ⟨by simp [S], rep _⟩, ⟨by simp [S], rep _⟩, ⟨by simp [S], fun y hy => (rep _ y hy).1⟩⟩
  have h0 : IsBit (0 : F) := Or.inl rfl
  have h1 : IsBit (1 : F) := Or.inr rfl
  obtain ⟨x₀⟩ := H.zero_run (hfit 0 h0) fun _ _ => ⟨at2_zeros' _ _ _ _ _, at2_zeros _ _ _ _, at2_zeros _ _ _ _, at2_zeros _ _ _ _,
    at2_zeros _ _ _ _⟩
  obtain ⟨e, he⟩ := hrun _ _ (hfit 0 h0) (hfit 1 h1)
  obtain ⟨pre, pre', hpre, hpre', hv⟩ := he x₀
  have hmat : ∀ {S : PreSecrets F} (hS : S.Fit ctx.l d) (x : TapesWith ctx m mb d S),
      preproc ctx m mb d x.1 = some ((List.range ctx.n).map (H.world hS x).material) := by
    intro S hS x
    rw [H.preproc x.2.1]
    exact congrArg some (List.map_congr_left fun p _ => (H.world_material hS x p).symm)
  obtain rfl := Option.some.inj ((hmat (hfit 0 h0) x₀).symm.trans hpre)
  obtain rfl := Option.some.inj ((hmat (hfit 1 h1) (e x₀)).symm.trans hpre')
  have hval : ∀ v, ∀ j < circ.blocks.length, ∀ k < ctx.l, at2 (S v).garble.masks j k = if j = b ∧ k = s then v else 0 := by
    intro v j hj k hk
    show at2 (S v).masks j k = _
    unfold at2
    rw [getD_tab _ _ _ (by omega), getD_tab _ _ _ hk]
  refine seen
    (S 0).garble (S 1).garble (garble_fit (hfit 0 h0)) (garble_fit (hfit 1 h1))
    (fun j hj k hk h => by rw [hval 0 j hj k hk, hval 1 j hj k hk, if_neg h, if_neg h])
    (by rw [hval 0 b hbl s hsl, hval 1 b hbl s hsl, if_pos ⟨rfl, rfl⟩, if_pos ⟨rfl, rfl⟩]; exact one_ne_zero)
    (H.world _ x₀) (H.world _ (e x₀)) fun q hq => (hv q hq).2

/-- 16 parties, 4 of them corrupted, run `preproc` and `garble` for the half adder. -/
example (Cs : Finset Nat) (h1 : ∀ p ∈ Cs, p < 16) (h2 : Cs.card ≤ 4) :
    ∃ (ctx : Ctx (GF 18)) (m mb : Mat (GF 18)) (g : GarbleCtx (GF 18)) (tp : GarbleTapes (GF 18)) (d : PreProcCount),
      ctx.n = 16 ∧ ctx.t = 4 ∧ ctx.l = 2 ∧ superInvMatrix 16 12 = some m ∧ binarySuperInvMatrix (binText Binsup.n16_t5) = some mb ∧
      exCirc.describe 16 4 2 ⟨1, 3⟩ = some d ∧ RunPrivate (gfCodec 18) ctx m mb d [1] g (fun _ => 3) tp [7] Cs := by
  have := charP_codeField (GF 18)
  have ho : CodeField.order (GF 18) = 2 ^ 18 := rfl
  obtain ⟨ctx, hg, hn, ht, hl⟩ := ctx18 16 4 2 (by norm_num) (by norm_num) (by norm_num)
  obtain ⟨m, hm⟩ : ∃ m : Mat (GF 18), superInvMatrix 16 12 = some m := by
    rw [superInvMatrix, rsGenCols_eq (by norm_num) (by rw [ho]; norm_num)]
    exact ⟨_, rfl⟩
  obtain ⟨mb, hmb, h3, h4, h5, h6⟩ := C12_n16_t5_partial (F := GF 18)
  have g1 := superInv_good (n := 16) (t := 4) (by norm_num) (by rw [ho]; norm_num) hm
  have g2 := read_good Binsup.n16_t5 (by decide +kernel) (by decide +kernel) hmb
  rw [show Binsup.n16_t5.lines.length = 16 by decide +kernel] at g2
  obtain ⟨g, tp, d, G⟩ := params_exist id (fun _ _ => (1 : GF 18)) hg (by omega) (by omega) ⟨1, 3⟩ (c := exCirc)
    (by rw [hl]; exact exCirc_ok) (by rw [hn, hl, ho]; decide) (by rw [ho]; decide) (by rw [hn, ht]; decide) (by decide)
  obtain ⟨d₀, hd₀, -⟩ := G.count
  have hc := hd₀
  rw [hn, ht, hl] at hc
  have hs : d₀.numKeys + d₀.randoms + 3 * d₀.errors < 2 ^ 64 ∧ d₀.zeros + 2 * d₀.errors < 2 ^ 64 ∧ d₀.masks + 2 * d₀.errors < 2 ^ 64 := by
    have : (exCirc.describe 16 4 2 ⟨1, 3⟩).all fun d => decide (d.numKeys + d.randoms + 3 * d.errors < 2 ^ 64 ∧
        d.zeros + 2 * d.errors < 2 ^ 64 ∧ d.masks + 2 * d.errors < 2 ^ 64) := by decide +kernel
    rw [hc] at this
    simpa using this
  refine ⟨ctx, m, mb, g, tp, d₀, hn, ht, hl, hm, hmb, hc, C91_run_private_partial
    ⟨hg, by omega, by omega, by rw [hn]; exact g1.1, by rw [hn]; exact g2.1, g2.2, gfCodec_ok 18 (by norm_num), hs.1, hs.2.1, hs.2.2⟩
    { G with count := ⟨d₀, hd₀, rfl, rfl, rfl, le_refl _, le_refl _⟩ } (by rw [ht]; exact g1.2) (by rw [ht]; exact h6) (by
      left
      rw [hl]
      unfold PackedCircuit.Distinct
      decide) (fun _ => by omega) Cs ⟨by rwa [hn], by rwa [ht]⟩ [1] [7] (by rw [hl]; decide +kernel)⟩

/-- Party 0 learns about the masks, whatever the matrices. -/
example (m mb : Mat (GF 8)) (hm : DealMat 7 m) (hmb : DealMat 7 mb) (hbin : mb.Binary) :
    ∃ (ctx : Ctx (GF 8)) (g : GarbleCtx (GF 8)) (tp : GarbleTapes (GF 8)) (d : PreProcCount), ctx.n = 7 ∧ ctx.t = 1 ∧ ctx.l = 3 ∧
      PreParams (gfCodec 8) ctx m mb d ∧ GarbleParams id (fun _ _ => (1 : GF 8)) ctx ⟨1, 3⟩ exCirc4 g tp d ∧ Coalition ctx {0} ∧
      ¬ RunPrivate (gfCodec 8) ctx m mb d [1] g (fun _ => 3) tp [7] {0} := by
  obtain ⟨ctx, h2, h3, h4, h5⟩ := exCtx8_good
  have ho : CodeField.order (GF 8) = 256 := by
    show 2 ^ 8 = 256
    norm_num
  obtain ⟨g, tp, d, G⟩ := params_exist id (fun _ _ => (1 : GF 8)) h2 (by omega) (by omega) ⟨1, 3⟩ (c := exCirc4)
    (by rw [h5]; exact exCirc4_ok) (by rw [h3, h5, ho]; decide) (by rw [ho]; decide) (by rw [h3, h4]; decide) (by decide)
  have hC : Coalition ctx {0} := ⟨by simp; omega, by simp; omega⟩
  obtain ⟨d₀, hd₀, -⟩ := G.count
  have hs : d₀.numKeys + d₀.randoms + 3 * d₀.errors < 2 ^ 64 ∧ d₀.zeros + 2 * d₀.errors < 2 ^ 64 ∧ d₀.masks + 2 * d₀.errors < 2 ^ 64 := by
    have hc := hd₀
    rw [h3, h4, h5] at hc
    have : (exCirc4.describe 7 1 3 ⟨1, 3⟩).all fun d => decide (d.numKeys + d.randoms + 3 * d.errors < 2 ^ 64 ∧
        d.zeros + 2 * d.errors < 2 ^ 64 ∧ d.masks + 2 * d.errors < 2 ^ 64) := by decide +kernel
    rw [hc] at this
    simpa using this
  have G₀ : GarbleParams id (fun _ _ => (1 : GF 8)) ctx ⟨1, 3⟩ exCirc4 g tp d₀ :=
    { G with count := ⟨d₀, hd₀, rfl, rfl, rfl, le_refl _, le_refl _⟩ }
  have P : PreParams (gfCodec 8) ctx m mb d₀ := ⟨h2, by omega, by omega, by rw [h3]; exact hm, by rw [h3]; exact hmb, hbin,
    gfCodec_ok 8 (by norm_num), hs.1, hs.2.1, hs.2.2⟩
  refine ⟨ctx, g, tp, d₀, h3, h4, h5, P, G₀, hC, ?_⟩
  exact C91_run_private_false P G₀ (fun _ => by omega) {0} hC (by simp [h4]) [1] [7] 0 0 [0, 0]
    ⟨by decide, by simp, by simp, by rw [h5]; decide, by decide, fun w hw b bs hb hm =>
      Or.inl ((show ∀ w ∈ [0, 0], ∀ bs ∈ exCirc4.blocks, w ∈ bs → bs.length = ctx.l by rw [h5]; decide) w hw bs (List.mem_of_getElem? hb) hm)⟩

end Verif.Props
