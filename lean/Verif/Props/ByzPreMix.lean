import Verif.ByzPreMixLemmas
import Verif.Props.ByzPre
import Verif.Props.PrivacyPreproc

/-! # C136: all of `preproc` with parties which do not follow the protocols -/

open Polynomial Verif
open Verif.CodeField (ofU32)

namespace Verif.Props

variable {F : Type} [CodeField F] [DecidableEq F]

/-- C136: at most `t` parties deal what they like in `rand`, `zero` and `randbit` (with the right numbers of values), do what they like in the runs of `mult`, see all messages of these
runs, and decide at any time what happens next, depending on all they have seen so far.  If the matrices are such that `t` parties do not determine anything about the results, they learn
nothing about the keys, the random sharings, the masks, and the bits and scalars of the errors.  Missing: other numbers of values, for which it is false, see `C137_private_false`; and
other matrices, see `C90_preproc_private_false`. -/
theorem C136_private_partial (S : PreMix F) (h : S.ctx.Good) (hC : Coalition S.ctx S.Cs) (hm : DealMat S.ctx.n S.m) (hall : S.m.AllOutputs S.ctx.t) (hmb : DealMat S.ctx.n S.mb)
    (hub : S.mb.UniformBits S.ctx.t) (hs : errorBatches S.desc.errors S.ctx.n = some S.sizes)
    (hbr : S.desc.numKeys + S.desc.randoms + 3 * S.desc.errors ≤ S.m.rows.length * S.br) (hbz : S.desc.zeros + 2 * S.desc.errors ≤ S.m.rows.length * S.bz) : S.Hides := by
  intro σ d f hf
  have hsum := errorBatches_sum hs
  have hU := preUses_ok S.ids S.errs S.sizes (restR := S.desc.numKeys + S.desc.randoms) (restZ := S.desc.zeros) (haveR := S.m.rows.length * S.br)
    (haveZ := S.m.rows.length * S.bz) (by omega) (by omega)
  obtain ⟨Δ, h1, h2, h3⟩ := PreMix.bitDelta_exists h hC f hf
  obtain ⟨N, hN, hNb⟩ := rightInv_of_bits hmb.1 hub hC.size (fun p hp => by rw [hmb.2.1]; exact hC.parties p hp)
  let T : BitCoins S.ctx S.bb ≃ BitCoins S.ctx S.bb := bitShift N hNb Δ h3 S.mb.rows.length
  obtain ⟨e, he⟩ := adaptive_with (view := S.view) (view' := S.view) σ (P := fun a ω ω' =>
      ∃ (D : OwnShift S.ctx S.Cs (preOwnR S.sizes (S.desc.numKeys + S.desc.randoms)) (preOwnZ S.desc.zeros)),
        (∀ k i, ∀ j < S.ctx.l, (D.rand k i).eval (ofU32 (S.ctx.n + j)) = d k i j) ∧ (∀ k i, D.zero k i = 0) ∧ ω'.2 = T ω.2 ∧
        ∀ p < S.ctx.n, S.own (S.ever a) ω' p = D.apply p (S.own (S.ever a) ω p)) (by
    intro a
    choose D hD hD0 E hE using fun β : BitCoins S.ctx S.bb => C135_preproc_partial S.c S.ctx h S.Cs hC S.m hm hall S.br S.bz S.desc S.sizes hs hbr hbz S.ids S.errs
      (fun _ => PreMix.cheats (S.ever a)) (fun _ seen => S.stepAt a (seen.length - 1)) (fun _ => S.bits (S.ever a) β) (fun _ => S.bits (S.ever a) (T β)) d
    refine ⟨(Equiv.prodComm _ _).trans ((Equiv.prodShear T E).trans (Equiv.prodComm _ _)), fun ω => ?_⟩
    obtain ⟨k1, k2, k3⟩ := hE ω.2 ω.1
    refine ⟨fun M => ?_, D ω.2, hD ω.2, hD0 ω.2, rfl, fun p hp => k2 p hp⟩
    refine Prod.ext (PreMix.heard_same a M k1 fun j hj b hb p hp => ?_) (PreMix.erase_same h hm hmb hU a M (k3 (M + 1)))
    exact bitShift_same ω.2 _ hj hb fun i => h2 i p hp)
  refine ⟨e, fun ω => ⟨(he ω).1, ?_⟩⟩
  obtain ⟨D, hD, hD0, k1, k2⟩ := (he ω).2
  refine ⟨D, Δ, hD, hD0, fun a => ⟨(h3 a).1, h2 a, h1 a⟩, fun M => ?_⟩
  intro acts p hp hdl
  have hacts : acts = firsts (actsBy σ (S.view ω)) M := playBy_firsts σ (S.view ω) M
  rw [hacts] at hdl ⊢
  have hsame := PreMix.sameTo_now (S := S) hdl
  refine ⟨?_, ?_⟩
  · rw [k1]
    exact PreMix.bits_shift h hmb hN _ ω.2 hp
  · rw [PreMix.own_congr h hm hU hp hsame, PreMix.own_congr h hm hU hp hsame, k2 p hp]

/-- C136 for what the binary `preproc` computes and reads, if the file is good for `t` parties (C12).  Missing: as above. -/
theorem C136_good_file_partial (S : PreMix F) (h : S.ctx.Good) (hC : Coalition S.ctx S.Cs) {f : BinFile} {k t : Nat} (hf : GoodFor F f S.ctx.n k t) (ht : S.ctx.t ≤ t)
    (hn : S.ctx.n < CodeField.order F) (hk : 1 ≤ f.k) (hl : f.lines ≠ []) (hm : superInvMatrix S.ctx.n (S.ctx.n - S.ctx.t) = some S.m)
    (hmb : binarySuperInvMatrix (binText f) = some S.mb) (hs : errorBatches S.desc.errors S.ctx.n = some S.sizes)
    (hbr : S.desc.numKeys + S.desc.randoms + 3 * S.desc.errors ≤ S.m.rows.length * S.br) (hbz : S.desc.zeros + 2 * S.desc.errors ≤ S.m.rows.length * S.bz) : S.Hides := by
  have hle := h.le
  have hl0 := h.posL
  obtain ⟨M, h1, h2, h3, h4, h5⟩ := hf
  obtain rfl := Option.some.inj (h1.symm.trans hmb)
  have g1 := superInv_good (by omega) hn hm
  have g2 := (read_good f hk hl hmb).1
  exact C136_private_partial S h hC g1.1 g1.2 (by rw [← h2]; exact ⟨g2.1, rfl, g2.2.2⟩) (fun T hT => h5 T (hT.trans ht)) hs hbr hbz

/-- 128 parties with the matrix of the repository, and any 31 of them deviate: 1000 masks, 6000 keys and 2000 errors, with one batch of 97 random sharings for each 97 results. -/
example (c : Codec (GF 18)) (ids : List ProtocolID) (errs : List (ErrTapes (GF 18))) (Cs : Finset Nat) (h1 : ∀ p ∈ Cs, p < 128) (h2 : Cs.card ≤ 31) (bb : Nat) :
    ∃ (ctx : Ctx (GF 18)) (m mb : Mat (GF 18)), ctx.n = 128 ∧ ctx.t = 31 ∧ ctx.l = 16 ∧ superInvMatrix 128 97 = some m ∧
      binarySuperInvMatrix (binText Binsup.n128_t31) = some mb ∧
      PreMix.Hides ⟨ctx, m, mb, Cs, ids, errs, List.replicate 127 15 ++ [95], ⟨1000, (2, 3, 1000), 500, 500, 2000⟩, 129, 47, bb, c⟩ := by
  have := charP_codeField (GF 18)
  have ho : CodeField.order (GF 18) = 2 ^ 18 := rfl
  obtain ⟨ctx, hg, hn, ht, hl⟩ := ctx18 128 31 16 (by norm_num) (by norm_num) (by norm_num)
  have hcols : ∃ m : Mat (GF 18), superInvMatrix 128 97 = some m ∧ m.rows.length = 97 := by
    rw [superInvMatrix, rsGenCols_eq (by norm_num) (by rw [ho]; norm_num)]
    exact ⟨_, rfl, by simp⟩
  obtain ⟨m, hm, hrows⟩ := hcols
  have hf := (C12_n128_t31 (F := GF 18)).1
  have hf' := hf
  obtain ⟨mb, hmb, -⟩ := hf'
  refine ⟨ctx, m, mb, hn, ht, hl, hm, hmb, ?_⟩
  rw [← hn] at hf
  refine C136_good_file_partial ⟨ctx, m, mb, Cs, ids, errs, _, _, 129, 47, bb, c⟩ hg ⟨by rwa [hn], by rwa [ht]⟩ hf (le_of_eq ht) (by rw [ho]; simp only; omega) (by decide +kernel) (by decide +kernel) (by simp only; rw [hn, ht]; exact hm) hmb
    (by simp only; rw [hn]; decide) (by simp only; rw [hrows]; decide) (by simp only; rw [hrows]; decide)

/-- C136: nothing keeps the parties from running, and the deviating parties can deal whatever they like.  For any messages `v` with the right numbers of values there are actions after
which all parties have what is dealt to them, and the deviating parties have dealt `v`. -/
theorem C136_free (S : PreMix F) (v : DealMsg → List F) (hv : ∀ m, (v m).length = S.size m) :
    ∃ h : List (DealAct F), (∀ p < S.ctx.n, S.Dealt (S.arrived h) p) ∧ ∀ m : DealMsg, m.src ∈ S.Cs → m.src < S.ctx.n → m.dst < S.ctx.n → S.said m h = some (v m) := by
  let act : DealMsg → DealAct F := fun m => if m.src ∈ S.Cs then .send m (v m) else .pass m
  let all : List DealMsg := (List.range S.ctx.n).flatMap fun j => (List.range S.ctx.n).flatMap fun p => [.rand j p, .zero j p, .bit j p]
  have hall : ∀ m : DealMsg, m.src < S.ctx.n → m.dst < S.ctx.n → m ∈ all := by
    intro m h1 h2
    refine List.mem_flatMap.2 ⟨m.src, List.mem_range.2 h1, List.mem_flatMap.2 ⟨m.dst, List.mem_range.2 h2, ?_⟩⟩
    cases m <;> simp [DealMsg.src, DealMsg.dst]
  have key : ∀ L : List DealMsg, ∀ m ∈ L, m.src < S.ctx.n → m ∈ S.arrived (L.map act) := by
    intro L
    induction L with
    | nil => intro m hm; cases hm
    | cons x L ih =>
      intro m hm hs
      rcases List.mem_cons.1 hm with rfl | hm
      · rw [List.map_cons]
        by_cases hC : m.src ∈ S.Cs
        · simp only [act, if_pos hC, PreMix.arrived]
          rw [if_pos ⟨hC, hv m⟩]
          exact List.mem_cons_self ..
        · simp only [act, if_neg hC, PreMix.arrived]
          rw [if_pos ⟨hs, hC⟩]
          exact List.mem_cons_self ..
      · exact PreMix.arrived_mono _ (ih m hm hs)
  have val : ∀ (L : List DealMsg) (m : DealMsg) (w : List F), S.said m (L.map act) = some w → w = v m := by
    intro L m w hw
    induction L with
    | nil => cases hw
    | cons x L ih =>
      rw [List.map_cons] at hw
      by_cases hC : x.src ∈ S.Cs
      · have hx : act x = .send x (v x) := if_pos hC
        rw [hx] at hw
        simp only [PreMix.said] at hw
        cases hsd : S.said m (L.map act) with
        | some u =>
          rw [hsd] at hw
          exact ih (hsd.trans hw)
        | none =>
          rw [hsd] at hw
          simp only at hw
          split at hw
          · rename_i hc
            rw [← hc.1]
            exact (Option.some.inj hw).symm
          · cases hw
      · have hx : act x = .pass x := if_neg hC
        rw [hx] at hw
        exact ih hw
  refine ⟨all.map act, fun p hp j hj => ⟨key _ _ (hall _ hj hp) hj, key _ _ (hall _ hj hp) hj, key _ _ (hall _ hj hp) hj⟩, fun m hC h1 h2 => ?_⟩
  obtain ⟨w, hw⟩ := PreMix.said_of_arrived (key all m (hall m h1 h2) h1) hC
  rw [hw, val all m w hw]

/-- C136: the deviating parties see what is dealt to them as soon as it arrives, and all messages of the runs. -/
theorem C136_sees (S : PreMix F) (ω : S.Coins) (h : List (DealAct F)) (j : Fin S.ctx.n) (hj : (j : Nat) ∉ S.Cs) (p : Nat) (hp : p ∈ S.Cs) :
    (S.view ω (.pass (.rand j p) :: h)).1 (.rand j p) = some ((ω.1 j).randoms p) ∧ (S.view ω (.pass (.zero j p) :: h)).1 (.zero j p) = some ((ω.1 j).zeros p) ∧
    (S.view ω (.pass (.bit j p) :: h)).1 (.bit j p) = some ((List.finRange S.bb).map fun b => (ω.2.1 j b).eval (ofU32 p)) ∧
    (S.view ω h).2.chan = (S.sys ω h).chan ∧ (S.view ω h).2.sent = (S.sys ω h).sent := by
  have here : ∀ m : DealMsg, m.src = j → m ∈ S.arrived (.pass m :: h) := by
    intro m hm
    simp only [PreMix.arrived]
    rw [if_pos ⟨hm ▸ j.2, hm ▸ hj⟩]
    exact List.mem_cons_self ..
  refine ⟨?_, ?_, ?_, rfl, rfl⟩
  · simp only [PreMix.view]
    rw [if_pos ⟨here _ rfl, hj, hp⟩]
    simp [PreMix.content]
  · simp only [PreMix.view]
    rw [if_pos ⟨here _ rfl, hj, hp⟩]
    simp [PreMix.content]
  · simp only [PreMix.view]
    rw [if_pos ⟨here _ rfl, hj, hp⟩]
    simp only [PreMix.content]
    rw [if_pos j.2]
    refine congrArg some ?_
    apply List.ext_getElem
    · simp
    · intro b h1 h2
      simp only [List.getElem_map, List.getElem_range, List.getElem_finRange]
      rw [ω.2.poly_lt j.2 (by simpa using h1)]
      rfl

/-- C136: without deviating parties, the results of `randbit` in this model are those of the dealing round with the parties' polynomials. -/
theorem C136_honest (S : PreMix F) (h : S.ctx.Good) (hmb : DealMat S.ctx.n S.mb) (hC : S.Cs = ∅) (f : DealMsg → Option (List F)) (β : BitCoins S.ctx S.bb) :
    dealRound S.ctx.n S.bb S.mb ((List.range S.ctx.n).map fun j => (List.range S.bb).map fun b => (List.range S.ctx.n).map fun p => (β.poly j b).eval (ofU32 p))
      = some ((List.range S.ctx.n).map (S.bits f β)) := by
  have hfit := h.fit
  have hdw : dealRound S.ctx.n S.bb S.mb ((List.range S.ctx.n).map fun j => (List.range S.bb).map fun b => (List.range S.ctx.n).map fun p => (β.poly j b).eval (ofU32 p))
      = dealWith S.ctx.n S.bb S.mb S.Cs β.poly (PreMix.lies f) := by
    unfold dealWith
    rw [hC]
    simp
  rw [hdw, dealWith_eq (by omega) hmb]
  refine congrArg some (List.map_congr_left fun p hp => ?_)
  unfold PreMix.bits pickFrom
  rw [dealWith_eq (by omega) hmb, Option.getD_some]
  refine List.map_congr_left fun a ha => ?_
  unfold tabShares
  rw [getD_tab _ _ _ (List.mem_range.1 hp), id, getD_tab _ _ _ (List.mem_range.1 ha)]

end Verif.Props
