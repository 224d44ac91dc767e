import Verif.ByzMixLemmas
import Verif.Props.ByzGarble

/-! # C132: dealing, `randtrans` and the runs at the same time, with parties which do not follow the protocols -/

open Verif

namespace Verif.Props

variable {F : Type} [CodeField F] [DecidableEq F]

/-- C132 (missing: messages of the deviating parties with wrong numbers of values, for some of which it is false, see `C130_private_false`).  At most `t` parties decide at any time
what happens next and what they send, depending on all they have seen: messages in `rand`, `zero` and `randtrans` arrive in any order, while runs of `reduce_degree`, `mult` and
`trans` whose masks are there go on.  For any inputs `x` and `x'` there is a bijection between the randomness of the dealers for `x` and that for `x'` under which they see
the same and do the same at all times. -/
theorem C132_private_partial (S : Mix F) (h : S.ctx.Good) (hd : S.ctx.t + 2 * S.ctx.l ≤ S.ctx.n) (hC : Coalition S.ctx S.Cs) (hm : DealMat S.ctx.n S.m)
    (hall : S.m.AllOutputs S.ctx.t) (ok : MkOk S.ctx S.gs S.rs)
    (hU : S.U.Ok (useR S.ctx S.gs S.rs) (useZ S.ctx S.gs S.rs) (S.m.rows.length * S.br) (S.m.rows.length * S.bz))
    (σ : List ((PreMsg → Option (List F)) × Sys Unit) → MixAct F) (x x' : Nat → Nat → Env (List F) → List F) (hx : MkSizes S.rs x) (hx' : MkSizes S.rs x') :
    ∃ e : DealCoins S.ctx S.br S.bz ≃ DealCoins S.ctx S.br S.bz, ∀ δ N, playBy σ (S.view x' (e δ)) N = playBy σ (S.view x δ) N := by
  refine adaptive σ fun a => ?_
  obtain ⟨e, he⟩ := C130_private_partial S.c S.ctx h hd S.Cs hC S.m hm hall S.gs S.rs ok S.br S.bz S.U hU (S.whole a) (Mix.whole_sized a) x x' hx hx'
  refine ⟨e, fun δ N => ?_⟩
  obtain ⟨k1, k2, k3⟩ := he δ
  exact Prod.ext (Mix.heard_same h hm hU a N k1 k2 x x') (Mix.erase_same h hm hU a N (k3 (N + 1)))

/-- C132: nothing keeps the parties from running, and the deviating parties can send whatever they like.  For any messages `v` with the right numbers of values there are actions
after which all parties have the masks for all runs, and the deviating parties have dealt and sent `v`. -/
theorem C132_free (S : Mix F) (ok : MkOk S.ctx S.gs S.rs) (v : PreMsg → List F) (hv : ∀ m, (v m).length = S.size m) :
    ∃ h : List (MixAct F), (∀ k < S.rs.length, ∀ p < S.ctx.n, S.Masked (S.arrived h) k p) ∧
      ∀ kn hrd, ∀ j ∈ S.Cs, j < S.ctx.n → ∀ p < S.ctx.n, (∀ b, ((S.sofar h).cheat kn).rand j b p = (v (.rand j p)).getD b 0) ∧
        (∀ b, ((S.sofar h).cheat kn).zero j b p = (v (.zero j p)).getD b 0) ∧ ∀ g : Fin S.gs.length, (S.sofar h).evil kn hrd g j p = v (.rt g j p) := by
  let act : PreMsg → MixAct F := fun m => if m.src ∈ S.Cs then .send m (v m) else .pass m
  have one : ∀ (m : PreMsg) (h : List (MixAct F)), m.src < S.ctx.n → S.CanSend (S.arrived h) m → m ∈ S.arrived (act m :: h) := by
    intro m h hm hc
    by_cases hC : m.src ∈ S.Cs
    · simp only [act, if_pos hC, Mix.arrived]
      rw [if_pos ⟨hC, hv m⟩]
      exact List.mem_cons_self ..
    · simp only [act, if_neg hC, Mix.arrived]
      rw [if_pos ⟨hm, hC, hc⟩]
      exact List.mem_cons_self ..
  have fixed : ∀ (L : List PreMsg) (m : PreMsg) (w : List F), S.said m (L.map act) = some w → w = v m := by
    intro L m w hw
    induction L with
    | nil => cases hw
    | cons a L ih =>
      rw [List.map_cons] at hw
      by_cases hC : a.src ∈ S.Cs
      · simp only [act, if_pos hC, Mix.said] at hw
        cases hs : S.said m (L.map act) with
        | some u =>
          rw [show (L.map fun m => if m.src ∈ S.Cs then MixAct.send m (v m) else .pass m) = L.map act from rfl, hs] at hw
          simp only [Option.some.injEq] at hw
          exact ih (hw ▸ hs)
        | none =>
          rw [show (L.map fun m => if m.src ∈ S.Cs then MixAct.send m (v m) else .pass m) = L.map act from rfl, hs] at hw
          simp only at hw
          split at hw
          · rename_i hc
            rw [← Option.some.inj hw, hc.1]
          · cases hw
      · simp only [act, if_neg hC, Mix.said] at hw
        exact ih hw
  have mono : ∀ (L : List PreMsg) (h : List (MixAct F)) m, m ∈ S.arrived h → m ∈ S.arrived (L.map act ++ h) := by
    intro L h m hm
    induction L with
    | nil => exact hm
    | cons a L ih => exact Mix.arrived_mono _ ih
  have all : ∀ (L : List PreMsg) (h : List (MixAct F)), (∀ m ∈ L, m.src < S.ctx.n ∧ ∀ L' : List PreMsg, S.CanSend (S.arrived (L'.map act ++ h)) m) →
      ∀ m ∈ L, m ∈ S.arrived (L.map act ++ h) := by
    intro L h hL m hm
    induction L with
    | nil => cases hm
    | cons a L ih =>
      rcases List.mem_cons.1 hm with rfl | hm
      · exact one _ _ (hL _ (List.mem_cons_self ..)).1 ((hL _ (List.mem_cons_self ..)).2 L)
      · exact Mix.arrived_mono _ (ih (fun m hm => hL m (List.mem_cons_of_mem _ hm)) hm)
  let n := S.ctx.n
  let deals : List PreMsg := (List.range n).flatMap fun j => (List.range n).flatMap fun p => [.rand j p, .zero j p]
  let rts : List PreMsg := (List.range S.gs.length).flatMap fun g => (List.range n).flatMap fun j => (List.range n).map fun p => .rt g j p
  have hdeal : ∀ p < n, S.Dealt (S.arrived (deals.map act ++ [])) p := by
    have hin := all deals [] (fun m hm => by
      simp only [deals, List.mem_flatMap, List.mem_range, List.mem_cons, List.not_mem_nil, or_false] at hm
      obtain ⟨j, hj, p, _, rfl | rfl⟩ := hm
      · exact ⟨hj, fun _ => trivial⟩
      · exact ⟨hj, fun _ => trivial⟩)
    refine fun p hp j hj => ⟨hin _ ?_, hin _ ?_⟩ <;>
    · simp only [deals, List.mem_flatMap, List.mem_range]
      exact ⟨j, hj, p, hp, by simp⟩
  have hrt := all rts (deals.map act ++ []) (fun m hm => by
    simp only [rts, List.mem_flatMap, List.mem_range, List.mem_map] at hm
    obtain ⟨g, _, j, hj, p, _, rfl⟩ := hm
    exact ⟨hj, fun L' i hi => ⟨mono L' _ _ (hdeal j hj i hi).1, mono L' _ _ (hdeal j hj i hi).2⟩⟩)
  have hsaid : ∀ m ∈ S.arrived (rts.map act ++ (deals.map act ++ [])), m.src ∈ S.Cs → S.said m (rts.map act ++ (deals.map act ++ [])) = some (v m) := by
    intro m hm hC
    obtain ⟨w, hw⟩ := Mix.said_of_arrived hm hC
    rw [hw]
    rw [List.append_nil, ← List.map_append] at hw
    rw [fixed _ _ _ hw]
  have hrtin : ∀ g < S.gs.length, ∀ j < n, ∀ p < n, .rt g j p ∈ S.arrived (rts.map act ++ (deals.map act ++ [])) := by
    intro g hg j hj p hp
    refine hrt _ ?_
    simp only [rts, List.mem_flatMap, List.mem_range, List.mem_map]
    exact ⟨g, hg, j, hj, p, hp, rfl⟩
  refine ⟨rts.map act ++ (deals.map act ++ []), fun k hk p hp => ?_, fun kn hrd j hjC hj p hp => ⟨fun b => ?_, fun b => ?_, fun g => ?_⟩⟩
  rotate_left
  · simp only [Mix.sofar, Mix.attack]
    rw [hsaid _ (mono rts _ _ (hdeal p hp j hj).1) hjC, Option.getD_some]
  · simp only [Mix.sofar, Mix.attack]
    rw [hsaid _ (mono rts _ _ (hdeal p hp j hj).2) hjC, Option.getD_some]
  · simp only [Mix.sofar, Mix.attack]
    rw [hsaid _ (hrtin g g.2 j hj p hp) hjC, Option.getD_some]
  unfold Mix.Masked
  rw [List.getElem?_eq_getElem hk]
  simp only
  cases htr : S.rs[k].tr with
  | none => exact fun j hj => ⟨mono rts _ _ (hdeal p hp j hj).1, mono rts _ _ (hdeal p hp j hj).2⟩
  | some gi =>
    obtain ⟨g, i⟩ := gi
    obtain ⟨hg, _⟩ := ok.runs ⟨k, hk⟩ g i htr
    exact fun j hj => hrtin g hg j hj p hp

/-- C132: what the deviating parties see.  After a message of another party to one of them has arrived, they see what `rand`, `zero` and `randtrans` have it send; they see all messages
under way in the runs and all which have been sent. -/
theorem C132_sees (S : Mix F) (x : Nat → Nat → Env (List F) → List F) (δ : DealCoins S.ctx S.br S.bz) (h : List (MixAct F)) (j : Fin S.ctx.n) (hj : (j : Nat) ∉ S.Cs) (p : Nat)
    (hp : p ∈ S.Cs) : (S.view x δ (.pass (.rand j p) :: h)).1 (.rand j p) = some ((δ j).randoms p) ∧
    (S.view x δ (.pass (.zero j p) :: h)).1 (.zero j p) = some ((δ j).zeros p) ∧
    (∀ g : Fin S.gs.length, S.Dealt (S.arrived h) j → (S.view x δ (.pass (.rt g j p) :: h)).1 (.rt g j p)
      = rtTo S.ctx (S.gs.get g).tfs j p (dealtFor S.ctx S.m S.Cs S.U (useR S.ctx S.gs S.rs) (useZ S.ctx S.gs S.rs) ((S.sofar h).cheat (δ.known S.Cs)) δ (.inr g) j)) ∧
    (S.view x δ h).2.chan = (S.sys x δ h).chan ∧ (S.view x δ h).2.sent = (S.sys x δ h).sent := by
  have here : ∀ m : PreMsg, m.src = j → S.CanSend (S.arrived h) m → m ∈ S.arrived (.pass m :: h) := by
    intro m hm hc
    simp only [Mix.arrived]
    rw [if_pos ⟨hm ▸ j.2, hm ▸ hj, hc⟩]
    exact List.mem_cons_self ..
  refine ⟨?_, ?_, fun g hd => ?_, rfl, rfl⟩
  · simp only [Mix.view]
    rw [if_pos ⟨here _ rfl trivial, hj, hp⟩]
    simp [Mix.content]
  · simp only [Mix.view]
    rw [if_pos ⟨here _ rfl trivial, hj, hp⟩]
    simp [Mix.content]
  · simp only [Mix.view]
    rw [if_pos ⟨here _ rfl hd, hj, hp⟩]
    simp only [Mix.content]
    rw [dif_pos g.2]
    unfold Attack.heard
    rw [if_pos ⟨j.2, hj, hp⟩]
    rfl

/-- The first two actions of a strategy. -/
example {A V : Type} (σ : List V → A) (view : List A → V) : playBy σ view 2 = ([σ [view [], view [σ [view []]]], σ [view []]], [view [], view [σ [view []]]]) := rfl

/-- C132 for the runs of `garble` (missing as in `C131_private_partial`, but in any order). -/
theorem C132_garble_partial (c : Codec F) {hash : List Nat → List Nat} {rng : List Nat → Nat → F} {ctx : Ctx F} {lpn : LpnParams} {circ : PackedCircuit}
    {g : GarbleCtx F} {tp : GarbleTapes F} {d : PreProcCount} (P : GarbleParams hash rng ctx lpn circ g tp d) (hD : circ.Distinct ctx.l)
    (go gi : List (List (SharingTransform F))) (hgo : chunks? ctx.l g.tfOut = some go) (hgi : chunks? ctx.l g.tfInp = some gi)
    (Cs : Finset Nat) (hC : Coalition ctx Cs) (m : Mat F) (hm : superInvMatrix ctx.n (ctx.n - ctx.t) = some m) (lead : ProtocolID → Nat)
    (ids : List ProtocolID) (br bz b b' : Nat) (hr : b + d.randoms ≤ m.rows.length * br) (hz : b' + d.zeros ≤ m.rows.length * bz)
    (sec sec' : Nat → PreProc F) (σ : List ((PreMsg → Option (List F)) × Sys Unit) → MixAct F) :
    let runs := garbleRuns ctx g lead tp sec go gi
    let S : Mix F := ⟨ctx, garbleRts g go gi, runJobs ids runs, m, Cs, garbleUses ctx g go gi ids runs b b', br, bz, c⟩
    ∃ e : DealCoins ctx br bz ≃ DealCoins ctx br bz, ∀ δ N,
      playBy σ (S.view (runInputs (go.length + gi.length) (garbleRuns ctx g lead tp sec' go gi)) (e δ)) N
        = playBy σ (S.view (runInputs (go.length + gi.length) runs) δ) N := by
  intro runs S
  obtain ⟨h1, h2, h3⟩ := garble_fits P hD go gi hgo hgi m lead ids br bz b b' hr hz sec
  have hp := P.parties
  have hfit := P.good.fit
  have hl0 := P.good.posL
  obtain ⟨k1, k2⟩ := superInv_good (by omega) (by omega) hm
  exact C132_private_partial S P.good hp hC k1 k2 h1 h2 σ _ _ (h3 sec) (h3 sec')

/-- 7 parties garble the half adder with two secrets per sharing.  Parties 1 and 5 deviate and decide about the order of everything; they cannot tell one set of masks, keys
and errors from another. -/
example (lead : ProtocolID → Nat) (ids : List ProtocolID) (sec sec' : Nat → PreProc (GF 4)) (σ : List ((PreMsg → Option (List (GF 4))) × Sys Unit) → MixAct (GF 4)) :
    ∃ (ctx : Ctx (GF 4)) (g : GarbleCtx (GF 4)) (tp : GarbleTapes (GF 4)) (d : PreProcCount) (go gi : List (List (SharingTransform (GF 4)))) (m : Mat (GF 4)),
    exCtx = some ctx ∧ go.length = 2 ∧ gi.length = 2 ∧ superInvMatrix 7 5 = some m ∧ ∀ br, d.randoms ≤ 5 * br → ∀ bz, d.zeros ≤ 5 * bz →
      let runs := garbleRuns ctx g lead tp sec go gi
      let S : Mix (GF 4) := ⟨ctx, garbleRts g go gi, runJobs ids runs, m, {1, 5}, garbleUses ctx g go gi ids runs 0 0, br, bz, gfCodec 4⟩
      ∃ e : DealCoins ctx br bz ≃ DealCoins ctx br bz, ∀ δ, ∀ N,
        playBy σ (S.view (runInputs 4 (garbleRuns ctx g lead tp sec' go gi)) (e δ)) N = playBy σ (S.view (runInputs 4 runs) δ) N := by
  obtain ⟨ctx, h1, h2, h3, h4, h5⟩ := exCtx_good
  have ho : CodeField.order (GF 4) = 16 := by
    show 2 ^ 4 = 16
    norm_num
  obtain ⟨g, tp, d, P⟩ := params_exist id (fun _ _ => (1 : GF 4)) h2 (by omega) (by omega) ⟨1, 3⟩ (c := exCirc)
    (by rw [h5]; exact exCirc_ok) (by rw [h3, h5, ho]; decide) (by rw [ho]; decide) (by rw [h3, h4]; decide) (by decide)
  obtain ⟨go, gi, hG⟩ := P.prepared
  obtain ⟨m, hm⟩ : ∃ m, superInvMatrix (F := GF 4) 7 5 = some m := Option.isSome_iff_exists.1 (by decide +kernel)
  have hrows : m.rows.length = 5 := by
    have : (superInvMatrix (F := GF 4) 7 5).map (fun m => m.rows.length) = some 5 := by decide +kernel
    rw [hm] at this
    exact Option.some.inj this
  have l1 : go.length = 2 := by
    rw [groups_length h2.posL hG.go, hG.out, h5]
    decide
  have l2 : gi.length = 2 := by
    rw [groups_length h2.posL hG.gi, hG.inp, h5]
    decide
  refine ⟨ctx, g, tp, d, go, gi, m, h1, l1, l2, hm, fun br hr bz hz => ?_⟩
  have := C132_garble_partial (gfCodec 4) P (by
    rw [h5]
    unfold PackedCircuit.Distinct
    decide) go gi hG.go hG.gi {1, 5} ⟨by simp; omega, by simp; omega⟩ m (by rw [h3, h4]; exact hm) lead ids br bz 0 0 (by rw [hrows]; omega) (by rw [hrows]; omega)
    sec sec' σ
  rw [l1, l2] at this
  exact this

end Verif.Props
