import Verif.PrivacyCase
import Verif.GarbleExist
import Verif.AsyncRounds
import Verif.Props.Masks
import Verif.Props.Garble

/-!
# C89: what the parties learn in `garble`
-/

open Polynomial

namespace Verif.Props

open CodeField (ofU32)

variable {F : Type} [CodeField F] [DecidableEq F]

/-- C89, for circuits without a repeated wire in the gate input blocks which are not full, or with one input which has repeated wires but is
hidden by the masks of a block (`PackedCircuit.Hides`).  A set of at most `t` parties
which follow the protocol learns nothing about wire masks, labels and LPN errors from a run of `garble`, from their material
and all messages which they get: there is a bijection between the randomness with any secrets and the randomness with any
other secrets under which everything that they see is the same.  Missing for the full claim: the other circuits, for which it
is false (`C89_garble_private_false`). -/
theorem C89_garble_private_partial {hash : List Nat → List Nat} {rng : List Nat → Nat → F} {ctx : Ctx F} {lpn : LpnParams}
    {circ : PackedCircuit} {g : GarbleCtx F} {tp : GarbleTapes F} {d : PreProcCount} {c : Codec F} {lead : ProtocolID → Nat}
    (P : GarbleParams hash rng ctx lpn circ g tp d) (hc : c.Ok) (hL : ∀ id, lead id < ctx.n) (Cs : Finset Nat)
    (hC : Coalition ctx Cs) (hD : circ.Hides ctx) (id : ProtocolID)
    (hids : (garbleIdsOf id circ.inputs.length ctx.l (circ.gates.map PackedGate.kind)).isSome) :
    GarblePrivate c ctx g lead tp d id Cs := by
  obtain ⟨ids, hids⟩ := Option.isSome_iff_exists.1 hids
  exact world_bijection P hc hL hC hD hids

/-- Parameters for all circuits. -/
theorem params_exist (hash : List Nat → List Nat) (rng : List Nat → Nat → F) {ctx : Ctx F} (good : ctx.Good)
    (parties : ctx.t + 2 * ctx.l ≤ ctx.n) (mult : 2 * (ctx.t + ctx.l - 1) < ctx.n) (lpn : LpnParams)
    {c : PackedCircuit} (circ : c.Ok ctx.l) (fit : ∀ w ∈ c.blocks.flatten, ctx.n + ctx.l + w < CodeField.order F)
    (code : lpn.mssgLen < CodeField.order F) (size : 2 * ((ctx.n + ctx.t) * (2 * lpn.keyLen + 1)) < 2 ^ 64)
    (size' : 3 * (lpn.keyLen + 1) < 2 ^ 64) : ∃ g tp d, GarbleParams hash rng ctx lpn c g tp d := by
  obtain ⟨g, tp, pre, d, hd, s⟩ := setup_exists hash rng good parties mult lpn circ fit code
    (List.replicate c.blocks.length (List.replicate ctx.l 0)) (List.replicate (2 * lpn.keyLen * c.blocks.length) (List.replicate ctx.l 0))
    (List.replicate (c.gates.map fun x => x.kind.numRows * lpn.mssgLen).sum (List.replicate ctx.l 0))
    (by simp) (by simp) (by simp) (fun r hr => by rw [List.eq_of_mem_replicate hr, List.length_replicate])
    (fun r hr => by rw [List.eq_of_mem_replicate hr, List.length_replicate])
    (fun r hr => by rw [List.eq_of_mem_replicate hr, List.length_replicate])
  exact ⟨g, tp, d, ⟨good, parties, mult, circ, fit, code, s.new, s.tapes,
    ⟨d, hd, rfl, rfl, rfl, le_refl _, le_refl _⟩, size, size'⟩⟩

/-- 7 parties, one of them corrupted, run `garble` for the half adder with two secrets per sharing. -/
example : ∃ (ctx : Ctx (GF 4)) (g : GarbleCtx (GF 4)) (tp : GarbleTapes (GF 4)) (d : PreProcCount), exCtx = some ctx ∧
    GarblePrivate (gfCodec 4) ctx g (fun _ => 3) tp d [7] {5} := by
  obtain ⟨ctx, h1, h2, h3, h4, h5⟩ := exCtx_good
  have ho : CodeField.order (GF 4) = 16 := by
    show 2 ^ 4 = 16
    norm_num
  obtain ⟨g, tp, d, P⟩ := params_exist id (fun _ _ => (1 : GF 4)) h2 (by omega) (by omega) ⟨1, 3⟩ (c := exCirc)
    (by rw [h5]; exact exCirc_ok) (by rw [h3, h5, ho]; decide) (by rw [ho]; decide) (by rw [h3, h4]; decide) (by decide)
  refine ⟨ctx, g, tp, d, h1, C89_garble_private_partial P (gfCodec_ok 4 (by norm_num)) (fun _ => by omega) _
    ⟨by simp; omega, by simp; omega⟩ (by
      left
      rw [h5]
      unfold PackedCircuit.Distinct
      decide) [7] (by rw [h5]; decide +kernel)⟩

/-! ### The defect -/

/-- Two polynomials which agree on sufficiently many places. -/
theorem poly_unique {k : Nat} {y y' : F[X]} (T : Finset Nat) (hT : ∀ v ∈ T, v < CodeField.order F) (hk : k ≤ T.card)
    (h : y.degree < k) (h' : y'.degree < k) (heq : ∀ v ∈ T, y.eval (ofU32 v) = y'.eval (ofU32 v)) : y = y' :=
  Polynomial.eq_of_degrees_lt_of_eval_index_eq T (fun a ha b hb hab => CodeField.ofU32_inj _ _ (hT a ha) (hT b hb) hab)
    (degree_lt_mono h hk) (degree_lt_mono h' hk) heq

/-- If there is a leaky gate input, then there is a place of a block such that no run looks like a run in which only the mask at this
place is another one. -/
theorem masks_seen {hash : List Nat → List Nat} {rng : List Nat → Nat → F} {ctx : Ctx F} {lpn : LpnParams}
    {circ : PackedCircuit} {g : GarbleCtx F} {tp : GarbleTapes F} {d : PreProcCount} {c : Codec F} {lead : ProtocolID → Nat}
    (P : GarbleParams hash rng ctx lpn circ g tp d) (hc : c.Ok) (hL : ∀ id, lead id < ctx.n) (Cs : Finset Nat)
    (hC : Coalition ctx Cs) (hcard : Cs.card = ctx.t) (id : ProtocolID) (i q : Nat) (ws : List Nat)
    (K : circ.LeakyInput ctx Cs i q ws) : ∃ b s, b < circ.blocks.length ∧ s < ctx.l ∧
      ∀ (M M' : GarbleSecrets F), M.Fit ctx.l d → M'.Fit ctx.l d →
        (∀ j < circ.blocks.length, ∀ k < ctx.l, ¬ (j = b ∧ k = s) → at2 M'.masks j k = at2 M.masks j k) →
        at2 M'.masks b s ≠ at2 M.masks b s → ∀ (w : GarbleWorld ctx d M) (w' : GarbleWorld ctx d M'),
        ¬ ∀ q ∈ Cs, ∃ v, garbleView c ctx g lead tp ((List.range ctx.n).map w.material) id q = some v ∧
          garbleView c ctx g lead tp ((List.range ctx.n).map w'.material) id q = some v := by
  have hle := P.good.le
  have hposL := P.good.posL
  have hordN := P.good.fit
  have hroom := K.room
  have hhon := K.honest
  have hcw := List.toFinset_card_le ws
  obtain ⟨p, hp⟩ : ∃ p, ws.length + q - ws.toFinset.card = p := ⟨_, rfl⟩
  rw [hp] at hhon
  have hpn : p < ctx.n := by omega
  have hwsm := List.mem_of_getElem? K.inp
  have hdrv : ∀ v ∈ ws, ctx.n + ctx.l + v < CodeField.order F := fun v hv => P.fit v (inps_driven P.circ ws hwsm v hv)
  have hinj : Function.Injective fun u : Nat => ctx.n + ctx.l + u := fun a b h => by simpa using h
  -- the wires of the input have a basis, the sum of which is one
  obtain ⟨E, E1, -⟩ := selectInput_basis (F := F) P.good.fit ws hdrv
  have hpts : ∀ v ∈ ws.toFinset.image (fun u => ctx.n + ctx.l + u), v < CodeField.order F := by
    intro v hv
    obtain ⟨u, hu, rfl⟩ := Finset.mem_image.1 hv
    exact hdrv u (List.mem_toFinset.1 hu)
  have hcardT : ws.toFinset.card = (ws.toFinset.image (fun u => ctx.n + ctx.l + u)).card := by
    rw [Finset.card_image_of_injective _ hinj]
  have hpos : 0 < ws.toFinset.card := by
    rcases Nat.eq_zero_or_pos ws.toFinset.card with h0 | h0
    · have hwe : ws = [] := by simpa using h0
      rw [hwe] at hp
      simp only [List.length_nil, List.toFinset_nil, Finset.card_empty] at hp
      exact absurd (show p ∈ Cs by rw [← hp]; simpa using K.member) hhon
    · exact h0
  have hone : ∑ w ∈ ws.toFinset, E w = 1 := by
    refine poly_unique _ hpts hcardT.le ?_ ?_ fun v hv => ?_
    · refine (degree_sum_le _ _).trans_lt ?_
      rw [Finset.sup_lt_iff (WithBot.bot_lt_coe _)]
      exact fun w hw => (E1 w (List.mem_toFinset.1 hw)).1
    · rw [degree_one]
      exact_mod_cast hpos
    · obtain ⟨u, hu, rfl⟩ := Finset.mem_image.1 hv
      rw [eval_finsetSum, eval_one, Finset.sum_eq_single_of_mem u hu]
      · have := (E1 u (List.mem_toFinset.1 hu)).2 u (List.mem_toFinset.1 hu)
        rw [if_pos rfl] at this
        rw [Nat.add_comm]
        exact this
      · intro w hw hwu
        have := (E1 w (List.mem_toFinset.1 hw)).2 u (List.mem_toFinset.1 hu)
        rw [if_neg hwu.symm] at this
        rw [Nat.add_comm]
        exact this
  -- a block which does not contribute
  have hchi : ∀ (j : Nat) (cs : List Nat), circ.blocks[j]? = some cs → (∀ χ : F[X], χ.degree < ws.toFinset.card →
      (∀ w ∈ ws, χ.eval (ofU32 (w + (ctx.n + ctx.l))) = if w ∈ cs then 1 else 0) → χ.eval (ofU32 p) = 0) →
      ∑ w ∈ ws.toFinset with (wireToBlock circ w).getD 0 = j, (E w).eval (ofU32 p) = 0 := by
    intro j cs hj h
    have hin : ∀ w ∈ ws, (wireToBlock circ w).getD 0 = j ↔ w ∈ cs := by
      intro w hw
      constructor
      · intro e
        obtain ⟨cs', hcs, hwc⟩ := List.mem_flatten.1 (inps_driven P.circ ws hwsm w hw)
        obtain ⟨j', hj', rfl⟩ := List.mem_iff_getElem.1 hcs
        rw [wireToBlock_some P.circ.nodup (List.getElem?_eq_getElem hj') hwc, Option.getD_some] at e
        subst e
        rw [List.getElem?_eq_getElem hj', Option.some.injEq] at hj
        rwa [← hj]
      · intro hwc
        rw [wireToBlock_some P.circ.nodup hj hwc, Option.getD_some]
    have := h (∑ w ∈ ws.toFinset with (wireToBlock circ w).getD 0 = j, E w) (by
      refine (degree_sum_le _ _).trans_lt ?_
      rw [Finset.sup_lt_iff (WithBot.bot_lt_coe _)]
      exact fun w hw => (E1 w (List.mem_toFinset.1 (Finset.mem_filter.1 hw).1)).1) (fun u hu => by
      rw [eval_finsetSum]
      refine (Finset.sum_congr rfl (g := fun w => if u = w then (1 : F) else 0) fun w hw =>
        (E1 w (List.mem_toFinset.1 (Finset.mem_filter.1 hw).1)).2 u hu).trans ?_
      rw [Finset.sum_ite_eq]
      simp only [Finset.mem_filter, List.mem_toFinset, hu, true_and, hin u hu])
    rwa [eval_finsetSum] at this
  -- so the masks of some block count
  obtain ⟨x, hx, hwt⟩ : ∃ x ∈ ws, ∑ w ∈ ws.toFinset with (wireToBlock circ w).getD 0 = (wireToBlock circ x).getD 0,
      (E w).eval (ofU32 p) ≠ 0 := by
    by_contra hno
    push Not at hno
    have h1 := congrArg (fun f => eval (ofU32 p) f) hone
    simp only [eval_finsetSum, eval_one] at h1
    rw [← Finset.sum_fiberwise_of_maps_to (s := ws.toFinset) (t := ws.toFinset.image fun w => (wireToBlock circ w).getD 0)
      (g := fun w => (wireToBlock circ w).getD 0) (fun w hw => Finset.mem_image_of_mem _ hw)] at h1
    rw [Finset.sum_eq_zero] at h1
    · exact zero_ne_one h1
    · intro j hj
      obtain ⟨x, hx, rfl⟩ := Finset.mem_image.1 hj
      exact hno x (List.mem_toFinset.1 hx)
  obtain ⟨bs, hbm, hxm⟩ := List.mem_flatten.1 (inps_driven P.circ ws hwsm x hx)
  obtain ⟨b, hbl, hbb⟩ := List.mem_iff_getElem.1 hbm
  have hb : circ.blocks[b]? = some bs := by rw [← hbb]; exact List.getElem?_eq_getElem hbl
  obtain ⟨s, hsl, hsx⟩ := List.mem_iff_getElem.1 hxm
  have hs : bs[s]? = some x := by rw [← hsx]; exact List.getElem?_eq_getElem hsl
  have hknown := K.known x hx b bs hb hxm
  rw [hp] at hknown
  have hxb : (wireToBlock circ x).getD 0 = b := by rw [wireToBlock_some P.circ.nodup hb hxm, Option.getD_some]
  rw [hxb] at hwt
  have hknown : bs.length = ctx.l ∨ b % ctx.n ∈ Cs ∧ bs.length + p < ctx.l := by
    rcases hknown with h | h | h
    · exact Or.inl h
    · exact Or.inr h
    · exact absurd (hchi b bs hb h) hwt
  have hsl' : s < ctx.l := hsl.trans_le (P.circ.blockLen _ hbm)
  obtain ⟨d₀, hd₀, hdm, -⟩ := P.count
  obtain ⟨no, ni, -, -, hd₁, -⟩ := describe_eq hd₀
  rw [← hdm] at hd₁
  refine ⟨b, s, hbl, hsl', fun M M' hM hM' hval hdif w w' hview => ?_⟩
  obtain ⟨y, y', e, y1, e1, hsum⟩ := mask_leak P hc hL hM hM' w w' hC.parties hview K.inp K.leader K.member K.room
  rw [hp] at hsum
  have heE : ∀ v ∈ ws, e v = E v := by
    intro v hv
    refine poly_unique _ hpts hcardT.le (e1 v hv).1 (E1 v hv).1 fun k hk => ?_
    obtain ⟨u, hu, rfl⟩ := Finset.mem_image.1 hk
    have h1 := (e1 v hv).2 u (List.mem_toFinset.1 hu)
    have h2 := (E1 v hv).2 u (List.mem_toFinset.1 hu)
    rw [Nat.add_comm]
    exact h1.trans h2.symm
  -- the positions of the parties and of the wires of a block
  have places : ∀ (Q : Finset Nat), (∀ v ∈ Q, v < ctx.n) → ∀ bs ∈ circ.blocks, ∀ us : List Nat, us.Nodup → (∀ u ∈ us, u ∈ bs) →
      ∃ T : Finset Nat, (∀ v ∈ T, v < CodeField.order F) ∧ T.card = Q.card + us.length ∧
        ∀ v, v ∈ T ↔ v ∈ Q ∨ ∃ u ∈ us, v = ctx.n + ctx.l + u := by
    intro Q hQ bs hbs us hus hub
    refine ⟨Q ∪ us.toFinset.image fun u => ctx.n + ctx.l + u, fun v hv => ?_, ?_, fun v => ?_⟩
    · rcases Finset.mem_union.1 hv with hv | hv
      · have := hQ v hv
        omega
      · obtain ⟨u, hu, rfl⟩ := Finset.mem_image.1 hv
        exact P.fit u (List.mem_flatten.2 ⟨bs, hbs, hub u (List.mem_toFinset.1 hu)⟩)
    · rw [Finset.card_union_of_disjoint, Finset.card_image_of_injective _ hinj, List.toFinset_card_of_nodup hus]
      rw [Finset.disjoint_left]
      intro v hv hv'
      obtain ⟨u, hu, rfl⟩ := Finset.mem_image.1 hv'
      have := hQ _ hv
      omega
    · rw [Finset.mem_union, Finset.mem_image]
      simp only [List.mem_toFinset, eq_comm]
  -- the positions of the parties and of the slots
  have slots : ∀ (Q : Finset Nat), (∀ v ∈ Q, v < ctx.n) → ∀ K : Finset Nat, (∀ k ∈ K, k < ctx.l) → ∃ T : Finset Nat,
      (∀ v ∈ T, v < CodeField.order F) ∧ T.card = Q.card + K.card ∧ ∀ v, v ∈ T ↔ v ∈ Q ∨ ∃ k ∈ K, v = ctx.n + k := by
    intro Q hQ K hK
    have hinj' : Function.Injective fun u : Nat => ctx.n + u := fun a b h => by simpa using h
    refine ⟨Q ∪ K.image fun u => ctx.n + u, fun v hv => ?_, ?_, fun v => ?_⟩
    · rcases Finset.mem_union.1 hv with hv | hv
      · have := hQ v hv
        omega
      · obtain ⟨u, hu, rfl⟩ := Finset.mem_image.1 hv
        have := hK u hu
        omega
    · rw [Finset.card_union_of_disjoint, Finset.card_image_of_injective _ hinj']
      rw [Finset.disjoint_left]
      intro v hv hv'
      obtain ⟨u, hu, rfl⟩ := Finset.mem_image.1 hv'
      have := hQ _ hv
      omega
    · rw [Finset.mem_union, Finset.mem_image]
      simp only [eq_comm]
  -- the other blocks do not differ for party `p`
  have hother : ∀ v ∈ ws, (wireToBlock circ v).getD 0 ≠ b →
      (y ((wireToBlock circ v).getD 0)).eval (ofU32 p) = (y' ((wireToBlock circ v).getD 0)).eval (ofU32 p) ∨
        ∑ w ∈ ws.toFinset with (wireToBlock circ w).getD 0 = (wireToBlock circ v).getD 0, (E w).eval (ofU32 p) = 0 := by
    intro v hv hvb
    obtain ⟨cs, hcs, hvc⟩ := List.mem_flatten.1 (inps_driven P.circ ws hwsm v hv)
    obtain ⟨j, hj, rfl⟩ := List.mem_iff_getElem.1 hcs
    have hjs := List.getElem?_eq_getElem hj
    rw [wireToBlock_some P.circ.nodup hjs hvc, Option.getD_some] at hvb ⊢
    obtain ⟨m1, m2, m3, m4, m5⟩ := y1 j hj
    have hkn := K.known v hv j _ hjs hvc
    rw [hp] at hkn
    rcases hkn with hfull | ⟨hlead, hfree⟩ | hz
    · left
      obtain ⟨T, t1, t2, t3⟩ := places Cs hC.parties _ hcs _ ((List.nodup_flatten.1 P.circ.nodup).1 _ hcs) fun u hu => hu
      rw [hcard, hfull] at t2
      suffices y j = y' j by rw [this]
      refine poly_unique T t1 t2.ge m1.deg m2.deg fun v hv => ?_
      rcases (t3 v).1 hv with hv | ⟨u, hu, rfl⟩
      · exact m3 v hv
      · obtain ⟨k, hk, rfl⟩ := List.mem_iff_getElem.1 hu
        have hd : circ.Drives j k circ.blocks[j][k] := ⟨_, hjs, List.getElem?_eq_getElem hk⟩
        have hkl : k < ctx.l := hk.trans_le (P.circ.blockLen _ hcs)
        have h1 := m1.val k _ hd
        have h2 := m2.val k _ hd
        rw [hval j hj k hkl (fun h => hvb h.1)] at h2
        rw [Nat.add_comm] at *
        exact h1.trans h2.symm
    · left
      obtain ⟨T, t1, t2, t3⟩ := slots Cs hC.parties (Finset.range ctx.l) fun k hk => Finset.mem_range.1 hk
      rw [hcard, Finset.card_range] at t2
      obtain ⟨a1, a2⟩ := masks_poly w (b := j) (by omega)
      obtain ⟨b1, b2⟩ := masks_poly w' (b := j) (by omega)
      have heq : SharingsOf.poly w.masks j = SharingsOf.poly w'.masks j := by
        refine poly_unique T t1 t2.ge a1 b1 fun v hv => ?_
        rcases (t3 v).1 hv with hv | ⟨k, hk, rfl⟩
        · exact m4 v hv
        · have hk := Finset.mem_range.1 hk
          rw [a2 k hk, b2 k hk, hval j hj k hk (fun h => hvb h.1)]
      have h1 := m5 _ hjs hlead p hfree
      rw [heq] at h1
      linear_combination -h1
    · exact Or.inr (hchi j _ hjs hz)
  -- block `b` does not differ for party `p`
  have hpx : (y b).eval (ofU32 p) = (y' b).eval (ofU32 p) := by
    have hdiff : ∑ v ∈ ws.toFinset, (E v).eval (ofU32 p) *
        ((y ((wireToBlock circ v).getD 0)).eval (ofU32 p) - (y' ((wireToBlock circ v).getD 0)).eval (ofU32 p)) = 0 := by
      rw [← sub_eq_zero, ← Finset.sum_sub_distrib] at hsum
      rw [← hsum]
      refine Finset.sum_congr rfl fun v hv => ?_
      rw [heE v (List.mem_toFinset.1 hv), mul_sub]
    have hfib : ∀ j, ∑ v ∈ ws.toFinset with (wireToBlock circ v).getD 0 = j, (E v).eval (ofU32 p) *
        ((y ((wireToBlock circ v).getD 0)).eval (ofU32 p) - (y' ((wireToBlock circ v).getD 0)).eval (ofU32 p))
        = (∑ v ∈ ws.toFinset with (wireToBlock circ v).getD 0 = j, (E v).eval (ofU32 p)) * ((y j).eval (ofU32 p) - (y' j).eval (ofU32 p)) := by
      intro j
      rw [Finset.sum_mul]
      refine Finset.sum_congr rfl fun v hv => ?_
      rw [(Finset.mem_filter.1 hv).2]
    rw [← Finset.sum_fiberwise_of_maps_to (s := ws.toFinset) (t := ws.toFinset.image fun w => (wireToBlock circ w).getD 0)
      (g := fun w => (wireToBlock circ w).getD 0) (fun w hw => Finset.mem_image_of_mem _ hw), Finset.sum_congr rfl fun j _ => hfib j,
      Finset.sum_eq_single_of_mem b (Finset.mem_image.2 ⟨x, List.mem_toFinset.2 hx, hxb⟩), mul_eq_zero] at hdiff
    swap
    · intro j hj hjb
      obtain ⟨v, hv, rfl⟩ := Finset.mem_image.1 hj
      rcases hother v (List.mem_toFinset.1 hv) hjb with h | h
      · rw [h, sub_self, mul_zero]
      · rw [h, zero_mul]
    exact sub_eq_zero.1 (hdiff.resolve_left hwt)
  obtain ⟨m1, m2, m3, m4, m5⟩ := y1 b hbl
  have hins : ∀ v ∈ insert p Cs, v < ctx.n := fun v hv => by
    rcases Finset.mem_insert.1 hv with rfl | hv
    · exact hpn
    · exact hC.parties v hv
  rcases hknown with hfull | ⟨hlead, hfree⟩
  · have hnd := (List.nodup_flatten.1 P.circ.nodup).1 _ hbm
    obtain ⟨T, t1, t2, t3⟩ := places (insert p Cs) hins bs hbm (bs.erase x) (hnd.erase x) fun u hu => List.mem_of_mem_erase hu
    rw [Finset.card_insert_of_notMem hhon, hcard, List.length_erase_of_mem hxm, hfull] at t2
    have heq : y b = y' b := by
      refine poly_unique T t1 (by omega) m1.deg m2.deg fun v hv => ?_
      rcases (t3 v).1 hv with hv | ⟨u, hu, rfl⟩
      · rcases Finset.mem_insert.1 hv with rfl | hv
        · exact hpx
        · exact m3 v hv
      · obtain ⟨hux, hu⟩ := (hnd.mem_erase_iff).1 hu
        obtain ⟨k, hk, rfl⟩ := List.mem_iff_getElem.1 hu
        have hd : circ.Drives b k bs[k] := ⟨_, hb, List.getElem?_eq_getElem hk⟩
        have h1 := m1.val k _ hd
        have h2 := m2.val k _ hd
        rw [hval b hbl k (by omega) (fun h => by
          obtain ⟨-, rfl⟩ := h
          exact hux hsx)] at h2
        rw [Nat.add_comm]
        exact h1.trans h2.symm
    have hd : circ.Drives b s x := ⟨bs, hb, hs⟩
    have h0 := m2.val s x hd
    rw [← heq, m1.val s x hd] at h0
    exact hdif h0.symm
  · obtain ⟨T, t1, t2, t3⟩ := slots (insert p Cs) hins ((Finset.range ctx.l).erase s) fun k hk => Finset.mem_range.1 (Finset.mem_of_mem_erase hk)
    rw [Finset.card_insert_of_notMem hhon, hcard, Finset.card_erase_of_mem (Finset.mem_range.2 hsl'), Finset.card_range] at t2
    obtain ⟨a1, a2⟩ := masks_poly w (b := b) (by omega)
    obtain ⟨b1, b2⟩ := masks_poly w' (b := b) (by omega)
    have heq : SharingsOf.poly w.masks b = SharingsOf.poly w'.masks b := by
      refine poly_unique T t1 (by omega) a1 b1 fun v hv => ?_
      rcases (t3 v).1 hv with hv | ⟨k, hk, rfl⟩
      · rcases Finset.mem_insert.1 hv with rfl | hv
        · have h1 := m5 bs hb hlead _ hfree
          rw [hpx] at h1
          linear_combination h1
        · exact m4 v hv
      · obtain ⟨hks, hk⟩ := Finset.mem_erase.1 hk
        have hk := Finset.mem_range.1 hk
        rw [a2 k hk, b2 k hk, hval b hbl k hk (fun h => hks h.2)]
    have h0 := b2 s hsl'
    rw [← heq, a2 s hsl'] at h0
    exact hdif h0.symm

/-- C89 is false.  Let a gate input which is not full read wires several times, with a corrupted leader, and let the blocks of the wires
be full, or have corrupted leaders and sufficiently many free places, or not contribute.  Then `t` corrupted parties learn about the masks: no bijection hides whether a certain mask is 0 or 1.  (One of the
corrupted parties has to be party `q` of the overlap of C88.) -/
theorem C89_garble_private_false {hash : List Nat → List Nat} {rng : List Nat → Nat → F} {ctx : Ctx F} {lpn : LpnParams}
    {circ : PackedCircuit} {g : GarbleCtx F} {tp : GarbleTapes F} {d : PreProcCount} {c : Codec F} {lead : ProtocolID → Nat}
    (P : GarbleParams hash rng ctx lpn circ g tp d) (hc : c.Ok) (hL : ∀ id, lead id < ctx.n) (Cs : Finset Nat)
    (hC : Coalition ctx Cs) (hcard : Cs.card = ctx.t) (id : ProtocolID) (i q : Nat) (ws : List Nat)
    (K : circ.LeakyInput ctx Cs i q ws) : ¬ GarblePrivate c ctx g lead tp d id Cs := by
  intro hpriv
  obtain ⟨b, s, hbl, hsl, seen⟩ := masks_seen P hc hL Cs hC hcard id i q ws K
  obtain ⟨d₀, hd₀, hdm, -⟩ := P.count
  obtain ⟨no, ni, -, -, e1, -⟩ := describe_eq hd₀
  -- all secrets are zero, but perhaps one mask
  let M : F → GarbleSecrets F := fun v => ⟨(List.range d.masks).map fun i => (List.range ctx.l).map fun k => if i = b ∧ k = s then v else 0,
    List.replicate d.numKeys (List.replicate ctx.l 0), List.replicate d.errors (List.replicate ctx.l 0)⟩
  have hM : ∀ v, (M v).Fit ctx.l d := fun v => ⟨⟨by simp [M], fun y hy => by
      obtain ⟨i, _, rfl⟩ := List.mem_map.1 hy
      simp⟩,
    ⟨by simp [M], fun y hy => by rw [List.eq_of_mem_replicate hy, List.length_replicate]⟩,
    ⟨by simp [M], fun y hy => by rw [List.eq_of_mem_replicate hy, List.length_replicate]⟩⟩
  have hval : ∀ v, ∀ j < circ.blocks.length, ∀ k < ctx.l, at2 (M v).masks j k = if j = b ∧ k = s then v else 0 := by
    intro v j hj k hk
    unfold at2
    rw [getD_tab _ _ _ (by omega), getD_tab _ _ _ hk]
  have z : ∀ {num : Nat} {x : List (List F)}, x.length = num → (∀ v ∈ x, v = List.replicate ctx.l 0) → Nonempty (SharingsOf ctx num x) := by
    intro num x hx hz
    refine ⟨fun i => ⟨0, by rw [degree_zero]; exact WithBot.bot_lt_coe _, ?_⟩⟩
    rw [List.getD_eq_getElem?_getD, List.getElem?_eq_getElem (show i.1 < x.length by omega), Option.getD_some, hz _ (List.getElem_mem _)]
    apply List.ext_getElem (by simp [defaultPos])
    intro k _ _
    simp
  obtain ⟨s1⟩ := z (num := d.masks) (x := (M 0).masks) (by simp [M]) (by
    intro v hv
    obtain ⟨i, _, rfl⟩ := List.mem_map.1 hv
    simp)
  obtain ⟨s2⟩ := z (num := d.numKeys) (x := (M 0).keys) (by simp [M]) (by intro v hv; exact List.eq_of_mem_replicate hv)
  obtain ⟨s3⟩ := z (num := d.errors) (x := (M 0).errors) (by simp [M]) (by intro v hv; exact List.eq_of_mem_replicate hv)
  let w : GarbleWorld ctx d (M 0) := ⟨s1, s2, s3, ⟨fun _ => ⟨0, by rw [degree_zero]; exact WithBot.bot_lt_coe _⟩,
    fun _ => ⟨0, by rw [degree_zero]; exact WithBot.bot_lt_coe _, fun _ _ => eval_zero⟩⟩⟩
  obtain ⟨e, he⟩ := hpriv (M 0) (M 1) (hM 0) (hM 1)
  exact seen _ _ (hM 0) (hM 1)
    (fun j hj k hk h => by rw [hval 0 j hj k hk, hval 1 j hj k hk, if_neg h, if_neg h])
    (by rw [hval 0 b hbl s hsl, hval 1 b hbl s hsl, if_pos ⟨rfl, rfl⟩, if_pos ⟨rfl, rfl⟩]; exact one_ne_zero) w (e w) (he w)

/-- 7 parties, threshold 1, three secrets, over GF(256). -/
theorem exCtx8_good : ∃ ctx : Ctx (GF 8), ctx.Good ∧ ctx.n = 7 ∧ ctx.t = 1 ∧ ctx.l = 3 := by
  have h1 : ∃ pss : PackedSharing (GF 8), PackedSharing.new (1 + 3 - 1) 7 (defaultPos 7 3) = some pss := by
    unfold PackedSharing.new; exact ⟨_, rfl⟩
  have h2 : ∃ pss : PackedSharing (GF 8), PackedSharing.new (7 - 1) 7 (defaultPos 7 3) = some pss := by
    unfold PackedSharing.new; exact ⟨_, rfl⟩
  obtain ⟨p, hp⟩ := h1
  obtain ⟨q, hq⟩ := h2
  refine ⟨⟨7, 1, 3, p, q⟩, ⟨hp, hq, by norm_num, ?_⟩, rfl, rfl, rfl⟩
  show 7 + 3 ≤ 2 ^ 8
  norm_num

/-- Two `XOR` gates which read the same wire, and two `AND` gates. -/
def exCirc4 : PackedCircuit where
  gates := [.xor ⟨#v[[0, 0], [1, 2]], [6, 7]⟩, .and ⟨#v[[3, 4], [5, 6]], [8, 9]⟩]
  inputs := [[0, 1, 2], [3, 4, 5]]
  outputs := [[8, 9]]
  numWires := 10
  gatesPerBlock := 3

theorem exCirc4_ok : exCirc4.Ok 3 := by
  constructor <;> decide

/-- With this circuit party 0 learns about the masks.  The identifiers, of which `garble` would else be short (C30), are not the
reason. -/
example : ∃ (ctx : Ctx (GF 8)) (g : GarbleCtx (GF 8)) (tp : GarbleTapes (GF 8)) (d : PreProcCount),
    GarbleParams id (fun _ _ => (1 : GF 8)) ctx ⟨1, 3⟩ exCirc4 g tp d ∧ Coalition ctx {0} ∧
    (garbleIdsOf [7] exCirc4.inputs.length ctx.l (exCirc4.gates.map PackedGate.kind)).isSome ∧
    ¬ GarblePrivate (gfCodec 8) ctx g (fun _ => 3) tp d [7] {0} := by
  obtain ⟨ctx, h2, h3, h4, h5⟩ := exCtx8_good
  have ho : CodeField.order (GF 8) = 256 := by
    show 2 ^ 8 = 256
    norm_num
  obtain ⟨g, tp, d, P⟩ := params_exist id (fun _ _ => (1 : GF 8)) h2 (by omega) (by omega) ⟨1, 3⟩ (c := exCirc4)
    (by rw [h5]; exact exCirc4_ok) (by rw [h3, h5, ho]; decide) (by rw [ho]; decide) (by rw [h3, h4]; decide) (by decide)
  have hC : Coalition ctx {0} := ⟨by simp; omega, by simp; omega⟩
  refine ⟨ctx, g, tp, d, P, hC, by rw [h5]; decide +kernel, ?_⟩
  exact C89_garble_private_false P (gfCodec_ok 8 (by norm_num)) (fun _ => by omega) {0} hC (by simp [h4]) [7] 0 0 [0, 0]
    ⟨by decide, by simp, by simp, by rw [h5]; decide, by decide, fun w hw b bs hb hm => Or.inl ((show ∀ w ∈ [0, 0], ∀ bs ∈ exCirc4.blocks, w ∈ bs → bs.length = ctx.l by rw [h5]; decide) w hw bs (List.mem_of_getElem? hb) hm)⟩

/-- Three `XOR` gates which read two wires, from different blocks, and two `AND` gates. -/
def exCirc5 : PackedCircuit where
  gates := [.xor ⟨#v[[0, 4, 0], [1, 2, 3]], [8, 9, 10]⟩, .and ⟨#v[[3, 4], [5, 6]], [11, 12]⟩]
  inputs := [[0, 1, 2, 3], [4, 5, 6, 7]]
  outputs := [[11, 12]]
  numWires := 13
  gatesPerBlock := 4

theorem exCirc5_ok : exCirc5.Ok 4 := by
  constructor <;> decide

/-- With this circuit party 0 learns about the masks, too. -/
example : ∃ (ctx : Ctx (GF 18)) (g : GarbleCtx (GF 18)) (tp : GarbleTapes (GF 18)) (d : PreProcCount),
    GarbleParams id (fun _ _ => (1 : GF 18)) ctx ⟨1, 3⟩ exCirc5 g tp d ∧ Coalition ctx {0} ∧
    ¬ GarblePrivate (gfCodec 18) ctx g (fun _ => 3) tp d [7] {0} := by
  obtain ⟨ctx, h2, h3, h4, h5⟩ : ∃ ctx : Ctx (GF 18), ctx.Good ∧ ctx.n = 9 ∧ ctx.t = 1 ∧ ctx.l = 4 := by
    have h1 : ∃ pss : PackedSharing (GF 18), PackedSharing.new (1 + 4 - 1) 9 (defaultPos 9 4) = some pss := by
      unfold PackedSharing.new; exact ⟨_, rfl⟩
    have h2 : ∃ pss : PackedSharing (GF 18), PackedSharing.new (9 - 1) 9 (defaultPos 9 4) = some pss := by
      unfold PackedSharing.new; exact ⟨_, rfl⟩
    obtain ⟨p, hp⟩ := h1
    obtain ⟨q, hq⟩ := h2
    refine ⟨⟨9, 1, 4, p, q⟩, ⟨hp, hq, by norm_num, ?_⟩, rfl, rfl, rfl⟩
    show 9 + 4 ≤ 2 ^ 18
    norm_num
  have ho : CodeField.order (GF 18) = 2 ^ 18 := rfl
  obtain ⟨g, tp, d, P⟩ := params_exist id (fun _ _ => (1 : GF 18)) h2 (by omega) (by omega) ⟨1, 3⟩ (c := exCirc5)
    (by rw [h5]; exact exCirc5_ok) (by rw [h3, h5, ho]; decide) (by rw [ho]; decide) (by rw [h3, h4]; decide) (by decide)
  have hC : Coalition ctx {0} := ⟨by simp; omega, by simp; omega⟩
  refine ⟨ctx, g, tp, d, P, hC, ?_⟩
  exact C89_garble_private_false P (gfCodec_ok 18 (by norm_num)) (fun _ => by omega) {0} hC (by simp [h4]) [7] 0 0 [0, 4, 0]
    ⟨by decide, by simp, by simp, by rw [h5]; decide, by decide, fun w hw b bs hb hm => Or.inl ((show ∀ w ∈ [0, 4, 0], ∀ bs ∈ exCirc5.blocks, w ∈ bs → bs.length = ctx.l by rw [h5]; decide) w hw bs (List.mem_of_getElem? hb) hm)⟩

/-- Two `XOR` gates and two `AND` gates of blocks which are not full. -/
def exCirc6 : PackedCircuit where
  gates := [.xor ⟨#v[[0, 0], [0, 1]], [2, 3]⟩, .and ⟨#v[[0, 2], [1, 3]], [4, 5]⟩]
  inputs := [[0, 1]]
  outputs := [[4, 5]]
  numWires := 6
  gatesPerBlock := 4

theorem exCirc6_ok : exCirc6.Ok 4 := by
  constructor <;> decide

/-- With this circuit party 0, which leads both the block and the gate input, learns about the masks, too. -/
example : ∃ (ctx : Ctx (GF 18)) (g : GarbleCtx (GF 18)) (tp : GarbleTapes (GF 18)) (d : PreProcCount),
    GarbleParams id (fun _ _ => (1 : GF 18)) ctx ⟨1, 3⟩ exCirc6 g tp d ∧ Coalition ctx {0} ∧
    ¬ GarblePrivate (gfCodec 18) ctx g (fun _ => 3) tp d [7] {0} := by
  obtain ⟨ctx, h2, h3, h4, h5⟩ : ∃ ctx : Ctx (GF 18), ctx.Good ∧ ctx.n = 9 ∧ ctx.t = 1 ∧ ctx.l = 4 := by
    have h1 : ∃ pss : PackedSharing (GF 18), PackedSharing.new (1 + 4 - 1) 9 (defaultPos 9 4) = some pss := by
      unfold PackedSharing.new; exact ⟨_, rfl⟩
    have h2 : ∃ pss : PackedSharing (GF 18), PackedSharing.new (9 - 1) 9 (defaultPos 9 4) = some pss := by
      unfold PackedSharing.new; exact ⟨_, rfl⟩
    obtain ⟨p, hp⟩ := h1
    obtain ⟨q, hq⟩ := h2
    refine ⟨⟨9, 1, 4, p, q⟩, ⟨hp, hq, by norm_num, ?_⟩, rfl, rfl, rfl⟩
    show 9 + 4 ≤ 2 ^ 18
    norm_num
  have ho : CodeField.order (GF 18) = 2 ^ 18 := rfl
  obtain ⟨g, tp, d, P⟩ := params_exist id (fun _ _ => (1 : GF 18)) h2 (by omega) (by omega) ⟨1, 3⟩ (c := exCirc6)
    (by rw [h5]; exact exCirc6_ok) (by rw [h3, h5, ho]; decide) (by rw [ho]; decide) (by rw [h3, h4]; decide) (by decide)
  have hC : Coalition ctx {0} := ⟨by simp; omega, by simp; omega⟩
  refine ⟨ctx, g, tp, d, P, hC, ?_⟩
  exact C89_garble_private_false P (gfCodec_ok 18 (by norm_num)) (fun _ => by omega) {0} hC (by simp [h4]) [7] 0 0 [0, 0]
    ⟨by decide, by simp, by simp, by rw [h5]; decide, by decide, by
      rw [h3, h5]
      have : ∀ w ∈ [0, 0], ∀ p ∈ exCirc6.blocks.zipIdx, w ∈ p.1 →
          p.1.length = 4 ∨ p.2 % 9 ∈ ({0} : Finset Nat) ∧ p.1.length + ([0, 0].length + 0 - [0, 0].toFinset.card) < 4 := by decide
      intro w hw b bs hb hm
      exact (this w hw (bs, b) (by rw [List.mem_zipIdx_iff_getElem?]; exact hb) hm).imp_right Or.inl⟩

end Verif.Props
