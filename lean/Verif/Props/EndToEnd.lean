import Verif.EndToEndLemmas
import Verif.Props.AsyncComm

/-!
# From the circuit file to the garbled circuit

`preproc` followed by `garble` with the material of `preproc`, for the circuit of a Bristol-fashion file.
-/

open Verif
open Verif.CodeField (ofU32)

namespace Verif.Props

section
variable {F : Type} [CodeField F] [DecidableEq F]

/-- C84, one call after the other.  For every proper circuit file, admissible parameters and all tapes: the file is parsed and packed,
`describe` and `GarbleContext::new` succeed, `preproc` with the described numbers succeeds, `garble` with the material of `preproc`
succeeds, and its tables contain every gate of the file, garbled. -/
theorem C84_sequential (ctx : Ctx F) (good : ctx.Good) (parties : ctx.t + 2 * ctx.l ≤ ctx.n) (mult : 2 * (ctx.t + ctx.l - 1) < ctx.n)
    (hash : List Nat → List Nat) (rng : List Nat → Nat → F) (lpn : LpnParams) (code : lpn.mssgLen < CodeField.order F)
    (d : BristolDesc) (hd : d.Proper) (cs : List Char) (hf : IsBristolFile d cs)
    (fit : ctx.n + ctx.l + d.numWires ≤ CodeField.order F) (m mb : Mat F) (hm : DealMat ctx.n m) (hmb : DealMat ctx.n mb)
    (hbin : mb.Binary) :
    ∃ circ p desc g, fromBristol cs = some circ ∧ circ.pack ctx.l = some p ∧ p.describe ctx.n ctx.t ctx.l lpn = some desc ∧
      GarbleCtx.new hash rng ctx lpn p = some g ∧
      ∀ (tp : PreTapes F), tp.Ok ctx.n ctx.t ctx.l m mb desc → ∀ (gtp : GarbleTapes F), gtp.Ok ctx g →
        ∃ pre tables st masks keys errors place mask, preproc ctx m mb desc tp = some pre ∧
          garble ctx g gtp pre = some (tables, st) ∧ pre.length = ctx.n ∧
          VecSharing ctx.n (ctx.t + ctx.l) (defaultPos ctx.n ctx.l) masks (pre.map (·.masks)) ∧
          VecSharing ctx.n (ctx.t + ctx.l) (defaultPos ctx.n ctx.l) keys (pre.map (·.keys.flat)) ∧
          VecSharing ctx.n (ctx.t + ctx.l) (defaultPos ctx.n ctx.l) errors (pre.map (·.errors)) ∧
          Places d p place ∧ GoodSecrets p masks errors place mask ∧
          ∀ results, (List.range ctx.n).mapM (fun i => tables.mapM fun T => T[i]?) = some results →
            ∀ gt ∈ d.gates, GarbledGate hash rng ctx lpn g.enc p masks keys errors place mask results gt := by
  obtain ⟨circ, hc, hwf, hgates, hnw, hinp⟩ := parse_proper hd hf
  obtain ⟨p, hp⟩ := Option.isSome_iff_exists.1 ((C23_pack_total circ ctx.l).2 (by have := good.posL; omega))
  have ok := pack_ok hwf hp
  have hfit : ∀ w ∈ p.blocks.flatten, ctx.n + ctx.l + w < CodeField.order F := by
    intro w hw
    have : w < d.numWires := by
      rw [← hnw]
      rcases (pack_wires hp w).1 hw with h | ⟨g, hg, rfl⟩
      · exact hwf.inRange w h
      · exact hwf.gateRange g hg
    omega
  obtain ⟨desc, hdesc⟩ := describe_some p ctx.n ctx.t ctx.l lpn good.posL
  obtain ⟨g, A, hnew, hspec⟩ := garbleCtx_new hash rng good lpn ok hfit code
  refine ⟨circ, p, desc, g, hc, hp, hdesc, hnew, fun tp htp gtp hgtp => ?_⟩
  obtain ⟨pre, masks, keys, randoms, errors, nz, h1, h2, h3, h4, h5, h6, h7, h8, h9, h10, h11, h12, h13, h14⟩ :=
    C50_preproc ctx good mult m mb hm hmb hbin desc tp htp
  obtain ⟨mbits, hmbits⟩ := maskBits_exist h5
  have s : Setup hash rng ctx lpn p g gtp pre masks keys errors randoms.length nz :=
    ⟨good, parties, mult, ok, hfit, code, hnew, hgtp,
      ⟨⟨desc, hdesc, h4, h8, h7, h10, h12, h14.ge⟩, h2, h3, h6, h13, ⟨randoms, h9, rfl⟩, h11⟩⟩
  obtain ⟨tables, st, t1, t2, t3⟩ := C66_shapes s
  obtain ⟨place, hplace⟩ := places_exist (p := p)
  have hml : masks.length = p.blocks.length := by
    obtain ⟨_, _, _, _, e1, _⟩ := describe_eq hdesc
    rw [h4, e1]
  refine ⟨pre, tables, st, masks, keys, errors, place, fun w => mbits (place w).1 (place w).2, h1, t1, h2, h3, h6, h13, ?_, ⟨?_, ?_⟩, ?_⟩
  · intro w hw
    refine hplace w ((pack_wires hp w).2 ?_)
    rw [hinp, hgates, List.mem_range]
    exact hw
  · intro w hw
    refine ⟨(hmbits _ _).1, (hmbits _ _).2 ?_⟩
    obtain ⟨ws, hws, _⟩ := hw
    have := (List.getElem?_eq_some_iff.1 hws).1
    omega
  · exact preproc_errors ctx good mult m mb hm hmb hbin desc tp htp pre h1 errors h13
  · intro results hres gt hgt
    refine garbled_gate s hwf hp t1 results ⟨?_, fun i hi => ?_⟩ place hplace mbits hmbits gt (by rw [hgates]; exact hgt)
    · rw [mapM_length hres, List.length_range]
    · have := mapM_get hres (List.getElem?_range hi)
      obtain ⟨mine, hmine⟩ : ∃ mine, results[i]? = some mine :=
        ⟨_, List.getElem?_eq_getElem (by rw [mapM_length hres, List.length_range]; exact hi)⟩
      exact ⟨mine, hmine, by rw [← this, hmine]⟩

/-- C84, over the TCP network.  If moreover the sizes of the messages fit the length fields and the IDs can be drawn (C30): in every
schedule of all tasks of the parties and of their networks, `preproc` ends, and all parties get the same material `pre` as in every
other schedule; `garble` with this material ends in every schedule; and the tables of all parties contain every gate of the file,
garbled. -/
theorem C84_tcp (c : Codec F) (hcodec : c.Ok) (B : Nat) (hB : 0 < B) (hwidth : c.Width B) (ctx : Ctx F) (good : ctx.Good)
    (parties : ctx.t + 2 * ctx.l ≤ ctx.n) (mult : 2 * (ctx.t + ctx.l - 1) < ctx.n) (hn : ctx.n < 2 ^ 32)
    (hash : List Nat → List Nat) (rng : List Nat → Nat → F) (lpn : LpnParams) (code : lpn.mssgLen < CodeField.order F)
    (hb : B * (2 * ((ctx.n + ctx.t) * (2 * lpn.keyLen + 1))) < 2 ^ 63) (hK : B * (3 * (lpn.keyLen + 1)) < 2 ^ 63)
    (d : BristolDesc) (hd : d.Proper) (cs : List Char) (hf : IsBristolFile d cs)
    (fit : ctx.n + ctx.l + d.numWires ≤ CodeField.order F) (m mb : Mat F) (hm : DealMat ctx.n m) (hmb : DealMat ctx.n mb)
    (hbin : mb.Binary) (seahash : List Nat → Nat) (lead : ProtocolID → Nat)
    (hlead : ∀ id, chooseLeader seahash id none ctx.n = some (lead id)) (id id' : ProtocolID) (hid : id.length ≤ 250)
    (hid' : id'.length ≤ 239) :
    ∃ circ p desc g, fromBristol cs = some circ ∧ circ.pack ctx.l = some p ∧ p.describe ctx.n ctx.t ctx.l lpn = some desc ∧
      GarbleCtx.new hash rng ctx lpn p = some g ∧
      (B * (desc.numKeys + desc.randoms + 3 * desc.errors) < 2 ^ 63 → B * (desc.zeros + 2 * desc.errors) < 2 ^ 63 →
        B * (desc.masks + 2 * desc.errors) < 2 ^ 63 →
        (garbleIdsOf id' p.inputs.length ctx.l (p.gates.map PackedGate.kind)).isSome →
        ∀ (tp : PreTapes F), tp.Ok ctx.n ctx.t ctx.l m mb desc → ∀ (gtp : GarbleTapes F), gtp.Ok ctx g →
          ∃ jobs outs pre jobs' outs' masks keys errors place mask,
            preprocJobs c ctx m mb desc tp id = some jobs ∧ NetScheduleFree ctx.n jobs outs ∧
            (∀ (es : List FStep) (f : Full (List F)), (Full.start ctx.n).run ctx.n jobs es = some f → f.Stuck ctx.n jobs →
              (List.range ctx.n).mapM (fun i => preprocResult desc ctx.n (f.env i)) = some pre) ∧
            VecSharing ctx.n (ctx.t + ctx.l) (defaultPos ctx.n ctx.l) masks (pre.map (·.masks)) ∧
            VecSharing ctx.n (ctx.t + ctx.l) (defaultPos ctx.n ctx.l) keys (pre.map (·.keys.flat)) ∧
            VecSharing ctx.n (ctx.t + ctx.l) (defaultPos ctx.n ctx.l) errors (pre.map (·.errors)) ∧
            Places d p place ∧ GoodSecrets p masks errors place mask ∧
            garbleJobs c ctx g lead gtp pre id' = some jobs' ∧ NetScheduleFree ctx.n jobs' outs' ∧
            ∀ (es : List FStep) (f : Full (GOut F)), (Full.start ctx.n).run ctx.n jobs' es = some f → f.Stuck ctx.n jobs' →
              ∃ results, (List.range ctx.n).mapM (fun i => (pre[i]?).bind fun pr => garbleResult ctx g i pr (f.env i)) = some results ∧
                ∀ gt ∈ d.gates, GarbledGate hash rng ctx lpn g.enc p masks keys errors place mask results gt) := by
  obtain ⟨circ, p, desc, g, h1, h2, h3, h4, h5⟩ :=
    C84_sequential ctx good parties mult hash rng lpn code d hd cs hf fit m mb hm hmb hbin
  refine ⟨circ, p, desc, g, h1, h2, h3, h4, fun hr hz hbits hids tp htp gtp hgtp => ?_⟩
  obtain ⟨pre, tables, st, masks, keys, errors, place, mask, k1, k2, k3, k4, k5, k6, k7, k8, k9⟩ := h5 tp htp gtp hgtp
  obtain ⟨ids, hids⟩ := Option.isSome_iff_exists.1 hids
  obtain ⟨jobs, outs, j1, j2, j3⟩ := C83_preproc c hcodec B hB hwidth ctx hn m mb desc hr hz hbits tp id hid pre k1
  obtain ⟨jobs', outs', l1, l2, l3⟩ := C83_garble c hcodec B hB hwidth ctx hash rng lpn p g h4 seahash lead hlead gtp pre k3 hb hK id'
    hid' ids hids tables st k2
  refine ⟨jobs, outs, pre, jobs', outs', masks, keys, errors, place, mask, j1, j2, fun es f hrun hst => (j3 es f hrun hst).1, k4, k5,
    k6, k7, k8, l1, l2, fun es f hrun hst => ?_⟩
  have hmine : ∀ i, ∃ mine, i < ctx.n → ((pre[i]?).bind fun pr => garbleResult ctx g i pr (f.env i)) = some mine ∧
      tables.mapM (fun T => T[i]?) = some mine := by
    intro i
    by_cases hi : i < ctx.n
    · obtain ⟨pr, mine, e1, e2, e3⟩ := (l3 es f hrun hst).1 i hi
      exact ⟨mine, fun _ => ⟨by rw [e1, Option.bind_some, e2], e3⟩⟩
    · exact ⟨[], fun h => absurd h hi⟩
  choose mine hmine using hmine
  exact ⟨(List.range ctx.n).map mine, mapM_range_some _ _ _ fun i hi => (hmine i hi).1,
    k9 _ (mapM_range_some _ _ _ fun i hi => (hmine i hi).2)⟩

end

/-- The half adder of C21: two inputs, a sum and a carry. -/
theorem halfAdder_proper : halfAdder.Proper := by
  refine ⟨halfAdder_valid, ?_, ?_⟩
  · simp [Topological, halfAdder, Gate.inWires, Gate.outWire, List.range_succ]
  · intro w h1 h2
    simp [halfAdder] at h1 h2
    interval_cases w
    · exact Or.inr ⟨_, List.mem_cons_self, rfl⟩
    · exact Or.inr ⟨_, List.mem_cons_of_mem _ List.mem_cons_self, rfl⟩

/-- The matrix of the examples: 7 parties, two rows. -/
noncomputable def exDeal : Mat (GF 4) := ⟨7, [[1, 0, 1, 0, 0, 0, 1], [0, 1, 1, 1, 0, 0, 0]]⟩

theorem exDeal_ok : DealMat 7 exDeal ∧ exDeal.Binary := by
  refine ⟨⟨?_, rfl, by simp [exDeal]⟩, ?_⟩
  · intro r hr
    simp only [exDeal, List.mem_cons, List.not_mem_nil, or_false] at hr
    rcases hr with rfl | rfl <;> rfl
  · intro r hr x hx
    simp only [exDeal, List.mem_cons, List.not_mem_nil, or_false] at hr
    rcases hr with rfl | rfl <;> simp at hx <;> tauto

/-- Seven parties garble the half adder over GF(16): every schedule of `preproc` and `garble` over the TCP network ends with tables
which contain the XOR gate and the AND gate of the file. -/
example : ∃ ctx p g pre jobs' outs' masks keys errors place mask gtp, exCtx = some ctx ∧
    garbleJobs (gfCodec 4) ctx g (fun id => id.sum % 7) gtp pre [8] = some jobs' ∧ NetScheduleFree 7 jobs' outs' ∧
    GoodSecrets p masks errors place mask ∧ Places halfAdder p place ∧
    ∀ (es : List FStep) (f : Full (GOut (GF 4))), (Full.start 7).run 7 jobs' es = some f → f.Stuck 7 jobs' →
      ∃ results, (List.range 7).mapM (fun i => (pre[i]?).bind fun pr => garbleResult ctx g i pr (f.env i)) = some results ∧
        GarbledGate id (fun _ _ => (1 : GF 4)) ctx ⟨1, 3⟩ g.enc p masks keys errors place mask results (.xor ⟨#v[0, 1], 2⟩) ∧
        GarbledGate id (fun _ _ => (1 : GF 4)) ctx ⟨1, 3⟩ g.enc p masks keys errors place mask results (.and ⟨#v[0, 1], 3⟩) := by
  obtain ⟨ctx, hctx, hg, hn, ht, hl⟩ := exCtx_good
  have ho : CodeField.order (GF 4) = 16 := by
    show 2 ^ 4 = 16
    norm_num
  obtain ⟨circ, p, desc, g, h1, h2, h3, h4, h5⟩ := C84_tcp (gfCodec 4) (C45_codec 4 (by norm_num)) 1 (by norm_num)
    (gfCodec_width (W := 4) (by norm_num)) ctx hg (by omega) (by omega) (by omega) id (fun _ _ => (1 : GF 4)) ⟨1, 3⟩
    (by rw [ho]; decide) (by rw [hn, ht]; decide) (by decide) halfAdder halfAdder_proper (printBristol halfAdder)
    (C21_printed_is_file _) (by rw [hn, hl, ho]; decide) exDeal exDeal (by rw [hn]; exact exDeal_ok.1) (by rw [hn]; exact exDeal_ok.1)
    exDeal_ok.2 List.sum (fun id => id.sum % 7)
    (fun id => by
      unfold chooseLeader leaderFromProtoId
      have := Nat.mod_lt id.sum (show 7 > 0 by omega)
      simp only [hn]
      rw [if_neg (by omega), if_pos (by omega)])
    [9] [8] (by decide) (by decide)
  have e1 : circ = ⟨halfAdder.gates, [[0], [1]], [[3], [2]], 4⟩ := by
    have : fromBristol (printBristol halfAdder) = some ⟨halfAdder.gates, [[0], [1]], [[3], [2]], 4⟩ := by decide +kernel
    rw [h1, Option.some.injEq] at this
    exact this
  have e2 : p = ⟨[.and ⟨#v[[0], [1]], [3]⟩, .xor ⟨#v[[0], [1]], [2]⟩], [[0, 1]], [[3, 2]], 4, 2⟩ := by
    have : (⟨halfAdder.gates, [[0], [1]], [[3], [2]], 4⟩ : Circuit).pack 2
        = some ⟨[.and ⟨#v[[0], [1]], [3]⟩, .xor ⟨#v[[0], [1]], [2]⟩], [[0, 1]], [[3, 2]], 4, 2⟩ := by decide +kernel
    rw [e1, hl, this, Option.some.injEq] at h2
    exact h2.symm
  have e3 : desc = ⟨3, (2, 1, 3), 117, 177, 24⟩ := by
    rw [e2, hn, ht, hl] at h3
    have : PackedCircuit.describe ⟨[.and ⟨#v[[0], [1]], [3]⟩, .xor ⟨#v[[0], [1]], [2]⟩], [[0, 1]], [[3, 2]], 4, 2⟩ 7 2 2 ⟨1, 3⟩
        = some ⟨3, (2, 1, 3), 117, 177, 24⟩ := by decide +kernel
    rw [h3, Option.some.injEq] at this
    exact this
  obtain ⟨tp, htp⟩ := preTapes_exist ctx.n ctx.t ctx.l exDeal exDeal (by simp [exDeal]) (by simp [exDeal]) desc
  obtain ⟨gtp, hgtp⟩ := garbleTapes_exist ctx g
  obtain ⟨_, _, pre, jobs', outs', masks, keys, errors, place, mask, _, _, _, _, _, _, k1, k2, k3, k4, k5⟩ :=
    h5 (by rw [e3]; decide) (by rw [e3]; decide) (by rw [e3]; decide) (by rw [e2, hl]; decide +kernel) tp htp gtp hgtp
  rw [hn] at k4 k5
  refine ⟨ctx, p, g, pre, jobs', outs', masks, keys, errors, place, mask, gtp, hctx, k3, k4, k2, k1, fun es f hrun hst => ?_⟩
  obtain ⟨results, r1, r2⟩ := k5 es f hrun hst
  exact ⟨results, r1, r2 _ List.mem_cons_self, r2 _ (List.mem_cons_of_mem _ List.mem_cons_self)⟩

end Verif.Props
