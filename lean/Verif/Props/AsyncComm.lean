import Verif.AsyncCommLemmas
import Verif.Props.AsyncNet
import Verif.Props.AsyncRun

/-!
# The amount of communication of `preproc` and `garble`

The numbers of bytes which `src/protocol/network.rs` counts when `preproc` and `garble` run as concurrent tasks over the TCP
network, in every schedule.
-/

open Verif

namespace Verif.Props

section
variable {F : Type} [CodeField F] [DecidableEq F]

/-- The jobs of `preproc`, their sequential execution, and the bytes of their messages. -/
theorem preproc_net (c : Codec F) (hc : c.Ok) (B : Nat) (hB : 0 < B) (hw : c.Width B) (ctx : Ctx F) (hn : ctx.n < 2 ^ 32)
    (m mb : Mat F) (desc : PreProcCount) (hr : B * (desc.numKeys + desc.randoms + 3 * desc.errors) < 2 ^ 63)
    (hz : B * (desc.zeros + 2 * desc.errors) < 2 ^ 63) (hb : B * (desc.masks + 2 * desc.errors) < 2 ^ 63) (tp : PreTapes F)
    (id : ProtocolID) (hid : id.length ≤ 250) (res : List (PreProc F)) (h : preproc ctx m mb desc tp = some res) :
    ∃ jobs outs, preprocJobs c ctx m mb desc tp id = some jobs ∧ seqRun ctx.n jobs = some outs ∧ IdsOk jobs ∧
      SizesOk ctx.n jobs outs ∧ jobs.length = 3 + 2 * ctx.n ∧
      (∀ job ∈ jobs, job.id.length ≤ id.length + 5) ∧
      (∀ env : Nat → Env (List F), (∀ p < ctx.n, ∀ j < jobs.length, env p j = outsEnv outs p j) →
        (List.range ctx.n).mapM (fun p => preprocResult desc ctx.n (env p)) = some res) ∧
      ∀ p < ctx.n, ∀ q < ctx.n, ∑ j ∈ Finset.range jobs.length, jobBytes ctx.n jobs outs p q j
        = preprocBytes ctx.n B m.rows.length mb.rows.length id.length desc p q := by
  have hle : ∀ x, B * x < 2 ^ 63 → x < 2 ^ 64 := by
    intro x hx
    have := Nat.le_mul_of_pos_left x hB
    omega
  obtain ⟨ids, hids⟩ := Option.isSome_iff_exists.1 (C30_preproc id ctx.n hn)
  obtain ⟨hnd, hlen, _⟩ := C29_preproc_distinct id ctx.n ids hids
  obtain ⟨jobs, outs, h1, h2, h3, h4, h5⟩ := preproc_seq hc ctx m mb desc tp id ids hids hlen (hle _ hr) (hle _ hz) (hle _ hb) res h
  have hjl : jobs.length = 3 + 2 * ctx.n := by rw [← hlen, ← h2, List.length_map]
  have hid5 : ∀ job ∈ jobs, job.id.length ≤ id.length + 5 := by
    intro job hjob
    have e1 := preprocIds_short hids job.id (by rw [← h2]; exact List.mem_map_of_mem hjob)
    have e2 := suffixLen_le (num := 4 + 2 * ctx.n) (k := 5) (by omega)
    omega
  have hidl : ∀ job ∈ jobs, job.id.length ≤ 255 := fun job hjob => (hid5 job hjob).trans (by omega)
  have hidsok : IdsOk jobs := idsOk_of_nodup jobs (by rw [h2]; exact hnd)
  by_cases hn0 : ctx.n = 0
  · refine ⟨jobs, outs, h1, h3, hidsok, fun job hjob => ⟨hidl job hjob, fun p hp => by omega⟩, hjl, hid5, ?_, fun p hp => by omega⟩
    intro env henv
    rw [hn0] at h4 ⊢
    rw [List.length_eq_zero_iff] at h4
    rw [h4]
    rfl
  -- the numbers of batches
  have hpre := h1
  unfold preprocJobs at hpre
  rw [hids, Option.bind_some] at hpre
  obtain ⟨br, hbr, hpre⟩ := Option.bind_eq_some_iff.1 hpre
  obtain ⟨bz, hbz, hpre⟩ := Option.bind_eq_some_iff.1 hpre
  obtain ⟨bb, hbb, _⟩ := Option.map_eq_some_iff.1 hpre
  have hsz : errorBatches desc.errors ctx.n
      = some (List.replicate (ctx.n - 1) (desc.errors / ctx.n) ++ [desc.errors - (ctx.n - 1) * (desc.errors / ctx.n)]) := by
    unfold errorBatches
    rw [if_neg hn0]
  have hfol := preproc_follows hw h1 hjl h3 hbr hbz hbb hsz
  have hszl := errorBatches_length hsz
  generalize hS : List.replicate (ctx.n - 1) (desc.errors / ctx.n) ++ [desc.errors - (ctx.n - 1) * (desc.errors / ctx.n)] = sizes
    at hsz hfol hszl
  have hsle : ∀ x ∈ sizes, x ≤ desc.errors := by
    intro x hx
    rw [← hS] at hx
    rcases List.mem_append.1 hx with hx | hx
    · rw [List.eq_of_mem_replicate hx]
      exact Nat.div_le_self _ _
    · rw [List.mem_singleton.1 hx]
      omega
  have hbig : ∀ x y, B * y < 2 ^ 63 → x ≤ y → 8 + B * x + 256 < 2 ^ 64 := by
    intro x y hy hxy
    have := Nat.mul_le_mul_left B hxy
    omega
  have hsizes : SizesOk ctx.n jobs outs := by
    refine hfol.sizesOk hidl fun s hs p q k hk => ?_
    unfold preprocPatterns at hs
    rcases List.mem_append.1 hs with hs | hs
    · simp only [List.mem_cons, List.not_mem_nil, or_false] at hs
      rcases hs with rfl | rfl | rfl <;> rw [List.mem_singleton.1 hk]
      · exact hbig _ _ hr (numBatches_le hbr)
      · exact hbig _ _ hz (numBatches_le hbz)
      · exact hbig _ _ hb (numBatches_le hbb)
    · obtain ⟨a, ha, hs⟩ := List.mem_flatMap.1 hs
      have ha' := hsle a.1 (List.mem_of_getElem? (List.mem_zipIdx_iff_getElem?.1 ha))
      have hk' : k = a.1 := by
        simp only [List.mem_cons, List.not_mem_nil, or_false, or_self] at hs
        rw [hs] at hk
        simp only [Pattern.elems, List.mem_append] at hk
        rcases hk with hk | hk
        · split at hk
          · exact List.mem_singleton.1 hk
          · cases hk
        · split at hk
          · exact List.mem_singleton.1 hk
          · cases hk
      rw [hk']
      exact hbig _ _ hz (by omega)
  refine ⟨jobs, outs, h1, h3, hidsok, hsizes, hjl, hid5, fun env henv => ?_, fun p hp q hq => ?_⟩
  · obtain ⟨d⟩ : Nonempty (PreProc F) := ⟨res[0]'(by omega)⟩
    have hres := range_getD res d
    rw [h4] at hres
    rw [hres]
    refine mapM_range_some _ _ _ fun p hp => ?_
    rw [preprocResult_congr (env' := outsEnv outs p) (fun j hj => henv p hp j (by omega)), h5 p hp,
      List.getElem?_eq_getElem (by omega), List.getD_eq_getElem?_getD, List.getElem?_eq_getElem (by omega), Option.getD_some]
  · have hget : ∀ p (hp : p < ctx.n), sizes[p]'(by omega) = errShare desc.errors ctx.n p := by
      intro p hp
      unfold errShare
      subst hS
      split
      · next hlt =>
        rw [List.getElem_append_left (by simp; omega), List.getElem_replicate]
      · next hge =>
        rw [List.getElem_append_right (by simp; omega)]
        simp
    have hbat : ∀ {num k b : Nat}, numBatches num k = some b → b = (num + k - 1) / k := by
      intro num k b hb
      unfold numBatches at hb
      split at hb
      · cases hb
      · exact (Option.some.inj hb).symm
    rw [hfol.sum hp hq, preprocIds_lens hids h2, ← hfol.1,
      zip_replicate_map]
    simp only []
    rw [preproc_sum B _ br bz bb sizes p q (by omega) (by omega), hget p hp, hget q hq, hbat hbr, hbat hbz, hbat hbb]
    rfl

/-- C83, `preproc` over the TCP network.  If the sequential description of `preproc` succeeds, then in every schedule of the
parties' tasks and of their networks `preproc` ends with the results of the sequential description, and each party `q` has
counted from each party `p` exactly the bytes given by the formula: seven messages with 8 bytes each in front, `B` bytes for each
field element, and the IDs. -/
theorem C83_preproc (c : Codec F) (hc : c.Ok) (B : Nat) (hB : 0 < B) (hw : c.Width B) (ctx : Ctx F) (hn : ctx.n < 2 ^ 32)
    (m mb : Mat F) (desc : PreProcCount) (hr : B * (desc.numKeys + desc.randoms + 3 * desc.errors) < 2 ^ 63)
    (hz : B * (desc.zeros + 2 * desc.errors) < 2 ^ 63) (hb : B * (desc.masks + 2 * desc.errors) < 2 ^ 63) (tp : PreTapes F)
    (id : ProtocolID) (hid : id.length ≤ 250) (res : List (PreProc F)) (h : preproc ctx m mb desc tp = some res) :
    ∃ jobs outs, preprocJobs c ctx m mb desc tp id = some jobs ∧ NetScheduleFree ctx.n jobs outs ∧
      ∀ (es : List FStep) (f : Full (List F)), (Full.start ctx.n).run ctx.n jobs es = some f → f.Stuck ctx.n jobs →
        (List.range ctx.n).mapM (fun p => preprocResult desc ctx.n (f.env p)) = some res ∧
        ∀ p < ctx.n, ∀ q < ctx.n, ∃ elems,
          elems = (desc.numKeys + desc.randoms + 3 * desc.errors + m.rows.length - 1) / m.rows.length
            + (desc.zeros + 2 * desc.errors + m.rows.length - 1) / m.rows.length
            + (desc.masks + 2 * desc.errors + mb.rows.length - 1) / mb.rows.length
            + 2 * errShare desc.errors ctx.n p + 2 * errShare desc.errors ctx.n q ∧
          (f.stats q)[p]? = some (56 + B * elems, 56 + B * elems + 7 * (id.length + idBytes (4 + 2 * ctx.n))) := by
  obtain ⟨jobs, outs, h1, h2, h3, h4, _, _, h5, h6⟩ := preproc_net c hc B hB hw ctx hn m mb desc hr hz hb tp id hid res h
  have hfree := C81_tcp ctx.n jobs outs h2 h3 h4
  refine ⟨jobs, outs, h1, hfree, fun es f hrun hst =>
    ⟨h5 (fun p => f.env p) fun p hp j hj => hfree.env hrun hst hp hj, fun p hp q hq => ⟨_, rfl, ?_⟩⟩⟩
  rw [C82_total ctx.n jobs outs h2 h3 h4 ⟨[]⟩ es f hrun hst q p hq hp, h6 p hp q hq]
  rfl

/-- The jobs of `garble`, their sequential execution, and the bytes of their messages. -/
theorem garble_net (c : Codec F) (hc : c.Ok) (B : Nat) (hB : 0 < B) (hw : c.Width B) (ctx : Ctx F)
    (hash : List Nat → List Nat) (rng : List Nat → Nat → F) (lpn : LpnParams) (circ : PackedCircuit) (g : GarbleCtx F)
    (hnew : GarbleCtx.new hash rng ctx lpn circ = some g) (seahash : List Nat → Nat) (lead : ProtocolID → Nat)
    (hlead : ∀ id, chooseLeader seahash id none ctx.n = some (lead id)) (tp : GarbleTapes F) (pre : List (PreProc F))
    (hpre : pre.length = ctx.n) (hb : B * (2 * ((ctx.n + ctx.t) * (2 * lpn.keyLen + 1))) < 2 ^ 63)
    (hK : B * (3 * (lpn.keyLen + 1)) < 2 ^ 63) (id : ProtocolID) (hid : id.length ≤ 239) (ids : List ProtocolID)
    (hids : garbleIdsOf id circ.inputs.length ctx.l (circ.gates.map PackedGate.kind) = some ids)
    (tables : List (List (List (List F)))) (st : GarbleState F) (h : garble ctx g tp pre = some (tables, st)) :
    ∃ jobs outs, garbleJobs c ctx g lead tp pre id = some jobs ∧ jobs.map (·.id) = ids ∧ seqRun ctx.n jobs = some outs ∧
      IdsOk jobs ∧ SizesOk ctx.n jobs outs ∧
      (∀ p < ctx.n, ∀ env : Env (GOut F), (∀ j < jobs.length, env j = outsEnv outs p j) →
        ∃ pr mine, pre[p]? = some pr ∧ garbleResult ctx g p pr env = some mine ∧ tables.mapM (fun T => T[p]?) = some mine) ∧
      ∀ p < ctx.n, ∀ q < ctx.n, ∑ j ∈ Finset.range jobs.length, jobBytes ctx.n jobs outs p q j
        = ((ids.zip (garblePatterns ctx.n ctx.l lpn.keyLen (circ.inputs.length + circ.gates.length)
            (circ.gates.flatMap PackedGate.inps).length (circ.gates.map PackedGate.kind) lead)).map
              fun x => (x.2 x.1).bytes B x.1.length p q).sum := by
  have hle : ∀ x, B * x < 2 ^ 63 → x < 2 ^ 64 := by
    intro x hx
    have := Nat.le_mul_of_pos_left x hB
    omega
  obtain ⟨jobs, outs, h1, h2, h3, h4⟩ := garble_jobs_seq c hc ctx hash rng lpn circ g hnew seahash lead hlead tp pre hpre
    (hle _ hb) (hle _ hK) id ids hids tables st h
  have hn0 := (chooseLeader_lt hlead).1
  have hidsok : IdsOk jobs := idsOk_of_nodup jobs (by rw [h2]; exact (C29_garble_distinct id _ _ _ ids hids).1)
  unfold GarbleCtx.new at hnew
  obtain ⟨tout, n1, hnew⟩ := Option.bind_eq_some_iff.1 hnew
  obtain ⟨tinp, n2, hnew⟩ := Option.bind_eq_some_iff.1 hnew
  obtain ⟨enc, n3, hnew⟩ := Option.bind_eq_some_iff.1 hnew
  obtain ⟨nl, n4, hnew⟩ := Option.bind_eq_some_iff.1 hnew
  obtain ⟨mats, n5, hnew⟩ := Option.map_eq_some_iff.1 hnew
  have m1 : g.circ = circ := by rw [← hnew]
  have m2 : g.lpn = lpn := by rw [← hnew]
  have m3 : g.tfOut.length = circ.inputs.length + circ.gates.length := by
    rw [← hnew]
    unfold Verif.tfOut at n1
    simp only [mapM_length n1, PackedCircuit.blocks, List.length_append, List.length_map]
  have m4 : g.tfInp.length = (circ.gates.flatMap PackedGate.inps).length := by
    rw [← hnew]
    unfold Verif.tfInp at n2
    simp only [mapM_length n2]
  have hfol := garble_follows hw h (by rw [m1]; exact hids) h1 h3
  rw [m1, m2, m3, m4] at hfol
  have hlens := garbleIdsOf_lens hids
  have hidl : ∀ job ∈ jobs, job.id.length ≤ 255 := by
    intro job hjob
    have := garbleIds_le hids job.id (by rw [← h2]; exact List.mem_map_of_mem hjob)
    omega
  have hbig : ∀ x y, B * y < 2 ^ 63 → x ≤ y → 8 + B * x + 256 < 2 ^ 64 := by
    intro x y hy hxy
    have := Nat.mul_le_mul_left B hxy
    omega
  have h2k : 2 * (2 * lpn.keyLen + 1) ≤ 2 * ((ctx.n + ctx.t) * (2 * lpn.keyLen + 1)) :=
    Nat.mul_le_mul_left _ (Nat.le_mul_of_pos_left _ (by omega))
  have hsizes : SizesOk ctx.n jobs outs := by
    refine hfol.sizesOk hidl fun s hs p q k hk => ?_
    obtain ⟨x, hx, rfl⟩ := List.mem_map.1 hs
    rcases garblePatterns_elems x.2 (List.of_mem_zip hx).2 x.1 p q k hk with hk | hk
    · exact hbig _ _ hb (hk.trans h2k)
    · exact hbig _ _ hK hk
  refine ⟨jobs, outs, h1, h2, h3, hidsok, hsizes, h4, fun p hp q hq => ?_⟩
  rw [hfol.sum hp hq, show jobs.map (·.id.length) = ids.map List.length by rw [← h2, List.map_map]; rfl, zip_map_apply]

/-- C83, `garble` over the TCP network.  If the sequential description of `garble` succeeds and the protocol IDs can be drawn, then
in every schedule of the parties' tasks and of their networks `garble` ends, each party gets its tables of the sequential
description, and each party `q` has counted from each party `p` exactly the bytes of the patterns: they depend only on the
sizes, the IDs and the leaders, and not on the schedule, the inputs or the random choices. -/
theorem C83_garble (c : Codec F) (hc : c.Ok) (B : Nat) (hB : 0 < B) (hw : c.Width B) (ctx : Ctx F)
    (hash : List Nat → List Nat) (rng : List Nat → Nat → F) (lpn : LpnParams) (circ : PackedCircuit) (g : GarbleCtx F)
    (hnew : GarbleCtx.new hash rng ctx lpn circ = some g) (seahash : List Nat → Nat) (lead : ProtocolID → Nat)
    (hlead : ∀ id, chooseLeader seahash id none ctx.n = some (lead id)) (tp : GarbleTapes F) (pre : List (PreProc F))
    (hpre : pre.length = ctx.n) (hb : B * (2 * ((ctx.n + ctx.t) * (2 * lpn.keyLen + 1))) < 2 ^ 63)
    (hK : B * (3 * (lpn.keyLen + 1)) < 2 ^ 63) (id : ProtocolID) (hid : id.length ≤ 239) (ids : List ProtocolID)
    (hids : garbleIdsOf id circ.inputs.length ctx.l (circ.gates.map PackedGate.kind) = some ids)
    (tables : List (List (List (List F)))) (st : GarbleState F) (h : garble ctx g tp pre = some (tables, st)) :
    ∃ jobs outs, garbleJobs c ctx g lead tp pre id = some jobs ∧ NetScheduleFree ctx.n jobs outs ∧
      ∀ (es : List FStep) (f : Full (GOut F)), (Full.start ctx.n).run ctx.n jobs es = some f → f.Stuck ctx.n jobs →
        (∀ p < ctx.n, ∃ pr mine, pre[p]? = some pr ∧ garbleResult ctx g p pr (f.env p) = some mine ∧
          tables.mapM (fun T => T[p]?) = some mine) ∧
        ∀ p < ctx.n, ∀ q < ctx.n, (f.stats q)[p]? = some
          ((ids.zip (garblePatterns ctx.n ctx.l lpn.keyLen (circ.inputs.length + circ.gates.length)
            (circ.gates.flatMap PackedGate.inps).length (circ.gates.map PackedGate.kind) lead)).map
              fun x => (x.2 x.1).bytes B x.1.length p q).sum := by
  obtain ⟨jobs, outs, h1, _, h2, h3, h4, h5, h6⟩ := garble_net c hc B hB hw ctx hash rng lpn circ g hnew seahash lead hlead tp pre hpre hb
    hK id hid ids hids tables st h
  have hfree := C81_tcp ctx.n jobs outs h2 h3 h4
  refine ⟨jobs, outs, h1, hfree, fun es f hrun hst =>
    ⟨fun p hp => h5 p hp _ fun j hj => hfree.env hrun hst hp hj, fun p hp q hq => ?_⟩⟩
  rw [C82_total ctx.n jobs outs h2 h3 h4 ⟨.vec []⟩ es f hrun hst q p hq hp, h6 p hp q hq]

/-- C83, the communication of all parties.  The sum over all pairs of parties, including the messages of parties to themselves:
`⌈W/l⌉ + ⌈I/l⌉` random transformations, `W + I` transformations, where `W` is the number of blocks and `I` the number of gate
inputs, and the multiplications of the gates. -/
theorem C83_garble_total (n l B K a nOut nInp : Nat) (kinds : List GateKind) (lead : ProtocolID → Nat) (hn : 0 < n)
    (hlead : ∀ id, lead id < n) (ids : List ProtocolID) (hids : ids.map List.length = garbleIdLens a l nOut nInp kinds) :
    ∑ p ∈ Finset.range n, ∑ q ∈ Finset.range n,
        ((ids.zip (garblePatterns n l K nOut nInp kinds lead)).map fun x => (x.2 x.1).bytes B x.1.length p q).sum
      = garbleBytes n l B K a nOut nInp kinds := by
  unfold garbleBytes
  rw [← garble_sum n l B K a nOut nInp kinds lead ids hids]
  simp only [sum_map_apply]
  refine congrArg List.sum (List.map_congr_left fun x hx => ?_)
  exact Pattern.sum_bytes n B _ _ fun L k hL => garblePatterns_leader hn hlead x.2 (List.of_mem_zip hx).2 x.1 L k hL

/-- C83, both together: in every schedule of `garble` over the TCP network, the bytes counted by all parties together are those of
the formula. -/
theorem C83_garble_bytes (c : Codec F) (hc : c.Ok) (B : Nat) (hB : 0 < B) (hw : c.Width B) (ctx : Ctx F)
    (hash : List Nat → List Nat) (rng : List Nat → Nat → F) (lpn : LpnParams) (circ : PackedCircuit) (g : GarbleCtx F)
    (hnew : GarbleCtx.new hash rng ctx lpn circ = some g) (seahash : List Nat → Nat) (lead : ProtocolID → Nat)
    (hlead : ∀ id, chooseLeader seahash id none ctx.n = some (lead id)) (tp : GarbleTapes F) (pre : List (PreProc F))
    (hpre : pre.length = ctx.n) (hb : B * (2 * ((ctx.n + ctx.t) * (2 * lpn.keyLen + 1))) < 2 ^ 63)
    (hK : B * (3 * (lpn.keyLen + 1)) < 2 ^ 63) (id : ProtocolID) (hid : id.length ≤ 239) (ids : List ProtocolID)
    (hids : garbleIdsOf id circ.inputs.length ctx.l (circ.gates.map PackedGate.kind) = some ids)
    (tables : List (List (List (List F)))) (st : GarbleState F) (h : garble ctx g tp pre = some (tables, st)) :
    ∃ jobs outs, garbleJobs c ctx g lead tp pre id = some jobs ∧ NetScheduleFree ctx.n jobs outs ∧
      ∀ (es : List FStep) (f : Full (GOut F)), (Full.start ctx.n).run ctx.n jobs es = some f → f.Stuck ctx.n jobs →
        ∑ p ∈ Finset.range ctx.n, ∑ q ∈ Finset.range ctx.n, ((f.stats q)[p]?).getD 0 =
          garbleBytes ctx.n ctx.l B lpn.keyLen id.length (circ.inputs.length + circ.gates.length)
            (circ.gates.flatMap PackedGate.inps).length (circ.gates.map PackedGate.kind) := by
  obtain ⟨jobs, outs, k1, k2, k3⟩ := C83_garble c hc B hB hw ctx hash rng lpn circ g hnew seahash lead hlead tp pre hpre hb hK id hid
    ids hids tables st h
  obtain ⟨hn0, hlead'⟩ := chooseLeader_lt hlead
  have hlens := garbleIdsOf_lens hids
  rw [List.length_map, ← flatMap_inps_length] at hlens
  refine ⟨jobs, outs, k1, k2, fun es f hrun hst => ?_⟩
  rw [← C83_garble_total ctx.n ctx.l B lpn.keyLen id.length _ _ _ lead hn0 hlead' ids hlens]
  refine Finset.sum_congr rfl fun p hp => Finset.sum_congr rfl fun q hq => ?_
  rw [(k3 es f hrun hst).2 p (Finset.mem_range.1 hp) q (Finset.mem_range.1 hq), Option.getD_some]

/-- C83.  The IDs which `garble` draws have the lengths which the formula of `C83_garble_total` uses. -/
theorem C83_ids (id : ProtocolID) (inpBlocks l : Nat) (gates : List GateKind) (ids : List ProtocolID)
    (h : garbleIdsOf id inpBlocks l gates = some ids) :
    ids.map List.length = garbleIdLens id.length l (inpBlocks + gates.length) (gates.map GateKind.arity).sum gates :=
  garbleIdsOf_lens h

end

/-- The example of C77, seven parties over GF(16): in every schedule party 2 counts 56 bytes for the lengths of the vectors and 7
for the elements which party 0 sends, and 2 bytes of ID for each of the 7 messages; from party 6, which leads the
multiplications for the error, 2 elements more. -/
example : ∃ ctx jobs outs, exCtx = some ctx ∧
    preprocJobs (gfCodec 4) ctx ⟨7, [[1, 0, 1, 0, 0, 0, 1], [0, 1, 1, 1, 0, 0, 0]]⟩
      ⟨7, [[1, 0, 1, 0, 0, 0, 1], [0, 1, 1, 1, 0, 0, 0]]⟩ ⟨1, (1, 1, 1), 1, 1, 1⟩ exPreTapes [9] = some jobs ∧
    NetScheduleFree 7 jobs outs ∧
    ∀ (es : List FStep) (f : Full (List (GF 4))), (Full.start 7).run 7 jobs es = some f → f.Stuck 7 jobs →
      (f.stats 2)[0]? = some (63, 77) ∧ (f.stats 2)[6]? = some (65, 79) := by
  obtain ⟨ctx, hctx, hg, hn, ht, hl⟩ := exCtx_good
  have hsome : (exCtx.bind fun ctx => preproc ctx ⟨7, [[1, 0, 1, 0, 0, 0, 1], [0, 1, 1, 1, 0, 0, 0]]⟩
      ⟨7, [[1, 0, 1, 0, 0, 0, 1], [0, 1, 1, 1, 0, 0, 0]]⟩ ⟨1, (1, 1, 1), 1, 1, 1⟩ exPreTapes).isSome = true := by
    decide +kernel
  rw [hctx, Option.bind_some, Option.isSome_iff_exists] at hsome
  obtain ⟨res, hres⟩ := hsome
  obtain ⟨jobs, outs, h1, h2, h3⟩ := C83_preproc (gfCodec 4) (C45_codec 4 (by norm_num)) 1 (by norm_num)
    (gfCodec_width (W := 4) (by norm_num)) ctx (by omega) _ _ _ (by decide) (by decide) (by decide) _ [9] (by decide) res hres
  rw [hn] at h2 h3
  refine ⟨ctx, jobs, outs, hctx, h1, h2, fun es f hrun hst => ?_⟩
  obtain ⟨_, h4⟩ := h3 es f hrun hst
  have hid : idBytes (4 + 2 * 7) = 1 := by decide +kernel
  rw [hid] at h4
  obtain ⟨a, ha, h5⟩ := h4 0 (by norm_num) 2 (by norm_num)
  obtain ⟨b, hb, h6⟩ := h4 6 (by norm_num) 2 (by norm_num)
  have ha' : a = 7 := by rw [ha]; decide
  have hb' : b = 9 := by rw [hb]; decide
  rw [h5, h6, ha', hb']
  decide

/-- The example of C66: in every schedule, the parties count 4130 bytes without IDs and 5068 with IDs. -/
theorem exGarble_bytes : ∃ (ctx : Ctx (GF 4)) (g : GarbleCtx (GF 4)) (tp : GarbleTapes (GF 4)) (pre : List (PreProc (GF 4)))
    (jobs : List (Job (GOut (GF 4)))) (outs : List _), exCtx = some ctx ∧
    garbleJobs (gfCodec 4) ctx g (fun id => id.sum % 7) tp pre [9] = some jobs ∧ NetScheduleFree 7 jobs outs ∧
    ∀ (es : List FStep) (f : Full (GOut (GF 4))), (Full.start 7).run 7 jobs es = some f → f.Stuck 7 jobs →
      ∑ p ∈ Finset.range 7, ∑ q ∈ Finset.range 7, ((f.stats q)[p]?).getD 0 = (4130, 5068) := by
  obtain ⟨ctx, g, tp, pre, nr, nz, h, hs⟩ := exSetup_ones
  obtain ⟨ctx', h', _, hn, ht, hl⟩ := exCtx_good
  rw [h', Option.some.injEq] at h
  subst h
  obtain ⟨tables, st, h1, h2, _⟩ := C66_shapes hs
  have hids : (garbleIdsOf [9] exCirc.inputs.length ctx'.l (exCirc.gates.map PackedGate.kind)).isSome = true := by
    rw [hl]
    decide +kernel
  obtain ⟨ids, hids⟩ := Option.isSome_iff_exists.1 hids
  obtain ⟨jobs, outs, k1, k2, k3⟩ := C83_garble_bytes (gfCodec 4) (C45_codec 4 (by norm_num)) 1 (by norm_num)
    (gfCodec_width (W := 4) (by norm_num)) ctx' id (fun _ _ => (1 : GF 4)) ⟨1, 3⟩ exCirc g hs.new List.sum (fun id => id.sum % 7)
    (fun id => by
      unfold chooseLeader leaderFromProtoId
      have := Nat.mod_lt id.sum (show 7 > 0 by omega)
      simp only [hn]
      rw [if_neg (by omega), if_pos (by omega)])
    tp pre hs.material.len (by rw [hn, ht]; decide) (by decide) [9] (by decide) ids hids tables st h1
  rw [hn] at k2 k3
  refine ⟨ctx', g, tp, pre, jobs, outs, h', k1, k2, fun es f hrun hst => ?_⟩
  rw [k3 es f hrun hst, hl]
  decide +kernel

end Verif.Props
