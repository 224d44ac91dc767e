import Verif.AsyncRoundLevels
import Verif.ByzGarbleSizes
import Verif.Props.ByzPipe
import Verif.Props.Privacy

/-! # C131: `garble` with parties which do not follow the protocols -/

open Verif

namespace Verif.Props

variable {F : Type} [CodeField F] [DecidableEq F]

/-- The runs fit together, no sharing is used twice, and the inputs have the right lengths. -/
theorem garble_fits {hash : List Nat → List Nat} {rng : List Nat → Nat → F} {ctx : Ctx F} {lpn : LpnParams} {circ : PackedCircuit}
    {g : GarbleCtx F} {tp : GarbleTapes F} {d : PreProcCount} (P : GarbleParams hash rng ctx lpn circ g tp d) (hD : circ.Distinct ctx.l)
    (go gi : List (List (SharingTransform F))) (hgo : chunks? ctx.l g.tfOut = some go) (hgi : chunks? ctx.l g.tfInp = some gi)
    (m : Mat F) (lead : ProtocolID → Nat) (ids : List ProtocolID) (br bz b b' : Nat) (hr : b + d.randoms ≤ m.rows.length * br)
    (hz : b' + d.zeros ≤ m.rows.length * bz) (sec : Nat → PreProc F) :
    let runs := garbleRuns ctx g lead tp sec go gi
    let rs := runJobs ids runs
    MkOk ctx (garbleRts g go gi) rs ∧ (garbleUses ctx g go gi ids runs b b').Ok (useR ctx (garbleRts g go gi) rs) (useZ ctx (garbleRts g go gi) rs)
      (m.rows.length * br) (m.rows.length * bz) ∧ ∀ sec', MkSizes rs (runInputs (go.length + gi.length) (garbleRuns ctx g lead tp sec' go gi)) := by
  intro runs rs
  obtain ⟨go', gi', hG⟩ := P.prepared
  obtain rfl := Option.some.inj (hgo.symm.trans hG.go)
  obtain rfl := Option.some.inj (hgi.symm.trans hG.gi)
  have hl0 := P.good.posL
  have hne : ctx.l ≠ 0 := by omega
  have len : ∀ {tfs : List (SharingTransform F)} {gs : List (List (SharingTransform F))}, chunks? ctx.l tfs = some gs → gs.length = (tfs.length + ctx.l - 1) / ctx.l := by
    intro tfs gs h
    unfold chunks? at h
    rw [if_neg hne] at h
    rw [← Option.some.inj h, chunks_length _ _ hne]
  obtain ⟨d₀, hd, _, _, _, h1, h2⟩ := P.count
  obtain ⟨no, ni, b1, b2, _, _, e1, e2, _⟩ := describe_eq hd
  have hno : no = go.length := by
    rw [len hgo, hG.out]
    unfold numBatches at b1
    rw [if_neg hne] at b1
    rw [← Option.some.inj b1]
    simp [PackedCircuit.blocks]
  have hni : ni = gi.length := by
    rw [len hgi, hG.inp]
    unfold numBatches at b2
    rw [if_neg hne] at b2
    rw [← Option.some.inj b2, flatMap_inps_length]
  have f1 : (go.length + gi.length) * ((ctx.n + ctx.t) * (2 * g.lpn.keyLen + 1)) +
      ((g.circ.gates.map PackedGate.kind).map (GateKind.numMult g.lpn.keyLen)).sum = d₀.randoms := by
    rw [e1, hno, hni, hG.circ, hG.lpn]
    ring
  have f2 : (go.length + gi.length) * (2 * ctx.n * (2 * g.lpn.keyLen + 1)) +
      ((g.circ.gates.map PackedGate.kind).map (GateKind.numMult g.lpn.keyLen)).sum = d₀.zeros := by
    rw [e2, hno, hni, hG.circ, hG.lpn]
    ring
  refine ⟨runs_ok P hG hD ids, uses_ok hG.lens ids (by rw [f1]; omega) (by rw [f2]; omega), fun sec' => ?_⟩
  rw [show rs = runJobs ids (garbleRuns ctx g lead tp sec' go gi) from runJobs_same ids (runs_same ..)]
  exact runInputs_sizes _ _ _

/-- C131 (missing: messages in `randtrans` of other lengths, for which it is false, see `C130_private_false`; blocks of gate inputs which are not full and have a wire
twice; and `randtrans` comes before the other runs).  `garble` runs with protocol parameters and material of the sizes which the program asks for; the sharings
are dealt in `rand` and `zero` with the matrix of the program.  At most `t` parties deviate in the dealing, in `randtrans`, and in all runs of `trans` and `mult`, of which they see all
messages.  Whatever the masks, keys and errors are of which the parties have shares (even if these have wrong lengths), there is a bijection between the randomness of the dealers for
`sec` and that for `sec'` under which the deviating parties see the same. -/
theorem C131_private_partial (c : Codec F) {hash : List Nat → List Nat} {rng : List Nat → Nat → F} {ctx : Ctx F} {lpn : LpnParams} {circ : PackedCircuit}
    {g : GarbleCtx F} {tp : GarbleTapes F} {d : PreProcCount} (P : GarbleParams hash rng ctx lpn circ g tp d) (hD : circ.Distinct ctx.l)
    (go gi : List (List (SharingTransform F))) (hgo : chunks? ctx.l g.tfOut = some go) (hgi : chunks? ctx.l g.tfInp = some gi)
    (Cs : Finset Nat) (hC : Coalition ctx Cs) (m : Mat F) (hm : superInvMatrix ctx.n (ctx.n - ctx.t) = some m) (lead : ProtocolID → Nat)
    (ids : List ProtocolID) (br bz b b' : Nat) (hr : b + d.randoms ≤ m.rows.length * br) (hz : b' + d.zeros ≤ m.rows.length * bz)
    (A : Attack ctx (garbleRts g go gi)) (hA : A.Sized Cs) (sec sec' : Nat → PreProc F) :
    let runs := garbleRuns ctx g lead tp sec go gi
    let runs' := garbleRuns ctx g lead tp sec' go gi
    let rs := runJobs ids runs
    let U := garbleUses ctx g go gi ids runs b b'
    rs = runJobs ids runs' ∧ ∃ e : DealCoins ctx br bz ≃ DealCoins ctx br bz, ∀ δ, (e δ).known Cs = δ.known Cs ∧ A.heard m Cs rs U (e δ) = A.heard m Cs rs U δ ∧
      ∀ N, A.view m Cs rs U c (runInputs (go.length + gi.length) runs') (e δ) N = A.view m Cs rs U c (runInputs (go.length + gi.length) runs) δ N := by
  intro runs runs' rs U
  refine ⟨runJobs_same ids (runs_same ..), ?_⟩
  obtain ⟨h1, h2, h3⟩ := garble_fits P hD go gi hgo hgi m lead ids br bz b b' hr hz sec
  have hp := P.parties
  have hl0 := P.good.posL
  exact C130_code_partial c ctx P.good hp (by omega) (by have := P.good.fit; omega) Cs hC m hm (garbleRts g go gi) rs h1 br bz U h2 A hA _ _ (h3 sec) (h3 sec')

/-- The runs are the jobs of `garble`, in the same order and with the same protocol IDs.  The first ones are those of `randtrans`, each with the next random
sharings and sharings of zero; then there is one job for each run (`GRun.Is`).  Thereby `garbleUses` gives the sharings which `garble` uses. -/
theorem C131_jobs (c : Codec F) {hash : List Nat → List Nat} {rng : List Nat → Nat → F} {ctx : Ctx F} {lpn : LpnParams} {circ : PackedCircuit}
    {g : GarbleCtx F} {tp : GarbleTapes F} {d : PreProcCount} (P : GarbleParams hash rng ctx lpn circ g tp d)
    (go gi : List (List (SharingTransform F))) (hgo : chunks? ctx.l g.tfOut = some go) (hgi : chunks? ctx.l g.tfInp = some gi)
    (lead : ProtocolID → Nat) (pre : List (PreProc F)) (sec : Nat → PreProc F) (hsec : ∀ p pr, pre[p]? = some pr → pr.blank = (sec p).blank)
    (id : ProtocolID) (ids : List ProtocolID) (hids : garbleIdsOf id circ.inputs.length ctx.l (circ.gates.map PackedGate.kind) = some ids)
    (jobs : List (Job (GOut F))) (hj : garbleJobs c ctx g lead tp pre id = some jobs) :
    let R := go.length + gi.length
    let runs := garbleRuns ctx g lead tp sec go gi
    let A := (ctx.n + ctx.t) * (2 * lpn.keyLen + 1)
    let B := 2 * ctx.n * (2 * lpn.keyLen + 1)
    jobs.length = R + (runJobs (ids.drop R) runs).length ∧
    (∀ v grp, (go ++ gi)[v]? = some grp → ∃ job inp, jobs[v]? = some job ∧ job.deps = [] ∧ job.proto = rtProto c ctx grp inp (fun o => .rt o.1 o.2) ∧
      ∀ p env m, inp p env = some m → ∃ pr, pre[p]? = some pr ∧ m = ((pr.randoms.drop (v * A)).take A, (pr.zeros.drop (v * B)).take B)) ∧
    ∀ k r, runs[k]? = some r → ∃ job, jobs[R + k]? = some job ∧ (runJobs (ids.drop R) runs)[k]? = some (r.job job.id) ∧
      r.Is c ctx (garbleRts g go gi) pre R A B job := by
  intro R runs A B
  obtain ⟨go', gi', hG⟩ := P.prepared
  obtain rfl := Option.some.inj (hgo.symm.trans hG.go)
  obtain rfl := Option.some.inj (hgi.symm.trans hG.gi)
  have h0 := P.good.posL
  have hgl := groups_length h0 hgo
  have hil := groups_length h0 hgi
  have hlenS : (garbleSteps c ctx g lead tp pre go gi).length = R + runs.length := steps_runs
  have hlenI : ids.length = R + runs.length := by
    rw [← hlenS, garbleIdsOf_length hids]
    unfold garbleSteps
    simp only [List.length_append, List.length_map, List.length_zipIdx, List.length_zip]
    rw [gatesSteps_length, hG.lens.out, hG.lens.inp, Nat.min_self, Nat.min_self, hgl, hil, hG.circ, hG.out, hG.inp]
    have := hG.lens.gates
    rw [hG.circ] at this
    have hs : (((circ.gates.map PackedGate.kind).zip tp.gates).map fun x => x.1.numJobs) = (circ.gates.map PackedGate.kind).map GateKind.numJobs := by
      conv_rhs => rw [← List.map_fst_zip (l₂ := tp.gates) (l₁ := circ.gates.map PackedGate.kind) (by rw [List.length_map, this]), List.map_map]
      rfl
    rw [hs, List.length_map]
  unfold garbleJobs at hj
  rw [hG.circ, hids, Option.bind_some, hgo, Option.bind_some, hgi, Option.map_some, Option.some.injEq] at hj
  have hget : ∀ (v : Nat) (st : GStep F), (garbleSteps c ctx g lead tp pre go gi)[v]? = some st → ∃ pid, ids[v]? = some pid ∧ jobs[v]? = some (Job.mk pid st.deps (st.proto pid)) := by
    intro v st hst
    have hv : v < ids.length := by
      rw [hlenI, ← hlenS]
      exact (List.getElem?_eq_some_iff.1 hst).1
    refine ⟨ids[v], List.getElem?_eq_getElem hv, ?_⟩
    rw [← hj, List.getElem?_map, show (ids.zip (garbleSteps c ctx g lead tp pre go gi))[v]? = some (ids[v], st) by
      rw [List.getElem?_zip_eq_some]; exact ⟨List.getElem?_eq_getElem hv, hst⟩]
    rfl
  have hA : gA ctx g = A := by simp only [gA, gReps, A, hG.lpn]
  have hB : gB ctx g = B := by simp only [gB, gReps, B, hG.lpn]
  refine ⟨?_, ?_, ?_⟩
  · rw [← hj, List.length_map, List.length_zip, hlenS, hlenI, Nat.min_self]
    unfold runJobs
    rw [List.length_map, List.length_zip, List.length_drop, hlenI, Nat.add_sub_cancel_left, Nat.min_self]
  · intro v grp hv
    by_cases hvo : v < go.length
    · rw [List.getElem?_append_left hvo] at hv
      obtain ⟨pid, _, h2⟩ := hget v _ (steps_outRt hv)
      refine ⟨_, _, h2, rfl, rfl, fun p env m hm => ?_⟩
      obtain ⟨pr, hp, hm⟩ := Option.bind_eq_some_iff.1 hm
      obtain ⟨x, hx, hm⟩ := Option.bind_eq_some_iff.1 hm
      refine ⟨pr, hp, ?_⟩
      have := (garbleMaterial_get (ctx := ctx) (so := x.1) (si := x.2.1) (r := x.2.2.1) (z := x.2.2.2) hx).1 v (by rw [← hgl]; exact hvo)
      rw [hm, Option.some.injEq] at this
      rw [this, hG.lpn]
    · rw [List.getElem?_append_right (by omega)] at hv
      have hvi := (List.getElem?_eq_some_iff.1 hv).1
      obtain ⟨pid, _, h2⟩ := hget _ _ (steps_inpRt (go := go) hv)
      rw [Nat.add_sub_cancel' (by omega)] at h2
      refine ⟨_, _, h2, rfl, rfl, fun p env m hm => ?_⟩
      obtain ⟨pr, hp, hm⟩ := Option.bind_eq_some_iff.1 hm
      obtain ⟨x, hx, hm⟩ := Option.bind_eq_some_iff.1 hm
      refine ⟨pr, hp, ?_⟩
      have := (garbleMaterial_get (ctx := ctx) (so := x.1) (si := x.2.1) (r := x.2.2.1) (z := x.2.2.2) hx).2.1 (v - go.length) (by rw [← hil]; exact hvi)
      rw [hm, ← hgl, Nat.add_sub_cancel' (by omega), Option.some.injEq] at this
      rw [this, hG.lpn]
  · intro k r hr
    obtain ⟨st, h1, h2⟩ := runs_are (c := c) hG.lens hsec h0 hgo hgi hr
    obtain ⟨pid, h3, h4⟩ := hget _ _ h1
    refine ⟨_, h4, ?_, ?_⟩
    · unfold runJobs
      rw [List.getElem?_map, show ((ids.drop R).zip runs)[k]? = some (pid, r) by
        rw [List.getElem?_zip_eq_some, List.getElem?_drop]; exact ⟨h3, hr⟩]
      rfl
    · rw [← hA, ← hB]
      exact h2 pid

/-- If a party's material has the right sizes and its results of the runs before have the right lengths (`rd_finish` panics on others), its input of a run is there and has the right
length, so that `runInputs` gives it. -/
theorem C131_inputs {hash : List Nat → List Nat} {rng : List Nat → Nat → F} {ctx : Ctx F} {lpn : LpnParams} {circ : PackedCircuit}
    {g : GarbleCtx F} {tp : GarbleTapes F} {d : PreProcCount} (P : GarbleParams hash rng ctx lpn circ g tp d)
    (go gi : List (List (SharingTransform F))) (hgo : chunks? ctx.l g.tfOut = some go) (hgi : chunks? ctx.l g.tfInp = some gi)
    (lead : ProtocolID → Nat) (sec : Nat → PreProc F) (p : Nat) (hp : p < ctx.n) (hfit : (sec p).Fits d) (k : Nat) (r : GRun F)
    (hr : (garbleRuns ctx g lead tp sec go gi)[k]? = some r) (env : Env (List F))
    (henv : ∀ j ∈ r.deps, ∃ r' v, (garbleRuns ctx g lead tp sec go gi)[j]? = some r' ∧ env j = some v ∧ v.length = r'.num) :
    ∃ v, r.input p (jobResults (go.length + gi.length) env) = some v ∧ v.length = r.num ∧
      runInputs (go.length + gi.length) (garbleRuns ctx g lead tp sec go gi) k p env = v := by
  obtain ⟨go', gi', hG⟩ := P.prepared
  obtain rfl := Option.some.inj (hgo.symm.trans hG.go)
  obtain rfl := Option.some.inj (hgi.symm.trans hG.gi)
  obtain ⟨v, h1, h2⟩ := run_input P hG hp hfit hr (env := jobResults (go.length + gi.length) env) (by
    intro j hj
    obtain ⟨r', v, q1, q2, q3⟩ := henv j hj
    refine ⟨r', v, q1, ?_, q3⟩
    unfold jobResults
    rw [if_pos (by omega), Nat.add_sub_cancel_left, q2]
    rfl)
  refine ⟨v, h1, h2, ?_⟩
  unfold runInputs
  rw [hr]
  simp only [h1]
  rw [if_pos h2]

/-- 7 parties garble the half adder with two secrets per sharing.  Parties 1 and 5 deviate in all protocols; they cannot tell one set of masks, keys and errors from another. -/
example (lead : ProtocolID → Nat) (ids : List ProtocolID) (sec sec' : Nat → PreProc (GF 4)) : ∃ (ctx : Ctx (GF 4)) (g : GarbleCtx (GF 4)) (tp : GarbleTapes (GF 4))
    (d : PreProcCount) (go gi : List (List (SharingTransform (GF 4)))) (m : Mat (GF 4)), exCtx = some ctx ∧ go.length = 2 ∧ gi.length = 2 ∧
    superInvMatrix 7 5 = some m ∧ ∀ A : Attack ctx (garbleRts g go gi), A.Sized {1, 5} → ∀ br, d.randoms ≤ 5 * br → ∀ bz, d.zeros ≤ 5 * bz →
      let runs := garbleRuns ctx g lead tp sec go gi
      let U := garbleUses ctx g go gi ids runs 0 0
      ∃ e : DealCoins ctx br bz ≃ DealCoins ctx br bz, ∀ δ, ∀ N,
        A.view m {1, 5} (runJobs ids runs) U (gfCodec 4) (runInputs 4 (garbleRuns ctx g lead tp sec' go gi)) (e δ) N
          = A.view m {1, 5} (runJobs ids runs) U (gfCodec 4) (runInputs 4 runs) δ N := by
  obtain ⟨ctx, h1, h2, h3, h4, h5⟩ := exCtx_good
  have ho : CodeField.order (GF 4) = 16 := by
    show 2 ^ 4 = 16
    norm_num
  obtain ⟨g, tp, d, P⟩ := params_exist id (fun _ _ => (1 : GF 4)) h2 (by omega) (by omega) ⟨1, 3⟩ (c := exCirc)
    (by rw [h5]; exact exCirc_ok) (by rw [h3, h5, ho]; decide) (by rw [ho]; decide) (by rw [h3, h4]; decide) (by decide)
  obtain ⟨go, gi, hG⟩ := P.prepared
  obtain ⟨m, hm⟩ : ∃ m, superInvMatrix (F := GF 4) 7 5 = some m := Option.isSome_iff_exists.1 (by decide +kernel)
  have hrows : m.rows.length = 5 := by
    have : (superInvMatrix (F := GF 4) 7 5).map (fun m => m.rows.length) = some 5 := by decide +kernel
    rw [hm] at this
    exact Option.some.inj this
  have l1 : go.length = 2 := by
    rw [groups_length h2.posL hG.go, hG.out, h5]
    decide
  have l2 : gi.length = 2 := by
    rw [groups_length h2.posL hG.gi, hG.inp, h5]
    decide
  refine ⟨ctx, g, tp, d, go, gi, m, h1, l1, l2, hm, fun A hA br hr bz hz => ?_⟩
  obtain ⟨_, e, he⟩ := C131_private_partial (gfCodec 4) P (by
    rw [h5]
    unfold PackedCircuit.Distinct
    decide) go gi hG.go hG.gi {1, 5} ⟨by simp; omega, by simp; omega⟩ m (by rw [h3, h4]; exact hm) lead ids br bz 0 0 (by rw [hrows]; omega) (by rw [hrows]; omega)
    A hA sec sec'
  refine ⟨e, fun δ N => ?_⟩
  have := (he δ).2.2 N
  rw [l1, l2] at this
  exact this

end Verif.Props
