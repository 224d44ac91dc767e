import Verif.GarbleLoopLemmas

/-!
# Lemmas about `garble`: the tables, by slot
-/

open Polynomial

namespace Verif

open CodeField (ofU32)

/-! ## Counting gates -/

theorem sum_countGate (f : GateKind → Nat) (gs : List PackedGate) (acc : Nat × Nat × Nat) :
    (gs.foldl countGate acc).1 * f .and + (gs.foldl countGate acc).2.1 * f .xor + (gs.foldl countGate acc).2.2 * f .inv
      = ((gs.map PackedGate.kind).map f).sum + (acc.1 * f .and + acc.2.1 * f .xor + acc.2.2 * f .inv) := by
  induction gs generalizing acc with
  | nil => simp
  | cons g gs ih =>
    rw [List.foldl_cons, ih, List.map_cons, List.map_cons, List.sum_cons]
    cases g <;> simp only [countGate, PackedGate.kind] <;> ring

theorem inps_length_kind (g : PackedGate) : g.inps.length = g.kind.arity := by
  cases g <;> simp [PackedGate.inps, PackedGate.kind, GateKind.arity]

theorem flatMap_inps_length (gs : List PackedGate) :
    (gs.flatMap PackedGate.inps).length = ((gs.map PackedGate.kind).map GateKind.arity).sum := by
  induction gs with
  | nil => rfl
  | cons g gs ih => simp [List.flatMap_cons, ih, inps_length_kind]

theorem flatMap_inps_get (gs : List PackedGate) (q i : Nat) (g : PackedGate) (hg : gs[q]? = some g)
    (hi : i < g.kind.arity) :
    (gs.flatMap PackedGate.inps)[offBy GateKind.arity (gs.map PackedGate.kind) q + i]? = g.inps[i]? := by
  induction gs generalizing q with
  | nil => simp at hg
  | cons x gs ih =>
    rw [List.flatMap_cons]
    cases q with
    | zero =>
      simp only [List.getElem?_cons_zero, Option.some.injEq] at hg
      subst hg
      rw [offBy_zero, Nat.zero_add, List.getElem?_append_left (by rw [inps_length_kind]; exact hi)]
    | succ q =>
      simp only [List.getElem?_cons_succ] at hg
      rw [List.map_cons, offBy_succ, List.getElem?_append_right (by rw [inps_length_kind]; omega), inps_length_kind,
        Nat.add_assoc, Nat.add_sub_cancel_left]
      exact ih q hg

theorem offBy_le (f : GateKind → Nat) (xs : List GateKind) (q : Nat) (x : GateKind) (h : xs[q]? = some x) :
    offBy f xs q + f x ≤ (xs.map f).sum := by
  induction xs generalizing q with
  | nil => simp at h
  | cons y xs ih =>
    cases q with
    | zero =>
      simp only [List.getElem?_cons_zero, Option.some.injEq] at h
      subst h
      rw [offBy_zero, List.map_cons, List.sum_cons]
      omega
    | succ q =>
      simp only [List.getElem?_cons_succ] at h
      rw [offBy_succ, List.map_cons, List.sum_cons]
      have := ih q h
      omega

theorem offBy_errorIdx (c : PackedCircuit) (mssgLen gid r a : Nat) :
    offBy (fun x => x.numRows * mssgLen) (c.gates.map PackedGate.kind) gid + (r * mssgLen + a)
      = c.errorIdx mssgLen gid r a := by
  unfold offBy PackedCircuit.errorIdx
  rw [← List.map_take, List.map_map]
  rfl

theorem describe_eq {c : PackedCircuit} {n t l : Nat} {lpn : LpnParams} {d : PreProcCount}
    (h : c.describe n t l lpn = some d) :
    ∃ no ni, numBatches c.blocks.length l = some no ∧
      numBatches (c.gates.flatMap PackedGate.inps).length l = some ni ∧ d.masks = c.blocks.length ∧
      d.keys = (2, lpn.keyLen, c.blocks.length) ∧
      d.randoms = (no + ni) * (2 * lpn.keyLen + 1) * (n + t)
        + ((c.gates.map PackedGate.kind).map (GateKind.numMult lpn.keyLen)).sum ∧
      d.zeros = (no + ni) * (2 * lpn.keyLen + 1) * 2 * n
        + ((c.gates.map PackedGate.kind).map (GateKind.numMult lpn.keyLen)).sum ∧
      d.errors = ((c.gates.map PackedGate.kind).map fun x => x.numRows * lpn.mssgLen).sum := by
  unfold PackedCircuit.describe PreProcCount.ofCounts at h
  have hb : c.inputs.length + c.gates.length = c.blocks.length := by simp [PackedCircuit.blocks]
  have ha := sum_countGate GateKind.arity c.gates (0, 0, 0)
  have hm := sum_countGate (GateKind.numMult lpn.keyLen) c.gates (0, 0, 0)
  have he := sum_countGate (fun x => x.numRows * lpn.mssgLen) c.gates (0, 0, 0)
  simp only [GateKind.arity, GateKind.numMult, GateKind.numRows, Nat.zero_mul, Nat.add_zero, Nat.mul_one] at ha hm he
  rw [← flatMap_inps_length] at ha
  simp only [hb] at h
  unfold PackedCircuit.gateCounts at h
  rw [ha, hm] at h
  obtain ⟨no, h1, h⟩ := Option.bind_eq_some_iff.1 h
  obtain ⟨ni, h2, h3⟩ := Option.map_eq_some_iff.1 h
  refine ⟨no, ni, h1, h2, ?_⟩
  subst h3
  refine ⟨rfl, rfl, rfl, rfl, ?_⟩
  simp only [Nat.mul_assoc]
  exact he

variable {F : Type} [CodeField F] [DecidableEq F]

omit [DecidableEq F] in
theorem at2_tab {n l num : Nat} (q : Nat → F[X]) {i s : Nat} (hi : i < num) (hs : s < l) :
    at2 (tabSecrets (defaultPos n l) num q) i s = (q i).eval (ofU32 (n + s)) := by
  unfold at2 tabSecrets
  rw [List.getD_eq_getElem?_getD, List.getD_eq_getElem?_getD, getElem?_tab _ _ _ hi, Option.getD_some, List.getElem?_map]
  unfold defaultPos
  rw [getElem?_tab _ _ _ hs]
  rfl

omit [DecidableEq F] in
theorem mem_defaultPos {n l s : Nat} (hs : s < l) : (ofU32 (n + s) : F) ∈ defaultPos n l := by
  unfold defaultPos
  exact List.mem_map.2 ⟨s, List.mem_range.2 hs, rfl⟩

/-- The message of row `r`. -/
def rowMsg (kind : GateKind) (k numBlocks : Nat) (masks keys : List (List F)) (db ds : Nat → Nat) (blk r x j : Nat) : F :=
  labelMsg k numBlocks masks keys blk 0 j x
    + codeSel kind r (at2 masks (db 0) (ds 0)) (at2 masks (db 1) (ds 1)) (at2 masks blk x)
      * (labelMsg k numBlocks masks keys blk 1 j x - labelMsg k numBlocks masks keys blk 0 j x)

omit [DecidableEq F] in
theorem codeSel_inv_right (r : Nat) (a b b' c : F) : codeSel .inv r a b c = codeSel .inv r a b' c := rfl

omit [CodeField F] [DecidableEq F] in
theorem lpnSlots_get (rng : List Nat → Nat → F) (l m k : Nat) (nonce : List Nat) (r a b x : Nat) (hx : x < l) :
    (lpnSlots rng l m k nonce r a b)[x]? = some (rng nonce (((r * m + a) * k + b) * l + x)) := by
  unfold lpnSlots
  exact getElem?_tab _ _ _ hx

section setup
variable {hash : List Nat → List Nat} {rng : List Nat → Nat → F} {ctx : Ctx F} {lpn : LpnParams} {c : PackedCircuit}
  {g : GarbleCtx F} {tp : GarbleTapes F} {pre : List (PreProc F)} {masks keys errors : List (List F)} {nr nz : Nat}

theorem Setup.spec (s : Setup hash rng ctx lpn c g tp pre masks keys errors nr nz) :
    ∃ A, CtxSpec hash rng ctx lpn c g A := by
  obtain ⟨g', A, h1, h2⟩ := garbleCtx_new hash rng s.good lpn s.circ s.fit s.code
  rw [s.new, Option.some.injEq] at h1
  subst h1
  exact ⟨A, h2⟩

theorem garble_rows (s : Setup hash rng ctx lpn c g tp pre masks keys errors nr nz) :
    ∃ tables st d, c.describe ctx.n ctx.t ctx.l lpn = some d ∧ garble ctx g tp pre = some (tables, st) ∧
      st.rows = List.replicate ctx.n [] ∧
      st.randoms = (pre.map (·.randoms)).map (List.drop d.randoms) ∧
      st.zeros = (pre.map (·.zeros)).map (List.drop d.zeros) ∧
      st.errors = (pre.map (·.errors)).map (List.drop d.errors) ∧
      tables.length = c.gates.length ∧
      ∀ (gid : Nat) (gate : PackedGate), c.gates[gid]? = some gate → ∃ (table : List (List (List F))) (T : Nat → Nat → F[X]),
        tables[gid]? = some table ∧
        (∀ r < gate.kind.numRows, ∀ a < lpn.mssgLen, (T r a).degree < (ctx.t + 2 * ctx.l - 1 : Nat)) ∧
        table = tab2 ctx.n gate.kind.numRows lpn.mssgLen T ∧
        ∀ r < gate.kind.numRows, ∀ a < lpn.mssgLen, ∀ (x : Nat) (db ds : Nat → Nat), c.Sources gate x db ds →
          (T r a).eval (ofU32 (ctx.n + x)) = rowSecret rng ctx.l lpn g.enc (hash (c.nonceString ctx.l gid))
            (readKey gate.kind lpn.keyLen keys db ds r)
            (rowMsg gate.kind lpn.keyLen c.blocks.length masks keys db ds (c.inputs.length + gid) r x)
            (at2 errors (c.errorIdx lpn.mssgLen gid r a) x) r a x := by
  obtain ⟨A, hg⟩ := s.spec
  obtain ⟨d, hd, dm, dk, dsh, dr, dz, de⟩ := s.material.count
  obtain ⟨no, ni, hno, hni, e1, e2, e3, e4, e5⟩ := describe_eq hd
  obtain ⟨M, hM, hM1, hM2⟩ := (vecSharing_iff _ _ _ _ _).1 s.material.masks
  obtain ⟨K, hK, hK1, hK2⟩ := (vecSharing_iff _ _ _ _ _).1 s.material.keys
  obtain ⟨E, hE, hE1, hE2⟩ := (vecSharing_iff _ _ _ _ _).1 s.material.errors
  obtain ⟨rs, hrs, hrl⟩ := s.material.randoms
  obtain ⟨G, hG, hG1, _⟩ := (vecSharing_iff _ _ _ _ _).1 hrs
  obtain ⟨Z, hZ, hZ1, hZ0⟩ := vecZero_tab s.material.zeros
  rw [hrl] at hG hG1
  rw [e1] at dm
  rw [e2] at dk dsh
  simp only [] at dk
  have hblk : ∀ b x w, c.Drives b x w → b < c.blocks.length ∧ x < ctx.l := by
    rintro b x w ⟨ws, h1, h2⟩
    have h3 := s.circ.blockLen ws (List.mem_of_getElem? h1)
    exact ⟨(List.getElem?_eq_some_iff.1 h1).1, lt_of_lt_of_le (List.getElem?_eq_some_iff.1 h2).1 h3⟩
  have hl := s.good.posL
  rw [dm] at hM hM1 hM2
  rw [dk] at hK hK1 hK2
  have t1 := s.tapes.out
  have t2 := s.tapes.inp
  have t3 := s.tapes.len
  have t4 := s.tapes.gates
  rw [hg.lpnEq] at t1 t2
  rw [hg.circ] at t3
  obtain ⟨I, Y, i1, i2, i3⟩ := garbleInputs_tab s.good s.parties s.circ s.fit hg tp t1 t2 pre K M G Z nr nz no ni
    hno hni s.material.len hK1 hM1 hG1 hZ1 hK hM hG hZ hZ0 (by omega) (by omega)
  have hkinds : (((c.gates.map PackedGate.kind).zip tp.gates).map Prod.fst) = c.gates.map PackedGate.kind := by
    apply List.map_fst_zip
    rw [List.length_map, t3]
  have hzl : ((c.gates.map PackedGate.kind).zip tp.gates).length = c.gates.length := by
    rw [List.length_zip, List.length_map, t3, Nat.min_self]
  have hloop := gateLoop_tab s.good s.mult hg s.code pre K M s.material.len dsh hK1 hM1 hK hM
    ((c.gates.map PackedGate.kind).zip tp.gates) (by
      intro y hy
      obtain ⟨gid, hlt, rfl⟩ := List.mem_iff_getElem.1 hy
      rw [hzl] at hlt
      have hlt' : gid < tp.gates.length := by omega
      rw [List.getElem_zip, List.getElem_map]
      have := t4 gid c.gates[gid] tp.gates[gid] (by rw [hg.circ]; exact List.getElem?_eq_getElem hlt)
        (List.getElem?_eq_getElem hlt')
      rwa [hg.lpnEq] at this) 0 (by rw [hzl]; omega)
    (c.gates.flatMap PackedGate.inps).length
    (nr - (no + ni) * (2 * lpn.keyLen + 1) * (ctx.n + ctx.t)) (nz - (no + ni) * (2 * lpn.keyLen + 1) * 2 * ctx.n)
    errors.length I (fun m => G ((no + ni) * (2 * lpn.keyLen + 1) * (ctx.n + ctx.t) + m))
    (fun m => Z ((no + ni) * (2 * lpn.keyLen + 1) * 2 * ctx.n + m)) E i1 (fun m hm => hG _ (by omega))
    (fun m hm => hZ _ (by omega)) (fun m hm => hZ0 _ (by omega)) (by rw [hkinds, flatMap_inps_length])
    (by rw [hkinds]; omega) (by rw [hkinds]; omega) (by rw [hkinds]; omega)
  rw [hkinds, hzl] at hloop
  obtain ⟨P, p1, p2⟩ := hloop
  have hdrop : ∀ (N k : Nat) (q : Nat → F[X]), (tabShares ctx.n N q).map (List.drop k)
      = tabShares ctx.n (N - k) fun m => q (k + m) := by
    intro N k q
    unfold tabShares
    rw [List.map_map]
    apply List.map_congr_left
    intro i _
    exact drop_tab _ _ _
  have hrun : garble ctx g tp pre = gateLoop ctx g pre 0 ((c.gates.map PackedGate.kind).zip tp.gates)
      ⟨tab2 ctx.n (c.gates.flatMap PackedGate.inps).length (2 * lpn.keyLen + 1) I,
        tabShares ctx.n (nr - (no + ni) * (2 * lpn.keyLen + 1) * (ctx.n + ctx.t))
          (fun m => G ((no + ni) * (2 * lpn.keyLen + 1) * (ctx.n + ctx.t) + m)),
        tabShares ctx.n (nz - (no + ni) * (2 * lpn.keyLen + 1) * 2 * ctx.n)
          (fun m => Z ((no + ni) * (2 * lpn.keyLen + 1) * 2 * ctx.n + m)), tabShares ctx.n errors.length E⟩ := by
    unfold garble
    rw [i3]
    simp only [Option.bind_some]
    rw [hg.circ, if_pos t3, hE1]
  refine ⟨_, _, d, hd, hrun.trans p2, ?_, ?_, ?_, ?_, ?_, ?_⟩
  · simp only [tab2, ← flatMap_inps_length, Nat.sub_self, List.range_zero, List.map_nil]
    simp
  · simp only []
    rw [hG1, hdrop, e3, Nat.sub_sub]
    simp only [Nat.add_assoc]
  · simp only []
    rw [hZ1, hdrop, e4, Nat.sub_sub]
    simp only [Nat.add_assoc]
  · simp only []
    rw [hE1, hdrop, e5]
  · simp
  intro gid gate hgate
  have hlt := (List.getElem?_eq_some_iff.1 hgate).1
  have hkq : (c.gates.map PackedGate.kind)[gid]? = some gate.kind := by rw [List.getElem?_map, hgate, Option.map_some]
  have hkd : (c.gates.map PackedGate.kind).getD gid .and = gate.kind := by
    rw [List.getD_eq_getElem?_getD, hkq, Option.getD_some]
  have hPl := p1 gid gate.kind hkq
  rw [Nat.zero_add] at hPl
  have harity : ∀ i < gate.kind.arity, offBy GateKind.arity (c.gates.map PackedGate.kind) gid + i
      < (c.gates.flatMap PackedGate.inps).length := by
    intro i hi
    have h1 := flatMap_inps_get c.gates gid i gate hgate hi
    rw [List.getElem?_eq_getElem (l := gate.inps) (by rw [inps_length_kind]; exact hi)] at h1
    exact (List.getElem?_eq_some_iff.1 h1).1
  have herr : ∀ r < gate.kind.numRows, ∀ a < lpn.mssgLen,
      offBy (fun x => x.numRows * lpn.mssgLen) (c.gates.map PackedGate.kind) gid + (r * lpn.mssgLen + a) < d.errors := by
    intro r hr a ha
    rw [e5]
    have h1 := offBy_le (fun x => x.numRows * lpn.mssgLen) (c.gates.map PackedGate.kind) gid gate.kind hkq
    have h2 := Nat.mul_le_mul_right lpn.mssgLen (show r + 1 ≤ gate.kind.numRows from hr)
    rw [Nat.add_mul r, Nat.one_mul] at h2
    omega
  refine ⟨_, tabPoly lpn.keyLen lpn.mssgLen g.enc (A gid) (gateKey gate.kind lpn.keyLen
      fun m => I (offBy GateKind.arity (c.gates.map PackedGate.kind) gid + m)) (P gid)
      (fun m => E (offBy (fun x => x.numRows * lpn.mssgLen) (c.gates.map PackedGate.kind) gid + m)),
    getElem?_tab _ _ _ hlt, ?_, ?_, ?_⟩
  · intro r hr a ha
    apply tabPoly_degree hl
    · exact hg.degA gid r a
    · intro b hb
      have hidx : ∀ q < 2, q * lpn.keyLen + b < 2 * lpn.keyLen + 1 := by
        intro q hq
        have := Nat.mul_le_mul_right lpn.keyLen (show q ≤ 1 by omega)
        omega
      unfold gateKey
      cases hk : gate.kind <;> rw [hk] at hr harity <;> simp only [GateKind.numRows, GateKind.arity] at hr harity <;> simp only []
      · exact degree_add_lt (i1 _ (harity 0 (by omega)) _ (hidx _ (by omega))) (i1 _ (harity 1 (by omega)) _ (hidx _ (by omega)))
      · exact degree_add_lt (i1 _ (harity 0 (by omega)) _ (hidx _ (by omega))) (i1 _ (harity 1 (by omega)) _ (hidx _ (by omega)))
      · exact i1 _ (harity 0 (by omega)) _ (hidx _ (by omega))
    · exact hPl.1 r hr
    · exact hE _ (lt_of_lt_of_le (herr r hr a ha) de)
  · rw [hkd, Nat.zero_add]
  · intro r hr a ha x db ds hsrc
    have hmem := List.mem_of_getElem? hgate
    have hx : x < ctx.l := by
      have ha0 : 0 < gate.kind.arity := by cases gate.kind <;> simp [GateKind.arity]
      obtain ⟨w, h1, _⟩ := hsrc 0 ha0
      have h2 := (List.getElem?_eq_some_iff.1 h1).1
      have h3 : gate.inps.getD 0 [] ∈ c.gates.flatMap PackedGate.inps := by
        rw [List.getD_eq_getElem?_getD, List.getElem?_eq_getElem (by rw [inps_length_kind]; exact ha0), Option.getD_some]
        exact List.mem_flatMap.2 ⟨gate, hmem, List.getElem_mem _⟩
      exact lt_of_lt_of_le h2 (inps_length s.circ _ h3)
    have hread : ∀ i < gate.kind.arity, (db i < c.blocks.length ∧ ds i < ctx.l) ∧ ∀ e < 2 * lpn.keyLen + 1,
        (I (offBy GateKind.arity (c.gates.map PackedGate.kind) gid + i) e).eval (ofU32 (ctx.n + x))
          = (keyCol lpn.keyLen K M (db i) e).eval (ofU32 (ctx.n + ds i)) := by
      intro i hi
      obtain ⟨w, h1, h2⟩ := hsrc i hi
      have h3 := flatMap_inps_get c.gates gid i gate hgate hi
      have h4 : gate.inps[i]? = some (gate.inps.getD i []) := by
        rw [List.getD_eq_getElem?_getD, List.getElem?_eq_getElem (by rw [inps_length_kind]; exact hi), Option.getD_some]
      exact ⟨hblk _ _ _ h2, fun e he => i2 _ _ (h3.trans h4) x w _ _ h1 h2 e he⟩
    have hmask : ∀ i < gate.kind.arity,
        (I (offBy GateKind.arity (c.gates.map PackedGate.kind) gid + i) (2 * lpn.keyLen)).eval (ofU32 (ctx.n + x))
          = at2 masks (db i) (ds i) := by
      intro i hi
      obtain ⟨⟨h1, h2⟩, h3⟩ := hread i hi
      rw [h3 _ (by omega), keyCol, if_neg (by omega), hM2, at2_tab _ h1 h2]
    have hlab : ∀ i < gate.kind.arity, ∀ bit < 2, ∀ b < lpn.keyLen,
        (I (offBy GateKind.arity (c.gates.map PackedGate.kind) gid + i) (bit * lpn.keyLen + b)).eval (ofU32 (ctx.n + x))
          = readLabel lpn.keyLen keys (db i) bit b (ds i) := by
      intro i hi bit hbit b hb
      obtain ⟨⟨h1, h2⟩, h3⟩ := hread i hi
      have h4 : bit * lpn.keyLen + b < 2 * lpn.keyLen := by
        have := Nat.mul_le_mul_right lpn.keyLen (show bit ≤ 1 by omega)
        omega
      have h5 : db i * (2 * lpn.keyLen) + (bit * lpn.keyLen + b) < 2 * lpn.keyLen * c.blocks.length := by
        have := Nat.mul_le_mul_right (2 * lpn.keyLen) (show db i + 1 ≤ c.blocks.length from h1)
        rw [Nat.add_mul, Nat.one_mul, Nat.mul_comm c.blocks.length] at this
        omega
      rw [h3 _ (by omega), keyCol, if_pos h4, readLabel, hK2, at2_tab _ h5 h2]
    have hmine : c.inputs.length + gid < c.blocks.length := by simp [PackedCircuit.blocks]; exact hlt
    have hout : ∀ bit < 2, ∀ j, (outKey lpn.keyLen c.blocks.length K M (c.inputs.length + gid) bit j).eval (ofU32 (ctx.n + x))
        = labelMsg lpn.keyLen c.blocks.length masks keys (c.inputs.length + gid) bit j x := by
      intro bit hbit j
      unfold outKey labelMsg
      by_cases hj : j < lpn.keyLen
      · rw [if_pos hj, if_pos hj, label, hK2, at2_tab _ _ hx]
        have h1 : bit * lpn.keyLen + j < 2 * lpn.keyLen := by
          have := Nat.mul_le_mul_right lpn.keyLen (show bit ≤ 1 by omega)
          omega
        have := Nat.mul_le_mul_right c.blocks.length (show bit * lpn.keyLen + j + 1 ≤ 2 * lpn.keyLen from h1)
        rw [Nat.add_mul _ 1, Nat.one_mul] at this
        omega
      · rw [if_neg hj, if_neg hj, eval_add, eval_C, hM2, at2_tab _ hmine hx]
    unfold tabPoly rowSecret
    rw [eval_add, eval_add, eval_finsetSum, eval_finsetSum]
    congr 1
    · congr 1
      · apply Finset.sum_congr rfl
        intro b hb
        rw [Finset.mem_range] at hb
        rw [eval_mul]
        congr 1
        · have h1 := congrArg (fun y => y[x]?) (hg.slotsA gid r a b hlt)
          rw [lpnSlots_get _ _ _ _ _ _ _ _ _ hx, List.getElem?_map] at h1
          unfold defaultPos at h1
          rw [getElem?_tab _ _ _ hx, Option.map_some, Option.some.injEq] at h1
          exact h1
        · unfold gateKey readKey
          cases hk : gate.kind <;> rw [hk] at hr hlab <;> simp only [GateKind.numRows, GateKind.arity] at hr hlab <;> simp only []
          · rw [eval_add, hlab 0 (by omega) _ (by omega) b hb, hlab 1 (by omega) _ (by omega) b hb]
          · rw [eval_add, hlab 0 (by omega) _ (by omega) b hb, hlab 1 (by omega) _ (by omega) b hb]
          · exact hlab 0 (by omega) _ (by omega) b hb
      · apply Finset.sum_congr rfl
        intro j hj
        rw [Finset.mem_range] at hj
        rw [eval_mul, eval_C]
        congr 1
        rw [hPl.2 _ (mem_defaultPos hx) r hr j hj, hout 0 (by omega), hout 1 (by omega)]
        unfold rowMsg
        congr 2
        have h0 := hmask 0
        have h1 := hmask 1
        cases hk : gate.kind <;> rw [hk] at h0 h1 <;> simp only [GateKind.arity] at h0 h1 <;>
          simp only [Nat.add_zero] at h0 <;> simp only [codeSel]
        · rw [h0 (by omega), h1 (by omega), hM2, at2_tab _ hmine hx]
        · rw [h0 (by omega), h1 (by omega), hM2, at2_tab _ hmine hx]
        · rw [h0 (by omega), hM2, at2_tab _ hmine hx]
    · simp only []
      rw [offBy_errorIdx, hE2, at2_tab _ (lt_of_lt_of_le (offBy_errorIdx c lpn.mssgLen gid r a ▸ herr r hr a ha) de) hx]


omit [DecidableEq F] in
theorem cast_mod_two (m : Nat) : ((m % 2 : Nat) : F) = (m : F) := by
  conv_rhs => rw [← Nat.div_add_mod m 2, Nat.cast_add, Nat.cast_mul, Nat.cast_ofNat, two_eq_zero, zero_mul, zero_add]

omit [DecidableEq F] in
/-- The message number `e`. -/
theorem pick_msg (k B : Nat) (masks keys : List (List F)) (blk j x e : Nat) (he : e < 2) :
    labelMsg k B masks keys blk 0 j x + (e : F) * (labelMsg k B masks keys blk 1 j x - labelMsg k B masks keys blk 0 j x)
      = labelMsg k B masks keys blk e j x := by
  have : e = 0 ∨ e = 1 := by omega
  rcases this with rfl | rfl
  · rw [Nat.cast_zero, zero_mul, add_zero]
  · rw [Nat.cast_one, one_mul, add_sub_cancel]

theorem garble_encrypts (s : Setup hash rng ctx lpn c g tp pre masks keys errors nr nz)
    {tables : List (List (List (List F)))} {st : GarbleState F} (hrun : garble ctx g tp pre = some (tables, st))
    {gid : Nat} {gate : PackedGate} (hg : c.gates[gid]? = some gate) (db ds : Nat → Nat → Nat)
    (hsrc : ∀ x < gate.out.length, c.Sources gate x (db x) (ds x)) :
    ∃ table, tables[gid]? = some table ∧
      Encrypts hash rng ctx lpn g.enc c errors gid gate.out.length gate.kind.numRows
        (fun r x => readKey gate.kind lpn.keyLen keys (db x) (ds x) r)
        (fun r x => rowMsg gate.kind lpn.keyLen c.blocks.length masks keys (db x) (ds x) (c.inputs.length + gid) r x)
        table := by
  obtain ⟨tables', st', d, _, h1, _, _, _, _, _, h2⟩ := garble_rows s
  rw [hrun, Option.some.injEq, Prod.mk.injEq] at h1
  obtain ⟨rfl, rfl⟩ := h1
  obtain ⟨table, T, t1, t2, t3, t4⟩ := h2 gid gate hg
  refine ⟨table, t1, T, t2, t3, ?_⟩
  intro r hr a ha
  have hw : gate.out.length ≤ ctx.l := s.circ.blockLen _ (List.mem_append_right _
    (List.mem_map_of_mem (List.mem_of_getElem? hg)))
  rw [(defaultPos_take s.good.fit hw).2.2, List.map_map]
  apply List.map_congr_left
  intro x hx
  exact t4 r hr a ha x _ _ (hsrc x (List.mem_range.1 hx))

theorem Encrypts.congr {gid width rows : Nat} {enc : Mat F} {key key' msg msg' : Nat → Nat → Nat → F}
    {table : List (List (List F))} (h : Encrypts hash rng ctx lpn enc c errors gid width rows key msg table)
    (hk : ∀ r < rows, ∀ x < width, ∀ b < lpn.keyLen, key r x b = key' r x b)
    (hm : ∀ r < rows, ∀ x < width, ∀ j < lpn.keyLen + 1, msg r x j = msg' r x j) :
    Encrypts hash rng ctx lpn enc c errors gid width rows key' msg' table := by
  obtain ⟨T, t1, t2, t3⟩ := h
  refine ⟨T, t1, t2, ?_⟩
  intro r hr a ha
  rw [t3 r hr a ha]
  apply List.map_congr_left
  intro x hx
  have hx := List.mem_range.1 hx
  unfold rowSecret
  simp only []
  congr 1
  congr 1
  · apply Finset.sum_congr rfl
    intro b hb
    rw [hk r hr x hx b (Finset.mem_range.1 hb)]
  · apply Finset.sum_congr rfl
    intro j hj
    rw [hm r hr x hx j (Finset.mem_range.1 hj)]

/-- Two descriptions of the same table agree. -/
theorem TableSharing.unique {n k : Nat} {pos : List F} {width rows cols : Nat} {sec sec' : Nat → Nat → Nat → F}
    {shares : List (List (List F))} (hn : n ≤ CodeField.order F) (hk : k ≤ n)
    (h : TableSharing n k pos width rows cols sec shares) (h' : TableSharing n k pos width rows cols sec' shares) :
    ∀ r < rows, ∀ a < cols, ∀ x < width, sec r a x = sec' r a x := by
  obtain ⟨T, t1, t2, t3⟩ := h
  obtain ⟨T', t1', t2', t3'⟩ := h'
  intro r hr a ha x hx
  have hT : T r a = T' r a := by
    apply poly_eq_of_values (sharePos n) (sharePos_nodup hn)
    · rw [sharePos_length]; exact degree_lt_mono (t1 r hr a ha) hk
    · rw [sharePos_length]; exact degree_lt_mono (t1' r hr a ha) hk
    · unfold sharePos
      rw [List.map_map, List.map_map]
      apply List.map_congr_left
      intro i hi
      have hi := List.mem_range.1 hi
      have e := congrArg (fun y => y[i]?) (t2.symm.trans t2')
      rw [getElem?_tab _ _ _ hi, getElem?_tab _ _ _ hi, Option.some.injEq] at e
      have e := congrArg (fun y => y[r]?) e
      rw [getElem?_tab _ _ _ hr, getElem?_tab _ _ _ hr, Option.some.injEq] at e
      have e := congrArg (fun y => y[a]?) e
      rw [getElem?_tab _ _ _ ha, getElem?_tab _ _ _ ha, Option.some.injEq] at e
      exact e
  have e := (hT ▸ t3 r hr a ha).symm.trans (t3' r hr a ha)
  have e := congrArg (fun y => y[x]?) e
  rw [getElem?_tab _ _ _ hx, getElem?_tab _ _ _ hx, Option.some.injEq] at e
  exact e

/-- The inputs of the gates. -/
theorem setup_inputs (s : Setup hash rng ctx lpn c g tp pre masks keys errors nr nz) :
    ∃ out inp rr rz, garbleInputs ctx g tp pre = some (out, inp, rr, rz) ∧
      ∀ (gid i : Nat) (gate : PackedGate), c.gates[gid]? = some gate → i < gate.kind.arity →
        ∀ e < 2 * lpn.keyLen + 1, ∃ q : F[X],
          EntrySharing ctx.n (ctx.t + ctx.l) inp (c.inputRow gid i) e q ∧
          ∀ (x w b s' : Nat), (c.inpWires gid i)[x]? = some w → c.Drives b s' w →
            q.eval (ofU32 (ctx.n + x)) = if e < 2 * lpn.keyLen then at2 keys (b * (2 * lpn.keyLen) + e) s'
              else at2 masks b s' := by
  obtain ⟨A, hg⟩ := s.spec
  obtain ⟨d, hd, dm, dk, dsh, dr, dz, de⟩ := s.material.count
  obtain ⟨no, ni, hno, hni, e1, e2, e3, e4, e5⟩ := describe_eq hd
  obtain ⟨M, hM, hM1, hM2⟩ := (vecSharing_iff _ _ _ _ _).1 s.material.masks
  obtain ⟨K, hK, hK1, hK2⟩ := (vecSharing_iff _ _ _ _ _).1 s.material.keys
  obtain ⟨rs, hrs, hrl⟩ := s.material.randoms
  obtain ⟨G, hG, hG1, _⟩ := (vecSharing_iff _ _ _ _ _).1 hrs
  obtain ⟨Z, hZ, hZ1, hZ0⟩ := vecZero_tab s.material.zeros
  rw [hrl] at hG hG1
  rw [e1] at dm
  rw [e2] at dk
  simp only [] at dk
  rw [dm] at hM hM1 hM2
  rw [dk] at hK hK1 hK2
  have t1 := s.tapes.out
  have t2 := s.tapes.inp
  rw [hg.lpnEq] at t1 t2
  obtain ⟨I, Y, i1, i2, i3⟩ := garbleInputs_tab s.good s.parties s.circ s.fit hg tp t1 t2 pre K M G Z nr nz no ni
    hno hni s.material.len hK1 hM1 hG1 hZ1 hK hM hG hZ hZ0 (by omega) (by omega)
  refine ⟨_, _, _, _, i3, ?_⟩
  intro gid i gate hgate hi e he
  have hrow : c.inputRow gid i = offBy GateKind.arity (c.gates.map PackedGate.kind) gid + i := by
    unfold PackedCircuit.inputRow offBy
    rw [← List.map_take, List.map_map]
    rfl
  have hget := flatMap_inps_get c.gates gid i gate hgate hi
  rw [← hrow] at hget
  have hwires : gate.inps[i]? = some (c.inpWires gid i) := by
    unfold PackedCircuit.inpWires
    rw [hgate, Option.map_some, Option.getD_some, List.getD_eq_getElem?_getD,
      List.getElem?_eq_getElem (by rw [inps_length_kind]; exact hi), Option.getD_some]
  rw [hwires] at hget
  have hlt := (List.getElem?_eq_some_iff.1 hget).1
  refine ⟨I (c.inputRow gid i) e, ⟨i1 _ hlt e he, by simp [tab2], ?_⟩, ?_⟩
  · intro p hp
    unfold tab2
    rw [getElem?_tab _ _ _ hp, Option.bind_some, getElem?_tab _ _ _ hlt, Option.bind_some, getElem?_tab _ _ _ he]
  · intro x w b s' hx hb
    rw [i2 _ _ hget x w b s' hx hb e he]
    obtain ⟨ws, h1, h2⟩ := hb
    have hb := (List.getElem?_eq_some_iff.1 h1).1
    have hs : s' < ctx.l := lt_of_lt_of_le (List.getElem?_eq_some_iff.1 h2).1 (s.circ.blockLen ws (List.mem_of_getElem? h1))
    unfold keyCol
    split
    · rw [hK2, at2_tab _ _ hs]
      have := Nat.mul_le_mul_right (2 * lpn.keyLen) (show b + 1 ≤ c.blocks.length from hb)
      rw [Nat.add_mul, Nat.one_mul, Nat.mul_comm c.blocks.length] at this
      omega
    · rw [hM2, at2_tab _ hb hs]

theorem drives_lt {c : PackedCircuit} {l b x w : Nat} (hc : c.Ok l) (h : c.Drives b x w) :
    b < c.blocks.length ∧ x < l := by
  obtain ⟨ws, h1, h2⟩ := h
  have h3 := hc.blockLen ws (List.mem_of_getElem? h1)
  exact ⟨(List.getElem?_eq_some_iff.1 h1).1, lt_of_lt_of_le (List.getElem?_eq_some_iff.1 h2).1 h3⟩

theorem drives_unique {c : PackedCircuit} {b x b' x' w : Nat} (hn : c.blocks.flatten.Nodup) (h : c.Drives b x w)
    (h' : c.Drives b' x' w) : b = b' ∧ x = x' := by
  obtain ⟨ws, h1, h2⟩ := h
  obtain ⟨ws', h1', h2'⟩ := h'
  have e1 := wireToBlock_some hn h1 (List.mem_of_getElem? h2)
  have e2 := wireToBlock_some hn h1' (List.mem_of_getElem? h2')
  rw [e1, Option.some.injEq] at e2
  subst e2
  rw [h1, Option.some.injEq] at h1'
  subst h1'
  have hnd := (List.nodup_flatten.1 hn).1 ws (List.mem_of_getElem? h1)
  obtain ⟨i1, i2⟩ := List.getElem?_eq_some_iff.1 h2
  obtain ⟨j1, j2⟩ := List.getElem?_eq_some_iff.1 h2'
  exact ⟨rfl, (List.Nodup.getElem_inj_iff hnd).1 (i2.trans j2.symm)⟩

theorem sources_exist {c : PackedCircuit} {l : Nat} (hc : c.Ok l) {gid : Nat} {gate : PackedGate}
    (hg : c.gates[gid]? = some gate) :
    ∃ db ds : Nat → Nat → Nat, ∀ x < gate.out.length, c.Sources gate x (db x) (ds x) := by
  have h : ∀ x i : Nat, ∃ p : Nat × Nat, x < gate.out.length → i < gate.kind.arity →
      ∃ w, (gate.inps.getD i [])[x]? = some w ∧ c.Drives p.1 p.2 w := by
    intro x i
    by_cases hx : x < gate.out.length ∧ i < gate.kind.arity
    · obtain ⟨hx, hi⟩ := hx
      have hi' : i < gate.inps.length := by rw [inps_length_kind]; exact hi
      have hmem : gate.inps.getD i [] ∈ gate.inps := by
        rw [List.getD_eq_getElem _ _ hi']
        exact List.getElem_mem _
      have hgm := List.mem_of_getElem? hg
      have hl := hc.aligned gate hgm _ hmem
      have hxl : x < (gate.inps.getD i []).length := by omega
      have hd := hc.driven gate hgm _ hmem _ (List.getElem_mem hxl)
      obtain ⟨ws, hws, hwm⟩ := List.mem_flatten.1 hd
      obtain ⟨b, hb, rfl⟩ := List.mem_iff_getElem.1 hws
      obtain ⟨y, hy, hye⟩ := List.mem_iff_getElem.1 hwm
      exact ⟨(b, y), fun _ _ => ⟨_, List.getElem?_eq_getElem hxl, _, List.getElem?_eq_getElem hb, by
        rw [List.getElem?_eq_getElem hy, hye]⟩⟩
    · exact ⟨(0, 0), fun h1 h2 => absurd ⟨h1, h2⟩ hx⟩
  choose p hp using h
  exact ⟨fun x i => (p x i).1, fun x i => (p x i).2, fun x hx i hi => hp x i hx hi⟩

theorem pair_sources {c : PackedCircuit} {l : Nat} (hc : c.Ok l) {gid : Nat} {gate : PackedGate}
    (hg : c.gates[gid]? = some gate) (harity : gate.kind.arity = 2) {db ds : Nat → Nat → Nat}
    (hsrc : ∀ x < gate.out.length, c.Sources gate x (db x) (ds x)) {x w w' : Nat}
    (hw0 : (c.inpWires gid 0)[x]? = some w) (hw1 : (c.inpWires gid 1)[x]? = some w') :
    x < gate.out.length ∧ ∃ w0 w1, (c.inpWires gid 0)[x]? = some w0 ∧ c.Drives (db x 0) (ds x 0) w0 ∧
      (c.inpWires gid 1)[x]? = some w1 ∧ c.Drives (db x 1) (ds x 1) w1 := by
  have hin : ∀ i, c.inpWires gid i = gate.inps.getD i [] := by
    intro i
    unfold PackedCircuit.inpWires
    rw [hg, Option.map_some, Option.getD_some]
  have hx : x < gate.out.length := by
    have := (List.getElem?_eq_some_iff.1 hw0).1
    rw [hin 0] at this
    rw [← hc.aligned gate (List.mem_of_getElem? hg) (gate.inps.getD 0 []) (by
      rw [List.getD_eq_getElem _ _ (by rw [inps_length_kind]; omega)]
      exact List.getElem_mem _)]
    exact this
  obtain ⟨w0, a1, a2⟩ := hsrc x hx 0 (by omega)
  obtain ⟨w1, b1, b2⟩ := hsrc x hx 1 (by omega)
  exact ⟨hx, w0, w1, by rw [hin]; exact a1, a2, by rw [hin]; exact b1, b2⟩

theorem masks_length (s : Setup hash rng ctx lpn c g tp pre masks keys errors nr nz) : masks.length = c.blocks.length := by
  obtain ⟨d, hd, dm, _⟩ := s.material.count
  obtain ⟨_, _, _, _, e1, _⟩ := describe_eq hd
  omega

theorem keys_length (s : Setup hash rng ctx lpn c g tp pre masks keys errors nr nz) :
    keys.length = 2 * lpn.keyLen * c.blocks.length := by
  obtain ⟨d, hd, _, dk, _⟩ := s.material.count
  obtain ⟨_, _, _, _, _, e2, _⟩ := describe_eq hd
  rw [dk, e2]

theorem maskAt (s : Setup hash rng ctx lpn c g tp pre masks keys errors nr nz) {mb : Nat → Nat → Nat}
    (hmb : MaskBits masks mb) {gate : PackedGate} {x : Nat} {db ds : Nat → Nat} (hsrc : c.Sources gate x db ds) (i : Nat)
    (hi : i < gate.kind.arity) : at2 masks (db i) (ds i) = (mb (db i) (ds i) : F) := by
  obtain ⟨w, _, h⟩ := hsrc i hi
  exact (hmb _ _).2 (by rw [masks_length s]; exact (drives_lt s.circ h).1)

theorem maskOut (s : Setup hash rng ctx lpn c g tp pre masks keys errors nr nz) {mb : Nat → Nat → Nat}
    (hmb : MaskBits masks mb) {gate : PackedGate} {gid : Nat} (hg : c.gates[gid]? = some gate) (x : Nat) :
    at2 masks (c.inputs.length + gid) x = (mb (c.inputs.length + gid) x : F) := by
  refine (hmb _ _).2 ?_
  rw [masks_length s]
  have := (List.getElem?_eq_some_iff.1 hg).1
  simp [PackedCircuit.blocks]
  omega

theorem garble_bits (s : Setup hash rng ctx lpn c g tp pre masks keys errors nr nz)
    {tables : List (List (List (List F)))} {st : GarbleState F} (hrun : garble ctx g tp pre = some (tables, st))
    {mb : Nat → Nat → Nat} (hmb : MaskBits masks mb)
    {gid : Nat} {gate : PackedGate} (hg : c.gates[gid]? = some gate) (db ds : Nat → Nat → Nat)
    (hsrc : ∀ x < gate.out.length, c.Sources gate x (db x) (ds x)) :
    ∃ table, tables[gid]? = some table ∧
      Encrypts hash rng ctx lpn g.enc c errors gid gate.out.length gate.kind.numRows
        (fun r x => readKey gate.kind lpn.keyLen keys (db x) (ds x) r)
        (fun r x j => labelMsg lpn.keyLen c.blocks.length masks keys (c.inputs.length + gid)
          (rowBit gate.kind r (mb (db x 0) (ds x 0)) (mb (db x 1) (ds x 1)) (mb (c.inputs.length + gid) x)) j x) table := by
  obtain ⟨table, h1, h2⟩ := garble_encrypts s hrun hg db ds hsrc
  refine ⟨table, h1, h2.congr (fun _ _ _ _ _ _ => rfl) ?_⟩
  intro r hr x hx j hj
  have m0 := maskAt s hmb (hsrc x hx) 0
  have m1 := maskAt s hmb (hsrc x hx) 1
  have m2 := maskOut s hmb hg x
  have hlt : rowBit gate.kind r (mb (db x 0) (ds x 0)) (mb (db x 1) (ds x 1)) (mb (c.inputs.length + gid) x) < 2 := by
    unfold rowBit
    cases gate.kind <;> exact Nat.mod_lt _ (by decide)
  unfold rowMsg
  rw [← pick_msg _ _ _ _ _ _ _ _ hlt]
  congr 2
  rw [m2]
  unfold rowBit codeSel
  cases hk : gate.kind <;> rw [hk] at m0 m1 <;> simp only [GateKind.arity] at m0 m1 <;> simp only [cast_mod_two]
  · rw [m0 (by decide), m1 (by decide)]
    push_cast
    simp only [cast_mod_two]
  · rw [m0 (by decide), m1 (by decide)]
    push_cast
    simp only [cast_mod_two]
  · rw [m0 (by decide)]
    push_cast
    rfl

theorem mapM_one {α β : Type} {f : α → Option β} {x : α} {y : β}
    (h : ((List.range 1).map fun _ => x).mapM f = some ((List.range 1).map fun _ => y)) : f x = some y := by
  rw [show ((List.range 1).map fun _ => x) = [x] from rfl, show ((List.range 1).map fun _ => y) = [y] from rfl] at h
  simp only [List.mapM_cons, List.mapM_nil] at h
  cases hx : f x with
  | none => rw [hx] at h; exact absurd h (by simp)
  | some z =>
    rw [hx] at h
    simpa using h

omit [DecidableEq F] in
theorem mulVec_entry {k mssgLen : Nat} {enc : Mat F} (he : rsGenMat (k + 1) mssgLen = some enc)
    (hm : mssgLen < CodeField.order F) (p : Nat → F) :
    enc.mulVec ((List.range (k + 1)).map p)
      = some ((List.range mssgLen).map fun a => ∑ j ∈ Finset.range (k + 1), enc.entry a j * p j) := by
  have := encodePlain_tab he hm 1 fun _ => p
  unfold encodePlain at this
  have := mapM_one this
  exact this

theorem hdist_tab {n : Nat} (f h : Nat → F) :
    hdist ((List.range n).map f) ((List.range n).map h) = ((List.range n).filter fun a => f a ≠ h a).length := by
  unfold hdist
  rw [List.zip_map', List.filter_map, List.length_map]
  rfl

end setup

end Verif
