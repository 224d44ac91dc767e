import Verif.PreprocSizeLemmas
import Verif.GarbleExist
import Verif.Props.EndToEnd

/-!
# Properties of the sizes which `preproc_size` prints
-/

open Verif

namespace Verif.Props

/-! ### C85: the size of preprocessing material -/

/-- C85, material as bytes.  Serialized material of any shape whose vectors fit into memory is read back, whatever follows it in the
file (as the five vectors; what becomes of the shape of the keys is C53). -/
theorem C85_bytes (W : Nat) (hW : W ≤ 32) (p : PreProc (GF W)) (rest : List Nat) (h1 : p.masks.length < 2 ^ 64)
    (h2 : p.keys.flat.length < 2 ^ 64) (h3 : p.randoms.length < 2 ^ 64) (h4 : p.zeros.length < 2 ^ 64)
    (h5 : p.errors.length < 2 ^ 64) :
    PreProcSer.read W (p.ser.bytes (gfCodec W) ++ rest)
      = some (⟨p.masks.map (·.val), p.keys.flat.map (·.val), p.randoms.map (·.val), p.zeros.map (·.val),
          p.errors.map (·.val)⟩, rest) := by
  unfold PreProcSer.read PreProcSer.bytes PreProc.ser
  simp only [List.append_assoc]
  rw [vecRead_roundtrip W hW _ _ h1, Option.bind_some]
  simp only []
  rw [vecRead_roundtrip W hW _ _ h2, Option.bind_some]
  simp only []
  rw [vecRead_roundtrip W hW _ _ h3, Option.bind_some]
  simp only []
  rw [vecRead_roundtrip W hW _ _ h4, Option.bind_some]
  simp only []
  rw [vecRead_roundtrip W hW _ _ h5]
  rfl

example : (⟨[⟨1, by decide⟩, ⟨2, by decide⟩], [], [⟨3, by decide⟩], [], []⟩ : PreProcSer (GF 18)).bytes (gfCodec 18)
    = [2, 0, 0, 0, 0, 0, 0, 0, 1, 0, 0, 2, 0, 0, 0, 0, 0, 0, 0, 0, 0, 0, 1, 0, 0, 0, 0, 0, 0, 0, 3, 0, 0,
       0, 0, 0, 0, 0, 0, 0, 0, 0, 0, 0, 0, 0, 0, 0, 0] := by decide +kernel

section
variable {F : Type} [CodeField F] [DecidableEq F]

/-- C85, the report.  For every circuit `preproc_size` prints a report: the described numbers, and as size 8 bytes for each of the
five vectors and the bytes of one field element for each described share. -/
theorem C85_report (c : Codec F) (B : Nat) (hw : c.Width B) (ctx : Ctx F) (h : ctx.Good) (lpn : LpnParams) (circ : PackedCircuit)
    (pool : Nat) (hpool : 1 ≤ pool) (tp : DummyTape F) (ht : tp.Ok ctx.n ctx.t ctx.l pool) :
    ∃ desc, circ.describe ctx.n ctx.t ctx.l lpn = some desc ∧
      preprocSize c ctx lpn circ pool tp = some
        { masks := desc.masks, keys := desc.numKeys, randoms := desc.randoms, zeros := desc.zeros, errors := desc.errors
          size := 40 + B * (desc.masks + desc.numKeys + desc.randoms + desc.zeros + desc.errors)
          genRandoms := desc.numKeys + desc.randoms + 3 * desc.errors
          genZeros := desc.zeros + 2 * desc.errors
          genBits := desc.masks + 2 * desc.errors } := by
  obtain ⟨desc, hdesc⟩ := describe_some circ ctx.n ctx.t ctx.l lpn h.posL
  obtain ⟨outs, h1, h2, h3, h4, h5, h6, h7⟩ := C52_dummy ctx h pool hpool desc tp ht
  have hn := h.posN
  obtain ⟨hl, hget, _⟩ := mapM_range_get (PreProc.mk [] ⟨(0, 0, 0), []⟩ [] [] []) h1
  have h0 := hget 0 hn
  have hp : outs[0]? = some (outs.getD 0 (PreProc.mk [] ⟨(0, 0, 0), []⟩ [] [] [])) := by
    rw [List.getD_eq_getElem outs _ (by omega), List.getElem?_eq_getElem]
  generalize outs.getD 0 (PreProc.mk [] ⟨(0, 0, 0), []⟩ [] [] []) = p at h0 hp
  have len : ∀ (f : PreProc F → List F) (k : Nat) (pos : List F) (secrets : List (List F)),
      VecSharing ctx.n k pos secrets (outs.map f) → (f p).length = secrets.length := by
    rintro f k pos _ ⟨ps, _, hs, rfl⟩
    have := congrArg (fun y => y[0]?) hs
    simp only [List.getElem?_map, hp, List.getElem?_range hn, Option.map_some, Option.some.injEq] at this
    rw [this, List.length_map, List.length_map]
  refine ⟨desc, hdesc, ?_⟩
  unfold preprocSize
  rw [hdesc, Option.bind_some, h0, Option.map_some, bytes_length hw]
  unfold PreProc.ser
  simp only []
  rw [len _ _ _ _ h2, len _ _ _ _ h4, len _ _ _ _ h5, len _ _ _ _ h6, len _ _ _ _ h7]
  simp [PreProcCount.numKeys]

/-- C85 holds for the numbers of shares, but not for the size: the material which `preproc` makes with the described numbers has the
described numbers of masks, keys and errors, and the rest of the last batch of random and of zero shares on top, so its size
is the printed one plus less than two batches of field elements. -/
theorem C85_material_partial (c : Codec F) (B : Nat) (hw : c.Width B) (ctx : Ctx F) (h : ctx.Good)
    (hd : 2 * (ctx.t + ctx.l - 1) < ctx.n) (lpn : LpnParams) (circ : PackedCircuit) (pool : Nat) (hpool : 1 ≤ pool)
    (dtp : DummyTape F) (hdt : dtp.Ok ctx.n ctx.t ctx.l pool) (m mb : Mat F) (hm : DealMat ctx.n m) (hmb : DealMat ctx.n mb)
    (desc : PreProcCount) (hdesc : circ.describe ctx.n ctx.t ctx.l lpn = some desc) (tp : PreTapes F)
    (ht : tp.Ok ctx.n ctx.t ctx.l m mb desc) :
    ∃ report outs sr sz, preprocSize c ctx lpn circ pool dtp = some report ∧ preproc ctx m mb desc tp = some outs ∧
      outs.length = ctx.n ∧ RoundedUp report.genRandoms m.rows.length (report.genRandoms + sr) ∧
      RoundedUp report.genZeros m.rows.length (report.genZeros + sz) ∧ sr < m.rows.length ∧ sz < m.rows.length ∧
      ∀ o ∈ outs, o.masks.length = report.masks ∧ o.keys.flat.length = report.keys ∧ o.randoms.length = report.randoms + sr ∧
        o.zeros.length = report.zeros + sz ∧ o.errors.length = report.errors ∧
        (o.ser.bytes c).length = report.size + B * (sr + sz) := by
  obtain ⟨desc', hdesc', hrep⟩ := C85_report c B hw ctx h lpn circ pool hpool dtp hdt
  rw [hdesc, Option.some.injEq] at hdesc'
  subst hdesc'
  obtain ⟨outs, br, bz, h1, h2, h3, h4, h5⟩ := preproc_lengths ctx h hd m mb hm hmb desc tp ht
  have hr0 : 0 < m.rows.length := List.length_pos_of_ne_nil hm.2.2
  have e3 := surplus_eq h3
  have e4 := surplus_eq h4
  refine ⟨_, outs, (m.rows.length - (desc.numKeys + desc.randoms + 3 * desc.errors) % m.rows.length) % m.rows.length,
    (m.rows.length - (desc.zeros + 2 * desc.errors) % m.rows.length) % m.rows.length, hrep, h1, h2, ?_, ?_, Nat.mod_lt _ hr0, Nat.mod_lt _ hr0, ?_⟩
  · have := (numBatches_spec h3).2
    rw [e3] at this
    exact this
  · have := (numBatches_spec h4).2
    rw [e4] at this
    exact this
  intro o ho
  obtain ⟨k1, k2, k3, k4, k5⟩ := h5 o ho
  rw [e3] at k3
  rw [e4] at k4
  generalize (m.rows.length - (desc.numKeys + desc.randoms + 3 * desc.errors) % m.rows.length) % m.rows.length = sr at k3 ⊢
  generalize (m.rows.length - (desc.zeros + 2 * desc.errors) % m.rows.length) % m.rows.length = sz at k4 ⊢
  have k3 : o.randoms.length = desc.randoms + sr := by omega
  have k4 : o.zeros.length = desc.zeros + sz := by omega
  refine ⟨k1, k2, k3, k4, k5, ?_⟩
  rw [bytes_length hw]
  unfold PreProc.ser
  simp only [k1, k2, k3, k4, k5]
  ring

/-- The printed size is right exactly if both numbers of requested shares are multiples of the number of rows of the matrix. -/
theorem C85_material_iff_partial (c : Codec F) (B : Nat) (hB : 0 < B) (hw : c.Width B) (ctx : Ctx F) (h : ctx.Good)
    (hd : 2 * (ctx.t + ctx.l - 1) < ctx.n) (lpn : LpnParams) (circ : PackedCircuit) (pool : Nat) (hpool : 1 ≤ pool)
    (dtp : DummyTape F) (hdt : dtp.Ok ctx.n ctx.t ctx.l pool) (m mb : Mat F) (hm : DealMat ctx.n m) (hmb : DealMat ctx.n mb)
    (desc : PreProcCount) (hdesc : circ.describe ctx.n ctx.t ctx.l lpn = some desc) (tp : PreTapes F)
    (ht : tp.Ok ctx.n ctx.t ctx.l m mb desc) :
    ∃ report outs, preprocSize c ctx lpn circ pool dtp = some report ∧ preproc ctx m mb desc tp = some outs ∧
      ∀ o ∈ outs, (o.ser.bytes c).length = report.size ↔
        m.rows.length ∣ report.genRandoms ∧ m.rows.length ∣ report.genZeros := by
  obtain ⟨report, outs, sr, sz, h1, h2, _, h3, h4, h5, h6, h7⟩ := C85_material_partial c B hw ctx h hd lpn circ pool hpool dtp hdt m mb
    hm hmb desc hdesc tp ht
  refine ⟨report, outs, h1, h2, fun o ho => ?_⟩
  obtain ⟨_, _, _, _, _, h8⟩ := h7 o ho
  have key : ∀ {num s : Nat}, RoundedUp num m.rows.length (num + s) → s < m.rows.length → (m.rows.length ∣ num ↔ s = 0) := by
    intro num s hr hs
    constructor
    · intro hdvd
      have h9 : m.rows.length ∣ s := (Nat.dvd_add_right hdvd).1 hr.1.2
      exact Nat.eq_zero_of_dvd_of_lt h9 hs
    · rintro rfl
      exact hr.1.2
  rw [h8, key h3 h5, key h4 h6]
  have : B * (sr + sz) = 0 ↔ sr + sz = 0 := by
    rw [Nat.mul_eq_zero]
    omega
  omega

end

/-- The circuit of the examples of C84, packed. -/
def halfAdderPacked : PackedCircuit :=
  ⟨[.and ⟨#v[[0], [1]], [3]⟩, .xor ⟨#v[[0], [1]], [2]⟩], [[0, 1]], [[3, 2]], 4, 2⟩

/-- C85 is false for the size: for the half adder, seven parties and a matrix with two rows, `preproc_size` prints a total size of
367 bytes (over GF(16)), and the material of every party takes 369 bytes, whatever the random choices are. -/
theorem C85_size_false : ∃ ctx : Ctx (GF 4), exCtx = some ctx ∧
    ∀ (pool : Nat) (dtp : DummyTape (GF 4)), 1 ≤ pool → dtp.Ok 7 2 2 pool →
      (preprocSize (gfCodec 4) ctx ⟨1, 3⟩ halfAdderPacked pool dtp).map (·.size) = some 367 ∧
      ∀ desc, halfAdderPacked.describe 7 2 2 ⟨1, 3⟩ = some desc → ∀ tp : PreTapes (GF 4), tp.Ok 7 2 2 exDeal exDeal desc →
        ∃ outs, preproc ctx exDeal exDeal desc tp = some outs ∧ outs.length = 7 ∧
          ∀ o ∈ outs, (o.ser.bytes (gfCodec 4)).length = 369 := by
  obtain ⟨ctx, hctx, hg, hn, ht, hl⟩ := exCtx_good
  refine ⟨ctx, hctx, fun pool dtp hpool hdt => ?_⟩
  have hd : halfAdderPacked.describe 7 2 2 ⟨1, 3⟩ = some ⟨3, (2, 1, 3), 117, 177, 24⟩ := by decide +kernel
  have hw : (gfCodec 4).Width 1 := gfCodec_width (W := 4) (by norm_num)
  constructor
  · obtain ⟨desc, h1, h2⟩ := C85_report (gfCodec 4) 1 hw ctx hg ⟨1, 3⟩ halfAdderPacked pool hpool dtp (by rw [hn, ht, hl]; exact hdt)
    rw [hn, ht, hl, hd, Option.some.injEq] at h1
    subst h1
    rw [h2]
    rfl
  · intro desc hdesc tp htp
    rw [hd, Option.some.injEq] at hdesc
    subst hdesc
    obtain ⟨outs, br, bz, h1, h2, h3, h4, h5⟩ := preproc_lengths ctx hg (by omega) exDeal exDeal (by rw [hn]; exact exDeal_ok.1)
      (by rw [hn]; exact exDeal_ok.1) _ tp (by rw [hn, ht, hl]; exact htp)
    have e1 : br = 98 := by
      have : numBatches 195 2 = some 98 := by decide
      exact (Option.some.inj (h3.symm.trans this))
    have e2 : bz = 113 := by
      have : numBatches 225 2 = some 113 := by decide
      exact (Option.some.inj (h4.symm.trans this))
    subst e1 e2
    refine ⟨outs, h1, by omega, fun o ho => ?_⟩
    obtain ⟨k1, k2, k3, k4, k5⟩ := h5 o ho
    rw [bytes_length hw]
    unfold PreProc.ser
    simp only [k1, k2, k3, k4, k5]
    rfl

/-- There are such tapes: `preproc` and `preproc_size` run, and the sizes differ. -/
example : ∃ (ctx : Ctx (GF 4)) (tp : PreTapes (GF 4)) (outs : List (PreProc (GF 4))), exCtx = some ctx ∧
    (preprocSize (gfCodec 4) ctx ⟨1, 3⟩ halfAdderPacked 1
      ⟨[[1], [0], [1], [1]], [[1], [0], [0], [0], [1]], [[true], [false]], [[1], [1]]⟩).map (·.size) = some 367 ∧
    preproc ctx exDeal exDeal ⟨3, (2, 1, 3), 117, 177, 24⟩ tp = some outs ∧ outs.length = 7 ∧
    ∀ o ∈ outs, (o.ser.bytes (gfCodec 4)).length = 369 := by
  obtain ⟨ctx, hctx, h⟩ := C85_size_false
  obtain ⟨h1, h2⟩ := h 1 ⟨[[1], [0], [1], [1]], [[1], [0], [0], [0], [1]], [[true], [false]], [[1], [1]]⟩ le_rfl
    ⟨by decide, by decide, by decide, by decide⟩
  obtain ⟨tp, htp⟩ := preTapes_exist 7 2 2 exDeal exDeal (by simp [exDeal]) (by simp [exDeal]) ⟨3, (2, 1, 3), 117, 177, 24⟩
  obtain ⟨outs, h3⟩ := h2 _ (by decide +kernel) tp htp
  exact ⟨ctx, tp, outs, hctx, h1, h3⟩

end Verif.Props
