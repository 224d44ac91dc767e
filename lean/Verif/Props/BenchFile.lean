import Verif.BenchFileSpec
import Verif.JsonLemmas
import Verif.Props.AsyncExit

/-!
# The file which the benchmark programs save
-/

open Verif

namespace Verif.Props

/-! ### C106: the saved file -/

/-- C106, JSON.  Reading a text which was written gives what was written. -/
theorem C106_roundtrip (esc : Escapes) (v : Json) (h : v.Ok) : Json.parse (v.dump esc) = some v := Json.parse_dump esc v h

theorem okArr_of {l : List Json} (h : ∀ v ∈ l, v.Ok) : Json.OkArr l := by
  induction l with
  | nil => trivial
  | cons x l ih => exact ⟨h x List.mem_cons_self, ih fun v hv => h v (List.mem_cons_of_mem _ hv)⟩

theorem rep_ok {r : BenchRep} (h : r.Ok) : r.json.Ok := by
  refine ⟨h.1, ?_, trivial⟩
  refine okArr_of fun v hv => ?_
  obtain ⟨c, hc, rfl⟩ := List.mem_map.1 hv
  exact ⟨(h.2 c hc).1, (h.2 c hc).2, trivial⟩

theorem rep_is (r : BenchRep) : r.json.IsRep r := by
  refine ⟨rfl, _, rfl, ?_, fun q x hx => ⟨.arr [.num x.1, .num x.2], ?_, rfl, rfl, rfl⟩⟩
  · simp [Json.at?]
  · simp only [Json.at?, List.getElem?_map, hx, Option.map_some]

theorem reps_is (rs : List BenchRep) : (Json.arr (rs.map BenchRep.json)).IsReps rs := by
  refine ⟨?_, fun i r hr => ⟨r.json, ?_, rep_is r⟩⟩
  · simp [Json.at?]
  · simp only [Json.at?, List.getElem?_map, hr, Option.map_some]

/-- The data of the messages, and the file written from them. -/
theorem saveFile_dumps (esc : Escapes) (o : BenchOpts) (n : Nat) (datum : Nat → Json) (h : ∀ p < n, (datum p).Ok) (ho : o.Ok) :
    ∃ file doc det, saveFile esc o ((List.range n).map fun p => (datum p).dump esc) = some file ∧ Json.parse file = some doc ∧
      doc.get? "benchmarks" = some (.arr ((List.range n).map datum)) ∧ doc.get? "details" = some det ∧ det.DetailsOf o ∧
      det.get? "threads" = some (.num o.reps) := by
  have hmap : ((List.range n).map fun p => (datum p).dump esc).mapM Json.parse = some ((List.range n).map datum) := by
    rw [List.mapM_map]
    have : ∀ l : List Nat, (∀ p ∈ l, (datum p).Ok) → l.mapM (Json.parse ∘ fun p => (datum p).dump esc) = some (l.map datum) := by
      intro l
      induction l with
      | nil => intro _; rfl
      | cons p l ih =>
        intro hl
        rw [List.mapM_cons, Function.comp, Json.parse_dump esc _ (hl p List.mem_cons_self)]
        change Option.bind (some (datum p)) _ = _
        rw [Option.bind_some, ih fun q hq => hl q (List.mem_cons_of_mem _ hq)]
        rfl
    exact this _ fun p hp => h p (List.mem_range.1 hp)
  refine ⟨_, Json.obj [(ascii "details", o.details), (ascii "benchmarks", .arr ((List.range n).map datum))], o.details, ?_,
    Json.parse_dump esc _ ⟨?_, okArr_of fun v hv => ?_, trivial⟩, ?_, ?_, ?_, ?_⟩
  · unfold saveFile
    rw [hmap]
    rfl
  · exact ⟨ho.n, ho.t, ho.l, trivial, ho.tau, ho.keyLen, ho.mssgLen, ho.reps, ho.reps, trivial⟩
  · obtain ⟨p, hp, rfl⟩ := List.mem_map.1 hv
    exact h p (List.mem_range.1 hp)
  · rfl
  · rfl
  · constructor <;> rfl
  · rfl

/-- Once party 0 has ended, its last task does not change any more. -/
theorem gone_collected {O : Type} {n : Nat} {jobs : List (Job O)} {last : Nat} {es : List SStep} {x x' : XSys O}
    (hx : x.gone 0 = true → x.sys.collected n last = true) (h : saveRun n jobs last x es = some x') :
    x'.gone 0 = true → x'.sys.collected n last = true := by
  induction es generalizing x with
  | nil =>
    cases h
    exact hx
  | cons e es ih =>
    unfold saveRun at h
    obtain ⟨x1, h1, h2⟩ := Option.bind_eq_some_iff.1 h
    refine ih (fun hg => ?_) h2
    cases e with
    | sys e =>
      unfold saveStep at h1
      simp only [] at h1
      split at h1
      · cases h1
      · next hc =>
        obtain ⟨s1, h3, h4⟩ := Option.map_eq_some_iff.1 h1
        rw [← h4] at hg ⊢
        have hg' : x.gone 0 = true := hg
        have hloc := Sys.step_loc h3 (p := 0) (j := last) (by
          rintro rfl
          exact hc (Or.inl hg'))
        have := hx hg'
        unfold Sys.collected at this ⊢
        rw [← hloc] at this
        exact this
    | finish =>
      unfold saveStep at h1
      simp only [] at h1
      split at h1
      · next hc =>
        cases h1
        exact hc.2
      · cases h1

section
variable {O : Type} (n : Nat) (hn : 0 < n) (bid : ProtocolID) (o : O) (bodies : List (List (Job O))) (outs : List (List (List O)))
  (hseq : List.Forall₂ (fun b c => seqRun n b = some c) bodies outs) (hids : ∀ b ∈ bodies, IdsOk b)
  (hbid : ∀ b ∈ bodies, ∀ j ∈ b, j.id ≠ bid) (hfree : ∀ b ∈ bodies, ∃ j ∈ b, j.proto.leader = none)
include hn hseq hids hbid hfree

/-- In every schedule of the programs with `--save`, party 0 collects the messages with the measurements of the parties, in the order of
the parties, and no other messages. -/
theorem C106_messages (data : Nat → List Nat) :
    ∃ last, (benchJobs bid o (some data) bodies).length = last + 1 ∧
      ∀ (es : List SStep) (x : XSys O), saveRun n (benchJobs bid o (some data) bodies) last XSys.start es = some x →
        (∀ g, x.sys.loc 0 last = .gather g → g.counter = n → g.mssgs = (List.range n).map data) ∧
        ((∀ e, saveStep n (benchJobs bid o (some data) bodies) last x e = none) →
          ∃ g, x.sys.loc 0 last = .gather g ∧ g.counter = n) := by
  have hlast : (benchJobs bid o (some data) bodies)[benchStart bodies bodies.length]?
      = some ⟨bid, List.range (benchStart bodies bodies.length), saveProto o data⟩ := by
    unfold benchJobs
    rw [List.getElem?_append_right (by rw [benchLoop_length]), benchLoop_length, Nat.sub_self]
    rfl
  have hseq' := bench_seq (bid := bid) (o := o) (save := some data) hn outs hseq
  have hids' := bench_ids (o := o) (save := some data) hids hbid hfree
  obtain ⟨_, hfin⟩ := C45_schedules n _ _ hseq' hids'
  have : Inhabited O := ⟨o⟩
  obtain ⟨y, hplan, _⟩ := exists_plan hseq' hids'
  refine ⟨benchStart bodies bodies.length, by rw [benchJobs_length]; rfl, fun es x hrun => ?_⟩
  obtain ⟨es1, i1, i2, i3, i4⟩ := save_run hplan hn hlast rfl hrun (es0 := []) rfl rfl (by simp [XSys.start]) (k := 0)
    (by simp [XSys.start])
  have hinv := hplan.inv i1
  refine ⟨fun g hg hc => ?_, fun hst => ?_⟩
  · rw [(gather_full hinv hplan hlast hn hg hc).2]
    refine List.map_congr_left fun p hp => ?_
    have hp := List.mem_range.1 hp
    have h1 := hplan.sends _ _ hlast p hp
    have h2 := hplan.addressed _ _ hlast p hp 0 hn
    simp only [saveProto, Option.some.injEq] at h1
    rw [← h1, if_pos (by rfl)] at h2
    simp only [Recipient.includes, List.filter_cons, List.filter_nil, decide_true, if_true, List.map_cons, List.map_nil,
      List.cons.injEq, and_true] at h2
    exact h2.symm
  · obtain ⟨jobs', last', B, rfl, hl', hrest⟩ := C80_save_false n hn bid o data bodies outs hseq hids hbid hfree
    have hll : last' = benchStart bodies bodies.length := by
      rw [benchJobs_length] at hl'
      simpa using hl'.symm
    subst hll
    have hcol := gone_collected (by intro h; cases h) hrun ((hrest es x hrun).2.2 hst)
    unfold Sys.collected at hcol
    split at hcol
    · rename_i g hg
      exact ⟨g, hg, by simpa using hcol⟩
    · cases hcol

/-- C106.  Whatever the parties measured and whatever the schedule is: with `--save`, party 0 gets to the point where it writes the file, and
the file is a JSON text which holds the data of all parties in the order of the parties, and the options, except for the number of
threads. -/
theorem C106_file_partial (esc : Escapes) (opts : BenchOpts) (ho : opts.Ok) (datum : Nat → Json) (hd : ∀ p < n, (datum p).Ok) :
    ∃ jobs last, jobs = benchJobs bid o (some fun p => (datum p).dump esc) bodies ∧ jobs.length = last + 1 ∧
      ∃ file doc det, Json.parse file = some doc ∧ doc.get? "benchmarks" = some (.arr ((List.range n).map datum)) ∧
        doc.get? "details" = some det ∧ det.DetailsOf opts ∧
        ∀ (es : List SStep) (x : XSys O), saveRun n jobs last XSys.start es = some x →
          (∀ g, x.sys.loc 0 last = .gather g → g.counter = n → saveFile esc opts g.mssgs = some file) ∧
          ((∀ e, saveStep n jobs last x e = none) → ∃ g, x.sys.loc 0 last = .gather g ∧ g.counter = n) := by
  obtain ⟨last, h1, h2⟩ := C106_messages n hn bid o bodies outs hseq hids hbid hfree fun p => (datum p).dump esc
  obtain ⟨file, doc, det, f1, f2, f3, f4, f5, _⟩ := saveFile_dumps esc opts n datum hd ho
  refine ⟨_, last, rfl, h1, file, doc, det, f2, f3, f4, f5, fun es x hrun => ⟨fun g hg hc => ?_, (h2 es x hrun).2⟩⟩
  rw [(h2 es x hrun).1 g hg hc, f1]

end

/-- C106, `src/bin/preproc.rs`: the data of a party gives back the measurements of its repetitions. -/
theorem C106_preproc_data (rs : List BenchRep) (h : ∀ r ∈ rs, r.Ok) : (preprocData rs).Ok ∧ (preprocData rs).IsReps rs :=
  ⟨okArr_of fun v hv => by
    obtain ⟨r, hr, rfl⟩ := List.mem_map.1 hv
    exact rep_ok (h r hr), reps_is rs⟩

/-- C106, `src/bin/garble.rs`: the data of a party gives back the time of the computation before the repetitions, and the measurements of its
repetitions. -/
theorem C106_garble_data (onetime : Nat) (h0 : onetime < 2 ^ 64) (rs : List BenchRep) (h : ∀ r ∈ rs, r.Ok) :
    (garbleData onetime rs).Ok ∧ (garbleData onetime rs).get? "onetime_comp" = some (.num onetime) ∧
      ∃ v, (garbleData onetime rs).get? "garbling" = some v ∧ v.IsReps rs :=
  ⟨⟨h0, okArr_of fun v hv => by
    obtain ⟨r, hr, rfl⟩ := List.mem_map.1 hv
    exact rep_ok (h r hr), trivial⟩, rfl, _, rfl, reps_is rs⟩

/-- C106 is false for the number of threads: the file has the number of repetitions in its place. -/
theorem C106_threads_false (esc : Escapes) (opts : BenchOpts) (ho : opts.Ok) (hne : opts.threads ≠ opts.reps) (mssgs : List (List Nat))
    (ds : List Json) (hd : ∀ d ∈ ds, d.Ok) (hm : mssgs = ds.map (Json.dump esc)) :
    ∃ file doc det, saveFile esc opts mssgs = some file ∧ Json.parse file = some doc ∧ doc.get? "details" = some det ∧
      det.get? "threads" ≠ some (.num opts.threads) := by
  obtain ⟨file, doc, det, f1, f2, f3, f4, f5, f6⟩ := saveFile_dumps esc opts ds.length (fun p => ds.getD p (.num 0))
    (fun p hp => by
      rw [List.getD_eq_getElem?_getD, List.getElem?_eq_getElem hp]
      exact hd _ (List.getElem_mem hp)) ho
  refine ⟨file, doc, det, ?_, f2, f4, ?_⟩
  · rw [← f1, hm]
    congr 1
    apply List.ext_getElem (by simp)
    intro i h1 h2
    simp at h1
    simp [h1]
  · rw [f6]
    intro h
    injection h with h
    injection h with h
    exact hne h.symm

/-- One repetition of a protocol with two parties, in bytes. -/
example : (preprocData [⟨12, [(0, 0), (345, 6789)]⟩]).dump (fun _ => false) = ascii "[{\"time\":12,\"comm\":[[0,0],[345,6789]]}]" := by
  decide +kernel

/-- The path of the circuit may have any bytes. -/
example : Json.parse (Json.dump (fun b => b = 127) (.obj [(ascii "circ", .str (ascii "a\"b\\c\n" ++ [127, 195, 164, 1])), (ascii "n", .num 20)])) =
    some (.obj [(ascii "circ", .str (ascii "a\"b\\c\n" ++ [127, 195, 164, 1])), (ascii "n", .num 20)]) :=
  C106_roundtrip _ _ ⟨trivial, show 20 < 2 ^ 64 by decide, trivial⟩

/-- Two parties without repetitions: a schedule in which party 0 writes the file. -/
example : ∃ x g file, saveRun 2 (benchJobs preprocBenchId () (some fun _ => (preprocData []).dump fun _ => false) []) 0 XSys.start
      ((List.replicate 3 (.sys (.act 0 0))) ++ (List.replicate 3 (.sys (.act 1 0))) ++
        [.sys (.deliver 1 0), .sys (.deliver 0 0), .sys (.act 0 0), .sys (.act 0 0), .finish]) = some x ∧
    x.sys.loc 0 0 = .gather g ∧ g.counter = 2 ∧ saveFile (fun _ => false) ⟨2, 0, 1, ascii "c.txt", 2, 127, 555, 0, 4⟩ g.mssgs = some file ∧
    file = ascii ("{\"details\":{\"n\":2,\"t\":0,\"l\":1,\"circ\":\"c.txt\",\"lpn_tau\":2,\"lpn_key_len\":127,\"lpn_mssg_len\":555," ++
      "\"reps\":0,\"threads\":0},\"benchmarks\":[[],[]]}") := by
  refine ⟨_, _, _, rfl, rfl, rfl, rfl, ?_⟩
  decide +kernel

end Verif.Props
