import Verif.AsyncByzLemmas
import Verif.AsyncProto

/-!
# C111: parties which send whatever they like

Wanted: what some parties send in place of the protocols' messages does not touch the messages between the others, and only the leader can give
the leader's answer.  The first is true, also for what is computed from a message of each party; the second is not:
`reduce_degree` and `trans` take the first message with their ID for the leader's answer (`net.recv(id)`, `src/protocol/core.rs:78-79`,
`191-192`), whoever has sent it.
-/

namespace Verif.Props

open Verif

variable {O : Type} {n : Nat} {jobs : List (Job O)} {Cs : Finset Nat}

/-- C111. Whatever the parties in `Cs` send, for two other parties `p` and `q`: what job `j` of `p` has sent to `q` is, in this order, what job `j` of
`q` has received from `p`, what waits for it at `q`, and what is under way. -/
theorem C111_intact (hids : DistinctIds jobs) {es : List ByzStep} {s : Sys O} (hrun : Sys.start.byzRun n jobs Cs es = some s)
    {j : Nat} {job : Job O} (hj : jobs[j]? = some job) {p q : Nat} (hp : p ∉ Cs) :
    s.sent j p q
      = (((s.got q).filter fun y => y.1 = j ∧ y.2.msg.sender = p).map fun y => y.2.msg.data)
        ++ (((s.inbox q).filter fun m => m.msg.protoId = job.id ∧ m.msg.sender = p).map fun m => m.msg.data)
        ++ (((s.chan p q).filter fun m => m.msg.protoId = job.id ∧ m.msg.sender = p).map fun m => m.msg.data) := by
  have h := Sys.ByzInv.run hids Sys.byzInv_start hrun
  rw [h.base.cons j job hj p hp q, fromId_gotBy hids h.base hj]
  unfold fromId dataFrom Sys.gotBy
  rw [List.filter_map, List.map_map, List.filter_filter]
  congr 3
  apply List.filter_congr
  intro y _
  simp only [Function.comp, ← Bool.decide_and, decide_eq_decide]
  exact and_comm

/-- C111. A protocol without leader (`rand`, `zero`, `randbit`, `randtrans`): if it returns at `q`, the result is computed from one message of each
party, and the messages of the parties which follow the protocols are the right ones. -/
theorem C111_gather (hids : DistinctIds jobs) {es : List ByzStep} {s : Sys O} (hrun : Sys.start.byzRun n jobs Cs es = some s)
    {j : Nat} {job : Job O} (hj : jobs[j]? = some job) (hL : job.proto.leader = none) {q : Nat} (hq : q < n) (hC : q ∉ Cs) {o : O}
    (hdone : s.loc q j = .done o) :
    ∃ vals, vals.length = n ∧ job.proto.finish q ((s.env q).only job.deps) vals = some o ∧
      ∀ p, p < n → p ∉ Cs → ∃ l d, job.proto.sends p ((s.env p).only job.deps) = some l ∧ (addressedTo q l)[0]? = some d ∧ vals[p]? = some d := by
  have h := (Sys.ByzInv.run hids Sys.byzInv_start hrun).loc j job hj q hq hC
  rw [hdone] at h
  obtain ⟨_, vals, h1, h2⟩ := h.1 hL
  exact ⟨vals, h1.1, h2, fun p hp hpC => let ⟨l, d, h3, h4⟩ := h1.2 p hp hpC; ⟨l, d, h3.2, h4⟩⟩

theorem addressedTo_answers (q : Nat) (rs : List (List Nat)) :
    addressedTo q (rs.zipIdx.map fun r => (Recipient.one r.2, r.1)) = (rs[q]?).toList := by
  have h : ∀ (rs : List (List Nat)) (k : Nat),
      addressedTo q ((rs.zipIdx k).map fun r => (Recipient.one r.2, r.1)) = if k ≤ q then (rs[q - k]?).toList else [] := by
    intro rs
    induction rs with
    | nil => intro k; simp [addressedTo]
    | cons x rs ih =>
      intro k
      rw [List.zipIdx_cons, List.map_cons, addressedTo_cons, ih (k + 1)]
      by_cases h1 : q = k
      · subst h1
        simp [Recipient.includes]
      · have h0 : ¬ (Recipient.one k).includes q = true := by
          simp only [Recipient.includes, decide_eq_true_eq]
          omega
        rw [if_neg h0, List.nil_append]
        by_cases h2 : k ≤ q
        · rw [if_pos (by omega), if_pos h2, show q - k = (q - (k + 1)) + 1 by omega, List.getElem?_cons_succ]
        · rw [if_neg (by omega), if_neg h2]
  simpa using h rs 0

/-- C111. A protocol with a leader who follows the protocols: when the leader has answered, the answers are computed from one message of each
party, and the messages of the parties which follow the protocols are the right ones; each party is sent its answer. -/
theorem C111_leader (hids : DistinctIds jobs) {es : List ByzStep} {s : Sys O} (hrun : Sys.start.byzRun n jobs Cs es = some s)
    {j : Nat} {job : Job O} (hj : jobs[j]? = some job) {L : Nat} (hL : job.proto.leader = some L) (hLn : L < n) (hC : L ∉ Cs)
    (hw : s.loc L j = .wait ∨ ∃ o, s.loc L j = .done o) :
    ∃ l vals rs, job.proto.sends L ((s.env L).only job.deps) = some l ∧ vals.length = n ∧
      job.proto.answer ((s.env L).only job.deps) vals = some rs ∧
      (∀ p, p < n → p ∉ Cs → ∃ l d, job.proto.sends p ((s.env p).only job.deps) = some l ∧ (addressedTo L l)[0]? = some d ∧ vals[p]? = some d) ∧
      ∀ q, s.sent j L q = addressedTo q l ++ (rs[q]?).toList := by
  have h := (Sys.ByzInv.run hids Sys.byzInv_start hrun).loc j job hj L hLn hC
  have hlater : s.Later n Cs j job L := by
    rcases hw with hw | ⟨o, hw⟩
    · rw [hw] at h
      exact h
    · rw [hw] at h
      exact h.2 (by rw [hL]; simp)
  obtain ⟨pre, l, vals, rs, h1, h2, h3, h4, h5⟩ := hlater.2.2 hL
  refine ⟨l, vals, rs, h1.2, h2.1, h3, fun p hp hpC => ?_, fun q => ?_⟩
  · obtain ⟨l', d, h6, h7⟩ := h2.2 p hp hpC
    exact ⟨l', d, h6.2, h7⟩
  · rw [List.append_nil] at h4
    rw [h5 q, ← h4]
    congr 1
    exact addressedTo_answers q rs

/-! ### The leader's answer -/

/-- Sending the messages in `rest`. -/
theorem send_all {j : Nat} {job : Job O} (hj : jobs[j]? = some job) {q : Nat} (hq : q < n) (hC : q ∉ Cs) (rest : List (Recipient × List Nat))
    (hk : ∀ x ∈ rest, x.1.known n = true) (s : Sys O) (hloc : s.loc q j = .sending rest) (hready : job.ready (s.env q) = true) :
    ∃ s', s.byzRun n jobs Cs (List.replicate rest.length (.sys (.act q j))) = some s' ∧ s'.loc q j = .sending [] ∧ s'.inbox = s.inbox ∧
      (∀ a b, a ≠ q → s'.chan a b = s.chan a b) ∧ s'.env q = s.env q := by
  induction rest generalizing s with
  | nil => exact ⟨s, rfl, hloc, rfl, fun _ _ _ => rfl, rfl⟩
  | cons x rest ih =>
    obtain ⟨s1, h1, h2, h3, h4, h5⟩ : ∃ s1, s.byzStep n jobs Cs (.sys (.act q j)) = some s1 ∧ s1.loc q j = .sending rest ∧ s1.inbox = s.inbox ∧
        (∀ a b, a ≠ q → s1.chan a b = s.chan a b) ∧ s1.env q = s.env q := by
      refine ⟨{ s with
          loc := setLoc s.loc q j (.sending rest)
          chan := fun a b => if a = q ∧ x.1.includes b then s.chan a b ++ [⟨j, ⟨job.id, q, x.2⟩⟩] else s.chan a b
          sent := fun i a b => if i = j ∧ a = q ∧ x.1.includes b then s.sent i a b ++ [x.2] else s.sent i a b }, ?_, ?_, rfl, ?_, ?_⟩
      · simp [Sys.byzStep, hC, Sys.step, hq, hj, Sys.actStep, hready, hloc, Proto.act, hk x (by simp)]
      · simp [setLoc]
      · intro a b ha
        simp [ha]
      · funext d
        unfold Sys.env setLoc
        by_cases hd : d = j
        · subst hd
          simp [hloc]
        · simp [hd]
    obtain ⟨s', g1, g2, g3, g4, g5⟩ := ih (fun y hy => hk y (by simp [hy])) s1 h2 (by rw [h5]; exact hready)
    refine ⟨s', ?_, g2, g3.trans h3, fun a b ha => (g4 a b ha).trans (h4 a b ha), g5.trans h5⟩
    rw [List.length_cons, List.replicate_succ, Sys.byzRun, h1]
    exact g1

/-- C111. Anybody can give the leader's answer: party `q`, who is not the leader, starts job `j` and sends what it has to send.  Before the leader
has received anything, party `c`, who may be somebody else than the leader, sends `data` with the job's ID, and the job ends with what the protocol makes
of `data`. -/
theorem C111_forge_false {j : Nat} {job : Job O} (hj : jobs[j]? = some job) {L q c : Nat} (hL : job.proto.leader = some L) (hqL : q ≠ L)
    (hq : q < n) (hC : q ∉ Cs) (hc : c ∈ Cs) (hcn : c < n) (s : Sys O) (hidle : s.loc q j = .idle) (hready : job.ready (s.env q) = true)
    (hin : ∀ m ∈ s.inbox q, m.msg.protoId ≠ job.id) (hch : s.chan c q = []) {l : List (Recipient × List Nat)}
    (hl : job.proto.sends q ((s.env q).only job.deps) = some l) (hk : ∀ x ∈ l, x.1.known n = true) (data : List Nat) :
    ∃ es s', s.byzRun n jobs Cs es = some s' ∧
      (∀ e ∈ es, e = .sys (.act q j) ∨ e = .inject c q job.id data ∨ e = .sys (.deliver c q)) ∧
      s'.loc q j = (match job.proto.finish q ((s.env q).only job.deps) [data] with | some o => .done o | none => .fail) := by
  have hcq : c ≠ q := fun h => hC (h ▸ hc)
  have happ : ∀ (es es' : List ByzStep) (s s1 : Sys O), s.byzRun n jobs Cs es = some s1 → s.byzRun n jobs Cs (es ++ es') = s1.byzRun n jobs Cs es' := by
    intro es es' 
    induction es with
    | nil =>
      intro s s1 h
      rw [Sys.byzRun, Option.some.injEq] at h
      rw [h]
      rfl
    | cons e es ih =>
      intro s s1 h
      rw [Sys.byzRun, Option.bind_eq_some_iff] at h
      obtain ⟨s2, h1, h2⟩ := h
      rw [List.cons_append, Sys.byzRun, h1]
      exact ih s2 s1 h2
  have henv : ∀ t : TState O, (∀ o, t ≠ .done o) → ∀ s : Sys O, (∀ o, s.loc q j ≠ .done o) →
      ({ s with loc := setLoc s.loc q j t } : Sys O).env q = s.env q := by
    intro t ht s hs
    funext d
    unfold Sys.env setLoc
    by_cases hd : d = j
    · subst hd
      simp only [and_self, if_true]
    · simp [hd]
  -- start
  let s1 : Sys O := { s with loc := setLoc s.loc q j (.sending l) }
  have e1 : s.byzStep n jobs Cs (.sys (.act q j)) = some s1 := by
    simp [Sys.byzStep, hC, Sys.step, hq, hj, Sys.actStep, hready, hidle, Proto.act, hl, orFail, s1]
  have v1 : s1.env q = s.env q := henv _ (by simp) s (by simp [hidle])
  obtain ⟨s2, e2, l2, i2, c2, v2⟩ := send_all (Cs := Cs) hj hq hC l hk s1 (by simp [s1, setLoc]) (by rw [v1]; exact hready)
  -- wait
  let s3 : Sys O := { s2 with loc := setLoc s2.loc q j .wait }
  have hr2 : job.ready (s2.env q) = true := by rw [v2, v1]; exact hready
  have hg : job.proto.gathers q = false := by
    unfold Proto.gathers
    rw [hL]
    simpa using hqL
  have e3 : s2.byzStep n jobs Cs (.sys (.act q j)) = some s3 := by
    simp [Sys.byzStep, hC, Sys.step, hq, hj, Sys.actStep, hr2, l2, Proto.act, hg, s3]
  have v3 : s3.env q = s.env q := (henv _ (by simp) s2 (by simp [l2])).trans (v2.trans v1)
  have i3 : s3.inbox q = s.inbox q := congrFun i2 q
  have c3 : s3.chan c q = [] := (c2 c q hcq).trans hch
  -- the answer
  let m : TMsg := ⟨jobs.length, ⟨job.id, c, data⟩⟩
  let s4 : Sys O := { s3 with chan := fun a b => if a = c ∧ b = q then s3.chan a b ++ [m] else s3.chan a b }
  have e4 : s3.byzStep n jobs Cs (.inject c q job.id data) = some s4 := by
    simp [Sys.byzStep, hc, hcn, hq, s4, m]
  have c4 : s4.chan c q = [m] := by simp [s4, c3]
  let s5 : Sys O := { s4 with
    chan := fun a b => if a = c ∧ b = q then [] else s4.chan a b
    inbox := Function.update s4.inbox q (s4.inbox q ++ [m]) }
  have e5 : s4.byzStep n jobs Cs (.sys (.deliver c q)) = some s5 := by
    simp [Sys.byzStep, Sys.step, hcn, hq, c4, s5]
  have i5 : s5.inbox q = s.inbox q ++ [m] := by
    simp only [s5, Function.update_self]
    rw [show s4.inbox q = s.inbox q from i3]
  have v5 : s5.env q = s.env q := v3
  have l5 : s5.loc q j = .wait := by simp [s5, s4, s3, setLoc]
  have ht : takeFirst job.id (s5.inbox q) = some (m, s.inbox q) := by
    rw [i5]
    generalize s.inbox q = w at hin
    induction w with
    | nil => simp [takeFirst, m]
    | cons y w ih =>
      rw [List.cons_append, takeFirst, if_neg (hin y (by simp)), ih (fun z hz => hin z (by simp [hz]))]
      rfl
  obtain ⟨s6, e6, l6⟩ : ∃ s6, s5.byzStep n jobs Cs (.sys (.act q j)) = some s6 ∧
      s6.loc q j = orFail (job.proto.finish q ((s.env q).only job.deps) [data]) fun o => .done o := by
    refine ⟨{ s5 with
          loc := setLoc s5.loc q j (orFail (job.proto.finish q ((s.env q).only job.deps) [data]) fun o => .done o)
          inbox := Function.update s5.inbox q (s.inbox q)
          got := Function.update s5.got q (s5.got q ++ [(j, m)]) }, ?_, by simp [setLoc]⟩
    simp only [Sys.byzStep, hC, if_false, Sys.step, hq, if_true, hj, Sys.actStep, v5, hready, l5, Proto.act, ht]
    rfl
  refine ⟨[.sys (.act q j)] ++ List.replicate l.length (.sys (.act q j)) ++ [.sys (.act q j), .inject c q job.id data, .sys (.deliver c q), .sys (.act q j)],
    s6, ?_, ?_, ?_⟩
  · rw [List.append_assoc, happ _ _ s s1 (by simp [Sys.byzRun, e1]), happ _ _ s1 s2 e2]
    simp [Sys.byzRun, e3, e4, e5, e6]
  · intro e he
    simp only [List.mem_append, List.mem_cons, List.mem_replicate, List.not_mem_nil, or_false] at he
    rcases he with (he | he) | he | he | he | he
    · exact Or.inl he
    · exact Or.inl he.2
    · exact Or.inl he
    · exact Or.inr (Or.inl he)
    · exact Or.inr (Or.inr he)
    · exact Or.inl he
  · rw [l6]
    cases job.proto.finish q ((s.env q).only job.deps) [data] <;> rfl

/-- C111. `reduce_degree`: one party, which is not the leader, decides what another party gets: any vector `w` of the right length. -/
theorem C111_reduce_degree_false {F : Type} [CodeField F] [DecidableEq F] (c : Codec F) (hcod : c.Ok) (ctx : Ctx F) (id : ProtocolID)
    (tapes : List (List F)) (x r z : Nat → List F) {L q a : Nat} (hqL : q ≠ L) (hL : L < n) (hq : q < n) (ha : a < n) (haq : a ≠ q)
    (hsend : (rdSend (x q) (r q) (z q)).isSome) (w : List F) (hw : w.length = (r q).length) (hsz : w.length < 2 ^ 64) :
    ∃ es s, Sys.start.byzRun n [⟨id, [], rdProto c ctx L tapes (fun p _ => some (x p, r p, z p)) (fun o => o)⟩] {a} es = some s ∧
      s.loc q 0 = .done w := by
  obtain ⟨m, hm⟩ := Option.isSome_iff_exists.1 hsend
  obtain ⟨es, s, h1, _, h3⟩ := C111_forge_false (n := n) (Cs := {a})
    (jobs := [⟨id, [], rdProto c ctx L tapes (fun p _ => some (x p, r p, z p)) (fun o => o)⟩]) (j := 0) rfl (L := L) (q := q) (c := a) rfl hqL hq
    (by simpa using haq.symm) (by simp) ha Sys.start rfl rfl (by simp [Sys.start]) rfl (l := [(.one L, c.enc m)])
    (by simp [rdProto, hm]) (by simp [Recipient.known, hL]) (c.enc (vadd w (r q)))
  refine ⟨es, s, h1, ?_⟩
  have hlen : (vadd w (r q)).length = w.length := by
    unfold vadd
    rw [List.length_zipWith, hw, Nat.min_self]
  have hback : vsub (vadd w (r q)) (r q) = w := by
    unfold vsub vadd
    apply List.ext_getElem
    · simp [hw]
    · intro i h1 h2
      simp
  rw [h3]
  simp [rdProto, hcod (vadd w (r q)) (by rw [hlen]; exact hsz), rdFinish, hlen, hw, hback]

/-- Three parties, each of which sends its number and returns all numbers.  Party 2 sends `[9]` and then `[2]` to party 0, and messages with another ID. -/
example : ∃ s, (Sys.start : Sys (List (List Nat))).byzRun 3
      [⟨[7], [], ⟨none, fun p _ => some [(.all, [p])], fun _ _ => none, fun _ _ ms => some ms⟩⟩] {2}
      [.inject 2 0 [7] [9], .sys (.act 0 0), .sys (.act 0 0), .inject 2 0 [8] [0], .sys (.deliver 2 0), .inject 2 0 [7] [2], .sys (.act 0 0),
        .sys (.act 0 0), .sys (.deliver 0 0), .sys (.act 0 0), .sys (.deliver 2 0), .sys (.deliver 2 0), .sys (.act 0 0), .sys (.act 1 0),
        .sys (.act 1 0), .sys (.deliver 1 0), .sys (.act 0 0), .sys (.act 0 0)] = some s ∧
    s.loc 0 0 = .done [[0], [1], [9]] := ⟨_, rfl, rfl⟩

end Verif.Props
