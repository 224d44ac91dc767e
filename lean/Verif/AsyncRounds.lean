import Verif.AsyncSeq
import Verif.AsyncProto
import Verif.PreprocLemmas
import Verif.Props.Field

/-!
# The protocols as tasks, one after the other

A sequential execution of a protocol as a task gives the result of its sequential description.
-/

namespace Verif

variable {O : Type} {n : Nat}

theorem theMessage_one (L : Nat) (m : List Nat) : theMessage L [(.one L, m)] = some m := by
  simp [theMessage, Recipient.includes]

theorem toEach_range (f : Nat → List Nat) (n : Nat) :
    toEach ((List.range n).map f) = (List.range n).map fun i => (Recipient.one i, f i) := zipIdx_answers f n

theorem theMessage_toEach (f : Nat → List Nat) {n q : Nat} (hq : q < n) :
    theMessage q (toEach ((List.range n).map f)) = some (f q) := by
  have h : (toEach ((List.range n).map f)).filter (fun a => a.1.includes q) = [(Recipient.one q, f q)] := by
    rw [toEach_range, List.filter_map]
    have h2 : (List.range n).filter ((fun a : Recipient × List Nat => a.1.includes q) ∘ fun i => (Recipient.one i, f i))
        = [q] := by
      have h3 : ((fun a : Recipient × List Nat => a.1.includes q) ∘ fun i => (Recipient.one i, f i))
          = fun i => decide (i = q) := by
        funext i
        simp [Recipient.includes]
      rw [h3]
      induction n with
      | zero => omega
      | succ n ih =>
        rw [List.range_succ, List.filter_append]
        by_cases hqn : q < n
        · rw [ih hqn]
          have : ¬ n = q := by omega
          simp [this]
        · have hqe : q = n := by omega
          subst hqe
          have : (List.range q).filter (fun i => decide (i = q)) = [] := by
            rw [List.filter_eq_nil_iff]
            intro a ha
            have := List.mem_range.1 ha
            simp
            omega
          rw [this]
          simp
    rw [h2]
    rfl
  unfold theMessage
  rw [h]

theorem leader_round {P : Proto O} {L : Nat} (hL : P.leader = some L) (hLn : L < n) {envs : Nat → Env O}
    (msg ans : Nat → List Nat) (out : Nat → O) (hs : ∀ p < n, P.sends p (envs p) = some [(.one L, msg p)])
    (ha : P.answer (envs L) ((List.range n).map msg) = some ((List.range n).map ans))
    (hf : ∀ q < n, P.finish q (envs q) [ans q] = some (out q)) :
    P.round n envs = some ((List.range n).map out) := by
  unfold Proto.round
  rw [mapM_range_some n _ _ hs, Option.bind_some, hL]
  simp only []
  rw [if_pos, if_pos]
  · rw [mapM_tab n _ _ msg (fun p _ => theMessage_one L _), Option.bind_some, ha, Option.bind_some, if_pos (by simp)]
    refine mapM_range_some n _ out (fun q hq => ?_)
    rw [List.getElem?_map, List.getElem?_range hq, Option.map_some, Option.bind_some]
    exact hf q hq
  · refine ⟨hLn, ?_⟩
    simp
  · simp [Recipient.known, hLn]

theorem all_round {P : Proto O} (hL : P.leader = none) {envs : Nat → Env O}
    (snd : Nat → List (Recipient × List Nat)) (msg : Nat → Nat → List Nat) (out : Nat → O)
    (hs : ∀ p < n, P.sends p (envs p) = some (snd p)) (hk : ∀ p < n, ∀ a ∈ snd p, a.1.known n = true)
    (hm : ∀ p < n, ∀ q < n, theMessage q (snd p) = some (msg p q))
    (hf : ∀ q < n, P.finish q (envs q) ((List.range n).map fun p => msg p q) = some (out q)) :
    P.round n envs = some ((List.range n).map out) := by
  unfold Proto.round
  rw [mapM_range_some n _ _ hs, Option.bind_some, hL]
  simp only []
  rw [if_pos]
  · refine mapM_range_some n _ out (fun q hq => ?_)
    rw [mapM_tab n _ _ (fun p => msg p q) (fun p hp => hm p hp q hq), Option.bind_some]
    exact hf q hq
  · rw [List.all_eq_true]
    intro l hl
    rw [List.mem_map] at hl
    obtain ⟨p, hp, rfl⟩ := hl
    rw [List.all_eq_true]
    exact hk p (List.mem_range.1 hp)

theorem sync_round (o : O) (envs : Nat → Env O) : (syncProto o).round n envs = some ((List.range n).map fun _ => o) :=
  all_round rfl (fun _ => [(.all, syncData)]) (fun _ _ => syncData) (fun _ => o) (fun _ _ => rfl)
    (by simp [Recipient.known]) (by simp [theMessage, Recipient.includes]) (fun _ _ => rfl)

section
variable {F : Type} [CodeField F] [DecidableEq F]

omit [CodeField F] [DecidableEq F] in
theorem mapM_dec {c : Codec F} (hc : c.Ok) (m : Nat) (f : Nat → List F) (hf : ∀ i < m, (f i).length < 2 ^ 64) :
    ((List.range m).map fun i => c.enc (f i)).mapM c.dec = some ((List.range m).map f) := by
  rw [List.mapM_map]
  exact mapM_range_some m _ f fun i hi => hc _ (hf i hi)

theorem col_length_le {α : Type} (j : Nat) (rows : List (List α)) : (col j rows).length ≤ rows.length :=
  List.length_filterMap_le _ _

theorem toRows_length {α : Type} {r c : Nat} {flat : List α} {rows : List (List α)} (h : toRows r c flat = some rows) :
    rows.length = r := by
  unfold toRows at h
  split at h
  · cases h
    simp
  · cases h

omit [DecidableEq F] in
theorem rdSend_length {vx r z m : List F} (h : rdSend vx r z = some m) : m.length = vx.length := by
  unfold rdSend at h
  split at h
  · next hl =>
    cases h
    simp [vadd, ← hl.1, ← hl.2]
  · cases h

omit [CodeField F] [DecidableEq F] in
theorem replies_range {num : Nat} {flat : List F} {rs : List (List F)}
    (h : (toRows num n flat).map (fun s => (List.range n).map fun i => col i s) = some rs) :
    rs.length = n ∧ ∀ r ∈ rs, r.length ≤ num := by
  obtain ⟨rows, h1, h2⟩ := Option.map_eq_some_iff.1 h
  subst h2
  refine ⟨by simp, fun r hr => ?_⟩
  rw [List.mem_map] at hr
  obtain ⟨i, _, rfl⟩ := hr
  rw [← toRows_length h1]
  exact col_length_le i rows

theorem range_getD {α : Type} (l : List α) (d : α) : l = (List.range l.length).map fun i => l.getD i d := by
  apply List.ext_getElem
  · simp
  · intro i h1 h2
    simp [h1]

theorem getD_of_some {α : Type} {l : List α} {i : Nat} {a d : α} (h : l[i]? = some a) : l.getD i d = a := by
  rw [List.getD_eq_getElem?_getD, h]
  rfl

omit [DecidableEq F] in
theorem rd_round {c : Codec F} (hc : c.Ok) (ctx : Ctx F) {L : Nat} (hL : L < ctx.n) (tapes : List (List F))
    (inp : Nat → Env O → Option (List F × List F × List F)) (ret : List F → O) (envs : Nat → Env O) (num : Nat)
    (hnum : num < 2 ^ 64) (vxs rs zs outs : List (List F)) (hlen : ∀ v ∈ vxs, v.length = num)
    (hinp : ∀ p < ctx.n, inp p (envs p) =
      (vxs[p]?).bind fun vx => (rs[p]?).bind fun r => (zs[p]?).map fun z => (vx, r, z))
    (h : reduceDegree ctx num tapes vxs rs zs = some outs) :
    (rdProto c ctx L tapes inp ret).round ctx.n envs = some (outs.map ret) := by
  unfold reduceDegree at h
  obtain ⟨ms, h1, h2⟩ := Option.bind_eq_some_iff.1 h
  obtain ⟨reps, h3, h4⟩ := Option.bind_eq_some_iff.1 h2
  obtain ⟨m1, m2, m3⟩ := mapM_range_get [] h1
  obtain ⟨o1, o2, o3⟩ := mapM_range_get [] h4
  have hrep : reps.length = ctx.n ∧ ∀ r ∈ reps, r.length ≤ num := by
    unfold rdLeader at h3
    obtain ⟨_, _, h5⟩ := Option.bind_eq_some_iff.1 h3
    obtain ⟨sh, _, h6⟩ := Option.bind_eq_some_iff.1 h5
    exact replies_range h6
  have hin : ∀ p < ctx.n, ∃ vx r z, vxs[p]? = some vx ∧ rs[p]? = some r ∧ zs[p]? = some z ∧
      inp p (envs p) = some (vx, r, z) ∧ rdSend vx r z = some (ms.getD p []) ∧ vx.length = num := by
    intro p hp
    have h5 := m2 p hp
    obtain ⟨vx, e1, h5⟩ := Option.bind_eq_some_iff.1 h5
    obtain ⟨r, e2, h5⟩ := Option.bind_eq_some_iff.1 h5
    obtain ⟨z, e3, h5⟩ := Option.bind_eq_some_iff.1 h5
    refine ⟨vx, r, z, e1, e2, e3, ?_, h5, hlen vx (List.mem_of_getElem? e1)⟩
    rw [hinp p hp, e1, e2, e3]
    rfl
  have hround := leader_round (P := rdProto c ctx L tapes inp ret) (L := L) rfl hL (envs := envs)
    (fun p => c.enc (ms.getD p [])) (fun p => c.enc (reps.getD p [])) (fun p => ret (outs.getD p [])) ?_ ?_ ?_
  · rw [hround]
    congr 1
    conv_rhs => rw [o3]
    rw [List.map_map]
    rfl
  · intro p hp
    obtain ⟨vx, r, z, _, _, _, e4, e5, _⟩ := hin p hp
    simp only [rdProto]
    rw [e4, Option.bind_some, e5]
    rfl
  · obtain ⟨vx, r, z, e1, _, _, e4, _, e6⟩ := hin L hL
    simp only [rdProto]
    rw [e4, Option.bind_some, mapM_dec hc, Option.bind_some, e6, ← m3, h3, Option.map_some]
    · congr 1
      conv_lhs => rw [range_getD reps []]
      rw [hrep.1, List.map_map]
      rfl
    · intro i hi
      obtain ⟨vx, r, z, _, _, _, _, e5, e6⟩ := hin i hi
      rw [rdSend_length e5, e6]
      exact hnum
  · intro q hq
    obtain ⟨vx, r, z, _, e2, _, e4, _, _⟩ := hin q hq
    have h5 := o2 q hq
    have hrq : reps[q]? = some (reps.getD q []) := by
      rw [List.getD_eq_getElem?_getD, List.getElem?_eq_getElem (by omega), Option.getD_some]
    rw [hrq, Option.bind_some, e2, Option.bind_some] at h5
    simp only [rdProto]
    rw [e4, Option.bind_some, List.head?_cons, Option.bind_some, hc, Option.bind_some, h5]
    · rfl
    · exact lt_of_le_of_lt (hrep.2 _ (List.mem_of_getElem? hrq)) hnum

omit [DecidableEq F] in
theorem mult_round {c : Codec F} (hc : c.Ok) (ctx : Ctx F) {L : Nat} (hL : L < ctx.n) (tapes : List (List F))
    (inp : Nat → Env O → Option (List F × List F × List F × List F)) (ret : List F → O) (envs : Nat → Env O) (num : Nat)
    (hnum : num < 2 ^ 64) (vxs vys rs zs outs : List (List F)) (hlen : ∀ v ∈ vxs, v.length = num)
    (hinp : ∀ p < ctx.n, inp p (envs p) =
      (vxs[p]?).bind fun vx => (vys[p]?).bind fun vy => (rs[p]?).bind fun r => (zs[p]?).map fun z => (vx, vy, r, z))
    (h : mult ctx num tapes vxs vys rs zs = some outs) :
    (multProto c ctx L tapes inp ret).round ctx.n envs = some (outs.map ret) := by
  unfold mult at h
  obtain ⟨ps, h1, h2⟩ := Option.bind_eq_some_iff.1 h
  obtain ⟨m1, m2, m3⟩ := mapM_range_get [] h1
  have hin : ∀ p < ctx.n, ∃ vx vy, vxs[p]? = some vx ∧ vys[p]? = some vy ∧ vx.length = vy.length ∧
      ps[p]? = some (vmul vx vy) := by
    intro p hp
    have h5 := m2 p hp
    obtain ⟨vx, e1, h5⟩ := Option.bind_eq_some_iff.1 h5
    obtain ⟨vy, e2, h5⟩ := Option.bind_eq_some_iff.1 h5
    split at h5
    · next hl =>
      refine ⟨vx, vy, e1, e2, hl, ?_⟩
      rw [h5, List.getD_eq_getElem?_getD, List.getElem?_eq_getElem (by omega), Option.getD_some]
    · cases h5
  unfold multProto
  refine rd_round hc ctx hL tapes _ ret envs num hnum ps rs zs outs ?_ ?_ h2
  · intro v hv
    obtain ⟨p, hp, rfl⟩ := List.getElem_of_mem hv
    obtain ⟨vx, vy, e1, e2, e3, e4⟩ := hin p (by omega)
    rw [List.getElem?_eq_getElem hp, Option.some.injEq] at e4
    rw [e4]
    have := hlen vx (List.mem_of_getElem? e1)
    simp [vmul, ← e3, this]
  · intro p hp
    obtain ⟨vx, vy, e1, e2, e3, e4⟩ := hin p hp
    rw [hinp p hp, e1, e2, e4]
    simp only [Option.bind_some]
    cases hr : rs[p]? with
    | none => rfl
    | some r =>
      cases hz : zs[p]? with
      | none => rfl
      | some z =>
        simp only [Option.bind_some, Option.map_some]
        rw [if_pos e3]

theorem trans_round {c : Codec F} (hc : c.Ok) (ctx : Ctx F) (tr : SharingTransform F) {L : Nat} (hL : L < ctx.n)
    (tapes : List (List F)) (inp : Nat → Env O → Option (List F × List F × List F)) (ret : List F → O)
    (envs : Nat → Env O) (num : Nat) (hnum : num < 2 ^ 64) (vxs rs rns outs : List (List F))
    (hlen : ∀ v ∈ vxs, v.length = num)
    (hinp : ∀ p < ctx.n, inp p (envs p) =
      (vxs[p]?).bind fun vx => (rs[p]?).bind fun r => (rns[p]?).map fun z => (vx, r, z))
    (h : trans ctx tr num tapes vxs rs rns = some outs) :
    (transProto c ctx tr L tapes inp ret).round ctx.n envs = some (outs.map ret) := by
  unfold trans at h
  obtain ⟨ms, h1, h2⟩ := Option.bind_eq_some_iff.1 h
  obtain ⟨reps, h3, h4⟩ := Option.bind_eq_some_iff.1 h2
  obtain ⟨m1, m2, m3⟩ := mapM_range_get [] h1
  obtain ⟨o1, o2, o3⟩ := mapM_range_get [] h4
  have hrep : reps.length = ctx.n ∧ ∀ r ∈ reps, r.length ≤ num := by
    unfold transLeader at h3
    split at h3
    · cases h3
    · obtain ⟨_, _, h3⟩ := Option.bind_eq_some_iff.1 h3
      obtain ⟨_, _, h3⟩ := Option.bind_eq_some_iff.1 h3
      obtain ⟨_, _, h3⟩ := Option.bind_eq_some_iff.1 h3
      obtain ⟨_, _, h3⟩ := Option.bind_eq_some_iff.1 h3
      obtain ⟨sh, _, h6⟩ := Option.bind_eq_some_iff.1 h3
      exact replies_range h6
  have hin : ∀ p < ctx.n, ∃ vx r z, vxs[p]? = some vx ∧ rs[p]? = some r ∧ rns[p]? = some z ∧
      inp p (envs p) = some (vx, r, z) ∧ transSend vx z = some (ms.getD p []) ∧ vx.length = num := by
    intro p hp
    have h5 := m2 p hp
    obtain ⟨vx, e1, h5⟩ := Option.bind_eq_some_iff.1 h5
    obtain ⟨z, e3, h5⟩ := Option.bind_eq_some_iff.1 h5
    have h6 := o2 p hp
    obtain ⟨_, _, h6⟩ := Option.bind_eq_some_iff.1 h6
    obtain ⟨r, e2, h6⟩ := Option.bind_eq_some_iff.1 h6
    refine ⟨vx, r, z, e1, e2, e3, ?_, h5, hlen vx (List.mem_of_getElem? e1)⟩
    rw [hinp p hp, e1, e2, e3]
    rfl
  have hround := leader_round (P := transProto c ctx tr L tapes inp ret) (L := L) rfl hL (envs := envs)
    (fun p => c.enc (ms.getD p [])) (fun p => c.enc (reps.getD p [])) (fun p => ret (outs.getD p [])) ?_ ?_ ?_
  · rw [hround]
    congr 1
    conv_rhs => rw [o3]
    rw [List.map_map]
    rfl
  · intro p hp
    obtain ⟨vx, r, z, _, _, _, e4, e5, _⟩ := hin p hp
    simp only [transProto]
    rw [e4, Option.bind_some, e5]
    rfl
  · obtain ⟨vx, r, z, e1, _, _, e4, _, e6⟩ := hin L hL
    simp only [transProto]
    rw [e4, Option.bind_some, mapM_dec hc, Option.bind_some, e6, ← m3, h3, Option.map_some]
    · congr 1
      conv_lhs => rw [range_getD reps []]
      rw [hrep.1, List.map_map]
      rfl
    · intro i hi
      obtain ⟨vx, r, z, _, _, _, _, e5, e6⟩ := hin i hi
      unfold transSend at e5
      split at e5
      · next hl =>
        rw [Option.some.injEq] at e5
        rw [← e5]
        have : (vadd z vx).length = num := by simp [vadd, ← hl, e6]
        omega
      · cases e5
  · intro q hq
    obtain ⟨vx, r, z, _, e2, _, e4, _, _⟩ := hin q hq
    have h5 := o2 q hq
    have hrq : reps[q]? = some (reps.getD q []) := by
      rw [List.getD_eq_getElem?_getD, List.getElem?_eq_getElem (by omega), Option.getD_some]
    rw [hrq, Option.bind_some, e2, Option.bind_some] at h5
    simp only [transProto]
    rw [e4, Option.bind_some, List.head?_cons, Option.bind_some, hc, Option.bind_some, h5]
    · rfl
    · exact lt_of_le_of_lt (hrep.2 _ (List.mem_of_getElem? hrq)) hnum

omit [CodeField F] [DecidableEq F] in
theorem dealSend_length {batches : Nat} {s ms : List (List F)} (h : dealSend n batches s = some ms) :
    ms.length = n ∧ ∀ m ∈ ms, m.length ≤ batches := replies_range h

theorem toEach_known {ms : List (List Nat)} (h : ms.length = n) : ∀ a ∈ toEach ms, a.1.known n = true := by
  intro a ha
  unfold toEach at ha
  rw [List.mem_map] at ha
  obtain ⟨r, hr, rfl⟩ := ha
  have := List.mem_zipIdx' hr
  simp only [Recipient.known, decide_eq_true_eq]
  omega

omit [CodeField F] [DecidableEq F] in
theorem theMessage_map_enc {c : Codec F} {ms : List (List F)} (h : ms.length = n) {q : Nat} (hq : q < n) :
    theMessage q (toEach (ms.map c.enc)) = some (c.enc (ms.getD q [])) := by
  have h1 : ms.map c.enc = (List.range n).map fun i => c.enc (ms.getD i []) := by
    conv_lhs => rw [range_getD ms []]
    rw [h, List.map_map]
    rfl
  rw [h1, theMessage_toEach _ hq]

omit [DecidableEq F] in
theorem deal_round {c : Codec F} (hc : c.Ok) (batches : Nat) (hb : batches < 2 ^ 64) (superInv : Mat F)
    (sharings : Nat → Option (List (List F))) (shs : List (List (List F)))
    (hsh : (List.range n).mapM sharings = some shs) (ret : List F → O) (envs : Nat → Env O)
    (outs : List (List F)) (h : dealRound n batches superInv shs = some outs) :
    (dealProto c n batches superInv sharings ret).round n envs = some (outs.map ret) := by
  unfold dealRound at h
  obtain ⟨mss, h1, h2⟩ := Option.bind_eq_some_iff.1 h
  obtain ⟨s1, s2, s3⟩ := mapM_range_get [] hsh
  obtain ⟨o1, o2, o3⟩ := mapM_range_get [] h2
  have hml : mss.length = n := by rw [mapM_length h1, s1]
  have hdeal : ∀ p < n, dealSend n batches (shs.getD p []) = some (mss.getD p []) := by
    intro p hp
    have := mapM_getElem h1 p (by omega) (by omega)
    rw [List.getD_eq_getElem?_getD, List.getElem?_eq_getElem (by omega), List.getD_eq_getElem?_getD,
      List.getElem?_eq_getElem (by omega)]
    exact this
  have hinbox : ∀ q < n, mss.mapM (fun m => m[q]?) = some ((List.range n).map fun p => (mss.getD p []).getD q []) := by
    intro q hq
    conv_lhs => rw [range_getD mss [], hml]
    refine mapM_tab n _ _ _ fun p hp => ?_
    have := (dealSend_length (hdeal p hp)).1
    rw [List.getD_eq_getElem?_getD (l := mss.getD p []), List.getElem?_eq_getElem (by omega), Option.getD_some]
  have hround := all_round (n := n) (P := dealProto c n batches superInv sharings ret) rfl (envs := envs)
    (fun p => toEach ((mss.getD p []).map c.enc)) (fun p q => c.enc ((mss.getD p []).getD q []))
    (fun p => ret (outs.getD p [])) ?_ ?_ ?_ ?_
  · rw [hround]
    congr 1
    conv_rhs => rw [o3]
    rw [List.map_map]
    rfl
  · intro p hp
    simp only [dealProto]
    rw [s2 p hp, Option.bind_some, hdeal p hp]
    rfl
  · intro p hp
    exact toEach_known (by rw [List.length_map]; exact (dealSend_length (hdeal p hp)).1)
  · intro p hp q hq
    exact theMessage_map_enc (dealSend_length (hdeal p hp)).1 hq
  · intro q hq
    have h5 := o2 q hq
    rw [hinbox q hq, Option.bind_some] at h5
    simp only [dealProto]
    rw [mapM_dec hc, Option.bind_some, h5]
    · rfl
    · intro p hp
      obtain ⟨e1, e2⟩ := dealSend_length (hdeal p hp)
      refine lt_of_le_of_lt (e2 _ ?_) hb
      rw [List.getD_eq_getElem?_getD (l := mss.getD p []), List.getElem?_eq_getElem (by omega), Option.getD_some]
      exact List.getElem_mem _

omit [DecidableEq F] in
theorem vadd_length_le (a b : List F) : (vadd a b).length ≤ a.length := by
  simp [vadd]

omit [DecidableEq F] in
theorem mulRows_length {m : Mat F} {num : Nat} {a rows : List (List F)} (h : m.mulRows num a = some rows) :
    ∀ r ∈ rows, r.length = num := by
  unfold Mat.mulRows at h
  split at h
  · cases h
    intro r hr
    rw [List.mem_map] at hr
    obtain ⟨_, _, rfl⟩ := hr
    simp
  · cases h

theorem mem_zipWith {α β γ : Type} {f : α → β → γ} {l : List α} {m : List β} {c : γ} (h : c ∈ List.zipWith f l m) :
    ∃ a ∈ l, ∃ b ∈ m, c = f a b := by
  induction l generalizing m with
  | nil => simp at h
  | cons a l ih =>
    cases m with
    | nil => simp at h
    | cons b m =>
      rw [List.zipWith_cons_cons, List.mem_cons] at h
      rcases h with rfl | h
      · exact ⟨a, by simp, b, by simp, rfl⟩
      · obtain ⟨a', h1, b', h2, h3⟩ := ih h
        exact ⟨a', by simp [h1], b', by simp [h2], h3⟩

omit [DecidableEq F] in
theorem rtSend_length {ctx : Ctx F} {tr : RandTransform F} {randoms zeros : List F} {ms : List (List F)}
    (h : rtSend ctx tr randoms zeros = some ms) :
    ms.length = ctx.n ∧ ∀ m ∈ ms, m.length ≤ 2 * (randoms.length / (ctx.n + ctx.t)) := by
  unfold rtSend at h
  by_cases hbad : ctx.n + ctx.t = 0 ∨ ctx.n < ctx.l
  · rw [if_pos hbad] at h
    cases h
  · rw [if_neg hbad] at h
    obtain ⟨⟨a, r1⟩, _, h⟩ := Option.bind_eq_some_iff.1 h
    obtain ⟨sec, _, h⟩ := Option.bind_eq_some_iff.1 h
    obtain ⟨⟨b, r2⟩, _, h⟩ := Option.bind_eq_some_iff.1 h
    obtain ⟨rands, _, h⟩ := Option.bind_eq_some_iff.1 h
    obtain ⟨randsN, _, h⟩ := Option.bind_eq_some_iff.1 h
    obtain ⟨⟨z, z2⟩, _, h⟩ := Option.bind_eq_some_iff.1 h
    obtain ⟨zerosN, e1, h⟩ := Option.bind_eq_some_iff.1 h
    obtain ⟨zs, e2, h⟩ := Option.bind_eq_some_iff.1 h
    obtain ⟨shares, e3, h⟩ := Option.bind_eq_some_iff.1 h
    obtain ⟨sharesN, e4, h⟩ := Option.bind_eq_some_iff.1 h
    split at h
    · next hl =>
      rw [Option.some.injEq] at h
      subst h
      have l1 := toRows_length e1
      have l2 := toRows_length e2
      constructor
      · simp [addRows, hl.1, hl.2, l1, l2]
      · intro m hm
        obtain ⟨s, hs, sn, hsn, rfl⟩ := mem_zipWith hm
        unfold addRows at hs hsn
        obtain ⟨x, hx, y, _, rfl⟩ := mem_zipWith hs
        obtain ⟨x', hx', y', _, rfl⟩ := mem_zipWith hsn
        have f1 := mulRows_length e3 x hx
        have f2 := mulRows_length e4 x' hx'
        have f3 := vadd_length_le x y
        have f4 := vadd_length_le x' y'
        rw [List.length_append]
        omega
    · cases h

theorem rt_round {c : Codec F} (hc : c.Ok) (ctx : Ctx F) (tfs : List (SharingTransform F))
    (inp : Nat → Env O → Option (List F × List F)) (ret : List (List F) × List (List F) → O) (envs : Nat → Env O)
    (randoms zeros : List (List F)) (hlen : ∀ r ∈ randoms, 2 * r.length < 2 ^ 64)
    (hinp : ∀ p < ctx.n, inp p (envs p) = (randoms[p]?).bind fun r => (zeros[p]?).map fun z => (r, z))
    (outs : List (List (List F) × List (List F))) (h : randtrans ctx tfs randoms zeros = some outs) :
    (rtProto c ctx tfs inp ret).round ctx.n envs = some (outs.map ret) := by
  unfold randtrans at h
  obtain ⟨mss, h1, h2⟩ := Option.bind_eq_some_iff.1 h
  obtain ⟨m1, m2, m3⟩ := mapM_range_get [] h1
  obtain ⟨o1, o2, o3⟩ := mapM_range_get ([], []) h2
  have hin : ∀ p < ctx.n, ∃ tr r z, RandTransform.new ctx p tfs = some tr ∧ randoms[p]? = some r ∧ zeros[p]? = some z ∧
      rtSend ctx tr r z = some (mss.getD p []) ∧ inp p (envs p) = some (r, z) ∧ 2 * r.length < 2 ^ 64 := by
    intro p hp
    have h5 := m2 p hp
    obtain ⟨tr, e1, h5⟩ := Option.bind_eq_some_iff.1 h5
    obtain ⟨r, e2, h5⟩ := Option.bind_eq_some_iff.1 h5
    obtain ⟨z, e3, h5⟩ := Option.bind_eq_some_iff.1 h5
    refine ⟨tr, r, z, e1, e2, e3, h5, ?_, hlen r (List.mem_of_getElem? e2)⟩
    rw [hinp p hp, e2, e3]
    rfl
  have hmlen : ∀ p < ctx.n, (mss.getD p []).length = ctx.n := by
    intro p hp
    obtain ⟨tr, r, z, _, _, _, e4, _⟩ := hin p hp
    exact (rtSend_length e4).1
  have hinbox : ∀ q < ctx.n, mss.mapM (fun m => m[q]?)
      = some ((List.range ctx.n).map fun p => (mss.getD p []).getD q []) := by
    intro q hq
    conv_lhs => rw [range_getD mss [], m1]
    refine mapM_tab ctx.n _ _ _ fun p hp => ?_
    have := hmlen p hp
    rw [List.getD_eq_getElem?_getD (l := mss.getD p []), List.getElem?_eq_getElem (by omega), Option.getD_some]
  have hround := all_round (n := ctx.n) (P := rtProto c ctx tfs inp ret) rfl (envs := envs)
    (fun p => toEach ((mss.getD p []).map c.enc)) (fun p q => c.enc ((mss.getD p []).getD q []))
    (fun p => ret (outs.getD p ([], []))) ?_ ?_ ?_ ?_
  · rw [hround]
    congr 1
    conv_rhs => rw [o3]
    rw [List.map_map]
    rfl
  · intro p hp
    obtain ⟨tr, r, z, e1, e2, e3, e4, e5, _⟩ := hin p hp
    simp only [rtProto]
    rw [e5, Option.bind_some, e1, Option.bind_some, e4]
    rfl
  · intro p hp
    exact toEach_known (by rw [List.length_map]; exact hmlen p hp)
  · intro p hp q hq
    exact theMessage_map_enc (hmlen p hp) hq
  · intro q hq
    obtain ⟨tr, r, z, e1, e2, e3, e4, e5, _⟩ := hin q hq
    have h5 := o2 q hq
    rw [hinbox q hq, Option.bind_some, e2, Option.bind_some] at h5
    simp only [rtProto]
    rw [e5, Option.bind_some, mapM_dec hc, Option.bind_some, h5]
    · rfl
    · intro p hp
      obtain ⟨tr, r, z, _, _, _, e4, _, e6⟩ := hin p hp
      obtain ⟨f1, f2⟩ := rtSend_length e4
      have hmem : (mss.getD p []).getD q [] ∈ mss.getD p [] := by
        rw [List.getD_eq_getElem?_getD (l := mss.getD p []), List.getElem?_eq_getElem (by omega), Option.getD_some]
        exact List.getElem_mem _
      have f3 := f2 _ hmem
      have f4 := Nat.div_le_self r.length (ctx.n + ctx.t)
      omega

end

/-- The encoding of the code. -/
theorem gfCodec_ok (W : Nat) (hW : W ≤ 32) : (gfCodec W).Ok := by
  intro v hv
  have h := (Props.C06_vec_roundtrip W hW (v.map (·.val)) [] (by simpa using hv) (by
    intro x hx
    rw [List.mem_map] at hx
    obtain ⟨y, _, rfl⟩ := hx
    exact y.lt)).2
  rw [List.append_nil] at h
  simp only [gfCodec]
  rw [h, Option.bind_some, List.mapM_map]
  have := mapM_some_map (fun a : GF W => if h : a.val < 2 ^ W then some (⟨a.val, h⟩ : GF W) else none) id v (by
    intro x _
    simp only [id]
    rw [dif_pos x.lt])
  rw [List.map_id] at this
  exact this

end Verif
