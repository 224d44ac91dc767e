import Verif.ProtoId
import Mathlib.Data.List.Nodup
import Mathlib.Tactic.Ring
import Mathlib.Tactic.Linarith

namespace Verif

/-- Little-endian base-256 digits of `v`, exactly `k` of them. -/
def leDigits : Nat → Nat → List Nat
  | 0, _ => []
  | k + 1, v => v % 256 :: leDigits k (v / 256)

theorem leDigits_length (k v : Nat) : (leDigits k v).length = k := by
  induction k generalizing v with
  | zero => rfl
  | succ k ih => simp [leDigits, ih]

theorem leDigits_zero (k : Nat) : leDigits k 0 = List.replicate k 0 := by
  induction k with
  | zero => rfl
  | succ k ih => simp [leDigits, ih, List.replicate_succ]

theorem leDigits_inj (k v w : Nat) (hv : v < 256 ^ k) (hw : w < 256 ^ k)
    (h : leDigits k v = leDigits k w) : v = w := by
  induction k generalizing v w with
  | zero => simp at hv hw; omega
  | succ k ih =>
    simp only [leDigits, List.cons.injEq] at h
    have := ih (v / 256) (w / 256) (by rw [pow_succ] at hv; omega) (by rw [pow_succ] at hw; omega) h.2
    omega

theorem leDigits_mod (k v : Nat) : leDigits k (v % 256 ^ k) = leDigits k v := by
  induction k generalizing v with
  | zero => rfl
  | succ k ih =>
    simp only [leDigits, List.cons.injEq]
    constructor
    · rw [pow_succ, mul_comm, Nat.mod_mul_right_mod]
    · rw [pow_succ, mul_comm, Nat.mod_mul_right_div_self, ih]

theorem incrementBytes_leDigits (k v : Nat) :
    incrementBytes (leDigits k v) = (leDigits k (v + 1), decide ((v + 1) % 256 ^ k ≠ 0)) := by
  induction k generalizing v with
  | zero => simp [leDigits, incrementBytes, Nat.mod_one]
  | succ k ih =>
    simp only [leDigits, incrementBytes]
    have hdm : (v + 1) % 256 ^ (k + 1) = (v + 1) % 256 + 256 * ((v + 1) / 256 % 256 ^ k) := by
      rw [pow_succ, mul_comm, Nat.mod_mul]
    split
    · rename_i h
      rw [ih]
      have h1 : (v + 1) % 256 = 0 := by omega
      have h2 : (v + 1) / 256 = v / 256 + 1 := by omega
      simp only [h1, h2, Prod.mk.injEq, true_and]
      rw [hdm, h1, h2]
      congr 1
      simp
    · rename_i h
      have h1 : (v + 1) % 256 = v % 256 + 1 := by omega
      have h2 : (v + 1) / 256 = v / 256 := by omega
      rw [h1, h2]
      simp only [Prod.mk.injEq, true_and]
      rw [hdm]
      symm
      simp only [ne_eq, decide_eq_true_eq]
      omega

/-- Number of suffix bytes for `num` children. -/
def suffixLen (num : Nat) : Nat := (Nat.clog 2 num + 7) / 8

theorem new_some {parent : ProtocolID} {num : Nat} {b : IdBuilder} (h : IdBuilder.new parent num = some b) :
    num ≤ 2 ^ 63 ∧ b.id = parent ∧ b.suffix = leDigits (suffixLen num) 0 := by
  unfold IdBuilder.new nextPowerOfTwo at h
  split at h
  · rename_i hn
    simp only [Option.map_some, Option.some.injEq] at h
    subst h
    refine ⟨hn, rfl, ?_⟩
    rw [leDigits_zero]
    unfold suffixLen
    rw [Nat.log_pow (by norm_num)]
  · simp at h

theorem new_isSome (parent : ProtocolID) (num : Nat) (h : num ≤ 2 ^ 63) :
    ∃ b, IdBuilder.new parent num = some b := by
  unfold IdBuilder.new nextPowerOfTwo
  rw [if_pos h]
  exact ⟨_, rfl⟩

theorem after_eq {parent : ProtocolID} {k : Nat} (b : IdBuilder) (hid : b.id = parent) (v : Nat)
    (hs : b.suffix = leDigits k v) (i : Nat) :
    b.after i = { id := parent, suffix := leDigits k (v + i) } := by
  induction i with
  | zero =>
    obtain ⟨x, y⟩ := b
    simp only at hid hs
    subst hid hs
    rfl
  | succ i ih =>
    show (b.after i).next.2 = _
    rw [ih]
    simp only [IdBuilder.next]
    rw [incrementBytes_leDigits]
    rfl

theorem call_eq {parent : ProtocolID} {k : Nat} (b : IdBuilder) (hid : b.id = parent) (v : Nat)
    (hs : b.suffix = leDigits k v) (i : Nat) :
    b.call i = if (v + i + 1) % 256 ^ k ≠ 0 then some (parent ++ leDigits k (v + i)) else none := by
  unfold IdBuilder.call
  rw [after_eq b hid v hs]
  simp only [IdBuilder.next]
  rw [incrementBytes_leDigits]
  simp only [decide_eq_true_eq]

theorem pow_suffixLen (num : Nat) : num ≤ 256 ^ suffixLen num := by
  have h1 : num ≤ 2 ^ Nat.clog 2 num := Nat.le_pow_clog (by norm_num) num
  have h2 : (256 : Nat) ^ suffixLen num = 2 ^ (8 * suffixLen num) := by
    rw [pow_mul]; norm_num
  rw [h2]
  refine le_trans h1 (Nat.pow_le_pow_right (by norm_num) ?_)
  unfold suffixLen
  omega

theorem suffixLen_of_pow (k : Nat) : suffixLen (256 ^ k) = k := by
  have h2 : (256 : Nat) ^ k = 2 ^ (8 * k) := by
    rw [pow_mul]; norm_num
  unfold suffixLen
  rw [h2, Nat.clog_pow _ _ (by norm_num)]
  omega

/-- `take` succeeds exactly if it does not reach the wrap-around. -/
theorem take_eq {parent : ProtocolID} {k : Nat} (m : Nat) (b : IdBuilder) (hid : b.id = parent) (v : Nat)
    (hs : b.suffix = leDigits k v) (hv : v < 256 ^ k) :
    b.take m = if v + m < 256 ^ k then
      some ((List.range m).map (fun i => parent ++ leDigits k (v + i)),
        { id := parent, suffix := leDigits k (v + m) }) else none := by
  induction m generalizing b v with
  | zero =>
    obtain ⟨x, y⟩ := b
    simp only at hid hs
    subst hid hs
    simp [IdBuilder.take, hv]
  | succ m ih =>
    unfold IdBuilder.take
    have hn : b.next = (if (v + 1) % 256 ^ k ≠ 0 then some (parent ++ leDigits k v) else none,
        { id := parent, suffix := leDigits k (v + 1) }) := by
      simp only [IdBuilder.next]
      rw [hs, incrementBytes_leDigits, hid]
      simp only [decide_eq_true_eq]
    rw [hn]
    by_cases hw : v + 1 = 256 ^ k
    · rw [hw, Nat.mod_self, if_neg (by simp), if_neg (by rw [← hw]; omega)]
    · rw [Nat.mod_eq_of_lt (by omega : v + 1 < 256 ^ k)]
      simp only [ne_eq, Nat.add_eq_zero_iff, one_ne_zero, and_false, not_false_eq_true, if_true]
      rw [ih _ rfl (v + 1) rfl (by omega), show v + 1 + m = v + (m + 1) by omega]
      split
      · simp only [Option.map_some, Option.some.injEq, Prod.mk.injEq, and_true]
        rw [List.range_succ_eq_map, List.map_cons, List.map_map]
        simp only [Nat.add_zero, List.cons.injEq, true_and]
        apply List.map_congr_left
        intro i _
        simp only [Function.comp, Nat.succ_eq_add_one]
        rw [show v + 1 + i = v + (i + 1) by omega]
      · rfl

/-- `num` is a power of 256 exactly if `num` calls exhaust the builder. -/
theorem lt_pow_suffixLen (num : Nat) : num < 256 ^ suffixLen num ↔ ¬ ∃ k, num = 256 ^ k := by
  constructor
  · rintro h ⟨k, rfl⟩
    rw [suffixLen_of_pow] at h
    omega
  · intro h
    exact lt_of_le_of_ne (pow_suffixLen num) fun he => h ⟨_, he⟩

theorem childIds_eq (parent : ProtocolID) (num : Nat) : childIds parent num =
    if num ≤ 2 ^ 63 ∧ num < 256 ^ suffixLen num then
      some ((List.range num).map fun i => parent ++ leDigits (suffixLen num) i) else none := by
  unfold childIds
  rcases hb : IdBuilder.new parent num with _ | b
  · simp only [Option.bind_none]
    rw [if_neg]
    rintro ⟨h, _⟩
    obtain ⟨b, h'⟩ := new_isSome parent num h
    rw [h'] at hb
    cases hb
  · obtain ⟨h1, h2, h3⟩ := new_some hb
    simp only [Option.bind_some]
    rw [take_eq num b h2 0 h3 (by positivity), Nat.zero_add]
    by_cases h : num < 256 ^ suffixLen num
    · rw [if_pos h, if_pos ⟨h1, h⟩]; simp
    · rw [if_neg h, if_neg (by tauto)]; rfl

theorem childIds_nodup {parent : ProtocolID} {num : Nat} {l : List ProtocolID}
    (h : childIds parent num = some l) : l.Nodup ∧ l.length = num ∧ ∀ x ∈ l, parent <+: x := by
  rw [childIds_eq] at h
  split at h
  · rename_i hc
    have hlt := hc.2
    simp only [Option.some.injEq] at h
    subst h
    refine ⟨?_, by simp, ?_⟩
    · apply List.Nodup.map_on _ List.nodup_range
      intro a ha b hb hab
      rw [List.append_cancel_left_eq] at hab
      simp only [List.mem_range] at ha hb
      exact leDigits_inj _ a b (by omega) (by omega) hab
    · intro x hx
      simp only [List.mem_map] at hx
      obtain ⟨i, _, rfl⟩ := hx
      exact List.prefix_append _ _
  · cases h

/-- Strings with different prefixes of the same length differ. -/
theorem ne_of_prefix {a b x y : ProtocolID} (hl : a.length = b.length) (hab : a ≠ b) (hx : a <+: x)
    (hy : b <+: y) : x ≠ y := by
  rintro rfl
  obtain ⟨s, hs⟩ := hx
  obtain ⟨t, ht⟩ := hy
  rw [← hs] at ht
  exact hab (List.append_inj ht.symm hl).1

theorem gateIds_spec (id : ProtocolID) (g : GateKind) :
    gateIds id g = some (match g with | .and => [id ++ [0], id] | _ => [id]) := by
  cases g
  · simp only [gateIds]
    obtain ⟨b, hb⟩ := new_isSome id 2 (by norm_num)
    obtain ⟨_, h2, h3⟩ := new_some hb
    have hs : suffixLen 2 = 1 := by
      unfold suffixLen
      have : Nat.clog 2 2 = 1 := by decide
      rw [this]
    rw [hs] at h3
    rw [hb]
    simp only [Option.bind_some]
    rw [take_eq 1 b h2 0 h3 (by norm_num)]
    simp [leDigits]
  · rfl
  · rfl

/-- Joining blocks: if the blocks extend distinct prefixes of equal length and each is duplicate free, so
is the concatenation. -/
theorem nodup_flatten_of_prefixes (ps : List ProtocolID) (ls : List (List ProtocolID))
    (k : Nat) (hk : ∀ p ∈ ps, p.length = k) (hps : ps.Nodup)
    (h : List.Forall₂ (fun p l => l.Nodup ∧ ∀ x ∈ l, p <+: x) ps ls) : ls.flatten.Nodup := by
  induction h with
  | nil => simp
  | @cons p l ps ls hd tl ih =>
    rw [List.flatten_cons]
    rw [List.nodup_cons] at hps
    apply List.Nodup.append hd.1 (ih (fun p hp => hk p (List.mem_cons_of_mem _ hp)) hps.2)
    intro x hx hy
    rw [List.mem_flatten] at hy
    obtain ⟨l', hl', hxl'⟩ := hy
    have : ∃ q ∈ ps, q <+: x := by
      clear ih hps hk
      induction tl with
      | nil => simp at hl'
      | @cons q m qs ms hq tl ih =>
        rcases List.mem_cons.1 hl' with rfl | hm
        · exact ⟨q, List.mem_cons_self, hq.2 x hxl'⟩
        · obtain ⟨q', hq', hx'⟩ := ih hm
          exact ⟨q', List.mem_cons_of_mem _ hq', hx'⟩
    obtain ⟨q, hq, hqx⟩ := this
    have hne : p ≠ q := by rintro rfl; exact hps.1 hq
    exact ne_of_prefix (by rw [hk p List.mem_cons_self, hk q (List.mem_cons_of_mem _ hq)]) hne
      (hd.2 x hx) hqx rfl

/-- What a gate block's garbling communicates with. -/
def gateIdsSpec (id : ProtocolID) : GateKind → List ProtocolID
  | .and => [id ++ [0], id]
  | _ => [id]

theorem gateIds_eq (id : ProtocolID) (g : GateKind) : gateIds id g = some (gateIdsSpec id g) := by
  rw [gateIds_spec]
  cases g <;> rfl

theorem mapM_gateIds (l : List (ProtocolID × GateKind)) :
    l.mapM (fun p => gateIds p.1 p.2) = some (l.map fun p => gateIdsSpec p.1 p.2) := by
  induction l with
  | nil => rfl
  | cons a l ih =>
    rw [List.mapM_cons, gateIds_eq, ih]
    rfl

/-- Closed form of the IDs used by `garble`. -/
theorem garbleIds_eq (id : ProtocolID) (rOut rInp tOut tInp : Nat) (gates : List GateKind)
    (h1 : 4 + gates.length ≤ 2 ^ 63) (h2 : 4 + gates.length < 256 ^ suffixLen (4 + gates.length)) :
    garbleIds id rOut rInp tOut tInp gates =
      let c := fun i => id ++ leDigits (suffixLen (4 + gates.length)) i
      (childIds (c 0) rOut).bind fun l0 =>
      (childIds (c 1) rInp).bind fun l1 =>
      (childIds (c 2) tOut).bind fun l2 =>
      (childIds (c 3) tInp).bind fun l3 =>
      some (l0 ++ l1 ++ l2 ++ l3 ++
        ((List.zip ((List.range gates.length).map fun i => c (4 + i)) gates).map
          fun p => gateIdsSpec p.1 p.2).flatten) := by
  unfold garbleIds
  obtain ⟨b, hb⟩ := new_isSome id _ h1
  obtain ⟨_, hid, hs⟩ := new_some hb
  rw [hb]
  simp only [Option.bind_some]
  rw [take_eq 4 b hid 0 hs (by positivity), if_pos (by omega)]
  simp only [Option.bind_some]
  have hr : (List.range 4).map (fun i => id ++ leDigits (suffixLen (4 + gates.length)) (0 + i))
      = [id ++ leDigits (suffixLen (4 + gates.length)) 0, id ++ leDigits (suffixLen (4 + gates.length)) 1,
        id ++ leDigits (suffixLen (4 + gates.length)) 2, id ++ leDigits (suffixLen (4 + gates.length)) 3] := by
    rfl
  rw [hr]
  simp only
  rw [take_eq gates.length _ rfl 4 rfl (by omega), if_pos h2]
  simp only [Option.bind_some]
  rw [mapM_gateIds]
  rfl

theorem garbleIds_isSome (id : ProtocolID) (rOut rInp tOut tInp : Nat) (gates : List GateKind) :
    (garbleIds id rOut rInp tOut tInp gates).isSome ↔
      ∀ m ∈ [4 + gates.length, rOut, rInp, tOut, tInp], m ≤ 2 ^ 63 ∧ m < 256 ^ suffixLen m := by
  by_cases h1 : 4 + gates.length ≤ 2 ^ 63
  · by_cases h2 : 4 + gates.length < 256 ^ suffixLen (4 + gates.length)
    · rw [garbleIds_eq id _ _ _ _ gates h1 h2]
      have hc : ∀ p m, childIds p m = none ∨ ∃ l, childIds p m = some l := by
        intro p m; cases childIds p m <;> simp
      have hi : ∀ p m, (childIds p m).isSome ↔ (m ≤ 2 ^ 63 ∧ m < 256 ^ suffixLen m) := by
        intro p m
        rw [childIds_eq]
        split <;> simp_all
      simp only [List.mem_cons, List.not_mem_nil, or_false, forall_eq_or_imp, forall_eq]
      rw [← hi (id ++ leDigits (suffixLen (4 + gates.length)) 0) rOut,
        ← hi (id ++ leDigits (suffixLen (4 + gates.length)) 1) rInp,
        ← hi (id ++ leDigits (suffixLen (4 + gates.length)) 2) tOut,
        ← hi (id ++ leDigits (suffixLen (4 + gates.length)) 3) tInp]
      rcases hc (id ++ leDigits (suffixLen (4 + gates.length)) 0) rOut with e0 | ⟨l0, e0⟩ <;>
      rcases hc (id ++ leDigits (suffixLen (4 + gates.length)) 1) rInp with e1 | ⟨l1, e1⟩ <;>
      rcases hc (id ++ leDigits (suffixLen (4 + gates.length)) 2) tOut with e2 | ⟨l2, e2⟩ <;>
      rcases hc (id ++ leDigits (suffixLen (4 + gates.length)) 3) tInp with e3 | ⟨l3, e3⟩ <;>
      simp only [e0, e1, e2, e3, h1, h2, Option.bind_none, Option.bind_some, Option.isSome_some,
        Option.isSome_none, and_true, and_false, and_self, Bool.false_eq_true]
    · constructor
      · intro h
        exfalso
        unfold garbleIds at h
        obtain ⟨b, hb⟩ := new_isSome id _ h1
        obtain ⟨_, hid, hs⟩ := new_some hb
        rw [hb] at h
        simp only [Option.bind_some] at h
        rw [take_eq 4 b hid 0 hs (by positivity)] at h
        split at h
        · rename_i h4
          simp only [Option.bind_some] at h
          have hr : (List.range 4).map (fun i => id ++ leDigits (suffixLen (4 + gates.length)) (0 + i))
              = [id ++ leDigits (suffixLen (4 + gates.length)) 0, id ++ leDigits (suffixLen (4 + gates.length)) 1,
                id ++ leDigits (suffixLen (4 + gates.length)) 2, id ++ leDigits (suffixLen (4 + gates.length)) 3] := by
            rfl
          rw [hr] at h
          simp only at h
          rw [take_eq gates.length _ rfl 4 rfl (by omega), if_neg h2] at h
          simp at h
        · simp at h
      · intro h
        exact absurd (h _ (by simp)).2 h2
  · constructor
    · intro h
      exfalso
      unfold garbleIds IdBuilder.new nextPowerOfTwo at h
      rw [if_neg h1] at h
      simp at h
    · intro h
      exact absurd (h _ (by simp)).1 h1

end Verif
