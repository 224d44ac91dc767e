import Verif.Network
import Verif.ConnectLemmas

/-! # C113: connections from elsewhere -/

namespace Verif.Props

open Verif

/-- The numbers which connections announce. -/
def announced (ds : List Dial) : List Hello := ds.map Dial.hello

/-- C39. A party number which has no address stops the setup. -/
theorem C39_range (n p : Nat) (hp : n ≤ p) (incoming : List Conn) : connectToPeers n p incoming = none := by
  unfold connectToPeers acceptTable
  rw [if_pos (by omega)]
  rfl

/-- The second of two parties gets its connection; a third does not start. -/
example : connectToPeers 2 1 [] = some [some ⟨1, 0⟩, none] ∧ connectToPeers 2 2 [] = none := by decide

/-- C113. `setup_tcp_network` of party `p` ends without panic exactly if the first `n - p - 1` connections to its port, in whatever order, announce
the numbers `p + 1, …, n - 1`, each once; the entry for `q > p` is then the connection which has announced `q`, whoever has made it. -/
theorem C113_setup_iff (n p : Nat) (incoming : List Dial) (t : List (Option Link)) :
    setupStreams n p incoming = .ok t ↔ p < n ∧ n - p - 1 ≤ incoming.length ∧
      (announced (incoming.take (n - p - 1))).Perm ((List.range' (p + 1) (n - p - 1)).map Hello.id) ∧ t.length = n ∧
      (∀ q, q < p → t[q]? = some (some (.dialled q))) ∧ t[p]? = some none ∧
      ∀ d ∈ incoming.take (n - p - 1), ∀ q, d.hello = .id q → t[q]? = some (some (.accepted d)) := by
  constructor
  · intro h
    unfold setupStreams at h
    by_cases hp : p < n
    swap
    · rw [if_neg hp] at h; cases h
    rw [if_pos hp] at h
    cases ha : acceptLoop n (n - p - 1) incoming (List.replicate n none) with
    | waits => rw [ha] at h; cases h
    | panics => rw [ha] at h; cases h
    | ok t0 =>
      rw [ha] at h
      simp only at h
      split at h
      swap
      · cases h
      rename_i hall
      simp only [SetupResult.ok.injEq] at h
      obtain ⟨h1, h2, h3, h4⟩ := (acceptLoop_ok _ _ _ _ (by simp)).1 ha
      have ht : ∀ i, t[i]? = if i < p then some (some (.dialled i)) else t0[i]? := fun i => by
        rw [← h, enterDialled_get p t0 (by omega)]
      have hperm : (announced (incoming.take (n - p - 1))).Perm ((List.range' (p + 1) (n - p - 1)).map Hello.id) := by
        refine perm_of_cover (range_id_nodup _ _) (by simp [announced]; omega) fun x hx => ?_
        obtain ⟨i, hi, rfl⟩ := List.mem_map.1 hx
        rw [List.mem_range'_1] at hi
        by_contra hno
        have := List.all_eq_true.1 hall i (List.mem_range.2 (by omega))
        rw [h, ht i, if_neg (by omega), h4 i (by omega), find_hello_none hno] at this
        simp [show i < n by omega, show i ≠ p by omega] at this
      have hnd := (hperm.nodup_iff).2 (range_id_nodup _ _)
      refine ⟨hp, h1, hperm, by rw [← h, enterDialled_length, h3], fun q hq => by rw [ht q, if_pos hq], ?_, fun d hd q hq => ?_⟩
      · rw [ht p, if_neg (by omega), h4 p hp, find_hello_none]
        · simp [hp]
        · intro hm
          have := mem_range_id.1 (hperm.mem_iff.1 hm)
          omega
      · have hq' := mem_range_id.1 (hperm.mem_iff.1 (show Hello.id q ∈ announced _ from List.mem_map.2 ⟨d, hd, hq⟩))
        rw [ht q, if_neg (by omega), h4 q (by omega), find_hello hnd hd hq]
  · rintro ⟨hp, h1, hperm, h3, h4, h5, h6⟩
    have hnd := (hperm.nodup_iff).2 (range_id_nodup _ _)
    have hcov : ∀ q, p < q → q < n → ∃ d ∈ incoming.take (n - p - 1), d.hello = .id q := fun q hq hq' => by
      have := hperm.mem_iff.2 (mem_range_id.2 (show p + 1 ≤ q ∧ q < p + 1 + (n - p - 1) by omega))
      exact List.mem_map.1 this
    have hout : ∀ q, ¬ (p < q ∧ q < n) → (incoming.take (n - p - 1)).reverse.find? (fun d => d.hello = .id q) = none := fun q hq => by
      refine find_hello_none fun hm => hq ?_
      have := mem_range_id.1 (hperm.mem_iff.1 hm)
      omega
    have ha : acceptLoop n (n - p - 1) incoming (List.replicate n none)
        = .ok ((List.range n).map fun i => if i < p then none else (t[i]?).getD none) := by
      refine (acceptLoop_ok _ _ _ _ (by simp)).2 ⟨h1, ?_, by simp, fun i hi => ?_⟩
      · intro d hd
        have := hperm.mem_iff.1 (show d.hello ∈ announced _ from List.mem_map.2 ⟨d, hd, rfl⟩)
        obtain ⟨q, hq, e⟩ := List.mem_map.1 this
        rw [List.mem_range'_1] at hq
        exact ⟨q, e.symm, by omega⟩
      · rw [List.getElem?_map, List.getElem?_range hi, Option.map_some]
        by_cases hip : i < p
        · rw [if_pos hip, hout i (by omega)]
          simp [hi]
        · rw [if_neg hip]
          by_cases hi0 : i = p
          · subst hi0
            rw [h5, hout i (by omega)]
            simp [hi]
          · obtain ⟨d, hd, e⟩ := hcov i (by omega) hi
            rw [h6 d hd i e, find_hello hnd hd e]
            rfl
    have ht : enterDialled p ((List.range n).map fun i => if i < p then none else (t[i]?).getD none) = t := by
      apply List.ext_getElem?
      intro i
      rw [enterDialled_get _ _ (by simp; omega)]
      by_cases hip : i < p
      · rw [if_pos hip, h4 i hip]
      · rw [if_neg hip]
        by_cases hi : i < n
        · rw [List.getElem?_map, List.getElem?_range hi, Option.map_some, if_neg hip, List.getElem?_eq_getElem (by omega)]
          rfl
        · rw [List.getElem?_eq_none (by simp; omega), List.getElem?_eq_none (by omega)]
    unfold setupStreams
    rw [if_pos hp, ha]
    simp only [ht]
    rw [if_pos]
    rw [List.all_eq_true]
    intro i hi
    have hi := List.mem_range.1 hi
    by_cases hip : i = p
    · simp [hip]
    · by_cases hlt : i < p
      · rw [h4 i hlt]; rfl
      · obtain ⟨d, hd, e⟩ := hcov i (by omega) hi
        rw [h6 d hd i e]; rfl

/-- C113 is false: if a single connection from elsewhere comes before those of the parties, the setup does not succeed, unless it announces
the number of the very party which comes last; then it takes its place, and this party's own connection is not accepted any more. -/
theorem C113_stray_false (n p : Nat) (hp : p + 1 < n) (stray : Dial) (parties : List Dial)
    (hperm : (announced parties).Perm ((List.range' (p + 1) (n - p - 1)).map Hello.id)) :
    (∃ t, setupStreams n p (stray :: parties) = .ok t) ↔ ∃ last, parties.getLast? = some last ∧ stray.hello = last.hello ∧
      ∃ t q, setupStreams n p (stray :: parties) = .ok t ∧ last.hello = .id q ∧ t[q]? = some (some (.accepted stray)) := by
  constructor
  swap
  · rintro ⟨_, _, _, t, _, h, _⟩
    exact ⟨t, h⟩
  rintro ⟨t, h⟩
  obtain ⟨-, h1, h2, h3, h4, h5, h6⟩ := (C113_setup_iff n p _ t).1 h
  have hlen : parties.length = n - p - 1 := by have := hperm.length_eq; simpa [announced] using this
  obtain ⟨ini, last, rfl⟩ : ∃ ini last, parties = ini ++ [last] := by
    rcases List.eq_nil_or_concat parties with h | ⟨ini, last, h⟩
    · rw [h] at hlen; simp at hlen; omega
    · exact ⟨ini, last, by simpa using h⟩
  have hk : n - p - 1 = ini.length + 1 := by simpa using hlen.symm
  rw [hk, List.take_succ_cons, List.take_left' rfl] at h2 h6
  rw [hk] at hperm
  have hp2 : (stray.hello :: ini.map Dial.hello).Perm (ini.map Dial.hello ++ [last.hello]) := by
    have := h2.trans hperm.symm
    simpa [announced] using this
  have hp3 : (stray.hello :: ini.map Dial.hello).Perm (last.hello :: ini.map Dial.hello) :=
    hp2.trans (List.perm_append_comm (l₂ := [last.hello]))
  have heq : stray.hello = last.hello := by
    have hc := hp3.count_eq stray.hello
    rw [List.count_cons_self, List.count_cons] at hc
    by_contra hne
    rw [if_neg (by simpa using fun h => hne h.symm)] at hc
    omega
  have hm := h2.mem_iff.1 (show stray.hello ∈ announced (stray :: ini) by simp [announced])
  obtain ⟨q, hq, e⟩ := List.mem_map.1 hm
  exact ⟨last, by simp, heq, t, q, h, by rw [← heq, e], h6 stray (by simp) q e.symm⟩

/-- C113 is false: a single connection over which nothing is sent keeps a party waiting for ever, whatever comes after it. -/
theorem C113_silent_false (n p : Nat) (hp : p + 1 < n) (source : Nat) (rest : List Dial) :
    setupStreams n p (⟨source, .silent⟩ :: rest) = .waits := by
  unfold setupStreams
  rw [if_pos (by omega), show n - p - 1 = n - p - 2 + 1 by omega]
  rfl

/-- Three parties; somebody announces the number 2 before party 2 does, or nothing. -/
example : setupStreams 3 0 [⟨1, .id 1⟩, ⟨7, .id 2⟩, ⟨2, .id 2⟩] = .ok [none, some (.accepted ⟨1, .id 1⟩), some (.accepted ⟨7, .id 2⟩)] ∧
    setupStreams 3 0 [⟨7, .id 2⟩, ⟨2, .id 2⟩, ⟨1, .id 1⟩] = .panics ∧ setupStreams 3 0 [⟨7, .silent⟩, ⟨2, .id 2⟩, ⟨1, .id 1⟩] = .waits ∧
    setupStreams 3 1 [⟨2, .id 2⟩] = .ok [some (.dialled 0), none, some (.accepted ⟨2, .id 2⟩)] := by decide +kernel

end Verif.Props
