import Verif.FrameLemmas

/-!
# Properties C119, C120: arbitrary bytes on a connection (`src/protocol/network.rs::party_receiver`)
-/

open Verif

namespace Verif.Props

/-! ### C119: what the receiving task passes on -/

/-- C119. Whatever bytes arrive: the messages passed on are those whose frames, as the sending task writes them, the stream begins with.
(A list of messages is a prefix of the messages passed on if and only if its frames are a prefix of the stream.)  In particular no message is ever made of
bytes which the sending task would not have written for it. -/
theorem C119_exactly (bytes : List Nat) (hb : ∀ b ∈ bytes, b < 256) (ms : List NetMsg) (hok : ∀ m ∈ ms, m.size < 2 ^ 64) :
    ms <+: (recvBytes bytes).1 ↔ ∃ frames, encodeFrames ms = some frames ∧ frames <+: bytes := by
  induction ms generalizing bytes with
  | nil => simp [encodeFrames]
  | cons m ms ih =>
    constructor
    · intro h
      rw [recvBytes_step] at h
      cases hr : recvFrame bytes with
      | wait => rw [hr] at h; simp at h
      | panic => rw [hr] at h; simp at h
      | message m' rest =>
        rw [hr] at h
        simp only [List.cons_prefix_cons] at h
        obtain ⟨rfl, h⟩ := h
        obtain ⟨frame, he, hbytes, -, -⟩ := recvFrame_canonical hb hr
        obtain ⟨frames, hf, hp⟩ := (ih rest (fun x hx => hb x (by rw [hbytes]; simp [hx])) fun x hx => hok x (by simp [hx])).1 h
        refine ⟨frame ++ frames, by simp [encodeFrames, he, hf], ?_⟩
        rw [hbytes]
        exact (List.prefix_append_right_inj frame).2 hp
    · rintro ⟨frames, hf, rest, rfl⟩
      simp only [encodeFrames] at hf
      rw [Option.bind_eq_some_iff] at hf
      obtain ⟨a, ha, hf⟩ := hf
      rw [Option.map_eq_some_iff] at hf
      obtain ⟨b, hb', rfl⟩ := hf
      have hid : m.protoId.length ≤ 255 := by
        unfold encodeFrame at ha
        split_ifs at ha with h
        exact h
      have hr := recvFrame_encode m ⟨hid, hok m (by simp)⟩ a (b ++ rest) ha
      rw [recvBytes_step, List.append_assoc, hr]
      simp only [List.cons_prefix_cons, true_and]
      refine (ih (b ++ rest) (fun x hx => hb x ?_) fun x hx => hok x (by simp [hx])).2 ⟨b, hb', List.prefix_append _ _⟩
      rw [List.append_assoc]
      exact List.mem_append_right _ hx

/-- C119. What is passed on does not depend on the pieces in which the bytes arrive, be they messages or not. -/
theorem C119_pieces (pieces : List (List Nat)) : pieces.foldl recvPiece ([], some []) = recvBytes pieces.flatten := by
  have key : ∀ done : List Nat, pieces.foldl recvPiece (recvBytes done) = recvBytes (done ++ pieces.flatten) := by
    induction pieces with
    | nil => intro done; simp
    | cons p ps ih =>
      intro done
      rw [List.foldl_cons, ← recvBytes_append, ih, List.flatten_cons, List.append_assoc]
  simpa [recvBytes, recvRun] using key []

/-- C119. The task panics only at bytes which no frame begins with: the bytes are frames of the messages passed on and then `rest`, and nothing that could
follow makes `rest` start with a message. -/
theorem C119_panic (bytes : List Nat) (hb : ∀ b ∈ bytes, b < 256) (h : (recvBytes bytes).2 = none) :
    ∃ frames rest, encodeFrames (recvBytes bytes).1 = some frames ∧ bytes = frames ++ rest ∧
      ∀ more (m : NetMsg) frame, m.size < 2 ^ 64 → encodeFrame m = some frame → ¬ frame <+: rest ++ more := by
  induction hl : bytes.length using Nat.strong_induction_on generalizing bytes with
  | _ n ih =>
    rw [recvBytes_step] at h ⊢
    cases hr : recvFrame bytes with
    | wait => rw [hr] at h; simp at h
    | panic =>
      refine ⟨[], bytes, rfl, rfl, ?_⟩
      rintro more m frame hm he ⟨post, hp⟩
      have hid : m.protoId.length ≤ 255 := by
        unfold encodeFrame at he
        split_ifs at he with h
        exact h
      have h1 := recvFrame_encode m ⟨hid, hm⟩ frame post he
      rw [hp, recvFrame_append.1 hr] at h1
      simp at h1
    | message m rest =>
      rw [hr] at h
      simp only at h ⊢
      obtain ⟨frame, he, hbytes, -, -⟩ := recvFrame_canonical hb hr
      obtain ⟨frames, rest', hf, hc, hno⟩ := ih rest.length (by have := recvFrame_shorter hr; omega) rest
        (fun x hx => hb x (by rw [hbytes]; simp [hx])) h rfl
      exact ⟨frame ++ frames, rest', by simp [encodeFrames, he, hf], by rw [hbytes, hc, List.append_assoc], hno⟩

/-- C119. If the task has not panicked, the bytes are the frames of the messages passed on and the bytes it holds, and these do not start with a frame. -/
theorem C119_waits (bytes : List Nat) (hb : ∀ b ∈ bytes, b < 256) (held : List Nat) (h : (recvBytes bytes).2 = some held) :
    ∃ frames, encodeFrames (recvBytes bytes).1 = some frames ∧ bytes = frames ++ held ∧
      ∀ (m : NetMsg) frame, m.size < 2 ^ 64 → encodeFrame m = some frame → ¬ frame <+: held := by
  induction hl : bytes.length using Nat.strong_induction_on generalizing bytes with
  | _ n ih =>
    rw [recvBytes_step] at h ⊢
    cases hr : recvFrame bytes with
    | panic => rw [hr] at h; simp at h
    | wait =>
      rw [hr] at h
      simp only [Option.some.injEq] at h
      subst h
      refine ⟨[], rfl, rfl, ?_⟩
      rintro m frame hm he ⟨post, hp⟩
      have hid : m.protoId.length ≤ 255 := by
        unfold encodeFrame at he
        split_ifs at he with h
        exact h
      have h1 := recvFrame_encode m ⟨hid, hm⟩ frame post he
      rw [hp, hr] at h1
      simp at h1
    | message m rest =>
      rw [hr] at h
      simp only at h ⊢
      obtain ⟨frame, he, hbytes, -, -⟩ := recvFrame_canonical hb hr
      obtain ⟨frames, hf, hc, hno⟩ := ih rest.length (by have := recvFrame_shorter hr; omega) rest
        (fun x hx => hb x (by rw [hbytes]; simp [hx])) h rfl
      exact ⟨frame ++ frames, by simp [encodeFrames, he, hf], by rw [hbytes, hc, List.append_assoc], hno⟩

/-- A message, then a length in two bytes which one byte could have held: the message is passed on, then the task panics, and the proper message which follows is lost. -/
example : recvBytes [7, 1, 9, 5, 6, 0, 7, 1, 9, 5] = ([⟨[9], [5]⟩], none) := by decide +kernel

/-- An ID longer than the message is noticed only when all of the message is there. -/
example : recvBytes [7, 200, 9] = ([], some [7, 200, 9]) ∧ recvBytes [7, 200, 9, 5] = ([], none) := by decide +kernel

/-! ### C120: lengths which a peer announces -/

/-- C120, as far as it holds.  As long as no message is larger than what can be allocated, limited memory makes no difference to a peer which runs the sending task. -/
theorem C120_memory_partial (M : Nat) (hM : M < 2 ^ 63) (ms : List NetMsg) (hid : ∀ m ∈ ms, m.protoId.length ≤ 255) (hs : ∀ m ∈ ms, m.size ≤ M)
    (bytes pre post : List Nat) (he : encodeFrames ms = some bytes) (hcut : bytes = pre ++ post) :
    ∃ k held, k ≤ ms.length ∧ recvMem M pre = (ms.take k, .held held) ∧ encodeFrames (ms.drop k) = some (held ++ post) := by
  induction ms generalizing bytes pre with
  | nil =>
    simp only [encodeFrames, Option.some.injEq] at he
    subst he
    obtain ⟨rfl, rfl⟩ := List.append_eq_nil_iff.1 hcut.symm
    exact ⟨0, [], le_refl _, rfl, rfl⟩
  | cons m ms ih =>
    have he0 := he
    simp only [encodeFrames] at he
    rw [Option.bind_eq_some_iff] at he
    obtain ⟨a, ha, he⟩ := he
    rw [Option.map_eq_some_iff] at he
    obtain ⟨b, hb, hab⟩ := he
    have hok : m.Ok := ⟨hid m (by simp), by have := hs m (by simp); unfold NetMsg.size at this; omega⟩
    -- what is announced, if anything
    have hann : ∀ len ∈ announced pre, len ≤ M := by
      intro len hlen
      have h1 := announced_append (more := post) hlen
      rw [← hcut, ← hab] at h1
      have h2 := recvFrame_encode m hok a b ha
      rcases recvFrame_announced (bytes := a ++ b) with h | h | ⟨m', r', h, h'⟩
      · rw [h2] at h; simp at h
      · rw [h2] at h; simp at h
      · rw [h2] at h
        simp only [RecvStep.message.injEq] at h
        rw [h1, Option.some.injEq, ← h.1] at h'
        rw [h']
        exact hs m (by simp)
    have hstep : recvMem M pre = match recvFrame pre with
        | .wait => ([], .held pre)
        | .panic => ([], .panicked)
        | .message m rest => (m :: (recvMem M rest).1, (recvMem M rest).2) := by
      rw [recvMem_step, if_neg (fun ⟨len, h1, h2⟩ => by have := hann len h1; omega),
        if_neg (fun ⟨len, h1, h2⟩ => by have := hann len h1; omega)]
      cases recvFrame pre <;> rfl
    rw [← hab] at hcut
    by_cases hlen : pre.length < a.length
    · -- part of the first frame
      obtain ⟨c, hc⟩ : ∃ c, a = pre ++ c := by
        have h1 : pre <+: a := List.prefix_of_prefix_length_le (l₃ := a ++ b) ⟨post, hcut.symm⟩ (List.prefix_append _ _) (by omega)
        obtain ⟨c, hc⟩ := h1
        exact ⟨c, hc.symm⟩
      have hw := recvFrame_prefix m hok a pre c ha hc (by rintro rfl; rw [hc] at hlen; simp at hlen)
      refine ⟨0, pre, by simp, by rw [hstep, hw]; rfl, ?_⟩
      rw [List.drop_zero, he0, ← hab, hcut]
    · obtain ⟨c, hc⟩ : ∃ c, pre = a ++ c := by
        have h1 : a <+: pre := List.prefix_of_prefix_length_le (l₃ := a ++ b) (List.prefix_append _ _) ⟨post, hcut.symm⟩ (by omega)
        obtain ⟨c, hc⟩ := h1
        exact ⟨c, hc.symm⟩
      have hbc : b = c ++ post := by
        rw [hc, List.append_assoc] at hcut
        exact List.append_cancel_left hcut
      obtain ⟨k, held, hk, hr, hd⟩ := ih (fun x hx => hid x (by simp [hx])) (fun x hx => hs x (by simp [hx])) b c hb hbc
      refine ⟨k + 1, held, by simp; omega, ?_, by simpa using hd⟩
      rw [hstep, hc, recvFrame_encode m hok a c ha]
      simp only [hr, List.take_succ_cons]

/-- C120. The process is aborted exactly if after the frames of some messages, none too large, a length is announced which cannot be allocated; the message itself need not arrive. -/
theorem C120_aborts (M : Nat) (hM : M < 2 ^ 63) (bytes : List Nat) (hb : ∀ b ∈ bytes, b < 256) :
    (recvMem M bytes).2 = .aborted ↔ ∃ ms frames rest, (∀ m ∈ ms, m.size ≤ M) ∧ encodeFrames ms = some frames ∧
      bytes = frames ++ rest ∧ ∃ len ∈ announced rest, M < len ∧ len < 2 ^ 63 := by
  induction hl : bytes.length using Nat.strong_induction_on generalizing bytes with
  | _ n ih =>
    rw [recvMem_step]
    have back : ∀ ms frames rest, (∀ m ∈ ms, NetMsg.size m ≤ M) → encodeFrames ms = some frames → bytes = frames ++ rest →
        (ms = [] ∧ bytes = rest) ∨ ∃ m ms' frames' rest', ms = m :: ms' ∧ recvFrame bytes = .message m rest' ∧ announced bytes = some m.size ∧
          encodeFrames ms' = some frames' ∧ rest' = frames' ++ rest := by
      intro ms frames rest hs he hbytes
      cases ms with
      | nil =>
        simp only [encodeFrames, Option.some.injEq] at he
        exact Or.inl ⟨rfl, by rw [hbytes, ← he]; rfl⟩
      | cons m ms =>
        simp only [encodeFrames] at he
        rw [Option.bind_eq_some_iff] at he
        obtain ⟨a, ha, he⟩ := he
        rw [Option.map_eq_some_iff] at he
        obtain ⟨b, hb', hab⟩ := he
        have hid : m.protoId.length ≤ 255 := by
          unfold encodeFrame at ha
          split_ifs at ha with h
          exact h
        have hm := hs m (by simp)
        have hr : recvFrame bytes = .message m (b ++ rest) := by
          rw [hbytes, ← hab, List.append_assoc]
          exact recvFrame_encode m ⟨hid, by unfold NetMsg.size at hm; omega⟩ a (b ++ rest) ha
        refine Or.inr ⟨m, ms, b, b ++ rest, rfl, hr, ?_, hb', rfl⟩
        rcases recvFrame_announced (bytes := bytes) with h | h | ⟨m', r', h, h'⟩
        · rw [hr] at h; simp at h
        · rw [hr] at h; simp at h
        · rw [hr] at h
          simp only [RecvStep.message.injEq] at h
          rw [h.1]
          exact h'
    split
    · rename_i h63
      obtain ⟨len, h1, h2⟩ := h63
      refine ⟨fun h => by simp at h, ?_⟩
      rintro ⟨ms, frames, rest, hs, he, hbytes, len', h1', h2', h3'⟩
      rcases back ms frames rest hs he hbytes with ⟨-, hr⟩ | ⟨m, ms', f', r', hms, -, ha, -⟩
      · rw [← hr] at h1'
        rw [Option.mem_def] at h1 h1'
        rw [h1, Option.some.injEq] at h1'
        omega
      · rw [Option.mem_def, ha, Option.some.injEq] at h1
        have := hs m (by rw [hms]; simp)
        omega
    · rename_i h63
      split
      · rename_i hM'
        obtain ⟨len, h1, h2⟩ := hM'
        refine ⟨fun _ => ⟨[], [], bytes, by simp, rfl, rfl, len, h1, h2, ?_⟩, fun _ => rfl⟩
        by_contra h
        exact h63 ⟨len, h1, by omega⟩
      · rename_i hno
        cases hr : recvFrame bytes with
        | message m rest =>
          obtain ⟨frame, he, hbytes, -, -⟩ := recvFrame_canonical hb hr
          have hsh := recvFrame_shorter hr
          have hm : m.size ≤ M := by
            rcases recvFrame_announced (bytes := bytes) with h | h | ⟨m', r', h, h'⟩
            · rw [hr] at h; simp at h
            · rw [hr] at h; simp at h
            · rw [hr] at h
              simp only [RecvStep.message.injEq] at h
              by_contra hc
              exact hno ⟨_, h', by rw [← h.1]; omega⟩
          simp only
          rw [ih rest.length (by omega) rest (fun x hx => hb x (by rw [hbytes]; simp [hx])) rfl]
          constructor
          · rintro ⟨ms, frames, rest', hs, he', hrest, hlen⟩
            refine ⟨m :: ms, frame ++ frames, rest', ?_, by simp [encodeFrames, he, he'], by rw [hbytes, hrest, List.append_assoc], hlen⟩
            intro x hx
            rcases List.mem_cons.1 hx with rfl | hx
            · exact hm
            · exact hs x hx
          · rintro ⟨ms, frames, rest', hs, he', hbytes', hlen⟩
            rcases back ms frames rest' hs he' hbytes' with ⟨-, hr'⟩ | ⟨m', ms', f', r', hms, hr', -, hf', hrr⟩
            · obtain ⟨len, h1, h2, h3⟩ := hlen
              rw [← hr'] at h1
              exact absurd ⟨len, h1, h2⟩ hno
            · rw [hr] at hr'
              simp only [RecvStep.message.injEq] at hr'
              obtain ⟨rfl, rfl⟩ := hr'
              exact ⟨ms', f', rest', fun x hx => hs x (by rw [hms]; simp [hx]), hf', hrr, hlen⟩
        | wait =>
          refine ⟨fun h => by simp at h, ?_⟩
          rintro ⟨ms, frames, rest', hs, he', hbytes', len, h1, h2, h3⟩
          rcases back ms frames rest' hs he' hbytes' with ⟨-, hr'⟩ | ⟨m', ms', f', r', -, hr', -⟩
          · rw [← hr'] at h1
            exact absurd ⟨len, h1, h2⟩ hno
          · rw [hr] at hr'; simp at hr'
        | panic =>
          refine ⟨fun h => by simp at h, ?_⟩
          rintro ⟨ms, frames, rest', hs, he', hbytes', len, h1, h2, h3⟩
          rcases back ms frames rest' hs he' hbytes' with ⟨-, hr'⟩ | ⟨m', ms', f', r', -, hr', -⟩
          · rw [← hr'] at h1
            exact absurd ⟨len, h1, h2⟩ hno
          · rw [hr] at hr'; simp at hr'

/-- C120 is false: however much memory there is, nine bytes from one peer abort the process, at any point between two messages. -/
theorem C120_false (M : Nat) (hM : M < 2 ^ 63 - 1) : ∃ header : List Nat, header.length ≤ 9 ∧ (∀ b ∈ header, b < 256) ∧
    (recvMem M header).2 = .aborted ∧
    ∀ ms frames, (∀ m ∈ ms, m.size ≤ M) → encodeFrames ms = some frames → (∀ b ∈ frames, b < 256) → (recvMem M (frames ++ header)).2 = .aborted := by
  have hb : ∀ b ∈ ([0, 255, 255, 255, 255, 255, 255, 255, 127] : List Nat), b < 256 := by decide
  have ha : announced [0, 255, 255, 255, 255, 255, 255, 255, 127] = some (2 ^ 63 - 1) := by decide +kernel
  have key : ∀ ms frames, (∀ m ∈ ms, NetMsg.size m ≤ M) → encodeFrames ms = some frames → (∀ b ∈ frames, b < 256) →
      (recvMem M (frames ++ [0, 255, 255, 255, 255, 255, 255, 255, 127])).2 = .aborted := by
    intro ms frames hs he hf
    refine (C120_aborts M (by omega) _ fun b h => ?_).2 ⟨ms, frames, _, hs, he, rfl, _, ha, hM, by norm_num⟩
    rcases List.mem_append.1 h with h | h
    · exact hf b h
    · exact hb b h
  exact ⟨[0, 255, 255, 255, 255, 255, 255, 255, 127], by decide, hb, key [] [] (by simp) rfl (by simp), key⟩

/-- With 2^47 bytes of address space: seven bytes. -/
example : recvMem (2 ^ 47) [7, 1, 9, 5, 192, 0, 0, 0, 0, 0, 64] = ([⟨[9], [5]⟩], .aborted) := by decide +kernel

/-- A length of 2^63: the connection is lost, the process lives. -/
example : recvMem (2 ^ 47) [0, 0, 0, 0, 0, 0, 0, 0, 128, 3, 0] = ([], .panicked) := by decide +kernel

end Verif.Props
