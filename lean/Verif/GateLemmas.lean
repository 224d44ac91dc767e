import Verif.GarbleLemmas

/-!
# Lemmas about the tables of single gates
-/

open Polynomial

namespace Verif

open CodeField (ofU32)

variable {F : Type} [CodeField F] [DecidableEq F]

/-! ## Lists -/

omit [CodeField F] [DecidableEq F] in
theorem popMask_tab (N : Nat) (f : Nat → F) :
    popMask ((List.range (N + 1)).map f) = some ((List.range N).map f, f N) := by
  unfold popMask
  rw [List.range_succ, List.map_append, List.map_singleton, List.getLast?_append, List.getLast?_singleton,
    List.dropLast_concat]
  rfl

omit [DecidableEq F] in
theorem drainRows_tab (n N k C : Nat) (hk : k ≤ N) (I : Nat → Nat → F[X]) :
    drainAll k (tab2 n N C I) = some (tab2 n k C I, tab2 n (N - k) C fun m => I (k + m)) := by
  unfold drainAll
  unfold tab2
  rw [mapM_tab n _ _ (fun i => ((List.range k).map fun b => (List.range C).map fun c => (I b c).eval (ofU32 i),
      (List.range (N - k)).map fun b => (List.range C).map fun c => (I (k + b) c).eval (ofU32 i))) (by
    intro i _
    rw [drain_some (by simpa using hk), take_tab _ _ _ hk, drop_tab])]
  simp only [Option.map_some, List.map_map]
  rfl

omit [CodeField F] [DecidableEq F] in
theorem pairKeys_tab (k : Nat) (f g : Nat → F) :
    pairKeys k ((List.range (2 * k)).map f) ((List.range (2 * k)).map g)
      = some ((List.range 4).map fun r => (List.range k).map fun b =>
        if r < 2 then f (r * k + b) else g ((r - 2) * k + b)) := by
  have e : (List.range (2 * k)).map f ++ (List.range (2 * k)).map g
      = (List.range (4 * k)).map fun m => if m < 2 * k then f m else g (m - 2 * k) := by
    rw [show 4 * k = 2 * k + 2 * k by ring, ← tab_append]
    congr 1
    · apply List.map_congr_left
      intro m hm
      rw [if_pos (List.mem_range.1 hm)]
    · apply List.map_congr_left
      intro m _
      rw [if_neg (by omega), Nat.add_sub_cancel_left]
  unfold pairKeys
  rw [e, if_pos (by simp), take_tab _ _ _ le_rfl, toRows_tab 4 k _ rfl, Option.some.injEq]
  apply List.map_congr_left
  intro r _
  apply List.map_congr_left
  intro b hb
  have hb := List.mem_range.1 hb
  by_cases hr : r < 2
  · have h1 : r * k + b < 2 * k := by
      have : (r + 1) * k ≤ 2 * k := Nat.mul_le_mul_right _ (by omega)
      rw [Nat.add_mul, Nat.one_mul] at this
      omega
    rw [if_pos h1, if_pos hr]
  · have h1 : 2 * k ≤ r * k := Nat.mul_le_mul_right _ (by omega)
    have h2 : (r - 2) * k = r * k - 2 * k := by rw [Nat.sub_mul]
    rw [if_neg (by omega), if_neg hr, h2]
    congr 1
    omega

theorem three_tab {α : Type} (c : Nat) (f0 f1 f2 : Nat → α) :
    (List.range c).map f0 ++ (List.range c).map f1 ++ (List.range c).map f2
      = (List.range (3 * c)).map fun m => if m < c then f0 m else if m < 2 * c then f1 (m - c) else f2 (m - 2 * c) := by
  rw [show 3 * c = c + c + c by ring, ← tab_append, ← tab_append]
  congr 1
  · congr 1
    · apply List.map_congr_left
      intro m hm
      rw [if_pos (List.mem_range.1 hm)]
    · apply List.map_congr_left
      intro m hm
      have := List.mem_range.1 hm
      rw [if_neg (by omega), if_pos (by omega), Nat.add_sub_cancel_left]
  · apply List.map_congr_left
    intro m hm
    have := List.mem_range.1 hm
    rw [if_neg (by omega), if_neg (by omega)]
    congr 1
    omega

theorem replicate_tab {α : Type} (c : Nat) (v : α) : List.replicate c v = (List.range c).map fun _ => v := by simp

/-! ## Labels of the output wires -/

/-- The labels of a block with the mask appended, as used for its outputs. -/
noncomputable def outKey (k B : Nat) (K M : Nat → F[X]) (block bit j : Nat) : F[X] :=
  if j < k then K ((bit * k + j) * B + block) else M block + C (bit : F)

omit [DecidableEq F] in
theorem outKeys_tab (k B block i : Nat) (hb : block < B) (K M : Nat → F[X]) (keys : Arr3 F)
    (hs : keys.shape = (2, k, B))
    (hf : keys.flat = (List.range (2 * k * B)).map fun m => (K m).eval (ofU32 i)) :
    outKeys keys ((M block).eval (ofU32 i)) block
      = some ((List.range (k + 1)).map fun j => (outKey k B K M block 0 j).eval (ofU32 i),
        (List.range (k + 1)).map fun j => (outKey k B K M block 1 j).eval (ofU32 i)) := by
  have get : ∀ bit < 2, ∀ j < k, keys.get? bit j block = some ((K ((bit * k + j) * B + block)).eval (ofU32 i)) := by
    intro bit hbit j hj
    unfold Arr3.get?
    rw [hs, if_pos ⟨hbit, hj, hb⟩, hf]
    apply getElem?_tab
    calc (bit * k + j) * B + block < (bit * k + j) * B + B := by omega
      _ = (bit * k + j + 1) * B := by ring
      _ ≤ (2 * k) * B := by
        apply Nat.mul_le_mul_right
        have : (bit + 1) * k ≤ 2 * k := Nat.mul_le_mul_right _ (by omega)
        rw [Nat.add_mul, Nat.one_mul] at this
        omega
  unfold outKeys
  rw [hs, if_pos rfl]
  simp only []
  rw [mapM_range_some _ _ _ (fun j hj => get 0 (by omega) j hj)]
  simp only [Option.bind_some]
  rw [mapM_range_some _ _ _ (fun j hj => get 1 (by omega) j hj)]
  simp only [Option.map_some, Option.some.injEq, Prod.mk.injEq]
  constructor
  · rw [List.range_succ, List.map_append]
    congr 1
    · apply List.map_congr_left
      intro j hj
      rw [outKey, if_pos (List.mem_range.1 hj)]
    · simp [outKey]
  · rw [List.range_succ, List.map_append]
    congr 1
    · apply List.map_congr_left
      intro j hj
      rw [outKey, if_pos (List.mem_range.1 hj)]
    · simp [outKey]

omit [DecidableEq F] in
theorem degree_const_lt {k : Nat} (hk : 1 ≤ k) (a : F) : (C a).degree < k :=
  lt_of_le_of_lt degree_C_le (by exact_mod_cast hk)

omit [DecidableEq F] in
theorem outKey_degree {k B d : Nat} (hd : 1 ≤ d) {K M : Nat → F[X]} (hK : ∀ m < 2 * k * B, (K m).degree < d)
    (hM : ∀ m < B, (M m).degree < d) {block bit : Nat} (hb : block < B) (hbit : bit < 2) (j : Nat) :
    (outKey k B K M block bit j).degree < d := by
  unfold outKey
  split_ifs with hj
  · apply hK
    calc (bit * k + j) * B + block < (bit * k + j) * B + B := by omega
      _ = (bit * k + j + 1) * B := by ring
      _ ≤ (2 * k) * B := by
        apply Nat.mul_le_mul_right
        have : (bit + 1) * k ≤ 2 * k := Nat.mul_le_mul_right _ (by omega)
        rw [Nat.add_mul, Nat.one_mul] at this
        omega
  · exact degree_add_lt (hM block hb) (degree_const_lt hd _)

/-! ## Tables -/

/-- An entry of a table. -/
noncomputable def tabPoly (k mssgLen : Nat) (enc : Mat F) (A : Nat → Nat → Nat → F[X]) (key P : Nat → Nat → F[X])
    (E : Nat → F[X]) (r a : Nat) : F[X] :=
  ∑ b ∈ Finset.range k, A r a b * key r b + ∑ j ∈ Finset.range (k + 1), C (enc.entry a j) * P r j + E (r * mssgLen + a)

omit [DecidableEq F] in
theorem tabPoly_degree {t l k mssgLen : Nat} (hl : 1 ≤ l) {enc : Mat F} {A : Nat → Nat → Nat → F[X]} {key P : Nat → Nat → F[X]}
    {E : Nat → F[X]} {r a : Nat} (hA : ∀ b, (A r a b).degree < l) (hk : ∀ b < k, (key r b).degree < (t + l : Nat))
    (hP : ∀ j < k + 1, (P r j).degree < (t + l : Nat)) (hE : (E (r * mssgLen + a)).degree < (t + l : Nat)) :
    (tabPoly k mssgLen enc A key P E r a).degree < (t + 2 * l - 1 : Nat) := by
  unfold tabPoly
  refine degree_add_lt (degree_add_lt ?_ ?_) (degree_lt_mono hE (by omega))
  · apply degree_finset_sum_lt
    intro b hb
    have d1 : (A r a b).degree < ((l - 1) + 1 : Nat) := degree_lt_mono (hA b) (by omega)
    have d2 : (key r b).degree < ((t + l - 1) + 1 : Nat) := degree_lt_mono (hk b hb) (by omega)
    exact degree_lt_mono (degree_mul_lt d1 d2) (by omega)
  · apply degree_finset_sum_lt
    intro j hj
    exact degree_lt_mono (degree_C_mul_lt _ (hP j hj)) (by omega)

omit [DecidableEq F] in
theorem encodePlain_tab {k mssgLen : Nat} {enc : Mat F} (he : rsGenMat (k + 1) mssgLen = some enc)
    (hm : mssgLen < CodeField.order F) (R : Nat) (p : Nat → Nat → F) :
    encodePlain enc ((List.range R).map fun r => (List.range (k + 1)).map fun j => p r j)
      = some ((List.range R).map fun r => (List.range mssgLen).map fun a =>
        ∑ j ∈ Finset.range (k + 1), enc.entry a j * p r j) := by
  rw [rsGenMat_eq (by omega) hm, Option.some.injEq] at he
  unfold encodePlain
  apply mapM_tab
  intro r _
  subst he
  unfold Mat.mulVec
  rw [if_pos (by simp), Option.some.injEq]
  simp only [rsPts, List.map_map]
  apply List.map_congr_left
  intro a ha
  have ha := List.mem_range.1 ha
  simp only [Function.comp_apply]
  rw [dot_tab]
  apply Finset.sum_congr rfl
  intro j hj
  have hj := Finset.mem_range.1 hj
  unfold Mat.entry
  simp only [List.getD_eq_getElem?_getD]
  rw [getElem?_tab _ _ _ ha, Option.getD_some]
  simp only [Function.comp_apply]
  rw [getElem?_tab _ _ _ hj, Option.getD_some]

omit [DecidableEq F] in
theorem encryptRow_tab (k mssgLen : Nat) (A : Nat → Nat → F) (key mssg err : Nat → F) :
    encryptRow ((List.range mssgLen).map fun a => (List.range k).map fun b => A a b) ((List.range k).map key)
      ((List.range mssgLen).map mssg) ((List.range mssgLen).map err)
      = (List.range mssgLen).map fun a => ∑ b ∈ Finset.range k, A a b * key b + mssg a + err a := by
  unfold encryptRow
  rw [List.map_map, vadd_map, vadd_map]
  apply List.map_congr_left
  intro a _
  simp only [Function.comp_apply]
  rw [dot_tab]

omit [DecidableEq F] in
theorem pairTable_tab {k mssgLen : Nat} {enc : Mat F} (he : rsGenMat (k + 1) mssgLen = some enc)
    (hm : mssgLen < CodeField.order F) (A : Nat → Nat → Nat → F[X]) (KK P : Nat → Nat → F[X]) (E : Nat → F[X]) (x : F) :
    pairTable enc mssgLen
      ((List.range 4).map fun r => (List.range mssgLen).map fun a => (List.range k).map fun b => (A r a b).eval x)
      ((List.range 4).map fun r => (List.range k).map fun b => (KK r b).eval x)
      ((List.range 4).map fun r => (List.range (k + 1)).map fun j => (P r j).eval x)
      ((List.range (4 * mssgLen)).map fun m => (E m).eval x)
      = some ((List.range 4).map fun r => (List.range mssgLen).map fun a =>
        (tabPoly k mssgLen enc A (fun r b => KK (r / 2) b + KK (2 + r % 2) b) P E r a).eval x) := by
  unfold pairTable
  rw [encodePlain_tab he hm, toRows_tab 4 mssgLen _ rfl]
  simp only [Option.bind_some]
  apply mapM_range_some
  intro r hr
  rw [getElem?_tab _ _ _ hr, getElem?_tab _ _ _ (by omega), getElem?_tab _ _ _ (by omega), getElem?_tab _ _ _ hr,
    getElem?_tab _ _ _ hr]
  simp only [Option.bind_some, Option.map_some, Option.some.injEq]
  rw [vadd_map, encryptRow_tab]
  apply List.map_congr_left
  intro a _
  unfold tabPoly
  simp only [eval_add, eval_finsetSum, eval_mul, eval_C]

omit [DecidableEq F] in
theorem oneTable_tab {k mssgLen : Nat} {enc : Mat F} (he : rsGenMat (k + 1) mssgLen = some enc)
    (hm : mssgLen < CodeField.order F) (A : Nat → Nat → Nat → F[X]) (KK P : Nat → Nat → F[X]) (E : Nat → F[X]) (x : F) :
    oneTable enc mssgLen
      ((List.range 4).map fun r => (List.range mssgLen).map fun a => (List.range k).map fun b => (A r a b).eval x)
      ((List.range 2).map fun r => (List.range k).map fun b => (KK r b).eval x)
      ((List.range 2).map fun r => (List.range (k + 1)).map fun j => (P r j).eval x)
      ((List.range (2 * mssgLen)).map fun m => (E m).eval x)
      = some ((List.range 2).map fun r => (List.range mssgLen).map fun a =>
        (tabPoly k mssgLen enc A KK P E r a).eval x) := by
  unfold oneTable
  rw [encodePlain_tab he hm, toRows_tab 2 mssgLen _ rfl]
  simp only [Option.bind_some]
  apply mapM_range_some
  intro r hr
  rw [getElem?_tab _ _ _ (by omega : r < 4), getElem?_tab _ _ _ hr, getElem?_tab _ _ _ hr, getElem?_tab _ _ _ hr]
  simp only [Option.bind_some, Option.map_some, Option.some.injEq]
  rw [encryptRow_tab]
  apply List.map_congr_left
  intro a _
  unfold tabPoly
  simp only [eval_add, eval_finsetSum, eval_mul, eval_C]

/-! ## The three kinds of gates -/

/-- The number of the label which row `r` encodes, as computed by the code, from the masks of the inputs and of the
output. -/
def codeSel (kind : GateKind) (r : Nat) (a b c : F) : F :=
  match kind with
  | .and => (((r / 2 : Nat) : F) + a) * (((r % 2 : Nat) : F) + b) + c
  | .xor => ((r / 2 : Nat) : F) + a + (((r % 2 : Nat) : F) + b) + c
  | .inv => (r : F) + a + c

omit [DecidableEq F] in
theorem codeSel_and (a b c : F) : codeSel .and 0 a b c = a * b + c ∧ codeSel .and 1 a b c = a * (1 + b) + c ∧
    codeSel .and 2 a b c = (1 + a) * b + c ∧ codeSel .and 3 a b c = (1 + a) * (1 + b) + c := by
  refine ⟨?_, ?_, ?_, ?_⟩ <;> simp [codeSel]

omit [DecidableEq F] in
theorem codeSel_xor (a b c : F) : codeSel .xor 0 a b c = a + b + c ∧ codeSel .xor 1 a b c = a + (1 + b) + c ∧
    codeSel .xor 2 a b c = 1 + a + b + c ∧ codeSel .xor 3 a b c = 1 + a + (1 + b) + c := by
  refine ⟨?_, ?_, ?_, ?_⟩ <;> simp [codeSel]

omit [DecidableEq F] in
theorem codeSel_inv (a b c : F) : codeSel .inv 0 a b c = a + c ∧ codeSel .inv 1 a b c = 1 + a + c := by
  refine ⟨?_, ?_⟩ <;> simp [codeSel]

omit [DecidableEq F] in
theorem two_eq_zero : (2 : F) = 0 := by
  rw [← one_add_one_eq_two]
  exact CodeField.add_self 1

omit [DecidableEq F] in
theorem sub_eq_add' (a b : F) : a - b = a + b := by
  have : b + b = 0 := CodeField.add_self b
  rw [sub_eq_add_neg, neg_eq_of_add_eq_zero_left this]

/-- What is known about the plaintexts of a table. -/
def PlainOk (ctx : Ctx F) (k : Nat) (kind : GateKind) (lm rm om : F[X]) (k0 k1 : Nat → F[X]) (P : Nat → Nat → F[X]) :
    Prop :=
  (∀ r < kind.numRows, ∀ j < k + 1, (P r j).degree < (ctx.t + ctx.l : Nat)) ∧
  ∀ v ∈ defaultPos ctx.n ctx.l, ∀ r < kind.numRows, ∀ j < k + 1, (P r j).eval v
    = (k0 j).eval v + codeSel kind r (lm.eval v) (rm.eval v) (om.eval v) * ((k1 j).eval v - (k0 j).eval v)

section gates
variable {ctx : Ctx F} (h : ctx.Good) (hd : 2 * (ctx.t + ctx.l - 1) < ctx.n) {lpn : LpnParams} {enc : Mat F}
  (he : rsGenMat (lpn.keyLen + 1) lpn.mssgLen = some enc) (hm : lpn.mssgLen < CodeField.order F)
  (A : Nat → Nat → Nat → F[X]) (tp : GateTapes F) (lm rm om : F[X]) (KK : Nat → Nat → F[X]) (k0 k1 : Nat → F[X])
  (G Z E : Nat → F[X])
  (hlm : lm.degree < (ctx.t + ctx.l : Nat)) (hrm : rm.degree < (ctx.t + ctx.l : Nat))
  (hom : om.degree < (ctx.t + ctx.l : Nat))
  (hk0 : ∀ j < lpn.keyLen + 1, (k0 j).degree < (ctx.t + ctx.l : Nat))
  (hk1 : ∀ j < lpn.keyLen + 1, (k1 j).degree < (ctx.t + ctx.l : Nat))

include h hd he hm hlm hrm hom hk0 hk1 in
theorem garbleAnd_tab (ht : tp.Ok .and ctx.t lpn.keyLen)
    (hG : ∀ j < 3 * (lpn.keyLen + 1) + 1, (G j).degree < (ctx.t + ctx.l : Nat))
    (hZ : ∀ j < 3 * (lpn.keyLen + 1) + 1, (Z j).degree < ctx.n)
    (hZ0 : ∀ j < 3 * (lpn.keyLen + 1) + 1, ∀ v ∈ defaultPos ctx.n ctx.l, (Z j).eval v = 0) :
    ∃ P, PlainOk ctx lpn.keyLen .and lm rm om k0 k1 P ∧
      garbleAnd ctx lpn enc
        ((List.range ctx.n).map fun i => (List.range 4).map fun r => (List.range lpn.mssgLen).map fun a =>
          (List.range lpn.keyLen).map fun b => (A r a b).eval (ofU32 i)) tp
        ((List.range ctx.n).map fun i => ⟨lm.eval (ofU32 i), rm.eval (ofU32 i),
          (List.range 4).map fun r => (List.range lpn.keyLen).map fun b => (KK r b).eval (ofU32 i), om.eval (ofU32 i),
          (List.range (lpn.keyLen + 1)).map fun j => (k0 j).eval (ofU32 i),
          (List.range (lpn.keyLen + 1)).map fun j => (k1 j).eval (ofU32 i)⟩)
        (tabShares ctx.n (3 * (lpn.keyLen + 1) + 1) G) (tabShares ctx.n (3 * (lpn.keyLen + 1) + 1) Z)
        (tabShares ctx.n (4 * lpn.mssgLen) E)
      = some (tab2 ctx.n 4 lpn.mssgLen
        (tabPoly lpn.keyLen lpn.mssgLen enc A (fun r b => KK (r / 2) b + KK (2 + r % 2) b) P E)) := by
  obtain ⟨ht1, ht2, ht3, ht4⟩ := ht
  generalize hc : lpn.keyLen + 1 = c at *
  have hl := h.posL
  obtain ⟨w, w1, w2, w3⟩ := mult_tab h 1 tp.first ht3 ht1 hd (fun _ => lm) (fun _ => rm) (fun _ => G (3 * c))
    (fun _ => Z (3 * c)) (fun _ _ => hlm) (fun _ _ => hrm) (fun _ _ => hG _ (by omega)) (fun _ _ => hZ _ (by omega))
    (fun _ _ => hZ0 _ (by omega))
  set sel : Nat → F[X] := fun m => if m < c then w 0 + om else if m < 2 * c then w 0 + om + lm else w 0 + om + rm
    with hsel
  set mul : Nat → F[X] := fun m => if m < c then k1 m - k0 m else if m < 2 * c then k1 (m - c) - k0 (m - c)
    else k1 (m - 2 * c) - k0 (m - 2 * c) with hmul
  have hw0 := w1 0 (by omega)
  obtain ⟨W, W1, W2, W3⟩ := mult_tab h (3 * c) tp.second ht4 ht2 hd sel mul G Z (by
      intro m hm'
      simp only [hsel]
      split_ifs
      · exact degree_add_lt hw0 hom
      · exact degree_add_lt (degree_add_lt hw0 hom) hlm
      · exact degree_add_lt (degree_add_lt hw0 hom) hrm) (by
      intro m hm'
      simp only [hmul]
      split_ifs
      · exact degree_sub_lt' (hk1 _ (by omega)) (hk0 _ (by omega))
      · exact degree_sub_lt' (hk1 _ (by omega)) (hk0 _ (by omega))
      · exact degree_sub_lt' (hk1 _ (by omega)) (hk0 _ (by omega)))
    (fun m hm' => hG m (by omega)) (fun m hm' => hZ m (by omega)) (fun m hm' => hZ0 m (by omega))
  refine ⟨fun r j => (if r = 0 then W j else if r = 1 then W (c + j) else if r = 2 then W (2 * c + j)
    else W j + W (c + j) + W (2 * c + j) + k1 j - k0 j) + k0 j, ⟨?_, ?_⟩, ?_⟩
  · intro r hr j hj
    rw [hc] at hj
    apply degree_add_lt _ (hk0 j hj)
    split_ifs
    · exact W1 _ (by omega)
    · exact W1 _ (by omega)
    · exact W1 _ (by omega)
    · exact degree_sub_lt' (degree_add_lt (degree_add_lt (degree_add_lt (W1 _ (by omega)) (W1 _ (by omega)))
        (W1 _ (by omega))) (hk1 j hj)) (hk0 j hj)
  · intro v hv r hr j hj
    rw [hc] at hj
    have hr : r < 4 := hr
    have q0 : (W j).eval v = ((w 0).eval v + om.eval v) * ((k1 j).eval v - (k0 j).eval v) := by
      rw [W2 j (by omega) v hv]
      simp only [hsel, hmul]
      rw [if_pos hj, if_pos hj, eval_add, eval_sub]
    have q1 : (W (c + j)).eval v = ((w 0).eval v + om.eval v + lm.eval v) * ((k1 j).eval v - (k0 j).eval v) := by
      rw [W2 (c + j) (by omega) v hv]
      simp only [hsel, hmul]
      rw [if_neg (by omega), if_pos (by omega), if_neg (by omega), if_pos (by omega), Nat.add_sub_cancel_left, eval_add,
        eval_add, eval_sub]
    have q2 : (W (2 * c + j)).eval v = ((w 0).eval v + om.eval v + rm.eval v) * ((k1 j).eval v - (k0 j).eval v) := by
      rw [W2 (2 * c + j) (by omega) v hv]
      simp only [hsel, hmul]
      rw [if_neg (by omega), if_neg (by omega), if_neg (by omega), if_neg (by omega), Nat.add_sub_cancel_left, eval_add,
        eval_add, eval_sub]
    rw [w2 0 (by omega) v hv] at q0 q1 q2
    have two := two_eq_zero (F := F)
    obtain ⟨c0, c1, c2, c3⟩ := codeSel_and (lm.eval v) (rm.eval v) (om.eval v)
    rcases (by omega : r = 0 ∨ r = 1 ∨ r = 2 ∨ r = 3) with rfl | rfl | rfl | rfl
    · simp only [if_true, eval_add, q0]
      rw [c0]
      ring
    · simp only [one_ne_zero, if_false, if_true, eval_add, q1]
      rw [c1]
      ring
    · simp only [OfNat.ofNat_ne_zero, OfNat.ofNat_ne_one, if_false, if_true, eval_add, q2]
      rw [c2]
      ring
    · simp only []
      rw [if_neg (by omega), if_neg (by omega), if_neg (by omega)]
      simp only [eval_add, eval_sub, q0, q1, q2]
      rw [c3]
      linear_combination (lm.eval v * rm.eval v + om.eval v) * ((k1 j).eval v - (k0 j).eval v) * two
  · unfold garbleAnd
    have pop : ∀ q : Nat → F[X], (tabShares ctx.n (3 * c + 1) q).mapM popMask
        = some ((List.range ctx.n).map fun i => ((List.range (3 * c)).map fun j => (q j).eval (ofU32 i),
          (q (3 * c)).eval (ofU32 i))) := by
      intro q
      unfold tabShares
      apply mapM_tab
      intro i _
      exact popMask_tab _ _
    rw [pop G, pop Z]
    simp only [Option.bind_some, List.map_map]
    have one : ∀ q : F[X], (List.range ctx.n).map (fun i => [q.eval (ofU32 i)]) = tabShares ctx.n 1 fun _ => q := by
      intro q
      rfl
    simp only [Function.comp_def]
    rw [one lm, one rm, one (G (3 * c)), one (Z (3 * c)), w3]
    simp only [Option.bind_some]
    rw [mapM_range_some _ _ (fun i => (List.range (3 * c)).map fun m => (sel m).eval (ofU32 i)) (by
      intro i hi
      rw [getElem?_tab _ _ _ hi, tabShares_row _ _ _ _ hi]
      simp only [Option.bind_some]
      rw [getElem?_tab _ _ _ (by omega : 0 < 1), Option.map_some, Option.some.injEq]
      unfold andSelector
      rw [hc, replicate_tab, replicate_tab, replicate_tab, three_tab]
      apply List.map_congr_left
      intro m _
      simp only [hsel]
      split_ifs <;> simp only [eval_add])]
    simp only [Option.bind_some]
    rw [mapM_tab _ _ _ (fun i => (List.range (3 * c)).map fun m => (mul m).eval (ofU32 i)) (by
      intro i hi
      unfold andMultiplicand
      rw [if_pos (by simp [hc]), Option.some.injEq]
      simp only []
      rw [vsub_map, three_tab]
      apply List.map_congr_left
      intro m _
      simp only [hmul]
      split_ifs <;> simp only [eval_sub])]
    simp only [Option.bind_some, hc]
    have W3' := W3
    unfold tabShares at W3' ⊢
    rw [W3']
    simp only [Option.bind_some]
    unfold tab2
    apply mapM_range_some
    intro i hi
    rw [getElem?_tab _ _ _ hi, getElem?_tab _ _ _ hi, getElem?_tab _ _ _ hi, getElem?_tab _ _ _ hi]
    simp only [Option.bind_some]
    have hplain : andPlain lpn.keyLen ⟨lm.eval (ofU32 i), rm.eval (ofU32 i),
          (List.range 4).map fun r => (List.range lpn.keyLen).map fun b => (KK r b).eval (ofU32 i), om.eval (ofU32 i),
          (List.range c).map fun j => (k0 j).eval (ofU32 i), (List.range c).map fun j => (k1 j).eval (ofU32 i)⟩
          ((List.range (3 * c)).map fun m => (W m).eval (ofU32 i))
        = some ((List.range 4).map fun r => (List.range (lpn.keyLen + 1)).map fun j =>
          ((if r = 0 then W j else if r = 1 then W (c + j) else if r = 2 then W (2 * c + j)
            else W j + W (c + j) + W (2 * c + j) + k1 j - k0 j) + k0 j).eval (ofU32 i)) := by
      unfold andPlain
      rw [hc, toRows_tab 3 c _ rfl]
      simp only [Option.bind_some]
      rw [show List.range 3 = [0, 1, 2] from rfl, show List.range 4 = [0, 1, 2, 3] from rfl]
      simp only [List.map_cons, List.map_nil, vadd_map, vsub_map, List.cons_append, List.nil_append, Option.some.injEq,
        List.cons.injEq, and_true]
      refine ⟨?_, ?_, ?_, ?_⟩
      · apply List.map_congr_left
        intro j _
        simp [eval_add]
      · apply List.map_congr_left
        intro j _
        simp [eval_add]
      · apply List.map_congr_left
        intro j _
        simp [eval_add]
      · apply List.map_congr_left
        intro j _
        simp [eval_add]
    rw [hplain]
    simp only [Option.bind_some]
    exact pairTable_tab (hc ▸ he) hm A KK _ E (ofU32 i)

include h hd he hm hlm hrm hom hk0 hk1 in
theorem garbleXor_tab (ht : tp.Ok .xor ctx.t lpn.keyLen)
    (hG : ∀ j < lpn.keyLen + 1, (G j).degree < (ctx.t + ctx.l : Nat))
    (hZ : ∀ j < lpn.keyLen + 1, (Z j).degree < ctx.n)
    (hZ0 : ∀ j < lpn.keyLen + 1, ∀ v ∈ defaultPos ctx.n ctx.l, (Z j).eval v = 0) :
    ∃ P, PlainOk ctx lpn.keyLen .xor lm rm om k0 k1 P ∧
      garbleXor ctx lpn enc
        ((List.range ctx.n).map fun i => (List.range 4).map fun r => (List.range lpn.mssgLen).map fun a =>
          (List.range lpn.keyLen).map fun b => (A r a b).eval (ofU32 i)) tp
        ((List.range ctx.n).map fun i => ⟨lm.eval (ofU32 i), rm.eval (ofU32 i),
          (List.range 4).map fun r => (List.range lpn.keyLen).map fun b => (KK r b).eval (ofU32 i), om.eval (ofU32 i),
          (List.range (lpn.keyLen + 1)).map fun j => (k0 j).eval (ofU32 i),
          (List.range (lpn.keyLen + 1)).map fun j => (k1 j).eval (ofU32 i)⟩)
        (tabShares ctx.n (lpn.keyLen + 1) G) (tabShares ctx.n (lpn.keyLen + 1) Z)
        (tabShares ctx.n (4 * lpn.mssgLen) E)
      = some (tab2 ctx.n 4 lpn.mssgLen
        (tabPoly lpn.keyLen lpn.mssgLen enc A (fun r b => KK (r / 2) b + KK (2 + r % 2) b) P E)) := by
  obtain ⟨_, ht2, ht4⟩ := ht
  generalize hc : lpn.keyLen + 1 = c at *
  obtain ⟨W, W1, W2, W3⟩ := mult_tab h c tp.second ht4 ht2 hd (fun _ => lm + rm + om) (fun j => k1 j - k0 j) G Z
    (fun _ _ => degree_add_lt (degree_add_lt hlm hrm) hom) (fun j hj => degree_sub_lt' (hk1 j hj) (hk0 j hj)) hG hZ hZ0
  refine ⟨fun r j => W j + if r = 0 ∨ r = 3 then k0 j else k1 j, ⟨?_, ?_⟩, ?_⟩
  · intro r hr j hj
    rw [hc] at hj
    apply degree_add_lt (W1 j hj)
    split_ifs
    · exact hk0 j hj
    · exact hk1 j hj
  · intro v hv r hr j hj
    rw [hc] at hj
    have hr : r < 4 := hr
    have two := two_eq_zero (F := F)
    simp only [eval_add, W2 j hj v hv, eval_sub]
    obtain ⟨c0, c1, c2, c3⟩ := codeSel_xor (lm.eval v) (rm.eval v) (om.eval v)
    rcases (by omega : r = 0 ∨ r = 1 ∨ r = 2 ∨ r = 3) with rfl | rfl | rfl | rfl
    · rw [c0, if_pos (by omega)]
      ring
    · rw [c1, if_neg (by omega)]
      ring
    · rw [c2, if_neg (by omega)]
      ring
    · rw [c3, if_pos (by omega)]
      linear_combination - ((k1 j).eval v - (k0 j).eval v) * two
  · unfold garbleXor
    rw [mapM_tab _ _ _ (fun i => (List.range c).map fun m => (k1 m - k0 m).eval (ofU32 i)) (by
      intro i hi
      simp only []
      rw [if_pos (by simp), Option.some.injEq, vsub_map]
      simp only [eval_sub])]
    simp only [Option.bind_some, hc, List.map_map, Function.comp_def]
    have hs : (List.range ctx.n).map (fun i => List.replicate c (lm.eval (ofU32 i) + rm.eval (ofU32 i) + om.eval (ofU32 i)))
        = tabShares ctx.n c fun _ => lm + rm + om := by
      unfold tabShares
      apply List.map_congr_left
      intro i _
      rw [replicate_tab]
      simp only [eval_add]
    rw [hs]
    have W3' := W3
    unfold tabShares at W3' ⊢
    rw [W3']
    simp only [Option.bind_some]
    unfold tab2
    apply mapM_range_some
    intro i hi
    rw [getElem?_tab _ _ _ hi, getElem?_tab _ _ _ hi, getElem?_tab _ _ _ hi, getElem?_tab _ _ _ hi]
    simp only [Option.bind_some]
    have hplain : xorPlain ⟨lm.eval (ofU32 i), rm.eval (ofU32 i),
          (List.range 4).map fun r => (List.range lpn.keyLen).map fun b => (KK r b).eval (ofU32 i), om.eval (ofU32 i),
          (List.range c).map fun j => (k0 j).eval (ofU32 i), (List.range c).map fun j => (k1 j).eval (ofU32 i)⟩
          ((List.range c).map fun m => (W m).eval (ofU32 i))
        = (List.range 4).map fun r => (List.range (lpn.keyLen + 1)).map fun j =>
          (W j + if r = 0 ∨ r = 3 then k0 j else k1 j).eval (ofU32 i) := by
      unfold xorPlain
      rw [hc, show List.range 4 = [0, 1, 2, 3] from rfl]
      simp only [List.map_cons, List.map_nil, vadd_map, List.cons.injEq, and_true]
      refine ⟨?_, ?_, ?_, ?_⟩ <;>
      · apply List.map_congr_left
        intro j _
        simp [eval_add]
    rw [hplain]
    exact pairTable_tab (hc ▸ he) hm A KK _ E (ofU32 i)

include h hd he hm hlm hom hk0 hk1 in
theorem garbleInv_tab (ht : tp.Ok .inv ctx.t lpn.keyLen)
    (hG : ∀ j < lpn.keyLen + 1, (G j).degree < (ctx.t + ctx.l : Nat))
    (hZ : ∀ j < lpn.keyLen + 1, (Z j).degree < ctx.n)
    (hZ0 : ∀ j < lpn.keyLen + 1, ∀ v ∈ defaultPos ctx.n ctx.l, (Z j).eval v = 0) :
    ∃ P, PlainOk ctx lpn.keyLen .inv lm rm om k0 k1 P ∧
      garbleInv ctx lpn enc
        ((List.range ctx.n).map fun i => (List.range 4).map fun r => (List.range lpn.mssgLen).map fun a =>
          (List.range lpn.keyLen).map fun b => (A r a b).eval (ofU32 i)) tp
        ((List.range ctx.n).map fun i => ⟨lm.eval (ofU32 i),
          (List.range 2).map fun r => (List.range lpn.keyLen).map fun b => (KK r b).eval (ofU32 i), om.eval (ofU32 i),
          (List.range (lpn.keyLen + 1)).map fun j => (k0 j).eval (ofU32 i),
          (List.range (lpn.keyLen + 1)).map fun j => (k1 j).eval (ofU32 i)⟩)
        (tabShares ctx.n (lpn.keyLen + 1) G) (tabShares ctx.n (lpn.keyLen + 1) Z)
        (tabShares ctx.n (2 * lpn.mssgLen) E)
      = some (tab2 ctx.n 2 lpn.mssgLen (tabPoly lpn.keyLen lpn.mssgLen enc A KK P E)) := by
  obtain ⟨_, ht2, ht4⟩ := ht
  generalize hc : lpn.keyLen + 1 = c at *
  obtain ⟨W, W1, W2, W3⟩ := mult_tab h c tp.second ht4 ht2 hd (fun _ => lm + om) (fun j => k1 j - k0 j) G Z
    (fun _ _ => degree_add_lt hlm hom) (fun j hj => degree_sub_lt' (hk1 j hj) (hk0 j hj)) hG hZ hZ0
  refine ⟨fun r j => if r = 0 then W j + k0 j else k0 j + k1 j + (W j + k0 j), ⟨?_, ?_⟩, ?_⟩
  · intro r hr j hj
    rw [hc] at hj
    simp only []
    split_ifs
    · exact degree_add_lt (W1 j hj) (hk0 j hj)
    · exact degree_add_lt (degree_add_lt (hk0 j hj) (hk1 j hj)) (degree_add_lt (W1 j hj) (hk0 j hj))
  · intro v hv r hr j hj
    rw [hc] at hj
    have hr : r < 2 := hr
    have two := two_eq_zero (F := F)
    obtain ⟨c0, c1⟩ := codeSel_inv (lm.eval v) (rm.eval v) (om.eval v)
    rcases (by omega : r = 0 ∨ r = 1) with rfl | rfl
    · simp only [if_true, eval_add, W2 j hj v hv, eval_sub]
      rw [c0]
      ring
    · simp only [one_ne_zero, if_false, eval_add, W2 j hj v hv, eval_sub]
      rw [c1]
      linear_combination (k0 j).eval v * two
  · unfold garbleInv
    rw [mapM_tab _ _ _ (fun i => (List.range c).map fun m => (k1 m - k0 m).eval (ofU32 i)) (by
      intro i hi
      simp only []
      rw [if_pos (by simp), Option.some.injEq, vsub_map]
      simp only [eval_sub])]
    simp only [Option.bind_some, hc, List.map_map, Function.comp_def]
    have hs : (List.range ctx.n).map (fun i => List.replicate c (lm.eval (ofU32 i) + om.eval (ofU32 i)))
        = tabShares ctx.n c fun _ => lm + om := by
      unfold tabShares
      apply List.map_congr_left
      intro i _
      rw [replicate_tab]
      simp only [eval_add]
    rw [hs]
    have W3' := W3
    unfold tabShares at W3' ⊢
    rw [W3']
    simp only [Option.bind_some]
    unfold tab2
    apply mapM_range_some
    intro i hi
    rw [getElem?_tab _ _ _ hi, getElem?_tab _ _ _ hi, getElem?_tab _ _ _ hi, getElem?_tab _ _ _ hi]
    simp only [Option.bind_some]
    have hplain : invPlain ⟨lm.eval (ofU32 i),
          (List.range 2).map fun r => (List.range lpn.keyLen).map fun b => (KK r b).eval (ofU32 i), om.eval (ofU32 i),
          (List.range c).map fun j => (k0 j).eval (ofU32 i), (List.range c).map fun j => (k1 j).eval (ofU32 i)⟩
          ((List.range c).map fun m => (W m).eval (ofU32 i))
        = (List.range 2).map fun r => (List.range (lpn.keyLen + 1)).map fun j =>
          (if r = 0 then W j + k0 j else k0 j + k1 j + (W j + k0 j)).eval (ofU32 i) := by
      unfold invPlain
      rw [hc, show List.range 2 = [0, 1] from rfl]
      simp only [List.map_cons, List.map_nil, vadd_map, List.cons.injEq, and_true]
      refine ⟨?_, ?_⟩ <;>
      · apply List.map_congr_left
        intro j _
        simp [eval_add]
    rw [hplain]
    exact oneTable_tab (hc ▸ he) hm A KK _ E (ofU32 i)

end gates

end Verif
