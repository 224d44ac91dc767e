import Verif.GFPrimitive

/-!
# Correctness of the table construction
-/

namespace Verif.Galois

/-- The `j`-th value of the running element `b`. -/
def seqB (w j : Nat) : Nat := (stepB w)^[j] 1

theorem seqB_zero (w : Nat) : seqB w 0 = 1 := rfl
theorem seqB_succ (w j : Nat) : seqB w (j + 1) = stepB w (seqB w j) := by
  simp [seqB, Function.iterate_succ_apply']

variable {w : Nat}

theorem seqB_lt (hw : w ≠ 0) (j : Nat) : seqB w j < 2 ^ w := by
  induction j with
  | zero => exact Nat.one_lt_two_pow hw
  | succ j ih => rw [seqB_succ]; exact stepB_lt w _ hw ih

theorem val_seqB (hw : w ≠ 0) (j : Nat) :
    val w (seqB w j) = AdjoinRoot.root (modulus w) ^ j := by
  induction j with
  | zero => simp [seqB_zero, val_one]
  | succ j ih => rw [seqB_succ, val_step w _ hw (seqB_lt hw j), ih, pow_succ']

theorem root_pow_period (h1 : 1 ≤ w) (h2 : w ≤ 30) :
    AdjoinRoot.root (modulus w) ^ (2 ^ w - 1) = 1 := by
  rw [← orderOf_root w h1 h2]; exact pow_orderOf_eq_one _

theorem seqB_mod (h1 : 1 ≤ w) (h2 : w ≤ 30) (j : Nat) :
    seqB w (j % (2 ^ w - 1)) = seqB w j := by
  have hw : w ≠ 0 := by omega
  apply val_inj w _ _ (seqB_lt hw _) (seqB_lt hw _)
  rw [val_seqB hw, val_seqB hw, ← orderOf_root w h1 h2]
  exact pow_mod_orderOf _ _

theorem seqB_inj (h1 : 1 ≤ w) (h2 : w ≤ 30) {i j : Nat} (hi : i < 2 ^ w - 1) (hj : j < 2 ^ w - 1)
    (h : seqB w i = seqB w j) : i = j := by
  have hw : w ≠ 0 := by omega
  have := congrArg (val w) h
  rw [val_seqB hw, val_seqB hw] at this
  rw [← orderOf_root w h1 h2] at hi hj
  exact pow_injOn_Iio_orderOf hi hj this

theorem modulus_ne_one (h1 : 1 ≤ w) : val w 0 ≠ val w 1 := by
  intro h
  have := val_inj w 0 1 (by positivity) (Nat.one_lt_two_pow (by omega)) h
  omega

theorem seqB_ne_zero (h1 : 1 ≤ w) (h2 : w ≤ 30) (j : Nat) : seqB w j ≠ 0 := by
  intro h
  have hw : w ≠ 0 := by omega
  have h3 := congrArg (val w) h
  rw [val_seqB hw, val_zero] at h3
  have h4 : AdjoinRoot.root (modulus w) ^ (j * (2 ^ w - 1)) = 1 := by
    rw [mul_comm, pow_mul, root_pow_period h1 h2, one_pow]
  have h5 : j * (2 ^ w - 1) ≠ 0 → (0 : K w) = 1 := by
    intro hne
    rw [pow_mul, h3, zero_pow (by intro h; apply hne; rw [h]; simp)] at h4
    exact h4
  by_cases hj : j * (2 ^ w - 1) = 0
  · have h2w := Nat.one_lt_two_pow hw
    rcases Nat.mul_eq_zero.1 hj with h | h
    · subst h; simp [seqB_zero] at *
    · omega
  · apply modulus_ne_one h1
    rw [val_zero, val_one]
    exact h5 hj

/-- Every non-zero residue occurs. -/
theorem exists_seqB (h1 : 1 ≤ w) (h2 : w ≤ 30) {b : Nat} (hb0 : b ≠ 0) (hb : b < 2 ^ w) :
    ∃ j, j < 2 ^ w - 1 ∧ seqB w j = b := by
  have hw : w ≠ 0 := by omega
  have hsurj := Finset.surj_on_of_inj_on_of_card_le (s := Finset.range (2 ^ w - 1))
    (t := (Finset.range (2 ^ w)).erase 0)
    (fun j _ => seqB w j)
    (by
      intro j hj
      simp only [Finset.mem_erase, Finset.mem_range]
      exact ⟨seqB_ne_zero h1 h2 j, seqB_lt hw j⟩)
    (by
      intro i j hi hj h
      exact seqB_inj h1 h2 (by simpa using hi) (by simpa using hj) h)
    (by
      rw [Finset.card_erase_of_mem (by simp)]
      simp)
  obtain ⟨j, hj, hjb⟩ := hsurj b (by simp [hb0, hb])
  exact ⟨j, by simpa using hj, hjb.symm⟩

theorem nw_eq (h1 : 1 ≤ w) : nw w = 2 ^ w := by simp [nw, Nat.shiftLeft_eq]; omega
theorem nwm1_eq (h1 : 1 ≤ w) : nwm1 w = 2 ^ w - 1 := by simp [nwm1, Nat.shiftLeft_eq]; omega

theorem Block.read_val {a : Block} {i v : Nat} (h : i < a.size) (hv : a.cell i = some v) :
    a.read i = .val v := by
  simp [Block.read, h, hv]

theorem Block.write_val {a : Block} {i : Nat} (v : Nat) (h : i < a.size) :
    a.write i v = .val ⟨a.size, fun k => if k = i then some v else a.cell k⟩ := by
  simp [Block.write, h]

theorem clearLoop_spec (k j : Nat) (t : Tables) (hl : j + k ≤ t.log.size)
    (hi : j + k ≤ t.ilog.size) :
    ∃ t', clearLoop w k j t = .val t' ∧ t'.log.size = t.log.size ∧ t'.ilog.size = t.ilog.size ∧
      (∀ i, j ≤ i → i < j + k → t'.log.cell i = some (nwm1 w)) ∧
      (∀ i, i < j → t'.log.cell i = t.log.cell i) := by
  induction k generalizing j t with
  | zero => exact ⟨t, rfl, rfl, rfl, by intros; omega, by intros; rfl⟩
  | succ k ih =>
    rw [clearLoop, Block.write_val _ (by omega), Outcome.bind, Block.write_val _ (by omega),
      Outcome.bind]
    obtain ⟨t', h1, h2, h3, h4, h5⟩ := ih (j + 1)
      ⟨⟨t.log.size, fun k => if k = j then some (nwm1 w) else t.log.cell k⟩,
        ⟨t.ilog.size, fun k => if k = j then some 0 else t.ilog.cell k⟩⟩
      (by change _ ≤ t.log.size; omega) (by change _ ≤ t.ilog.size; omega)
    refine ⟨t', h1, h2, h3, ?_, ?_⟩
    · intro i hi1 hi2
      rcases Nat.lt_or_ge j i with h | h
      · exact h4 i h (by omega)
      · have : i = j := by omega
        subst this
        rw [h5 i (by omega)]
        simp
    · intro i hi1
      rw [h5 i (by omega)]
      simp [show i ≠ j by omega]

/-- Invariant of the filling loop before iteration `j`. -/
structure FillInv (w j : Nat) (t : Tables) : Prop where
  logSize : t.log.size = 2 ^ w
  ilogSize : t.ilog.size = 2 ^ w * 3
  seen : ∀ m, m < j → t.log.cell (seqB w m) = some m
  unseen : ∀ i, i < 2 ^ w → (∀ m, m < j → seqB w m ≠ i) → t.log.cell i = some (2 ^ w - 1)
  ilog : ∀ m, m < j → t.ilog.cell m = some (seqB w m)

theorem fillLoop_spec (h1 : 1 ≤ w) (h2 : w ≤ 30) (k j : Nat) (t : Tables) (hjk : j + k = 2 ^ w - 1)
    (hinv : FillInv w j t) :
    ∃ t', fillLoop w k j (seqB w j) t = .val t' ∧ FillInv w (2 ^ w - 1) t' := by
  have hw : w ≠ 0 := by omega
  induction k generalizing j t with
  | zero =>
    have : j = 2 ^ w - 1 := by omega
    subst this
    exact ⟨t, rfl, hinv⟩
  | succ k ih =>
    have hlt := seqB_lt hw j
    have hnew : ∀ m, m < j → seqB w m ≠ seqB w j := by
      intro m hm h
      have := seqB_inj h1 h2 (by omega) (by omega) h
      omega
    have hpow : 2 ^ w ≤ 2 ^ 30 := Nat.pow_le_pow_right (by norm_num) h2
    rw [fillLoop, Block.read_val (by rw [hinv.logSize]; exact hlt) (hinv.unseen _ hlt hnew),
      Outcome.bind, nwm1_eq h1, if_neg (by simp),
      Block.write_val _ (by rw [hinv.logSize]; exact hlt), Outcome.bind,
      Block.write_val _ (by rw [hinv.ilogSize]; omega), Outcome.bind,
      if_pos (by rw [Nat.shiftLeft_eq]; unfold intMax; omega), ← seqB_succ]
    apply ih (j + 1) _ (by omega)
    constructor
    · exact hinv.logSize
    · exact hinv.ilogSize
    · intro m hm
      simp only []
      rcases Nat.lt_or_ge m j with h | h
      · rw [if_neg (hnew m h)]; exact hinv.seen m h
      · have : m = j := by omega
        subst this; simp
    · intro i hi hne
      simp only []
      rw [if_neg (Ne.symm (hne j (by omega)))]
      exact hinv.unseen i hi (fun m hm => hne m (by omega))
    · intro m hm
      simp only []
      rcases Nat.lt_or_ge m j with h | h
      · rw [if_neg (by omega)]; exact hinv.ilog m h
      · have : m = j := by omega
        subst this; simp

/-- What the finished tables contain. -/
structure GoodTables (w : Nat) (t : Tables) : Prop where
  logSize : t.log.size = 2 ^ w
  ilogSize : t.ilog.size = 2 ^ w * 3
  log : ∀ m, m < 2 ^ w - 1 → t.log.cell (seqB w m) = some m
  ilog : ∀ i, i < 3 * (2 ^ w - 1) → t.ilog.cell i = some (seqB w i)

/-- Invariant of the copying loop before iteration `j`. -/
structure CopyInv (w j : Nat) (t : Tables) : Prop where
  logSize : t.log.size = 2 ^ w
  ilogSize : t.ilog.size = 2 ^ w * 3
  log : ∀ m, m < 2 ^ w - 1 → t.log.cell (seqB w m) = some m
  ilog0 : ∀ m, m < 2 ^ w - 1 → t.ilog.cell m = some (seqB w m)
  ilog1 : ∀ m, m < j → t.ilog.cell (m + (2 ^ w - 1)) = some (seqB w m)
  ilog2 : ∀ m, m < j → t.ilog.cell (m + (2 ^ w - 1) * 2) = some (seqB w m)

theorem copyStep (h1 : 1 ≤ w) (k j : Nat) (t : Tables) (hj : j < 2 ^ w - 1)
    (hinv : CopyInv w j t) :
    ∃ t', CopyInv w (j + 1) t' ∧ copyLoop w (k + 1) j t =
      if j + (2 ^ w - 1) * 2 ≤ intMax then copyLoop w k (j + 1) t' else .ub := by
  have hsz := hinv.ilogSize
  refine ⟨⟨t.log, ⟨t.ilog.size, fun i => if i = j + (2 ^ w - 1) * 2 then some (seqB w j) else
    if i = j + (2 ^ w - 1) then some (seqB w j) else t.ilog.cell i⟩⟩, ?_, ?_⟩
  · constructor
    · exact hinv.logSize
    · exact hinv.ilogSize
    · exact hinv.log
    · intro m hm
      simp only []
      rw [if_neg (by omega), if_neg (by omega)]
      exact hinv.ilog0 m hm
    · intro m hm
      simp only []
      rw [if_neg (by omega)]
      rcases Nat.lt_or_ge m j with h | h
      · rw [if_neg (by omega)]; exact hinv.ilog1 m h
      · have : m = j := by omega
        subst this; simp
    · intro m hm
      simp only []
      rcases Nat.lt_or_ge m j with h | h
      · rw [if_neg (by omega), if_neg (by omega)]; exact hinv.ilog2 m h
      · have : m = j := by omega
        subst this; simp
  · rw [copyLoop, Block.read_val (by omega) (hinv.ilog0 j hj), Outcome.bind, nwm1_eq h1,
      Block.write_val _ (by omega), Outcome.bind]
    split
    · rw [Block.read_val (v := seqB w j) (by simp; omega)
        (by simp only []; rw [if_neg (by omega)]; exact hinv.ilog0 j hj),
        Outcome.bind, Block.write_val _ (by simp; omega), Outcome.bind]
    · rfl

theorem copyLoop_spec (h1 : 1 ≤ w) (h2 : w ≤ 29) (k j : Nat) (t : Tables)
    (hjk : j + k = 2 ^ w - 1) (hinv : CopyInv w j t) :
    ∃ t', copyLoop w k j t = .val t' ∧ CopyInv w (2 ^ w - 1) t' := by
  induction k generalizing j t with
  | zero =>
    have : j = 2 ^ w - 1 := by omega
    subst this
    exact ⟨t, rfl, hinv⟩
  | succ k ih =>
    obtain ⟨t', hi, he⟩ := copyStep h1 k j t (by omega) hinv
    have hpow : 2 ^ w ≤ 2 ^ 29 := Nat.pow_le_pow_right (by norm_num) h2
    rw [he, if_pos (by unfold intMax; omega)]
    exact ih (j + 1) t' (by omega) hi

theorem fill_from_start (h1 : 1 ≤ w) (h2 : w ≤ 30) :
    ∃ t t', clearLoop w (nw w) 0 ⟨Block.malloc (nw w), Block.malloc (nw w * 3)⟩ = .val t ∧
      fillLoop w (nwm1 w) 0 1 t = .val t' ∧ CopyInv w 0 t' := by
  obtain ⟨t, ht, hs1, hs2, hc, _⟩ := clearLoop_spec (w := w) (nw w) 0
    ⟨Block.malloc (nw w), Block.malloc (nw w * 3)⟩ (by simp [Block.malloc])
    (by simp [Block.malloc]; omega)
  have hfi : FillInv w 0 t := by
    constructor
    · rw [hs1]; simp [Block.malloc, nw_eq h1]
    · rw [hs2]; simp [Block.malloc, nw_eq h1]
    · intro m hm; omega
    · intro i hi _
      rw [hc i (by omega) (by rw [nw_eq h1]; omega), nwm1_eq h1]
    · intro m hm; omega
  obtain ⟨t', ht', hf⟩ := fillLoop_spec h1 h2 (2 ^ w - 1) 0 t (by omega) hfi
  refine ⟨t, t', ht, ?_, ?_⟩
  · rw [nwm1_eq h1]; exact ht'
  · exact ⟨hf.logSize, hf.ilogSize, hf.seen, hf.ilog, by intros; omega, by intros; omega⟩

theorem createLogTables_good (h1 : 1 ≤ w) (h2 : w ≤ 29) :
    ∃ t, createLogTables w = .val (some t) ∧ GoodTables w t := by
  obtain ⟨t, t', ht, ht', hci⟩ := fill_from_start h1 (by omega : w ≤ 30)
  obtain ⟨t'', ht'', hcopy⟩ := copyLoop_spec h1 h2 (2 ^ w - 1) 0 t' (by omega) hci
  refine ⟨t'', ?_, hcopy.logSize, hcopy.ilogSize, hcopy.log, ?_⟩
  · unfold createLogTables
    rw [if_neg (by omega), ht, Outcome.bind, ht', Outcome.bind, nwm1_eq h1, ht'', Outcome.bind]
  · intro i hi
    rw [← seqB_mod h1 (by omega) i]
    have hpos : 0 < 2 ^ w - 1 := by
      have := Nat.one_lt_two_pow (n := w) (by omega); omega
    rcases Nat.lt_or_ge i (2 ^ w - 1) with h | h
    · rw [Nat.mod_eq_of_lt h]; exact hcopy.ilog0 i h
    · rcases Nat.lt_or_ge i ((2 ^ w - 1) * 2) with h' | h'
      · have := hcopy.ilog1 (i - (2 ^ w - 1)) (by omega)
        rw [show i - (2 ^ w - 1) + (2 ^ w - 1) = i by omega] at this
        rw [this, Nat.mod_eq_sub_mod h, Nat.mod_eq_of_lt (by omega)]
      · have := hcopy.ilog2 (i - (2 ^ w - 1) * 2) (by omega)
        rw [show i - (2 ^ w - 1) * 2 + (2 ^ w - 1) * 2 = i by omega] at this
        rw [this, Nat.mod_eq_sub_mod h, Nat.mod_eq_sub_mod (by omega), Nat.mod_eq_of_lt (by omega)]
        congr 2
        omega

theorem createLogTables_thirty : createLogTables 30 = .ub := by
  obtain ⟨t, t', ht, ht', hci⟩ := fill_from_start (w := 30) (by omega) (by omega)
  unfold createLogTables
  rw [if_neg (by omega), ht, Outcome.bind, ht', Outcome.bind, nwm1_eq (by omega)]
  have e : 2 ^ 30 - 1 = (2 ^ 30 - 4) + 1 + 1 + 1 := by norm_num
  rw [e]
  obtain ⟨t1, hi1, he1⟩ := copyStep (w := 30) (by omega) ((2 ^ 30 - 4) + 1 + 1) 0 t' (by norm_num) hci
  rw [he1, if_pos (by norm_num [intMax])]
  obtain ⟨t2, hi2, he2⟩ := copyStep (w := 30) (by omega) ((2 ^ 30 - 4) + 1) 1 t1 (by norm_num) hi1
  rw [he2, if_pos (by norm_num [intMax])]
  obtain ⟨t3, hi3, he3⟩ := copyStep (w := 30) (by omega) (2 ^ 30 - 4) 2 t2 (by norm_num) hi2
  rw [he3, if_neg (by norm_num [intMax])]
  rfl

theorem multiply_spec (h1 : 1 ≤ w) (h2 : w ≤ 29) {t : Tables} (ht : GoodTables w t) {x y : Nat}
    (hx : x < 2 ^ w) (hy : y < 2 ^ w) :
    logtableMultiply w t x y = .val (gmul w x y) := by
  have hw : w ≠ 0 := by omega
  have hgl := gmul_lt w x y hw hy
  have hgv := val_gmul w x y hw hx hy
  unfold logtableMultiply
  split
  · rename_i h
    congr 1
    apply val_inj w _ _ (by positivity) hgl
    rw [hgv, val_zero]
    rcases h with h | h <;> subst h <;> simp [val_zero]
  · rename_i h
    simp only [not_or] at h
    obtain ⟨a, ha, rfl⟩ := exists_seqB h1 (by omega : w ≤ 30) h.1 hx
    obtain ⟨b, hb, rfl⟩ := exists_seqB h1 (by omega : w ≤ 30) h.2 hy
    rw [Block.read_val (by rw [ht.logSize]; exact hx) (ht.log a ha), Outcome.bind,
      Block.read_val (by rw [ht.logSize]; exact hy) (ht.log b hb), Outcome.bind, nwm1_eq h1,
      Block.read_val (by rw [ht.ilogSize]; omega) (ht.ilog _ (by omega))]
    congr 1
    apply val_inj w _ _ (seqB_lt hw _) hgl
    rw [hgv, val_seqB hw, val_seqB hw, val_seqB hw, pow_add, root_pow_period h1 (by omega), one_mul,
      pow_add]

/-- Multiplicative inverse by exponentiation. -/
def ginv (w a : Nat) : Nat := gpow w a (2 ^ w - 2)

theorem ginv_spec (h1 : 1 ≤ w) (h2 : w ≤ 30) {y : Nat} (hy0 : y ≠ 0) (hy : y < 2 ^ w) :
    ginv w y < 2 ^ w ∧ val w y * val w (ginv w y) = 1 := by
  have hw : w ≠ 0 := by omega
  refine ⟨gpow_lt w _ _ hw hy, ?_⟩
  obtain ⟨b, hb, rfl⟩ := exists_seqB h1 h2 hy0 hy
  have h2w := Nat.one_lt_two_pow hw
  rw [ginv, val_gpow w _ _ hw hy, val_seqB hw, ← pow_succ', ← pow_mul,
    show 2 ^ w - 2 + 1 = 2 ^ w - 1 by omega, mul_comm, pow_mul, root_pow_period h1 h2, one_pow]

theorem divide_spec (h1 : 1 ≤ w) (h2 : w ≤ 29) {t : Tables} (ht : GoodTables w t) {x y : Nat}
    (hx : x < 2 ^ w) (hy : y < 2 ^ w) (hy0 : y ≠ 0) :
    logtableDivide w t x y = .val (gmul w x (ginv w y)) := by
  have hw : w ≠ 0 := by omega
  obtain ⟨hil, hiv⟩ := ginv_spec h1 (by omega) hy0 hy
  have hgl := gmul_lt w x (ginv w y) hw hil
  have hgv := val_gmul w x (ginv w y) hw hx hil
  unfold logtableDivide
  rw [if_neg hy0]
  split
  · rename_i h
    subst h
    congr 1
    apply val_inj w _ _ (by positivity) hgl
    rw [hgv, val_zero, zero_mul]
  · rename_i h
    obtain ⟨a, ha, rfl⟩ := exists_seqB h1 (by omega : w ≤ 30) h hx
    obtain ⟨b, hb, rfl⟩ := exists_seqB h1 (by omega : w ≤ 30) hy0 hy
    rw [Block.read_val (by rw [ht.logSize]; exact hx) (ht.log a ha), Outcome.bind,
      Block.read_val (by rw [ht.logSize]; exact hy) (ht.log b hb), Outcome.bind, nwm1_eq h1,
      if_pos (by omega),
      Block.read_val (by rw [ht.ilogSize]; omega) (ht.ilog _ (by omega))]
    congr 1
    apply val_inj w _ _ (seqB_lt hw _) hgl
    have h3 : val w (seqB w b) * val w (seqB w (2 ^ w - 1 + a - b)) = val w (seqB w a) := by
      rw [val_seqB hw, val_seqB hw, val_seqB hw, ← pow_add,
        show b + (2 ^ w - 1 + a - b) = (2 ^ w - 1) + a by omega, pow_add,
        root_pow_period h1 (by omega), one_mul]
    rw [hgv, ← h3, mul_comm (val w (seqB w b)), mul_assoc, hiv, mul_one]

end Verif.Galois
