import Verif.BitSet

/-! Helper lemmas for `Verif.BitSetSpec`. -/

namespace Hwy

theorem ctzFrom_spec {w : Nat} (x : BitVec w) : ∀ (fuel i : Nat),
    (∃ j, i ≤ j ∧ j < i + fuel ∧ x.getLsbD j = true) →
    (∀ j, i ≤ j → j < ctzFrom x i fuel → x.getLsbD j = false) ∧
      x.getLsbD (ctzFrom x i fuel) = true ∧ i ≤ ctzFrom x i fuel := by
  intro fuel
  induction fuel with
  | zero => rintro i ⟨j, h1, h2, _⟩; omega
  | succ n ih =>
    rintro i ⟨j, h1, h2, h3⟩
    unfold ctzFrom
    by_cases hi : x.getLsbD i = true
    · simp only [hi, if_true]
      refine ⟨fun k hk hk' => by omega, trivial, le_refl _⟩
    · simp only [hi]
      have hj : j ≠ i := by rintro rfl; exact hi h3
      obtain ⟨ha, hb, hc⟩ := ih (i + 1) ⟨j, by omega, by omega, h3⟩
      refine ⟨fun k hk hk' => ?_, by simpa using hb, by simp; omega⟩
      by_cases hki : k = i
      · subst hki; simpa using hi
      · exact ha k (by omega) (by simpa using hk')

theorem exists_bit_of_ne_zero {w : Nat} (x : BitVec w) (h : x ≠ 0) :
    ∃ j, j < w ∧ x.getLsbD j = true := by
  by_contra hc
  push Not at hc
  apply h
  apply BitVec.eq_of_getLsbD_eq
  intro i hi
  have := hc i hi
  simp at this
  simp [this]

theorem ctz_spec {w : Nat} (x : BitVec w) (h : x ≠ 0) :
    ctz x < w ∧ x.getLsbD (ctz x) = true ∧ ∀ j, j < ctz x → x.getLsbD j = false := by
  obtain ⟨j, hj, hx⟩ := exists_bit_of_ne_zero x h
  obtain ⟨a, b, _⟩ := ctzFrom_spec x w 0 ⟨j, by omega, by omega, hx⟩
  refine ⟨?_, b, fun j hj => a j (by omega) hj⟩
  by_contra hc
  have := BitVec.getLsbD_of_ge x (ctz x) (by omega)
  rw [ctz] at this
  rw [this] at b
  exact absurd b (by simp)

theorem ctz_unique {w : Nat} (x : BitVec w) (i : Nat) (h1 : x.getLsbD i = true)
    (h2 : ∀ j, j < i → x.getLsbD j = false) : ctz x = i := by
  have hx : x ≠ 0 := by rintro rfl; simp at h1
  obtain ⟨_, b, c⟩ := ctz_spec x hx
  rcases Nat.lt_trichotomy (ctz x) i with h | h | h
  · rw [h2 _ h] at b; simp at b
  · exact h
  · rw [c _ h] at h1; simp at h1

/-- Clearing the lowest set bit with `x & (x - 1)`. -/
theorem getLsbD_clear_lsb {w : Nat} (x : BitVec w) (h : x ≠ 0) (j : Nat) :
    (x &&& (x - 1)).getLsbD j = (x.getLsbD j && decide (j ≠ ctz x)) := by
  obtain ⟨hlt, hb, hz⟩ := ctz_spec x h
  generalize hi : ctz x = i at *
  have hdiv : x.toNat % 2 ^ i = 0 := by
    apply Nat.eq_of_testBit_eq
    intro k
    rw [Nat.testBit_mod_two_pow, Nat.zero_testBit]
    by_cases hk : k < i
    · have := hz k hk
      rw [BitVec.getLsbD] at this
      simp [this]
    · simp [hk]
  have hodd : (x.toNat / 2 ^ i) % 2 = 1 := by
    have := hb
    rw [BitVec.getLsbD, Nat.testBit_eq_decide_div_mod_eq] at this
    simpa using this
  obtain ⟨m, hm⟩ : ∃ m, x.toNat / 2 ^ i = 2 * m + 1 := ⟨x.toNat / 2 ^ i / 2, by omega⟩
  have hx : x.toNat = 2 ^ i * (2 * m + 1) + 0 := by
    have := Nat.div_add_mod x.toNat (2 ^ i)
    rw [hdiv, hm] at this; omega
  have hpos : 0 < 2 ^ i := Nat.two_pow_pos i
  have hx1 : (x - 1).toNat = 2 ^ i * (2 * m) + (2 ^ i - 1) := by
    have hw : 0 < w := by omega
    have h1 : (1 : BitVec w).toNat = 1 := by
      have : (1:Nat) < 2 ^ w := Nat.one_lt_two_pow (by omega)
      simp [Nat.mod_eq_of_lt this]
    have hle : (1 : BitVec w) ≤ x := by
      rw [BitVec.le_def, h1, hx]
      have := Nat.mul_le_mul_left (2 ^ i) (show 1 ≤ 2 * m + 1 by omega)
      omega
    rw [BitVec.toNat_sub_of_le hle, h1, hx, Nat.mul_add]
    omega
  rw [BitVec.getLsbD_and, BitVec.getLsbD, BitVec.getLsbD, hx1, hx,
    Nat.testBit_two_pow_mul_add _ (by omega), Nat.testBit_two_pow_mul_add _ (by omega)]
  by_cases hji : j < i
  · simp [hji]
  · by_cases hj : j = i
    · subst hj; simp [Nat.testBit_zero]
    · obtain ⟨k, hk⟩ : ∃ k, j - i = k + 1 := ⟨j - i - 1, by omega⟩
      simp only [hji, if_false, hk, Nat.testBit_succ]
      have e1 : (2 * m + 1) / 2 = m := by omega
      have e2 : 2 * m / 2 = m := by omega
      rw [e1, e2]; simp [hj]

/-- The members of a word, ascending. -/
def bitsList {w : Nat} (x : BitVec w) : List Nat := (List.range w).filter (fun i => x.getLsbD i)

theorem bitsList_cons {w : Nat} (x : BitVec w) (h : x ≠ 0) :
    bitsList x = ctz x :: bitsList (x &&& (x - 1)) := by
  obtain ⟨hlt, hb, hz⟩ := ctz_spec x h
  have key := getLsbD_clear_lsb x h
  generalize ctz x = i at *
  have hsplit : List.range w = List.range i ++ i :: List.range' (i + 1) (w - i - 1) := by
    rw [List.range_eq_range', List.range_eq_range']
    have h2 : i :: List.range' (i + 1) (w - i - 1) = List.range' i (w - i) := by
      have : w - i = (w - i - 1) + 1 := by omega
      rw [this, List.range'_succ]
      simp
    rw [h2]
    have := @List.range'_append 0 i (w - i) 1
    simp only [Nat.zero_add, Nat.one_mul] at this
    rw [this]
    congr 1; omega
  unfold bitsList
  rw [hsplit, List.filter_append, List.filter_append]
  have e1 : (List.range i).filter (fun j => x.getLsbD j) = [] := by
    rw [List.filter_eq_nil_iff]
    intro j hj; rw [hz j (List.mem_range.mp hj)]; simp
  have e2 : (List.range i).filter (fun j => (x &&& (x - 1)).getLsbD j) = [] := by
    rw [List.filter_eq_nil_iff]
    intro j hj; rw [key, hz j (List.mem_range.mp hj)]; simp
  rw [e1, e2, List.filter_cons_of_pos (by simpa using hb), List.filter_cons_of_neg]
  · simp only [List.nil_append, List.cons.injEq, true_and]
    apply List.filter_congr
    intro j hj
    rw [key]
    have : i + 1 ≤ j := by
      have := List.mem_range'_1.mp hj; omega
    have hne : j ≠ i := by omega
    simp [hne]
  · rw [key]; simp

theorem bitsList_zero {w : Nat} : bitsList (0 : BitVec w) = [] := by
  simp [bitsList]

theorem BitSet64.foreachLoop_eq {σ : Type} (f : σ → Nat → M σ) : ∀ (fuel : Nat) (x : BitVec 64)
    (st : σ), (bitsList x).length < fuel →
    BitSet64.foreachLoop f fuel x st = (bitsList x).foldlM f st := by
  intro fuel
  induction fuel with
  | zero => intro x st h; omega
  | succ n ih =>
    intro x st h
    unfold BitSet64.foreachLoop
    by_cases hx : x = 0
    · subst hx
      rw [show bitsList (0 : BitVec 64) = [] from bitsList_zero]
      simp [List.foldlM, pure, Except.pure]
    · rw [if_neg hx]
      rw [bitsList_cons x hx] at h ⊢
      simp only [num0BitsBelowLS1Bit_Nonzero64, if_neg hx, List.foldlM_cons]
      simp only [bind, Except.bind]
      cases hf : f st (ctz x) with
      | error e => rfl
      | ok v => exact ih _ _ (by simpa using h)

theorem bitsList_length_le {w : Nat} (x : BitVec w) : (bitsList x).length ≤ w := by
  have := List.length_filter_le (fun i => x.getLsbD i) (List.range w)
  simpa [bitsList] using this

theorem BitSet64.foreach_eq {σ : Type} (s : BitSet64) (f : σ → Nat → M σ) (st : σ) :
    s.foreach f st = (bitsList s.bits).foldlM f st :=
  BitSet64.foreachLoop_eq f 65 s.bits st (by have := bitsList_length_le s.bits; omega)

theorem getLsbD_one_shl {w : Nat} (i j : Nat) (hj : j < w) :
    ((1#w) <<< i).getLsbD j = decide (j = i) := by
  rw [BitVec.getLsbD_shiftLeft]
  by_cases h : j < i
  · simp [h]; omega
  · simp only [hj, decide_true, h, decide_false, Bool.not_false, Bool.and_self, Bool.true_and,
      BitVec.getLsbD_one]
    by_cases h2 : j = i
    · subst h2; simp; omega
    · simp [h2]; omega

theorem and_one_shl_ne_zero {w : Nat} (x : BitVec w) (i : Nat) (hi : i < w) :
    decide (x &&& ((1#w) <<< i) ≠ 0) = x.getLsbD i := by
  cases h : x.getLsbD i with
  | true =>
    simp only [decide_eq_true_eq]
    intro hc
    have h' : (x &&& ((1#w) <<< i)).getLsbD i = false := by rw [hc]; simp
    rw [BitVec.getLsbD_and, h, getLsbD_one_shl i i hi] at h'
    simp at h'
  | false =>
    simp only [decide_eq_false_iff_not, not_not]
    apply BitVec.eq_of_getLsbD_eq
    intro j hj
    rw [BitVec.getLsbD_and, getLsbD_one_shl i j hj]
    by_cases hji : j = i
    · subst hji; simp [h]
    · simp [hji]

theorem BitSet64.get_eq (s : BitSet64) (i : Nat) (hi : i < 64) :
    s.get i = .ok (s.bits.getLsbD i) := by
  rw [BitSet64.get, if_pos hi, and_one_shl_ne_zero _ _ hi]

theorem BitSet64.any_iff (s : BitSet64) :
    s.any = true ↔ ∃ i, i < 64 ∧ s.bits.getLsbD i = true := by
  simp only [BitSet64.any, decide_eq_true_eq]
  constructor
  · exact exists_bit_of_ne_zero _
  · rintro ⟨i, _, h⟩ hc
    rw [hc] at h; simp at h

theorem BitSet64.first_eq (s : BitSet64) (i : Nat) (h1 : s.bits.getLsbD i = true)
    (h2 : ∀ j, j < i → s.bits.getLsbD j = false) : s.first = .ok i := by
  have hx : s.bits ≠ 0 := by intro hc; rw [hc] at h1; simp at h1
  rw [BitSet64.first, num0BitsBelowLS1Bit_Nonzero64, if_neg hx, ctz_unique _ i h1 h2]

theorem bitsList_eq_filter {w : Nat} (x : BitVec w) (p : Nat → Bool)
    (h : ∀ i, i < w → x.getLsbD i = p i) : bitsList x = (List.range w).filter p := by
  unfold bitsList
  apply List.filter_congr
  intro j hj
  exact h j (List.mem_range.mp hj)

end Hwy
