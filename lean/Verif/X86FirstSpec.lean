import Verif.X86First
import Verif.X86CompressSpec2

/-!
# C70: 128-bit comparisons and masks relative to the first true lane
-/

namespace Hwy.X86

/-! ## 128-bit numbers -/

theorem toNat_lanes (a : M128) : a.toNat = (lane 64 0 a).toNat + 2 ^ 64 * (lane 64 1 a).toNat := by
  have h := a.isLt
  simp only [lane, BitVec.extractLsb'_toNat, Nat.mul_zero, Nat.mul_one, Nat.shiftRight_zero, Nat.shiftRight_eq_div_pow]
  omega

theorem r64 {i : Nat} (h : i < 2) : InReg 64 i := ⟨by omega, by omega⟩

theorem below2 {i : Nat} (h : i < 2) : i = 0 ∨ i = 1 := by omega

theorem eq_lanes (a b : M128) : a = b ↔ lane 64 0 a = lane 64 0 b ∧ lane 64 1 a = lane 64 1 b := by
  constructor
  · intro h; subst h; exact ⟨rfl, rfl⟩
  · rintro ⟨h0, h1⟩
    apply BitVec.eq_of_toNat_eq
    rw [toNat_lanes a, toNat_lanes b, h0, h1]

theorem full64 : Shape 64 16 := by simp [Shape]

theorem lane_Upper (t : Tgt) (v : M128) {i : Nat} (hi : i < 2) : lane 64 i (InterleaveUpper t 64 16 v v) = lane 64 1 v := by
  rw [C63_interleaveUpper t full64 (by decide) v v (i := i) hi]
  have e : Lanes 64 16 / 2 + i / 2 = 1 := by
    have : Lanes 64 16 = 2 := rfl
    omega
  rw [e, ite_self]

theorem lane_Lt128Vec (t : Tgt) (a b : M128) {i : Nat} (hi : i < 2) :
    lane 64 i (Lt128Vec t a b) = maskLane 64 (a.toNat < b.toNat) := by
  unfold Lt128Vec
  simp only []
  rw [lane_Upper t _ hi, lane_IfThenElse t (r64 (by omega)) _ _ _ (lane 64 1 a = lane 64 1 b) (C62_eq t (r64 (by omega)) a b),
    C63_shiftLeftLanes full64 1 _ (i := 1) (by decide), if_pos (Nat.le_refl 1), Nat.sub_self, C62_lt t false (r64 (by omega)),
    C62_lt t false (r64 (by omega))]
  rw [toNat_lanes a, toNat_lanes b]
  have h0 := (lane 64 0 a).isLt
  have h1 := (lane 64 0 b).isLt
  simp only [val, Bool.false_eq_true, if_false]
  split
  · rename_i e
    apply maskLane_congr
    rw [e]; omega
  · rename_i e
    apply maskLane_congr
    have e' : (lane 64 1 a).toNat ≠ (lane 64 1 b).toNat := fun h => e (BitVec.eq_of_toNat_eq h)
    omega

/-- **C70**: `Lt128`: both lanes are true if and only if the 128-bit number `a` is below `b`. -/
theorem C70_lt128 (t : Tgt) (a b : M128) {i : Nat} (hi : i < 2) :
    lane 64 i (Lt128 t a b) = maskLane 64 (a.toNat < b.toNat) := lane_Lt128Vec t a b hi
/-- **C70**: `Eq128`. -/
theorem C70_eq128 (t : Tgt) (a b : M128) {i : Nat} (hi : i < 2) : lane 64 i (Eq128 t a b) = maskLane 64 (a = b) := by
  unfold Eq128 Eq128Vec
  simp only []
  rw [lane_And, C62_eq t (r64 hi), C63_reverse2 t full64 (by decide) (by decide) _ (i := i) hi]
  rw [C62_eq t (r64 (by omega)), maskLane_congr (eq_lanes a b)]
  unfold maskLane
  rcases below2 hi with rfl | rfl <;>
    (simp only [Nat.zero_div, Nat.zero_mod, Nat.zero_mul, Nat.reduceDiv, Nat.reduceMul, Nat.reduceMod, Nat.reduceSub, Nat.reduceAdd]
     by_cases h0 : lane 64 0 a = lane 64 0 b <;> by_cases h1 : lane 64 1 a = lane 64 1 b <;> simp [h0, h1])
/-- **C70**: `Ne128`. -/
theorem C70_ne128 (t : Tgt) (a b : M128) {i : Nat} (hi : i < 2) : lane 64 i (Ne128 t a b) = maskLane 64 (a ≠ b) := by
  unfold Ne128 Ne128Vec
  simp only []
  rw [lane_Or, C62_ne t (r64 hi), C63_reverse2 t full64 (by decide) (by decide) _ (i := i) hi]
  rw [C62_ne t (r64 (by omega)), maskLane_congr (_root_.not_congr (eq_lanes a b))]
  unfold maskLane
  rcases below2 hi with rfl | rfl <;>
    (simp only [Nat.zero_div, Nat.zero_mod, Nat.zero_mul, Nat.reduceDiv, Nat.reduceMul, Nat.reduceMod, Nat.reduceSub, Nat.reduceAdd]
     by_cases h0 : lane 64 0 a = lane 64 0 b <;> by_cases h1 : lane 64 1 a = lane 64 1 b <;> simp [h0, h1])
/-- **C70**: `Lt128Upper` compares the upper lanes only. -/
theorem C70_lt128Upper (t : Tgt) (a b : M128) {i : Nat} (hi : i < 2) :
    lane 64 i (Lt128Upper t a b) = maskLane 64 ((lane 64 1 a).toNat < (lane 64 1 b).toNat) := by
  unfold Lt128Upper Lt128UpperVec
  simp only []
  rw [lane_Upper t _ hi, C62_lt t false (r64 (by omega))]
  apply maskLane_congr
  simp only [val, Bool.false_eq_true, if_false]; omega
/-- **C70**: `Eq128Upper` and `Ne128Upper`. -/
theorem C70_eq128Upper (t : Tgt) (a b : M128) {i : Nat} (hi : i < 2) :
    lane 64 i (Eq128Upper t a b) = maskLane 64 (lane 64 1 a = lane 64 1 b) ∧
    lane 64 i (Ne128Upper t a b) = maskLane 64 (lane 64 1 a ≠ lane 64 1 b) := by
  unfold Eq128Upper Eq128UpperVec Ne128Upper Ne128UpperVec
  simp only []
  rw [lane_Upper t _ hi, lane_Upper t _ hi, C62_eq t (r64 (by omega)), C62_ne t (r64 (by omega))]
  exact ⟨rfl, rfl⟩

theorem sel_both {t : Tgt} {m a b : M128} {p : Prop} [Decidable p] (h : ∀ i, i < 2 → lane 64 i m = maskLane 64 p) :
    IfVecThenElse t m a b = if p then a else b := by
  rw [eq_lanes]
  unfold IfVecThenElse
  rw [lane_IfThenElse t (r64 (by omega)) _ _ _ p (h 0 (by omega)), lane_IfThenElse t (r64 (by omega)) _ _ _ p (h 1 (by omega))]
  split <;> exact ⟨rfl, rfl⟩

/-- **C70**: `Min128` and `Max128` return the smaller and larger 128-bit number. -/
theorem C70_minmax128 (t : Tgt) (a b : M128) :
    (Min128 t a b).toNat = min a.toNat b.toNat ∧ (Max128 t a b).toNat = max a.toNat b.toNat := by
  unfold Min128 Max128
  rw [sel_both (fun i hi => lane_Lt128Vec t a b hi), sel_both (fun i hi => lane_Lt128Vec t b a hi)]
  constructor <;> split <;> omega
/-- **C70**: `Min128Upper` and `Max128Upper` return one of the arguments, by their upper lanes: the second one for equal upper lanes. -/
theorem C70_minmax128Upper (t : Tgt) (a b : M128) :
    (Min128Upper t a b = if (lane 64 1 a).toNat < (lane 64 1 b).toNat then a else b) ∧
    (Max128Upper t a b = if (lane 64 1 b).toNat < (lane 64 1 a).toNat then a else b) := by
  unfold Min128Upper Max128Upper
  exact ⟨sel_both (fun i hi => C70_lt128Upper t a b hi), sel_both (fun i hi => C70_lt128Upper t b a hi)⟩

/-! ## First true lane -/

theorem mask_bit {w sz : Nat} {m : M128} {p : Nat → Bool} (hm : MaskOf w sz m p) {j : Nat} (hj : j < w * Lanes w sz) :
    m.getLsbD j = p (j / w) := by
  have hw : 0 < w := by
    apply Nat.pos_of_ne_zero; intro h; subst h; simp at hj
  have hl : j / w < Lanes w sz := Nat.div_lt_of_lt_mul hj
  have h := _root_.congrArg (fun x => BitVec.getLsbD x (j % w)) (hm _ hl)
  simp only [getLsbD_lane, Nat.mod_lt j hw, decide_true, Bool.true_and, Nat.div_add_mod] at h
  rw [h]
  by_cases hp : p (j / w) = true
  · simp [hp, Nat.mod_lt j hw]
  · simp [hp]

theorem maskOf_bits {w sz : Nat} {m : M128} {p : Nat → Bool}
    (h : ∀ i, i < Lanes w sz → ∀ k, k < w → m.getLsbD (w * i + k) = p i) : MaskOf w sz m p := by
  intro i hi
  apply BitVec.eq_of_getLsbD_eq
  intro k hk
  rw [getLsbD_lane, h i hi k hk]
  by_cases hp : p i = true
  · simp [hp, hk]
  · simp [hp]

theorem lane_bit64 (v : M128) {q : Nat} (_hq : q < 128) : v.getLsbD q = (lane 64 (q / 64) v).getLsbD (q % 64) := by
  rw [getLsbD_lane, Nat.div_add_mod]
  simp [Nat.mod_lt]

/-- A bit of the negated 64-bit lanes. -/
theorem neg_bit (m : M128) {q : Nat} (hq : q < 128) :
    (Neg 64 m).getLsbD q = true ↔ ¬ (m.getLsbD q = true ↔ ∃ j, q / 64 * 64 ≤ j ∧ j < q ∧ m.getLsbD j = true) := by
  have hr : InReg 64 (q / 64) := ⟨by omega, by omega⟩
  have hx : (∃ j, j < q % 64 ∧ (lane 64 (q / 64) m).getLsbD j = true) ↔ ∃ j, q / 64 * 64 ≤ j ∧ j < q ∧ m.getLsbD j = true := by
    constructor
    · rintro ⟨j, hj, hb⟩
      rw [getLsbD_lane] at hb
      simp only [Bool.and_eq_true] at hb
      exact ⟨64 * (q / 64) + j, by omega, by omega, hb.2⟩
    · rintro ⟨j, h1, h2, hb⟩
      refine ⟨j - q / 64 * 64, by omega, ?_⟩
      rw [getLsbD_lane]
      have e : 64 * (q / 64) + (j - q / 64 * 64) = j := by omega
      rw [e, hb]
      simp only [Bool.and_true, decide_eq_true_eq]; omega
  rw [← hx, lane_bit64 _ hq, lane_bit64 m hq]
  unfold Neg
  rw [lane_Sub hr, lane_zero', BitVec.zero_sub, BitVec.getLsbD_neg]
  have hk : q % 64 < 64 := by omega
  simp only [hk, decide_true, Bool.true_and]
  generalize (lane 64 (q / 64) m).getLsbD (q % 64) = x
  by_cases hc : ∃ j, j < q % 64 ∧ (lane 64 (q / 64) m).getLsbD j = true
  · have : decide (∃ j, j < q % 64 ∧ (lane 64 (q / 64) m).getLsbD j = true) = true := decide_eq_true hc
    rw [this]; cases x <;> simp only [hc] <;> simp
  · have : decide (∃ j, j < q % 64 ∧ (lane 64 (q / 64) m).getLsbD j = true) = false := decide_eq_false hc
    rw [this]; cases x <;> simp only [hc] <;> simp

theorem or_bit (a b : M128) (q : Nat) : (Or a b).getLsbD q = (a.getLsbD q || b.getLsbD q) := by
  unfold Or por; simp
theorem and_bit (a b : M128) (q : Nat) : (And a b).getLsbD q = (a.getLsbD q && b.getLsbD q) := by
  unfold And pand; simp

theorem orNeg_bit (m : M128) {q : Nat} (hq : q < 128) :
    (Or m (Neg 64 m)).getLsbD q = true ↔ ∃ j, q / 64 * 64 ≤ j ∧ j ≤ q ∧ m.getLsbD j = true := by
  rw [or_bit, Bool.or_eq_true, neg_bit m hq]
  by_cases h : m.getLsbD q = true
  · simp only [h, true_or, true_iff]
    exact ⟨q, by omega, by omega, h⟩
  · constructor
    · rintro (h' | h')
      · exact absurd h' h
      · have : ∃ j, q / 64 * 64 ≤ j ∧ j < q ∧ m.getLsbD j = true := by
          by_contra hc; exact h' ⟨fun x => absurd x h, fun x => absurd x hc⟩
        obtain ⟨j, a, b, c⟩ := this
        exact ⟨j, a, by omega, c⟩
    · rintro ⟨j, a, b, c⟩
      refine .inr (fun hh => h (hh.2 ⟨j, a, ?_, c⟩))
      apply _root_.Nat.lt_of_le_of_ne b
      intro e; subst e; exact h c

/-- From bits to lanes: "some bit up to here" is "some lane up to here". -/
theorem after_of_bits {w sz : Nat} {m R : M128} {p : Nat → Bool} (hm : MaskOf w sz m p)
    (h : ∀ q, q < w * Lanes w sz → (R.getLsbD q = true ↔ ∃ j, j ≤ q ∧ m.getLsbD j = true)) :
    MaskOf w sz R (fun i => decide (∃ j, j ≤ i ∧ p j = true)) := by
  apply maskOf_bits
  intro i hi k hk
  have hq : w * i + k < w * Lanes w sz := by
    have : w * (i + 1) ≤ w * Lanes w sz := Nat.mul_le_mul_left w hi
    rw [Nat.mul_add, Nat.mul_one] at this
    omega
  have hd : (w * i + k) / w = i := by
    rw [Nat.mul_add_div (by omega), Nat.div_eq_of_lt hk, Nat.add_zero]
  rw [_root_.Bool.eq_iff_iff, h _ hq, decide_eq_true_eq]
  constructor
  · rintro ⟨j, h1, h2⟩
    rw [mask_bit hm (by omega)] at h2
    refine ⟨j / w, ?_, h2⟩
    rw [← hd]; exact Nat.div_le_div_right h1
  · rintro ⟨j, h1, h2⟩
    have : w * j ≤ w * i := Nat.mul_le_mul_left w h1
    refine ⟨w * j, by omega, ?_⟩
    rw [mask_bit hm (by omega), Nat.mul_div_cancel_left _ (by omega)]
    exact h2

theorem maskOf_congr {w sz : Nat} {m : M128} {p q : Nat → Bool} (hm : MaskOf w sz m p) (h : ∀ i, i < Lanes w sz → p i = q i) :
    MaskOf w sz m q := fun i hi => by rw [hm i hi, h i hi]
theorem maskOf_MNot {w sz : Nat} (hs : Shape w sz) {m : M128} {p : Nat → Bool} (hm : MaskOf w sz m p) :
    MaskOf w sz (MNot m) (fun i => !p i) := by
  intro i hi
  unfold MNot
  rw [lane_Not (inReg_of hs hi), hm i hi]
  by_cases h : p i = true
  · simp [h]
  · simp [h]

theorem before_iff {p : Nat → Bool} {i : Nat} : (!decide (∃ j, j ≤ i ∧ p j = true)) = decide (∀ j, j ≤ i → p j = false) := by
  rw [_root_.Bool.eq_iff_iff]; simp

/-- The sign bit of 32-bit lane 1, broadcast to the upper half. -/
theorem carry_bit (t : Tgt) (v : M128) {q : Nat} (hq : q < 128) :
    (BroadcastSignBit t 32 (shufflePs zero v (MM_SHUFFLE 1 1 0 0))).getLsbD q = true ↔ 64 ≤ q ∧ v.getLsbD 63 = true := by
  have hl : q / 32 < 4 := by omega
  have hr : InReg 32 (q / 32) := ⟨by omega, by omega⟩
  have e : (BroadcastSignBit t 32 (shufflePs zero v (MM_SHUFFLE 1 1 0 0))).getLsbD q =
      (lane 32 (q / 32) (BroadcastSignBit t 32 (shufflePs zero v (MM_SHUFFLE 1 1 0 0)))).getLsbD (q % 32) := by
    rw [getLsbD_lane, Nat.div_add_mod]; simp [Nat.mod_lt]
  have es : lane 32 (q / 32) (shufflePs zero v (MM_SHUFFLE 1 1 0 0)) = if q / 32 < 2 then 0#32 else lane 32 1 v := by
    unfold shufflePs
    rw [lane_mk (by omega) (by omega)]
    split
    · rw [lane_zero']
    · have : q / 32 = 2 ∨ q / 32 = 3 := by omega
      rcases this with h | h <;> rw [h] <;> rfl
  have hs : (lane 32 1 v).toInt < 0 ↔ v.getLsbD 63 = true := by
    have h := msb_toInt (lane 32 1 v)
    have h' : (lane 32 1 v).msb = v.getLsbD 63 := by
      rw [BitVec.msb_eq_getLsbD_last, getLsbD_lane]; simp
    rw [← h', h, decide_eq_true_eq]
  rw [e, C62_broadcastSignBit t hr, es]
  by_cases h : q / 32 < 2
  · rw [if_pos h]
    simp; omega
  · rw [if_neg h]
    have hk : q % 32 < 32 := by omega
    by_cases hn : (lane 32 1 v).toInt < 0
    · rw [if_pos hn]; simp only [BitVec.getLsbD_allOnes, hk, decide_true, true_iff]
      exact ⟨by omega, hs.1 hn⟩
    · rw [if_neg hn]; simp only [BitVec.getLsbD_zero, Bool.false_eq_true, false_iff]
      exact fun hh => hn (hs.2 hh.2)

theorem after_bits (t : Tgt) {w sz : Nat} (hs : Shape w sz) (h2 : ¬ Lanes w sz = 1) (h3 : ¬ Lanes w sz = 2) (m : M128) {q : Nat}
    (hq : q < w * Lanes w sz) :
    (SetAtOrAfterFirst t w sz m).getLsbD q = true ↔ ∃ j, j ≤ q ∧ m.getLsbD j = true := by
  have e : SetAtOrAfterFirst t w sz m = if sz ≤ 8 then Or m (Neg 64 m)
      else Or (Or m (Neg 64 m)) (BroadcastSignBit t 32 (shufflePs zero (Or m (Neg 64 m)) (MM_SHUFFLE 1 1 0 0))) := by
    unfold SetAtOrAfterFirst
    simp only []
    rw [if_neg h2, if_neg h3]
  have hb : w * Lanes w sz = 8 * sz := by shapes hs <;> rfl
  rw [e]
  split
  · rename_i h8
    rw [orNeg_bit m (by omega)]
    have z : q / 64 * 64 = 0 := by omega
    rw [z]
    constructor
    · rintro ⟨j, -, a, b⟩; exact ⟨j, a, b⟩
    · rintro ⟨j, a, b⟩; exact ⟨j, by omega, a, b⟩
  · rename_i h8
    have hq' : q < 128 := by
      obtain ⟨-, hz, -⟩ := shape_cases hs
      omega
    rw [or_bit, Bool.or_eq_true, orNeg_bit m hq', carry_bit t _ hq', orNeg_bit m (by omega)]
    constructor
    · rintro (⟨j, -, a, b⟩ | ⟨h, j, -, a, b⟩)
      · exact ⟨j, a, b⟩
      · exact ⟨j, by omega, b⟩
    · rintro ⟨j, a, b⟩
      by_cases hj : q / 64 * 64 ≤ j
      · exact .inl ⟨j, hj, a, b⟩
      · exact .inr ⟨by omega, j, by omega, by omega, b⟩

/-- **C70**: `SetAtOrAfterFirst`: true from the first true lane on. -/
theorem C70_setAtOrAfterFirst (t : Tgt) {w sz : Nat} (hs : Shape w sz) {m : M128} {p : Nat → Bool} (hm : MaskOf w sz m p) :
    MaskOf w sz (SetAtOrAfterFirst t w sz m) (fun i => decide (∃ j, j ≤ i ∧ p j = true)) := by
  by_cases h1 : Lanes w sz = 1
  · have e : SetAtOrAfterFirst t w sz m = m := by
      unfold SetAtOrAfterFirst; simp only []; rw [if_pos h1]
    rw [e]
    intro i hi
    have : i = 0 := by omega
    subst this
    rw [hm 0 hi]; simp
  by_cases h2 : Lanes w sz = 2
  · have e : SetAtOrAfterFirst t w sz m = Or m (InterleaveLower w m m) := by
      unfold SetAtOrAfterFirst; simp only []; rw [if_neg h1, if_pos h2]
    rw [e]
    intro i hi
    have h16 : Shape w 16 ∧ 2 ≤ Lanes w 16 := by shapes hs <;> exact ⟨by simp [Shape], by decide⟩
    rw [lane_Or, C63_interleaveLower h16.1 m m (i := i) (by omega), ite_self]
    rw [hm i hi, hm _ (by omega)]
    rcases below2 (by omega : i < 2) with rfl | rfl
    · by_cases h : p 0 = true <;> simp [h]
    · by_cases h : p 0 = true <;> by_cases h' : p 1 = true <;> simp [h, h', Nat.le_one_iff_eq_zero_or_eq_one]
  · exact after_of_bits hm (fun q hq => after_bits t hs h1 h2 m hq)
/-- **C70**: `SetBeforeFirst`: true strictly before the first true lane, everywhere if there is none. -/
theorem C70_setBeforeFirst (t : Tgt) {w sz : Nat} (hs : Shape w sz) {m : M128} {p : Nat → Bool} (hm : MaskOf w sz m p) :
    MaskOf w sz (SetBeforeFirst t w sz m) (fun i => decide (∀ j, j ≤ i → p j = false)) := by
  exact maskOf_congr (maskOf_MNot hs (C70_setAtOrAfterFirst t hs hm)) (fun i _ => before_iff)
/-- **C70**: `SetAtOrBeforeFirst`: true up to and including the first true lane, everywhere if there is none. -/
theorem C70_setAtOrBeforeFirst (t : Tgt) {w sz : Nat} (hs : Shape w sz) {m : M128} {p : Nat → Bool} (hm : MaskOf w sz m p) :
    MaskOf w sz (SetAtOrBeforeFirst t w sz m) (fun i => decide (∀ j, j < i → p j = false)) := by
  by_cases h1 : Lanes w sz = 1
  · have e : SetAtOrBeforeFirst t w sz m = set w (BitVec.ofInt w (-1)) := by
      unfold SetAtOrBeforeFirst; simp only []; rw [if_pos h1]
    rw [e]
    intro i hi
    have : i = 0 := by omega
    subst this
    rw [lane_set (inReg_of hs hi)]
    have e1 : BitVec.ofInt w (-1) = BitVec.allOnes w := by
      rw [BitVec.ofInt_neg]; exact BitVec.neg_one_eq_allOnes
    rw [e1]; simp
  · have e : SetAtOrBeforeFirst t w sz m = SetBeforeFirst t w sz (ShiftLeftLanes w 1 m) := by
      unfold SetAtOrBeforeFirst; simp only []; rw [if_neg h1]
    rw [e]
    have hm' : MaskOf w sz (ShiftLeftLanes w 1 m) (fun i => decide (1 ≤ i) && p (i - 1)) := by
      intro i hi
      rw [C63_shiftLeftLanes hs 1 m hi]
      by_cases h : 1 ≤ i
      · rw [if_pos h, hm _ (by omega)]; simp [h]
      · rw [if_neg h]; simp [h]
    refine maskOf_congr (C70_setBeforeFirst t hs hm') (fun i _ => decide_eq_decide.2 ?_)
    constructor
    · intro h j hj
      have := h (j + 1) (by omega)
      simpa using this
    · intro h j hj
      by_cases h0 : 1 ≤ j
      · rw [h (j - 1) (by omega)]; simp
      · simp [h0]

/-! ### `SetOnlyFirst` -/

/-- A lane whose only possibly set bit is the lowest one. -/
theorem lane_one {w : Nat} (hw : 0 < w) {x : BitVec w} {b : Bool} (h : ∀ k, k < w → (x.getLsbD k = true ↔ k = 0 ∧ b = true)) :
    x = if b then 1#w else 0#w := by
  apply BitVec.eq_of_getLsbD_eq
  intro k hk
  have := h k hk
  by_cases hb : b = true
  · rw [if_pos hb]
    by_cases h0 : k = 0
    · subst h0
      rw [this.2 ⟨rfl, hb⟩]; simp [hw]
    · have : x.getLsbD k = false := by
        rw [← Bool.not_eq_true]; exact fun hh => h0 (this.1 hh).1
      rw [this, BitVec.getLsbD_one]; simp [h0]
  · rw [if_neg hb]
    have : x.getLsbD k = false := by
      rw [← Bool.not_eq_true]; exact fun hh => hb (this.1 hh).2
    rw [this]; simp

/-- `v & -v` of 64-bit lanes isolates the lowest bit. -/
theorem lowest_bit (m : M128) {q : Nat} (hq : q < 128) :
    (And m (Neg 64 m)).getLsbD q = true ↔ m.getLsbD q = true ∧ ∀ j, q / 64 * 64 ≤ j → j < q → m.getLsbD j = false := by
  rw [and_bit, Bool.and_eq_true, neg_bit m hq]
  constructor
  · rintro ⟨a, b⟩
    refine ⟨a, fun j h1 h2 => ?_⟩
    rw [← Bool.not_eq_true]
    exact fun hh => b ⟨fun _ => ⟨j, h1, h2, hh⟩, fun _ => a⟩
  · rintro ⟨a, b⟩
    refine ⟨a, fun hh => ?_⟩
    obtain ⟨j, h1, h2, h3⟩ := hh.1 a
    rw [b j h1 h2] at h3; simp at h3

/-- The lanes of `-(v & -v)`: true for the first true lane of each 64-bit half. -/
theorem only_lane {w sz : Nat} (hs : Shape w sz) (_hw : w ≤ 64) {m : M128} {p : Nat → Bool} (hm : MaskOf w sz m p) {i : Nat}
    (hi : i < Lanes w sz) : lane w i (Neg w (And m (Neg 64 m))) =
      if (p i && decide (∀ j, j < i → w * i / 64 * 64 ≤ w * j → p j = false)) then BitVec.allOnes w else 0#w := by
  have hr := inReg_of hs hi
  have hwp := hr.pos
  have hL : w * Lanes w sz ≤ 128 := by shapes hs <;> decide
  have hi1 : w * (i + 1) ≤ w * Lanes w sz := Nat.mul_le_mul_left w hi
  rw [Nat.mul_add, Nat.mul_one] at hi1
  have hdiv : ∀ k, k < w → (w * i + k) / w = i := fun k hk => by
    rw [Nat.mul_add_div (by omega), Nat.div_eq_of_lt hk, Nat.add_zero]
  have hblk : ∀ k, k < w → (w * i + k) / 64 = w * i / 64 := by
    obtain ⟨h, -, -⟩ := shape_cases hs
    intro k hk
    rcases h with rfl | rfl | rfl | rfl <;> omega
  have hbase : ∃ c, w * i / 64 * 64 = w * c := by
    obtain ⟨h, -, -⟩ := shape_cases hs
    rcases h with rfl | rfl | rfl | rfl
    · exact ⟨8 * i / 64 * 8, by omega⟩
    · exact ⟨16 * i / 64 * 4, by omega⟩
    · exact ⟨32 * i / 64 * 2, by omega⟩
    · exact ⟨i, by omega⟩
  obtain ⟨c, hc⟩ := hbase
  have key : lane w i (And m (Neg 64 m)) =
      if (p i && decide (∀ j, j < i → w * i / 64 * 64 ≤ w * j → p j = false)) then 1#w else 0#w := by
    apply lane_one hwp
    intro k hk
    rw [getLsbD_lane]
    simp only [hk, decide_true, Bool.true_and]
    rw [lowest_bit m (by omega), mask_bit hm (by omega), hdiv k hk, hblk k hk, Bool.and_eq_true, decide_eq_true_eq]
    constructor
    · rintro ⟨a, b⟩
      have hk0 : k = 0 := by
        by_contra h0
        have := b (w * i) (by omega) (by omega)
        rw [mask_bit hm (by omega), Nat.mul_div_cancel_left _ hwp, a] at this
        simp at this
      refine ⟨hk0, a, fun j h1 h2 => ?_⟩
      have hj : w * j < w * i := Nat.mul_lt_mul_of_pos_left h1 hwp
      have := b (w * j) h2 (by omega)
      rwa [mask_bit hm (by omega), Nat.mul_div_cancel_left _ hwp] at this
    · rintro ⟨rfl, a, b⟩
      refine ⟨a, fun j h1 h2 => ?_⟩
      rw [mask_bit hm (by omega)]
      have hji : j / w < i := Nat.div_lt_of_lt_mul (by omega)
      apply b _ hji
      rw [hc] at h1 ⊢
      have : w * c / w ≤ j / w := Nat.div_le_div_right h1
      rw [Nat.mul_div_cancel_left _ hwp] at this
      exact Nat.mul_le_mul_left w this
  unfold Neg at key ⊢
  rw [lane_Sub hr, lane_zero', key]
  split
  · rw [BitVec.zero_sub]; exact BitVec.neg_one_eq_allOnes
  · simp

/-- **C70**: `SetOnlyFirst`: only the first true lane. -/
theorem C70_setOnlyFirst (t : Tgt) {w sz : Nat} (hs : Shape w sz) {m : M128} {p : Nat → Bool} (hm : MaskOf w sz m p) :
    MaskOf w sz (SetOnlyFirst t w sz m) (fun i => p i && decide (∀ j, j < i → p j = false)) := by
  by_cases h1 : Lanes w sz = 1
  · have e : SetOnlyFirst t w sz m = m := by
      unfold SetOnlyFirst; simp only []; rw [if_pos h1]
    rw [e]
    intro i hi
    have : i = 0 := by omega
    subst this
    rw [hm 0 hi]; simp
  by_cases h2 : Lanes w sz = 2
  · have e : SetOnlyFirst t w sz m = And m (Eq t w (InterleaveLower w zero m) zero) := by
      unfold SetOnlyFirst; simp only []; rw [if_neg h1, if_pos h2]
    rw [e]
    intro i hi
    have h16 : Shape w 16 ∧ 2 ≤ Lanes w 16 := by shapes hs <;> exact ⟨by simp [Shape], by decide⟩
    have hr := inReg_of hs hi
    have hwp := hr.pos
    have hn : BitVec.allOnes w ≠ 0#w := by
      intro h; have := _root_.congrArg (fun x => BitVec.getLsbD x 0) h; simp at this; omega
    rw [lane_And, C62_eq t hr, C63_interleaveLower h16.1 zero m (i := i) (by omega), lane_zero', lane_zero', hm i hi]
    rcases below2 (by omega : i < 2) with rfl | rfl
    · simp
    · rw [hm _ (by omega)]
      simp only [Nat.reduceDiv, Nat.reduceMod, Nat.one_ne_zero, if_false]
      by_cases h : p 0 = true
      · rw [if_pos h, if_neg hn]; simp [h]
      · rw [if_neg h, if_pos rfl]; simp [h]
  have hw : w < 64 := by
    shapes hs <;> first | decide | (exfalso; exact h1 rfl) | (exfalso; exact h2 rfl)
  by_cases h8 : sz ≤ 8
  · have e : SetOnlyFirst t w sz m = Neg w (And m (Neg 64 m)) := by
      unfold SetOnlyFirst; simp only []; rw [if_neg h1, if_neg h2, if_pos h8]
    rw [e]
    intro i hi
    rw [only_lane hs hw.le hm hi]
    have hL : w * Lanes w sz = 8 * sz := by shapes hs <;> rfl
    have hi1 : w * (i + 1) ≤ w * Lanes w sz := Nat.mul_le_mul_left w hi
    rw [Nat.mul_add, Nat.mul_one] at hi1
    have hz : w * i / 64 * 64 = 0 := by
      have := (inReg_of hs hi).pos; omega
    simp only [hz, Nat.zero_le, true_implies]
  · have e : SetOnlyFirst t w sz m = And (Neg w (And m (Neg 64 m))) (Eq t 64 (InterleaveLower 64 zero m) zero) := by
      unfold SetOnlyFirst; simp only []; rw [if_neg h1, if_neg h2, if_neg h8]
    rw [e]
    intro i hi
    have hz : sz = 16 := by
      obtain ⟨-, hz, -⟩ := shape_cases hs; omega
    have hL : w * Lanes w sz = 8 * sz := by shapes hs <;> rfl
    subst hz
    have hr := inReg_of hs hi
    have hwp := hr.pos
    have hi1 : w * (i + 1) ≤ w * Lanes w 16 := Nat.mul_le_mul_left w hi
    rw [Nat.mul_add, Nat.mul_one] at hi1
    rw [lane_And, only_lane hs hw.le hm hi]
    have h2nd : lane w i (Eq t 64 (InterleaveLower 64 zero m) zero) =
        if (decide (w * i < 64) || decide (lane 64 0 m = 0#64)) then BitVec.allOnes w else 0#w := by
      have hbl : ∀ k, k < w → (w * i + k) / 64 = w * i / 64 := by
        obtain ⟨h, -, -⟩ := shape_cases hs
        intro k hk
        rcases h with rfl | rfl | rfl | rfl <;> omega
      apply BitVec.eq_of_getLsbD_eq
      intro k hk
      have hq : w * i + k < 128 := by omega
      rw [getLsbD_lane, lane_bit64 _ hq, C62_eq t (r64 (by omega)), C63_interleaveLower full64 zero m (by show _ < 2; omega), lane_zero',
        lane_zero', hbl k hk]
      have hb2 : w * i / 64 = 0 ∨ w * i / 64 = 1 := by omega
      rcases hb2 with h | h
      · have hlt : w * i < 64 := by omega
        rw [h]; simp [-BitVec.reduceAllOnes, hlt, hk, Nat.mod_lt (w * i + k) (show 64 > 0 by decide)]
      · have hlt : ¬ w * i < 64 := by omega
        rw [h]
        by_cases hc : lane 64 0 m = 0#64
        · simp [-BitVec.reduceAllOnes, hlt, hk, hc, Nat.mod_lt (w * i + k) (show 64 > 0 by decide)]
        · simp [hlt, hc]
    have h0 : (lane 64 0 m = 0#64) ↔ ∀ j, w * j < 64 → p j = false := by
      constructor
      · intro h j hj
        have := _root_.congrArg (fun x => BitVec.getLsbD x (w * j)) h
        simp only [getLsbD_lane, hj, decide_true, Bool.true_and, Nat.mul_zero, Nat.zero_add, BitVec.getLsbD_zero] at this
        rwa [mask_bit hm (by omega), Nat.mul_div_cancel_left _ hwp] at this
      · intro h
        apply BitVec.eq_of_getLsbD_eq
        intro k hk
        rw [getLsbD_lane, Nat.mul_zero, Nat.zero_add, mask_bit hm (by omega), h _ (by
          have := Nat.mul_div_le k w; omega)]
        simp
    rw [h2nd]
    have hboth : ((p i && decide (∀ j, j < i → w * i / 64 * 64 ≤ w * j → p j = false)) &&
        (decide (w * i < 64) || decide (lane 64 0 m = 0#64))) = (p i && decide (∀ j, j < i → p j = false)) := by
      rw [_root_.Bool.eq_iff_iff]
      simp only [Bool.and_eq_true, Bool.or_eq_true, decide_eq_true_eq, h0]
      constructor
      · rintro ⟨⟨a, b⟩, c⟩
        refine ⟨a, fun j hj => ?_⟩
        by_cases hh : w * i / 64 * 64 ≤ w * j
        · exact b j hj hh
        · rcases c with c | c
          · exact b j hj (by omega)
          · exact c j (by omega)
      · rintro ⟨a, b⟩
        refine ⟨⟨a, fun j hj _ => b j hj⟩, ?_⟩
        by_cases hlt : w * i < 64
        · exact .inl hlt
        · exact .inr (fun j hj => b j (by
            apply _root_.Nat.lt_of_not_le; intro hle
            have := Nat.mul_le_mul_left w hle; omega))
    beta_reduce
    rw [← hboth]
    generalize (p i && decide (∀ j, j < i → w * i / 64 * 64 ≤ w * j → p j = false)) = x
    generalize (decide (w * i < 64) || decide (lane 64 0 m = 0#64)) = y
    cases x <;> cases y <;> simp

end Hwy.X86
