import Verif.X86V256First
import Verif.X86V256OpsSpec
import Verif.X86FirstSpec

/-!
# C78: the first true lane of 256-bit AVX2 masks, and comparisons of pairs of 64-bit lanes as 128-bit numbers
-/

namespace Hwy.X86.V256

/-! ## Pairs of 64-bit lanes -/

theorem s_eq (a b : M256) : EqQ 64 a b = ⟨X86.Eq .avx2 64 a.lo b.lo, X86.Eq .avx2 64 a.hi b.hi⟩ := rfl
theorem s_ne (a b : M256) : NeQ 64 a b = ⟨Ne .avx2 64 a.lo b.lo, Ne .avx2 64 a.hi b.hi⟩ := rfl
theorem s_lt (a b : M256) : LtQ false 64 a b = ⟨Lt .avx2 false 64 a.lo b.lo, Lt .avx2 false 64 a.hi b.hi⟩ := rfl
theorem s_and (a b : M256) : AndQ a b = ⟨X86.And a.lo b.lo, X86.And a.hi b.hi⟩ := rfl
theorem s_or (a b : M256) : OrQ a b = ⟨X86.Or a.lo b.lo, X86.Or a.hi b.hi⟩ := rfl
theorem s_not (a : M256) : NotQ a = ⟨X86.Not a.lo, X86.Not a.hi⟩ := rfl
theorem s_shl (a : M256) : ShiftLeftLanes1Q a = ⟨ShiftLeftLanes 64 1 a.lo, ShiftLeftLanes 64 1 a.hi⟩ := rfl
theorem s_ite (m a b : M256) : IfThenElse m a b = ⟨X86.IfThenElse .avx2 m.lo a.lo b.lo, X86.IfThenElse .avx2 m.hi a.hi b.hi⟩ := rfl
theorem s_ivte (m a b : M256) : IfVecThenElseQ m a b = ⟨X86.IfVecThenElse .avx2 m.lo a.lo b.lo, X86.IfVecThenElse .avx2 m.hi a.hi b.hi⟩ := rfl
theorem s_rev (a : M256) : Reverse2 false 64 a = ⟨X86.Reverse2 .avx2 64 16 a.lo, X86.Reverse2 .avx2 64 16 a.hi⟩ := rfl
theorem s_upper (a b : M256) : InterleaveUpper 64 a b = ⟨X86.InterleaveUpper .avx2 64 16 a.lo b.lo, X86.InterleaveUpper .avx2 64 16 a.hi b.hi⟩ := rfl

theorem b_lt128 (a b : M256) : Lt128VecQ a b = ⟨Lt128Vec .avx2 a.lo b.lo, Lt128Vec .avx2 a.hi b.hi⟩ := by
  unfold Lt128VecQ Lt128Vec
  simp only [s_eq, s_lt, s_shl, s_ite, s_upper]
theorem b_eq128 (a b : M256) : Eq128Q a b = ⟨Eq128 .avx2 a.lo b.lo, Eq128 .avx2 a.hi b.hi⟩ := by
  unfold Eq128Q Eq128VecQ Eq128 Eq128Vec
  simp only [s_eq, s_rev, s_and]
theorem b_ne128 (a b : M256) : Ne128Q a b = ⟨Ne128 .avx2 a.lo b.lo, Ne128 .avx2 a.hi b.hi⟩ := by
  unfold Ne128Q Ne128VecQ Ne128 Ne128Vec
  simp only [s_ne, s_rev, s_or]
theorem b_ltU (a b : M256) : Lt128UpperVecQ a b = ⟨Lt128UpperVec .avx2 a.lo b.lo, Lt128UpperVec .avx2 a.hi b.hi⟩ := by
  unfold Lt128UpperVecQ Lt128UpperVec
  simp only [s_lt, s_upper]
theorem b_eqU (a b : M256) : Eq128UpperQ a b = ⟨Eq128Upper .avx2 a.lo b.lo, Eq128Upper .avx2 a.hi b.hi⟩ := by
  unfold Eq128UpperQ Eq128UpperVecQ Eq128Upper Eq128UpperVec
  simp only [s_eq, s_upper]
theorem b_neU (a b : M256) : Ne128UpperQ a b = ⟨Ne128Upper .avx2 a.lo b.lo, Ne128Upper .avx2 a.hi b.hi⟩ := by
  unfold Ne128UpperQ Ne128UpperVecQ Ne128Upper Ne128UpperVec
  simp only [s_ne, s_upper]

/-- `Lt128`, `Eq128`, `Ne128`: in each block, both 64-bit mask lanes compare the blocks as unsigned 128-bit numbers. -/
theorem C78_compare128 (a b : M256) {i : Nat} (h : i < 4) :
    lane256 64 i (Lt128Q a b) = (if (if i < 2 then a.lo.toNat < b.lo.toNat else a.hi.toNat < b.hi.toNat) then BitVec.allOnes 64 else 0#64) ∧
    lane256 64 i (Eq128Q a b) = (if (if i < 2 then a.lo = b.lo else a.hi = b.hi) then BitVec.allOnes 64 else 0#64) ∧
    lane256 64 i (Ne128Q a b) = (if (if i < 2 then a.lo ≠ b.lo else a.hi ≠ b.hi) then BitVec.allOnes 64 else 0#64) := by
  rw [show Lt128Q a b = Lt128VecQ a b from rfl, b_lt128, b_eq128, b_ne128]
  by_cases hb : i < 2
  · simp only [lane256_lo (show i < 128 / 64 from hb), hb, if_true]
    exact ⟨C70_lt128 .avx2 _ _ hb, C70_eq128 .avx2 _ _ hb, C70_ne128 .avx2 _ _ hb⟩
  · simp only [lane256_hi (show ¬ i < 128 / 64 from hb), hb, if_false]
    have h2 : i - 128 / 64 < 2 := by omega
    exact ⟨C70_lt128 .avx2 _ _ h2, C70_eq128 .avx2 _ _ h2, C70_ne128 .avx2 _ _ h2⟩
/-- `Lt128Upper`, `Eq128Upper`, `Ne128Upper` compare the upper 64-bit lanes of each block. -/
theorem C78_compare128Upper (a b : M256) {i : Nat} (h : i < 4) :
    lane256 64 i (Lt128UpperQ a b)
      = (if (lane256 64 (i / 2 * 2 + 1) a).toNat < (lane256 64 (i / 2 * 2 + 1) b).toNat then BitVec.allOnes 64 else 0#64) ∧
    lane256 64 i (Eq128UpperQ a b) = (if lane256 64 (i / 2 * 2 + 1) a = lane256 64 (i / 2 * 2 + 1) b then BitVec.allOnes 64 else 0#64) ∧
    lane256 64 i (Ne128UpperQ a b) = (if lane256 64 (i / 2 * 2 + 1) a ≠ lane256 64 (i / 2 * 2 + 1) b then BitVec.allOnes 64 else 0#64) := by
  rw [show Lt128UpperQ a b = Lt128UpperVecQ a b from rfl, b_ltU, b_eqU, b_neU]
  by_cases hb : i < 2
  · have e : i / 2 * 2 + 1 = 1 := by omega
    simp only [lane256_lo (show i < 128 / 64 from hb), e, lane256_lo (show 1 < 128 / 64 by decide)]
    exact ⟨C70_lt128Upper .avx2 _ _ hb, (C70_eq128Upper .avx2 _ _ hb).1, (C70_eq128Upper .avx2 _ _ hb).2⟩
  · have e : i / 2 * 2 + 1 = 3 := by omega
    have h2 : i - 128 / 64 < 2 := by omega
    simp only [lane256_hi (show ¬ i < 128 / 64 from hb), e, lane256_hi (show ¬ 3 < 128 / 64 by decide)]
    exact ⟨C70_lt128Upper .avx2 _ _ h2, (C70_eq128Upper .avx2 _ _ h2).1, (C70_eq128Upper .avx2 _ _ h2).2⟩
/-- `Min128`/`Max128` of each block, and `Min128Upper`/`Max128Upper` (the second argument for equal upper lanes). -/
theorem C78_minMax128 (a b : M256) :
    ((Min128Q a b).lo.toNat = min a.lo.toNat b.lo.toNat ∧ (Min128Q a b).hi.toNat = min a.hi.toNat b.hi.toNat) ∧
    ((Max128Q a b).lo.toNat = max a.lo.toNat b.lo.toNat ∧ (Max128Q a b).hi.toNat = max a.hi.toNat b.hi.toNat) ∧
    (Min128UpperQ a b = ⟨if (lane256 64 1 a).toNat < (lane256 64 1 b).toNat then a.lo else b.lo,
      if (lane256 64 3 a).toNat < (lane256 64 3 b).toNat then a.hi else b.hi⟩) ∧
    (Max128UpperQ a b = ⟨if (lane256 64 1 b).toNat < (lane256 64 1 a).toNat then a.lo else b.lo,
      if (lane256 64 3 b).toNat < (lane256 64 3 a).toNat then a.hi else b.hi⟩) := by
  have e1 : Min128Q a b = ⟨Min128 .avx2 a.lo b.lo, Min128 .avx2 a.hi b.hi⟩ := by
    unfold Min128Q Min128; rw [b_lt128, s_ivte]
  have e2 : Max128Q a b = ⟨Max128 .avx2 a.lo b.lo, Max128 .avx2 a.hi b.hi⟩ := by
    unfold Max128Q Max128; rw [b_lt128, s_ivte]
  have e3 : Min128UpperQ a b = ⟨Min128Upper .avx2 a.lo b.lo, Min128Upper .avx2 a.hi b.hi⟩ := by
    unfold Min128UpperQ Min128Upper; rw [b_ltU, s_ivte]
  have e4 : Max128UpperQ a b = ⟨Max128Upper .avx2 a.lo b.lo, Max128Upper .avx2 a.hi b.hi⟩ := by
    unfold Max128UpperQ Max128Upper; rw [b_ltU, s_ivte]
  rw [e1, e2, e3, e4, (C70_minmax128Upper .avx2 a.lo b.lo).1, (C70_minmax128Upper .avx2 a.hi b.hi).1,
    (C70_minmax128Upper .avx2 a.lo b.lo).2, (C70_minmax128Upper .avx2 a.hi b.hi).2]
  exact ⟨⟨(C70_minmax128 .avx2 a.lo b.lo).1, (C70_minmax128 .avx2 a.hi b.hi).1⟩,
    ⟨(C70_minmax128 .avx2 a.lo b.lo).2, (C70_minmax128 .avx2 a.hi b.hi).2⟩, rfl, rfl⟩

/-! ## First true lane -/

theorem s_neg (w : Nat) (a : M256) : NegQ w a = ⟨Neg w a.lo, Neg w a.hi⟩ := rfl
theorem s_sign (a : M256) : BroadcastSignBitQ 32 a = ⟨BroadcastSignBit .avx2 32 a.lo, BroadcastSignBit .avx2 32 a.hi⟩ := rfl
theorem s_combine (a b : M128) : Combine a b = ⟨b, a⟩ := rfl

/-- Both blocks on their own, and then the last bit of the lower block in every bit of the upper block. -/
theorem after_blk (m : M256) : SetAtOrAfterFirst m = ⟨X86.Or (X86.SetAtOrAfterFirst .avx2 8 16 m.lo) zero,
    X86.Or (X86.SetAtOrAfterFirst .avx2 8 16 m.hi)
      (BroadcastSignBit .avx2 32 (X86.Broadcast .avx2 32 3 (X86.SetAtOrAfterFirst .avx2 8 16 m.lo)))⟩ := by
  have e : ∀ x, X86.SetAtOrAfterFirst .avx2 8 16 x
      = X86.Or (X86.Or x (Neg 64 x)) (BroadcastSignBit .avx2 32 (shufflePs zero (X86.Or x (Neg 64 x)) (MM_SHUFFLE 1 1 0 0))) := fun x => by
    unfold X86.SetAtOrAfterFirst
    simp only []
    rw [if_neg (by decide), if_neg (by decide), if_neg (by decide)]
  unfold SetAtOrAfterFirst
  simp only [s_or, s_neg, s_sign, s_combine, e, blk2, LowerHalf, castsi256]
  rfl

theorem carry3 (x : M128) {q : Nat} (hq : q < 128) :
    (BroadcastSignBit .avx2 32 (X86.Broadcast .avx2 32 3 x)).getLsbD q = x.getLsbD 127 := by
  have hl : q / 32 < 4 := by omega
  have hr : InReg 32 (q / 32) := ⟨by omega, by omega⟩
  have e : ∀ y : M128, y.getLsbD q = (lane 32 (q / 32) y).getLsbD (q % 32) := fun y => by
    rw [getLsbD_lane, Nat.div_add_mod]; simp [Nat.mod_lt]
  rw [e, C62_broadcastSignBit .avx2 hr, C63_broadcast .avx2 (by simp) (by decide) x hl]
  have hm : (lane 32 3 x).msb = x.getLsbD 127 := by rw [BitVec.msb_eq_getLsbD_last, getLsbD_lane]; simp
  rw [← hm, BitVec.msb_eq_toInt]
  have : q % 32 < 32 := Nat.mod_lt _ (by decide)
  by_cases c : (lane 32 3 x).toInt < 0
  · simp [-BitVec.reduceAllOnes, c, this]
  · simp [c]

theorem width_div {w : Nat} (hw : Width w) : w * Lanes w 16 = 128 ∧ 0 < w := by
  rcases hw with rfl | rfl | rfl | rfl <;> decide

theorem exists_bits {w : Nat} (hw : Width w) {m : M128} {p : Nat → Bool} (hm : MaskOf w 16 m p) {q : Nat} (hq : q < 128) :
    (∃ j, j ≤ q ∧ m.getLsbD j = true) ↔ ∃ j, j ≤ q / w ∧ p j = true := by
  obtain ⟨e, hwp⟩ := width_div hw
  constructor
  · rintro ⟨j, hj, hb⟩
    rw [mask_bit hm (by omega)] at hb
    exact ⟨j / w, Nat.div_le_div_right hj, hb⟩
  · rintro ⟨j, hj, hb⟩
    have h1 : w * j ≤ q := by
      have := Nat.mul_le_mul_left w hj; have := Nat.mul_div_le q w; omega
    refine ⟨w * j, h1, ?_⟩
    rw [mask_bit hm (by omega), Nat.mul_div_cancel_left _ hwp]; exact hb

theorem full8 : Shape 8 16 := by simp [Shape]
theorem after8 (x : M128) {q : Nat} (hq : q < 128) :
    (X86.SetAtOrAfterFirst .avx2 8 16 x).getLsbD q = true ↔ ∃ j, j ≤ q ∧ x.getLsbD j = true :=
  after_bits .avx2 full8 (by decide) (by decide) x hq

/-- `SetAtOrAfterFirst`: true from the first true lane on. -/
theorem C78_setAtOrAfterFirst {w : Nat} (hw : Width w) {m : M256} {p : Nat → Bool} (hm : MaskOf256 w m p) :
    MaskOf256 w (SetAtOrAfterFirst m) (fun i => decide (∃ j, j ≤ i ∧ p j = true)) := by
  obtain ⟨e, hwp⟩ := width_div hw
  have el := lanes16 hw; have e2 := width_two hw; have h2 := (width_le hw).2
  rw [after_blk]
  intro i hi
  by_cases hb : i < 128 / w
  · rw [lane256_lo hb]
    have := after_of_bits (R := X86.Or (X86.SetAtOrAfterFirst .avx2 8 16 m.lo) zero) (maskOf_lo hw hm) (fun q hq => by
      rw [or_bit, after8 _ (q := q) (by omega) |> fun h => _root_.Bool.eq_iff_iff.mpr (h.trans (decide_eq_true_iff (p := ∃ j, j ≤ q ∧ m.lo.getLsbD j = true)).symm)]
      simp [zero])
    exact this i (by omega)
  · rw [lane256_hi hb]
    have key : MaskOf w 16 (X86.Or (X86.SetAtOrAfterFirst .avx2 8 16 m.hi)
      (BroadcastSignBit .avx2 32 (X86.Broadcast .avx2 32 3 (X86.SetAtOrAfterFirst .avx2 8 16 m.lo))))
        (fun i => decide (∃ j, j ≤ 128 / w + i ∧ p j = true)) := by
      apply maskOf_bits
      intro i hi k hk
      have hq : w * i + k < 128 := by
        have : w * (i + 1) ≤ w * Lanes w 16 := Nat.mul_le_mul_left w hi
        rw [Nat.mul_add] at this; omega
      have hd : (w * i + k) / w = i := by rw [Nat.mul_add_div hwp, Nat.div_eq_of_lt hk, Nat.add_zero]
      have hd2 : 127 / w = 128 / w - 1 := by rcases hw with rfl | rfl | rfl | rfl <;> rfl
      rw [or_bit, carry3 _ hq, _root_.Bool.eq_iff_iff, Bool.or_eq_true, after8 _ hq, after8 _ (by decide), decide_eq_true_iff,
        exists_bits hw (maskOf_hi hw hm) hq, exists_bits hw (maskOf_lo hw hm) (by decide), hd, hd2]
      constructor
      · rintro (⟨j, h, hp⟩ | ⟨j, h, hp⟩)
        · exact ⟨128 / w + j, by omega, hp⟩
        · exact ⟨j, by omega, hp⟩
      · rintro ⟨j, h, hp⟩
        by_cases c : j < 128 / w
        · exact .inr ⟨j, by omega, hp⟩
        · exact .inl ⟨j - 128 / w, by omega, by rwa [show 128 / w + (j - 128 / w) = j by omega]⟩
    have := key (i - 128 / w) (by omega)
    beta_reduce at this
    rw [show 128 / w + (i - 128 / w) = i by omega] at this
    exact this

theorem maskOf256_not {w : Nat} (hw : Width w) {m : M256} {p : Nat → Bool} (hm : MaskOf256 w m p) : MaskOf256 w (NotQ m) (fun i => !p i) := by
  intro i hi
  rw [show NotQ m = blk1 X86.Not m from rfl, lane_blk1 (F := fun x => ~~~ x) hw (fun i a hr => lane_Not hr a) m hi, hm i hi]
  beta_reduce
  cases p i <;> simp [-BitVec.reduceAllOnes]
theorem maskOf256_congr {w : Nat} {m : M256} {p q : Nat → Bool} (hm : MaskOf256 w m p) (h : ∀ i, i < 256 / w → p i = q i) :
    MaskOf256 w m q := fun i hi => by rw [hm i hi, h i hi]

/-- `SetBeforeFirst`: true before the first true lane, everywhere if there is none. -/
theorem C78_setBeforeFirst {w : Nat} (hw : Width w) {m : M256} {p : Nat → Bool} (hm : MaskOf256 w m p) :
    MaskOf256 w (SetBeforeFirst m) (fun i => decide (∀ j, j ≤ i → p j = false)) :=
  maskOf256_congr (maskOf256_not hw (C78_setAtOrAfterFirst hw hm)) (fun i _ => before_iff)

theorem lane_up1 {w : Nat} (hw : Width w) (m : M256) {i : Nat} (h : i < 256 / w) :
    lane256 w i (CombineShiftRightBytes ((256 / w / 2 - 1) * (w / 8)) m (ConcatLowerLower m zero256)) = if 1 ≤ i then lane256 w (i - 1) m else 0#w := by
  rcases hw with rfl | rfl | rfl | rfl <;> qstat <;> qleaf0 h

/-- `SetAtOrBeforeFirst`: true up to and including the first true lane, everywhere if there is none. -/
theorem C78_setAtOrBeforeFirst {w : Nat} (hw : Width w) {m : M256} {p : Nat → Bool} (hm : MaskOf256 w m p) :
    MaskOf256 w (SetAtOrBeforeFirst w m) (fun i => decide (∀ j, j < i → p j = false)) := by
  have h : MaskOf256 w (CombineShiftRightBytes ((256 / w / 2 - 1) * (w / 8)) m (ConcatLowerLower m zero256)) (fun i => decide (0 < i) && p (i - 1)) := by
    intro i hi
    rw [lane_up1 hw m hi]
    by_cases c : i = 0
    · subst c; simp
    · rw [if_pos (by omega), hm _ (by omega)]; simp [Nat.pos_of_ne_zero c]
  refine maskOf256_congr (C78_setBeforeFirst hw h) (fun i _ => ?_)
  rw [_root_.Bool.eq_iff_iff]
  simp only [decide_eq_true_iff, Bool.and_eq_false_iff, decide_eq_false_iff_not]
  constructor
  · intro a j hj
    rcases a (j + 1) (by omega) with c | c
    · omega
    · exact c
  · intro a j hj
    by_cases c : 0 < j
    · exact .inr (a _ (by omega))
    · exact .inl c

/-- Lane `i` of the isolated lowest bit per 64-bit lane, negated. -/
theorem only256 {w : Nat} (hw : Width w) {m : M256} {p : Nat → Bool} (hm : MaskOf256 w m p) {i : Nat} (hi : i < 256 / w) :
    lane256 w i (NegQ w (AndQ m (NegQ 64 m)))
      = if (p i && decide (∀ j, j < i → w * j / 64 = w * i / 64 → p j = false)) then BitVec.allOnes w else 0#w := by
  rw [s_neg, s_neg, s_and]
  have el := lanes16 hw; have e2 := width_two hw
  have hw64 : w ≤ 64 := by rcases hw with rfl | rfl | rfl | rfl <;> decide
  by_cases hb : i < 128 / w
  · rw [lane256_lo hb]
    refine (only_lane (shape16 hw) hw64 (maskOf_lo hw hm) (i := i) (by omega)).trans ?_
    have hc : decide (∀ j, j < i → w * i / 64 * 64 ≤ w * j → p j = false) = decide (∀ j, j < i → w * j / 64 = w * i / 64 → p j = false) := by
      rw [_root_.Bool.eq_iff_iff, decide_eq_true_iff, decide_eq_true_iff]
      constructor
      · intro a j hj he; exact a j hj (by rw [← he]; exact Nat.div_mul_le_self _ _)
      · intro a j hj he; apply a j hj; rcases hw with rfl | rfl | rfl | rfl <;> omega
    rw [hc]
  · rw [lane256_hi hb]
    obtain ⟨k, rfl⟩ : ∃ k, i = 128 / w + k := ⟨i - 128 / w, by omega⟩
    rw [Nat.add_sub_cancel_left]
    refine (only_lane (shape16 hw) hw64 (maskOf_hi hw hm) (i := k) (by omega)).trans ?_
    have hc : decide (∀ j, j < k → w * k / 64 * 64 ≤ w * j → p (128 / w + j) = false)
        = decide (∀ j, j < 128 / w + k → w * j / 64 = w * (128 / w + k) / 64 → p j = false) := by
      rw [_root_.Bool.eq_iff_iff, decide_eq_true_iff, decide_eq_true_iff]
      constructor
      · intro a j hj he
        have hj2 : 128 / w ≤ j := by rcases hw with rfl | rfl | rfl | rfl <;> simp only [Nat.reduceDiv] at * <;> omega
        obtain ⟨l, rfl⟩ : ∃ l, j = 128 / w + l := ⟨j - 128 / w, by omega⟩
        apply a l (by omega)
        rcases hw with rfl | rfl | rfl | rfl <;> simp only [Nat.reduceDiv] at * <;> omega
      · intro a j hj he
        apply a _ (by omega)
        rcases hw with rfl | rfl | rfl | rfl <;> simp only [Nat.reduceDiv] at * <;> omega
    rw [hc]

/-- The register that `SetOnlyFirst` computes to suppress all but the first nonzero 64-bit lane. -/
def keep (m : M256) : M256 :=
  let lo := X86.Eq .avx2 64 m.lo zero
  let hi := X86.Eq .avx2 64 m.hi zero
  let A := X86.And lo (X86.InterleaveLower 64 lo lo)
  ⟨X86.InterleaveLower 64 (set 64 (BitVec.ofInt 64 (-1))) A, X86.And (X86.ConcatLowerUpper .avx2 64 16 hi A) (X86.InterleaveUpper .avx2 64 16 A A)⟩

theorem only_eq (w : Nat) (m : M256) : SetOnlyFirst w m = AndQ (NegQ w (AndQ m (NegQ 64 m))) (keep m) := by
  unfold SetOnlyFirst keep
  simp only [s_eq, s_combine, LowerHalf, UpperHalf, castsi256, extracti128]
  rfl

theorem lane_keep (m : M256) {k : Nat} (hk : k < 4) :
    lane256 64 k (keep m) = if (∀ l, l < k → lane256 64 l m = 0#64) then BitVec.allOnes 64 else 0#64 := by
  have h0 : lane256 64 0 m = lane 64 0 m.lo := rfl
  have h1 : lane256 64 1 m = lane 64 1 m.lo := rfl
  have h2 : lane256 64 2 m = lane 64 0 m.hi := rfl
  have lo0 : lane 64 0 (X86.Eq .avx2 64 m.lo zero) = if lane256 64 0 m = 0#64 then BitVec.allOnes 64 else 0#64 := by
    rw [C62_eq .avx2 (r64 (by omega)), lane_zero', h0]
  have lo1 : lane 64 1 (X86.Eq .avx2 64 m.lo zero) = if lane256 64 1 m = 0#64 then BitVec.allOnes 64 else 0#64 := by
    rw [C62_eq .avx2 (r64 (by omega)), lane_zero', h1]
  have hi0 : lane 64 0 (X86.Eq .avx2 64 m.hi zero) = if lane256 64 2 m = 0#64 then BitVec.allOnes 64 else 0#64 := by
    rw [C62_eq .avx2 (r64 (by omega)), lane_zero', h2]
  unfold keep
  simp only []
  generalize X86.Eq .avx2 64 m.lo zero = lo at *
  generalize X86.Eq .avx2 64 m.hi zero = hi at *
  have a0 : lane 64 0 (X86.And lo (X86.InterleaveLower 64 lo lo)) = lane 64 0 lo &&& lane 64 0 lo := by
    rw [lane_And, C63_interleaveLower full64 lo lo (i := 0) (by decide), ite_self]
  have a1 : lane 64 1 (X86.And lo (X86.InterleaveLower 64 lo lo)) = lane 64 1 lo &&& lane 64 0 lo := by
    rw [lane_And, C63_interleaveLower full64 lo lo (i := 1) (by decide), ite_self]
  generalize X86.And lo (X86.InterleaveLower 64 lo lo) = A at *
  rcases (by omega : k = 0 ∨ k = 1 ∨ k = 2 ∨ k = 3) with rfl | rfl | rfl | rfl
  · rw [lane256_lo (by decide), C63_interleaveLower full64 _ _ (i := 0) (by decide), if_pos rfl, lane_set (r64 (by omega))]
    simp
  · rw [lane256_lo (by decide), C63_interleaveLower full64 _ _ (i := 1) (by decide), if_neg (by decide), a0, lo0]
    by_cases c0 : lane256 64 0 m = 0#64 <;> simp [c0]
  · rw [lane256_hi (by decide)]
    show lane 64 0 (X86.And (X86.ConcatLowerUpper .avx2 64 16 hi A) (X86.InterleaveUpper .avx2 64 16 A A)) = _
    rw [lane_And, lane_Upper .avx2 A (by decide), C63_concatLowerUpper .avx2 full64 (by decide) hi A (i := 0) (by decide)]
    simp only [show Lanes 64 16 = 2 from rfl, Nat.reduceDiv, Nat.reduceLT, if_true, Nat.zero_add, a1, lo1, lo0]
    by_cases c0 : lane256 64 0 m = 0#64 <;> by_cases c1 : lane256 64 1 m = 0#64 <;> simp [c0, c1, -BitVec.reduceAllOnes, Nat.forall_lt_succ_right]
  · rw [lane256_hi (by decide)]
    show lane 64 1 (X86.And (X86.ConcatLowerUpper .avx2 64 16 hi A) (X86.InterleaveUpper .avx2 64 16 A A)) = _
    rw [lane_And, lane_Upper .avx2 A (by decide), C63_concatLowerUpper .avx2 full64 (by decide) hi A (i := 1) (by decide)]
    simp only [show Lanes 64 16 = 2 from rfl, Nat.reduceDiv, Nat.reduceSub, Nat.lt_irrefl, if_false, a1, lo1, lo0, hi0]
    by_cases c0 : lane256 64 0 m = 0#64 <;> by_cases c1 : lane256 64 1 m = 0#64 <;> by_cases c2 : lane256 64 2 m = 0#64 <;>
      simp [c0, c1, c2, -BitVec.reduceAllOnes, Nat.forall_lt_succ_right]

/-- A lane inside a 64-bit mask lane. -/
theorem lane_in64 {w : Nat} (hw : Width w) {K : M256} {c : Prop} [Decidable c] {i : Nat} (hi : i < 256 / w)
    (h : lane256 64 (w * i / 64) K = if c then BitVec.allOnes 64 else 0#64) : lane256 w i K = if c then BitVec.allOnes w else 0#w := by
  have e2 := width_two hw
  have key : ∀ (x : M128) (j : Nat), j < 128 / w → (lane 64 (w * j / 64) x = if c then BitVec.allOnes 64 else 0#64) →
      lane w j x = if c then BitVec.allOnes w else 0#w := by
    intro x j hj h
    apply BitVec.eq_of_getLsbD_eq
    intro b hb
    have hd : (w * j + b) / 64 = w * j / 64 := by rcases hw with rfl | rfl | rfl | rfl <;> omega
    have := _root_.congrArg (fun y => BitVec.getLsbD y ((w * j + b) % 64)) h
    simp only [getLsbD_lane, Nat.mod_lt _ (show 64 > 0 by decide), decide_true, Bool.true_and] at this
    rw [← hd, Nat.div_add_mod] at this
    rw [getLsbD_lane, this]
    by_cases hc : c
    · simp [hc, -BitVec.reduceAllOnes, hb, Nat.mod_lt]
    · simp [hc]
  by_cases hb : i < 128 / w
  · rw [lane256_lo hb]
    apply key _ _ hb
    rw [← h, lane256_lo (by rcases hw with rfl | rfl | rfl | rfl <;> omega)]
  · rw [lane256_hi hb]
    apply key _ _ (by omega)
    rw [← h, lane256_hi (by rcases hw with rfl | rfl | rfl | rfl <;> omega)]
    congr 1
    rcases hw with rfl | rfl | rfl | rfl <;> omega

/-- A 64-bit lane is zero exactly if all mask lanes in it are false. -/
theorem zero64_iff {w : Nat} (hw : Width w) {m : M256} {p : Nat → Bool} (hm : MaskOf256 w m p) {l : Nat} (hl : l < 4) :
    lane256 64 l m = 0#64 ↔ ∀ j, w * j / 64 = l → p j = false := by
  obtain ⟨e, hwp⟩ := width_div hw
  have hN : 128 / w * w = 128 := by rcases hw with rfl | rfl | rfl | rfl <;> rfl
  have key : ∀ (x : M128) (q : Nat → Bool), MaskOf w 16 x q → ∀ l, l < 2 → (lane 64 l x = 0#64 ↔ ∀ j, w * j / 64 = l → q j = false) := by
    intro x q hx l hl
    constructor
    · intro h j hj
      have := _root_.congrArg (fun y => BitVec.getLsbD y (w * j % 64)) h
      simp only [getLsbD_lane, Nat.mod_lt _ (show 64 > 0 by decide), decide_true, Bool.true_and, BitVec.getLsbD_zero] at this
      rw [← hj, Nat.div_add_mod] at this
      rwa [mask_bit hx (by omega), Nat.mul_div_cancel_left _ hwp] at this
    · intro h
      apply BitVec.eq_of_getLsbD_eq
      intro k hk
      rw [getLsbD_lane, mask_bit hx (by omega), h _ (by rcases hw with rfl | rfl | rfl | rfl <;> omega)]
      simp
  by_cases hb : l < 2
  · rw [lane256_lo (show l < 128 / 64 from hb)]
    exact key _ _ (maskOf_lo hw hm) l hb
  · rw [lane256_hi (show ¬ l < 128 / 64 from hb), key _ _ (maskOf_hi hw hm) (l - 128 / 64) (by omega)]
    constructor
    · intro h j hj
      obtain ⟨i, rfl⟩ : ∃ i, j = 128 / w + i := ⟨j - 128 / w, by rcases hw with rfl | rfl | rfl | rfl <;> simp only [Nat.reduceDiv] at * <;> omega⟩
      apply h
      rcases hw with rfl | rfl | rfl | rfl <;> simp only [Nat.reduceDiv] at * <;> omega
    · intro h j hj
      apply h
      rcases hw with rfl | rfl | rfl | rfl <;> simp only [Nat.reduceDiv] at * <;> omega

/-- `SetOnlyFirst`: only the first true lane. -/
theorem C78_setOnlyFirst {w : Nat} (hw : Width w) {m : M256} {p : Nat → Bool} (hm : MaskOf256 w m p) :
    MaskOf256 w (SetOnlyFirst w m) (fun i => p i && decide (∀ j, j < i → p j = false)) := by
  intro i hi
  have hk : w * i / 64 < 4 := by rcases hw with rfl | rfl | rfl | rfl <;> omega
  have hz : (∀ l, l < w * i / 64 → lane256 64 l m = 0#64) ↔ ∀ j, w * j / 64 < w * i / 64 → p j = false := by
    constructor
    · intro h j hj; exact (zero64_iff hw hm (by omega)).mp (h _ hj) j rfl
    · intro h l hl; exact (zero64_iff hw hm (by omega)).mpr (fun j hj => h j (by omega))
  rw [only_eq, (C76_logic hw _ _ m hi).1, only256 hw hm hi, lane_in64 hw hi (lane_keep m hk)]
  have hboth : (p i && decide (∀ j, j < i → w * j / 64 = w * i / 64 → p j = false) && decide (∀ l, l < w * i / 64 → lane256 64 l m = 0#64))
      = (p i && decide (∀ j, j < i → p j = false)) := by
    rw [_root_.Bool.eq_iff_iff]
    simp only [Bool.and_eq_true, decide_eq_true_eq, hz]
    constructor
    · rintro ⟨⟨a, b⟩, c⟩
      refine ⟨a, fun j hj => ?_⟩
      have : w * j / 64 ≤ w * i / 64 := Nat.div_le_div_right (Nat.mul_le_mul_left w hj.le)
      by_cases hh : w * j / 64 = w * i / 64
      · exact b j hj hh
      · exact c j (by omega)
    · rintro ⟨a, b⟩
      refine ⟨⟨a, fun j hj _ => b j hj⟩, fun j hj => b j ?_⟩
      apply _root_.Nat.lt_of_not_le; intro hle
      have : w * i / 64 ≤ w * j / 64 := Nat.div_le_div_right (Nat.mul_le_mul_left w hle)
      omega
  beta_reduce
  rw [← hboth]
  generalize (p i && decide (∀ j, j < i → w * j / 64 = w * i / 64 → p j = false)) = x
  by_cases c : ∀ l, l < w * i / 64 → lane256 64 l m = 0#64
  · rw [if_pos c, decide_eq_true c]; cases x <;> simp [-BitVec.reduceAllOnes]
  · rw [if_neg c, decide_eq_false c]; cases x <;> simp

end Hwy.X86.V256
