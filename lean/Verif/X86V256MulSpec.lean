import Verif.X86V256Mul
import Verif.X86V256OpsSpec
import Verif.X86V256ConvSpec
import Verif.X86MulSpec2
import Verif.X86ShiftSpec2

/-!
# C77: integer multiplications and shifts by a count per lane of 256-bit AVX2 vectors
-/

namespace Hwy.X86.V256

/-! ## Operations on each block -/

theorem lanes_ext {w : Nat} (hw : Width w) {a b : M128} (h : ∀ i, i < 128 / w → lane w i a = lane w i b) : a = b := by
  apply BitVec.eq_of_getLsbD_eq
  intro k hk
  have hw0 : 0 < w := by rcases hw with rfl | rfl | rfl | rfl <;> omega
  have hd : k / w < 128 / w := by rcases hw with rfl | rfl | rfl | rfl <;> simp only [Nat.reduceDiv] <;> omega
  have := congrArg (fun x => x.getLsbD (k % w)) (h (k / w) hd)
  simp only [getLsbD_lane, Nat.mod_lt k hw0, decide_true, Bool.true_and] at this
  rwa [Nat.div_add_mod k w] at this

/-- A 256-bit operation whose lanes agree with a block-wise operation is that operation. -/
theorem blk_ext {w : Nat} (hw : Width w) {R : M256} {x y : M128} (hlo : ∀ i, i < 128 / w → lane256 w i R = lane w i x)
    (hhi : ∀ i, i < 128 / w → lane256 w (128 / w + i) R = lane w i y) : R = ⟨x, y⟩ := by
  have e1 : R.lo = x := lanes_ext hw (fun i h => by rw [← hlo i h, lane256_lo h])
  have e2 : R.hi = y := lanes_ext hw (fun i h => by rw [← hhi i h, lane256_hi (by omega), Nat.add_sub_cancel_left])
  rw [← e1, ← e2]

theorem even_lanes {w : Nat} (hw : Width w) : (128 / w) % 2 = 0 := by rcases hw with rfl | rfl | rfl | rfl <;> rfl

theorem oddEven_blk {w : Nat} (hw : Width w) (a b : M256) : OddEven false w a b = blk2 (X86.OddEven .avx2 w) a b := by
  have e2 := width_two hw; have e := even_lanes hw; have el := lanes16 hw
  apply blk_ext hw
  · intro i h
    rw [C72_oddEven false hw a b (by omega), C63_oddEven .avx2 (shape16 hw) a.lo b.lo (by omega), lane256_lo h, lane256_lo h]
  · intro i h
    rw [C72_oddEven false hw a b (by omega), C63_oddEven .avx2 (shape16 hw) a.hi b.hi (by omega), lane256_hi (by omega), lane256_hi (by omega),
      Nat.add_sub_cancel_left, show (128 / w + i) % 2 = i % 2 by omega]

theorem dupOdd_blk {w : Nat} (hw : Width w) (a : M256) : DupOdd false w a = blk1 (X86.DupOdd .avx2 w 16) a := by
  have e2 := width_two hw; have e := even_lanes hw; have el := lanes16 hw; have := width_le hw
  apply blk_ext hw
  · intro i h
    rw [C72_dupOdd false hw a (by omega), C63_dupOdd .avx2 (shape16 hw) (by omega) a.lo (by omega), lane256_lo (by omega)]
  · intro i h
    rw [C72_dupOdd false hw a (by omega), C63_dupOdd .avx2 (shape16 hw) (by omega) a.hi (by omega), lane256_hi (by omega)]
    congr 1; omega

theorem interleaveOdd_blk {w : Nat} (hw : Width w) (a b : M256) : InterleaveOdd false w a b = blk2 (X86.InterleaveOdd .avx2 w 16) a b := by
  have e2 := width_two hw; have e := even_lanes hw; have el := lanes16 hw; have := width_le hw
  apply blk_ext hw
  · intro i h
    rw [C72_interleaveOdd false hw a b (by omega), C63_interleaveOdd .avx2 (shape16 hw) (by omega) a.lo b.lo (by omega)]
    by_cases c : i % 2 = 0
    · rw [if_pos c, if_pos c, lane256_lo (by omega)]
    · rw [if_neg c, if_neg c, lane256_lo (by omega)]
  · intro i h
    rw [C72_interleaveOdd false hw a b (by omega), C63_interleaveOdd .avx2 (shape16 hw) (by omega) a.hi b.hi (by omega)]
    by_cases c : i % 2 = 0
    · rw [if_pos (by omega), if_pos c, lane256_hi (by omega)]; congr 1; omega
    · rw [if_neg (by omega), if_neg c, lane256_hi (by omega), Nat.add_sub_cancel_left]

theorem w16' : Width 16 := by simp [Width]
theorem w8' : Width 8 := by simp [Width]
theorem w32' : Width 32 := by simp [Width]
theorem w64' : Width 64 := by simp [Width]

theorem r_mul (a b : M256) : Mul16Q a b = ⟨Mul16 a.lo b.lo, Mul16 a.hi b.hi⟩ := rfl
theorem r_mulHigh (s : Bool) (a b : M256) : MulHigh16Q s a b = ⟨MulHigh16 s a.lo b.lo, MulHigh16 s a.hi b.hi⟩ := by cases s <;> rfl
theorem r_shl (a : M256) : ShiftLeftQ 32 16 a = ⟨ShiftLeft 32 16 a.lo, ShiftLeft 32 16 a.hi⟩ := rfl
theorem r_shr (a : M256) : ShiftRightUQ 32 16 a = ⟨ShiftRightU 32 16 a.lo, ShiftRightU 32 16 a.hi⟩ := rfl
theorem r_mul32 (s : Bool) (a b : M256) : MulEven32Q s a b = ⟨X86.MulEven .avx2 s 32 a.lo b.lo, X86.MulEven .avx2 s 32 a.hi b.hi⟩ := by cases s <;> rfl
theorem r_sar16 (a : M256) : ShiftRightIQ 16 8 a = ⟨ShiftRightI .avx2 16 8 a.lo, ShiftRightI .avx2 16 8 a.hi⟩ := rfl
theorem r_shr16 (a : M256) : ShiftRightUQ 16 8 a = ⟨ShiftRightU 16 8 a.lo, ShiftRightU 16 8 a.hi⟩ := rfl
theorem r_shl16 (a : M256) : ShiftLeftQ 16 8 a = ⟨ShiftLeft 16 8 a.lo, ShiftLeft 16 8 a.hi⟩ := rfl
theorem r_mulEven8 (s : Bool) (a b : M256) : MulEvenQ s 8 a b = blk2 (X86.MulEven .avx2 s 8) a b := by
  cases s
  · rfl
  · have : MulEvenQ true 8 a b = Mul16Q (ShiftRightIQ 16 8 (ShiftLeftQ 16 8 a)) (ShiftRightIQ 16 8 (ShiftLeftQ 16 8 b)) := rfl
    rw [this, r_mul, r_shl16, r_shl16, r_sar16, r_sar16]; rfl
theorem r_mulEven16 (s : Bool) (a b : M256) : MulEvenQ s 16 a b = blk2 (X86.MulEven .avx2 s 16) a b := by
  have : MulEvenQ s 16 a b = OddEven false 16 (ShiftLeftQ 32 16 (MulHigh16Q s a b)) (Mul16Q a b) := by
    unfold MulEvenQ
    simp only [show (16 : Nat) ≠ 8 by decide, show (32 : Nat) ≠ 8 by decide, show (32 : Nat) ≠ 16 by decide, if_false, if_true]
  rw [this, oddEven_blk w16', r_mulHigh, r_mul, r_shl]
  unfold blk2 X86.MulEven
  simp only [show (16 : Nat) ≠ 8 by decide, if_false, if_true]
theorem r_mulOdd8 (s : Bool) (a b : M256) : MulOddQ s 8 a b = blk2 (X86.MulOdd .avx2 s 8 16) a b := by
  cases s
  · have : MulOddQ false 8 a b = Mul16Q (ShiftRightUQ 16 8 a) (ShiftRightUQ 16 8 b) := rfl
    rw [this, r_mul, r_shr16, r_shr16]; rfl
  · have : MulOddQ true 8 a b = Mul16Q (ShiftRightIQ 16 8 a) (ShiftRightIQ 16 8 b) := rfl
    rw [this, r_mul, r_sar16, r_sar16]; rfl
theorem r_mulOdd16 (s : Bool) (a b : M256) : MulOddQ s 16 a b = blk2 (X86.MulOdd .avx2 s 16 16) a b := by
  have : MulOddQ s 16 a b = OddEven false 16 (MulHigh16Q s a b) (ShiftRightUQ 32 16 (Mul16Q a b)) := by
    unfold MulOddQ
    simp only [show (16 : Nat) ≠ 8 by decide, show (32 : Nat) ≠ 8 by decide, show (32 : Nat) ≠ 16 by decide, if_false, if_true]
  rw [this, oddEven_blk w16', r_mulHigh, r_mul, r_shr]
  unfold blk2 X86.MulOdd
  simp only [show (16 : Nat) ≠ 8 by decide, if_false, if_true]
theorem r_mulOdd32 (s : Bool) (a b : M256) : MulOddQ s 32 a b = blk2 (X86.MulOdd .avx2 s 32 16) a b := by
  have : MulOddQ s 32 a b = MulEven32Q s (DupOdd false 32 a) (DupOdd false 32 b) := by
    unfold MulOddQ
    simp only [show (16 : Nat) ≠ 8 by decide, show (32 : Nat) ≠ 8 by decide, show (32 : Nat) ≠ 16 by decide, if_false, if_true]
  rw [this, dupOdd_blk w32', dupOdd_blk w32', r_mul32]
  unfold blk2 blk1 X86.MulOdd
  simp only [show (32 : Nat) ≠ 8 by decide, show (32 : Nat) ≠ 16 by decide, if_false]
theorem mulEven_blk (signed : Bool) {w : Nat} (hw : NarrowW w) (a b : M256) : MulEvenQ signed w a b = blk2 (X86.MulEven .avx2 signed w) a b := by
  rcases hw with rfl | rfl | rfl
  · exact r_mulEven8 signed a b
  · exact r_mulEven16 signed a b
  · exact r_mul32 signed a b

theorem mulOdd_blk (signed : Bool) {w : Nat} (hw : NarrowW w) (a b : M256) : MulOddQ signed w a b = blk2 (X86.MulOdd .avx2 signed w 16) a b := by
  rcases hw with rfl | rfl | rfl
  · exact r_mulOdd8 signed a b
  · exact r_mulOdd16 signed a b
  · exact r_mulOdd32 signed a b

theorem mulHigh_blk (signed : Bool) {w : Nat} (hw : NarrowW w) (a b : M256) : MulHighQ signed w a b = blk2 (X86.MulHigh .avx2 signed w 16) a b := by
  have hW : Width w := by rcases hw with rfl | rfl | rfl <;> simp [Width]
  by_cases c : w = 16
  · subst c; cases signed <;> rfl
  · unfold MulHighQ
    rw [if_neg c]
    simp only []
    rw [interleaveOdd_blk hW, mulEven_blk signed hw, mulOdd_blk signed hw]
    unfold X86.MulHigh blk2
    simp only [if_neg c]
    rw [if_neg (by rcases hw with rfl | rfl | rfl <;> omega), if_neg (by rcases hw with rfl | rfl | rfl <;> omega)]

/-! ## Multiplications -/

/-- `a * b` of 16-, 32- and 64-bit lanes: the product modulo `2^w`. -/
theorem C77_mul (signed : Bool) {w : Nat} (hw : Width w) (h8 : w ≠ 8) (a b : M256) {i : Nat} (h : i < 256 / w) :
    lane256 w i (MulQ w a b) = BitVec.ofInt w (val signed (lane256 w i a) * val signed (lane256 w i b)) := by
  have e : MulQ w a b = blk2 (X86.Mul .avx2 w 16) a b := by
    rcases hw with rfl | rfl | rfl | rfl
    · exact absurd rfl h8
    all_goals rfl
  rw [e]
  have el := lanes16 hw; have e2 := width_two hw
  by_cases hb : i < 128 / w
  · simp only [lane256_lo hb]; exact C64_mul .avx2 signed h8 (shape16 hw) _ _ (by omega)
  · simp only [lane256_hi hb]; exact C64_mul .avx2 signed h8 (shape16 hw) _ _ (by omega)

theorem narrow_width' {w : Nat} (hw : NarrowW w) : Width w := by rcases hw with rfl | rfl | rfl <;> simp [Width]

/-- `MulEven(a, b)`: the full products of the even lanes. -/
theorem C77_mulEven (signed : Bool) {w : Nat} (hw : NarrowW w) (a b : M256) {i : Nat} (h : i < 256 / (w * 2)) :
    lane256 (w * 2) i (MulEvenQ signed w a b) = BitVec.ofInt (w * 2) (val signed (lane256 w (2 * i) a) * val signed (lane256 w (2 * i) b)) := by
  rw [mulEven_blk signed hw]
  have hd : 128 / w = 2 * (128 / (w * 2)) ∧ 256 / (w * 2) = 2 * (128 / (w * 2)) := by rcases hw with rfl | rfl | rfl <;> decide
  by_cases hb : i < 128 / (w * 2)
  · have h2 : 2 * i < 128 / w := by omega
    simp only [lane256_lo hb, lane256_lo h2]; exact C64_mulEven .avx2 signed hw hb _ _
  · have h2 : ¬ 2 * i < 128 / w := by omega
    simp only [lane256_hi hb, lane256_hi h2]
    rw [show 2 * i - 128 / w = 2 * (i - 128 / (w * 2)) by omega]
    exact C64_mulEven .avx2 signed hw (by omega) _ _
/-- `MulOdd(a, b)`: the full products of the odd lanes. -/
theorem C77_mulOdd (signed : Bool) {w : Nat} (hw : NarrowW w) (a b : M256) {i : Nat} (h : i < 256 / (w * 2)) :
    lane256 (w * 2) i (MulOddQ signed w a b)
      = BitVec.ofInt (w * 2) (val signed (lane256 w (2 * i + 1) a) * val signed (lane256 w (2 * i + 1) b)) := by
  rw [mulOdd_blk signed hw]
  have hd : 128 / w = 2 * (128 / (w * 2)) ∧ 256 / (w * 2) = 2 * (128 / (w * 2)) := by rcases hw with rfl | rfl | rfl <;> decide
  by_cases hb : i < 128 / (w * 2)
  · have h2 : 2 * i + 1 < 128 / w := by omega
    simp only [lane256_lo hb, lane256_lo h2]; exact C64_mulOdd .avx2 signed 16 hw hb _ _
  · have h2 : ¬ 2 * i + 1 < 128 / w := by omega
    simp only [lane256_hi hb, lane256_hi h2]
    rw [show 2 * i + 1 - 128 / w = 2 * (i - 128 / (w * 2)) + 1 by omega]
    exact C64_mulOdd .avx2 signed 16 hw (by omega) _ _
/-- `MulHigh(a, b)` of 8-, 16- and 32-bit lanes: the upper half of each product. -/
theorem C77_mulHigh (signed : Bool) {w : Nat} (hw : NarrowW w) (a b : M256) {i : Nat} (h : i < 256 / w) :
    lane256 w i (MulHighQ signed w a b) = BitVec.ofInt w (val signed (lane256 w i a) * val signed (lane256 w i b) / 2 ^ w) := by
  rw [mulHigh_blk signed hw]
  have hW := narrow_width' hw; have el := lanes16 hW; have e2 := width_two hW
  by_cases hb : i < 128 / w
  · simp only [lane256_lo hb]; exact C64_mulHigh .avx2 signed hw (shape16 hW) _ _ (by omega)
  · simp only [lane256_hi hb]; exact C64_mulHigh .avx2 signed hw (shape16 hW) _ _ (by omega)

theorem q_mulU (a b : M256) : MulEven32Q false a b = ⟨MulEvenU32 a.lo b.lo, MulEvenU32 a.hi b.hi⟩ := rfl
theorem q_and (a b : M256) : AndQ a b = ⟨And a.lo b.lo, And a.hi b.hi⟩ := rfl
theorem q_add (a b : M256) : AddQ 64 a b = ⟨Add 64 a.lo b.lo, Add 64 a.hi b.hi⟩ := rfl
theorem q_sub (a b : M256) : SubQ 64 a b = ⟨Sub 64 a.lo b.lo, Sub 64 a.hi b.hi⟩ := rfl
theorem q_shuf (a : M256) : Shuffle2301 false a = ⟨X86.Shuffle2301 a.lo, X86.Shuffle2301 a.hi⟩ := rfl
theorem q_shr (a : M256) : ShiftRightUQ 64 32 a = ⟨ShiftRightU 64 32 a.lo, ShiftRightU 64 32 a.hi⟩ := rfl
theorem q_shl (a : M256) : ShiftLeftQ 64 32 a = ⟨ShiftLeft 64 32 a.lo, ShiftLeft 64 32 a.hi⟩ := rfl
theorem q_sign (a : M256) : BroadcastSignBitQ 64 a = ⟨BroadcastSignBit .avx2 64 a.lo, BroadcastSignBit .avx2 64 a.hi⟩ := rfl
theorem q_set (x : BitVec 64) : setQ 64 x = ⟨set 64 x, set 64 x⟩ := rfl
theorem mul128_blk (signed : Bool) (a b : M256) : Mul128Q signed a b
    = (⟨(SSE2Mul128 .avx2 signed a.lo b.lo).1, (SSE2Mul128 .avx2 signed a.hi b.hi).1⟩,
       ⟨(SSE2Mul128 .avx2 signed a.lo b.lo).2, (SSE2Mul128 .avx2 signed a.hi b.hi).2⟩) := by
  have hu : Mul128UQ a b = (⟨(SSE2Mul128U a.lo b.lo).1, (SSE2Mul128U a.hi b.hi).1⟩, ⟨(SSE2Mul128U a.lo b.lo).2, (SSE2Mul128U a.hi b.hi).2⟩) := by
    unfold Mul128UQ SSE2Mul128U
    simp only [q_mulU, q_and, q_add, q_shuf, q_shr, q_shl, q_set]
  unfold Mul128Q SSE2Mul128
  rw [hu]
  cases signed
  · simp only [Bool.false_eq_true, if_false]
  · simp only [if_true, q_sub, q_and, q_sign]

/-- `MulHigh`, `MulEven` and `MulOdd` of 64-bit lanes: upper half of every product; both halves of the products of the even
and of the odd lanes, lower half in the even lane. -/
theorem C77_mul64 (signed : Bool) (a b : M256) :
    (∀ i, i < 4 → lane256 64 i (MulHigh64Q signed a b) = BitVec.ofInt 64 (val signed (lane256 64 i a) * val signed (lane256 64 i b) / 2 ^ 64)) ∧
    (∀ k, k < 2 →
      lane256 64 (2 * k) (MulEven64Q signed a b) = BitVec.ofInt 64 (val signed (lane256 64 (2 * k) a) * val signed (lane256 64 (2 * k) b)) ∧
      lane256 64 (2 * k + 1) (MulEven64Q signed a b)
        = BitVec.ofInt 64 (val signed (lane256 64 (2 * k) a) * val signed (lane256 64 (2 * k) b) / 2 ^ 64) ∧
      lane256 64 (2 * k) (MulOdd64Q signed a b) = BitVec.ofInt 64 (val signed (lane256 64 (2 * k + 1) a) * val signed (lane256 64 (2 * k + 1) b)) ∧
      lane256 64 (2 * k + 1) (MulOdd64Q signed a b)
        = BitVec.ofInt 64 (val signed (lane256 64 (2 * k + 1) a) * val signed (lane256 64 (2 * k + 1) b) / 2 ^ 64)) := by
  have e1 : MulHigh64Q signed a b = blk2 (X86.MulHigh64 .avx2 false signed 16) a b := by
    unfold MulHigh64Q; rw [mul128_blk]
    unfold blk2 X86.MulHigh64; simp only [Bool.false_eq_true, false_and, if_false]
  have e2 : MulEven64Q signed a b = blk2 (X86.MulEven64 .avx2 false signed) a b := by
    unfold MulEven64Q; rw [mul128_blk]
    unfold blk2 X86.MulEven64; simp only [Bool.false_eq_true, if_false]
    generalize SSE2Mul128 .avx2 signed a.lo b.lo = p; generalize SSE2Mul128 .avx2 signed a.hi b.hi = q; rfl
  have e3 : MulOdd64Q signed a b = blk2 (X86.MulOdd64 .avx2 false signed) a b := by
    unfold MulOdd64Q; rw [mul128_blk]
    unfold blk2 X86.MulOdd64; simp only [Bool.false_eq_true, if_false]
    generalize SSE2Mul128 .avx2 signed a.lo b.lo = p; generalize SSE2Mul128 .avx2 signed a.hi b.hi = q; rfl
  rw [e1, e2, e3]
  refine ⟨fun i h => ?_, fun k h => ?_⟩
  · by_cases hb : i < 128 / 64
    · simp only [lane256_lo hb]; exact C64_mulHigh64 (sz := 16) .avx2 false signed (by simp [Shape]) _ _ hb
    · simp only [lane256_hi hb]; exact C64_mulHigh64 (sz := 16) .avx2 false signed (by simp [Shape]) _ _ (by unfold Lanes; omega)
  · obtain rfl | rfl : k = 0 ∨ k = 1 := by omega
    · exact ⟨(C64_mulEven64 .avx2 false signed a.lo b.lo).1, (C64_mulEven64 .avx2 false signed a.lo b.lo).2,
        (C64_mulOdd64 .avx2 false signed a.lo b.lo).1, (C64_mulOdd64 .avx2 false signed a.lo b.lo).2⟩
    · exact ⟨(C64_mulEven64 .avx2 false signed a.hi b.hi).1, (C64_mulEven64 .avx2 false signed a.hi b.hi).2,
        (C64_mulOdd64 .avx2 false signed a.hi b.hi).1, (C64_mulOdd64 .avx2 false signed a.hi b.hi).2⟩

theorem pair_lo {i : Nat} (h : i < 4) (r : M256) : lane256 32 i r = lane 32 i r.lo ∧ lane256 16 (2 * i) r = lane 16 (2 * i) r.lo ∧
    lane256 16 (2 * i + 1) r = lane 16 (2 * i + 1) r.lo := ⟨lane256_lo h r, lane256_lo (by omega) r, lane256_lo (by omega) r⟩
theorem pair_hi {i : Nat} (h : ¬ i < 4) (r : M256) : lane256 32 i r = lane 32 (i - 4) r.hi ∧ lane256 16 (2 * i) r = lane 16 (2 * (i - 4)) r.hi ∧
    lane256 16 (2 * i + 1) r = lane 16 (2 * (i - 4) + 1) r.hi := by
  refine ⟨lane256_hi h r, ?_, ?_⟩
  · rw [lane256_hi (by omega)]; congr 1; omega
  · rw [lane256_hi (by omega)]; congr 1; omega

/-- `WidenMulPairwiseAdd`: each 32-bit lane is the sum of the two products of its 16-bit lanes; `ReorderWidenMulAccumulate` followed by
`RearrangeToOddPlusEven` adds it to the accumulator. -/
theorem C77_widenMul (signed : Bool) (a b sum0 sum1 : M256) {i : Nat} (h : i < 8) :
    lane256 32 i (WidenMulPairwiseAddQ signed a b) = BitVec.ofInt 32
      (val signed (lane256 16 (2 * i) a) * val signed (lane256 16 (2 * i) b)
        + val signed (lane256 16 (2 * i + 1) a) * val signed (lane256 16 (2 * i + 1) b)) ∧
    lane256 32 i (RearrangeToOddPlusEvenQ (ReorderWidenMulAccumulateQ signed a b sum0) sum1) = BitVec.ofInt 32
      (val signed (lane256 32 i sum0) + (val signed (lane256 16 (2 * i) a) * val signed (lane256 16 (2 * i) b)
        + val signed (lane256 16 (2 * i + 1) a) * val signed (lane256 16 (2 * i + 1) b))) := by
  have e1 : WidenMulPairwiseAddQ signed a b = blk2 (X86.WidenMulPairwiseAdd .avx2 signed) a b := by
    cases signed
    · have : WidenMulPairwiseAddQ false a b = AddQ 32 (OddEven false 16 (MulHigh16Q false a b) (Mul16Q a b))
        (OrQ (ShiftLeftQ 32 16 (MulHigh16Q false a b)) (ShiftRightUQ 32 16 (Mul16Q a b))) := rfl
      rw [this, oddEven_blk w16']; rfl
    · rfl
  have e2 : RearrangeToOddPlusEvenQ (ReorderWidenMulAccumulateQ signed a b sum0) sum1
      = blk3 (fun x y z => X86.RearrangeToOddPlusEven (X86.ReorderWidenMulAccumulate .avx2 signed x y z) z) a b sum0 := by
    unfold RearrangeToOddPlusEvenQ ReorderWidenMulAccumulateQ; rw [e1]; rfl
  rw [e1, e2]
  by_cases hb : i < 4
  · simp only [(pair_lo hb _).1, (pair_lo hb a).2.1, (pair_lo hb a).2.2, (pair_lo hb b).2.1, (pair_lo hb b).2.2]
    exact ⟨C64_widenMulPairwiseAdd .avx2 signed hb _ _, C64_reorderWidenMulAccumulate .avx2 signed hb _ _ sum0.lo sum0.lo⟩
  · simp only [(pair_hi hb _).1, (pair_hi hb a).2.1, (pair_hi hb a).2.2, (pair_hi hb b).2.1, (pair_hi hb b).2.2]
    exact ⟨C64_widenMulPairwiseAdd .avx2 signed (by omega) _ _, C64_reorderWidenMulAccumulate .avx2 signed (by omega) _ _ sum0.hi sum0.hi⟩

/-- `MulFixedPoint15(a, b)`: the product scaled by `2^-15`, rounded to nearest (ties up). -/
theorem C77_mulFixedPoint15 (a b : M256) {i : Nat} (h : i < 16)
    (hne : ¬ (val true (lane256 16 i a) = -32768 ∧ val true (lane256 16 i b) = -32768)) :
    val true (lane256 16 i (MulFixedPoint15Q a b)) = (val true (lane256 16 i a) * val true (lane256 16 i b) + 2 ^ 14) / 2 ^ 15 := by
  have e : MulFixedPoint15Q a b = blk2 (X86.MulFixedPoint15 .avx2 16) a b := rfl
  rw [e]
  by_cases hb : i < 128 / 16
  · simp only [lane256_lo hb] at hne ⊢; exact C64_mulFixedPoint15 (sz := 16) .avx2 (by simp [Shape]) _ _ hb hne
  · simp only [lane256_hi hb] at hne ⊢; exact C64_mulFixedPoint15 (sz := 16) .avx2 (by simp [Shape]) _ _ (by unfold Lanes; omega) hne

/-! ## Shifts by a count per lane -/

theorem half16 (v : M256) {i : Nat} (h : i < 16) :
    (i < 8 → lane 16 i (LowerHalf v) = lane256 16 i v) ∧ (¬ i < 8 → lane 16 (i - 8) (UpperHalf v) = lane256 16 i v) :=
  ⟨fun hb => (lane256_lo (w := 16) (i := i) hb v).symm, fun hb => (lane256_hi (w := 16) (i := i) hb v).symm⟩

theorem lane_Shl16Q (v bits : M256) {i : Nat} (h : i < 16) :
    lane256 16 i (Shl16Q v bits) = lane256 16 i v <<< (lane256 16 i bits).toNat := by
  have ex : ∀ (j : Nat) (r : M256), lane256 16 (2 * j) r = (lane256 32 j r).extractLsb' 0 16 := by
    intro j r
    by_cases hb : j < 4
    · rw [(pair_lo hb r).1, (pair_lo hb r).2.1]; exact lane_sub 16 2 j 0 (by omega) r.lo
    · rw [(pair_hi hb r).1, (pair_hi hb r).2.1]; exact lane_sub 16 2 (j - 4) 0 (by omega) r.hi
  unfold Shl16Q
  simp only []
  rw [C72_concatEven w16' _ _ h, show (128 : Nat) / 16 = 8 from rfl]
  by_cases hb : i < 8
  · rw [if_pos hb, ex]
    refine (congrArg (fun x => BitVec.extractLsb' 0 16 x) (sllv256 (Or.inr rfl) (LowerHalf v) (LowerHalf bits) hb)).trans ?_
    rw [shl_wide (by omega), (half16 v h).1 hb, (half16 bits h).1 hb]
  · rw [if_neg hb, ex]
    refine (congrArg (fun x => BitVec.extractLsb' 0 16 x) (sllv256 (Or.inr rfl) (UpperHalf v) (UpperHalf bits) (i := i - 8) (by omega))).trans ?_
    rw [shl_wide (by omega), (half16 v h).2 hb, (half16 bits h).2 hb]

theorem lane_Shr16Q (s : Bool) (v bits : M256) {i : Nat} (h : i < 16) (hb : (lane256 16 i bits).toNat < 16) :
    lane256 16 i (Shr16Q s v bits) = shrLane s (lane256 16 i v) (lane256 16 i bits).toNat := by
  have e : Shr16Q s v bits = OrderedDemote2To true s 16
      (blk2 ((cond s srav srlv) 32) (PromoteTo256 s 16 32 (LowerHalf v)) (PromoteTo256 s 16 32 (LowerHalf bits)))
      (blk2 ((cond s srav srlv) 32) (PromoteTo256 s 16 32 (UpperHalf v)) (PromoteTo256 s 16 32 (UpperHalf bits))) := by cases s <;> rfl
  rw [e, ordered256 true s (by simp [NarrowW]) _ _ h, show (128 : Nat) / 16 = 8 from rfl, show 2 * 16 = 32 from rfl]
  by_cases h8 : i < 8
  · rw [if_pos h8, shrv256 s (Or.inr rfl) _ _ h8 (by rw [(half16 bits h).1 h8]; exact hb), narrow_shr s (Or.inr rfl),
      (half16 v h).1 h8, (half16 bits h).1 h8]
  · rw [if_neg h8, shrv256 s (Or.inr rfl) _ _ (by omega) (by rw [(half16 bits h).2 h8]; exact hb), narrow_shr s (Or.inr rfl),
      (half16 v h).2 h8, (half16 bits h).2 h8]

theorem evenByte (j : Nat) (r : M256) : lane256 8 (2 * j) r = (lane256 16 j r).extractLsb' 0 8 :=
  (byte256_lane (w := 16) (m := 2) rfl (by omega) (j := 0) (by omega) j r).symm
theorem oddByte (j : Nat) (r : M256) : lane256 8 (2 * j + 1) r = (lane256 16 j r).extractLsb' 8 8 :=
  (byte256_lane (w := 16) (m := 2) rfl (by omega) (j := 1) (by omega) j r).symm

/-- The counts of the even and of the odd bytes. -/
theorem counts (bits : M256) {j : Nat} (h : j < 16) :
    (lane256 16 j (AndQ bits (setQ 16 0x00FF#16))).toNat = (lane256 8 (2 * j) bits).toNat ∧
    (lane256 16 j (ShiftRightUQ 16 8 bits)).toNat = (lane256 8 (2 * j + 1) bits).toNat := by
  constructor
  · rw [(C76_logic w16' _ _ bits h).1, lane_setQ w16' _ h, and_ff, evenByte]; exact BitVec.toNat_setWidth_of_le (by omega)
  · rw [(C76_shift w16' bits (k := 8) (by omega) h).2.1, shr_8, oddByte]; exact BitVec.toNat_setWidth_of_le (by omega)

theorem lane_Shl8Q (v bits : M256) {i : Nat} (h : i < 32) :
    lane256 8 i (Shl8Q v bits) = lane256 8 i v <<< (lane256 8 i bits).toNat := by
  unfold Shl8Q
  simp only []
  rw [C72_oddEven false w8' _ _ h]
  by_cases ho : i % 2 = 1
  · obtain ⟨j, rfl⟩ : ∃ j, i = 2 * j + 1 := ⟨i / 2, by omega⟩
    have hj : j < 16 := by omega
    rw [if_pos ho, oddByte j, lane_Shl16Q _ _ hj, (counts bits hj).2, (C76_logic w16' _ _ bits hj).1, lane_setQ w16' _ hj, shl_high, ← oddByte]
  · obtain ⟨j, rfl⟩ : ∃ j, i = 2 * j := ⟨i / 2, by omega⟩
    have hj : j < 16 := by omega
    rw [if_neg ho, evenByte j, lane_Shl16Q _ _ hj, (counts bits hj).1, shl_low, ← evenByte]

/-- `v << bits` for counts below the lane width (signed and unsigned lanes). -/
theorem C77_shl {w : Nat} (hw : Width w) (v bits : M256) {i : Nat} (h : i < 256 / w) (hb : (lane256 w i bits).toNat < w) :
    lane256 w i (ShlQ w v bits) = lane256 w i v <<< (lane256 w i bits).toNat := by
  unfold ShlQ
  rcases hw with rfl | rfl | rfl | rfl
  · exact lane_Shl8Q v bits h
  · exact lane_Shl16Q v bits h
  · exact lift2 (P := fun x y r => r = x <<< y.toNat) w32' (fun i a b r => lane_sllv r a b) h v bits
  · exact lift2 (P := fun x y r => r = x <<< y.toNat) w64' (fun i a b r => lane_sllv r a b) h v bits

theorem sar_low8 (x : BitVec 8) (k : Nat) : ((x.signExtend 16).sshiftRight k).extractLsb' 0 8 = x.sshiftRight k := by
  apply BitVec.eq_of_getLsbD_eq; intro j hj
  rw [BitVec.getLsbD_extractLsb', BitVec.getLsbD_sshiftRight, BitVec.getLsbD_signExtend, BitVec.getLsbD_sshiftRight]
  simp only [hj, decide_true, Bool.true_and, Nat.zero_add]
  by_cases hk : k + j < 8
  · simp [hk, show ¬ 16 ≤ j by omega, show k + j < 16 by omega, show ¬ 8 ≤ j by omega]
  · by_cases hk2 : k + j < 16
    · simp [hk, hk2, show ¬ 16 ≤ j by omega, show ¬ 8 ≤ j by omega]
    · simp [hk, hk2, show ¬ 16 ≤ j by omega, show ¬ 8 ≤ j by omega, BitVec.msb_signExtend]
theorem sar_high8 (x : BitVec 16) (k : Nat) (hk : k < 8) : (x.sshiftRight k).extractLsb' 8 8 = (x.extractLsb' 8 8).sshiftRight k := by
  apply BitVec.eq_of_getLsbD_eq; intro j hj
  have hm : (x.extractLsb' 8 8).msb = x.msb := by
    rw [BitVec.msb_eq_getLsbD_last, BitVec.msb_eq_getLsbD_last, BitVec.getLsbD_extractLsb']; simp
  rw [BitVec.getLsbD_extractLsb', BitVec.getLsbD_sshiftRight, BitVec.getLsbD_sshiftRight, BitVec.getLsbD_extractLsb', hm]
  simp only [hj, decide_true, Bool.true_and]
  by_cases c : k + j < 8
  · simp [c, show ¬ 16 ≤ 8 + j by omega, show k + (8 + j) < 16 by omega, show ¬ 8 ≤ j by omega, show k + (8 + j) = 8 + (k + j) by omega, show ¬ 16 ≤ 8 + (k + j) by omega, show 8 + (k + j) < 16 by omega]
  · simp [c, show ¬ 16 ≤ 8 + j by omega, show ¬ k + (8 + j) < 16 by omega, show ¬ 8 ≤ j by omega]
theorem sext8 (x : BitVec 16) : ((x <<< 8).sshiftRight 8) = (x.extractLsb' 0 8).signExtend 16 := by
  apply BitVec.eq_of_getLsbD_eq; intro j hj
  have hm : (x <<< 8).msb = x.getLsbD 7 := by
    rw [BitVec.msb_eq_getLsbD_last, BitVec.getLsbD_shiftLeft]; simp
  have hm2 : (x.extractLsb' 0 8).msb = x.getLsbD 7 := by
    rw [BitVec.msb_eq_getLsbD_last, BitVec.getLsbD_extractLsb']; simp
  rw [BitVec.getLsbD_sshiftRight, BitVec.getLsbD_signExtend, hm, hm2, BitVec.getLsbD_shiftLeft, BitVec.getLsbD_extractLsb']
  by_cases c : j < 8
  · simp [c, show ¬ 16 ≤ j by omega, show 8 + j < 16 by omega, hj]
  · simp [c, show ¬ 16 ≤ j by omega, show ¬ 8 + j < 16 by omega, hj]

theorem lane_Shr8Q (s : Bool) (v bits : M256) {i : Nat} (h : i < 32) (hb : (lane256 8 i bits).toNat < 8) :
    lane256 8 i (if s then ShrI8Q v bits else ShrU8Q v bits) = shrLane s (lane256 8 i v) (lane256 8 i bits).toNat := by
  by_cases ho : i % 2 = 1
  · obtain ⟨j, rfl⟩ : ∃ j, i = 2 * j + 1 := ⟨i / 2, by omega⟩
    have hj : j < 16 := by omega
    have e : lane256 8 (2 * j + 1) (if s then ShrI8Q v bits else ShrU8Q v bits) = lane256 8 (2 * j + 1) (Shr16Q s v (ShiftRightUQ 16 8 bits)) := by
      cases s
      · unfold ShrU8Q; simp only [Bool.false_eq_true, if_false]; rw [C72_oddEven false w8' _ _ h, if_pos ho]
      · unfold ShrI8Q; simp only [if_true]; rw [C72_oddEven false w8' _ _ h, if_pos ho]
    rw [e, oddByte j, lane_Shr16Q s _ _ hj (by rw [(counts bits hj).2]; omega), (counts bits hj).2, oddByte j v]
    cases s
    · exact shr_high _ _
    · exact sar_high8 _ _ hb
  · obtain ⟨j, rfl⟩ : ∃ j, i = 2 * j := ⟨i / 2, by omega⟩
    have hj : j < 16 := by omega
    cases s
    · simp only [Bool.false_eq_true, if_false]
      unfold ShrU8Q
      simp only []
      rw [C72_oddEven false w8' _ _ h, if_neg ho, evenByte j, lane_Shr16Q false _ _ hj (by rw [(counts bits hj).1]; omega), (counts bits hj).1,
        (C76_logic w16' _ _ bits hj).1, lane_setQ w16' _ hj, evenByte j v]
      exact shr_low _ _
    · simp only [if_true]
      unfold ShrI8Q
      simp only []
      rw [C72_oddEven false w8' _ _ h, if_neg ho, evenByte j, lane_Shr16Q true _ _ hj (by rw [(counts bits hj).1]; omega), (counts bits hj).1,
        (C76_shift w16' _ (k := 8) (by omega) hj).2.2.1, (C76_shift w16' _ (k := 8) (by omega) hj).1, sext8, evenByte j v]
      exact sar_low8 _ _

theorem lane_SignedShr64Q (v bits : M256) {i : Nat} (h : i < 4) :
    lane256 64 i (SignedShr64Q v bits) = (lane256 64 i v).sshiftRight (lane256 64 i bits).toNat := by
  have e : lane256 64 i (blk2 (srlv 64) (XorQ v (BroadcastSignBitQ 64 v)) bits)
      = (lane256 64 i v ^^^ lane256 64 i (BroadcastSignBitQ 64 v)) >>> (lane256 64 i bits).toNat := by
    have := lift2 (P := fun x y r => r = x >>> y.toNat) w64' (fun i a b r => lane_srlv r a b) (i := i) h (XorQ v (BroadcastSignBitQ 64 v)) bits
    rw [(C76_logic w64' v (BroadcastSignBitQ 64 v) v (i := i) h).2.2.2.1] at this
    exact this
  unfold SignedShr64Q
  simp only []
  rw [(C76_logic w64' _ (BroadcastSignBitQ 64 v) v (i := i) h).2.2.2.1, e, (C76_shift w64' v (k := 0) (by omega) (i := i) h).2.2.2.2]
  split
  · rename_i hn
    have hm : (lane256 64 i v).msb = true := by rw [BitVec.msb_eq_toInt]; simpa [val] using hn
    rw [BitVec.sshiftRight_eq_of_msb_true hm, BitVec.xor_allOnes, BitVec.xor_allOnes]
  · rename_i hn
    have hm : (lane256 64 i v).msb = false := by rw [BitVec.msb_eq_toInt]; simpa [val] using hn
    rw [BitVec.sshiftRight_eq_of_msb_false hm]; simp

/-- `v >> bits` for counts below the lane width: arithmetic for signed, logical for unsigned lanes. -/
theorem C77_shr (signed : Bool) {w : Nat} (hw : Width w) (v bits : M256) {i : Nat} (h : i < 256 / w) (hb : (lane256 w i bits).toNat < w) :
    lane256 w i (ShrQ signed w v bits)
      = if signed then (lane256 w i v).sshiftRight (lane256 w i bits).toNat else lane256 w i v >>> (lane256 w i bits).toNat := by
  unfold ShrQ
  rcases hw with rfl | rfl | rfl | rfl
  · exact lane_Shr8Q signed v bits h hb
  · exact lane_Shr16Q signed v bits h hb
  · cases signed
    · exact lift2 (P := fun x y r => r = x >>> y.toNat) w32' (fun i a b r => lane_srlv r a b) h v bits
    · exact lift2 (P := fun x y r => r = x.sshiftRight y.toNat) w32' (fun i a b r => lane_srav r a b) h v bits
  · cases signed
    · exact lift2 (P := fun x y r => r = x >>> y.toNat) w64' (fun i a b r => lane_srlv r a b) h v bits
    · exact lane_SignedShr64Q v bits h

theorem C77_shr_value (signed : Bool) {w : Nat} (hw : Width w) (v bits : M256) {i : Nat} (h : i < 256 / w) (hb : (lane256 w i bits).toNat < w) :
    val signed (lane256 w i (ShrQ signed w v bits)) = val signed (lane256 w i v) / 2 ^ (lane256 w i bits).toNat := by
  rw [C77_shr signed hw v bits h hb]; exact val_shrLane signed _ _

theorem rot_counts {w : Nat} (hw : Width w) (b : M256) {i : Nat} (h : i < 256 / w) :
    (lane256 w i (AndQ b (setQ w (BitVec.ofNat w (w - 1))))).toNat = (lane256 w i b).toNat % w ∧
    (lane256 w i (AndQ (NegQ w b) (setQ w (BitVec.ofNat w (w - 1))))).toNat = (w - (lane256 w i b).toNat % w) % w := by
  have h8 : 8 ≤ w := by rcases hw with rfl | rfl | rfl | rfl <;> omega
  constructor
  · rw [(C76_logic hw _ _ b h).1, lane_setQ hw _ h, and_mask hw h8]
  · rw [(C76_logic hw _ _ b h).1, lane_setQ hw _ h, (C76_addSub hw b b h).2.2, ← BitVec.zero_sub, and_mask_neg hw h8]

/-- `Rol` and `Ror` rotate each lane by the count in the same lane, whatever it is (modulo the lane width). -/
theorem C77_rotate {w : Nat} (hw : Width w) (a b : M256) {i : Nat} (h : i < 256 / w) :
    lane256 w i (RolQ w a b) = (lane256 w i a).rotateLeft (lane256 w i b).toNat ∧
    lane256 w i (RorQ w a b) = (lane256 w i a).rotateRight (lane256 w i b).toNat := by
  have h0 : 0 < w := by rcases hw with rfl | rfl | rfl | rfl <;> omega
  have hl := Nat.mod_lt (lane256 w i b).toNat h0
  have hl2 := Nat.mod_lt (w - (lane256 w i b).toNat % w) h0
  have hc := rot_counts hw b h
  constructor
  · unfold RolQ
    simp only []
    rw [(C76_logic hw _ _ b h).2.2.1, C77_shl hw _ _ h (by omega), C77_shr false hw _ _ h (by omega), hc.1, hc.2]
    simp only [Bool.false_eq_true, if_false]
    exact rol_parts h0 _ _
  · unfold RorQ
    simp only []
    rw [(C76_logic hw _ _ b h).2.2.1, C77_shl hw _ _ h (by omega), C77_shr false hw _ _ h (by omega), hc.1, hc.2]
    simp only [Bool.false_eq_true, if_false]
    exact ror_parts h0 _ _

end Hwy.X86.V256
