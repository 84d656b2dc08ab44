import Verif.X86Mul
import Verif.X86PermSpec
import Verif.X86OpsSpec3
import Mathlib.Tactic.Ring

/-!
# C64: integer multiplications of the x86 128-bit targets

`val signed x` is the number a lane stands for; all products below are products of integers.
-/

namespace Hwy.X86

theorem ofInt_val (s : Bool) {w : Nat} (x : BitVec w) : BitVec.ofInt w (val s x) = x := by
  unfold val; cases s
  · simp
  · simp

theorem ofInt_mul_val (s : Bool) {w : Nat} (x y : BitVec w) :
    BitVec.ofInt w (val s x * val s y) = x * y := by
  rw [BitVec.ofInt_mul, ofInt_val, ofInt_val]

theorem ofInt_congr {w : Nat} {p q : Int} (h : p % 2 ^ w = q % 2 ^ w) : BitVec.ofInt w p = BitVec.ofInt w q := by
  apply BitVec.eq_of_toNat_eq
  rw [BitVec.toNat_ofInt, BitVec.toNat_ofInt]
  have : ((2 ^ w : Nat) : Int) = 2 ^ w := by norm_cast
  rw [this, h]

theorem half0 (w : Nat) (p : Int) : (BitVec.ofInt (w * 2) p).extractLsb' 0 w = BitVec.ofInt w p := by
  apply BitVec.eq_of_toNat_eq
  rw [BitVec.extractLsb'_toNat, BitVec.toNat_ofInt, BitVec.toNat_ofInt, Nat.shiftRight_zero]
  have h2 : (2 : Nat) ^ (w * 2) = 2 ^ w * 2 ^ w := by rw [Nat.mul_two, Nat.pow_add]
  rw [h2]
  have hp : (0 : Int) < ((2 ^ w : Nat) : Int) := by exact_mod_cast Nat.two_pow_pos w
  generalize hk : (2 : Nat) ^ w = k at *
  have h3 : 0 ≤ p % ((k * k : Nat) : Int) := Int.emod_nonneg _ (by
    have : (0 : Int) < ((k * k : Nat) : Int) := by
      push_cast; exact Int.mul_pos hp hp
    omega)
  have h4 : 0 ≤ p % (k : Int) := Int.emod_nonneg _ (by omega)
  have : ((p % ((k * k : Nat) : Int)).toNat % k : Int) = p % k := by
    rw [Int.toNat_of_nonneg h3]
    push_cast
    exact Int.emod_emod_of_dvd _ ⟨k, rfl⟩
  have h5 : (((p % ((k * k : Nat) : Int)).toNat % k : Nat) : Int) = p % k := by push_cast; exact_mod_cast this
  omega

theorem half1 (w : Nat) (p : Int) :
    (BitVec.ofInt (w * 2) p).extractLsb' w w = BitVec.ofInt w (p / 2 ^ w) := by
  apply BitVec.eq_of_toNat_eq
  rw [BitVec.extractLsb'_toNat, BitVec.toNat_ofInt, BitVec.toNat_ofInt, Nat.shiftRight_eq_div_pow]
  have h2 : (2 : Nat) ^ (w * 2) = 2 ^ w * 2 ^ w := by rw [Nat.mul_two, Nat.pow_add]
  have hc : ((2 : Int) ^ w) = ((2 ^ w : Nat) : Int) := by norm_cast
  rw [h2, hc]
  have hp : (0 : Int) < ((2 ^ w : Nat) : Int) := by exact_mod_cast Nat.two_pow_pos w
  generalize (2 : Nat) ^ w = k at *
  have h3 : 0 ≤ p % ((k * k : Nat) : Int) := Int.emod_nonneg _ (by
    have : (0 : Int) < ((k * k : Nat) : Int) := by
      push_cast; exact Int.mul_pos hp hp
    omega)
  have h4 : 0 ≤ p / (k : Int) % (k : Int) := Int.emod_nonneg _ (by omega)
  have h5 : (((p % ((k * k : Nat) : Int)).toNat / k % k : Nat) : Int) = p / (k : Int) % (k : Int) := by
    rw [Int.natCast_emod, Int.natCast_ediv, Int.toNat_of_nonneg h3]
    have e1 : p % ((k * k : Nat) : Int) = p - (k : Int) * ((k : Int) * (p / ((k * k : Nat) : Int))) := by
      rw [Int.emod_def]; push_cast; rw [Int.mul_assoc]
    rw [e1, Int.sub_mul_ediv_left _ _ (by omega), Int.sub_mul_emod_self_left]
  omega

/-- A lane is known from its two halves. -/
theorem lane2_ext {w i : Nat} {r : M128} {x : BitVec (w * 2)}
    (h0 : lane w (2 * i) r = x.extractLsb' 0 w) (h1 : lane w (2 * i + 1) r = x.extractLsb' w w) :
    lane (w * 2) i r = x := by
  have e0 := lane_sub w 2 i 0 (by omega) r
  have e1 := lane_sub w 2 i 1 (by omega) r
  rw [Nat.add_zero] at e0
  rw [e0, Nat.mul_zero] at h0
  rw [e1, Nat.mul_one] at h1
  apply BitVec.eq_of_getLsbD_eq; intro k hk
  by_cases hk' : k < w
  · have := congrArg (fun z => z.getLsbD k) h0
    simpa [BitVec.getLsbD_extractLsb', hk'] using this
  · have := congrArg (fun z => z.getLsbD (k - w)) h1
    simp only [BitVec.getLsbD_extractLsb', show k - w < w by omega, decide_true, Bool.true_and,
      show w + (k - w) = k by omega] at this
    exact this

theorem shl_hi (w : Nat) (x : BitVec (w * 2)) : (x <<< w).extractLsb' w w = x.extractLsb' 0 w := by
  apply lane_ext; intro k hk
  simp only [BitVec.getLsbD_extractLsb', BitVec.getLsbD_shiftLeft, hk, decide_true, Bool.true_and,
    show w + k < w * 2 by omega, show ¬ w + k < w by omega, decide_false, Bool.not_false, Nat.zero_add,
    show w + k - w = k by omega]

theorem shr_lo (w : Nat) (x : BitVec (w * 2)) : (x >>> w).extractLsb' 0 w = x.extractLsb' w w := by
  apply lane_ext; intro k hk
  simp only [BitVec.getLsbD_extractLsb', BitVec.getLsbD_ushiftRight, hk, decide_true, Bool.true_and, Nat.zero_add]

theorem lane_mulhi (s : Bool) {i : Nat} (h : i < 8) (a b : M128) :
    lane 16 i (MulHigh16 s a b) = BitVec.ofInt 16 (val s (lane 16 i a) * val s (lane 16 i b) / 2 ^ 16) := by
  have hr : InReg 16 i := ⟨by omega, by omega⟩
  unfold MulHigh16 val
  cases s
  · simp only [Bool.false_eq_true, if_false]
    refine (lane_map2 hr _ a b).trans ?_
    rw [← BitVec.ofInt_natCast]; congr 1
  · simp only [if_true]
    exact lane_map2 hr _ a b

theorem lane_mullo (s : Bool) {w i : Nat} (h : InReg w i) (a b : M128) :
    lane w i (mullo w a b) = BitVec.ofInt w (val s (lane w i a) * val s (lane w i b)) := by
  rw [ofInt_mul_val]
  refine (lane_map2 h _ a b).trans ?_
  apply BitVec.eq_of_toNat_eq; rw [BitVec.toNat_ofNat, BitVec.toNat_mul]

theorem lane_mulEpu32 {i : Nat} (h : i < 2) (a b : M128) :
    lane 64 i (mulEpu32 a b) = BitVec.ofInt 64 (val false (lane 32 (2 * i) a) * val false (lane 32 (2 * i) b)) := by
  unfold mulEpu32
  rw [lane_mk (by omega) (by omega), ← BitVec.ofInt_natCast]; congr 1

/-! ## Widening products -/

theorem ofInt_val_ext (s : Bool) {w v : Nat} (y : BitVec w) :
    BitVec.ofInt v (val s y) = if s then y.signExtend v else y.setWidth v := by
  unfold val; cases s
  · simp only [Bool.false_eq_true, if_false, BitVec.ofInt_natCast]
    apply BitVec.eq_of_toNat_eq; simp
  · rfl

theorem low8_val (s : Bool) (x : BitVec 16) :
    BitVec.ofInt 16 (val s (x.extractLsb' 0 8)) = if s then (x <<< 8).sshiftRight 8 else x &&& 0x00FF#16 := by
  rw [ofInt_val_ext]
  cases s
  · simp only [Bool.false_eq_true, if_false]
    apply BitVec.eq_of_getLsbD_eq; intro k hk
    have : ∀ k, k < 16 → (0x00FF#16).getLsbD k = decide (k < 8) := by decide
    rw [BitVec.getLsbD_setWidth, BitVec.getLsbD_extractLsb', BitVec.getLsbD_and, this k hk]
    by_cases h8 : k < 8 <;> simp [h8, hk]
  · simp only [if_true]
    apply BitVec.eq_of_getLsbD_eq; intro k hk
    rw [BitVec.getLsbD_signExtend, BitVec.getLsbD_sshiftRight, BitVec.getLsbD_shiftLeft, BitVec.getLsbD_extractLsb',
      BitVec.msb_eq_getLsbD_last, BitVec.msb_eq_getLsbD_last, BitVec.getLsbD_extractLsb', BitVec.getLsbD_shiftLeft]
    by_cases h8 : k < 8
    · simp [hk, h8, show 8 + k < 16 by omega, show ¬ 16 ≤ k by omega]
    · simp [hk, h8, show ¬ 8 + k < 16 by omega, show ¬ 16 ≤ k by omega]

theorem high8_val (s : Bool) (x : BitVec 16) :
    BitVec.ofInt 16 (val s (x.extractLsb' 8 8)) = if s then x.sshiftRight 8 else x >>> 8 := by
  rw [ofInt_val_ext]
  cases s
  · simp only [Bool.false_eq_true, if_false]
    apply BitVec.eq_of_getLsbD_eq; intro k hk
    rw [BitVec.getLsbD_setWidth, BitVec.getLsbD_extractLsb', BitVec.getLsbD_ushiftRight]
    by_cases h8 : k < 8
    · simp [h8, hk]
    · simp only [h8, hk, decide_false, Bool.false_and, Bool.and_false]
      exact (BitVec.getLsbD_of_ge _ _ (by omega)).symm
  · simp only [if_true]
    apply BitVec.eq_of_getLsbD_eq; intro k hk
    rw [BitVec.getLsbD_signExtend, BitVec.getLsbD_sshiftRight, BitVec.getLsbD_extractLsb',
      BitVec.msb_eq_getLsbD_last, BitVec.msb_eq_getLsbD_last, BitVec.getLsbD_extractLsb']
    by_cases h8 : k < 8
    · simp [hk, h8, show 8 + k < 16 by omega, show ¬ 16 ≤ k by omega]
    · simp [hk, h8, show ¬ 8 + k < 16 by omega, show ¬ 16 ≤ k by omega]

/-- The lower byte of every word, extended, as a 16-bit lane. -/
theorem lane_low8 (t : Tgt) (s : Bool) {i : Nat} (h : i < 8) (a : M128) :
    lane 16 i (if s then ShiftRightI t 16 8 (ShiftLeft 16 8 a) else And a (set 16 0x00FF#16))
      = BitVec.ofInt 16 (val s (lane 8 (2 * i) a)) := by
  have hr : InReg 16 i := ⟨by omega, by omega⟩
  rw [show lane 8 (2 * i) a = (lane 16 i a).extractLsb' 0 8 from lane_sub 8 2 i 0 (by omega) a, low8_val]
  cases s
  · simp only [Bool.false_eq_true, if_false]; rw [lane_And, lane_set hr]
  · simp only [if_true]; rw [C62_shiftRight_signed t hr _ 8 (by omega), C62_shiftLeft hr _ 8 (by omega)]

/-- The upper byte of every word, extended, as a 16-bit lane. -/
theorem lane_high8 (t : Tgt) (s : Bool) {i : Nat} (h : i < 8) (a : M128) :
    lane 16 i (if s then ShiftRightI t 16 8 a else ShiftRightU 16 8 a)
      = BitVec.ofInt 16 (val s (lane 8 (2 * i + 1) a)) := by
  have hr : InReg 16 i := ⟨by omega, by omega⟩
  rw [show lane 8 (2 * i + 1) a = (lane 16 i a).extractLsb' 8 8 from lane_sub 8 2 i 1 (by omega) a, high8_val]
  cases s
  · simp only [Bool.false_eq_true, if_false]; rw [C62_shiftRight_unsigned hr _ 8 (by omega)]
  · simp only [if_true]; rw [C62_shiftRight_signed t hr _ 8 (by omega)]

theorem lane_Mul16_of (X Y : M128) {i : Nat} (h : i < 8) {x y : Int}
    (hx : lane 16 i X = BitVec.ofInt 16 x) (hy : lane 16 i Y = BitVec.ofInt 16 y) :
    lane 16 i (Mul16 X Y) = BitVec.ofInt 16 (x * y) := by
  have hr : InReg 16 i := ⟨by omega, by omega⟩
  unfold Mul16
  rw [lane_mullo false hr, ofInt_mul_val, hx, hy, BitVec.ofInt_mul]

theorem even8 (t : Tgt) (s : Bool) {i : Nat} (h : i < 8) (a b : M128) :
    lane 16 i (MulEven t s 8 a b) = BitVec.ofInt 16 (val s (lane 8 (2 * i) a) * val s (lane 8 (2 * i) b)) := by
  have ha := lane_low8 t s h a
  have hb := lane_low8 t s h b
  unfold MulEven
  cases s
  · simp only [Bool.false_eq_true, if_false, if_true] at *; exact lane_Mul16_of _ _ h ha hb
  · simp only [if_true] at *; exact lane_Mul16_of _ _ h ha hb

theorem odd8 (t : Tgt) (s : Bool) (sz : Nat) {i : Nat} (h : i < 8) (a b : M128) :
    lane 16 i (MulOdd t s 8 sz a b)
      = BitVec.ofInt 16 (val s (lane 8 (2 * i + 1) a) * val s (lane 8 (2 * i + 1) b)) := by
  have ha := lane_high8 t s h a
  have hb := lane_high8 t s h b
  unfold MulOdd
  cases s
  · simp only [Bool.false_eq_true, if_false, if_true] at *; exact lane_Mul16_of _ _ h ha hb
  · simp only [if_true] at *; exact lane_Mul16_of _ _ h ha hb

theorem shape16 : Shape 16 16 := by simp [Shape]
theorem shape32 : Shape 32 16 := by simp [Shape]

theorem lane_Mul16 (s : Bool) {i : Nat} (h : i < 8) (a b : M128) :
    lane 16 i (Mul16 a b) = BitVec.ofInt 16 (val s (lane 16 i a) * val s (lane 16 i b)) :=
  lane_mullo s ⟨by omega, by omega⟩ a b

/-- Odd 16-bit lanes of a left shift by 16 of 32-bit lanes. -/
theorem lane_shl16 {i : Nat} (h : i < 4) (v : M128) : lane 16 (2 * i + 1) (ShiftLeft 32 16 v) = lane 16 (2 * i) v := by
  have hr : InReg 32 i := ⟨by omega, by omega⟩
  rw [show lane 16 (2 * i + 1) (ShiftLeft 32 16 v) = (lane 32 i (ShiftLeft 32 16 v)).extractLsb' 16 16
    from lane_sub 16 2 i 1 (by omega) _, C62_shiftLeft hr _ 16 (by omega)]
  exact (shl_hi 16 _).trans (lane_sub 16 2 i 0 (by omega) v).symm

/-- Even 16-bit lanes of a right shift by 16 of 32-bit lanes. -/
theorem lane_shr16 {i : Nat} (h : i < 4) (v : M128) : lane 16 (2 * i) (ShiftRightU 32 16 v) = lane 16 (2 * i + 1) v := by
  have hr : InReg 32 i := ⟨by omega, by omega⟩
  rw [show lane 16 (2 * i) (ShiftRightU 32 16 v) = (lane 32 i (ShiftRightU 32 16 v)).extractLsb' 0 16
    from lane_sub 16 2 i 0 (by omega) _, C62_shiftRight_unsigned hr _ 16 (by omega)]
  exact (shr_lo 16 _).trans (lane_sub 16 2 i 1 (by omega) v).symm

theorem even16 (t : Tgt) (s : Bool) {i : Nat} (h : i < 4) (a b : M128) :
    lane 32 i (MulEven t s 16 a b) = BitVec.ofInt 32 (val s (lane 16 (2 * i) a) * val s (lane 16 (2 * i) b)) := by
  have e : MulEven t s 16 a b = OddEven t 16 (ShiftLeft 32 16 (MulHigh16 s a b)) (Mul16 a b) := by
    simp only [MulEven, reduceIte, Nat.reduceEqDiff]
  rw [e]
  apply lane2_ext (w := 16)
  · rw [C63_oddEven t shape16 _ _ (by show _ < 8; omega), if_neg (by omega), lane_Mul16 s (by omega)]
    exact (half0 16 _).symm
  · rw [C63_oddEven t shape16 _ _ (by show _ < 8; omega), if_pos (by omega), lane_shl16 h, lane_mulhi s (by omega)]
    exact (half1 16 _).symm

theorem odd16 (t : Tgt) (s : Bool) (sz : Nat) {i : Nat} (h : i < 4) (a b : M128) :
    lane 32 i (MulOdd t s 16 sz a b)
      = BitVec.ofInt 32 (val s (lane 16 (2 * i + 1) a) * val s (lane 16 (2 * i + 1) b)) := by
  have e : MulOdd t s 16 sz a b = OddEven t 16 (MulHigh16 s a b) (ShiftRightU 32 16 (Mul16 a b)) := by
    simp only [MulOdd, reduceIte, Nat.reduceEqDiff]
  rw [e]
  apply lane2_ext (w := 16)
  · rw [C63_oddEven t shape16 _ _ (by show _ < 8; omega), if_neg (by omega), lane_shr16 h, lane_Mul16 s (by omega)]
    exact (half0 16 _).symm
  · rw [C63_oddEven t shape16 _ _ (by show _ < 8; omega), if_pos (by omega), lane_mulhi s (by omega)]
    exact (half1 16 _).symm

/-- A left shift by half the width as a product. -/
theorem shl_half (w : Nat) (y : BitVec (w * 2)) :
    y <<< w = BitVec.ofInt (w * 2) (val false (y.extractLsb' 0 w) * 2 ^ w) := by
  apply BitVec.eq_of_toNat_eq
  have h2 : (2 : Nat) ^ (w * 2) = 2 ^ w * 2 ^ w := by rw [Nat.mul_two, Nat.pow_add]
  have hc : ((2 : Int) ^ w) = ((2 ^ w : Nat) : Int) := by norm_cast
  unfold val
  simp only [Bool.false_eq_true, if_false]
  rw [hc, ← Int.natCast_mul, BitVec.ofInt_natCast, BitVec.toNat_ofNat, BitVec.toNat_shiftLeft,
    BitVec.extractLsb'_toNat, Nat.shiftLeft_eq, Nat.shiftRight_zero, h2, Nat.mul_mod_mul_right, Nat.mul_mod_mul_right,
    Nat.mod_mod]

theorem ofInt_shift {w : Nat} {p q : Int} (k : Int) (h : p = q + 2 ^ w * k) : BitVec.ofInt w p = BitVec.ofInt w q := by
  apply ofInt_congr; rw [h, Int.add_mul_emod_self_left]

theorem toInt_cases {w : Nat} (x : BitVec w) :
    (x.toInt < 0 ∧ x.toInt = x.toNat - 2 ^ w) ∨ (¬ x.toInt < 0 ∧ x.toInt = x.toNat) := by
  have hc : ((2 ^ w : Nat) : Int) = 2 ^ w := by norm_cast
  have := x.isLt
  rw [BitVec.toInt_eq_toNat_cond, hc]
  have : (x.toNat : Int) < 2 ^ w := by rw [← hc]; exact_mod_cast x.isLt
  split
  · right; exact ⟨by omega, rfl⟩
  · left; exact ⟨by omega, rfl⟩

theorem sar31 (x : BitVec 32) : x.sshiftRight 31 = if x.toInt < 0 then BitVec.allOnes 32 else 0#32 := by
  apply BitVec.eq_of_getLsbD_eq; intro k hk
  rw [BitVec.getLsbD_sshiftRight]
  have hm : x.msb = decide (x.toInt < 0) := BitVec.msb_eq_toInt
  have h1 : (if 31 + k < 32 then x.getLsbD (31 + k) else x.msb) = x.msb := by
    split
    · rw [BitVec.msb_eq_getLsbD_last]; congr 1; omega
    · rfl
  rw [h1, hm]
  by_cases h : x.toInt < 0
  · simp only [h, decide_true, if_true, Bool.and_true, BitVec.getLsbD_allOnes, hk, show ¬ 32 ≤ k by omega, decide_false, Bool.not_false]
  · simp only [h, decide_false, Bool.and_false, if_false, BitVec.getLsbD_zero]

theorem toNat_ite_and (c : Prop) [Decidable c] (y : BitVec 32) :
    ((if c then BitVec.allOnes 32 else 0#32) &&& y) = if c then y else 0#32 := by
  split
  · rw [BitVec.allOnes_and]
  · rw [BitVec.zero_and]

theorem neg_hi (t : Tgt) {i : Nat} (h : i < 4) (a b : M128) :
    lane 32 i (Add 32 (And (ShiftRightI t 32 31 a) b) (And (ShiftRightI t 32 31 b) a))
      = (if (lane 32 i a).toInt < 0 then lane 32 i b else 0#32) + (if (lane 32 i b).toInt < 0 then lane 32 i a else 0#32) := by
  have hr : InReg 32 i := ⟨by omega, by omega⟩
  rw [lane_Add hr, lane_And, lane_And, C62_shiftRight_signed t hr _ 31 (by omega),
    C62_shiftRight_signed t hr _ 31 (by omega), sar31, sar31, toNat_ite_and, toNat_ite_and]

theorem ofInt_sub {w : Nat} (p q : Int) : BitVec.ofInt w p - BitVec.ofInt w q = BitVec.ofInt w (p - q) := by
  have : BitVec.ofInt w p = BitVec.ofInt w (p - q) + BitVec.ofInt w q := by
    rw [← BitVec.ofInt_add]; congr 1; omega
  rw [this, BitVec.add_sub_cancel]

theorem shl_half32 (y : BitVec 64) : y <<< 32 = BitVec.ofInt 64 (val false (y.extractLsb' 0 32) * 2 ^ 32) :=
  shl_half 32 y

theorem lane_mulEpi32 {i : Nat} (h : i < 2) (a b : M128) :
    lane 64 i (mulEpi32 a b) = BitVec.ofInt 64 ((lane 32 (2 * i) a).toInt * (lane 32 (2 * i) b).toInt) := by
  unfold mulEpi32; rw [lane_mk (by omega) (by omega)]

/-- The correction of the unsigned product by the signs. -/
theorem signed_product (x y : BitVec 32) :
    BitVec.ofInt 64 ((x.toNat : Int) * y.toNat)
      - BitVec.ofInt 64 (((if x.toInt < 0 then y else 0#32) + (if y.toInt < 0 then x else 0#32)).toNat * 2 ^ 32)
      = BitVec.ofInt 64 (x.toInt * y.toInt) := by
  rw [ofInt_sub]
  simp only [BitVec.toNat_add]
  have hx := x.isLt
  have hy := y.isLt
  rcases toInt_cases x with ⟨cx, ex⟩ | ⟨cx, ex⟩ <;> rcases toInt_cases y with ⟨cy, ey⟩ | ⟨cy, ey⟩ <;>
    simp only [cx, cy, if_true, if_false] <;>
    simp only [ex, ey, BitVec.toNat_ofNat, Nat.zero_mod, Nat.add_zero, Nat.zero_add]
  · generalize x.toNat = p at *
    generalize y.toNat = q at *
    by_cases c : q + p < 2 ^ 32
    · rw [Nat.mod_eq_of_lt c]
      apply ofInt_shift (-1); push_cast; ring
    · have : (q + p) % 2 ^ 32 = q + p - 2 ^ 32 := by omega
      rw [this, Nat.cast_sub (by omega)]
      apply ofInt_shift 0; push_cast; ring
  · rw [Nat.mod_eq_of_lt hy]; apply ofInt_shift 0; ring
  · rw [Nat.mod_eq_of_lt hx]; apply ofInt_shift 0; ring
  · apply ofInt_shift 0; simp

theorem even32 (t : Tgt) (s : Bool) {i : Nat} (h : i < 2) (a b : M128) :
    lane 64 i (MulEven t s 32 a b) = BitVec.ofInt 64 (val s (lane 32 (2 * i) a) * val s (lane 32 (2 * i) b)) := by
  have hr : InReg 64 i := ⟨by omega, by omega⟩
  cases s
  · have e : MulEven t false 32 a b = mulEpu32 a b := rfl
    rw [e, lane_mulEpu32 h]
  · have e : MulEven t true 32 a b = MulEvenI32 t a b := rfl
    rw [e]; unfold MulEvenI32
    split
    · simp only []
      rw [lane_Sub hr, C62_shiftLeft hr _ 32 (by omega)]
      unfold MulEvenU32
      rw [lane_mulEpu32 h, shl_half32, ← lo32, neg_hi t (by omega)]
      unfold val
      simp only [if_true, Bool.false_eq_true, if_false]
      exact signed_product _ _
    · unfold val
      simp only [if_true]
      exact lane_mulEpi32 h a b

theorem odd32 (t : Tgt) (s : Bool) (sz : Nat) {i : Nat} (h : i < 2) (a b : M128) :
    lane 64 i (MulOdd t s 32 sz a b)
      = BitVec.ofInt 64 (val s (lane 32 (2 * i + 1) a) * val s (lane 32 (2 * i + 1) b)) := by
  have e : MulOdd t s 32 sz a b = MulEven t s 32 (DupOdd t 32 sz a) (DupOdd t 32 sz b) := by
    simp only [MulOdd, reduceIte, Nat.reduceEqDiff]
  have ed : ∀ v, DupOdd t 32 sz v = DupOdd t 32 16 v := fun _ => by
    simp only [DupOdd, reduceIte, Nat.reduceEqDiff]
  rw [e, even32 t s h, ed, ed, C63_dupOdd t shape32 (by decide) a (by show _ < 4; omega),
    C63_dupOdd t shape32 (by decide) b (by show _ < 4; omega),
    show 2 * i / 2 * 2 + 1 = 2 * i + 1 by omega]

/-- The operand widths of the widening multiplications. -/
def NarrowW (w : Nat) : Prop := w = 8 ∨ w = 16 ∨ w = 32

/-- `MulEven(a, b)`: the full products of the lanes with even index. -/
theorem C64_mulEven (t : Tgt) (signed : Bool) {w i : Nat} (hw : NarrowW w) (h : i < 128 / (w * 2)) (a b : M128) :
    lane (w * 2) i (MulEven t signed w a b)
      = BitVec.ofInt (w * 2) (val signed (lane w (2 * i) a) * val signed (lane w (2 * i) b)) := by
  rcases hw with rfl | rfl | rfl
  · exact even8 t signed (by omega) a b
  · exact even16 t signed (by omega) a b
  · exact even32 t signed (by omega) a b

/-- `MulOdd(a, b)`: the full products of the lanes with odd index. -/
theorem C64_mulOdd (t : Tgt) (signed : Bool) (sz : Nat) {w i : Nat} (hw : NarrowW w) (h : i < 128 / (w * 2)) (a b : M128) :
    lane (w * 2) i (MulOdd t signed w sz a b)
      = BitVec.ofInt (w * 2) (val signed (lane w (2 * i + 1) a) * val signed (lane w (2 * i + 1) b)) := by
  rcases hw with rfl | rfl | rfl
  · exact odd8 t signed sz (by omega) a b
  · exact odd16 t signed sz (by omega) a b
  · exact odd32 t signed sz (by omega) a b

/-- The upper half of a `2w`-bit lane holding a product. -/
theorem upper_of {w i : Nat} {r : M128} {p : Int} (e : lane (w * 2) i r = BitVec.ofInt (w * 2) p) :
    lane w (2 * i + 1) r = BitVec.ofInt w (p / 2 ^ w) := by
  rw [lane_sub w 2 i 1 (by omega) r, e, Nat.mul_one]; exact half1 w p
theorem lower_of {w i : Nat} {r : M128} {p : Int} (e : lane (w * 2) i r = BitVec.ofInt (w * 2) p) :
    lane w (2 * i) r = BitVec.ofInt w p := by
  have := lane_sub w 2 i 0 (by omega) r
  rw [Nat.add_zero, Nat.mul_zero] at this
  rw [this, e]; exact half0 w p

theorem mulHigh_wide (t : Tgt) (s : Bool) {w sz : Nat} (hw : w = 8 ∨ w = 32) (hs : Shape w sz) (a b : M128) {i : Nat}
    (hi : i < Lanes w sz) : lane w i (MulHigh t s w sz a b)
      = BitVec.ofInt w (val s (lane w i a) * val s (lane w i b) / 2 ^ w) := by
  have h16 : w ≠ 16 := by omega
  have hN : NarrowW w := by unfold NarrowW; omega
  unfold MulHigh
  rw [if_neg h16]
  have hl : Lanes w sz ≤ 128 / w := by shapes hs <;> decide
  have hl1 : sz = w / 8 ↔ Lanes w sz = 1 := by shapes hs <;> decide
  have hl2 : Lanes w sz = 1 ∨ 2 ≤ Lanes w sz := by shapes hs <;> decide
  have hle : Lanes w sz = 1 ∨ Lanes w sz % 2 = 0 := by shapes hs <;> decide
  have hq : 128 / w = 2 * (128 / (w * 2)) := by rcases hw with rfl | rfl <;> rfl
  split
  · have h1 : i = 0 := by have := hl1.1 (by assumption); omega
    subst h1
    have hS : Shape w 16 := by rcases hw with rfl | rfl <;> simp [Shape]
    have hL : Lanes w 16 = 128 / w := by rcases hw with rfl | rfl <;> rfl
    unfold Slide1Down
    rw [C63_shiftRightLanes t hS 1 _ (by rw [hL]; omega), if_pos (by rw [hL]; omega)]
    exact upper_of (i := 0) (C64_mulEven t s hN (by omega) a b)
  · have h2 : 2 ≤ Lanes w sz := by
      rcases hl2 with e | e
      · exact absurd (hl1.2 e) (by assumption)
      · exact e
    simp only []
    rw [C63_interleaveOdd t hs h2 _ _ hi]
    split
    · obtain ⟨k, rfl⟩ : ∃ k, i = 2 * k := ⟨i / 2, by omega⟩
      exact upper_of (C64_mulEven t s hN (by omega) a b)
    · obtain ⟨k, rfl⟩ : ∃ k, i = 2 * k + 1 := ⟨i / 2, by omega⟩
      exact upper_of (C64_mulOdd t s sz hN (by omega) a b)

/-- `MulHigh(a, b)`: the upper half of the product (a division rounding down). -/
theorem C64_mulHigh (t : Tgt) (signed : Bool) {w sz : Nat} (hw : NarrowW w) (hs : Shape w sz) (a b : M128) {i : Nat}
    (hi : i < Lanes w sz) : lane w i (MulHigh t signed w sz a b)
      = BitVec.ofInt w (val signed (lane w i a) * val signed (lane w i b) / 2 ^ w) := by
  rcases hw with rfl | rfl | rfl
  · exact mulHigh_wide t signed (by omega) hs a b hi
  · have hl : Lanes 16 sz ≤ 8 := by
      rcases hs with ⟨h, _⟩ | ⟨_, h⟩ | ⟨h, _⟩ | ⟨h, _⟩ <;> first | omega | (rcases h with rfl | rfl | rfl | rfl <;> decide)
    exact lane_mulhi signed (by omega) a b
  · exact mulHigh_wide t signed (by omega) hs a b hi

end Hwy.X86
