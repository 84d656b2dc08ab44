import Verif.X86PairwiseSpec

/-!
# C82: saturating addition of 32- and 64-bit lanes, saturating and plain sums of products
-/

namespace Hwy.X86

/-! ## Saturating addition and subtraction -/

theorem msb_mask {w : Nat} (hw : 0 < w) (p : Prop) [Decidable p] : (maskLane w p).msb = decide p := by
  unfold maskLane
  split
  · rename_i h; rw [BitVec.msb_allOnes hw]; simp [h]
  · rename_i h; simp [h]

theorem sat_value {w : Nat} (hw : w = 32 ∨ w = 64) (x : BitVec w) :
    (maskLane w (x.toInt < 0) ^^^ BitVec.intMax w).toInt = if x.toInt < 0 then lo true w else hi true w := by
  unfold maskLane lo hi
  rcases hw with rfl | rfl <;> split <;> decide +kernel

theorem sat_add {w : Nat} (hw : w = 32 ∨ w = 64) (x y : BitVec w) :
    (if (~~~(x ^^^ y) &&& (x ^^^ (x + y))).toInt < 0 then maskLane w (x.toInt < 0) ^^^ BitVec.intMax w else x + y).toInt
      = max (lo true w) (min (x.toInt + y.toInt) (hi true w)) := by
  have hc : (~~~(x ^^^ y) &&& (x ^^^ (x + y))).toInt < 0 ↔
      ((x.toInt < 0 ↔ y.toInt < 0) ∧ ¬ (x.toInt < 0 ↔ (x + y).toInt < 0)) := by
    have e : (~~~(x ^^^ y) &&& (x ^^^ (x + y))).msb = decide ((~~~(x ^^^ y) &&& (x ^^^ (x + y))).toInt < 0) := msb_toInt _
    have h0 : 0 < w := by omega
    rw [BitVec.msb_and, BitVec.msb_not, BitVec.msb_xor, BitVec.msb_xor, msb_toInt x, msb_toInt y, msb_toInt (x + y)] at e
    generalize (~~~(x ^^^ y) &&& (x ^^^ (x + y))).toInt = z at *
    generalize (x + y).toInt = s at *
    by_cases h1 : x.toInt < 0 <;> by_cases h2 : y.toInt < 0 <;> by_cases h3 : s < 0 <;> by_cases h4 : z < 0 <;> simp_all <;> omega
  rw [apply_ite BitVec.toInt, sat_value hw]
  simp only [hc]
  have hx := BitVec.toInt_lt (x := x)
  have hx' := BitVec.le_toInt (x := x)
  have hy := BitVec.toInt_lt (x := y)
  have hy' := BitVec.le_toInt (x := y)
  have hs := BitVec.toInt_add x y
  rw [Int.bmod_def] at hs
  unfold lo hi
  simp only [if_true]
  rcases hw with rfl | rfl <;> simp only [Nat.reduceSub, Int.reducePow, Nat.reducePow] at * <;>
    split <;> (try split) <;> omega

theorem sat_sub {w : Nat} (hw : w = 32 ∨ w = 64) (x y : BitVec w) :
    (if ((x ^^^ y) &&& (x ^^^ (x - y))).toInt < 0 then maskLane w (x.toInt < 0) ^^^ BitVec.intMax w else x - y).toInt
      = max (lo true w) (min (x.toInt - y.toInt) (hi true w)) := by
  have hc : ((x ^^^ y) &&& (x ^^^ (x - y))).toInt < 0 ↔
      (¬ (x.toInt < 0 ↔ y.toInt < 0) ∧ ¬ (x.toInt < 0 ↔ (x - y).toInt < 0)) := by
    have e : ((x ^^^ y) &&& (x ^^^ (x - y))).msb = decide (((x ^^^ y) &&& (x ^^^ (x - y))).toInt < 0) := msb_toInt _
    rw [BitVec.msb_and, BitVec.msb_xor, BitVec.msb_xor, msb_toInt x, msb_toInt y, msb_toInt (x - y)] at e
    generalize ((x ^^^ y) &&& (x ^^^ (x - y))).toInt = z at *
    generalize (x - y).toInt = s at *
    by_cases h1 : x.toInt < 0 <;> by_cases h2 : y.toInt < 0 <;> by_cases h3 : s < 0 <;> by_cases h4 : z < 0 <;> simp_all <;> omega
  rw [apply_ite BitVec.toInt, sat_value hw]
  simp only [hc]
  have hx := BitVec.toInt_lt (x := x)
  have hx' := BitVec.le_toInt (x := x)
  have hy := BitVec.toInt_lt (x := y)
  have hy' := BitVec.le_toInt (x := y)
  have hs := BitVec.toInt_sub (x := x) (y := y)
  rw [Int.bmod_def] at hs
  unfold lo hi
  simp only [if_true]
  rcases hw with rfl | rfl <;> simp only [Nat.reduceSub, Int.reducePow, Nat.reducePow] at * <;>
    split <;> (try split) <;> omega

/-- `SaturatedAdd` of 32- and 64-bit lanes: the nearest value of the type to the exact sum. -/
theorem C82_saturatedAdd (t : Tgt) (signed : Bool) {w i : Nat} (h : InReg w i) (hw : w = 32 ∨ w = 64) (a b : M128) :
    val signed (lane w i (SaturatedAddWide t signed w a b))
      = max (lo signed w) (min (val signed (lane w i a) + val signed (lane w i b)) (hi signed w)) := by
  unfold SaturatedAddWide
  cases signed
  · simp only [Bool.false_eq_true, if_false]
    rw [lane_Add h, lane_MinU t h, lane_Not h]
    unfold val lo hi
    simp only [Bool.false_eq_true, if_false]
    have hx := (lane w i a).isLt
    have hy := (lane w i b).isLt
    generalize lane w i a = x at *
    generalize lane w i b = y at *
    rw [BitVec.toNat_add, apply_ite BitVec.toNat, BitVec.toNat_not]
    rcases hw with rfl | rfl <;> simp only [Int.reducePow, Nat.reducePow] at * <;> split <;> omega
  · simp only [if_true]
    rw [lane_IfNegativeThenElse t h, lane_AndNot h, lane_Xor, lane_Xor, lane_Xor, lane_Add h, lane_set h,
      lane_BroadcastSignBit t h]
    unfold val
    simp only [if_true]
    exact sat_add hw _ _
/-- `SaturatedSub` of 32- and 64-bit lanes: the nearest value of the type to the exact difference. -/
theorem C82_saturatedSub (t : Tgt) (signed : Bool) {w i : Nat} (h : InReg w i) (hw : w = 32 ∨ w = 64) (a b : M128) :
    val signed (lane w i (SaturatedSubWide t signed w a b))
      = max (lo signed w) (min (val signed (lane w i a) - val signed (lane w i b)) (hi signed w)) := by
  unfold SaturatedSubWide
  cases signed
  · simp only [Bool.false_eq_true, if_false]
    rw [lane_Sub h, lane_MinU t h]
    unfold val lo hi
    simp only [Bool.false_eq_true, if_false]
    have hx := (lane w i a).isLt
    have hy := (lane w i b).isLt
    generalize lane w i a = x at *
    generalize lane w i b = y at *
    rw [BitVec.toNat_sub, apply_ite BitVec.toNat]
    rcases hw with rfl | rfl <;> simp only [Int.reducePow, Nat.reducePow] at * <;> split <;> omega
  · simp only [if_true]
    rw [lane_IfNegativeThenElse t h, lane_And, lane_Xor, lane_Xor, lane_Xor, lane_Sub h, lane_set h,
      lane_BroadcastSignBit t h]
    unfold val
    simp only [if_true]
    exact sat_sub hw _ _

/-! ## Saturating accumulation of two products -/

/-- The range of a product of two signed 16-bit values. -/
theorem prod16 (x y : BitVec 16) : -1073709056 ≤ x.toInt * y.toInt ∧ x.toInt * y.toInt ≤ 1073741824 := by
  have hx := BitVec.toInt_lt (x := x)
  have hx' := BitVec.le_toInt (x := x)
  have hy := BitVec.toInt_lt (x := y)
  have hy' := BitVec.le_toInt (x := y)
  simp only [Nat.reduceSub, Int.reducePow] at *
  constructor <;> nlinarith

/-- `SatWidenMulPairwiseAccumulate`: the nearest 32-bit value to the exact sum of the accumulator and the two products. -/
theorem C82_satWidenMulPairwiseAccumulate (t : Tgt) (a b sum : M128) {i : Nat} (h : i < 4) :
    val true (lane 32 i (SatWidenMulPairwiseAccumulate t a b sum))
      = max (-2147483648) (min (val true (lane 32 i sum) + (val true (lane 16 (2 * i) a) * val true (lane 16 (2 * i) b)
          + val true (lane 16 (2 * i + 1) a) * val true (lane 16 (2 * i + 1) b))) 2147483647) := by
  have hr : InReg 32 i := ⟨by omega, by omega⟩
  unfold SatWidenMulPairwiseAccumulate
  rw [C82_saturatedAdd t true hr (.inl rfl), lane_Sub hr, lane_Add hr, lane_And, lane_BroadcastSignBit t hr, C62_eq t hr,
    C64_widenMulPairwiseAdd t true h, lane_set hr]
  have p0 := prod16 (lane 16 (2 * i) a) (lane 16 (2 * i) b)
  have p1 := prod16 (lane 16 (2 * i + 1) a) (lane 16 (2 * i + 1) b)
  unfold val lo hi
  simp only [if_true]
  generalize (lane 16 (2 * i) a).toInt * (lane 16 (2 * i) b).toInt = p at *
  generalize (lane 16 (2 * i + 1) a).toInt * (lane 16 (2 * i + 1) b).toInt = q at *
  generalize lane 32 i sum = s
  have hs := BitVec.toInt_lt (x := s)
  have hs' := BitVec.le_toInt (x := s)
  simp only [Nat.reduceSub, Int.reducePow] at *
  by_cases e : p + q = 2147483648
  · have e' : BitVec.ofInt 32 (p + q) = BitVec.intMin 32 := by rw [e]; decide +kernel
    rw [if_pos e', e', e]
    have hb : (BitVec.intMin 32 + BitVec.allOnes 32).toInt = 2147483647 := by decide +kernel
    rw [hb]
    unfold maskLane
    split
    · have hm : (s - (BitVec.allOnes 32 &&& BitVec.allOnes 32)).toInt = s.toInt + 1 := by
        rw [BitVec.and_self, BitVec.toInt_sub, show (BitVec.allOnes 32).toInt = -1 from by decide +kernel, Int.bmod_def]; omega
      rw [hm]; omega
    · rw [BitVec.zero_and, BitVec.sub_zero]; omega
  · have hpq : (BitVec.ofInt 32 (p + q)).toInt = p + q := by rw [BitVec.toInt_ofInt, Int.bmod_def]; omega
    have e' : ¬ BitVec.ofInt 32 (p + q) = BitVec.intMin 32 := by
      intro hh
      have : (BitVec.intMin 32).toInt = -2147483648 := by decide +kernel
      rw [← hh, hpq] at this; omega
    rw [if_neg e', BitVec.and_zero, BitVec.sub_zero, BitVec.add_zero, hpq]
    omega

/-! ## Sums of four products -/

/-- The four-product sum of the narrow lanes `4*i … 4*i+3`. -/
def quad (sa sb : Bool) (f i : Nat) (a b : M128) : Int :=
  val sa (lane f (4 * i) a) * val sb (lane f (4 * i) b) + val sa (lane f (4 * i + 1) a) * val sb (lane f (4 * i + 1) b)
    + val sa (lane f (4 * i + 2) a) * val sb (lane f (4 * i + 2) b) + val sa (lane f (4 * i + 3) a) * val sb (lane f (4 * i + 3) b)

theorem quad_of (t : Tgt) (sa sb : Bool) (a b sum A0 B0 A1 B1 : M128) {i : Nat} (h : i < 4)
    (hA0 : ∀ k, k / 2 = i → lane 16 k A0 = BitVec.ofInt 16 (val sa (lane 8 (2 * k) a)))
    (hB0 : ∀ k, k / 2 = i → lane 16 k B0 = BitVec.ofInt 16 (val sb (lane 8 (2 * k) b)))
    (hA1 : ∀ k, k / 2 = i → lane 16 k A1 = BitVec.ofInt 16 (val sa (lane 8 (2 * k + 1) a)))
    (hB1 : ∀ k, k / 2 = i → lane 16 k B1 = BitVec.ofInt 16 (val sb (lane 8 (2 * k + 1) b))) :
    lane 32 i (Add 32 sum (Add 32 (WidenMulPairwiseAdd t true A0 B0) (WidenMulPairwiseAdd t true A1 B1)))
      = lane 32 i sum + BitVec.ofInt 32 (quad sa sb 8 i a b) := by
  have hr : InReg 32 i := ⟨by omega, by omega⟩
  have v8 : ∀ (s : Bool) (x : BitVec 8), val true (BitVec.ofInt 16 (val s x)) = val s x := fun s x =>
    val_ofInt_val s true (widens2 (.inl rfl)) (fun _ => rfl) x
  rw [lane_Add hr, lane_Add hr, C64_widenMulPairwiseAdd t true h, C64_widenMulPairwiseAdd t true h,
    hA0 _ (by omega), hA0 _ (by omega), hB0 _ (by omega), hB0 _ (by omega), hA1 _ (by omega), hA1 _ (by omega),
    hB1 _ (by omega), hB1 _ (by omega)]
  simp only [v8]
  rw [← BitVec.ofInt_add]
  unfold quad
  rw [show 2 * (2 * i) = 4 * i by omega, show 2 * (2 * i + 1) = 4 * i + 2 by omega]
  congr 2
  ring

theorem ev16 (t : Tgt) (s : Bool) (v : M128) {k : Nat} (h : k < 8) :
    lane 16 k (if s then ShiftRightI t 16 8 (ShiftLeft 16 8 v) else And v (set 16 0x00FF#16)) = BitVec.ofInt 16 (val s (lane 8 (2 * k) v)) :=
  lane_even_sh t s (.inl rfl) v h
theorem od16 (t : Tgt) (s : Bool) (v : M128) {k : Nat} (h : k < 8) :
    lane 16 k (if s then ShiftRightI t 16 8 v else ShiftRightU 16 8 v) = BitVec.ofInt 16 (val s (lane 8 (2 * k + 1) v)) :=
  lane_odd_sh t s (.inl rfl) v h

/-- `SumOfMulQuadAccumulate` of signed bytes: the accumulator plus the four products (modulo `2^32`). -/
theorem C82_sumOfMulQuadAccumulate_i8 (t : Tgt) {sz : Nat} (hz : Shape 32 sz) (a b sum : M128) {i : Nat} (h : i < Lanes 32 sz) :
    lane 32 i (SumOfMulQuadAccumulateI8 t sz a b sum) = lane 32 i sum + BitVec.ofInt 32 (quad true true 8 i a b) := by
  have hz2 : Shape 16 sz := by unfold Shape at *; omega
  have e : Lanes 16 sz = 2 * Lanes 32 sz := by unfold Shape at hz; unfold Lanes; omega
  have hl : Lanes 32 sz ≤ 4 := by unfold Shape at hz; unfold Lanes; omega
  exact quad_of t true true a b sum _ _ _ _ (by omega)
    (fun k hk => lane_promoteEven t true (.inl rfl) hz2 a (by show k < Lanes 16 sz; omega)) (fun k hk => lane_promoteEven t true (.inl rfl) hz2 b (by show k < Lanes 16 sz; omega))
    (fun k hk => lane_promoteOdd t true (.inl rfl) hz2 a (by show k < Lanes 16 sz; omega)) (fun k hk => lane_promoteOdd t true (.inl rfl) hz2 b (by show k < Lanes 16 sz; omega))
/-- `SumOfMulQuadAccumulate` of unsigned bytes. -/
theorem C82_sumOfMulQuadAccumulate_u8 (t : Tgt) (a b sum : M128) {i : Nat} (h : i < 4) :
    lane 32 i (SumOfMulQuadAccumulateU8 t a b sum) = lane 32 i sum + BitVec.ofInt 32 (quad false false 8 i a b) :=
  quad_of t false false a b sum _ _ _ _ h (fun k hk => ev16 t false a (by omega)) (fun k hk => ev16 t false b (by omega))
    (fun k hk => od16 t false a (by omega)) (fun k hk => od16 t false b (by omega))
/-- `SumOfMulQuadAccumulate` of unsigned times signed bytes. -/
theorem C82_sumOfMulQuadAccumulate_u8i8 (t : Tgt) (a b sum : M128) {i : Nat} (h : i < 4) :
    lane 32 i (SumOfMulQuadAccumulateU8I8 t a b sum) = lane 32 i sum + BitVec.ofInt 32 (quad false true 8 i a b) :=
  quad_of t false true a b sum _ _ _ _ h (fun k hk => ev16 t false a (by omega)) (fun k hk => ev16 t true b (by omega))
    (fun k hk => od16 t false a (by omega)) (fun k hk => od16 t true b (by omega))

theorem shl64_low (m : BitVec 64) : m <<< 32 = ((m.extractLsb' 0 32).setWidth 64) <<< 32 := by
  apply BitVec.eq_of_getLsbD_eq; intro k hk
  simp only [BitVec.getLsbD_shiftLeft, BitVec.getLsbD_setWidth, BitVec.getLsbD_extractLsb', Nat.zero_add]
  by_cases h : k < 32
  · simp [h]
  · simp [h, show k - 32 < 32 by omega, show k - 32 < 64 by omega]
theorem and64_high (m : BitVec 64) : m &&& BitVec.ofNat 64 0xFFFFFFFF00000000 = ((m.extractLsb' 32 32).setWidth 64) <<< 32 := by
  apply BitVec.eq_of_getLsbD_eq; intro k hk
  rw [show (BitVec.ofNat 64 0xFFFFFFFF00000000) = ((BitVec.allOnes 32).setWidth 64) <<< 32 from by decide +kernel]
  simp only [BitVec.getLsbD_and, BitVec.getLsbD_shiftLeft, BitVec.getLsbD_setWidth, BitVec.getLsbD_extractLsb', BitVec.getLsbD_allOnes]
  by_cases h : k < 32
  · simp [h]
  · simp [h, show k - 32 < 32 by omega, show k - 32 < 64 by omega, show 32 + (k - 32) = k by omega, hk]

/-- Clearing the upper half when the 32-bit pair sum wrapped to the least value yields the exact 64-bit sum. -/
theorem fix32 (p : Int) (h0 : -2147418112 ≤ p) (h1 : p ≤ 2147483648) :
    ~~~(((if BitVec.ofInt 32 p = BitVec.intMin 32 then BitVec.allOnes 32 else 0#32).setWidth 64) <<< 32)
      &&& BitVec.ofInt 64 (val true (BitVec.ofInt 32 p)) = BitVec.ofInt 64 p := by
  by_cases e : p = 2147483648
  · subst e; decide +kernel
  · have hp : (BitVec.ofInt 32 p).toInt = p := by rw [BitVec.toInt_ofInt, Int.bmod_def]; omega
    have e' : ¬ BitVec.ofInt 32 p = BitVec.intMin 32 := by
      intro hh
      have : (BitVec.intMin 32).toInt = -2147483648 := by decide +kernel
      rw [← hh, hp] at this; omega
    rw [if_neg e']
    unfold val
    simp only [if_true]
    rw [hp, show ~~~(((0#32).setWidth 64) <<< 32) = BitVec.allOnes 64 from by decide +kernel, BitVec.allOnes_and]

/-- `SumOfMulQuadAccumulate` of signed 16-bit lanes: the accumulator plus the four exact products (modulo `2^64`), also when a pair
of products overflows 32 bits. -/
theorem C82_sumOfMulQuadAccumulate_i16 (t : Tgt) (a b sum : M128) {i : Nat} (h : i < 2) :
    lane 64 i (SumOfMulQuadAccumulateI16 t a b sum) = lane 64 i sum + BitVec.ofInt 64 (quad true true 16 i a b) := by
  have hr : InReg 64 i := ⟨by omega, by omega⟩
  have r0 : InReg 32 (2 * i) := ⟨by omega, by omega⟩
  have r1 : InReg 32 (2 * i + 1) := ⟨by omega, by omega⟩
  unfold SumOfMulQuadAccumulateI16
  rw [lane_Add hr, lane_Add hr, lane_AndNot hr, lane_AndNot hr, lane_And, lane_set hr, C62_shiftLeft hr _ 32 (by omega),
    C62_shiftRight_signed t hr _ 32 (by omega), C62_shiftRight_signed t hr _ 32 (by omega), C62_shiftLeft hr _ 32 (by omega),
    shl64_low, and64_high]
  have el := low_half_ext true 32 (by omega) (lane 64 i (WidenMulPairwiseAdd t true a b))
  have eh := high_half_ext true 32 (by omega) (lane 64 i (WidenMulPairwiseAdd t true a b))
  simp only [if_true] at el eh
  have L : ∀ r : M128, (lane 64 i r).extractLsb' 0 32 = lane 32 (2 * i) r := fun r => lane_even (f := 32) r
  have H : ∀ r : M128, (lane 64 i r).extractLsb' 32 32 = lane 32 (2 * i + 1) r := fun r => lane_odd (f := 32) r
  have el' : (lane 64 i (WidenMulPairwiseAdd t true a b) <<< 32).sshiftRight 32 = _ := el
  have eh' : (lane 64 i (WidenMulPairwiseAdd t true a b)).sshiftRight 32 = _ := eh
  rw [el', eh', L, H]
  rw [show (lane (32 * 2) i (WidenMulPairwiseAdd t true a b)).extractLsb' 0 32 = _ from L _,
    show (lane (32 * 2) i (WidenMulPairwiseAdd t true a b)).extractLsb' 32 32 = _ from H _,
    C62_eq t r0, C62_eq t r1, lane_set r0, lane_set r1, C64_widenMulPairwiseAdd t true (by omega),
    C64_widenMulPairwiseAdd t true (by omega)]
  have p0 := prod16 (lane 16 (2 * (2 * i)) a) (lane 16 (2 * (2 * i)) b)
  have p1 := prod16 (lane 16 (2 * (2 * i) + 1) a) (lane 16 (2 * (2 * i) + 1) b)
  have p2 := prod16 (lane 16 (2 * (2 * i + 1)) a) (lane 16 (2 * (2 * i + 1)) b)
  have p3 := prod16 (lane 16 (2 * (2 * i + 1) + 1) a) (lane 16 (2 * (2 * i + 1) + 1) b)
  have k0 := fix32 (val true (lane 16 (2 * (2 * i)) a) * val true (lane 16 (2 * (2 * i)) b) +
    val true (lane 16 (2 * (2 * i) + 1) a) * val true (lane 16 (2 * (2 * i) + 1) b))
    (by unfold val; simp only [if_true]; omega) (by unfold val; simp only [if_true]; omega)
  have k1 := fix32 (val true (lane 16 (2 * (2 * i + 1)) a) * val true (lane 16 (2 * (2 * i + 1)) b) +
    val true (lane 16 (2 * (2 * i + 1) + 1) a) * val true (lane 16 (2 * (2 * i + 1) + 1) b))
    (by unfold val; simp only [if_true]; omega) (by unfold val; simp only [if_true]; omega)
  refine congrArg _ ((congrArg₂ (· + ·) k0 k1).trans ?_)
  beta_reduce
  rw [← BitVec.ofInt_add]
  unfold quad
  rw [show 2 * (2 * i) = 4 * i by omega, show 2 * (2 * i + 1) = 4 * i + 2 by omega]
  congr 1
  ring

/-- `SumOfMulQuadAccumulate` of unsigned 16-bit lanes. -/
theorem C82_sumOfMulQuadAccumulate_u16 (t : Tgt) {sz : Nat} (hz : sz = 8 ∨ sz = 16) (a b sum : M128) {i : Nat} (h : i < sz / 8) :
    lane 64 i (SumOfMulQuadAccumulateU16 t sz a b sum) = lane 64 i sum + BitVec.ofInt 64 (quad false false 16 i a b) := by
  have hs : Shape 64 sz := by unfold Shape; omega
  have hi : i < Lanes 64 sz := h
  have h2 : i < 2 := by omega
  have hr : InReg 64 i := ⟨by omega, by omega⟩
  have he := fun v => lane_promoteEven t false (f := 32) (.inr (.inr rfl)) hs v hi
  have ho := fun v => lane_promoteOdd t false (f := 32) (.inr (.inr rfl)) hs v hi
  have me := fun k (hk : k < 4) => C64_mulEven t false (w := 16) (i := k) (.inr (.inl rfl)) hk a b
  have mo := fun k (hk : k < 4) => C64_mulOdd t false sz (w := 16) (i := k) (.inr (.inl rfl)) hk a b
  have hv : ∀ x y : BitVec 16, val false (BitVec.ofInt 32 (val false x * val false y)) = val false x * val false y := fun x y => by
    have hx := x.isLt
    have hy := y.isLt
    have : x.toNat * y.toNat ≤ 65535 * 65535 := Nat.mul_le_mul (by omega) (by omega)
    rw [val_ofInt]
    unfold val; simp only [Bool.false_eq_true, if_false]
    norm_cast
    omega
  unfold SumOfMulQuadAccumulateU16
  simp only [Nat.reduceMul] at he ho me mo
  rw [lane_Add hr, lane_Add hr, lane_Add hr, lane_Add hr, he, he, ho, ho, me _ (by omega), me _ (by omega), mo _ (by omega),
    mo _ (by omega), hv, hv, hv, hv, ← BitVec.ofInt_add, ← BitVec.ofInt_add, ← BitVec.ofInt_add]
  unfold quad
  rw [show 2 * (2 * i) = 4 * i by omega, show 2 * (2 * i + 1) = 4 * i + 2 by omega]
  congr 2
  ring

end Hwy.X86
