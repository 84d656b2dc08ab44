import Verif.X86Bits
import Verif.X86V256Conv

/-!
# Pairwise sums, saturating addition of wide lanes and sums of four products on the x86 targets

`sz` is the size of a 128-bit-or-shorter vector in bytes, `w` (or `f`, the narrow type) the lane width in bits. `BitCast` does not
change the register. Only integer lanes; AVX3 has native versions of some of these operations and is not modelled.
-/

namespace Hwy.X86

/-- `_mm_hadd_epi16`, `_mm_hadd_epi32` (Intel SDM, PHADDW/PHADDD): sums of adjacent lanes of `a`, then of `b`. -/
def hadd (w : Nat) (a b : M128) : M128 := mk w (fun i =>
  if i < 128 / w / 2 then lane w (2 * i) a + lane w (2 * i + 1) a
  else lane w (2 * (i - 128 / w / 2)) b + lane w (2 * (i - 128 / w / 2) + 1) b)
/-- `_mm_hsub_epi16`, `_mm_hsub_epi32` (Intel SDM, PHSUBW/PHSUBD): the even lane minus the odd lane. -/
def hsub (w : Nat) (a b : M128) : M128 := mk w (fun i =>
  if i < 128 / w / 2 then lane w (2 * i) a - lane w (2 * i + 1) a
  else lane w (2 * (i - 128 / w / 2)) b - lane w (2 * (i - 128 / w / 2) + 1) b)

/-- `PairwiseAdd`, `generic_ops-inl.h:2308-2311`. -/
def PairwiseAdd (t : Tgt) (w sz : Nat) (a b : M128) : M128 := Add w (InterleaveEven t w sz a b) (InterleaveOdd t w sz a b)
/-- `PairwiseSub`, `generic_ops-inl.h:2322-2325`. -/
def PairwiseSub (t : Tgt) (w sz : Nat) (a b : M128) : M128 := Sub w (InterleaveOdd t w sz a b) (InterleaveEven t w sz a b)
/-- `detail::BlockwiseConcatOddEven` of a full 128-bit vector, `generic_ops-inl.h:7422-7469`; `Per4LaneBlockShuffle<3, 1, 2, 0>` is
`x86_128-inl.h:7691-7696`. -/
def BlockwiseConcatOddEven (t : Tgt) (w : Nat) (v : M128) : M128 :=
  if w = 8 then
    if t.val = HWY_SSE2 then ReorderDemote2To t true false 8 16 (PromoteEvenTo t false 8 16 v) (PromoteOddTo t false 8 16 v)
    else TableLookupBytes t v (ofBytes [0, 2, 4, 6, 8, 10, 12, 14, 1, 3, 5, 7, 9, 11, 13, 15])
  else if w = 16 then
    if t.val = HWY_SSE2 then ReorderDemote2To t true true 16 16 (PromoteEvenTo t true 16 16 v) (PromoteOddTo t true 16 16 v)
    else TableLookupBytes t v (ofBytes [0, 1, 4, 5, 8, 9, 12, 13, 2, 3, 6, 7, 10, 11, 14, 15])
  else if w = 32 then shuffle32 v ((3 <<< 6) ||| (1 <<< 4) ||| (2 <<< 2) ||| 0)
  else v
/-- `PairwiseAdd128`, `x86_128-inl.h:3931-3934, 3941-3944`, `generic_ops-inl.h:7475-7478`. -/
def PairwiseAdd128 (t : Tgt) (w : Nat) (a b : M128) : M128 :=
  if t.val ≤ HWY_SSSE3 ∧ (w = 16 ∨ w = 32) then hadd w a b
  else BlockwiseConcatOddEven t w (PairwiseAdd t w 16 a b)
/-- `PairwiseSub128`, `x86_128-inl.h:3935-3940, 3945-3950`, `generic_ops-inl.h:7481-7484`. -/
def PairwiseSub128 (t : Tgt) (w : Nat) (a b : M128) : M128 :=
  if t.val ≤ HWY_SSSE3 ∧ (w = 16 ∨ w = 32) then Neg w (hsub w a b)
  else BlockwiseConcatOddEven t w (PairwiseSub t w 16 a b)

/-- `SumsOf2`, `generic_ops-inl.h:3816-3831`. -/
def SumsOf2 (t : Tgt) (signed : Bool) (f sz : Nat) (v : M128) : M128 :=
  Add (2 * f) (PromoteEvenTo t signed f sz v) (PromoteOddTo t signed f sz v)
/-- `SumsOf4`, `generic_ops-inl.h:3838-3852`. -/
def SumsOf4 (t : Tgt) (signed : Bool) (f sz : Nat) (v : M128) : M128 := SumsOf2 t signed (2 * f) sz (SumsOf2 t signed f sz v)

/-- `SaturatedAdd` of 32- and 64-bit lanes, `generic_ops-inl.h:3193-3201, 3222-3230, 3251-3254, 3270-3273`. -/
def SaturatedAddWide (t : Tgt) (signed : Bool) (w : Nat) (a b : M128) : M128 :=
  if signed then
    let sum := Add w a b
    let overflow_mask := AndNot (Xor a b) (Xor a sum)
    let overflow_result := Xor (BroadcastSignBit t w a) (set w (BitVec.intMax w))
    IfNegativeThenElse t w overflow_mask overflow_result sum
  else Add w a (MinU t w b (Not a))
/-- `SaturatedSub` of 32- and 64-bit lanes, `generic_ops-inl.h:3203-3211, 3232-3240, 3256-3259, 3275-3278`. -/
def SaturatedSubWide (t : Tgt) (signed : Bool) (w : Nat) (a b : M128) : M128 :=
  if signed then
    let diff := Sub w a b
    let overflow_mask := And (Xor a b) (Xor a diff)
    let overflow_result := Xor (BroadcastSignBit t w a) (set w (BitVec.intMax w))
    IfNegativeThenElse t w overflow_mask overflow_result diff
  else Sub w a (MinU t w a b)

/-- `SatWidenMulPairwiseAccumulate`, `generic_ops-inl.h:5598-5614`. -/
def SatWidenMulPairwiseAccumulate (t : Tgt) (a b sum : M128) : M128 :=
  let product := WidenMulPairwiseAdd t true a b
  let mul_overflow := Eq t 32 product (set 32 (BitVec.intMin 32))
  SaturatedAddWide t true 32 (Sub 32 sum (And (BroadcastSignBit t 32 sum) mul_overflow)) (Add 32 product mul_overflow)

/-- `SumOfMulQuadAccumulate` of signed bytes, `generic_ops-inl.h:5679-5693`. -/
def SumOfMulQuadAccumulateI8 (t : Tgt) (sz : Nat) (a b sum : M128) : M128 :=
  let a0 := PromoteEvenTo t true 8 sz a
  let b0 := PromoteEvenTo t true 8 sz b
  let a1 := PromoteOddTo t true 8 sz a
  let b1 := PromoteOddTo t true 8 sz b
  Add 32 sum (Add 32 (WidenMulPairwiseAdd t true a0 b0) (WidenMulPairwiseAdd t true a1 b1))
/-- `SumOfMulQuadAccumulate` of unsigned bytes, `generic_ops-inl.h:5706-5723`. -/
def SumOfMulQuadAccumulateU8 (t : Tgt) (a b sum : M128) : M128 :=
  let lo8_mask := set 16 0x00FF#16
  let a0 := And a lo8_mask
  let b0 := And b lo8_mask
  let a1 := ShiftRightU 16 8 a
  let b1 := ShiftRightU 16 8 b
  Add 32 sum (Add 32 (WidenMulPairwiseAdd t true a0 b0) (WidenMulPairwiseAdd t true a1 b1))
/-- `SumOfMulQuadAccumulate` of unsigned bytes of `a` and signed bytes of `b`, `generic_ops-inl.h:5736-5757`. -/
def SumOfMulQuadAccumulateU8I8 (t : Tgt) (a_u b_i sum : M128) : M128 :=
  let a0 := And a_u (set 16 0x00FF#16)
  let b0 := ShiftRightI t 16 8 (ShiftLeft 16 8 b_i)
  let a1 := ShiftRightU 16 8 a_u
  let b1 := ShiftRightI t 16 8 b_i
  Add 32 sum (Add 32 (WidenMulPairwiseAdd t true a0 b0) (WidenMulPairwiseAdd t true a1 b1))
/-- `SumOfMulQuadAccumulate` of signed 16-bit lanes, `generic_ops-inl.h:5771-5802`. -/
def SumOfMulQuadAccumulateI16 (t : Tgt) (a b sum : M128) : M128 :=
  let i32_pairwise_sum := WidenMulPairwiseAdd t true a b
  let i32_pairwise_sum_overflow := Eq t 32 i32_pairwise_sum (set 32 (BitVec.intMin 32))
  let hi32_mask := set 64 (BitVec.ofNat 64 0xFFFFFFFF00000000)
  let p0_zero_out_mask := ShiftLeft 64 32 i32_pairwise_sum_overflow
  let p1_zero_out_mask := And i32_pairwise_sum_overflow hi32_mask
  let p0 := AndNot p0_zero_out_mask (ShiftRightI t 64 32 (ShiftLeft 64 32 i32_pairwise_sum))
  let p1 := AndNot p1_zero_out_mask (ShiftRightI t 64 32 i32_pairwise_sum)
  Add 64 sum (Add 64 p0 p1)
/-- `SumOfMulQuadAccumulate` of unsigned 16-bit lanes of vectors of `sz` bytes, `generic_ops-inl.h:5815-5828`. -/
def SumOfMulQuadAccumulateU16 (t : Tgt) (sz : Nat) (a b sum : M128) : M128 :=
  let u32_even_prod := MulEven t false 16 a b
  let u32_odd_prod := MulOdd t false 16 sz a b
  let p0 := Add 64 (PromoteEvenTo t false 32 sz u32_even_prod) (PromoteEvenTo t false 32 sz u32_odd_prod)
  let p1 := Add 64 (PromoteOddTo t false 32 sz u32_even_prod) (PromoteOddTo t false 32 sz u32_odd_prod)
  Add 64 sum (Add 64 p0 p1)

end Hwy.X86
