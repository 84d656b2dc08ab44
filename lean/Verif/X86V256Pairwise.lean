import Verif.X86Pairwise
import Verif.X86V256Mul

/-!
# Pairwise sums, saturating addition of wide lanes and sums of four products of 256-bit AVX2 vectors

Integer lanes of `w` (or `f`, the narrow type) bits.
-/

namespace Hwy.X86.V256

/-- `PairwiseAdd`, `generic_ops-inl.h:2308-2311`. -/
def PairwiseAddQ (w : Nat) (a b : M256) : M256 := AddQ w (InterleaveEven false w a b) (InterleaveOdd false w a b)
/-- `PairwiseSub`, `generic_ops-inl.h:2322-2325`. -/
def PairwiseSubQ (w : Nat) (a b : M256) : M256 := SubQ w (InterleaveOdd false w a b) (InterleaveEven false w a b)
/-- `detail::BlockwiseConcatOddEven` of the lane widths for which AVX2 has no horizontal instruction, `generic_ops-inl.h:7422-7438,
7465-7469`. -/
def BlockwiseConcatOddEvenQ (w : Nat) (v : M256) : M256 :=
  if w = 8 then TableLookupBytes v (dup128 (ofBytes [0, 2, 4, 6, 8, 10, 12, 14, 1, 3, 5, 7, 9, 11, 13, 15])) else v
/-- `PairwiseAdd128`, `x86_256-inl.h:1983-1986, 1994-1997`, `generic_ops-inl.h:7475-7478`. -/
def PairwiseAdd128Q (w : Nat) (a b : M256) : M256 :=
  if w = 16 ∨ w = 32 then blk2 (hadd w) a b else BlockwiseConcatOddEvenQ w (PairwiseAddQ w a b)
/-- `PairwiseSub128`, `x86_256-inl.h:1987-1993, 1998-2004`, `generic_ops-inl.h:7481-7484`. -/
def PairwiseSub128Q (w : Nat) (a b : M256) : M256 :=
  if w = 16 ∨ w = 32 then NegQ w (blk2 (hsub w) a b) else BlockwiseConcatOddEvenQ w (PairwiseSubQ w a b)

/-- `SumsOf2`, `generic_ops-inl.h:3816-3831`. -/
def SumsOf2Q (signed : Bool) (f : Nat) (v : M256) : M256 := AddQ (2 * f) (PromoteEvenTo signed f v) (PromoteOddTo signed f v)
/-- `SumsOf4`, `generic_ops-inl.h:3838-3852`. -/
def SumsOf4Q (signed : Bool) (f : Nat) (v : M256) : M256 := SumsOf2Q signed (2 * f) (SumsOf2Q signed f v)

/-- `SaturatedAdd` of 32- and 64-bit lanes, `generic_ops-inl.h:3193-3201, 3222-3230, 3251-3254, 3270-3273`. -/
def SaturatedAddWideQ (signed : Bool) (w : Nat) (a b : M256) : M256 :=
  if signed then
    let sum := AddQ w a b
    let overflow_mask := AndNotQ (XorQ a b) (XorQ a sum)
    let overflow_result := XorQ (BroadcastSignBitQ w a) (setQ w (BitVec.intMax w))
    IfNegativeThenElseQ w overflow_mask overflow_result sum
  else AddQ w a (MinUQ w b (NotQ a))
/-- `SaturatedSub` of 32- and 64-bit lanes, `generic_ops-inl.h:3203-3211, 3232-3240, 3256-3259, 3275-3278`. -/
def SaturatedSubWideQ (signed : Bool) (w : Nat) (a b : M256) : M256 :=
  if signed then
    let diff := SubQ w a b
    let overflow_mask := AndQ (XorQ a b) (XorQ a diff)
    let overflow_result := XorQ (BroadcastSignBitQ w a) (setQ w (BitVec.intMax w))
    IfNegativeThenElseQ w overflow_mask overflow_result diff
  else SubQ w a (MinUQ w a b)

/-- `SatWidenMulPairwiseAdd`, `x86_256-inl.h:6299-6304`. -/
def SatWidenMulPairwiseAddQ (a b : M256) : M256 := blk2 maddubs16 a b
/-- `SatWidenMulPairwiseAccumulate`, `generic_ops-inl.h:5598-5614`. -/
def SatWidenMulPairwiseAccumulateQ (a b sum : M256) : M256 :=
  let product := WidenMulPairwiseAddQ true a b
  let mul_overflow := EqQ 32 product (setQ 32 (BitVec.intMin 32))
  SaturatedAddWideQ true 32 (SubQ 32 sum (AndQ (BroadcastSignBitQ 32 sum) mul_overflow)) (AddQ 32 product mul_overflow)

/-- `SumOfMulQuadAccumulate` of signed bytes, `generic_ops-inl.h:5679-5693`. -/
def SumOfMulQuadAccumulateI8Q (a b sum : M256) : M256 :=
  let a0 := PromoteEvenTo true 8 a
  let b0 := PromoteEvenTo true 8 b
  let a1 := PromoteOddTo true 8 a
  let b1 := PromoteOddTo true 8 b
  AddQ 32 sum (AddQ 32 (WidenMulPairwiseAddQ true a0 b0) (WidenMulPairwiseAddQ true a1 b1))
/-- `SumOfMulQuadAccumulate` of unsigned bytes, `generic_ops-inl.h:5706-5723`. -/
def SumOfMulQuadAccumulateU8Q (a b sum : M256) : M256 :=
  let lo8_mask := setQ 16 0x00FF#16
  let a0 := AndQ a lo8_mask
  let b0 := AndQ b lo8_mask
  let a1 := ShiftRightUQ 16 8 a
  let b1 := ShiftRightUQ 16 8 b
  AddQ 32 sum (AddQ 32 (WidenMulPairwiseAddQ true a0 b0) (WidenMulPairwiseAddQ true a1 b1))
/-- `SumOfMulQuadAccumulate` of unsigned bytes of `a` and signed bytes of `b`, `generic_ops-inl.h:5736-5757`. -/
def SumOfMulQuadAccumulateU8I8Q (a_u b_i sum : M256) : M256 :=
  let a0 := AndQ a_u (setQ 16 0x00FF#16)
  let b0 := ShiftRightIQ 16 8 (ShiftLeftQ 16 8 b_i)
  let a1 := ShiftRightUQ 16 8 a_u
  let b1 := ShiftRightIQ 16 8 b_i
  AddQ 32 sum (AddQ 32 (WidenMulPairwiseAddQ true a0 b0) (WidenMulPairwiseAddQ true a1 b1))
/-- `SumOfMulQuadAccumulate` of signed 16-bit lanes, `generic_ops-inl.h:5771-5802`. -/
def SumOfMulQuadAccumulateI16Q (a b sum : M256) : M256 :=
  let i32_pairwise_sum := WidenMulPairwiseAddQ true a b
  let i32_pairwise_sum_overflow := EqQ 32 i32_pairwise_sum (setQ 32 (BitVec.intMin 32))
  let hi32_mask := setQ 64 (BitVec.ofNat 64 0xFFFFFFFF00000000)
  let p0_zero_out_mask := ShiftLeftQ 64 32 i32_pairwise_sum_overflow
  let p1_zero_out_mask := AndQ i32_pairwise_sum_overflow hi32_mask
  let p0 := AndNotQ p0_zero_out_mask (ShiftRightIQ 64 32 (ShiftLeftQ 64 32 i32_pairwise_sum))
  let p1 := AndNotQ p1_zero_out_mask (ShiftRightIQ 64 32 i32_pairwise_sum)
  AddQ 64 sum (AddQ 64 p0 p1)
/-- `SumOfMulQuadAccumulate` of unsigned 16-bit lanes, `generic_ops-inl.h:5815-5828`. -/
def SumOfMulQuadAccumulateU16Q (a b sum : M256) : M256 :=
  let u32_even_prod := MulEvenQ false 16 a b
  let u32_odd_prod := MulOddQ false 16 a b
  let p0 := AddQ 64 (PromoteEvenTo false 32 u32_even_prod) (PromoteEvenTo false 32 u32_odd_prod)
  let p1 := AddQ 64 (PromoteOddTo false 32 u32_even_prod) (PromoteOddTo false 32 u32_odd_prod)
  AddQ 64 sum (AddQ 64 p0 p1)

end Hwy.X86.V256
