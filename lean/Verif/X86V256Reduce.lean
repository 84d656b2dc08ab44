import Verif.X86V256Ops
import Verif.X86Reduce

/-!
# Reductions of 256-bit AVX2 vectors of integers

`generic_ops-inl.h:911-1140`: `x86_256-inl.h` has no overloads of its own, so all of `SumOfLanes`, `MinOfLanes`, `MaxOfLanes`,
`ReduceSum`, `ReduceMin`, `ReduceMax` are the generic ones. `w` is the lane width in bits.
-/

namespace Hwy.X86.V256

/-- 8-bit `Reverse2`, `generic_ops-inl.h:6779-6790`. -/
def Reverse2x8Q (v : M256) : M256 := TableLookupBytes v (dup128 (ofBytes [1, 0, 3, 2, 5, 4, 7, 6, 9, 8, 11, 10, 13, 12, 15, 14]))
/-- 8-bit `Reverse4`, `generic_ops-inl.h:6792-6803`. -/
def Reverse4x8Q (v : M256) : M256 := TableLookupBytes v (dup128 (ofBytes [3, 2, 1, 0, 7, 6, 5, 4, 11, 10, 9, 8, 15, 14, 13, 12]))
/-- 8-bit `Reverse8`, `generic_ops-inl.h:6805-6816`. -/
def Reverse8x8Q (v : M256) : M256 := TableLookupBytes v (dup128 (ofBytes [7, 6, 5, 4, 3, 2, 1, 0, 15, 14, 13, 12, 11, 10, 9, 8]))

/-- The call operators of `detail::AddFunc`, `MinFunc`, `MaxFunc`, `generic_ops-inl.h:923-943`. -/
def callQ (signed : Bool) (w : Nat) (f : RFunc) (a b : M256) : M256 :=
  match f with
  | .add => AddQ w a b
  | .min => if signed then MinIQ w a b else MinUQ w a b
  | .max => if signed then MaxIQ w a b else MaxUQ w a b
/-- `detail::ReduceAcrossBlocks`, `generic_ops-inl.h:951-956`. -/
def ReduceAcrossBlocksQ (signed : Bool) (f : RFunc) (w : Nat) (v : M256) : M256 := callQ signed w f v (SwapAdjacentBlocks v)
/-- `detail::ReduceWithinBlocks` of two, four or eight lanes per block, `generic_ops-inl.h:961-982`. -/
def ReduceWithinBlocks8Q (signed : Bool) (f : RFunc) (w : Nat) (v : M256) : M256 :=
  if w = 64 then callQ signed w f v (Reverse2 false w v)
  else if w = 32 then
    let v0123 := Reverse4 false w v
    let v03_12_12_03 := callQ signed w f v v0123
    let v12_03_03_12 := Reverse2 false w v03_12_12_03
    callQ signed w f v03_12_12_03 v12_03_03_12
  else
    let v34_25_16_07 := callQ signed w f v (Reverse8 w v)
    let v0347_1625_1625_0347 := callQ signed w f v34_25_16_07 (Reverse4 false w v34_25_16_07)
    callQ signed w f v0347_1625_1625_0347 (Reverse2 false w v0347_1625_1625_0347)
/-- `detail::ReduceWithinBlocks`, `generic_ops-inl.h:961-1017`. -/
def ReduceWithinBlocksQ (signed : Bool) (f : RFunc) (w : Nat) (v : M256) : M256 :=
  if w = 8 then
    let even := if signed then ShiftRightIQ 16 8 (ShiftLeftQ 16 8 v) else AndQ v (setQ 16 0xFF#16)
    let odd := if signed then ShiftRightIQ 16 8 v else ShiftRightUQ 16 8 v
    let reduced := ReduceWithinBlocks8Q signed f 16 (callQ signed 16 f even odd)
    DupEven false 8 reduced
  else ReduceWithinBlocks8Q signed f w v

/-- `SumOfLanes`, `generic_ops-inl.h:1021-1026`. -/
def SumOfLanesQ (signed : Bool) (w : Nat) (v : M256) : M256 := ReduceWithinBlocksQ signed .add w (ReduceAcrossBlocksQ signed .add w v)
/-- `MinOfLanes`, `generic_ops-inl.h:1027-1032`. -/
def MinOfLanesQ (signed : Bool) (w : Nat) (v : M256) : M256 := ReduceWithinBlocksQ signed .min w (ReduceAcrossBlocksQ signed .min w v)
/-- `MaxOfLanes`, `generic_ops-inl.h:1033-1038`. -/
def MaxOfLanesQ (signed : Bool) (w : Nat) (v : M256) : M256 := ReduceWithinBlocksQ signed .max w (ReduceAcrossBlocksQ signed .max w v)
/-- `ReduceSum`, `generic_ops-inl.h:1040-1043`. -/
def ReduceSumQ (signed : Bool) (w : Nat) (v : M256) : BitVec w := lane w 0 (LowerHalf (SumOfLanesQ signed w v))
/-- `ReduceMin`, `generic_ops-inl.h:1044-1047`. -/
def ReduceMinQ (signed : Bool) (w : Nat) (v : M256) : BitVec w := lane w 0 (LowerHalf (MinOfLanesQ signed w v))
/-- `ReduceMax`, `generic_ops-inl.h:1048-1051`. -/
def ReduceMaxQ (signed : Bool) (w : Nat) (v : M256) : BitVec w := lane w 0 (LowerHalf (MaxOfLanesQ signed w v))
/-- `MaskedReduceSum`, `generic_ops-inl.h:1127-1130`. -/
def MaskedReduceSumQ (signed : Bool) (w : Nat) (m v : M256) : BitVec w := ReduceSumQ signed w (IfThenElseZeroQ m v)
/-- `MaskedReduceMin`, `generic_ops-inl.h:1131-1135`. -/
def MaskedReduceMinQ (signed : Bool) (w : Nat) (m v : M256) : BitVec w :=
  ReduceMinQ signed w (IfThenElse m v (setQ w (if signed then BitVec.intMax w else BitVec.allOnes w)))
/-- `MaskedReduceMax`, `generic_ops-inl.h:1136-1140`. -/
def MaskedReduceMaxQ (signed : Bool) (w : Nat) (m v : M256) : BitVec w :=
  ReduceMaxQ signed w (IfThenElse m v (setQ w (if signed then BitVec.intMin w else 0#w)))

end Hwy.X86.V256
