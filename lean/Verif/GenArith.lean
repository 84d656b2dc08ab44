import Verif.EmuArith
import Verif.EmuMove
import Verif.EmuConv
import Verif.GenDiv

/-!
# Model of the arithmetic fallbacks of `hwy/ops/generic_ops-inl.h` on integer lanes

Running on the reference target's operations.  `t` is the lane type, `N` the number of lanes.  `ar` says whether
the compiler's `>>` on negative numbers is arithmetic (base.h:2714-2745).  `RebindMask` (shared by all targets) is a
copy of the mask.
-/

namespace Hwy
namespace Emu
open CInt

/-- `Clamp` (generic_ops-inl.h:57-60). -/
def Clamp (t : Ty) (N : Nat) (v lo hi : List Int) : M (List Int) := do Min t N (← Max t N lo v) hi

/-- `IsNegative` (generic_ops-inl.h:225-230). -/
def IsNegative (ar : Bool) (t : Ty) (N : Nat) (v : List Int) : M (List Int) := do
  return maskFromVec t (BitCast t.signed t (← BroadcastSignBit ar t.signed N (BitCast t t.signed v)))
/-- `IfNegativeThenElseZero` (generic_ops-inl.h:257-260), `IfNegativeThenZeroElse` (272-275), `ZeroIfNegative` (282-285). -/
def IfNegativeThenElseZero (ar : Bool) (t : Ty) (N : Nat) (v yes : List Int) : M (List Int) := do
  IfThenElseZero t N (← IsNegative ar t N v) yes
def IfNegativeThenZeroElse (ar : Bool) (t : Ty) (N : Nat) (v no : List Int) : M (List Int) := do
  IfThenZeroElse t N (← IsNegative ar t N v) no
def ZeroIfNegative (ar : Bool) (t : Ty) (N : Nat) (v : List Int) : M (List Int) := IfNegativeThenZeroElse ar t N v v
/-- `BitwiseIfThenElse` (generic_ops-inl.h:295-298). -/
def BitwiseIfThenElse (t : Ty) (N : Nat) (mask yes no : List Int) : M (List Int) := do
  Or t N (← And t N mask yes) (← AndNot t N mask no)

/-- `RotateLeft` (generic_ops-inl.h:459-467). -/
def RotateLeft (ar : Bool) (t : Ty) (N : Nat) (k : Nat) (v : List Int) : M (List Int) :=
  RotateRight ar t N (if k = 0 then 0 else (t.bits : Int) - k) v

/-- `MinMagnitude`, `MaxMagnitude` of integers (generic_ops-inl.h:551-578). -/
def MinMagnitude (t : Ty) (N : Nat) (a b : List Int) : M (List Int) :=
  if t.sgn then do
    let absA := BitCast t t.unsigned (← Abs t N a)
    let absB := BitCast t t.unsigned (← Abs t N b)
    IfThenElse t N (← Lt t.unsigned N absA absB) a
      (← Min t N (← IfThenElse t N (← Eq t.unsigned N absA absB) a b) b)
  else Min t N a b
def MaxMagnitude (t : Ty) (N : Nat) (a b : List Int) : M (List Int) :=
  if t.sgn then do
    let absA := BitCast t t.unsigned (← Abs t N a)
    let absB := BitCast t t.unsigned (← Abs t N b)
    IfThenElse t N (← Lt t.unsigned N absA absB) b
      (← Max t N (← IfThenElse t N (← Eq t.unsigned N absA absB) b a) a)
  else Max t N a b

/-- `AddSub` of integers (generic_ops-inl.h:583-586, 598-612). -/
def AddSub (t : Ty) (N : Nat) (a b : List Int) : M (List Int) :=
  if N = 1 then Sub t N a b
  else do
    let s := t.signed
    let negated := BitCast s t (← Neg s N (BitCast t s b))
    Add t N a (← OddEven N b negated)

/-- `SaturatedAdd`, `SaturatedSub` of 32/64-bit lanes (generic_ops-inl.h:3194-3211, 3223-3240, 3252-3259, 3271-3278). -/
def SatAddWide (ar : Bool) (t : Ty) (N : Nat) (a b : List Int) : M (List Int) :=
  if t.sgn then do
    let sum ← Add t N a b
    let overflowMask ← AndNot t N (← Xor t N a b) (← Xor t N a sum)
    let overflowResult ← Xor t N (← BroadcastSignBit ar t N a) (← Set t N t.hi)
    IfNegativeThenElse t N overflowMask overflowResult sum
  else do Add t N a (← Min t N b (← Not t N a))
def SatSubWide (ar : Bool) (t : Ty) (N : Nat) (a b : List Int) : M (List Int) :=
  if t.sgn then do
    let diff ← Sub t N a b
    let overflowMask ← And t N (← Xor t N a b) (← Xor t N a diff)
    let overflowResult ← Xor t N (← BroadcastSignBit ar t N a) (← Set t N t.hi)
    IfNegativeThenElse t N overflowMask overflowResult diff
  else do Sub t N a (← Min t N a b)
/-- `SaturatedAdd`, `SaturatedSub` of any lane type: 8/16-bit lanes are in `emu128-inl.h`. -/
def SatAdd (ar : Bool) (t : Ty) (N : Nat) (a b : List Int) : M (List Int) :=
  if t.bits ≤ 16 then SaturatedAdd t N a b else SatAddWide ar t N a b
def SatSub (ar : Bool) (t : Ty) (N : Nat) (a b : List Int) : M (List Int) :=
  if t.bits ≤ 16 then SaturatedSub t N a b else SatSubWide ar t N a b

/-- `SaturatedNeg` (generic_ops-inl.h:839-842, 845-859, 870-880; `HWY_TARGET` is none of the listed ones). -/
def SaturatedNeg (ar : Bool) (t : Ty) (N : Nat) (v : List Int) : M (List Int) :=
  if t.bits ≤ 16 then SaturatedSub t N (zero t) v
  else if t.bits = 32 then do
    Sub t N (← Not t N v) (vecFromMask t (← Gt t N v (← Set t N t.lo)))
  else do
    let negV ← Neg t N v
    Add t N negV (← BroadcastSignBit ar t N (← And t N v negV))
/-- `SaturatedAbs` (generic_ops-inl.h:892-894). -/
def SaturatedAbs (ar : Bool) (t : Ty) (N : Nat) (v : List Int) : M (List Int) := do
  Max t N v (← SaturatedNeg ar t N v)

/-- `AbsDiff` of integers (generic_ops-inl.h:3159-3161). -/
def AbsDiff (t : Ty) (N : Nat) (a b : List Int) : M (List Int) := do Sub t N (← Max t N a b) (← Min t N a b)
/-- `SumsOf8AbsDiff` (generic_ops-inl.h:3174-3180). -/
def SumsOf8AbsDiff (t : Ty) (N : Nat) (a b : List Int) : M (List Int) := do
  return BitCast u64 ⟨64, t.sgn⟩ (← SumsOf8 u8 N (BitCast t u8 (← AbsDiff t N a b)))

/-- `RoundingShiftRight` (generic_ops-inl.h:5413-5431). -/
def RoundingShiftRight (ar : Bool) (t : Ty) (N : Nat) (k : Nat) (v : List Int) : M (List Int) := do
  let s ← (if k - 1 > 0 then ShiftRight ar t N ((k - 1 : Nat) : Int) v else pure v)
  if k = 0 then return s else AverageRound ar t N s (zero t)
/-- `RoundingShiftRightSame` (generic_ops-inl.h:5434-5447). `shift_amt_is_zero_mask` is 0 or -1, so the amount is
`shift_amt + ~0 = shift_amt - 1` modulo `2^32`, or `0 + 0`. -/
def RoundingShiftRightSame (ar : Bool) (t : Ty) (N : Nat) (v : List Int) (amt : Int) : M (List Int) := do
  let isZero : Int := if amt = 0 then -1 else 0
  let s ← ShiftRight ar t N (i32.wrap (u32.wrap (u32.wrap amt + u32.wrap (-1 - isZero)))) v
  AverageRound ar t N s (← And t N s (← Set t N (t.wrap isZero)))
/-- `RoundingShr` (generic_ops-inl.h:5450-5463). -/
def RoundingShr (ar : Bool) (t : Ty) (N : Nat) (v amt : List Int) : M (List Int) := do
  let du := t.unsigned
  let unsignedAmt := BitCast t du amt
  let scaleDown := BitCast du t (← SatSub ar du N unsignedAmt (← Set du N 1))
  let s ← Shr ar t N v scaleDown
  AverageRound ar t N s (← IfThenElseZero t N (← Eq t N amt (zero t)) s)

/-- `PairwiseAdd`, `PairwiseSub` (generic_ops-inl.h:2309-2311, 2323-2325). -/
def PairwiseAdd (t : Ty) (N : Nat) (a b : List Int) : M (List Int) := do
  Add t N (← InterleaveEven N a b) (← InterleaveOdd N a b)
def PairwiseSub (t : Ty) (N : Nat) (a b : List Int) : M (List Int) := do
  Sub t N (← InterleaveOdd N a b) (← InterleaveEven N a b)

/-! ### Masked operations (generic_ops-inl.h:613-797, 900-908) -/

/-- `MaskedMinOr` (621-623), `MaskedMaxOr` (626-628), `MaskedAddOr` (631-633), `MaskedSubOr` (636-638), `MaskedMulOr`
(641-643), `MaskedDivOr` (646-648), `MaskedModOr` (651-653), `MaskedSatAddOr` (656-658), `MaskedSatSubOr` (661-663). -/
def MaskedMinOr (t : Ty) (N : Nat) (no m a b : List Int) : M (List Int) := do IfThenElse t N m (← Min t N a b) no
def MaskedMaxOr (t : Ty) (N : Nat) (no m a b : List Int) : M (List Int) := do IfThenElse t N m (← Max t N a b) no
def MaskedAddOr (t : Ty) (N : Nat) (no m a b : List Int) : M (List Int) := do IfThenElse t N m (← Add t N a b) no
def MaskedSubOr (t : Ty) (N : Nat) (no m a b : List Int) : M (List Int) := do IfThenElse t N m (← Sub t N a b) no
def MaskedMulOr (t : Ty) (N : Nat) (no m a b : List Int) : M (List Int) := do IfThenElse t N m (← Mul t N a b) no
def MaskedDivOr (t : Ty) (N : Nat) (no m a b : List Int) : M (List Int) := do IfThenElse t N m (← IntDiv t N a b) no
def MaskedModOr (t : Ty) (N : Nat) (no m a b : List Int) : M (List Int) := do IfThenElse t N m (← IntMod t N a b) no
def MaskedSatAddOr (ar : Bool) (t : Ty) (N : Nat) (no m a b : List Int) : M (List Int) := do
  IfThenElse t N m (← SatAdd ar t N a b) no
def MaskedSatSubOr (ar : Bool) (t : Ty) (N : Nat) (no m a b : List Int) : M (List Int) := do
  IfThenElse t N m (← SatSub ar t N a b) no
/-- `MaskedAbsOr`, `MaskedAbs` (900-908). -/
def MaskedAbsOr (t : Ty) (N : Nat) (no m v : List Int) : M (List Int) := do IfThenElse t N m (← Abs t N v) no
def MaskedAbs (t : Ty) (N : Nat) (m v : List Int) : M (List Int) := do IfThenElseZero t N m (← Abs t N v)

/-- `MaskedMax` (674-676), `MaskedAdd` (679-681), `MaskedSub` (684-686), `MaskedMul` (689-691), `MaskedDiv` (694-696),
`MaskedSaturatedAdd` (699-701), `MaskedSaturatedSub` (704-706), `MaskedMulFixedPoint15` (709-711), `MaskedMulAdd` (714-716),
`MaskedNegMulAdd` (719-721), `MaskedWidenMulPairwiseAdd` (725-727). -/
def MaskedMax (t : Ty) (N : Nat) (m a b : List Int) : M (List Int) := do IfThenElseZero t N m (← Max t N a b)
def MaskedAdd (t : Ty) (N : Nat) (m a b : List Int) : M (List Int) := do IfThenElseZero t N m (← Add t N a b)
def MaskedSub (t : Ty) (N : Nat) (m a b : List Int) : M (List Int) := do IfThenElseZero t N m (← Sub t N a b)
def MaskedMul (t : Ty) (N : Nat) (m a b : List Int) : M (List Int) := do IfThenElseZero t N m (← Mul t N a b)
def MaskedDiv (t : Ty) (N : Nat) (m a b : List Int) : M (List Int) := do IfThenElseZero t N m (← IntDiv t N a b)
def MaskedSaturatedAdd (ar : Bool) (t : Ty) (N : Nat) (m a b : List Int) : M (List Int) := do
  IfThenElseZero t N m (← SatAdd ar t N a b)
def MaskedSaturatedSub (ar : Bool) (t : Ty) (N : Nat) (m a b : List Int) : M (List Int) := do
  IfThenElseZero t N m (← SatSub ar t N a b)
def MaskedMulFixedPoint15 (N : Nat) (m a b : List Int) : M (List Int) := do
  IfThenElseZero i16 N m (← MulFixedPoint15 N a b)
def MaskedMulAdd (t : Ty) (N : Nat) (m mul x add : List Int) : M (List Int) := do
  IfThenElseZero t N m (← MulAdd t N mul x add)
def MaskedNegMulAdd (t : Ty) (N : Nat) (m mul x add : List Int) : M (List Int) := do
  IfThenElseZero t N m (← NegMulAdd t N mul x add)
def MaskedWidenMulPairwiseAdd (ar : Bool) (tF : Ty) (N : Nat) (m a b : List Int) : M (List Int) := do
  IfThenElseZero tF.wide N m (← WidenMulPairwiseAdd ar tF N a b)

/-- `MaskedShiftLeft` (737-739), `MaskedShiftRight` (742-744), `MaskedShiftRightOr` (747-749), `MaskedShrOr` (752-754). -/
def MaskedShiftLeft (t : Ty) (N : Nat) (k : Int) (m a : List Int) : M (List Int) := do
  IfThenElseZero t N m (← ShiftLeft t N k a)
def MaskedShiftRight (ar : Bool) (t : Ty) (N : Nat) (k : Int) (m a : List Int) : M (List Int) := do
  IfThenElseZero t N m (← ShiftRight ar t N k a)
def MaskedShiftRightOr (ar : Bool) (t : Ty) (N : Nat) (k : Int) (no m a : List Int) : M (List Int) := do
  IfThenElse t N m (← ShiftRight ar t N k a) no
def MaskedShrOr (ar : Bool) (t : Ty) (N : Nat) (no m a shifts : List Int) : M (List Int) := do
  IfThenElse t N m (← Shr ar t N a shifts) no

/-- `MaskedEq` .. `MaskedGe` (765-792). -/
def MaskedEq (t : Ty) (N : Nat) (m a b : List Int) : M (List Int) := do MaskAnd t N m (← Eq t N a b)
def MaskedNe (t : Ty) (N : Nat) (m a b : List Int) : M (List Int) := do MaskAnd t N m (← Ne t N a b)
def MaskedLt (t : Ty) (N : Nat) (m a b : List Int) : M (List Int) := do MaskAnd t N m (← Lt t N a b)
def MaskedGt (t : Ty) (N : Nat) (m a b : List Int) : M (List Int) := do MaskAnd t N m (← Gt t N a b)
def MaskedLe (t : Ty) (N : Nat) (m a b : List Int) : M (List Int) := do MaskAnd t N m (← Le t N a b)
def MaskedGe (t : Ty) (N : Nat) (m a b : List Int) : M (List Int) := do MaskAnd t N m (← Ge t N a b)

/-- `MaskedReduceSum`, `MaskedReduceMin`, `MaskedReduceMax` (generic_ops-inl.h:1128-1140) with `ReduceSum` etc. of
`emu128-inl.h`, of one lane (generic_ops-inl.h:1058-1068) and of four bytes (1094-1117). -/
def reduceSum (t : Ty) (N : Nat) (v : List Int) : M Int :=
  if N = 1 then readAt v 0
  else if t.bits = 8 ∧ N = 4 then do
    return t.wrap (← ReduceSum t.wide 4 (← PromoteInt t t.wide 4 v))
  else ReduceSum t N v
def reduceMin (t : Ty) (N : Nat) (v : List Int) : M Int :=
  if N = 1 then readAt v 0
  else if t.bits = 8 ∧ N = 4 then do
    return t.wrap (← ReduceMin t.wide 4 (← PromoteInt t t.wide 4 v))
  else ReduceMin t N v
def reduceMax (t : Ty) (N : Nat) (v : List Int) : M Int :=
  if N = 1 then readAt v 0
  else if t.bits = 8 ∧ N = 4 then do
    return t.wrap (← ReduceMax t.wide 4 (← PromoteInt t t.wide 4 v))
  else ReduceMax t N v
def MaskedReduceSum (t : Ty) (N : Nat) (m v : List Int) : M Int := do
  reduceSum t N (← IfThenElseZero t N m v)
def MaskedReduceMin (t : Ty) (N : Nat) (m v : List Int) : M Int := do
  reduceMin t N (← IfThenElse t N m v (← Set t N t.hi))
def MaskedReduceMax (t : Ty) (N : Nat) (m v : List Int) : M Int := do
  reduceMax t N (← IfThenElse t N m v (← Set t N t.lo))

/-! ### Mask conversions -/

/-- `PromoteMaskTo` (generic_ops-inl.h:311-325); `N` lanes. -/
def PromoteMaskTo (tF tT : Ty) (N : Nat) (m : List Int) : M (List Int) := do
  return maskFromVec tT (BitCast tT.signed tT
    (← PromoteInt tF.signed tT.signed N (BitCast tF tF.signed (vecFromMask tF m))))
/-- `DemoteMaskTo` (generic_ops-inl.h:338-351). -/
def DemoteMaskTo (tF tT : Ty) (N : Nat) (m : List Int) : M (List Int) := do
  return maskFromVec tT (BitCast tT.signed tT
    (← DemoteTo tF.signed tT.signed N (BitCast tF tF.signed (vecFromMask tF m))))
/-- `OrderedDemote2MasksTo` (generic_ops-inl.h:437-453); `NW` lanes per input. -/
def OrderedDemote2MasksTo (tF tT : Ty) (NW : Nat) (a b : List Int) : M (List Int) := do
  let va := BitCast tF tF.signed (vecFromMask tF a)
  let vb := BitCast tF tF.signed (vecFromMask tF b)
  return maskFromVec tT (BitCast tT.signed tT (← OrderedDemote2To tF.signed tT.signed NW va vb))
/-- `CombineMasks` (generic_ops-inl.h:381-384), `LowerHalfOfMask` (399-402), `UpperHalfOfMask` (417-420); halves of `H` lanes. -/
def CombineMasks (t : Ty) (H : Nat) (hi lo : List Int) : M (List Int) := do
  return maskFromVec t (← Combine 0 (cap t) H (vecFromMask t hi) (vecFromMask t lo))
def LowerHalfOfMask (t : Ty) (H : Nat) (m : List Int) : M (List Int) := do
  return maskFromVec t (← LowerHalf 0 (cap t) H (vecFromMask t m))
def UpperHalfOfMask (t : Ty) (H : Nat) (m : List Int) : M (List Int) := do
  return maskFromVec t (← UpperHalf 0 (cap t) H (vecFromMask t m))
/-- `MaskFalse` (generic_ops-inl.h:242-245). -/
def MaskFalse (t : Ty) : List Int := maskFromVec t (zero t)

end Emu
end Hwy
