import Verif.GenArith
import Verif.EmuFArith

/-!
# Model of the floating-point fallbacks of `hwy/ops/generic_ops-inl.h`: classification, exponents, scaling by powers
of two, magnitudes

Running on the reference target's operations.  `F` is the float format, `N` the number of lanes; a lane is its bit
pattern (`Verif/EmuFloat.lean`), so `BitCast` between floats and the unsigned type of the same size is the identity.
On this target `TExpMinMax = TI` and `TExpSatSub = TU` (generic_ops-inl.h:1266-1277), hence
`kZeroOutSignUsingSatSub` is false and `kExpDecrBy1Bits` is 1.
-/

namespace Hwy
namespace Emu
open CInt Flt

/-- `MaxExponentTimes2<T>()` (base.h:2428-2431), signed. -/
def maxExponentTimes2 (F : Fmt) : Int := -(2 ^ (F.p + 1))

/-- `NaN(d)` (generic_ops-inl.h:83-89). -/
def NaNVec (F : Fmt) (N : Nat) : M (List Int) := do
  let v ← Set F.it N F.it.hi
  return BitCast F.it F.ut v
/-- `Inf(d)` (generic_ops-inl.h:92-99): the cast to unsigned, then `>> 1`. -/
def InfVec (F : Fmt) (N : Nat) : M (List Int) := Set F.ut N (F.ut.wrap (maxExponentTimes2 F) / 2)

/-- `IsEitherNaN` (generic_ops-inl.h:1152-1155), `Or` of masks (emu128-inl.h). -/
def IsEitherNaN (F : Fmt) (N : Nat) (a b : List Int) : M (List Int) := do
  let x ← FIsNaN F N a
  let y ← FIsNaN F N b
  MaskOr F.ut N x y

/-- `IsInf` (generic_ops-inl.h:1169-1181). -/
def IsInf (F : Fmt) (N : Nat) (v : List Int) : M (List Int) := do
  let x ← Add F.ut N v v
  let c ← Set F.ut N (F.ut.wrap (maxExponentTimes2 F))
  Eq F.ut N x c

/-- `IsFinite` (generic_ops-inl.h:1184-1208), the branch for compilers other than MSVC. -/
def IsFinite (ar : Bool) (F : Fmt) (N : Nat) (v : List Int) : M (List Int) := do
  let shl ← Add F.ut N v v
  let s ← ShiftRight ar F.ut N ((F.p + 1 : Nat) : Int) shl
  let exp := BitCast F.ut F.it s
  let c ← Set F.it N (maxExponentField F : Int)
  Lt F.it N exp c

/-- `CeilInt`, `FloorInt` (generic_ops-inl.h:1216-1221). -/
def CeilInt (F : Fmt) (N : Nat) (v : List Int) : M (List Int) := do
  let x ← FCeil F N v
  ConvertF2I F F.it N x
def FloorInt (F : Fmt) (N : Nat) (v : List Int) : M (List Int) := do
  let x ← FFloor F N v
  ConvertF2I F F.it N x

/-- One factor `2^k` of `MulByPow2`: `BitCast(df, ShiftLeft<kNumOfMantBits>(Add(k, exp_bias)))`
(generic_ops-inl.h:1346-1353). -/
def pow2Factor (F : Fmt) (N : Nat) (k : List Int) : M (List Int) := do
  let b ← Set F.it N ((maxExponentField F / 2 : Nat) : Int)
  let s ← Add F.it N k b
  let x ← ShiftLeft F.it N (F.p : Int) s
  return BitCast F.it F.ut x

/-- `min_exp1_plus_min_exp2` of `MulByPow2` (generic_ops-inl.h:1305-1325). -/
def minExp12 (ar : Bool) (F : Fmt) (N : Nat) (v : List Int) : M (List Int) := do
  let kExpBias : Int := ((maxExponentField F / 2 : Nat) : Int)
  let valForExpSub ← FAbs F N v
  let e ← ShiftRight ar F.ut N (F.p : Int) valForExpSub
  let one ← Set F.ut N 1
  let d ← SatSub ar F.ut N e one
  let n ← Neg F.it N (BitCast F.ut F.it d)
  let c ← Set F.it N (2 - kExpBias - kExpBias)
  Max F.it N n c

/-- `MulByPow2` (generic_ops-inl.h:1242-1358). -/
def MulByPow2 (ar : Bool) (F : Fmt) (N : Nat) (v exp : List Int) : M (List Int) := do
  let kExpBias : Int := ((maxExponentField F / 2 : Nat) : Int)
  let minExp1PlusMinExp2 ← minExp12 ar F N v
  let c3 ← Set F.it N (kExpBias * 3)
  let x ← Min F.it N exp c3
  let c1 ← Set F.it N (1 - kExpBias)
  let y ← Add F.it N minExp1PlusMinExp2 c1
  let clampedExp ← Max F.it N x y
  let q ← ShiftRight ar F.it N 2 clampedExp
  let d ← Sub F.it N clampedExp q
  let c2 ← Set F.it N (kExpBias + kExpBias)
  let m ← Min F.it N d c2
  let exp1PlusExp2 ← Max F.it N m minExp1PlusMinExp2
  let exp1 ← ShiftRight ar F.it N 1 exp1PlusExp2
  let exp2 ← Sub F.it N exp1PlusExp2 exp1
  let exp3 ← Sub F.it N clampedExp exp1PlusExp2
  let factor1 ← pow2Factor F N exp1
  let factor2 ← pow2Factor F N exp2
  let factor3 ← pow2Factor F N exp3
  let r1 ← FMul F N v factor1
  let r2 ← FMul F N r1 factor2
  FMul F N r2 factor3

/-- `MulByFloorPow2` (generic_ops-inl.h:1361-1377). -/
def MulByFloorPow2 (ar : Bool) (F : Fmt) (N : Nat) (v exp : List Int) : M (List Int) := do
  let isNaN ← FIsNaN F N exp
  let absV ← FAbs F N v
  let inf ← InfVec F N
  let sel ← IfNegativeThenElseZero ar F.ut N exp inf
  let e ← FEq F N absV sel
  let i ← IsInf F N exp
  let b ← MaskAnd F.ut N e i
  let special ← MaskOr F.ut N isNaN b
  let nan ← NaNVec F N
  let k ← FloorInt F N exp
  let r ← MulByPow2 ar F N v k
  IfThenElse F.ut N special nan r

/-- `GetBiasedExponent` (generic_ops-inl.h:1388-1397). -/
def GetBiasedExponent (ar : Bool) (F : Fmt) (N : Nat) (v : List Int) : M (List Int) := do
  let x ← FAbs F N v
  ShiftRight ar F.ut N (F.p : Int) x

/-- `GetExponent` (generic_ops-inl.h:1410-1425). -/
def GetExponent (ar : Bool) (F : Fmt) (N : Nat) (v : List Int) : M (List Int) := do
  let offset ← Set F.it N ((maxExponentField F / 2 : Nat) : Int)
  let encoded ← GetBiasedExponent ar F N v
  let k ← Sub F.it N (BitCast F.ut F.it encoded) offset
  ConvertI2F F N k

/-- `MinMagnitude`, `MaxMagnitude` of floats (generic_ops-inl.h:531-547). -/
def FMinMagnitude (F : Fmt) (N : Nat) (a b : List Int) : M (List Int) := do
  let absA ← FAbs F N a
  let absB ← FAbs F N b
  let e ← FEq F N absA absB
  let s ← IfThenElse F.ut N e a b
  let min ← FMin F N s b
  let l ← FLt F N absA absB
  IfThenElse F.ut N l a min
def FMaxMagnitude (F : Fmt) (N : Nat) (a b : List Int) : M (List Int) := do
  let absA ← FAbs F N a
  let absB ← FAbs F N b
  let e ← FEq F N absA absB
  let s ← IfThenElse F.ut N e b a
  let max ← FMax F N s a
  let l ← FLt F N absA absB
  IfThenElse F.ut N l b max

/-- `IfNegativeThenNegOrUndefIfZero` of floats (generic_ops-inl.h:823-826). -/
def FIfNegativeThenNegOrUndefIfZero (F : Fmt) (N : Nat) (mask v : List Int) : M (List Int) := do
  let x ← Xor F.ut N mask v
  FCopySign F N v x

/-- `AddSub` of floats (generic_ops-inl.h:582-586, 597-610). -/
def FAddSub (F : Fmt) (N : Nat) (a b : List Int) : M (List Int) :=
  if N = 1 then FSub F N a b
  else do
    let n ← FNeg F N b
    let negatedEvenB ← OddEven N b n
    FAdd F N a negatedEvenB

/-- `MulAddSub` of floats (generic_ops-inl.h:4784-4787, 4796-4808). -/
def FMulAddSub (F : Fmt) (N : Nat) (mul x subOrAdd : List Int) : M (List Int) :=
  if N = 1 then FMulSub F N mul x subOrAdd
  else do
    let n ← FNeg F N subOrAdd
    let add ← OddEven N subOrAdd n
    FMulAdd F N mul x add

/-- `MulSubAdd` of floats (generic_ops-inl.h:4811-4821). -/
def FMulSubAdd (F : Fmt) (N : Nat) (mul x subOrAdd : List Int) : M (List Int) := do
  let n ← FNeg F N subOrAdd
  FMulAddSub F N mul x n

end Emu
end Hwy
