import Verif.GenFloat
import Verif.EmuConv

/-!
# Model of the `float16_t` and `bfloat16_t` conversions of `hwy/ops/generic_ops-inl.h`

Running on the reference target's operations; registers and bit patterns as in `EmuFloat.lean` and `EmuConv.lean`, so
`BitCast` between `float` and `uint32_t`, `double` and `uint64_t`, `float16_t` and `uint16_t` is the identity, and
`RebindMask` between them too.  The branches for `HWY_TARGET == HWY_EMU128` are taken.  `N` is the number of lanes.  The
`float32` to `bfloat16` conversions are replaced by native ones on the reference target; here they run on its operations
as on the targets that use them.
-/

namespace Hwy
namespace Emu
open CInt Flt

/-- `PromoteTo` `float16_t` to `float` (generic_ops-inl.h:3377-3397).  The constant `1.0f / 16384 / 1024` is `2^-24`, an
exact power of two, bits `103 << 23`. -/
def PromoteF16 (ar : Bool) (N : Nat) (v : List Int) : M (List Int) := do
  let bits16 ← PromoteInt u16 u32 N v
  let sign ← ShiftRight ar u32 N 15 bits16
  let e ← ShiftRight ar u32 N 10 bits16
  let c1F ← Set u32 N 0x1F
  let biasedExp ← And u32 N e c1F
  let c3FF ← Set u32 N 0x3FF
  let mantissa ← And u32 N bits16 c3FF
  let mf ← ConvertI2F f32 N (BitCast u32 i32 mantissa)
  let scale ← Set u32 N (((127 - 24) <<< 23 : Nat) : Int)
  let subnormal ← FMul f32 N mf scale
  let c112 ← Set u32 N (127 - 15)
  let biasedExp32 ← Add u32 N biasedExp c112
  let mantissa32 ← ShiftLeft u32 N (23 - 10) mantissa
  let eShl ← ShiftLeft u32 N 23 biasedExp32
  let normal ← Or u32 N eShl mantissa32
  let isSub ← Eq u32 N biasedExp (zero u32)
  let bits32 ← IfThenElse u32 N isSub subnormal normal
  let sShl ← ShiftLeft u32 N 31 sign
  Or u32 N sShl bits32

/-- `round_incr_hi9_bits` of `DemoteTo` `float` to `float16_t` (generic_ops-inl.h:3425-3439). -/
def roundIncrHi9 (ar : Bool) (N : Nat) (v : List Int) : M (List Int) := do
  let hi9Bits ← ShiftRight ar u32 N 23 v
  let k13 ← Set u32 N 13
  let k126 ← Set u32 N 126
  let k255 ← Set u32 N 255
  let e ← And u32 N hi9Bits k255
  let s ← Add u32 N e k13
  let m ← Min u32 N s k255
  let x ← Max u32 N m k126
  BitwiseIfThenElse u32 N k255 x hi9Bits

/-- `DemoteTo` `float` to `float16_t` (generic_ops-inl.h:3399-3545). -/
def DemoteF16 (ar : Bool) (N : Nat) (v : List Int) : M (List Int) := do
  let roundIncrHi9Bits ← roundIncrHi9 ar N v
  let roundIncr ← ShiftLeft u32 N 23 roundIncrHi9Bits
  let roundedVal ← FAdd f32 N v roundIncr
  -- generic_ops-inl.h:3507-3514
  let k255 ← Set u32 N 255
  let k157Shl10 ← Set u32 N ((157 <<< 10 : Nat) : Int)
  let e ← And u32 N roundIncrHi9Bits k255
  let eShl ← ShiftLeft u32 N 10 e
  let kFFShl10 ← Set u32 N ((0xFF <<< 10 : Nat) : Int)
  let r ← And u32 N roundedVal kFFShl10
  let s ← Add u32 N eShl r
  let expBits0 ← Min u32 N s k157Shl10
  let isInf ← Eq u32 N expBits0 k157Shl10
  -- generic_ops-inl.h:3526-3544
  let k126Shl10 ← Set u32 N ((126 <<< 10 : Nat) : Int)
  let f16ExpBits ← Sub u32 N expBits0 k126Shl10
  let z ← IfThenZeroElse u32 N isInf roundedVal
  let nan ← FIsNaN f32 N roundedVal
  let unmaskedMant ← Or u32 N z (vecFromMask u32 nan)
  let k3FF ← Set i32 N 0x03FF
  let expMant ← OrAnd i32 N (BitCast u32 i32 f16ExpBits) (BitCast u32 i32 unmaskedMant) k3FF
  let hi ← ShiftRight ar i32 N 16 (BitCast u32 i32 roundedVal)
  let kSign ← Set i32 N (i32.wrap 0xFFFF8000)
  let f16BitsAsI32 ← OrAnd i32 N expMant hi kSign
  let h ← DemoteS i32 i16 N f16BitsAsI32
  return BitCast i16 u16 h

/-- `DemoteTo` `double` to `float16_t` (generic_ops-inl.h:3558-3577). -/
def DemoteF16OfF64 (ar : Bool) (N : Nat) (v : List Int) : M (List Int) := do
  let hiMask ← Set u64 N 0xFFFFFFFFE0000000
  let a ← And u64 N v hiMask
  let c ← Set u64 N 0x1FFFFFFF
  let s ← Add u64 N v c
  let bit ← Set u64 N 0x20000000
  let vf64Rounded ← OrAnd u64 N a s bit
  let f ← DemoteF64 N vf64Rounded
  DemoteF16 ar N f

/-- `PromoteTo` `float16_t` to `double` (generic_ops-inl.h:3590-3593). -/
def PromoteF16ToF64 (ar : Bool) (N : Nat) (v : List Int) : M (List Int) := do
  let f ← PromoteF16 ar N v
  PromoteF32 N f

/-- `detail::RoundF32ForDemoteToBF16` (generic_ops-inl.h:3613-3627). -/
def RoundF32ForDemoteToBF16 (ar : Bool) (N : Nat) (v : List Int) : M (List Int) := do
  let nan ← FIsNaN f32 N v
  let isNonNaN ← MaskNot u32 N nan
  let s ← ShiftRight ar u32 N 16 v
  let one ← Set u32 N 1
  let odd ← And u32 N s one
  let c ← Set u32 N 0x7FFF
  let roundIncr ← Add u32 N odd c
  let q ← Set u32 N 0x00400000
  let no ← Or u32 N v q
  MaskedAddOr u32 N no isNonNaN v roundIncr

/-- `DemoteTo` `float` to `bfloat16_t` (generic_ops-inl.h:3631-3644, little-endian): `2 N` 16-bit lanes, then the lower
half of them. -/
def GDemoteBF16 (ar : Bool) (N : Nat) (v : List Int) : M (List Int) := do
  let r ← RoundF32ForDemoteToBF16 ar N v
  let rounded := BitCast u32 u16 r
  let o ← ConcatOdd 0 (cap u16) N rounded rounded
  LowerHalf 0 (cap u16) N o

/-- `OrderedDemote2To` `float` to `bfloat16_t` (generic_ops-inl.h:3646-3662, little-endian). -/
def GOrderedDemote2BF16 (ar : Bool) (N : Nat) (a b : List Int) : M (List Int) := do
  let ra ← RoundF32ForDemoteToBF16 ar N a
  let rb ← RoundF32ForDemoteToBF16 ar N b
  ConcatOdd 0 (cap u16) N (BitCast u32 u16 rb) (BitCast u32 u16 ra)

/-- `ReorderDemote2To` `float` to `bfloat16_t` (generic_ops-inl.h:3664-3680, little-endian). -/
def GReorderDemote2BF16 (ar : Bool) (N : Nat) (a b : List Int) : M (List Int) := do
  let aInOdd ← RoundF32ForDemoteToBF16 ar N a
  let rb ← RoundF32ForDemoteToBF16 ar N b
  let bInEven ← ShiftRight ar u32 N 16 rb
  OddEven (2 * N) (BitCast u32 u16 aInOdd) (BitCast u32 u16 bInEven)

/-- `PromoteInRangeLowerTo`, `PromoteInRangeUpperTo` (generic_ops-inl.h:3739-3767): `float` to a 64-bit integer type `t`;
`N` is the number of 64-bit lanes. -/
def PromoteInRangeLowerTo (t : Ty) (N : Nat) (v : List Int) : M (List Int) := do
  let h ← LowerHalf 0 (cap u32) N v
  ConvertInRangeF2I f32 t N h
def PromoteInRangeUpperTo (t : Ty) (N : Nat) (v : List Int) : M (List Int) := do
  let h ← UpperHalf 0 (cap u32) N v
  ConvertInRangeF2I f32 t N h
/-- `PromoteInRangeEvenTo`, `PromoteInRangeOddTo` (generic_ops-inl.h:3769-3789). -/
def PromoteInRangeEvenTo (t : Ty) (N : Nat) (v : List Int) : M (List Int) := do
  let c ← ConcatEven 0 (cap u32) N v v
  let h ← LowerHalf 0 (cap u32) N c
  ConvertInRangeF2I f32 t N h
def PromoteInRangeOddTo (t : Ty) (N : Nat) (v : List Int) : M (List Int) := do
  let c ← ConcatOdd 0 (cap u32) N v v
  let h ← LowerHalf 0 (cap u32) N c
  ConvertInRangeF2I f32 t N h

/-- `MulEvenAdd`, `MulOddAdd` of `bfloat16_t` lanes (generic_ops-inl.h:5477-5487). -/
def MulEvenAddBF16 (N : Nat) (a b c : List Int) : M (List Int) := do
  let x ← PromoteEvenBF16 N a
  let y ← PromoteEvenBF16 N b
  FMulAdd f32 N x y c
def MulOddAddBF16 (N : Nat) (a b c : List Int) : M (List Int) := do
  let x ← PromoteOddBF16 N a
  let y ← PromoteOddBF16 N b
  FMulAdd f32 N x y c

/-- `ReorderWidenMulAccumulate` of `bfloat16_t` lanes (generic_ops-inl.h:5501-5511): result and new `sum1`. -/
def ReorderWidenMulAccBF16 (N : Nat) (a b sum0 sum1 : List Int) : M (List Int × List Int) := do
  let s1 ← MulOddAddBF16 N a b sum1
  let s0 ← MulEvenAddBF16 N a b sum0
  return (s0, s1)

end Emu
end Hwy
