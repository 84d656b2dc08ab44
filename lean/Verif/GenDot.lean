import Verif.GenArith

/-!
# Model of the widening multiply-accumulate fallbacks of `hwy/ops/generic_ops-inl.h`

Running on the reference target's operations.  `N` is the number of lanes of the (wide) result.
-/

namespace Hwy
namespace Emu
open CInt

/-- `SumsOf4` (generic_ops-inl.h:3839-3852): `N` lanes of four times the width. -/
def SumsOf4 (ar : Bool) (tF : Ty) (N : Nat) (v : List Int) : M (List Int) := do
  SumsOf2 ar tF.wide N (← SumsOf2 ar tF (2 * N) v)

/-- `WidenMulAccumulate` of integers (generic_ops-inl.h:5524-5530): result and new `high`. -/
def WidenMulAccumulate (tF : Ty) (N : Nat) (mul x low high : List Int) : M (List Int × List Int) := do
  let high ← MulAdd tF.wide N (← PromoteUpperTo tF tF.wide N mul) (← PromoteUpperTo tF tF.wide N x) high
  let low ← MulAdd tF.wide N (← PromoteLowerTo tF tF.wide N mul) (← PromoteLowerTo tF tF.wide N x) low
  return (low, high)

/-- `SatWidenMulPairwiseAdd` (generic_ops-inl.h:5568-5583). -/
def SatWidenMulPairwiseAdd (ar : Bool) (N : Nat) (a b : List Int) : M (List Int) := do
  let a0 := BitCast u16 i16 (← PromoteEvenTo ar u8 u16 N a)
  let b0 ← PromoteEvenTo ar i8 i16 N b
  let a1 := BitCast u16 i16 (← PromoteOddTo ar u8 u16 N a)
  let b1 ← PromoteOddTo ar i8 i16 N b
  SaturatedAdd i16 N (← Mul i16 N a0 b0) (← Mul i16 N a1 b1)

/-- `SatWidenMulPairwiseAccumulate` (generic_ops-inl.h:5598-5614). -/
def SatWidenMulPairwiseAccumulate (ar : Bool) (N : Nat) (a b sum : List Int) : M (List Int) := do
  let product ← WidenMulPairwiseAdd ar i16 N a b
  let mulOverflow := vecFromMask i32 (← Eq i32 N product (← Set i32 N (-2147483648)))
  SatAdd ar i32 N (← Sub i32 N sum (← And i32 N (← BroadcastSignBit ar i32 N sum) mulOverflow))
    (← Add i32 N product mulOverflow)

/-- `SatWidenMulAccumFixedPoint` (generic_ops-inl.h:5629-5643). `ResizeBitCast`
(emu128-inl.h:125-138) copies the bytes that both types have and zero-fills the rest; only its first `N` lanes are read
here, so it is left out; `InterleaveWholeLower` is `InterleaveLower` for vectors of one block (generic_ops-inl.h:477-480). -/
def SatWidenMulAccumFixedPoint (ar : Bool) (N : Nat) (a b sum : List Int) : M (List Int) := do
  let dupA ← InterleaveLower 0 8 (2 * N) a a
  let dupB ← InterleaveLower 0 8 (2 * N) b b
  SatWidenMulPairwiseAccumulate ar N dupA dupB sum

/-- `SumOfMulQuadAccumulate` of `i8 x i8` (generic_ops-inl.h:5678-5693). -/
def SumOfMulQuadI8 (ar : Bool) (N : Nat) (a b sum : List Int) : M (List Int) := do
  let a0 ← PromoteEvenTo ar i8 i16 (2 * N) a
  let b0 ← PromoteEvenTo ar i8 i16 (2 * N) b
  let a1 ← PromoteOddTo ar i8 i16 (2 * N) a
  let b1 ← PromoteOddTo ar i8 i16 (2 * N) b
  Add i32 N sum (← Add i32 N (← WidenMulPairwiseAdd ar i16 N a0 b0) (← WidenMulPairwiseAdd ar i16 N a1 b1))

/-- `SumOfMulQuadAccumulate` of `u8 x u8` (generic_ops-inl.h:5706-5723). -/
def SumOfMulQuadU8 (ar : Bool) (N : Nat) (a b sum : List Int) : M (List Int) := do
  let lo8 ← Set i16 (2 * N) 0x00FF
  let a0 ← And i16 (2 * N) (BitCast u8 i16 a) lo8
  let b0 ← And i16 (2 * N) (BitCast u8 i16 b) lo8
  let a1 := BitCast u16 i16 (← ShiftRight ar u16 (2 * N) 8 (BitCast u8 u16 a))
  let b1 := BitCast u16 i16 (← ShiftRight ar u16 (2 * N) 8 (BitCast u8 u16 b))
  Add u32 N sum (← Add u32 N (BitCast i32 u32 (← WidenMulPairwiseAdd ar i16 N a0 b0))
    (BitCast i32 u32 (← WidenMulPairwiseAdd ar i16 N a1 b1)))

/-- `SumOfMulQuadAccumulate` of `u8 x i8` (generic_ops-inl.h:5736-5757). -/
def SumOfMulQuadU8I8 (ar : Bool) (N : Nat) (a b sum : List Int) : M (List Int) := do
  let a0 ← And i16 (2 * N) (BitCast u8 i16 a) (← Set i16 (2 * N) 0x00FF)
  let b0 ← ShiftRight ar i16 (2 * N) 8 (← ShiftLeft i16 (2 * N) 8 (BitCast i8 i16 b))
  let a1 := BitCast u16 i16 (← ShiftRight ar u16 (2 * N) 8 (BitCast u8 u16 a))
  let b1 ← ShiftRight ar i16 (2 * N) 8 (BitCast i8 i16 b)
  Add i32 N sum (← Add i32 N (← WidenMulPairwiseAdd ar i16 N a0 b0) (← WidenMulPairwiseAdd ar i16 N a1 b1))

/-- `SumOfMulQuadAccumulate` of `i16 x i16` (generic_ops-inl.h:5771-5801). -/
def SumOfMulQuadI16 (ar : Bool) (N : Nat) (a b sum : List Int) : M (List Int) := do
  let s ← WidenMulPairwiseAdd ar i16 (2 * N) a b
  let o := vecFromMask i32 (← Eq i32 (2 * N) s (← Set i32 (2 * N) (-2147483648)))
  let hi32 ← Set i64 N (-4294967296)
  let p0z ← ShiftLeft i64 N 32 (BitCast i32 i64 o)
  let p1z ← And i64 N (BitCast i32 i64 o) hi32
  let p0 ← AndNot i64 N p0z (← ShiftRight ar i64 N 32 (← ShiftLeft i64 N 32 (BitCast i32 i64 s)))
  let p1 ← AndNot i64 N p1z (← ShiftRight ar i64 N 32 (BitCast i32 i64 s))
  Add i64 N sum (← Add i64 N p0 p1)

/-- `SumOfMulQuadAccumulate` of `u16 x u16` (generic_ops-inl.h:5815-5828). -/
def SumOfMulQuadU16 (ar : Bool) (N : Nat) (a b sum : List Int) : M (List Int) := do
  let e ← MulEven u16 (4 * N) a b
  let o ← MulOdd u16 (4 * N) a b
  let p0 ← Add u64 N (← PromoteEvenTo ar u32 u64 N e) (← PromoteEvenTo ar u32 u64 N o)
  let p1 ← Add u64 N (← PromoteOddTo ar u32 u64 N e) (← PromoteOddTo ar u32 u64 N o)
  Add u64 N sum (← Add u64 N p0 p1)

end Emu
end Hwy
