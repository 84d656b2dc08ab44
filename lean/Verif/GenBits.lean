import Verif.EmuArith
import Verif.EmuMove
import Verif.EmuConv
import Verif.GenAES

/-!
# Model of the bit-counting and bit-reversing operations of `hwy/ops/generic_ops-inl.h`

Running on the reference target's operations.  `N` is the number of lanes.  Lanes of `float` vectors are
their bit patterns, so `BitCast` between `float` and `uint32_t` lanes is the identity.
-/

namespace Hwy
namespace Emu
open CInt Flt

/-! ### `PopulationCount` -/

/-- `PopulationCount` of bytes (generic_ops-inl.h:4502-4526): the first overload is for vectors of more than
eight bytes, which on this target have sixteen, the second for smaller ones. -/
def PopulationCount8 (N : Nat) (v : List Int) : M (List Int) :=
  if 8 < N then do
    let lookup : List Int := [0, 1, 1, 2, 1, 2, 2, 3, 1, 2, 2, 3, 2, 3, 3, 4]
    let lo ← And u8 16 v (← Set u8 16 0xF)
    let hi ← ShiftRight true u8 16 4 v
    Add u8 16 (← tlb lookup hi) (← tlb lookup lo)
  else do
    let k33 ← Set u8 N 0x33
    let v ← Sub u8 N v (← And u8 N (← ShiftRight true u8 N 1 v) (← Set u8 N 0x55))
    let v ← Add u8 N (← And u8 N (← ShiftRight true u8 N 2 v) k33) (← And u8 N v k33)
    And u8 N (← Add u8 N v (← ShiftRight true u8 N 4 v)) (← Set u8 N 0x0F)

/-- `PopulationCount` of `uint16_t` (generic_ops-inl.h:4528-4534). -/
def PopulationCount16 (N : Nat) (v : List Int) : M (List Int) := do
  let vals := BitCast u8 u16 (← PopulationCount8 (2 * N) (BitCast u16 u8 v))
  Add u16 N (← ShiftRight true u16 N 8 vals) (← And u16 N vals (← Set u16 N 0xFF))

/-- `PopulationCount` of `uint32_t` (generic_ops-inl.h:4536-4542). -/
def PopulationCount32 (N : Nat) (v : List Int) : M (List Int) := do
  let vals := BitCast u16 u32 (← PopulationCount16 (2 * N) (BitCast u32 u16 v))
  Add u32 N (← ShiftRight true u32 N 16 vals) (← And u32 N vals (← Set u32 N 0xFF))

/-- `PopulationCount` of `uint64_t` (generic_ops-inl.h:4545-4551). -/
def PopulationCount64 (N : Nat) (v : List Int) : M (List Int) := do
  let vals := BitCast u32 u64 (← PopulationCount32 (2 * N) (BitCast u64 u32 v))
  Add u64 N (← ShiftRight true u64 N 32 vals) (← And u64 N vals (← Set u64 N 0xFF))

/-- `PopulationCount` for unsigned lanes of any size. -/
def PopulationCount (t : Ty) (N : Nat) (v : List Int) : M (List Int) :=
  if t.bits = 8 then PopulationCount8 N v else if t.bits = 16 then PopulationCount16 N v
  else if t.bits = 32 then PopulationCount32 N v else PopulationCount64 N v

/-! ### Leading and trailing zeros, highest set bit -/

/-- `detail::UIntToF32BiasedExp` of `uint32_t` (generic_ops-inl.h:3888-3916, the `#else` branch) and
`detail::I32RangeU32ToF32BiasedExp` (generic_ops-inl.h:3918-3931, `d_src` unsigned). -/
def exp32 (N : Nat) (v : List Int) : M (List Int) := do
  let f32Bits ← ConvertI2F f32 N v
  ShiftRight true u32 N 23 f32Bits

/-- `detail::UIntToF32BiasedExp` of `uint16_t` (generic_ops-inl.h:3933-3963; `HWY_MAX_BYTES` is 16). -/
def exp16 (N : Nat) (v : List Int) : M (List Int) :=
  if N ≤ 4 then do
    TruncateTo u32 u16 N (← exp32 N (← PromoteInt u16 u32 N v))
  else do
    let lo ← PromoteInt u16 u32 (N / 2) (← LowerHalf 0 (cap u16) (N / 2) v)
    let hi ← PromoteInt u16 u32 (N / 2) (← UpperHalf 0 (cap u16) (N / 2) v)
    let lo ← exp32 (N / 2) lo
    let hi ← exp32 (N / 2) hi
    OrderedTruncate2To u32 u16 (N / 2) lo hi

/-- `detail::UIntToF32BiasedExp` of `uint8_t` (generic_ops-inl.h:3965-4041; `HWY_MAX_BYTES` is 16). -/
def exp8 (N : Nat) (v : List Int) : M (List Int) :=
  if N ≤ 4 then do
    U8FromU32 N (← exp32 N (← PromoteInt u8 u32 N v))
  else if N ≤ 8 then do
    let lo ← PromoteInt u8 u32 (N / 2) (← LowerHalf 0 (cap u8) (N / 2) v)
    let hi ← PromoteInt u8 u32 (N / 2) (← UpperHalf 0 (cap u8) (N / 2) v)
    let lo ← exp32 (N / 2) lo
    let hi ← exp32 (N / 2) hi
    let r ← OrderedTruncate2To u32 u16 (N / 2) lo hi
    TruncateTo u16 u8 N r
  else do
    let loHalf ← LowerHalf 0 (cap u8) (N / 2) v
    let hiHalf ← UpperHalf 0 (cap u8) (N / 2) v
    let q0 ← PromoteInt u8 u32 (N / 4) (← LowerHalf 0 (cap u8) (N / 4) loHalf)
    let q1 ← PromoteInt u8 u32 (N / 4) (← UpperHalf 0 (cap u8) (N / 4) loHalf)
    let q2 ← PromoteInt u8 u32 (N / 4) (← LowerHalf 0 (cap u8) (N / 4) hiHalf)
    let q3 ← PromoteInt u8 u32 (N / 4) (← UpperHalf 0 (cap u8) (N / 4) hiHalf)
    let q0 ← exp32 (N / 4) q0
    let q1 ← exp32 (N / 4) q1
    let q2 ← exp32 (N / 4) q2
    let q3 ← exp32 (N / 4) q3
    let lo ← OrderedTruncate2To u32 u16 (N / 4) q0 q1
    let hi ← OrderedTruncate2To u32 u16 (N / 4) q2 q3
    OrderedTruncate2To u16 u8 (N / 2) lo hi

/-- `detail::UIntToF32BiasedExp` of `uint64_t` (generic_ops-inl.h:4066-4086); `F32ExpLzcntMinMaxBitCast`
(generic_ops-inl.h:4043-4064) of `uint32_t` lanes is the identity. -/
def exp64 (N : Nat) (v : List Int) : M (List Int) := do
  let e ← exp32 (2 * N) (BitCast u64 u32 v)
  let adj ← IfThenZeroElse u32 (2 * N) (← Eq u32 (2 * N) e (zero u32))
    (BitCast u64 u32 (← Set u64 N 0x0000002000000000))
  let a ← Add u32 (2 * N) e adj
  let m ← Max u32 (2 * N) a (← Reverse2 0 (cap u32) (2 * N) a)
  ShiftRight true u64 N 32 (BitCast u32 u64 m)

/-- `detail::UIntToF32BiasedExp` (generic_ops-inl.h:4085-4089). -/
def UIntToF32BiasedExp (t : Ty) (N : Nat) (v : List Int) : M (List Int) :=
  if t.bits = 8 then exp8 N v else if t.bits = 16 then exp16 N v
  else if t.bits = 32 then exp32 N v else exp64 N v

/-- `detail::NormalizeForUIntTruncConvToF32` (generic_ops-inl.h:4094-4110). -/
def NormalizeForUIntTruncConvToF32 (t : Ty) (N : Nat) (v : List Int) : M (List Int) :=
  if t.bits = 8 ∨ t.bits = 16 then .ok v else do
    AndNot t N (← ShiftRight true t N 24 v) v

/-- Lane type of `F32ExpLzcntMinMaxRepartition` (generic_ops-inl.h:4047-4054): unsigned, at most 32 bits. -/
def minMaxTy (t : Ty) : Ty := if t.bits = 64 then u32 else t.unsigned

/-- Number of lanes of that type. -/
def minMaxN (t : Ty) (N : Nat) : Nat := if t.bits = 64 then 2 * N else N

/-- `HighestSetBitIndex` (generic_ops-inl.h:4110-4119). -/
def HighestSetBitIndex (t : Ty) (N : Nat) (v : List Int) : M (List Int) := do
  let du := t.unsigned
  let e ← UIntToF32BiasedExp du N (← NormalizeForUIntTruncConvToF32 du N (BitCast t du v))
  return BitCast du t (← Sub du N e (← Set du N 127))

/-- `LeadingZeroCount` (generic_ops-inl.h:4121-4135). -/
def LeadingZeroCount (t : Ty) (N : Nat) (v : List Int) : M (List Int) := do
  let du := t.unsigned
  let e ← UIntToF32BiasedExp du N (← NormalizeForUIntTruncConvToF32 du N (BitCast t du v))
  let lzCount ← Sub du N (← Set du N (t.bits + 126)) e
  let r ← Min (minMaxTy t) (minMaxN t N) (BitCast du (minMaxTy t) lzCount)
    (BitCast du (minMaxTy t) (← Set du N t.bits))
  return BitCast (minMaxTy t) t r

/-- `TrailingZeroCount` (generic_ops-inl.h:4137-4154). -/
def TrailingZeroCount (t : Ty) (N : Nat) (v : List Int) : M (List Int) := do
  let du := t.unsigned
  let di : Ty := ⟨t.bits, true⟩
  let vi := BitCast t di v
  let lowestBit := BitCast di du (← And di N vi (← Neg di N vi))
  let e ← UIntToF32BiasedExp du N lowestBit
  let tzCount ← Sub du N e (← Set du N 127)
  let r ← Min (minMaxTy t) (minMaxN t N) (BitCast du (minMaxTy t) tzCount)
    (BitCast du (minMaxTy t) (← Set du N t.bits))
  return BitCast (minMaxTy t) t r

/-- `MaskedLeadingZeroCount` (generic_ops-inl.h:4166-4169). -/
def MaskedLeadingZeroCount (t : Ty) (N : Nat) (m v : List Int) : M (List Int) := do
  IfThenElseZero t N m (← LeadingZeroCount t N v)

/-! ### Reversal -/

/-- `ReverseLaneBytes` (generic_ops-inl.h:6829-6848). -/
def ReverseLaneBytes (t : Ty) (N : Nat) (v : List Int) : M (List Int) := do
  let b := BitCast t u8 v
  let r ← (if t.bits = 16 then Reverse2 0 (cap u8) (2 * N) b
    else if t.bits = 32 then Reverse4 0 (cap u8) (4 * N) b
    else Reverse8 0 (cap u8) (8 * N) b)
  return BitCast u8 t r

/-- `detail::UI8ReverseBitsStep` (generic_ops-inl.h:6876-6896, `HWY_REVERSE_BITS_MIN_BYTES == 1`). -/
def UI8ReverseBitsStep (kShiftAmt kShrResultMask : Int) (t : Ty) (N : Nat) (v : List Int) : M (List Int) := do
  let vToShift := BitCast t t.unsigned v
  let shlResult := BitCast t.unsigned t (← ShiftLeft t.unsigned N kShiftAmt vToShift)
  let shrResult := BitCast t.unsigned t (← ShiftRight true t.unsigned N kShiftAmt vToShift)
  let shrResultMask := BitCast t.unsigned t (← Set t.unsigned N kShrResultMask)
  Or t N (← And t N shrResult shrResultMask) (← AndNot t N shrResultMask shlResult)

/-- `ReverseBits` of bytes (generic_ops-inl.h:6909-6915). -/
def ReverseBits8 (t : Ty) (N : Nat) (v : List Int) : M (List Int) := do
  let result ← UI8ReverseBitsStep 1 0x55 t N v
  let result ← UI8ReverseBitsStep 2 0x33 t N result
  UI8ReverseBitsStep 4 0x0F t N result

/-- `ReverseBits` (generic_ops-inl.h:6909-6915, 6926-6932). -/
def ReverseBits (t : Ty) (N : Nat) (v : List Int) : M (List Int) :=
  if t.bits = 8 then ReverseBits8 t N v else do
    let r ← ReverseBits8 u8 (t.bits / 8 * N) (BitCast t u8 v)
    ReverseLaneBytes t N (BitCast u8 t r)

end Emu
end Hwy
