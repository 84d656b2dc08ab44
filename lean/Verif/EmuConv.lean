import Verif.EmuFloat
import Verif.EmuMove

/-!
# Model of the conversions of `hwy/ops/emu128-inl.h`

Registers as in `EmuArith.lean`/`EmuFloat.lean`; float, `bfloat16_t` and `float16_t` lanes are bit patterns in
registers of the unsigned type of the same size.  `ret` starts zeroed (`raw[...] = {}`, emu128-inl.h:75).
-/

namespace Hwy
namespace Flt

/-- `static_cast<double>(float)`: exact; NaN stays NaN (made quiet). -/
def f64OfF32 (a : Nat) : Nat :=
  f64.pack (f32.neg a)
    (if f32.nan a then f64.inf ||| 2 ^ 51 ||| (f32.mag a % 2 ^ 23) <<< 29
     else if f32.mag a = f32.inf then f64.inf
     else rneEncode f64 0 (f32.val (f32.mag a) * 2 ^ 925))

/-- `kMinOutOfRangeExpField` (emu128-inl.h:1770-1775). -/
def f2iMin (F : Fmt) (t : CInt.Ty) : Nat :=
  min (maxExponentField F >>> 1 + t.bits - (if t.sgn then 1 else 0)) (maxExponentField F)

/-- `val_to_compare` as an integer, shifted (emu128-inl.h:1783-1784, 1796-1797). -/
def f2iField (F : Fmt) (t : CInt.Ty) (x : Nat) : Nat := (if t.sgn then scalarAbs F x else x) >>> F.p

/-- `CastValueForF2IConv` (emu128-inl.h:1763-1800). -/
def castF2I (F : Fmt) (t : CInt.Ty) (x : Nat) : M Int :=
  if f2iField F t x < f2iMin F t then toInt F t x
  else do
    let s ← CInt.add (CInt.cast t.unsigned ⟨t, t.hi⟩) ⟨t.unsigned, if scalarSignBit F x then 1 else 0⟩
    .ok (CInt.cast t s).v

/-- `CastValueForInRangeF2IConv` (emu128-inl.h:1823-1858). -/
def castInRangeF2I (F : Fmt) (t : CInt.Ty) (x : Nat) : M Int :=
  if f2iField F t x < f2iMin F t then toInt F t x else .ok t.lo

/-- `ScalarIsInf` (base.h:3129-3135) with `MaxExponentTimes2` (base.h:2428-2431). -/
def scalarIsInf (F : Fmt) (x : Nat) : Bool := x <<< 1 % 2 ^ (F.w + 1) == 2 ^ (F.w + 1) - 1 <<< (F.p + 1)

/-- `HighestValue<float>()`, `LowestValue<float>()` (base.h:2337-2375): `FLT_MAX` and its negative. -/
def f32Highest : Nat := 0x7F7FFFFF
def f32Lowest : Nat := 0xFF7FFFFF

/-- `DemoteTo` from `double` to `float`, one lane (emu128-inl.h:1895-1902). -/
def demoteF64 (x : Nat) : Nat :=
  if scalarIsInf f64 x || flt f64 (f64OfF32 f32Highest) (scalarAbs f64 x) then
    (if scalarSignBit f64 x then f32Lowest else f32Highest)
  else f32OfF64 x

end Flt

namespace Emu
open CInt Flt

/-- Loop `ret.raw[i] = f(from.raw[i])` for `i < N` into a fresh register of type `t`. -/
def conv (t : Ty) (N : Nat) (f : Int → M Int) (v : List Int) : M (List Int) :=
  forN N (fun i ret => do
    let x ← readAt v i
    writeAt ret i (← f x)) (zero t)

/-- Two loops filling `ret.raw[i]` from `a` and `ret.raw[NW + i]` from `b`. -/
def conv2 (t : Ty) (NW : Nat) (f : Int → M Int) (a b : List Int) : M (List Int) := do
  let ret ← conv t NW f a
  forN NW (fun i ret => do
    let x ← readAt b i
    writeAt ret (NW + i) (← f x)) ret

/-! ### Integer to integer -/

/-- `PromoteTo` (emu128-inl.h:1862-1872), integer to wider integer: `static_cast`. -/
def PromoteInt (tF tT : Ty) (N : Nat) (v : List Int) : M (List Int) :=
  conv tT N (fun x => .ok (CInt.cast tT ⟨tF, x⟩).v) v

/-- Saturation in `DemoteTo` from a signed type (emu128-inl.h:1925-1927). -/
def demoteSLane (tF tT : Ty) (x : Int) : M Int :=
  let m := cmin (cmax ⟨tT, tT.lo⟩ ⟨tF, x⟩) ⟨tT, tT.hi⟩
  .ok (CInt.cast tT (CInt.cast tF m)).v

/-- `DemoteTo` from a signed type (emu128-inl.h:1916-1930). -/
def DemoteS (tF tT : Ty) (N : Nat) (v : List Int) : M (List Int) := conv tT N (demoteSLane tF tT) v

/-- `DemoteTo` from an unsigned type (emu128-inl.h:1946-1960). -/
def demoteULane (tF tT : Ty) (x : Int) : M Int :=
  let max := CInt.cast tT.unsigned ⟨tT, tT.hi⟩
  .ok (CInt.cast tT (cmin ⟨tF, x⟩ max)).v
def DemoteU (tF tT : Ty) (N : Nat) (v : List Int) : M (List Int) := conv tT N (demoteULane tF tT) v

/-- `ReorderDemote2To` = `OrderedDemote2To` from a signed type (emu128-inl.h:1986-2003, 2024-2030). -/
def OrderedDemote2S (tF tT : Ty) (NW : Nat) (a b : List Int) : M (List Int) :=
  conv2 tT NW (fun x => .ok (CInt.cast tT (cmin (cmax ⟨tT, tT.lo⟩ ⟨tF, x⟩) ⟨tT, tT.hi⟩)).v) a b

/-- The same from an unsigned type (emu128-inl.h:2005-2022). -/
def OrderedDemote2U (tF tT : Ty) (NW : Nat) (a b : List Int) : M (List Int) :=
  conv2 tT NW (demoteULane tF tT) a b

/-- `TruncateTo` (emu128-inl.h:2164-2216); the mask literal is an `int` for 8 and 16 bits, `unsigned` for 32. -/
def TruncateTo (tF tT : Ty) (N : Nat) (v : List Int) : M (List Int) :=
  conv tT N (fun x => .ok (CInt.cast tT (band ⟨tF, x⟩ ⟨tT.promote, tT.hi⟩)).v) v

/-- `OrderedTruncate2To` (emu128-inl.h:2224-2242); the mask has the wide type. -/
def OrderedTruncate2To (tF tT : Ty) (NW : Nat) (a b : List Int) : M (List Int) :=
  conv2 tT NW (fun x => .ok (CInt.cast tT (band ⟨tF, x⟩ ⟨tF, tT.hi⟩)).v) a b

/-- `U8FromU32` (emu128-inl.h:2156-2159). -/
def U8FromU32 (N : Nat) (v : List Int) : M (List Int) := DemoteU u32 u8 N v

/-! ### Float and integer -/

/-- `ConvertTo` float to integer, `PromoteTo` float to 64-bit integer, `DemoteTo` double to 32-bit integer
(emu128-inl.h:2105-2118, 1862-1872, 1906-1914). -/
def ConvertF2I (F : Fmt) (t : Ty) (N : Nat) (v : List Int) : M (List Int) :=
  conv t N (fun x => castF2I F t x.toNat) v

/-- `ConvertInRangeTo`, `PromoteInRangeTo`, `DemoteInRangeTo` (emu128-inl.h:2147-2154, 1880-1887, 2093-2100). -/
def ConvertInRangeF2I (F : Fmt) (t : Ty) (N : Nat) (v : List Int) : M (List Int) :=
  conv t N (fun x => castInRangeF2I F t x.toNat) v

/-- `ConvertTo` integer to float, `PromoteTo` 32-bit integer to double, `DemoteTo` 64-bit integer to float
(emu128-inl.h:2120-2132, 1862-1872, 1962-1975). -/
def ConvertI2F (F : Fmt) (N : Nat) (v : List Int) : M (List Int) :=
  conv F.ut N (fun x => .ok (ofInt F x : Nat)) v

/-- `PromoteTo` float to double (emu128-inl.h:1862-1872). -/
def PromoteF32 (N : Nat) (v : List Int) : M (List Int) :=
  conv f64.ut N (fun x => .ok (f64OfF32 x.toNat : Nat)) v

/-- `DemoteTo` double to float (emu128-inl.h:1891-1905). -/
def DemoteF64 (N : Nat) (v : List Int) : M (List Int) :=
  conv f32.ut N (fun x => .ok (demoteF64 x.toNat : Nat)) v

/-! ### bfloat16_t and float16_t -/

/-- `PromoteTo` bfloat16 to float (emu128-inl.h:2062-2069). -/
def PromoteBF16 (N : Nat) (v : List Int) : M (List Int) :=
  conv f32.ut N (fun x => .ok (f32FromBF16 x.toNat : Nat)) v
/-- `DemoteTo` float to bfloat16 (emu128-inl.h:2077-2084). -/
def DemoteBF16 (N : Nat) (v : List Int) : M (List Int) :=
  conv u16 N (fun x => .ok (bf16FromF32 x.toNat : Nat)) v
/-- `OrderedDemote2To` float to bfloat16 or float16 (emu128-inl.h:2032-2046). -/
def OrderedDemote2BF16 (NW : Nat) (a b : List Int) : M (List Int) :=
  conv2 u16 NW (fun x => .ok (bf16FromF32 x.toNat : Nat)) a b
def OrderedDemote2F16 (NW : Nat) (a b : List Int) : M (List Int) :=
  conv2 u16 NW (fun x => .ok (f16FromF32 x.toNat : Nat)) a b

/-! ### BitCast between lane sizes, and users -/

/-- The bytes of a register of `t` read as one little-endian number. -/
def total (t : Ty) (v : List Int) : Int := v.foldr (fun x acc => x % 2 ^ t.bits + 2 ^ t.bits * acc) 0

/-- `BitCast` (emu128-inl.h:115-121) on a little-endian machine: the same bytes as lanes of type `tT`. -/
def BitCast (tF tT : Ty) (v : List Int) : List Int :=
  (List.range (cap tT)).map (fun j => tT.wrap (total tF v / 2 ^ (tT.bits * j)))

/-- `ReorderDemote2To` float to bfloat16 (emu128-inl.h:1977-1984). -/
def ReorderDemote2BF16 (NW : Nat) (a b : List Int) : M (List Int) := do
  let bInLower ← ShiftRight true u32 NW 16 b
  let aMask ← Set u32 NW 0xFFFF0000
  let r ← IfVecThenElse u32 NW aMask a bInLower
  return BitCast u32 u16 r

/-- `PromoteEvenTo`, integer to integer twice as wide (inside-inl.h:449-501, 543-551; little-endian): signed by
two shifts, unsigned (to either) by masking. `N` is the number of wide lanes. -/
def PromoteEvenTo (ar : Bool) (tF tT : Ty) (N : Nat) (v : List Int) : M (List Int) :=
  if tF.sgn then do
    let e ← ShiftLeft tT N (tF.bits : Int) (BitCast tF tT v)
    ShiftRight ar tT N (tF.bits : Int) e
  else do
    let r ← And tT.unsigned N (BitCast tF tT.unsigned v) (← Set tT.unsigned N (CInt.cast tT.unsigned ⟨tF, tF.hi⟩).v)
    return BitCast tT.unsigned tT r

/-- `PromoteOddTo` (inside-inl.h:503-541, 553-561; little-endian). -/
def PromoteOddTo (ar : Bool) (tF tT : Ty) (N : Nat) (v : List Int) : M (List Int) :=
  if tF.sgn then ShiftRight ar tT N (tF.bits : Int) (BitCast tF tT v)
  else do
    let r ← ShiftRight ar tT.unsigned N (tF.bits : Int) (BitCast tF tT.unsigned v)
    return BitCast tT.unsigned tT r

/-- `PromoteEvenTo`, `PromoteOddTo` bfloat16 to float (inside-inl.h:571-626; little-endian). -/
def PromoteEvenBF16 (N : Nat) (v : List Int) : M (List Int) := ShiftLeft u32 N 16 (BitCast u16 u32 v)
def PromoteOddBF16 (N : Nat) (v : List Int) : M (List Int) := do
  And u32 N (BitCast u16 u32 v) (← Set u32 N 0xFFFF0000)

/-- `MulAdd` for integers (generic_ops-inl.h:4659-4662). -/
def MulAdd (t : Ty) (N : Nat) (mul x add : List Int) : M (List Int) := do
  Add t N (← Mul t N mul x) add

/-- `WidenMulPairwiseAdd` for integers (emu128-inl.h:2891-2895). -/
def WidenMulPairwiseAdd (ar : Bool) (tF : Ty) (N : Nat) (a b : List Int) : M (List Int) := do
  let p ← Mul tF.wide N (← PromoteOddTo ar tF tF.wide N a) (← PromoteOddTo ar tF tF.wide N b)
  MulAdd tF.wide N (← PromoteEvenTo ar tF tF.wide N a) (← PromoteEvenTo ar tF tF.wide N b) p

/-- `ReorderWidenMulAccumulate` for integers (emu128-inl.h:2899-2905): result and new `sum1`. -/
def ReorderWidenMulAccumulate (ar : Bool) (tF : Ty) (N : Nat) (a b sum0 sum1 : List Int) :
    M (List Int × List Int) := do
  let s1 ← MulAdd tF.wide N (← PromoteOddTo ar tF tF.wide N a) (← PromoteOddTo ar tF tF.wide N b) sum1
  let s0 ← MulAdd tF.wide N (← PromoteEvenTo ar tF tF.wide N a) (← PromoteEvenTo ar tF tF.wide N b) sum0
  return (s0, s1)

/-- `RearrangeToOddPlusEven` (emu128-inl.h:2908-2911). -/
def RearrangeToOddPlusEven (t : Ty) (N : Nat) (sum0 sum1 : List Int) : M (List Int) := Add t N sum0 sum1

/-- `SumsOf2` (generic_ops-inl.h:3814-3836). -/
def SumsOf2 (ar : Bool) (tF : Ty) (N : Nat) (v : List Int) : M (List Int) := do
  Add tF.wide N (← PromoteEvenTo ar tF tF.wide N v) (← PromoteOddTo ar tF tF.wide N v)

end Emu
end Hwy
