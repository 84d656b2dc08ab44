import Verif.Basic

/-!
# Model of the scalar float16 / bfloat16 conversions of `hwy/base.h`

A binary floating-point format has `p` mantissa and `e` exponent bits. The *code* of a value is its bit
pattern without the sign; the sign is the next higher bit. Real values are naturals counted in units of the
smallest positive subnormal of the format: `2^-24` for float16, `2^-133` for bfloat16, `2^-149` for
binary32, `2^-1074` for binary64.
-/

namespace Hwy
namespace Flt

structure Fmt where
  p : Nat
  e : Nat

def f16 : Fmt := ⟨10, 5⟩
def bf16 : Fmt := ⟨7, 8⟩
def f32 : Fmt := ⟨23, 8⟩
def f64 : Fmt := ⟨52, 11⟩

/-- Code of infinity; larger codes are NaN, smaller ones finite. -/
def Fmt.inf (F : Fmt) : Nat := (2 ^ F.e - 1) * 2 ^ F.p

/-- IEEE 754 value of a finite code in units of the smallest subnormal. The code of infinity has the value
the next binade would start with (used for rounding only). -/
def Fmt.val (F : Fmt) (c : Nat) : Nat :=
  if c / 2 ^ F.p = 0 then c % 2 ^ F.p else (2 ^ F.p + c % 2 ^ F.p) * 2 ^ (c / 2 ^ F.p - 1)

/-! ### Hardware operations the code relies on

The code uses `float` multiplication and `double` to `float` conversion, IEEE operations that round to nearest
even. `rneEncode` is that rounding. -/

/-- `x / 2^t` rounded to nearest even. -/
def rne (x t : Nat) : Nat := if t = 0 then x else (x + x / 2 ^ t % 2 + 2 ^ (t - 1) - 1) / 2 ^ t

/-- Code of `v * 2^-s` units rounded to nearest even; overflow gives infinity. -/
def rneEncode (F : Fmt) (s v : Nat) : Nat :=
  let t := max s (Nat.log2 v - F.p)
  min ((t - s) * 2 ^ F.p + rne v t) F.inf

/-- `float` product of finite non-negative values. -/
def f32Mul (a b : Nat) : Nat := rneEncode f32 149 (f32.val a * f32.val b)

/-- `static_cast<float>` of an unsigned integer. -/
def f32OfNat (n : Nat) : Nat := rneEncode f32 0 (n * 2 ^ 149)

/-- `static_cast<float>(double)`: sign kept, NaN stays NaN (made quiet), else rounded to nearest even. -/
def f32OfF64 (bits64 : Nat) : Nat :=
  let sign := bits64 / 2 ^ 63
  let mag := bits64 % 2 ^ 63
  sign * 2 ^ 31 +
    (if mag > f64.inf then f32.inf ||| 0x400000 ||| (mag % 2 ^ 52) / 2 ^ 29
     else if mag = f64.inf then f32.inf
     else rneEncode f32 925 (f64.val mag))

/-! ### base.h -/

/-- Bits of the float constants `1.0f / 1024` and `1.0f / 16384`. -/
def kInv1024 : Nat := 117 <<< 23
def kInv16384 : Nat := 113 <<< 23

/-- `F32FromF16` (base.h:1442-1469), without `HWY_HAVE_SCALAR_F16_OPERATORS`; on bit patterns. -/
def f32FromF16 (bits16 : Nat) : Nat :=
  let sign := bits16 >>> 15
  let biasedExp := (bits16 >>> 10) &&& 0x1F
  let mantissa := bits16 &&& 0x3FF
  if biasedExp = 0 then
    let subnormal := f32Mul kInv16384 (f32Mul (f32OfNat mantissa) kInv1024)
    -- negation sets the sign bit
    if sign ≠ 0 then subnormal ||| 2 ^ 31 else subnormal
  else
    let biasedExp32 := if biasedExp = 31 then 0xFF else biasedExp + (127 - 15)
    let mantissa32 := mantissa <<< (23 - 10)
    (sign <<< 31) ||| (biasedExp32 <<< 23) ||| mantissa32

/-- `F16FromF32` (base.h:1512-1593), without `HWY_HAVE_SCALAR_F16_OPERATORS`; on bit patterns. `exp` is a
signed 32-bit integer in the source, `Int` here; the debug-only assertions are theorems below. -/
def f16FromF32 (bits32 : Nat) : Nat :=
  let sign := bits32 >>> 31
  let biasedExp32 := (bits32 >>> 23) &&& 0xFF
  let mantissa32 := bits32 &&& 0x7FFFFF
  let ulpIdx : Nat := (min (max (126 - (biasedExp32 : Int)) 13) 24).toNat
  let oddBit := ((mantissa32 ||| 0x800000) >>> ulpIdx) &&& 1
  let rounded := mantissa32 + oddBit + (1 <<< (ulpIdx - 1)) - 1
  let carry := decide (rounded ≥ 1 <<< 23)
  let exp : Int := (biasedExp32 : Int) - 127 + (if carry then 1 else 0)
  if exp < -24 then (sign <<< 15) % 2 ^ 16
  else
    let isNan := biasedExp32 == 255 && mantissa32 != 0
    let overflowed := decide (exp ≥ 16)
    let biasedExp16 : Nat := (min (max 0 (exp + 15)) 31).toNat
    let subExp : Nat := (max (-14 - exp) 0).toNat
    let shiftedMantissa := (rounded &&& 0x7FFFFF) >>> (23 - 10 + subExp)
    let leading := if subExp = 0 then 0 else 1024 >>> subExp
    let mantissa16 := if isNan then 0x3FF else if overflowed then 0 else leading + shiftedMantissa
    ((sign <<< 15) ||| (biasedExp16 <<< 10) ||| mantissa16) % 2 ^ 16

/-- `F32FromBF16` (base.h:1932-1939). -/
def f32FromBF16 (bits16 : Nat) : Nat := bits16 <<< 16

/-- `F32BitsToBF16RoundIncr` (base.h:1945-1950). -/
def bf16RoundIncr (b : Nat) : Nat :=
  if (b &&& 0x7FFFFFFF) < 0x7F800000 then 0x7FFF + ((b >>> 16) &&& 1) else 0

/-- `F32BitsToBF16Bits`, `BF16FromF32` (base.h:1954-1976); 32-bit wrapping addition, 16-bit result. -/
def bf16FromF32 (b : Nat) : Nat :=
  ((((b + bf16RoundIncr b) % 2 ^ 32) >>> 16) ||| ((if (b &&& 0x7FFFFFFF) > 0x7F800000 then 1 else 0) <<< 6)) % 2 ^ 16

/-- Round-to-odd step of `F16FromF64` (base.h:1628-1632); 64-bit wrapping addition. -/
def roundOdd29 (b : Nat) : Nat :=
  (b &&& 0xFFFFFFFFE0000000) ||| ((b + 0x1FFFFFFF) % 2 ^ 64 &&& 0x20000000)

/-- `F16FromF64` (base.h:1595-1634). -/
def f16FromF64 (b : Nat) : Nat := f16FromF32 (f32OfF64 (roundOdd29 b))

/-- Round-to-odd step of `BF16FromF64` (base.h:2009-2013). -/
def roundOdd38 (b : Nat) : Nat :=
  (b &&& 0xFFFFFFC000000000) ||| ((b + 0x3FFFFFFFFF) % 2 ^ 64 &&& 0x4000000000)

/-- `BF16FromF64` (base.h:1978-2014). -/
def bf16FromF64 (b : Nat) : Nat := bf16FromF32 (f32OfF64 (roundOdd38 b))

end Flt
end Hwy
