import Verif.GenFloatSpec3
import Verif.EmuArithExamples

/-!
# Concrete cases for C57
-/

namespace Hwy
namespace Emu
open CInt Flt

/-- 1.5, the smallest subnormal, infinity, -3. -/
def exFl : List Int := [0x3FC00000, 0x1, 0x7F800000, 0xC0400000]
/-- NaN, -0, the largest finite number, 2^-126. -/
def exFm : List Int := [0x7FC00000, 0x80000000, 0x7F7FFFFF, 0x00800000]

example : Reg f32.ut exFl ∧ Reg f32.ut exFm ∧ 4 ≤ cap f32.ut := by decide +kernel

/-- Classification: NaN in either operand; infinite; finite. -/
example : IsEitherNaN f32 4 exFl exFm = .ok [4294967295, 0, 0, 0] ∧ IsInf f32 4 exFl = .ok [0, 0, 4294967295, 0] ∧
    IsFinite true f32 4 exFm = .ok [0, 4294967295, 4294967295, 4294967295] := by decide +kernel

/-- 1.5 * 2^-150 ties away from zero to the smallest subnormal's multiple, the smallest subnormal times 2^149 is 1, infinity
stays, -3 * 2^127 overflows. -/
example : MulByPow2 true f32 4 exFl [-150, 149, -2147483648, 127] = .ok [0x1, 0x3F800000, 0x7F800000, 0xFF800000] := by
  decide +kernel

/-- Rounding once: 0x00FFFFFF (just below 2^-125) times 2^-24 is just below one unit and rounds up to it; the largest finite
number by 2^-278 is half-way below 2^-150 and vanishes; extreme exponents clamp. -/
example : MulByPow2 true f32 4 [0x00FFFFFF, 0x7F7FFFFF, 0x7F7FFFFF, 0x80000001] [-24, -278, -2147483648, 2147483647] =
    .ok [0x1, 0x0, 0x0, 0xFF800000] := by decide +kernel

/-- `MulByFloorPow2`: exponent 1.5 acts as 1; zero times 2^inf and infinity times 2^-inf are NaN; -3 times 2^-inf is -0. -/
example : MulByFloorPow2 true f32 4 [0x3FC00000, 0, 0x7F800000, 0xC0400000] [0x3FC00000, 0x7F800000, 0xFF800000, 0xFF800000] =
    .ok [0x40400000, 0x7FFFFFFF, 0x7FFFFFFF, 0x80000000] := by decide +kernel

/-- Exponents: 1.5 has 0, the subnormal -127, infinity 128, -3 has 1. -/
example : GetExponent true f32 4 exFl = .ok [0, 0xC2FE0000, 0x43000000, 0x3F800000] ∧
    GetBiasedExponent true f32 4 exFl = .ok [127, 0, 255, 128] := by decide +kernel

/-- Integer parts. -/
example : CeilInt f32 4 exFl = .ok [2, 1, 2147483647, -3] ∧ FloorInt f32 4 exFl = .ok [1, 0, 2147483647, -3] := by
  decide +kernel

/-- Magnitudes: equal magnitudes pick the smaller (larger) number. -/
example : FMinMagnitude f32 4 [0x40400000, 0x3F800000, 0x40400000, 0] [0xC0400000, 0xC0400000, 0x3F800000, 0x7F800000] =
      .ok [0xC0400000, 0x3F800000, 0x3F800000, 0] ∧
    FMaxMagnitude f32 4 [0x40400000, 0x3F800000, 0x40400000, 0] [0xC0400000, 0xC0400000, 0x3F800000, 0x7F800000] =
      .ok [0x40400000, 0xC0400000, 0x40400000, 0x7F800000] := by decide +kernel

/-- Alternating sums: 1.5 minus and plus 0.5. -/
example : FAddSub f32 2 [0x3FC00000, 0x3FC00000, 0, 0] [0x3F000000, 0x3F000000, 0, 0] = .ok [0x3F800000, 0x40000000, 0, 0] ∧
    FMulAddSub f32 2 [0x3FC00000, 0x3FC00000, 0, 0] [0x3F800000, 0x3F800000, 0, 0] [0x3F000000, 0x3F000000, 0, 0] =
      .ok [0x3F800000, 0x40000000, 0, 0] ∧
    FMulSubAdd f32 2 [0x3FC00000, 0x3FC00000, 0, 0] [0x3F800000, 0x3F800000, 0, 0] [0x3F000000, 0x3F000000, 0, 0] =
      .ok [0x40000000, 0x3F800000, 0, 0] ∧
    FIfNegativeThenNegOrUndefIfZero f32 2 [0x80000000, 0, 0, 0] [0x3FC00000, 0x3FC00000, 0, 0] =
      .ok [0xBFC00000, 0x3FC00000, 0, 0] := by decide +kernel

end Emu
end Hwy
