import Verif.GenDotSpec2
import Verif.EmuArithExamples

/-!
# The hypotheses of the C55 theorems are met, and the fallbacks do compute
-/

namespace Hwy
namespace Emu
open CInt

/-- Eight `int16_t` lanes, with two pairs of the minimum. -/
def ex16 : List Int := [-32768, -32768, 3, -4, -32768, -32768, -32768, -32768]
theorem ex16R : Reg i16 ex16 := by decide +kernel
/-- Sixteen `int8_t` lanes. -/
def exI8 : List Int := [-128, -128, -128, -128, 127, 127, -1, 2, 3, 4, 5, 6, 7, 8, 9, -10]
theorem exI8R : Reg i8 exI8 := by decide +kernel
/-- Sixteen `uint8_t` lanes. -/
def exU8 : List Int := [255, 255, 255, 255, 255, 255, 0, 1, 2, 3, 128, 127, 7, 200, 9, 10]
theorem exU8R : Reg u8 exU8 := by decide +kernel
theorem exS64 : Reg i64 [9223372036854775807, -1] := by decide +kernel

example := C55_sums_of_4 (Or.inl rfl) (N := 3) (by decide) true exU8R
example := C55_sums_of_4 (Or.inr (Or.inl rfl)) (N := 4) (by decide) false exI8R
example := C55_widen_mul_accumulate (tF := i16) (by decide) (N := 4) (by decide) ex16R ex16R exR exS
example := C55_sat_widen_mul_pairwise_add (N := 8) (by decide) true exU8R exI8R
example := C55_sat_widen_mul_pairwise_accumulate (N := 4) (by decide) true ex16R ex16R exR
example := C55_sat_widen_mul_accum_fixed_point (N := 3) (by decide) true ex16R ex16R exR
example := C55_sum_of_mul_quad_i8 (N := 4) (by decide) true exI8R exI8R exR
example := C55_sum_of_mul_quad_u8_i8 (N := 4) (by decide) true exU8R exI8R exR
example := C55_sum_of_mul_quad_u8 (N := 4) (by decide) true exU8R exU8R (sum := [4294967295, 0, 0, 1]) (by decide +kernel)
example := C55_sum_of_mul_quad_i16 (N := 2) (by decide) true ex16R ex16R exS64
example := C55_sum_of_mul_quad_u16 (N := 2) (by decide) true (a := [65535, 65535, 65535, 65535, 1, 2, 3, 4])
  (b := [65535, 65535, 65535, 65535, 1, 2, 3, 4]) (by decide +kernel) (by decide +kernel) (sum := [0, 7]) (by decide +kernel)

/-! Evaluations. -/

example : SumsOf4 true i8 4 exI8 = .ok [-512, 255, 18, 14] := by decide +kernel
example : SatWidenMulPairwiseAdd true 8 exU8 exI8 = .ok [-32768, -32768, 32767, 2, 18, 1402, 1649, -19] := by decide +kernel
example : SatWidenMulPairwiseAccumulate true 4 ex16 ex16 [-1, 0, 1, -2147483648] = .ok [2147483647, 25, 2147483647, 0] := by
  decide +kernel
example : SatWidenMulAccumFixedPoint true 4 ex16 ex16 [-1, 0, 1, -2147483648] =
    .ok [2147483647, 2147483647, 19, -2147483616] := by decide +kernel
example : SumOfMulQuadI8 true 4 exI8 exI8 [0, 0, 0, 2147483647] = .ok [65536, 32263, 86, -2147483355] := by decide +kernel
example : SumOfMulQuadI16 true 2 ex16 ex16 [0, 5] = .ok [2147483673, 4294967301] := by decide +kernel
example : SumOfMulQuadU16 true 2 [65535, 65535, 65535, 65535, 1, 2, 3, 4] [65535, 65535, 65535, 65535, 1, 2, 3, 4] [0, 7] =
    .ok [17179344900, 37] := by decide +kernel

end Emu
end Hwy
