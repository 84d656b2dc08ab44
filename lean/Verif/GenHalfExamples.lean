import Verif.GenHalfSpec4
import Verif.EmuArithExamples

/-!
# Concrete cases for C60
-/

namespace Hwy
namespace Emu
open CInt Flt

/-- `float16_t` bits: 1.5, the largest subnormal, the smallest subnormal negated, the largest finite value, infinity, NaN,
`-0`, `0.333`. -/
def exH : List Int := [0x3E00, 0x03FF, 0x8001, 0x7BFF, 0x7C00, 0x7E00, 0x8000, 0x3555]
theorem exHR : Reg u16 exH := by decide +kernel
/-- `float` bits: 65520 (rounds to infinity), 65519.996, `-2^-25` (tie to zero), `1 + 2^-11` (tie to even). -/
def exF : List Int := [0x477FF000, 0x477FEFFF, 0xB3000000, 0x3F801000]
theorem exFR : Reg u32 exF := by decide +kernel
/-- `double` bits: `1 + 2^-11 + 2^-52` (above the tie), `-1e300`. -/
def exD : List Int := [0x3FF0020000000001, 0xFE37E43C8800759C]
theorem exDR : Reg u64 exD := by decide +kernel

example := C60_promote_f16 true (N := 4) (by decide) exHR
example := C60_finding_promote_f16_inf true (N := 4) (by decide) exHR
example := C60_promote_f16_f64 true (N := 2) (by decide) exHR
example := C60_demote_f16 true (N := 4) (by decide) exFR
example := C60_demote_f16_f64 true (N := 2) (by decide) exDR
example := C60_round_trip true (N := 4) (by decide) exHR
example := C60_demote_bf16 true (N := 3) (by decide) exFR
example := C60_ordered_demote2_bf16 true (N := 4) (by decide) exFR exFR
example := C60_reorder_demote2_bf16 true (N := 4) (by decide) exFR exFR
example := C60_promote_in_range_odd (t := i64) (N := 2) (by decide) (by decide) (by decide) exFR
example := C60_promote_in_range_upper (t := u64) (N := 2) (by decide) (by decide) (by decide) exFR
example := C60_mul_even_add_bf16 (N := 4) (by decide) exHR exHR exFR
example := C60_reorder_widen_mul_acc_bf16 (N := 4) (by decide) exHR exHR exFR exFR

example : PromoteF16 true 4 exH = .ok [0x3FC00000, 0x387FC000, 0xB3800000, 0x477FE000] := by decide +kernel
/-- Infinity becomes `65536`. -/
example : PromoteF16 true 1 [0x7C00, 0, 0, 0, 0, 0, 0, 0] = .ok [0x47800000, 0, 0, 0] := by decide +kernel
example : DemoteF16 true 4 exF = .ok [0x7C00, 0x7BFF, 0x8000, 0x3C00, 0, 0, 0, 0] := by decide +kernel
/-- Rounding in two steps would give `0x3C00`. -/
example : DemoteF16OfF64 true 2 exD = .ok [0x3C01, 0xFC00, 0, 0, 0, 0, 0, 0] := by decide +kernel
/-- A tie to even, above the tie, a NaN, infinity. -/
example : GDemoteBF16 true 4 [0x3F808000, 0x3F808001, 0x7F800001, 0xFF800000] =
    .ok [0x3F80, 0x3F81, 0x7FC0, 0xFF80, 0, 0, 0, 0] := by decide +kernel
example : GReorderDemote2BF16 true 2 [0x3F800000, 0x40000000, 0, 0] [0x40400000, 0x40800000, 0, 0] =
    .ok [0x4040, 0x3F80, 0x4080, 0x4000, 0, 0, 0, 0] := by decide +kernel
/-- `1.5`, `-3.75`, `2^40`, `-0.5`. -/
example : PromoteInRangeEvenTo i64 2 [0x3FC00000, 0xC0700000, 0x53800000, 0xBF000000] = .ok [1, 1099511627776] ∧
    PromoteInRangeUpperTo i64 2 [0x3FC00000, 0xC0700000, 0x53800000, 0xC0700000] = .ok [1099511627776, -3] := by decide +kernel
/-- `1.5 * 2 + 1`, `3 * 3 + 1`. -/
example : MulEvenAddBF16 2 [0x3FC0, 0x4040, 0x4040, 0, 0, 0, 0, 0] [0x4000, 0x3F80, 0x4040, 0, 0, 0, 0, 0]
    [0x3F800000, 0x3F800000, 0, 0] = .ok [0x40800000, 0x41200000, 0, 0] := by decide +kernel

end Emu
end Hwy
