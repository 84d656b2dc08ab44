import Verif.GenArithSpec5
import Verif.EmuArithExamples

/-!
# The hypotheses of the C39 theorems are met, and the fallbacks do compute
-/

namespace Hwy
namespace Emu
open CInt

theorem exI : i32 ∈ laneTys := by decide
example := C39_clamp exI (N := 3) (by decide) exR exS exR
example := C39_saturated_add exI (N := 3) (by decide) true exR exS
example := C39_saturated_neg exI (N := 3) (by decide) false rfl exR
example := C39_rounding_shift_right exI (N := 3) (by decide) true (k := 31) (by decide) exR
example := C39_rounding_shr (t := i32) exI (N := 2) (by decide) true (v := exA) (amt := [0, 31, -1, 0]) exR (by decide +kernel)
  (fun i hi => by interval_cases i <;> decide)
example := C39_add_sub exI (N := 3) (by decide) exR exS
example := C39_pairwise_sub exI (N := 4) (by decide) (by decide) exR exS
example := C39_sums_of_8_abs_diff (Or.inl rfl) (N := 16) (by decide) ex8R ex8R
example := C39_masked_or exI (N := 3) (by decide) exMask true exS exR exS
example := C39_masked_div exI (N := 2) (by decide) (p := fun i => i % 2 == 0)
  (m := exM) ⟨exMask.len, exMask.has, fun i hi => exMask.lanes i (by omega)⟩ ⟨by decide, by decide⟩ exS exR exS
example := C39_masked_shift exI (N := 3) (by decide) exMask true exS exR (s := [0, 31, 5, -9]) (by decide +kernel) (k := 31)
  (by decide) (fun i hi => by interval_cases i <;> decide)
example := C39_masked_zero exI (N := 3) (by decide) exMask true exR exS exR
example := C39_masked_compare exI (N := 3) (by decide) exMask exR exS
/-- Lanes 0 and 2 are selected: `2147483647 + (-1)`. -/
example := C39_masked_reduce_sum exI (N := 3) (by decide) exMask (by decide) exR
  (by intro _ _ k hk; interval_cases k <;> decide +kernel)
example := C39_masked_reduce_min exI (N := 3) (by decide) exMask (by decide) exR
example := C39_promote_mask exI (tT := u64) (by decide) (by decide) (N := 2) (by decide) (p := fun i => i % 2 == 0)
  (m := exM) ⟨exMask.len, exMask.has, fun i hi => exMask.lanes i (by omega)⟩
example := C39_demote_mask exI (tT := i8) (by decide) (by decide) (N := 3) (by decide) exMask
example := C39_ordered_demote2_masks exI (tT := u16) (by decide) (by decide) (NW := 3) (by decide) exMask exMask

/-! Evaluations. -/

example : (MinMagnitude i32 4 exA exB) = .ok [1, -1, -1, 3] := by decide +kernel
example : (SatAdd true i32 4 exA exB) = .ok [2147483647, -2147483648, -2147483648, 8] := by decide +kernel
example : (SaturatedNeg true i32 4 exA) = .ok [-2147483647, 2147483647, 1, -5] := by decide +kernel
example : (SaturatedNeg true i64 2 [-9223372036854775808, 4]) = .ok [9223372036854775807, -4] := by decide +kernel
example : (RoundingShiftRight true i32 4 1 exA) = .ok [1073741824, -1073741824, 0, 3] := by decide +kernel
example : (PairwiseSub i32 4 exA exB) = .ok [1, -2, 6, -2147483645] := by decide +kernel
example : MaskedReduceMin i32 3 exM exA = .ok (-1) := by decide +kernel
example : SumsOf8AbsDiff i8 16 (List.replicate 16 (-128)) (List.replicate 16 127) = .ok [2040, 2040] := by decide +kernel
example : PromoteMaskTo i32 u64 2 exM = .ok [18446744073709551615, 0] := by decide +kernel
example : OrderedDemote2MasksTo i32 u16 4 [4294967295, 0, 0, 0] [0, 0, 0, 4294967295] = .ok [65535, 0, 0, 0, 0, 0, 0, 65535] := by
  decide +kernel

end Emu
end Hwy
