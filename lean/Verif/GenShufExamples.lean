import Verif.GenShufSpec3
import Verif.GenRotExamples

/-!
# Concrete cases for C59
-/

namespace Hwy
namespace Emu
open CInt

example := C59_per4_lane_block_shuffle (t := i32) (N := 4) (by decide) (by decide) (by decide) (i3 := 0) (i2 := 3) (i1 := 1) (i0 := 1)
  (by decide) (by decide) (by decide) (by decide) exR
example := C59_shift_lanes (t := i32) (N := 4) (by decide) (by decide) (k := 3) (by decide) exR exS
example := C59_slide1 (t := u8) (N := 8) (by decide) (by decide) (by decide) exU8R
example := C59_slide_mask (t := i32) (N := 3) (by decide) (by decide) (by decide) 2 exMask
example := C59_broadcast_lane (t := i32) (N := 4) (by decide) (by decide) (k := 2) (by decide) exR
example := C59_masked_set (t := i32) (N := 3) (by decide) (by decide) exMask (x := -7) (by decide) exR exR exS
example := C59_sign_bit (t := u64) (N := 2) (by decide) (by decide)
example := C59_all_bits (t := i32) (N := 4) (by decide) (by decide) exR
example := C59_pairwise_128 (t := i32) (by decide) exR exS
example := C59_insert_into_upper (t := i32) (by decide) (H := 2) (by decide) (p := [11, 12, 13]) (by decide) (by decide) exR
example := C59_sums_of_adj_quad_abs_diff (t := i8) (N := 16) (Or.inr rfl) (Or.inr (Or.inr rfl)) true (kA := 1) (kB := 3) (by decide)
  (by decide) exI8R exI8R
example := C59_sums_of_shuffled_quad_abs_diff (t := u8) (N := 16) (Or.inl rfl) (Or.inr (Or.inr rfl)) true (i3 := 2) (i2 := 0) (i1 := 3)
  (i0 := 1) (by decide) (by decide) (by decide) (by decide) exU8R exU8R

/-- The shuffles that have their own instruction and the general one. -/
example : Per4LaneBlockShuffle i32 4 0 1 2 3 [10, -11, 12, -13] = .ok [-13, 12, -11, 10] ∧
    Per4LaneBlockShuffle i32 4 1 0 3 2 [10, -11, 12, -13] = .ok [12, -13, 10, -11] ∧
    Per4LaneBlockShuffle i32 4 3 0 0 2 [10, -11, 12, -13] = .ok [12, 10, 10, -13] ∧
    Per4LaneBlockShuffle u16 8 0 3 1 1 [0, 1, 2, 3, 4, 5, 6, 7] = .ok [1, 1, 3, 0, 5, 5, 7, 4] := by decide +kernel

/-- Sums of the first vector below those of the second. -/
example : PairwiseAdd128 u16 [1, 2, 3, 4, 5, 6, 7, 8] [10, 20, 30, 40, 50, 60, 70, 80] = .ok [3, 7, 11, 15, 30, 70, 110, 150] ∧
    PairwiseSub128 i32 [1, 2, 30, 4] [10, 20, 3, 40] = .ok [1, -26, 10, 37] := by decide +kernel

example : Slide1Up u16 4 [1, 2, 3, 4, 0, 0, 0, 0] = .ok [0, 1, 2, 3, 0, 0, 0, 0] ∧
    Slide1Down u16 4 [1, 2, 3, 4, 9, 9, 9, 9] = .ok [2, 3, 4, 0, 0, 0, 0, 0] ∧
    CombineShrLanes i32 4 1 [-5, -6, -7, -8] [-1, -2, -3, -4] = .ok [-2, -3, -4, -5] := by decide +kernel

/-- Extreme differences: 4 * 255. -/
example : SumsOfAdjQuadAbsDiff true i8 16 1 0 (List.replicate 16 127) (List.replicate 16 (-128)) =
    .ok (List.replicate 8 1020) := by decide +kernel

end Emu
end Hwy
