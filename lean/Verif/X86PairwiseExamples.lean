import Verif.X86SatWideSpec
import Verif.X86ReduceExamples

/-!
# Concrete cases for C81 and C82
-/

namespace Hwy.X86

/-- Lanes `1, 2, …`. -/
def cnt (w : Nat) : M128 := mk w (fun i => BitVec.ofNat w (i + 1))
/-- Lanes `10, 20, …`. -/
def tens (w : Nat) : M128 := mk w (fun i => BitVec.ofNat w (10 * (i + 1)))

example (t : Tgt) : lane 16 2 (PairwiseAdd t 16 8 (cnt 16) (tens 16)) = 7#16 ∧ lane 16 3 (PairwiseAdd t 16 8 (cnt 16) (tens 16)) = 70#16 ∧
    lane 64 1 (PairwiseSub t 64 16 (cnt 64) (tens 64)) = 10#64 ∧ lane 8 0 (PairwiseSub t 8 2 (cnt 8) (tens 8)) = 1#8 := by
  rw [C81_pairwiseAdd t (w := 16) (sz := 8) (by simp [Shape]) (by decide) _ _ (i := 2) (by decide),
    C81_pairwiseAdd t (w := 16) (sz := 8) (by simp [Shape]) (by decide) _ _ (i := 3) (by decide),
    C81_pairwiseSub t (w := 64) (sz := 16) (by simp [Shape]) (by decide) _ _ (i := 1) (by decide),
    C81_pairwiseSub t (w := 8) (sz := 2) (by simp [Shape]) (by decide) _ _ (i := 0) (by decide)]
  decide +kernel
example (t : Tgt) : lane 8 5 (PairwiseAdd128 t 8 (cnt 8) (tens 8)) = 23#8 ∧ lane 8 15 (PairwiseAdd128 t 8 (cnt 8) (tens 8)) = 54#8 ∧
    lane 16 4 (PairwiseSub128 t 16 (cnt 16) (tens 16)) = 10#16 ∧ lane 32 1 (PairwiseSub128 t 32 (cnt 32) (tens 32)) = 1#32 ∧
    lane 64 1 (PairwiseAdd128 t 64 (cnt 64) (tens 64)) = 30#64 := by
  rw [C81_pairwiseAdd128 t (w := 8) (by decide) _ _ (i := 5) (by decide), C81_pairwiseAdd128 t (w := 8) (by decide) _ _ (i := 15) (by decide),
    C81_pairwiseSub128 t (w := 16) (by decide) _ _ (i := 4) (by decide), C81_pairwiseSub128 t (w := 32) (by decide) _ _ (i := 1) (by decide),
    C81_pairwiseAdd128 t (w := 64) (by decide) _ _ (i := 1) (by decide)]
  decide +kernel
example (t : Tgt) : val true (lane 16 0 (SumsOf2 t true 8 16 rA)) = -182 ∧ val false (lane 16 0 (SumsOf2 t false 8 16 rA)) = 330 ∧
    val true (lane 32 2 (SumsOf4 t true 8 16 rA)) = 35 ∧ val false (lane 64 1 (SumsOf4 t false 16 16 rA)) = 141829 := by
  rw [C81_sumsOf2 t true (f := 8) (sz := 16) (.inl rfl) (by simp [Shape]) _ (i := 0) (by decide),
    C81_sumsOf2 t false (f := 8) (sz := 16) (.inl rfl) (by simp [Shape]) _ (i := 0) (by decide),
    C81_sumsOf4 t true (f := 8) (sz := 16) (.inl rfl) (by simp [Shape]) _ (i := 2) (by decide),
    C81_sumsOf4 t false (f := 16) (sz := 16) (.inr rfl) (by simp [Shape]) _ (i := 1) (by decide)]
  decide +kernel

/-- All lanes the least value. -/
def mins (w : Nat) : M128 := set w (BitVec.intMin w)

example (t : Tgt) : val true (lane 32 3 (SaturatedAddWide t true 32 (mins 32) (mins 32))) = -2147483648 ∧
    val false (lane 64 1 (SaturatedAddWide t false 64 (mins 64) (mins 64))) = 18446744073709551615 ∧
    val true (lane 64 0 (SaturatedSubWide t true 64 (cnt 64) (mins 64))) = 9223372036854775807 ∧
    val false (lane 32 1 (SaturatedSubWide t false 32 (cnt 32) (tens 32))) = 0 := by
  rw [C82_saturatedAdd t true (w := 32) (i := 3) ⟨by decide, by decide⟩ (.inl rfl),
    C82_saturatedAdd t false (w := 64) (i := 1) ⟨by decide, by decide⟩ (.inr rfl),
    C82_saturatedSub t true (w := 64) (i := 0) ⟨by decide, by decide⟩ (.inr rfl),
    C82_saturatedSub t false (w := 32) (i := 1) ⟨by decide, by decide⟩ (.inl rfl)]
  decide +kernel
-- Four factors `-32768`: the 32-bit sum of the products is not representable, the results are exact.
example (t : Tgt) : val true (lane 32 2 (SatWidenMulPairwiseAccumulate t (mins 16) (mins 16) (set 32 (BitVec.ofInt 32 (-5))))) = 2147483643 ∧
    val true (lane 32 2 (SatWidenMulPairwiseAccumulate t (mins 16) (mins 16) (cnt 32))) = 2147483647 ∧
    val true (lane 32 1 (SatWidenMulPairwiseAccumulate t (cnt 16) (tens 16) (mins 32))) = -2147483398 := by
  rw [C82_satWidenMulPairwiseAccumulate t _ _ _ (i := 2) (by decide), C82_satWidenMulPairwiseAccumulate t _ _ _ (i := 2) (by decide),
    C82_satWidenMulPairwiseAccumulate t _ _ _ (i := 1) (by decide)]
  decide +kernel
example (t : Tgt) : lane 64 1 (SumOfMulQuadAccumulateI16 t (mins 16) (mins 16) (cnt 64)) = 4294967298#64 ∧
    lane 64 0 (SumOfMulQuadAccumulateU16 t 8 (cnt 16) (tens 16) (cnt 64)) = 301#64 ∧
    lane 32 3 (SumOfMulQuadAccumulateI8 t 16 (mins 8) (mins 8) (cnt 32)) = 65540#32 ∧
    lane 32 3 (SumOfMulQuadAccumulateU8 t (set 8 255#8) (set 8 255#8) (cnt 32)) = 260104#32 ∧
    lane 32 3 (SumOfMulQuadAccumulateU8I8 t (set 8 255#8) (set 8 255#8) (cnt 32)) = BitVec.ofInt 32 (-1016) := by
  rw [C82_sumOfMulQuadAccumulate_i16 t _ _ _ (i := 1) (by decide),
    C82_sumOfMulQuadAccumulate_u16 t (sz := 8) (.inl rfl) _ _ _ (i := 0) (by decide),
    C82_sumOfMulQuadAccumulate_i8 t (sz := 16) (by simp [Shape]) _ _ _ (i := 3) (by decide),
    C82_sumOfMulQuadAccumulate_u8 t _ _ _ (i := 3) (by decide),
    C82_sumOfMulQuadAccumulate_u8i8 t _ _ _ (i := 3) (by decide)]
  decide +kernel

end Hwy.X86
