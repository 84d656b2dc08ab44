import Verif.X86V256PairwiseSpec
import Verif.X86PairwiseExamples

/-!
# Concrete cases for C81 and C82 on 256-bit vectors
-/

namespace Hwy.X86.V256

/-- Lanes `1, 2, …` in both blocks. -/
def cntQ (w : Nat) : M256 := ⟨cnt w, tens w⟩
/-- Lanes `10, 20, …` in block 0, the least value in block 1. -/
def tenQ (w : Nat) : M256 := ⟨tens w, mins w⟩

example : lane256 16 10 (PairwiseAddQ 16 (cntQ 16) (tenQ 16)) = 70#16 ∧ lane256 64 3 (PairwiseSubQ 64 (cntQ 64) (tenQ 64)) = 0#64 := by
  rw [C81_pairwiseAdd (w := 16) (by simp [Width]) _ _ (i := 10) (by decide), C81_pairwiseSub (w := 64) (by simp [Width]) _ _ (i := 3) (by decide)]
  decide +kernel
example : lane256 8 (1 * (128 / 8) + 5) (PairwiseAdd128Q 8 (cntQ 8) (tenQ 8)) = 230#8 ∧
    lane256 32 (1 * (128 / 32) + 1) (PairwiseSub128Q 32 (cntQ 32) (tenQ 32)) = 10#32 ∧
    lane256 32 (0 * (128 / 32) + 3) (PairwiseAdd128Q 32 (cntQ 32) (tenQ 32)) = 70#32 := by
  rw [C81_pairwiseAdd128 (w := 8) (by simp [Width]) _ _ (k := 1) (j := 5) (by decide) (by decide),
    C81_pairwiseSub128 (w := 32) (by simp [Width]) _ _ (k := 1) (j := 1) (by decide) (by decide),
    C81_pairwiseAdd128 (w := 32) (by simp [Width]) _ _ (k := 0) (j := 3) (by decide) (by decide)]
  decide +kernel
example : val true (lane256 16 12 (SumsOf2Q true 8 (tenQ 8))) = -256 ∧ val false (lane256 16 12 (SumsOf2Q false 8 (tenQ 8))) = 256 ∧
    val true (lane256 32 6 (SumsOf4Q true 8 (tenQ 8))) = -512 := by
  rw [C81_sumsOf2 true (f := 8) (.inl rfl) _ (i := 12) (by decide), C81_sumsOf2 false (f := 8) (.inl rfl) _ (i := 12) (by decide),
    C81_sumsOf4 true (f := 8) (.inl rfl) _ (i := 6) (by decide)]
  decide +kernel
example : val true (lane256 32 7 (SaturatedAddWideQ true 32 (tenQ 32) (tenQ 32))) = -2147483648 ∧
    val false (lane256 64 3 (SaturatedAddWideQ false 64 (tenQ 64) (tenQ 64))) = 18446744073709551615 ∧
    val true (lane256 64 3 (SaturatedSubWideQ true 64 (cntQ 64) (tenQ 64))) = 9223372036854775807 ∧
    val false (lane256 32 1 (SaturatedSubWideQ false 32 (cntQ 32) (tenQ 32))) = 0 := by
  rw [C82_saturatedAdd true (w := 32) (.inl rfl) _ _ (i := 7) (by decide), C82_saturatedAdd false (w := 64) (.inr rfl) _ _ (i := 3) (by decide),
    C82_saturatedSub true (w := 64) (.inr rfl) _ _ (i := 3) (by decide), C82_saturatedSub false (w := 32) (.inl rfl) _ _ (i := 1) (by decide)]
  decide +kernel
-- Four factors `-32768`.
example : val true (lane256 32 6 (SatWidenMulPairwiseAccumulateQ (tenQ 16) (tenQ 16) (setQ 32 (BitVec.ofInt 32 (-5))))) = 2147483643 ∧
    val true (lane256 16 9 (SatWidenMulPairwiseAddQ (setQ 8 255#8) (tenQ 8))) = -32768 ∧
    lane256 64 3 (SumOfMulQuadAccumulateI16Q (tenQ 16) (tenQ 16) (cntQ 64)) = 4294967316#64 ∧
    lane256 64 3 (SumOfMulQuadAccumulateU16Q (tenQ 16) (tenQ 16) (cntQ 64)) = 4294967316#64 := by
  rw [C82_satWidenMulPairwiseAccumulate _ _ _ (i := 6) (by decide), C82_satWidenMulPairwiseAdd _ _ (i := 9) (by decide),
    C82_sumOfMulQuadAccumulate_i16 _ _ _ (i := 3) (by decide), C82_sumOfMulQuadAccumulate_u16 _ _ _ (i := 3) (by decide)]
  decide +kernel
example : lane256 32 7 (SumOfMulQuadAccumulateI8Q (tenQ 8) (tenQ 8) (cntQ 32)) = 65576#32 ∧
    lane256 32 7 (SumOfMulQuadAccumulateU8Q (tenQ 8) (tenQ 8) (cntQ 32)) = 65576#32 ∧
    lane256 32 7 (SumOfMulQuadAccumulateU8I8Q (tenQ 8) (tenQ 8) (cntQ 32)) = BitVec.ofInt 32 (-65496) := by
  rw [C82_sumOfMulQuadAccumulate_i8 _ _ _ (i := 7) (by decide), C82_sumOfMulQuadAccumulate_u8 _ _ _ (i := 7) (by decide),
    C82_sumOfMulQuadAccumulate_u8i8 _ _ _ (i := 7) (by decide)]
  decide +kernel

end Hwy.X86.V256
