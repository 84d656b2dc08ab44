import Verif.X86V256ConvSpec
import Verif.X86V256Examples
import Verif.X86ConvExamples

/-!
# Concrete cases for C75
-/

namespace Hwy.X86.V256

/-- 32-bit lanes below, inside and above the ranges of the narrower types, different in the two blocks. -/
def vC : M256 := ⟨cA, mk 32 (fun i => [7#32, 0x7FFFFFFF#32, BitVec.ofInt 32 (-3), 300#32].getD i 0)⟩
/-- 64-bit lanes. -/
def vD : M256 := ⟨cB, mk 64 (fun i => [0x100000001#64, BitVec.ofInt 64 (-70000)].getD i 0)⟩

example : NarrowW 8 ∧ NarrowW 16 ∧ NarrowW 32 ∧ ¬ NarrowW 64 := by simp [NarrowW]
-- widening
example : val true (lane256 64 3 (PromoteTo true 8 64 cC)) = 1 ∧ val true (lane256 64 2 (PromoteTo true 8 64 cC)) = -128 ∧
    val true (lane256 64 2 (PromoteTo false 8 64 cC)) = 128 := by
  rw [C75_promoteTo true true (by simp) (by simp [Widens]) _ (by decide), C75_promoteTo true true (by simp) (by simp [Widens]) _ (by decide),
    C75_promoteTo false true (by simp) (by simp [Widens]) _ (by decide)]
  decide +kernel
example : val true (lane256 (2 * 32) 2 (PromoteUpperTo true 32 vC)) = -3 ∧ val true (lane256 (2 * 32) 2 (PromoteLowerTo true 32 vC)) = -(2 ^ 31) ∧
    val false (lane256 (2 * 32) 3 (PromoteEvenTo false 32 vC)) = 2 ^ 32 - 3 ∧ val true (lane256 (2 * 32) 3 (PromoteEvenTo true 32 vC)) = -3 ∧
    val true (lane256 (2 * 32) 0 (PromoteOddTo true 32 vC)) = 65535 := by
  rw [C75_promoteUpperTo true true (by simp) (by simp [NarrowW]) _ (by decide), C75_promoteLowerTo true true (by simp) (by simp [NarrowW]) _ (by decide),
    C75_promoteEvenTo false false (by simp) (by simp [NarrowW]) _ (by decide), C75_promoteEvenTo true true (by simp) (by simp [NarrowW]) _ (by decide),
    C75_promoteOddTo true true (by simp) (by simp [NarrowW]) _ (by decide)]
  decide +kernel
-- narrowing
example : (lane 32 2 (TruncateTo 64 32 vD)).toNat = 1 ∧ (lane 8 3 (TruncateTo 64 8 vD)).toNat = 144 ∧ (lane 16 3 (TruncateTo 64 16 vD)).toNat = 61072 := by
  rw [C75_truncateTo (by simp [Narrows, Widens]) _ (by decide), C75_truncateTo (by simp [Narrows, Widens]) _ (by decide),
    C75_truncateTo (by simp [Narrows, Widens]) _ (by decide)]
  decide +kernel
example : val true (lane 16 0 (DemoteTo true 32 true 16 vC)) = -32768 ∧ val true (lane 16 2 (DemoteTo false 32 true 16 vC)) = 32767 ∧
    val false (lane 8 7 (DemoteTo true 32 false 8 vC)) = 255 ∧ val true (lane 32 2 (DemoteTo true 64 true 32 vD)) = 2 ^ 31 - 1 ∧
    val true (lane 16 3 (DemoteTo true 64 true 16 vD)) = -32768 ∧ val false (lane 32 3 (DemoteTo true 64 false 32 vD)) = 0 := by
  rw [C75_demoteTo true true (by simp [Narrows, Widens]) _ (by decide), C75_demoteTo false true (by simp [Narrows, Widens]) _ (by decide),
    C75_demoteTo true false (by simp [Narrows, Widens]) _ (by decide), C75_demoteTo true true (by simp [Narrows, Widens]) _ (by decide),
    C75_demoteTo true true (by simp [Narrows, Widens]) _ (by decide), C75_demoteTo true false (by simp [Narrows, Widens]) _ (by decide)]
  decide +kernel
/-- The two orders differ: result lane 4 is lane 4 of `a` in order, lane 0 of `b` in block order. -/
example : val true (lane256 16 4 (OrderedDemote2To true true 16 vC vC)) = 7 ∧ val true (lane256 16 4 (ReorderDemote2To true true 16 vC vC)) = -32768 ∧
    val true (lane256 32 6 (ReorderDemote2To true true 32 vD vD)) = 2 ^ 31 - 1 := by
  rw [C75_orderedDemote2To true true (by simp [NarrowW]) _ _ (by decide), C75_reorderDemote2To true true (by simp [NarrowW]) _ _ (by decide),
    C75_reorderDemote2To true true (by simp [NarrowW]) _ _ (by decide)]
  decide +kernel
example : val true (lane 32 3 (ReorderDemote2To128 false true cA cB)) = 2 ^ 31 - 1 ∧ val true (lane 32 2 (ReorderDemote2To128 true true cA cB)) = -5 := by
  rw [C75_demote2To128 false true _ _ (by decide), C75_demote2To128 true true _ _ (by decide)]; decide +kernel
example : (lane 8 3 (U8FromU32 vC)).toNat = 200 := by rw [C75_u8FromU32 _ (by decide)]; decide +kernel
-- products
example : lane256 8 21 (Mul8 false vA vB) = 0x89#8 ∧ lane 8 1 (Mul8_128 true cC cC) = 1#8 := by
  rw [C75_mul8 false _ _ (by decide), C75_mul8_128 true _ _ (by decide)]; decide +kernel

end Hwy.X86.V256
