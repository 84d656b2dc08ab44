import Verif.X86FirstSpec
import Verif.X86MaskExamples

/-!
# Concrete cases for C70
-/

namespace Hwy.X86

/-- Two 128-bit numbers with equal upper halves, and one with a larger upper but smaller lower half. -/
def qA : M128 := 0x00000000000000050000000000000007#128
def qB : M128 := 0x00000000000000058000000000000000#128
def qC : M128 := 0x80000000000000000000000000000001#128

example (t : Tgt) : lane 64 0 (Lt128 t qA qB) = BitVec.allOnes 64 := by
  rw [C70_lt128 t qA qB (by decide)]; decide +kernel
example (t : Tgt) : lane 64 1 (Lt128 t qC qB) = 0#64 := by
  rw [C70_lt128 t qC qB (by decide)]; decide +kernel
example (t : Tgt) : lane 64 1 (Lt128Upper t qA qB) = 0#64 := by
  rw [C70_lt128Upper t qA qB (by decide)]; decide +kernel
example (t : Tgt) : lane 64 0 (Eq128 t qA qB) = 0#64 ∧ lane 64 0 (Ne128 t qA qB) = BitVec.allOnes 64 := by
  rw [C70_eq128 t qA qB (by decide), C70_ne128 t qA qB (by decide)]; decide +kernel
example (t : Tgt) : Max128 t qB qC = qC := by
  apply BitVec.eq_of_toNat_eq; rw [(C70_minmax128 t qB qC).2]; decide +kernel
/-- `Min128Upper` of equal upper halves is the second argument, in both orders. -/
example (t : Tgt) : Min128Upper t qA qB = qB ∧ Min128Upper t qB qA = qA := by
  rw [(C70_minmax128Upper t qA qB).1, (C70_minmax128Upper t qB qA).1]; decide +kernel

theorem kM16_mask : MaskOf 16 16 kM16 (fun i => [1, 2, 5, 7].contains i) := by
  intro i hi
  have h : ∀ i, i < 8 → lane 16 i kM16 = if [1, 2, 5, 7].contains i = true then BitVec.allOnes 16 else 0#16 := by decide +kernel
  exact h i hi
/-- A mask whose first true lane is in the upper half. -/
def kU8 : M128 := mk 8 (fun i => if [11, 14].contains i then BitVec.allOnes 8 else 0#8)
theorem kU8_mask : MaskOf 8 16 kU8 (fun i => [11, 14].contains i) := by
  intro i hi
  have h : ∀ i, i < 16 → lane 8 i kU8 = if [11, 14].contains i = true then BitVec.allOnes 8 else 0#8 := by decide +kernel
  exact h i hi

example (t : Tgt) : lane 16 0 (SetAtOrAfterFirst t 16 16 kM16) = 0#16 ∧ lane 16 6 (SetAtOrAfterFirst t 16 16 kM16) = BitVec.allOnes 16 := by
  rw [C70_setAtOrAfterFirst t (by simp [Shape]) kM16_mask 0 (by decide), C70_setAtOrAfterFirst t (by simp [Shape]) kM16_mask 6 (by decide)]
  decide +kernel
example (t : Tgt) : lane 8 10 (SetBeforeFirst t 8 16 kU8) = BitVec.allOnes 8 ∧ lane 8 11 (SetBeforeFirst t 8 16 kU8) = 0#8 := by
  rw [C70_setBeforeFirst t (by simp [Shape]) kU8_mask 10 (by decide), C70_setBeforeFirst t (by simp [Shape]) kU8_mask 11 (by decide)]
  decide +kernel
example (t : Tgt) : lane 8 11 (SetOnlyFirst t 8 16 kU8) = BitVec.allOnes 8 ∧ lane 8 14 (SetOnlyFirst t 8 16 kU8) = 0#8 := by
  rw [C70_setOnlyFirst t (by simp [Shape]) kU8_mask 11 (by decide), C70_setOnlyFirst t (by simp [Shape]) kU8_mask 14 (by decide)]
  decide +kernel
example (t : Tgt) : lane 8 11 (SetAtOrBeforeFirst t 8 16 kU8) = BitVec.allOnes 8 ∧ lane 8 12 (SetAtOrBeforeFirst t 8 16 kU8) = 0#8 := by
  rw [C70_setAtOrBeforeFirst t (by simp [Shape]) kU8_mask 11 (by decide), C70_setAtOrBeforeFirst t (by simp [Shape]) kU8_mask 12 (by decide)]
  decide +kernel
/-- The interpreted model agrees. -/
example : lane 8 14 (SetOnlyFirst .sse2 8 16 kU8) = 0#8 ∧ lane 16 1 (SetOnlyFirst .sse2 16 16 kM16) = 0xFFFF#16 := by decide +kernel

end Hwy.X86
