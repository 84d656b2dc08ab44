import Verif.X86V256FirstSpec
import Verif.X86FirstExamples

/-!
# Concrete cases for C78
-/

namespace Hwy.X86.V256

/-- Equal upper lanes in the lower blocks, a larger upper but smaller lower lane in the upper block. -/
def fA : M256 := ⟨qA, qC⟩
def fB : M256 := ⟨qB, qB⟩
example : lane256 64 0 (Lt128Q fA fB) = BitVec.allOnes 64 ∧ lane256 64 2 (Lt128Q fA fB) = 0#64 ∧ lane256 64 3 (Lt128Q fB fA) = BitVec.allOnes 64 ∧
    lane256 64 1 (Eq128Q fA fB) = 0#64 ∧ lane256 64 1 (Ne128Q fA fB) = BitVec.allOnes 64 := by
  rw [(C78_compare128 fA fB (i := 0) (by decide)).1, (C78_compare128 fA fB (i := 2) (by decide)).1, (C78_compare128 fB fA (i := 3) (by decide)).1,
    (C78_compare128 fA fB (i := 1) (by decide)).2.1, (C78_compare128 fA fB (i := 1) (by decide)).2.2]
  decide +kernel
example : lane256 64 0 (Lt128UpperQ fA fB) = 0#64 ∧ lane256 64 2 (Lt128UpperQ fB fA) = BitVec.allOnes 64 ∧ lane256 64 0 (Eq128UpperQ fA fB) = BitVec.allOnes 64 := by
  rw [(C78_compare128Upper fA fB (i := 0) (by decide)).1, (C78_compare128Upper fB fA (i := 2) (by decide)).1, (C78_compare128Upper fA fB (i := 0) (by decide)).2.1]
  decide +kernel
example : (Min128Q fA fB).lo = qA ∧ (Max128Q fA fB).hi = qC ∧ Min128UpperQ fA fB = ⟨qB, qB⟩ := by
  refine ⟨?_, ?_, ?_⟩
  · apply BitVec.eq_of_toNat_eq; rw [(C78_minMax128 fA fB).1.1]; decide +kernel
  · apply BitVec.eq_of_toNat_eq; rw [(C78_minMax128 fA fB).2.1.2]; decide +kernel
  · rw [(C78_minMax128 fA fB).2.2.1]; exact congr (congrArg M256.mk (by decide +kernel)) (by decide +kernel)

/-- First true lane in the upper block, or in the lower one. -/
def fHi : M256 := ⟨zero, kU8⟩
def fLo : M256 := ⟨kU8, kU8⟩
theorem fHi_mask : MaskOf256 8 fHi (fun i => [27, 30].contains i) := by
  intro i hi
  have h : ∀ i, i < 32 → lane256 8 i fHi = if [27, 30].contains i = true then BitVec.allOnes 8 else 0#8 := by decide +kernel
  exact h i hi
theorem fLo_mask : MaskOf256 8 fLo (fun i => [11, 14, 27, 30].contains i) := by
  intro i hi
  have h : ∀ i, i < 32 → lane256 8 i fLo = if [11, 14, 27, 30].contains i = true then BitVec.allOnes 8 else 0#8 := by decide +kernel
  exact h i hi
theorem f8 : Width 8 := by simp [Width]

example : lane256 8 26 (SetAtOrAfterFirst fHi) = 0#8 ∧ lane256 8 28 (SetAtOrAfterFirst fHi) = BitVec.allOnes 8 ∧ lane256 8 16 (SetAtOrAfterFirst fLo) = BitVec.allOnes 8 := by
  rw [C78_setAtOrAfterFirst f8 fHi_mask 26 (by decide), C78_setAtOrAfterFirst f8 fHi_mask 28 (by decide), C78_setAtOrAfterFirst f8 fLo_mask 16 (by decide)]
  decide +kernel
example : lane256 8 26 (SetBeforeFirst fHi) = BitVec.allOnes 8 ∧ lane256 8 27 (SetBeforeFirst fHi) = 0#8 ∧ lane256 8 16 (SetBeforeFirst fLo) = 0#8 := by
  rw [C78_setBeforeFirst f8 fHi_mask 26 (by decide), C78_setBeforeFirst f8 fHi_mask 27 (by decide), C78_setBeforeFirst f8 fLo_mask 16 (by decide)]
  decide +kernel
example : lane256 8 27 (SetOnlyFirst 8 fHi) = BitVec.allOnes 8 ∧ lane256 8 30 (SetOnlyFirst 8 fHi) = 0#8 ∧ lane256 8 27 (SetOnlyFirst 8 fLo) = 0#8 ∧
    lane256 8 11 (SetOnlyFirst 8 fLo) = BitVec.allOnes 8 := by
  rw [C78_setOnlyFirst f8 fHi_mask 27 (by decide), C78_setOnlyFirst f8 fHi_mask 30 (by decide), C78_setOnlyFirst f8 fLo_mask 27 (by decide),
    C78_setOnlyFirst f8 fLo_mask 11 (by decide)]
  decide +kernel
example : lane256 8 27 (SetAtOrBeforeFirst 8 fHi) = BitVec.allOnes 8 ∧ lane256 8 28 (SetAtOrBeforeFirst 8 fHi) = 0#8 ∧
    lane256 8 16 (SetAtOrBeforeFirst 8 fLo) = 0#8 ∧ lane256 8 11 (SetAtOrBeforeFirst 8 fLo) = BitVec.allOnes 8 := by
  rw [C78_setAtOrBeforeFirst f8 fHi_mask 27 (by decide), C78_setAtOrBeforeFirst f8 fHi_mask 28 (by decide), C78_setAtOrBeforeFirst f8 fLo_mask 16 (by decide),
    C78_setAtOrBeforeFirst f8 fLo_mask 11 (by decide)]
  decide +kernel

end Hwy.X86.V256
