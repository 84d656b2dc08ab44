import Verif.X86ShiftSpec2
import Verif.X86MulExamples

/-!
# Concrete cases for C67
-/

namespace Hwy.X86

/-- Counts of 16-bit lanes. -/
def shC16 : M128 := mk 16 (fun i => [15#16, 0#16, 1#16, 3#16, 14#16, 7#16, 15#16, 8#16].getD i 0)
/-- Counts of 8-bit lanes. -/
def shC8 : M128 := mk 8 (fun i => BitVec.ofNat 8 (i % 8))
/-- Counts of 32-bit lanes. -/
def shC32 : M128 := mk 32 (fun i => [31#32, 0#32, 1#32, 30#32].getD i 0)
/-- Counts of 64-bit lanes. -/
def shC64 : M128 := mk 64 (fun i => [63#64, 1#64].getD i 0)
/-- Rotation counts beyond the lane width. -/
def shR : M128 := mk 16 (fun i => [17#16, 0xFFFF#16, 16#16, 0#16].getD i 5#16)

example : Shape 16 8 ∧ 3 < Lanes 16 8 ∧ Shape 8 16 ∧ Shape 8 1 ∧ InReg 32 3 := ⟨by simp [Shape], by decide, by simp [Shape], by simp [Shape], by omega, by omega⟩
example : (lane 16 3 shC16).toNat < 16 ∧ (lane 8 7 shC8).toNat < 8 ∧ (lane 32 0 shC32).toNat < 32 ∧ (lane 64 0 shC64).toNat < 64 := by
  decide +kernel
example : ∀ t gcc, lane 16 3 (Shl t gcc 16 8 mA shC16) = 2400#16 ∧ lane 16 7 (Shl t gcc 16 16 mA shC16) = 0#16 ∧
    lane 16 2 (Shl t gcc 16 16 mA shC16) = BitVec.ofInt 16 (-6) := by
  intro t gcc; cases t <;> cases gcc <;> decide +kernel
example : ∀ t gcc, lane 16 0 (Shr t gcc true 16 16 mA shC16) = BitVec.ofInt 16 (-1) ∧ lane 16 0 (Shr t gcc false 16 16 mA shC16) = 1#16 ∧
    lane 16 1 (Shr t gcc false 16 8 mA shC16) = 32767#16 := by
  intro t gcc; cases t <;> cases gcc <;> decide +kernel
example : ∀ t gcc, lane 8 9 (Shl t gcc 8 16 mA shC8) = 0#8 ∧ lane 8 1 (Shr t gcc true 8 16 mA shC8) = 0xC0#8 ∧
    lane 8 1 (Shr t gcc false 8 4 mA shC8) = 0x40#8 ∧ lane 8 3 (Shl t gcc 8 8 mA shC8) = 0xF8#8 := by
  intro t gcc; cases t <;> cases gcc <;> decide +kernel
example : ∀ t gcc, lane 32 0 (Shr t gcc false 32 16 xA shC32) = 1#32 ∧ lane 32 2 (Shr t gcc true 32 16 xA shC32) = 0xC0000000#32 ∧
    lane 32 3 (Shr t gcc false 32 16 xA shC32) = 1#32 ∧ lane 32 0 (Shl t gcc 32 4 xA shC32) = 0x80000000#32 := by
  intro t gcc; cases t <;> cases gcc <;> decide +kernel
example : ∀ t gcc, lane 64 1 (Shr t gcc true 64 16 xC shC64) = BitVec.ofInt 64 (-1) ∧ lane 64 1 (Shl t gcc 64 16 xC shC64) = BitVec.ofInt 64 (-2) := by
  intro t gcc; cases t <;> cases gcc <;> decide +kernel
example : ∀ t gcc, lane 16 0 (Rol t gcc 16 8 mA shR) = 1#16 ∧ lane 16 1 (Rol t gcc 16 8 mA shR) = 0xBFFF#16 ∧
    lane 16 1 (Ror t gcc 16 8 mA shR) = 0xFFFE#16 ∧ lane 16 2 (Ror t gcc 16 8 mA shR) = BitVec.ofInt 16 (-3) := by
  intro t gcc; cases t <;> cases gcc <;> decide +kernel
example : lane 32 1 (RotateLeftSame 32 xA (BitVec.ofInt 32 (-1))) = 0x80000003#32 ∧ lane 32 1 (RotateRightSame 32 xA 33#32) = 0x80000003#32 ∧
    lane 32 1 (RotateLeft 32 3 xA) = 56#32 ∧ lane 32 1 (RotateLeft 32 0 xA) = 7#32 := by decide +kernel

end Hwy.X86
