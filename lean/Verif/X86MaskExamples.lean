import Verif.X86CompressSpec2
import Verif.X86ShiftExamples

/-!
# Concrete cases for C68
-/

namespace Hwy.X86

/-- A mask of 16-bit lanes: lanes 1, 2, 5 and 7. -/
def kM16 : M128 := mk 16 (fun i => if [1, 2, 5, 7].contains i then BitVec.allOnes 16 else 0#16)
/-- A mask of bytes: lanes 0, 3, 9 and 15. -/
def kM8 : M128 := mk 8 (fun i => if [0, 3, 9, 15].contains i then BitVec.allOnes 8 else 0#8)
/-- A mask of 32-bit lanes: lanes 1 and 3. -/
def kM32 : M128 := mk 32 (fun i => if i % 2 = 1 then BitVec.allOnes 32 else 0#32)
/-- Bytes `0x10 ...`. -/
def kV8 : M128 := mk 8 (fun i => BitVec.ofNat 8 (0x10 + i))
/-- Bits with unused ones set. -/
def kBits : Mem 8 := fun i => [0xFA#8, 0x81#8].getD i 0x77#8
/-- Memory before a store. -/
def kMem8 : Mem 8 := fun _ => 0xEE#8
/-- Memory before a store. -/
def kMem16 : Mem 16 := fun i => BitVec.ofNat 16 (0x9000 + i)

example : MaskOf 16 16 kM16 (fun i => [1, 2, 5, 7].contains i) := by
  intro i hi
  have h : ∀ i, i < 8 → lane 16 i kM16 = if [1, 2, 5, 7].contains i = true then BitVec.allOnes 16 else 0#16 := by decide +kernel
  exact h i hi
example : MaskOf 8 8 kM8 (fun i => [0, 3, 9, 15].contains i) := by
  intro i hi
  have h : ∀ i, i < 8 → lane 8 i kM8 = if [0, 3, 9, 15].contains i = true then BitVec.allOnes 8 else 0#8 := by decide +kernel
  exact h i hi
example : BitsFromMask 16 16 kM16 = 0xA6 ∧ BitsFromMask 16 8 kM16 = 6 ∧ BitsFromMask 8 16 kM8 = 0x8209 ∧ BitsFromMask 32 16 kM32 = 10 := by
  decide +kernel
example : (StoreMaskBits 8 16 kM8 kBits).2 = 2 ∧ (StoreMaskBits 8 16 kM8 kBits).1 1 = 0x82#8 ∧ (StoreMaskBits 8 4 kM8 kBits).1 0 = 9#8 ∧
    (StoreMaskBits 8 4 kM8 kBits).1 1 = 0x81#8 := by decide +kernel
example : ∀ t, lane 16 3 (LoadMaskBits t 16 8 kBits) = 0xFFFF#16 ∧ lane 16 2 (LoadMaskBits t 16 8 kBits) = 0#16 ∧
    lane 8 15 (LoadMaskBits t 8 16 kBits) = 0xFF#8 ∧ lane 8 14 (LoadMaskBits t 8 16 kBits) = 0#8 ∧
    lane 64 1 (Dup128MaskFromMaskBits t 64 16 2) = BitVec.allOnes 64 := by
  intro t; cases t <;> decide +kernel
example : AllFalse 16 2 kM16 = true ∧ AllFalse 16 4 kM16 = false ∧ AllTrue 16 4 kM16 = false ∧ CountTrue 16 16 kM16 = 4 ∧
    FindFirstTrue 16 16 kM16 = 1 ∧ FindLastTrue 16 16 kM16 = 7 ∧ FindLastTrue 16 8 kM16 = 2 ∧ FindFirstTrue 16 2 kM16 = -1 ∧
    FindKnownFirstTrue 8 16 kM8 = 0 ∧ FindKnownLastTrue 8 16 kM8 = 15 := by decide +kernel
example : selected 8 (fun i => [1, 2, 5, 7].contains i) = [1, 2, 5, 7] ∧
    packOrder 8 (fun i => [1, 2, 5, 7].contains i) = [1, 2, 5, 7, 0, 3, 4, 6] ∧ rankOf (fun i => [1, 2, 5, 7].contains i) 6 = 3 := by
  decide +kernel
example : ∀ t, lane 16 2 (Compress t 16 16 mA kM16) = lane 16 5 mA ∧ lane 16 4 (Compress t 16 16 mA kM16) = lane 16 0 mA ∧
    lane 16 0 (CompressNot t 16 16 mA kM16) = lane 16 0 mA ∧ lane 16 1 (CompressNot t 16 16 mA kM16) = lane 16 3 mA ∧
    lane 16 1 (CompressNot t 16 8 mA kM16) = lane 16 3 mA ∧ lane 16 0 (CompressBits t 16 8 mA kBits) = lane 16 1 mA ∧
    lane 32 0 (Compress t 32 16 xA kM32) = lane 32 1 xA ∧ lane 64 0 (Compress t 64 16 xA (set 64 0#64)) = lane 64 0 xA := by
  intro t; cases t <;> decide +kernel
example : ∀ t, (CompressStore t 16 16 mA kM16 kMem16).2 = 4 ∧ (CompressStore t 16 16 mA kM16 kMem16).1 3 = lane 16 7 mA ∧
    (CompressStore t 16 16 mA kM16 kMem16).1 8 = 0x9008#16 ∧ (CompressBlendedStore t 16 16 mA kM16 kMem16).1 4 = 0x9004#16 ∧
    (CompressBlendedStore t 16 16 mA kM16 kMem16).1 0 = lane 16 1 mA ∧ (CompressBitsStore t 16 8 mA kBits kMem16).2 = 2 := by
  intro t; cases t <;> decide +kernel
example : ∀ t, (CompressStore8 t 16 kV8 kM8 kBits kMem8).2 = 4 ∧ (CompressStore8 t 16 kV8 kM8 kBits kMem8).1 3 = 0x1F#8 ∧
    (CompressStore8 t 16 kV8 kM8 kBits kMem8).1 1 = 0x13#8 ∧ lane 8 2 (Compress8 t 16 kV8 kM8 kBits kMem8) = 0x19#8 ∧
    lane 8 1 (CompressNot8 t 4 kV8 kM8 kBits kMem8) = 0x12#8 ∧ (CompressBlendedStore8 t 4 kV8 kM8 kBits kMem8 kMem8).1 2 = 0xEE#8 := by
  intro t; cases t <;> decide +kernel
/-- Four bytes with four unused bits set: two lanes are selected, six are reported. -/
example : ∀ t, (CompressBitsStore8 t 4 kV8 kBits kMem8).2 = 6 ∧ selected 4 (bitAt kBits) = [1, 3] ∧
    (CompressBitsStore8 t 4 kV8 kBits kMem8).1 0 = 0x11#8 := by
  intro t; cases t <;> decide +kernel
example : ∀ t gcc, lane 8 9 (Expand t gcc 8 16 kV8 kM8) = 0x12#8 ∧ lane 8 15 (Expand t gcc 8 16 kV8 kM8) = 0x13#8 ∧
    lane 8 1 (Expand t gcc 8 16 kV8 kM8) = 0#8 ∧ lane 16 5 (Expand t gcc 16 16 mA kM16) = lane 16 2 mA ∧
    lane 16 0 (Expand t gcc 16 16 mA kM16) = 0#16 ∧ lane 32 3 (Expand t gcc 32 16 xA kM32) = lane 32 1 xA ∧
    lane 8 3 (LoadExpand t gcc 8 4 kM8 kBits) = 0x81#8 := by
  intro t gcc; cases t <;> cases gcc <;> decide +kernel

end Hwy.X86
