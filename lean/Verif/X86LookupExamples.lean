import Verif.X86LookupSpec3
import Verif.X86ConvExamples

/-! Concrete registers for the theorems of C66. -/

namespace Hwy.X86

example : Shape 16 16 ∧ 3 < Lanes 16 16 ∧ Shape 8 4 := by simp [Shape, Lanes]
example : ∀ t c, SlideUpLanes t c 16 16 mA 3 = ShiftLeftLanes 16 3 mA ∧ lane 16 3 (SlideUpLanes t c 16 16 mA 3) = BitVec.ofInt 16 (-32768) := by
  intro t c; cases t <;> cases c <;> decide +kernel
example : ∀ t c, lane 16 2 (SlideUpLanes t c 16 16 mA 3) = 0#16 ∧ lane 8 3 (SlideUpLanes t c 8 4 xE 3) = 120#8 := by
  intro t c; cases t <;> cases c <;> decide +kernel
example : ∀ t c, lane 8 0 (SlideDownLanes t c 8 16 xE 13) = 133#8 ∧ lane 8 3 (SlideDownLanes t c 8 16 xE 13) = 0#8 ∧
    lane 8 1 (SlideDownLanes t c 8 4 xE 3) = 0#8 := by intro t c; cases t <;> cases c <;> decide +kernel
example : lane 32 0 (Slide1Up 32 4 xA) = 0#32 ∧ lane 32 1 (Slide1Up 32 16 xA) = BitVec.ofInt 32 (-5) := by decide +kernel
example : ∀ t, lane 32 2 (Slide1DownD t 32 16 xA) = 0x7FFFFFFF#32 ∧ lane 32 1 (Slide1DownD t 32 8 xA) = 0#32 := by
  intro t; cases t <;> decide +kernel
/-- Lane indices for a full 16-bit vector, some referring to the second table. -/
def lIdx : M128 := mk 16 (fun i => [7#16, 15#16, 0#16, 8#16, 3#16, 3#16, 11#16, 1#16].getD i 0)
/-- Lane indices for a full 64-bit vector. -/
def lIdx64 : M128 := mk 64 (fun i => [3#64, 0#64].getD i 0)
example : (lane 16 0 lIdx).toNat < Lanes 16 16 ∧ (lane 16 1 lIdx).toNat < 2 * Lanes 16 16 := by decide +kernel
example : ∀ t, lane 16 0 (TableLookupLanes t 16 16 mA (IndicesFromVec t 16 lIdx)) = 0x4000#16 := by
  intro t; cases t <;> decide +kernel
example : ∀ t, lane 16 1 (TwoTablesLookupLanes t 16 16 mA mB (IndicesFromVec t 16 lIdx)) = 0x4000#16 ∧
    lane 16 6 (TwoTablesLookupLanes t 16 16 mA mB (IndicesFromVec t 16 lIdx)) = BitVec.ofInt 16 (-300) := by
  intro t; cases t <;> decide +kernel
example : ∀ t, lane 64 0 (TwoTablesLookupLanes t 64 16 xC xD (IndicesFromVec t 64 lIdx64)) = BitVec.intMin 64 ∧
    lane 64 1 (TwoTablesLookupLanes t 64 16 xC xD (IndicesFromVec t 64 lIdx64)) = 0x100000000#64 := by
  intro t; cases t <;> decide +kernel

end Hwy.X86
