import Verif.X86V256Spec4
import Verif.X86PermExamples

/-!
# Concrete cases for C72 and C73
-/

namespace Hwy.X86.V256

/-- Bytes 0x10...0x1F, 0xA0...0xAF. -/
def vA : M256 := ⟨pA, pB⟩
/-- The same blocks, swapped. -/
def vB : M256 := ⟨pB, pA⟩
/-- Lane indices that cross blocks. -/
def vI16 : M256 := ofLanes 16 [9, 0, 15, 3, 3, 8, 1, 14, 7, 12, 2, 2, 31, 16, 20, 24]
def vI64 : M256 := ofLanes 64 [3, 0, 7, 5]

theorem w8 : Width 8 := Or.inl rfl
theorem w16 : Width 16 := Or.inr (Or.inl rfl)
theorem w32 : Width 32 := Or.inr (Or.inr (Or.inl rfl))
theorem w64 : Width 64 := Or.inr (Or.inr (Or.inr rfl))

example : lane256 8 17 (ConcatOdd 8 vA vB) = 0x13#8 := by
  rw [C72_concatOdd w8 _ _ (by decide)]; decide +kernel
example : lane256 16 3 (ConcatEven 16 vA vB) = 0xADAC#16 := by
  rw [C72_concatEven w16 _ _ (by decide)]; decide +kernel
example : lane256 32 5 (ConcatUpperLower false 32 vA vB) = 0xA7A6A5A4#32 := by
  rw [C72_concatUpperLower false w32 _ _ (by decide)]; decide +kernel
example : lane256 8 20 (InsertBlock true 8 1 vA pA pB) = 0x14#8 := by
  rw [C72_insertBlock true w8 (by decide) _ _ _ (by decide)]; decide +kernel
example : lane256 8 20 (CombineShiftRightBytes 13 vA vB) = 0xA1#8 := by
  rw [C72_combineShiftRightBytes (by decide) _ _ (by decide)]; decide +kernel
example : lane256 16 12 (Broadcast false 16 6 vA) = 0xADAC#16 := by
  rw [C72_broadcast false w16 (by decide) _ (by decide)]; decide +kernel
example : lane256 8 2 (BroadcastLane false 8 29 vA) = 0xAD#8 := by
  rw [C72_broadcastLane false w8 (by decide) _ (by decide)]; decide +kernel
example : lane256 8 21 (InterleaveUpper 8 vA vB) = 0x1A#8 := by
  rw [C72_interleaveUpper w8 _ _ (by decide)]; decide +kernel
example : lane256 8 21 (InterleaveWholeUpper 8 vA vB) = 0x1A#8 := by
  rw [C72_interleaveWholeUpper w8 _ _ (by decide)]; decide +kernel
example : lane256 16 11 (OddEven false 16 vA vB) = 0xA7A6#16 := by
  rw [C72_oddEven false w16 _ _ (by decide)]; decide +kernel
example : lane256 32 6 (InterleaveOdd true 32 vA vB) = 0xAFAEADAC#32 := by
  rw [C72_interleaveOdd true w32 _ _ (by decide)]; decide +kernel
example : lane256 64 1 (Reverse4 false 64 vA) = 0xA7A6A5A4A3A2A1A0#64 := by
  rw [C72_reverse4 false (by omega) _ (by decide)]; decide +kernel
example : lane256 8 16 (Slide1Up 8 vA) = 0x1F#8 := by
  rw [C72_slide1Up w8 _ (by decide)]; decide +kernel
example : lane256 8 15 (Slide1Down 8 vA) = 0xA0#8 := by
  rw [C72_slide1Down w8 _ (by decide)]; decide +kernel

/-- Index 9 of lane 0 names a lane of the upper block. -/
example : lane256 16 0 (TableLookupLanes 16 vA (IndicesFromVec 16 vI16)) = 0xA3A2#16 := by
  have e : lane256 16 0 vI16 = 9#16 := by
    unfold vI16; rw [lane_ofLanes w16 _ (by decide)]; decide
  rw [C73_tableLookupLanes w16 vA vI16 (by decide) (by rw [e]; decide), e]; decide +kernel
/-- Index 31 of lane 12 names the last lane of the second table. -/
example : lane256 16 12 (TwoTablesLookupLanes 16 vA vB (IndicesFromVec 16 vI16)) = 0x1F1E#16 := by
  have e : lane256 16 12 vI16 = 31#16 := by
    unfold vI16; rw [lane_ofLanes w16 _ (by decide)]; decide
  rw [C73_twoTablesLookupLanes w16 vA vB vI16 (by decide) (by rw [e]; decide), e]; decide +kernel
example : lane256 64 2 (TwoTablesLookupLanes 64 vA vB (IndicesFromVec 64 vI64)) = 0x1F1E1D1C1B1A1918#64 := by
  have e : lane256 64 2 vI64 = 7#64 := by
    unfold vI64; rw [lane_ofLanes w64 _ (by decide)]; decide
  rw [C73_twoTablesLookupLanes w64 vA vB vI64 (by decide) (by rw [e]; decide), e]; decide +kernel
example : lane256 32 1 (Reverse 32 vA) = 0xABAAA9A8#32 := by
  rw [C73_reverse w32 _ (by decide)]; decide +kernel
example : lane256 16 9 (Reverse8 16 vA) = 0xADAC#16 := by
  rw [C73_reverse8 (by omega) _ (by decide)]; decide +kernel
/-- All paths give the same lanes: 19 bytes up, 5 lanes down. -/
example (c1 c2 c3 : Bool) : lane256 8 18 (SlideUpLanes c1 c2 c3 8 vA 19) = 0#8 ∧ lane256 8 30 (SlideUpLanes c1 c2 c3 8 vA 19) = 0x1B#8 := by
  rw [C73_slideUpLanes c1 c2 c3 w8 _ (by decide) (by decide), C73_slideUpLanes c1 c2 c3 w8 _ (by decide) (by decide)]; decide +kernel
example (c1 c2 c3 : Bool) : lane256 32 2 (SlideDownLanes c1 c2 c3 32 vA 5) = 0xAFAEADAC#32 ∧ lane256 32 3 (SlideDownLanes c1 c2 c3 32 vA 5) = 0#32 := by
  rw [C73_slideDownLanes c1 c2 c3 w32 _ (by decide) (by decide), C73_slideDownLanes c1 c2 c3 w32 _ (by decide) (by decide)]; decide +kernel

end Hwy.X86.V256
