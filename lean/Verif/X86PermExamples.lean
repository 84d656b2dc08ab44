import Verif.X86PermSpec
import Verif.X86OpsExamples

/-! Concrete registers and vector types for the theorems of C63. -/

namespace Hwy.X86

example : Shape 8 16 ∧ Shape 16 8 ∧ Shape 32 8 ∧ Shape 64 16 ∧ ¬ Shape 64 4 ∧ Lanes 16 8 = 4 := by
  refine ⟨?_, ?_, ?_, ?_, ?_, rfl⟩ <;> simp [Shape]

/-- Bytes `0x10 .. 0x1F`. -/
def pA : M128 := mk 8 (fun i => BitVec.ofNat 8 (0x10 + i))
/-- Bytes `0xA0 .. 0xAF`. -/
def pB : M128 := mk 8 (fun i => BitVec.ofNat 8 (0xA0 + i))

-- the paths of different targets compute the same vector
example : ConcatOdd .sse2 8 16 pB pA = ConcatOdd .avx2 8 16 pB pA := by decide +kernel
example : (List.range 8).map (fun i => (lane 8 i (ConcatOdd .sse2 8 8 pB pA)).toNat)
    = [0x11, 0x13, 0x15, 0x17, 0xA1, 0xA3, 0xA5, 0xA7] := by decide +kernel
example : (List.range 8).map (fun i => (lane 8 i (ConcatEven .ssse3 8 8 pB pA)).toNat)
    = [0x10, 0x12, 0x14, 0x16, 0xA0, 0xA2, 0xA4, 0xA6] := by decide +kernel
example : lane 16 2 (ConcatOdd .sse2 16 8 pB pA) = lane 16 1 pB :=
  (C63_concatOdd .sse2 (Or.inr (Or.inl ⟨rfl, Or.inr (Or.inr (Or.inl rfl))⟩)) (by decide) pB pA (i := 2) (by decide)).trans
    (by decide +kernel)
example : lane 16 1 (InterleaveOdd .sse2 16 16 pA pB) = lane 16 1 pB ∧
    lane 16 0 (InterleaveOdd .sse2 16 16 pA pB) = lane 16 1 pA := by decide +kernel
example : lane 8 0 (Reverse .sse2 8 4 pA) = 0x13#8 ∧ lane 8 0 (Reverse .avx2 8 4 pA) = 0x13#8 := by decide +kernel
example : lane 8 3 (CombineShiftRightBytes .sse2 8 4 2 pB pA) = 0xA1#8 ∧
    lane 8 3 (CombineShiftRightBytes .avx2 8 4 2 pB pA) = 0xA1#8 := by decide +kernel
-- bytes above the partial vector do not enter
example : lane 8 3 (ShiftRightBytes .sse4 8 4 2 pA) = 0#8 ∧ lane 8 1 (ShiftRightBytes .sse4 8 4 2 pA) = 0x13#8 := by
  decide +kernel
example : Broadcast .sse2 8 11 pA = set 8 0x1B#8 ∧ Broadcast .avx2 8 11 pA = set 8 0x1B#8 := by decide +kernel

end Hwy.X86
