import Verif.X86OpsSpec4

/-! Concrete registers for the theorems of C62. -/

namespace Hwy.X86

/-- 32-bit lanes `-5, 7, INT_MIN, INT_MAX`. -/
def xA : M128 := mk 32 (fun i => [BitVec.ofInt 32 (-5), 7#32, BitVec.intMin 32, 0x7FFFFFFF#32].getD i 0)
/-- 32-bit lanes `-5, -7, 1, INT_MAX - 1`. -/
def xB : M128 := mk 32 (fun i => [BitVec.ofInt 32 (-5), BitVec.ofInt 32 (-7), 1#32, 0x7FFFFFFE#32].getD i 0)
/-- 64-bit lanes whose halves compare differently. -/
def xC : M128 := mk 64 (fun i => [0x0000000100000000#64, BitVec.ofInt 64 (-1)].getD i 0)
/-- Partner of `xC`. -/
def xD : M128 := mk 64 (fun i => [0x00000000FFFFFFFF#64, BitVec.intMin 64].getD i 0)
/-- Bytes `0, 1, …, 15` shifted by `120`, hence crossing the sign boundary. -/
def xE : M128 := mk 8 (fun i => BitVec.ofNat 8 (120 + i))

example : InReg 32 3 ∧ InReg 64 1 ∧ InReg 8 15 ∧ InReg 16 7 := by
  refine ⟨⟨by omega, by omega⟩, ⟨by omega, by omega⟩, ⟨by omega, by omega⟩, ⟨by omega, by omega⟩⟩

-- comparisons, emulated on SSE2/SSSE3 and native on SSE4/AVX2
example : Eq .sse2 32 xA xB = mk 32 (fun i => if i = 0 then BitVec.allOnes 32 else 0) := by decide +kernel
example : Gt .sse2 true 64 xC xD = BitVec.allOnes 128 ∧ Gt .sse4 true 64 xC xD = BitVec.allOnes 128 := by
  decide +kernel
example : Gt .sse2 false 32 xA xB = Gt .avx2 false 32 xA xB := by decide +kernel
example : lane 32 2 (Gt .ssse3 false 32 xA xB) = BitVec.allOnes 32 ∧
    lane 32 2 (Gt .ssse3 true 32 xA xB) = 0 := by decide +kernel
example : IsMaskLane 64 1 (Gt .sse2 true 64 xC xD) ∧ isTrue 64 1 (Gt .sse2 true 64 xC xD) := by
  unfold IsMaskLane isTrue; decide +kernel
example : IfThenElse .sse2 (Eq .sse2 32 xA xB) xC xD = IfThenElse .sse4 (Eq .sse4 32 xA xB) xC xD := by
  decide +kernel
-- a mask lane that is neither all-ones nor zero breaks the agreement of the two select forms
example : IfThenElse .sse2 (set 8 0x80#8) xC zero ≠ IfThenElse .sse4 (set 8 0x80#8) xC zero := by decide +kernel
-- shifts
example : ShiftRightI .sse2 8 3 xE = ShiftRightI .avx2 8 3 xE ∧ (lane 8 15 (ShiftRightI .sse2 8 3 xE)).toInt = -16 := by
  decide +kernel
example : lane 8 15 (ShiftRightI .sse2 8 3 xE) = (lane 8 15 xE).sshiftRight 3 := by decide +kernel
example : lane 64 1 (ShiftRightI .sse2 64 63 xC) = BitVec.allOnes 64 := by decide +kernel
example : lane 32 1 (RotateRight 32 31 xA) = 14 := by decide +kernel
example : lane 16 7 (ShiftLeftSame 16 xE 14) = 0x8000 := by decide +kernel
-- minimum, absolute value, saturation
example : MinU .sse2 32 xA xB = MinU .sse4 32 xA xB ∧ MinU .sse2 16 xE xA = MinU .sse4 16 xE xA := by decide +kernel
example : lane 32 2 (Abs .sse2 32 xA) = BitVec.intMin 32 ∧
    lane 32 2 (SaturatedAbs .sse2 32 xA) = 0x7FFFFFFF#32 ∧
    SaturatedAbs .sse2 32 xA = SaturatedAbs .avx2 32 xA := by decide +kernel
example : val true (lane 8 7 (SaturatedAdd true 8 xE xE)) = 127 ∧
    val true (lane 8 8 (SaturatedAdd true 8 xE xE)) = -128 ∧
    val true (lane 8 8 (AverageRound true 8 xE zero)) = -64 := by decide +kernel
-- byte sums: 120 + … + 127 = 988 and (128 + … + 135) - 8 * 256 = -996
example : val true (lane 64 0 (SumsOf8I xE)) = 988 ∧ val true (lane 64 1 (SumsOf8I xE)) = -996 := by decide +kernel
example : val false (lane 64 0 (SumsOf8AbsDiff true xE (set 8 0x80#8))) = 2012 ∧
    val false (lane 64 0 (SumsOf8AbsDiff false xE (set 8 0x80#8))) = 36 := by decide +kernel
-- table lookup with the top bit set, `FirstN` beyond the vector
example : lane 8 3 (TableLookupBytesOr0 .sse2 xE (set 8 0x85#8)) = 0 ∧
    lane 8 3 (TableLookupBytesOr0 .avx2 xE (set 8 0x05#8)) = 125 := by decide +kernel
example : FirstN .sse2 8 16 300 = BitVec.allOnes 128 ∧ lane 8 3 (FirstN .sse2 8 16 3) = 0 ∧
    lane 8 2 (FirstN .sse2 8 16 3) = BitVec.allOnes 8 := by decide +kernel
-- hypotheses of `C62_testBit` and `C62_ifNegativeThenNegOrUndefIfZero`
example : lane 32 1 (set 32 4#32) = 1#32 <<< 2 ∧ val true (lane 32 1 xA) ≠ 0 := by decide +kernel

end Hwy.X86
