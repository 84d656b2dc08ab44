import Verif.X86MulSpec2
import Verif.X86PermExamples

/-! Concrete registers for the theorems of C64. -/

namespace Hwy.X86

/-- 16-bit lanes including both extremes. -/
def mA : M128 := mk 16 (fun i => [BitVec.ofInt 16 (-32768), 32767#16, BitVec.ofInt 16 (-3), 300#16, 5#16, 0#16,
  BitVec.ofInt 16 (-1), 0x4000#16].getD i 0)
/-- Partner of `mA`. -/
def mB : M128 := mk 16 (fun i => [32767#16, 32767#16, 7#16, BitVec.ofInt 16 (-300), BitVec.ofInt 16 (-32768), 9#16,
  BitVec.ofInt 16 (-1), 0x4000#16].getD i 0)

example : NarrowW 8 ∧ NarrowW 16 ∧ NarrowW 32 := by simp [NarrowW]
-- the emulated and the native products agree
example : MulEven .sse2 true 32 xA xB = MulEven .avx2 true 32 xA xB := by decide +kernel
example : Mul .ssse3 32 16 xA xB = Mul .sse4 32 16 xA xB := by decide +kernel
example : lane 64 1 (MulEven .sse2 true 32 xA xB) = BitVec.ofInt 64 (-(2 ^ 31)) ∧
    lane 64 1 (MulEven .sse2 false 32 xA xB) = BitVec.ofInt 64 (2 ^ 31) := by decide +kernel
example : lane 32 1 (MulHigh .sse2 true 32 8 xA xB) = BitVec.ofInt 32 (-1) ∧
    lane 32 1 (MulHigh .sse2 false 32 8 xA xB) = 6#32 := by decide +kernel
example : lane 8 0 (MulHigh .avx2 false 8 1 xE xE) = 56#8 := by decide +kernel
example : lane 64 1 (Mul .sse2 64 16 xC xD) = BitVec.intMin 64 := by decide +kernel
example : MulEven64 .sse2 false true xC xD = MulEven64 .sse2 true true xC xD ∧
    lane 64 1 (MulOdd64 .sse2 false false xC xD) = 0x7FFFFFFFFFFFFFFF#64 := by decide +kernel
example : lane 64 1 (MulHigh64 .sse2 true true 16 xC xD) = 0#64 := by decide +kernel
example : lane 32 0 (WidenMulPairwiseAdd .sse2 true mA mB) = BitVec.ofInt 32 (-(32768 * 32767) + 32767 * 32767) := by
  decide +kernel
example : lane 32 3 (WidenMulPairwiseAdd .sse2 false mA mB) = BitVec.ofNat 32 (65535 * 65535 + 0x4000 * 0x4000) := by
  decide +kernel
example : MulFixedPoint15 .sse2 16 mA mB = MulFixedPoint15 .avx2 16 mA mB ∧
    lane 16 7 (MulFixedPoint15 .sse2 16 mA mB) = 0x2000#16 := by decide +kernel
-- the exception of `MulFixedPoint15`: the targets differ when both factors are -32768
example : lane 16 0 (MulFixedPoint15 .sse2 16 mA mA) = 32767#16 ∧
    lane 16 0 (MulFixedPoint15 .avx2 16 mA mA) = BitVec.ofInt 16 (-32768) := by decide +kernel
example : ¬ (val true (lane 16 3 mA) = -32768 ∧ val true (lane 16 3 mB) = -32768) := by decide +kernel

end Hwy.X86
