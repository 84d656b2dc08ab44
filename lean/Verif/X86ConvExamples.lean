import Verif.X86ConvSpec4
import Verif.X86ConvSpec5
import Verif.X86MulExamples

/-! Concrete registers for the theorems of C65. -/

namespace Hwy.X86

/-- 32-bit lanes below, inside and above the ranges of the 8- and 16-bit types. -/
def cA : M128 := mk 32 (fun i => [BitVec.ofInt 32 (-40000), 65535#32, 0x80000000#32, 200#32].getD i 0)
/-- 64-bit lanes below and above the ranges of the narrower types. -/
def cB : M128 := mk 64 (fun i => [BitVec.ofInt 64 (-5), 0x8000000000000001#64].getD i 0)
/-- Bytes with both signs. -/
def cC : M128 := mk 8 (fun i => [127#8, 255#8, 128#8, 1#8, 200#8, 100#8, 0#8, 254#8].getD (i % 8) 0)

example : Widens 8 64 ∧ Widens 16 32 ∧ Narrows 64 8 ∧ Narrows 32 16 := by simp [Widens, Narrows]
example : Shape 16 16 ∧ Shape 16 8 ∧ Lanes 16 16 = 8 := by simp [Shape, Lanes]
-- widening: a negative byte in every target, signed and unsigned
example : ∀ t, lane 64 1 (PromoteTo t true 8 64 cC) = BitVec.ofInt 64 (-1) ∧ lane 64 1 (PromoteTo t false 8 64 cC) = 255#64 := by
  intro t; cases t <;> decide +kernel
example : ∀ t, lane 32 1 (PromoteUpperTo t true 16 16 mA) = 0#32 ∧ lane 32 2 (PromoteUpperTo t true 16 16 mA) = BitVec.ofInt 32 (-1) := by
  intro t; cases t <;> decide +kernel
example : ∀ t, lane 64 1 (PromoteEvenTo t true 32 16 cA) = BitVec.ofInt 64 (-(2 ^ 31)) ∧
    lane 64 1 (PromoteOddTo t false 32 16 cA) = 200#64 := by intro t; cases t <;> decide +kernel
-- narrowing: both bounds are hit and the targets agree
example : ∀ t, lane 16 0 (DemoteTo t true 32 true 16 4 cA) = BitVec.ofInt 16 (-32768) ∧
    lane 16 0 (DemoteTo t true 32 false 16 4 cA) = 0#16 ∧ lane 16 1 (DemoteTo t true 32 false 16 4 cA) = 65535#16 ∧
    lane 16 2 (DemoteTo t false 32 true 16 4 cA) = 32767#16 ∧ lane 8 3 (DemoteTo t true 32 false 8 4 cA) = 200#8 := by
  intro t; cases t <;> decide +kernel
example : ∀ t, lane 8 0 (DemoteTo t true 64 true 8 2 cB) = BitVec.ofInt 8 (-5) ∧ lane 8 1 (DemoteTo t true 64 true 8 2 cB) = 128#8 ∧
    lane 32 1 (DemoteTo t false 64 true 32 2 cB) = 0x7FFFFFFF#32 := by intro t; cases t <;> decide +kernel
example : ∀ t, lane 16 1 (TruncateTo t 32 16 4 cA) = 65535#16 ∧ lane 16 0 (TruncateTo t 32 16 4 cA) = 25536#16 := by
  intro t; cases t <;> decide +kernel
example : ∀ t, lane 8 0 (ReorderDemote2To t true false 8 16 mA mB) = 0#8 ∧ lane 8 11 (ReorderDemote2To t true false 8 16 mA mB) = 0#8 ∧
    lane 8 10 (ReorderDemote2To t true false 8 16 mA mB) = 7#8 := by intro t; cases t <;> decide +kernel
example : (32 = 32 → (8 : Nat) = 16 → Tgt.avx2 ≠ .avx2) ∧ lane 32 1 (ReorderDemote2To .sse2 false true 32 8 cB cB) = 0x7FFFFFFF#32 := by
  constructor
  · decide
  · decide +kernel
-- 8-bit products
example : lane 8 9 (Mul8 .sse2 true 16 cC cC) = 1#8 ∧ Mul8 .sse2 true 16 cC cC = Mul8 .ssse3 false 16 cC cC := by decide +kernel
-- saturation of the pairwise sum: 255 * 127 twice
example : ∀ t, lane 16 3 (SatWidenMulPairwiseAdd t 16 (set 8 255#8) (set 8 127#8)) = 32767#16 := by
  intro t; cases t <;> decide +kernel

end Hwy.X86
