import Verif.X86V256MulSpec
import Verif.X86V256OpsExamples

/-!
# Concrete cases for C77
-/

namespace Hwy.X86.V256

-- Lanes 5 and 6 of `vC` are 2^31-1 and -3.
example : lane256 32 5 (MulQ 32 vC vC) = 1#32 ∧ lane256 64 3 (MulQ 64 vD vD) = BitVec.ofInt 64 4900000000 ∧
    lane256 16 10 (MulQ 16 vC vC) = 1#16 := by
  rw [C77_mul true w32' (by decide) vC vC (i := 5) (by decide), C77_mul true w64' (by decide) vD vD (i := 3) (by decide),
    C77_mul false w16' (by decide) vC vC (i := 10) (by decide)]
  decide +kernel
example : lane256 64 3 (MulEvenQ true 32 vC vC) = 9#64 ∧ lane256 64 2 (MulOddQ true 32 vC vC) = 0x3FFFFFFF00000001#64 ∧
    lane256 64 3 (MulEvenQ false 32 vC vC) = 0xFFFFFFFA00000009#64 ∧
    lane256 32 5 (MulHighQ true 32 vC vC) = 0x3FFFFFFF#32 ∧ lane256 16 13 (MulEvenQ true 8 vC vC) = 1#16 := by
  have e1 := C77_mulEven true (w := 32) (by simp [NarrowW]) vC vC (i := 3) (by decide)
  have e2 := C77_mulOdd true (w := 32) (by simp [NarrowW]) vC vC (i := 2) (by decide)
  have e3 := C77_mulEven false (w := 32) (by simp [NarrowW]) vC vC (i := 3) (by decide)
  have e4 := C77_mulHigh true (w := 32) (by simp [NarrowW]) vC vC (i := 5) (by decide)
  have e5 := C77_mulEven true (w := 8) (by simp [NarrowW]) vC vC (i := 13) (by decide)
  refine ⟨e1.trans ?_, e2.trans ?_, e3.trans ?_, e4.trans ?_, e5.trans ?_⟩ <;> decide +kernel
/-- Both halves of a 64-bit product, signed and unsigned. -/
example : lane256 64 3 (MulHigh64Q true vD (setQ 64 2#64)) = BitVec.allOnes 64 ∧ lane256 64 3 (MulHigh64Q false vD (setQ 64 2#64)) = 1#64 ∧
    lane256 64 3 (MulOdd64Q true vD (setQ 64 2#64)) = BitVec.allOnes 64 ∧ lane256 64 2 (MulEven64Q true vD vD) = 0x200000001#64 := by
  have c1 := (C77_mul64 true vD (setQ 64 2#64)).1 3 (by decide)
  have c2 := (C77_mul64 false vD (setQ 64 2#64)).1 3 (by decide)
  have c3 := ((C77_mul64 true vD (setQ 64 2#64)).2 1 (by decide)).2.2.2
  have c4 := ((C77_mul64 true vD vD).2 1 (by decide)).1
  refine ⟨c1.trans ?_, c2.trans ?_, c3.trans ?_, c4.trans ?_⟩ <;> decide +kernel
example : lane256 32 6 (WidenMulPairwiseAddQ true vC vC) = 10#32 ∧
    lane256 32 7 (RearrangeToOddPlusEvenQ (ReorderWidenMulAccumulateQ false vC vC vC) vC) = 90300#32 := by
  rw [(C77_widenMul true vC vC vC vC (i := 6) (by decide)).1, (C77_widenMul false vC vC vC vC (i := 7) (by decide)).2]
  decide +kernel
/-- `1/4 * 1/4 = 1/16` and a negative product. -/
example : val true (lane256 16 9 (MulFixedPoint15Q (setQ 16 0x2000#16) (setQ 16 0x2000#16))) = 2048 ∧
    val true (lane256 16 14 (MulFixedPoint15Q (setQ 16 0x2000#16) vC)) = 75 := by
  rw [C77_mulFixedPoint15 (setQ 16 0x2000#16) (setQ 16 0x2000#16) (i := 9) (by decide) (by decide +kernel),
    C77_mulFixedPoint15 (setQ 16 0x2000#16) vC (i := 14) (by decide) (by decide +kernel)]
  decide +kernel
/-- Counts that differ between the lanes: bytes 0, 1, 2, … of `bits` are 1, 2, 3, 0, 1, …. -/
def vBits8 : M256 := ⟨mk 8 (fun i => BitVec.ofNat 8 ((i + 1) % 8)), mk 8 (fun i => BitVec.ofNat 8 ((i + 5) % 8))⟩
example : lane256 8 28 (ShlQ 8 vC vBits8) = 0x58#8 ∧ lane256 8 25 (ShrQ true 8 vC vBits8) = 0xFF#8 ∧ lane256 8 25 (ShrQ false 8 vC vBits8) = 0x03#8 ∧
    lane256 32 6 (ShrQ true 32 vC (setQ 32 1#32)) = BitVec.ofInt 32 (-2) ∧ lane256 64 3 (ShrQ true 64 vD (setQ 64 4#64)) = BitVec.ofInt 64 (-4375) ∧
    lane256 16 14 (ShlQ 16 vC (setQ 16 3#16)) = 2400#16 := by
  refine ⟨(C77_shl w8' vC vBits8 (i := 28) (by decide) (by decide +kernel)).trans ?_, (C77_shr true w8' vC vBits8 (i := 25) (by decide) (by decide +kernel)).trans ?_,
    (C77_shr false w8' vC vBits8 (i := 25) (by decide) (by decide +kernel)).trans ?_,
    (C77_shr true w32' vC (setQ 32 1#32) (i := 6) (by decide) (by decide +kernel)).trans ?_,
    (C77_shr true w64' vD (setQ 64 4#64) (i := 3) (by decide) (by decide +kernel)).trans ?_,
    (C77_shl w16' vC (setQ 16 3#16) (i := 14) (by decide) (by decide +kernel)).trans ?_⟩ <;> decide +kernel
example : val true (lane256 32 7 (ShrQ true 32 vC (setQ 32 3#32))) = 37 := by
  rw [C77_shr_value true w32' vC (setQ 32 3#32) (i := 7) (by decide) (by decide +kernel)]; decide +kernel
/-- The count 35 is taken modulo the lane width. -/
example : lane256 32 7 (RolQ 32 vC (setQ 32 35#32)) = 2400#32 ∧ lane256 32 5 (RorQ 32 vC (setQ 32 1#32)) = 0xBFFFFFFF#32 := by
  rw [(C77_rotate w32' vC (setQ 32 35#32) (i := 7) (by decide)).1, (C77_rotate w32' vC (setQ 32 1#32) (i := 5) (by decide)).2]
  decide +kernel

end Hwy.X86.V256
