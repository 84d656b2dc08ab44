import Verif.X86V256OpsSpec
import Verif.X86V256ConvExamples

/-!
# Concrete cases for C76
-/

namespace Hwy.X86.V256

-- Lanes 4 to 7 of `vC` are 7, 2^31-1, -3 and 300.
example : lane256 32 6 (GtQ true 32 vC zero256) = 0#32 ∧ lane256 32 6 (GtQ false 32 vC zero256) = BitVec.allOnes 32 ∧
    lane256 32 7 (GeQ true 32 vC vC) = BitVec.allOnes 32 := by
  rw [(C76_compare true (w := 32) (by simp [Width]) vC zero256).2.2.1 6 (by decide),
    (C76_compare false (w := 32) (by simp [Width]) vC zero256).2.2.1 6 (by decide),
    (C76_compare true (w := 32) (by simp [Width]) vC vC).2.2.2.1 7 (by decide)]
  decide +kernel
/-- A mask that is true in some lanes only. -/
example : MaskOf256 32 (LtQ true 32 vC zero256) (fun i => decide (val true (lane256 32 i vC) < val true (lane256 32 i zero256))) ∧
    lane256 32 6 (IfThenElse (LtQ true 32 vC zero256) vC zero256) = BitVec.ofInt 32 (-3) ∧
    lane256 32 7 (IfThenElse (LtQ true 32 vC zero256) vC zero256) = 0#32 ∧
    lane256 32 7 (IfThenZeroElseQ (LtQ true 32 vC zero256) vC) = 300#32 := by
  have hm := (C76_compare true (w := 32) (by simp [Width]) vC zero256).2.2.2.2.1
  have hw : Width 32 := by simp [Width]
  rw [(C76_ifThenElse hw hm vC zero256 (i := 6) (by decide)).1, (C76_ifThenElse hw hm vC zero256 (i := 7) (by decide)).1,
    (C76_ifThenElse hw hm vC vC (i := 7) (by decide)).2.2.2]
  exact ⟨hm, by decide +kernel⟩
example : val true (lane256 64 3 (MinIQ 64 vD zero256)) = -70000 ∧ val false (lane256 64 3 (MinUQ 64 vD zero256)) = 0 := by
  rw [(C76_minMax (w := 64) (by simp [Width]) vD zero256 (i := 3) (by decide)).2.1, (C76_minMax (w := 64) (by simp [Width]) vD zero256 (i := 3) (by decide)).1]
  decide +kernel
example : lane256 32 5 (AddQ 32 vC vC) = BitVec.ofInt 32 (-2) ∧ lane256 64 3 (ShiftRightIQ 64 4 vD) = BitVec.ofInt 64 (-4375) ∧
    lane256 8 17 (RotateRightQ 8 3 (setQ 8 0xB1#8)) = 0x36#8 ∧ lane256 64 3 (ShiftRightSameIQ true 64 vD 4) = BitVec.ofInt 64 (-4375) ∧
    lane256 64 3 (ShiftRightSameIQ false 64 vD 4) = BitVec.ofInt 64 (-4375) := by
  rw [(C76_addSub (w := 32) (by simp [Width]) vC vC (i := 5) (by decide)).1, (C76_shift (w := 64) (by simp [Width]) vD (k := 4) (by decide) (i := 3) (by decide)).2.2.1,
    (C76_shift (w := 8) (by simp [Width]) _ (k := 3) (by decide) (i := 17) (by decide)).2.2.2.1,
    (C76_shiftSame true (w := 64) (by simp [Width]) vD (n := 4) (by decide) (i := 3) (by decide)).2.2,
    (C76_shiftSame false (w := 64) (by simp [Width]) vD (n := 4) (by decide) (i := 3) (by decide)).2.2]
  decide +kernel
example : val true (lane256 16 9 (SaturatedAddQ true 16 (setQ 16 30000#16) (setQ 16 30000#16))) = 32767 ∧
    val true (lane256 8 20 (AverageRoundQ true 8 (setQ 8 (-5)) (setQ 8 (-6)))) = -5 ∧
    val true (lane256 64 3 (SumsOf8IQ (setQ 8 (-100)))) = -800 ∧
    val false (lane256 64 3 (SumsOf8AbsDiffQ true (setQ 8 (-100)) (setQ 8 100#8))) = 1600 := by
  rw [(C76_saturated true (w := 16) (by simp) _ _ (i := 9) (by decide)).1, (C76_saturated true (w := 8) (by simp) _ _ (i := 20) (by decide)).2.2,
    (C76_sumsOf8 true _ (setQ 8 0#8) (i := 3) (by decide)).2.1, (C76_sumsOf8 true _ _ (i := 3) (by decide)).2.2]
  decide +kernel
example : val true (lane256 8 31 (AbsQ true 8 (setQ 8 (-128)))) = -128 ∧ val true (lane256 8 31 (SaturatedAbsQ true 8 (setQ 8 (-128)))) = 127 ∧
    val true (lane256 64 3 (AbsQ false 64 vD)) = 70000 := by
  rw [(C76_abs true (w := 8) (by simp [Width]) _ (i := 31) (by decide)).1, (C76_abs true (w := 8) (by simp [Width]) _ (i := 31) (by decide)).2,
    (C76_abs false (w := 64) (by simp [Width]) _ (i := 3) (by decide)).1]
  decide +kernel
example : lane256 64 3 (IfNegativeThenElseQ 64 vD zero256 vD) = 0#64 ∧ lane256 32 6 (IfNegativeThenNegOrUndefIfZeroQ 32 vC vC) = 3#32 := by
  rw [(C76_ifNegative (w := 64) (by simp [Width]) vD zero256 vD (i := 3) (by decide)).1,
    (C76_ifNegative (w := 32) (by simp [Width]) vC vC vC (i := 6) (by decide)).2 (by decide +kernel)]
  decide +kernel
example : lane256 32 6 (ZeroIfNegativeQ true 32 vC) = 0#32 ∧ lane256 32 7 (ZeroIfNegativeQ true 32 vC) = 300#32 := by
  rw [C76_zeroIfNegative true (by simp) vC (by decide), C76_zeroIfNegative true (by simp) vC (by decide)]; decide +kernel

end Hwy.X86.V256
