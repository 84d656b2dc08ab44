import Verif.X86V256ReduceSpec
import Verif.X86V256FirstExamples
import Verif.X86ReduceExamples

/-!
# Concrete cases for C79
-/

namespace Hwy.X86.V256

/-- Thirty-two bytes: the least unsigned one is byte 24, the least signed ones are byte 6 and byte 30. -/
def rQ : M256 := ⟨rA, ofBytes [9, 8, 7, 6, 100, 200, 255, 254, 1, 90, 80, 70, 60, 50, 128, 41]⟩

-- The unsigned bytes add up to 3469, so every byte of the sum is 3563 mod 256 = 141.
example : lane256 8 29 (SumOfLanesQ false 8 rQ) = 141#8 ∧ lane256 8 3 (SumOfLanesQ true 8 rQ) = 141#8 ∧ ReduceSumQ false 8 rQ = 141#8 := by
  rw [C79_sumOfLanes false (w := 8) (by simp [Width]) rQ (i := 29) (by decide), C79_sumOfLanes true (w := 8) (by simp [Width]) rQ (i := 3) (by decide),
    C79_reduceSum false (w := 8) (by simp [Width]) rQ]
  decide +kernel
/-- The sum of the eight 32-bit lanes of `vC`. -/
example : ReduceSumQ true 32 vC = BitVec.ofInt 32 (((List.range 8).map (fun j => val true (lane256 32 j vC))).sum) :=
  C79_reduceSum true (w := 32) (by simp [Width]) vC

example : ReduceMinQ false 8 rQ = 1#8 := by
  obtain ⟨h, k, hk, e⟩ := C79_reduceMin false (w := 8) (by simp [Width]) rQ
  have h8 := h 24 (by decide)
  rw [e] at h8 ⊢
  have key : ∀ k, k < 32 → val false (lane256 8 k rQ) ≤ val false (lane256 8 24 rQ) → lane256 8 k rQ = 1#8 := by decide +kernel
  exact key k hk h8
example : lane256 8 31 (MinOfLanesQ true 8 rQ) = 128#8 := by
  obtain ⟨h, k, hk, e⟩ := C79_minOfLanes true (w := 8) (by simp [Width]) rQ (i := 31) (by decide)
  have h8 := h 6 (by decide)
  rw [e] at h8 ⊢
  have key : ∀ k, k < 32 → val true (lane256 8 k rQ) ≤ val true (lane256 8 6 rQ) → lane256 8 k rQ = 128#8 := by decide +kernel
  exact key k hk h8
/-- The greatest signed byte is in the upper block, and the result is also seen in the lower one. -/
example : lane256 8 2 (MaxOfLanesQ true 8 rQ) = 100#8 ∧ ReduceMaxQ false 8 rQ = 255#8 := by
  constructor
  · obtain ⟨h, k, hk, e⟩ := C79_maxOfLanes true (w := 8) (by simp [Width]) rQ (i := 2) (by decide)
    have h8 := h 20 (by decide)
    rw [e] at h8 ⊢
    have key : ∀ k, k < 32 → val true (lane256 8 20 rQ) ≤ val true (lane256 8 k rQ) → lane256 8 k rQ = 100#8 := by decide +kernel
    exact key k hk h8
  · obtain ⟨h, k, hk, e⟩ := C79_reduceMax false (w := 8) (by simp [Width]) rQ
    have h8 := h 3 (by decide)
    rw [e] at h8 ⊢
    have key : ∀ k, k < 32 → val false (lane256 8 3 rQ) ≤ val false (lane256 8 k rQ) → lane256 8 k rQ = 255#8 := by decide +kernel
    exact key k hk h8

/-- The mask of the negative bytes of `rQ`. -/
theorem negQ : MaskOf256 8 (LtQ true 8 rQ zero256) (fun i => decide (val true (lane256 8 i rQ) < val true (lane256 8 i zero256))) :=
  (C76_compare true (w := 8) (by simp [Width]) rQ zero256).2.2.2.2.1
example : MaskedReduceSumQ true 8 (LtQ true 8 rQ zero256) rQ =
    BitVec.ofInt 8 (((List.range 32).map (fun j => min 0 (val true (lane256 8 j rQ)))).sum) := by
  rw [C79_maskedReduceSum true (w := 8) (by simp [Width]) negQ]; decide +kernel
/-- The greatest negative byte. -/
example : MaskedReduceMaxQ true 8 (LtQ true 8 rQ zero256) rQ = 255#8 := by
  obtain ⟨h1, h2, _⟩ := C79_maskedReduceMax true (w := 8) (by simp [Width]) negQ rQ
  obtain ⟨k, hk, hp, e⟩ := h2 ⟨3, by decide, by decide +kernel⟩
  have h3 := h1 3 (by decide) (by decide +kernel)
  rw [e] at h3 ⊢
  have key : ∀ k, k < 32 → val true (lane256 8 k rQ) < val true (lane256 8 k zero256) →
    val true (lane256 8 3 rQ) ≤ val true (lane256 8 k rQ) → lane256 8 k rQ = 255#8 := by decide +kernel
  exact key k hk (of_decide_eq_true hp) h3
/-- No byte is less than the least one: the empty mask gives the limit. -/
example : MaskedReduceMinQ true 8 (LtQ true 8 rQ rQ) rQ = 127#8 := by
  have hm := (C76_compare true (w := 8) (by simp [Width]) rQ rQ).2.2.2.2.1
  exact ((C79_maskedReduceMin true (w := 8) (by simp [Width]) hm rQ).2.2 (fun j _ => by simp)).trans (by decide)
example : lane256 8 21 (Reverse4x8Q rQ) = 255#8 ∧ lane256 8 17 (Reverse2x8Q rQ) = 9#8 ∧ lane256 8 8 (Reverse8x8Q rQ) = 250#8 := by
  rw [(C79_reverseBytes rQ (i := 21) (by decide)).2.1, (C79_reverseBytes rQ (i := 17) (by decide)).1, (C79_reverseBytes rQ (i := 8) (by decide)).2.2]
  decide +kernel

end Hwy.X86.V256
