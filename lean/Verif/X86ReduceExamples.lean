import Verif.X86ReduceSpec3
import Verif.X86FirstExamples

/-!
# Concrete cases for C71
-/

namespace Hwy.X86

/-- Sixteen bytes whose sum wraps, with the least unsigned byte in the upper half and the least signed one in the lower half. -/
def rA : M128 := ofBytes [200, 130, 77, 255, 91, 100, 128, 60, 3, 250, 249, 45, 66, 7, 199, 250]

/-- The sum of the sixteen unsigned bytes is 2110; every byte of the result is 2110 mod 256. -/
example (t : Tgt) : lane 8 13 (SumOfLanes t false 8 16 rA) = BitVec.ofInt 8 2110 := by
  rw [C71_sumOfLanes t false (by simp [Shape]) rA (show 13 < Lanes 8 16 by decide)]; decide +kernel
example (t : Tgt) : ReduceSum t true 8 4 rA = BitVec.ofInt 8 (-106) := by
  rw [C71_reduceSum t true (by simp [Shape]) rA]; decide +kernel
example (t : Tgt) : ReduceSum t true 32 16 xA = BitVec.ofInt 32 1 := by
  rw [C71_reduceSum t true (by simp [Shape]) xA]; decide +kernel

/-- The unsigned minimum is byte 8. -/
example (t : Tgt) : ReduceMin t false 8 16 rA = 3#8 := by
  obtain ⟨h, k, hk, e⟩ := C71_reduceMin t false (show Shape 8 16 by simp [Shape]) rA
  have h8 := h 8 (by decide)
  rw [e] at h8 ⊢
  have key : ∀ k, k < 16 → val false (lane 8 k rA) ≤ val false (lane 8 8 rA) → lane 8 k rA = 3#8 := by decide +kernel
  exact key k hk h8
/-- The signed minimum is byte 6. -/
example (t : Tgt) : ReduceMin t true 8 16 rA = 128#8 := by
  obtain ⟨h, k, hk, e⟩ := C71_reduceMin t true (show Shape 8 16 by simp [Shape]) rA
  have h8 := h 6 (by decide)
  rw [e] at h8 ⊢
  have key : ∀ k, k < 16 → val true (lane 8 k rA) ≤ val true (lane 8 6 rA) → lane 8 k rA = 128#8 := by decide +kernel
  exact key k hk h8
/-- The unsigned maximum of the eight 16-bit lanes is in lane 7. -/
example (t : Tgt) : lane 16 2 (MaxOfLanes t false 16 16 rA) = 0xFF4D#16 := by
  obtain ⟨h, k, hk, e⟩ := C71_maxOfLanes t false (show Shape 16 16 by simp [Shape]) rA (show 2 < Lanes 16 16 by decide)
  have h8 := h 1 (by decide)
  rw [e] at h8 ⊢
  have key : ∀ k, k < 8 → val false (lane 16 1 rA) ≤ val false (lane 16 k rA) → lane 16 k rA = 0xFF4D#16 := by decide +kernel
  exact key k hk h8

/-- Masked sum over lanes 1, 2, 5, 7. -/
example (t : Tgt) : MaskedReduceSum t false 16 16 kM16 rA = BitVec.ofInt 16 (0xFF4D + 0x645B + 0x2DF9 + 0xFAC7) := by
  rw [C71_maskedReduceSum t false (by simp [Shape]) kM16 rA _ kM16_mask]; decide +kernel
example (t : Tgt) : MaskedReduceMin t false 8 16 kU8 rA = 45#8 := by
  obtain ⟨h1, h2, _⟩ := C71_maskedReduceMin t false (show Shape 8 16 by simp [Shape]) kU8 rA _ kU8_mask
  obtain ⟨k, hk, hp, e⟩ := h2 ⟨11, by decide, by decide⟩
  have := h1 11 (by decide) (by decide)
  rw [e] at this ⊢
  have key : ∀ k, k < 16 → [11, 14].contains k = true → val false (lane 8 k rA) ≤ val false (lane 8 11 rA) → lane 8 k rA = 45#8 := by decide +kernel
  exact key k hk hp this
/-- No true lane: the least signed value. -/
example (t : Tgt) : MaskedReduceMax t true 32 16 zero rA = BitVec.intMin 32 := by
  have := (C71_maskedReduceMax t true (show Shape 32 16 by simp [Shape]) zero rA (fun _ => false) (fun i hi => by
    rw [lane_zero']; rfl)).2.2 (fun _ _ => rfl)
  rw [this]; rfl
example (t : Tgt) : lane 8 6 (Reverse4x8 t 8 rA) = 100#8 := by
  rw [C71_reverse4 t (sz := 8) (by simp [Shape]) (by decide) rA (by decide)]; decide +kernel
example (t : Tgt) : lane 8 6 (Reverse2x8 t rA) = 60#8 := by
  rw [C71_reverse2 t (sz := 8) (by simp [Shape]) (by decide) rA (by decide)]; decide +kernel
example (t : Tgt) : lane 8 9 (Rev8 t 8 16 rA) = 199#8 := by
  rw [C71_reverse8 t (by simp [Shape]) (by decide) rA (by decide)]; decide +kernel

end Hwy.X86
