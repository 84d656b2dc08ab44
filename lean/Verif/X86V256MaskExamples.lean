import Verif.X86V256CompressSpec
import Verif.X86V256Examples
import Verif.X86MaskExamples

/-!
# Concrete cases for C74
-/

namespace Hwy.X86.V256

/-- Bits of a 32-lane mask: 1, 3–8, 15, 16–18, 20–22, 26, 31. -/
def kq : Mem 8 := fun i => [0xFA#8, 0x81#8, 0x77#8, 0x84#8].getD i 0xFF#8
/-- A mask with these bits exists for every width and both blocks are mixed. -/
theorem kq_mask {w : Nat} (hw : Width w) : MaskOf256 w (LoadMaskBits w kq) (bitAt kq) := C74_loadMaskBits hw kq

example : selected 16 (bitAt kq) = [1, 3, 4, 5, 6, 7, 8, 15] ∧ packOrder 8 (bitAt kq) = [1, 3, 4, 5, 6, 7, 0, 2] ∧
    selected 32 (bitAt kq) = [1, 3, 4, 5, 6, 7, 8, 15, 16, 17, 18, 20, 21, 22, 26, 31] ∧ rankOf (bitAt kq) 15 = 7 := by decide +kernel
example (b : Bool) : CountTrue b 8 (LoadMaskBits 8 kq) = 16 ∧ CountTrue b 16 (LoadMaskBits 16 kq) = 8 := by
  rw [C74_countTrue b w8 (kq_mask w8), C74_countTrue b w16 (kq_mask w16)]; decide +kernel
example (b : Bool) : FindFirstTrue b 16 (LoadMaskBits 16 kq) = 1 ∧ FindLastTrue b 16 (LoadMaskBits 16 kq) = 15 := by
  refine ⟨((C74_findFirstTrue b w16 (kq_mask w16)).2 1 (by decide) (by decide) (by decide)).1, ?_⟩
  exact ((C74_findLastTrue b w16 (kq_mask w16)).2 15 (by decide) (by decide) (by intro j h1 h2; omega)).1
example (b : Bool) : AllFalse b 64 (LoadMaskBits 64 kq) = false ∧ AllTrue b 64 (LoadMaskBits 64 kq) = false := by
  refine ⟨Bool.eq_false_iff.2 fun h => ?_, Bool.eq_false_iff.2 fun h => ?_⟩
  · have := (C74_allFalse b w64 (kq_mask w64)).1 h 1 (by decide); revert this; decide
  · have := (C74_allTrue b w64 (kq_mask w64)).1 h 0 (by decide); revert this; decide
/-- 16-bit lanes: the fourth selected lane comes from the lower block, the eighth from the upper one, the ninth is unselected. -/
example (b : Bool) : lane256 16 3 (Compress b 16 vA (LoadMaskBits 16 kq)) = 0x1B1A#16 ∧ lane256 16 7 (Compress b 16 vA (LoadMaskBits 16 kq)) = 0xAFAE#16 ∧
    lane256 16 8 (Compress b 16 vA (LoadMaskBits 16 kq)) = 0x1110#16 := by
  rw [C74_compress b w16 (by decide) vA (kq_mask w16) (by decide), C74_compress b w16 (by decide) vA (kq_mask w16) (by decide),
    C74_compress b w16 (by decide) vA (kq_mask w16) (by decide)]
  decide +kernel
example (b : Bool) : lane256 32 1 (CompressNot b 32 vA (LoadMaskBits 32 kq)) = 0x1B1A1918#32 ∧
    lane256 64 1 (CompressNot b 64 vA (LoadMaskBits 64 kq)) = 0xA7A6A5A4A3A2A1A0#64 := by
  rw [C74_compressNot b w32 (by decide) vA (kq_mask w32) (by decide), C74_compressNot b w64 (by decide) vA (kq_mask w64) (by decide)]
  decide +kernel
/-- Blocks: the first removed, the second kept. -/
example (b : Bool) {m : M256} (hm : MaskOf256 64 m (fun i => i / 2 == 0)) : lane256 64 1 (CompressBlocksNot b vA m) = 0xAFAEADACABAAA9A8#64 := by
  rw [C74_compressBlocksNot b vA (q := fun k => k == 0) hm (by decide)]; decide +kernel
example (b : Bool) : (CompressBlendedStore b 32 vA (LoadMaskBits 32 kq) (fun _ => 7#32)).2 = 6 ∧
    (CompressBlendedStore b 32 vA (LoadMaskBits 32 kq) (fun _ => 7#32)).1 5 = 0xAFAEADAC#32 ∧
    (CompressBlendedStore b 32 vA (LoadMaskBits 32 kq) (fun _ => 7#32)).1 6 = 7#32 := by
  obtain ⟨h1, h2⟩ := C74_compressBlendedStore b w32 (by decide) vA (kq_mask w32) (fun _ => 7#32)
  rw [h1, h2, h2]; decide +kernel
example (b : Bool) (u u2 : Mem 8) : (CompressBlendedStore8 b vA (LoadMaskBits 8 kq) u u2 kMem8).2 = 16 ∧
    (CompressBlendedStore8 b vA (LoadMaskBits 8 kq) u u2 kMem8).1 15 = 0xAF#8 ∧
    (CompressBlendedStore8 b vA (LoadMaskBits 8 kq) u u2 kMem8).1 16 = 0xEE#8 := by
  obtain ⟨h1, h2⟩ := C74_compressBlendedStore8 b vA (kq_mask w8) u u2 kMem8
  rw [h1, h2, h2]; decide +kernel
/-- Expansion: lane 15 of a 16-bit vector takes the lane numbered 7, lane 26 of the bytes the lane numbered 14. -/
example (b : Bool) : lane256 16 15 (Expand b 16 vA (LoadMaskBits 16 kq)) = 0x1F1E#16 ∧ lane256 8 31 (Expand b 8 vB (LoadMaskBits 8 kq)) = 0xAF#8 ∧
    lane256 32 7 (Expand b 32 vA (LoadMaskBits 32 kq)) = 0xA7A6A5A4#32 ∧ lane256 64 3 (Expand b 64 vA (LoadMaskBits 64 kq)) = 0x1F1E1D1C1B1A1918#64 ∧
    lane256 64 2 (Expand b 64 vA (LoadMaskBits 64 kq)) = 0#64 := by
  rw [C74_expand b w16 vA (kq_mask w16) (by decide), C74_expand b w8 vB (kq_mask w8) (by decide), C74_expand b w32 vA (kq_mask w32) (by decide),
    C74_expand b w64 vA (kq_mask w64) (by decide), C74_expand b w64 vA (kq_mask w64) (by decide)]
  decide +kernel
example : MaskOf256 16 (FirstN 16 11) (fun i => decide (i < 11)) ∧ MaskOf256 8 (FirstN 8 300) (fun i => decide (i < 300)) :=
  ⟨C74_firstN w16 11, C74_firstN w8 300⟩
/-- Model values directly. -/
example (b : Bool) : BitsFromMask b 16 (Dup128MaskFromMaskBits 16 0xA5) = 0xA5A5 := by cases b <;> decide +kernel

end Hwy.X86.V256
