import Verif.X86BitsSpec
import Verif.X86V256ReduceExamples

/-!
# Concrete cases for C80
-/

namespace Hwy.X86

-- Bytes 0 and 1 of `rA` are 200 and 130; bytes 8 to 15 are 3, 250, 249, 45, 66, 7, 199, 250.
example (t : Tgt) : (lane 8 0 (PopulationCount t 8 16 rA)).toNat = 3 ∧ (lane 8 0 (PopulationCount t 8 4 rA)).toNat = 3 ∧
    (lane 16 0 (PopulationCount t 16 16 rA)).toNat = 5 ∧ (lane 32 2 (PopulationCount t 32 16 rA)).toNat = 18 ∧
    (lane 64 1 (PopulationCount t 64 16 rA)).toNat = 34 := by
  rw [C80_populationCount t (w := 8) (sz := 16) (by simp [Shape]) rA (i := 0) (by decide),
    C80_populationCount t (w := 8) (sz := 4) (by simp [Shape]) rA (i := 0) (by decide),
    C80_populationCount t (w := 16) (sz := 16) (by simp [Shape]) rA (i := 0) (by decide),
    C80_populationCount t (w := 32) (sz := 16) (by simp [Shape]) rA (i := 2) (by decide),
    C80_populationCount t (w := 64) (sz := 16) (by simp [Shape]) rA (i := 1) (by decide)]
  decide +kernel
example (t : Tgt) : (lane 32 1 (ReverseLaneBytes t 32 8 rA)).extractLsb' 0 8 = 60#8 := by
  rw [show (0 : Nat) = 8 * 0 from rfl, C80_reverseLaneBytes t (w := 32) (sz := 8) (by simp [Shape]) (by decide) rA (i := 1) (by decide) (j := 0) (by decide)]
  decide +kernel
example (t : Tgt) : (lane 64 1 (ReverseBits t 64 16 rA)).getLsbD 62 = true ∧ (lane 64 1 (ReverseBits t 64 16 rA)).getLsbD 61 = false ∧
    (lane 8 0 (ReverseBits t 8 1 rA)).getLsbD 0 = true := by
  rw [C80_reverseBits t (w := 64) (sz := 16) (by simp [Shape]) rA (i := 1) (by decide) (k := 62) (by decide),
    C80_reverseBits t (w := 64) (sz := 16) (by simp [Shape]) rA (i := 1) (by decide) (k := 61) (by decide),
    C80_reverseBits t (w := 8) (sz := 1) (by simp [Shape]) rA (i := 0) (by decide) (k := 0) (by decide)]
  decide +kernel

namespace V256

example : (lane256 8 21 (PopulationCountQ 8 rQ)).toNat = 3 ∧ (lane256 64 2 (PopulationCountQ 64 rQ)).toNat = 29 := by
  rw [C80_populationCount (w := 8) (by simp [Width]) rQ (i := 21) (by decide), C80_populationCount (w := 64) (by simp [Width]) rQ (i := 2) (by decide)]
  decide +kernel
example : (lane256 64 3 (ReverseLaneBytesQ 64 rQ)).extractLsb' (8 * 1) 8 = 128#8 ∧ (lane256 16 15 (ReverseBitsQ 16 rQ)).getLsbD 8 = true := by
  rw [C80_reverseLaneBytes (w := 64) (by simp [Width]) (by decide) rQ (i := 3) (by decide) (j := 1) (by decide),
    C80_reverseBits (w := 16) (by simp [Width]) rQ (i := 15) (by decide) (k := 8) (by decide)]
  decide +kernel

end V256
end Hwy.X86
