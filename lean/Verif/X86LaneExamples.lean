import Verif.X86LaneSpec
import Verif.X86V256PairwiseExamples

/-!
# Concrete cases for C83
-/

namespace Hwy.X86

-- Lanes of `cnt 8` are 1, 2, …, 16.
example (t : Tgt) (c : Bool) : ExtractLane t c false 8 16 (cnt 8) 13 = 14#8 ∧ ExtractLane t c true 32 16 (cnt 32) 3 = 4#32 ∧
    ExtractLane t c true 64 16 (cnt 64) 1 = 2#64 ∧ ExtractLane t c false 16 2 (cnt 16) 0 = 1#16 := by
  rw [C83_extractLane t c false (w := 8) (sz := 16) (by simp [Shape]) _ (i := 13) (by decide),
    C83_extractLane t c true (w := 32) (sz := 16) (by simp [Shape]) _ (i := 3) (by decide),
    C83_extractLane t c true (w := 64) (sz := 16) (by simp [Shape]) _ (i := 1) (by decide),
    C83_extractLane t c false (w := 16) (sz := 2) (by simp [Shape]) _ (i := 0) (by decide)]
  decide +kernel
example (t : Tgt) (c : Bool) : lane 8 13 (InsertLane t c false 8 16 (cnt 8) 13 99#8) = 99#8 ∧ lane 8 12 (InsertLane t c false 8 16 (cnt 8) 13 99#8) = 13#8 ∧
    lane 32 1 (InsertLane t c true 32 8 (cnt 32) 1 99#32) = 99#32 ∧ lane 64 0 (InsertLane t c true 64 16 (cnt 64) 1 99#64) = 1#64 := by
  rw [C83_insertLane t c false (w := 8) (sz := 16) (by simp [Shape]) (by decide) _ _ (i := 13) (j := 13) (by decide) (by decide),
    C83_insertLane t c false (w := 8) (sz := 16) (by simp [Shape]) (by decide) _ _ (i := 13) (j := 12) (by decide) (by decide),
    C83_insertLane t c true (w := 32) (sz := 8) (by simp [Shape]) (by decide) _ _ (i := 1) (j := 1) (by decide) (by decide),
    C83_insertLane t c true (w := 64) (sz := 16) (by simp [Shape]) (by decide) _ _ (i := 1) (j := 0) (by decide) (by decide)]
  decide +kernel

namespace V256

example (c d : Bool) : ExtractLaneQ c d false 8 (cntQ 8) 17 = 20#8 ∧ ExtractLaneQ c d false 16 (cntQ 16) 7 = 8#16 ∧
    lane256 8 17 (InsertLaneQ false 8 (cntQ 8) 17 99#8) = 99#8 ∧ lane256 32 7 (InsertLaneQ true 32 (cntQ 32) 6 99#32) = 40#32 := by
  rw [C83_extractLane c d false (w := 8) (by simp [Width]) _ (i := 17) (by decide), C83_extractLane c d false (w := 16) (by simp [Width]) _ (i := 7) (by decide),
    C83_insertLane false (w := 8) (by simp [Width]) _ _ (i := 17) (j := 17) (by decide) (by decide),
    C83_insertLane true (w := 32) (by simp [Width]) _ _ (i := 6) (j := 7) (by decide) (by decide)]
  decide +kernel

end V256
end Hwy.X86
