import Verif.GenMemSpec2
import Verif.EmuArithExamples

/-!
# The hypotheses of the C56 theorems are met, and the fallbacks do compute
-/

namespace Hwy
namespace Emu
open CInt

/-- Four indices with a duplicate and a negative one. -/
def exIdx : List Int := [2, -1, 2, 0]
theorem exIdxR : Reg i32 exIdx := by decide +kernel
theorem exIdx2R : Reg i32 [3, 1, 0, 3] := by decide +kernel
def exMem : List Int := [10, 11, 12, 13, 14, 15]

example := C56_scatter_index (ti := i32) (N := 4) (by decide) (v := exA) exR.len exIdxR (mem := exMem) 1 0
  (by intro i hi; interval_cases i <;> decide)
example := C56_masked_scatter_index (ti := i32) (N := 3) (by decide) (v := exA) exR.len exIdxR (mem := exMem) 0 (by decide) 0 exMask
  (by intro i hi; interval_cases i <;> decide)
example := C56_scatter_index_n (ti := i32) (N := 4) (by decide) (v := exA) exR.len exIdxR (mem := exMem) 0 1
  (by intro i hi hj; interval_cases i; decide)
example := C56_gather_index (ti := i32) (N := 4) (by decide) exIdx2R (mem := exMem) 2 0 (by intro i hi; interval_cases i <;> decide)
example := C56_masked_gather_index_or (ti := i32) (N := 3) (by decide) exIdx2R (mem := exMem) 0 0 (by decide) exMask (no := exB) exS.len
  (by intro i hi; interval_cases i <;> decide) (by intro i hi; interval_cases i <;> decide)
example := C56_gather_index_n_or (ti := i32) (N := 4) (by decide) exIdxR (mem := exMem) 0 1 (no := exB) exS.len
  (by intro i hi hj; interval_cases i; decide)
example := C56_scatter_offset (t := u32) (ti := i32) rfl (N := 2) (by decide) (v := [305419896, 4294967295, 0, 0]) (by decide +kernel)
  exIdx2R (mem := [1, 2, 3, 4, 5, 6, 7, 8]) 0 (by intro i hi; interval_cases i <;> decide)
example := C56_gather_offset (t := i32) (ti := i32) (by decide) rfl (N := 2) (by decide) exIdx2R
  (mem := [1, 2, 255, 4, 5, 6, 7, 8]) (by decide) 0 (by intro i hi; interval_cases i <;> decide)
example := C56_masked_load (t := i32) (by decide) (N := 3) (by decide) exMask (p := [7, 8, 9]) (by decide) (by decide +kernel)
example := C56_safe_copy_n (num := 2) (src := exA) (dst := exB) (by decide) (by decide)
example := C56_truncate_store (tF := i32) (tT := u8) (by decide) (by decide) (by decide) rfl (N := 4) (by decide) exR
  (p := [0, 0, 0, 0, 99]) (by decide)
example := C56_finding_masked_gather_negative (ti := i32) (N := 3) (by decide) (index := [-1, 0, 0, 0]) (by decide +kernel)
  (mem := exMem) (no := exB) 0 0 (by decide) exMask exS.len (by decide) (by decide)

/-! Evaluations. -/

example : ScatterIndex 0 4 [21, 22, 23, 24] exMem 1 exIdx = .ok [22, 24, 12, 23, 14, 15] := by decide +kernel
example : MaskedScatterIndex 0 i32 4 [21, 22, 23, 24] [4294967295, 0, 0, 4294967295] exMem 1 [2, -9, 99, 0] =
    .ok [10, 24, 12, 21, 14, 15] := by decide +kernel
example : ScatterIndexN 4 [21, 22, 23, 24] exMem 1 [2, 3, -9, 99] 2 = .ok [10, 11, 12, 21, 22, 15] := by decide +kernel
example : GatherIndex 0 4 4 exMem 1 [0, 0, 4, 2] = .ok [11, 11, 15, 13] := by decide +kernel
example : MaskedGatherIndexOr 0 i32 4 4 [1, 2, 3, 4] [4294967295, 0, 0, 4294967295] exMem 1 [0, 99, 99, 2] =
    .ok [11, 2, 3, 13] := by decide +kernel
example : MaskedGatherIndex 0 i32 4 4 [4294967295, 0, 0, 4294967295] exMem 1 [0, -1, 99, 2] = .error .ub := by decide +kernel
example : GatherIndexN 0 4 4 exMem 1 [-1, 2, -9, 99] 2 = .ok [10, 13, 0, 0] := by decide +kernel
example : ScatterOffset u32 2 [305419896, 4294967295, 0, 0] [1, 2, 3, 4, 5, 6, 7, 8] 0 [3, 1, 0, 0] =
    .ok [1, 255, 255, 255, 255, 52, 18, 8] := by decide +kernel
example : GatherOffset i32 2 [1, 2, 255, 4, 5, 6, 255, 255] 0 [0, 4, 0, 0] = .ok [83821057, -63995, 0, 0] := by decide +kernel
example : TruncateStore i32 u8 4 [256, -1, 511, 3] [0, 0, 0, 0, 99] = .ok [0, 255, 255, 3, 99] := by decide +kernel

end Emu
end Hwy
