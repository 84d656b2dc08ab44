import Verif.X86V256Spec
import Mathlib.Tactic.IntervalCases

/-!
# C72: broadcasts, shuffles, interleavings and reversals of 256-bit vectors
-/

namespace Hwy.X86.V256

/-- `BroadcastBlock<k>(v)`. -/
theorem C72_broadcastBlock {w k : Nat} (hw : Width w) (hk : k < 2) (v : M256) {i : Nat} (h : i < 256 / w) :
    lane256 w i (BroadcastBlock k v) = lane256 w (k * (128 / w) + i % (128 / w)) v := by
  interval_cases k <;> rcases hw with rfl | rfl | rfl | rfl <;> qstat <;> qleaf1 h
/-- `Broadcast<k>(v)`: lane `k` of each block. -/
theorem C72_broadcast (flt : Bool) {w k : Nat} (hw : Width w) (hk : k < 128 / w) (v : M256) {i : Nat} (h : i < 256 / w) :
    lane256 w i (Broadcast flt w k v) = lane256 w (i / (128 / w) * (128 / w) + k) v := by
  cases flt <;> rcases hw with rfl | rfl | rfl | rfl <;> simp only [Nat.reduceDiv] at hk <;> interval_cases k <;> qstat <;> qleaf1 h
/-- `BroadcastLane<k>(v)`: lane `k` everywhere. -/
theorem C72_broadcastLane (flt : Bool) {w k : Nat} (hw : Width w) (hk : k < 256 / w) (v : M256) {i : Nat} (h : i < 256 / w) :
    lane256 w i (BroadcastLane flt w k v) = lane256 w k v := by
  cases flt <;> rcases hw with rfl | rfl | rfl | rfl <;> simp only [Nat.reduceDiv] at hk <;> interval_cases k <;> qstat <;>
    (apply lanesQ1W (f := fun _ => _) (hi := h) <;> first | decide | skip)
  all_goals first | (qsym; done) | skip
  all_goals decide +kernel
/-- `SwapAdjacentBlocks(v)`, `ReverseBlocks(d, v)`. -/
theorem C72_swapAdjacentBlocks {w : Nat} (hw : Width w) (v : M256) {i : Nat} (h : i < 256 / w) :
    lane256 w i (SwapAdjacentBlocks v) = lane256 w ((i + 128 / w) % (256 / w)) v := by
  rcases hw with rfl | rfl | rfl | rfl <;> qstat <;> qleaf1 h
/-- `ReverseBlocks(d, v)`. -/
theorem C72_reverseBlocks {w : Nat} (hw : Width w) (v : M256) {i : Nat} (h : i < 256 / w) :
    lane256 w i (ReverseBlocks v) = lane256 w ((1 - i / (128 / w)) * (128 / w) + i % (128 / w)) v := by
  rcases hw with rfl | rfl | rfl | rfl <;> qstat <;> qleaf1 h
/-- `InterleaveEvenBlocks(d, a, b)`: block 0 of `a`, block 0 of `b`. -/
theorem C72_interleaveEvenBlocks {w : Nat} (hw : Width w) (a b : M256) {i : Nat} (h : i < 256 / w) :
    lane256 w i (InterleaveEvenBlocks a b) = if i < 128 / w then lane256 w i a else lane256 w (i - 128 / w) b := by
  rcases hw with rfl | rfl | rfl | rfl <;> qstat <;> qleaf h
/-- `InterleaveOddBlocks(d, a, b)`: block 1 of `a`, block 1 of `b`. -/
theorem C72_interleaveOddBlocks {w : Nat} (hw : Width w) (a b : M256) {i : Nat} (h : i < 256 / w) :
    lane256 w i (InterleaveOddBlocks a b) = if i < 128 / w then lane256 w (i + 128 / w) a else lane256 w i b := by
  rcases hw with rfl | rfl | rfl | rfl <;> qstat <;> qleaf h
/-- `OddEvenBlocks(odd, even)`. -/
theorem C72_oddEvenBlocks (flt : Bool) {w : Nat} (hw : Width w) (odd even : M256) {i : Nat} (h : i < 256 / w) :
    lane256 w i (OddEvenBlocks flt w odd even) = if i / (128 / w) % 2 = 1 then lane256 w i odd else lane256 w i even := by
  cases flt <;> rcases hw with rfl | rfl | rfl | rfl <;> qstat <;> qleaf h

/-- The shuffles of four 32-bit lanes (two 64-bit lanes) in each block: result lane `i` of a block is the lane given by digit `i`,
counted from the right, of the name. -/
theorem C72_shuffles (flt : Bool) (v : M256) {i : Nat} (h : i < 8) :
    lane256 32 i (Shuffle2301 flt v) = lane256 32 (i / 4 * 4 + [1, 0, 3, 2].getD (i % 4) 0) v ∧
    lane256 32 i (Shuffle1032 flt v) = lane256 32 (i / 4 * 4 + [2, 3, 0, 1].getD (i % 4) 0) v ∧
    lane256 32 i (Shuffle0321 flt v) = lane256 32 (i / 4 * 4 + [1, 2, 3, 0].getD (i % 4) 0) v ∧
    lane256 32 i (Shuffle2103 flt v) = lane256 32 (i / 4 * 4 + [3, 0, 1, 2].getD (i % 4) 0) v ∧
    lane256 32 i (Shuffle0123 flt v) = lane256 32 (i / 4 * 4 + [3, 2, 1, 0].getD (i % 4) 0) v := by
  refine ⟨?_, ?_, ?_, ?_, ?_⟩ <;> cases flt <;> qstat <;> qleaf1 h
/-- `Shuffle01(v)` swaps the 64-bit lanes of each block. -/
theorem C72_shuffle01 (flt : Bool) (v : M256) {i : Nat} (h : i < 4) :
    lane256 64 i (Shuffle01 flt v) = lane256 64 (i / 2 * 2 + (1 - i % 2)) v := by
  cases flt <;> qstat <;> qleaf1 h

/-- `InterleaveLower(a, b)`: in each block, alternates the lanes of the lower halves. -/
theorem C72_interleaveLower {w : Nat} (hw : Width w) (a b : M256) {i : Nat} (h : i < 256 / w) :
    lane256 w i (InterleaveLower w a b) = if i % 2 = 0 then lane256 w (i / (128 / w) * (128 / w) + i % (128 / w) / 2) a
      else lane256 w (i / (128 / w) * (128 / w) + i % (128 / w) / 2) b := by
  rcases hw with rfl | rfl | rfl | rfl <;> qstat <;> qleaf h
/-- `InterleaveUpper(d, a, b)`: in each block, alternates the lanes of the upper halves. -/
theorem C72_interleaveUpper {w : Nat} (hw : Width w) (a b : M256) {i : Nat} (h : i < 256 / w) :
    lane256 w i (InterleaveUpper w a b) = if i % 2 = 0 then lane256 w (i / (128 / w) * (128 / w) + 64 / w + i % (128 / w) / 2) a
      else lane256 w (i / (128 / w) * (128 / w) + 64 / w + i % (128 / w) / 2) b := by
  rcases hw with rfl | rfl | rfl | rfl <;> qstat <;> qleaf h
/-- `InterleaveWholeLower(d, a, b)`: alternates the lanes of the lower halves of the whole vectors. -/
theorem C72_interleaveWholeLower {w : Nat} (hw : Width w) (a b : M256) {i : Nat} (h : i < 256 / w) :
    lane256 w i (InterleaveWholeLower w a b) = if i % 2 = 0 then lane256 w (i / 2) a else lane256 w (i / 2) b := by
  rcases hw with rfl | rfl | rfl | rfl <;> qstat <;> qleaf h
/-- `InterleaveWholeUpper(d, a, b)`: alternates the lanes of the upper halves of the whole vectors. -/
theorem C72_interleaveWholeUpper {w : Nat} (hw : Width w) (a b : M256) {i : Nat} (h : i < 256 / w) :
    lane256 w i (InterleaveWholeUpper w a b) =
      if i % 2 = 0 then lane256 w (128 / w + i / 2) a else lane256 w (128 / w + i / 2) b := by
  rcases hw with rfl | rfl | rfl | rfl <;> qstat <;> qleaf h
/-- `DupEven(v)`. -/
theorem C72_dupEven (flt : Bool) {w : Nat} (hw : Width w) (v : M256) {i : Nat} (h : i < 256 / w) :
    lane256 w i (DupEven flt w v) = lane256 w (i / 2 * 2) v := by
  cases flt <;> rcases hw with rfl | rfl | rfl | rfl <;> qstat <;> qleaf1 h
/-- `DupOdd(v)`. -/
theorem C72_dupOdd (flt : Bool) {w : Nat} (hw : Width w) (v : M256) {i : Nat} (h : i < 256 / w) :
    lane256 w i (DupOdd flt w v) = lane256 w (i / 2 * 2 + 1) v := by
  cases flt <;> rcases hw with rfl | rfl | rfl | rfl <;> qstat <;> qleaf1 h
/-- `OddEven(a, b)`: odd lanes of `a`, even lanes of `b`. -/
theorem C72_oddEven (flt : Bool) {w : Nat} (hw : Width w) (a b : M256) {i : Nat} (h : i < 256 / w) :
    lane256 w i (OddEven flt w a b) = if i % 2 = 1 then lane256 w i a else lane256 w i b := by
  cases flt <;> rcases hw with rfl | rfl | rfl | rfl <;> qstat <;> qleaf h
/-- `InterleaveEven(d, a, b)`. -/
theorem C72_interleaveEven (flt : Bool) {w : Nat} (hw : Width w) (a b : M256) {i : Nat} (h : i < 256 / w) :
    lane256 w i (InterleaveEven flt w a b) = if i % 2 = 0 then lane256 w i a else lane256 w (i - 1) b := by
  cases flt <;> rcases hw with rfl | rfl | rfl | rfl <;> qstat <;> qleaf h
/-- `InterleaveOdd(d, a, b)`. -/
theorem C72_interleaveOdd (flt : Bool) {w : Nat} (hw : Width w) (a b : M256) {i : Nat} (h : i < 256 / w) :
    lane256 w i (InterleaveOdd flt w a b) = if i % 2 = 0 then lane256 w (i + 1) a else lane256 w i b := by
  cases flt <;> rcases hw with rfl | rfl | rfl | rfl <;> qstat <;> qleaf h

/-- `Reverse2(d, v)` swaps neighbours. -/
theorem C72_reverse2 (flt : Bool) {w : Nat} (hw : w = 16 ∨ w = 32 ∨ w = 64) (v : M256) {i : Nat} (h : i < 256 / w) :
    lane256 w i (Reverse2 flt w v) = lane256 w (i / 2 * 2 + (1 - i % 2)) v := by
  cases flt <;> rcases hw with rfl | rfl | rfl <;> qstat <;> qleaf1 h
/-- `Reverse4(d, v)` reverses groups of four. -/
theorem C72_reverse4 (flt : Bool) {w : Nat} (hw : w = 16 ∨ w = 32 ∨ w = 64) (v : M256) {i : Nat} (h : i < 256 / w) :
    lane256 w i (Reverse4 flt w v) = lane256 w (i / 4 * 4 + (3 - i % 4)) v := by
  cases flt <;> rcases hw with rfl | rfl | rfl <;> qstat <;> qleaf1 h

/-- `Slide1Up(d, v)`. -/
theorem C72_slide1Up {w : Nat} (hw : Width w) (v : M256) {i : Nat} (h : i < 256 / w) :
    lane256 w i (Slide1Up w v) = if 1 ≤ i then lane256 w (i - 1) v else 0#w := by
  rcases hw with rfl | rfl | rfl | rfl <;> qstat <;> qleaf0 h
/-- `Slide1Down(d, v)`. -/
theorem C72_slide1Down {w : Nat} (hw : Width w) (v : M256) {i : Nat} (h : i < 256 / w) :
    lane256 w i (Slide1Down w v) = if i + 1 < 256 / w then lane256 w (i + 1) v else 0#w := by
  rcases hw with rfl | rfl | rfl | rfl <;> qstat <;> qleaf0 h
/-- `SlideUpBlocks<k>(d, v)`. -/
theorem C72_slideUpBlocks {w k : Nat} (hw : Width w) (hk : k < 2) (v : M256) {i : Nat} (h : i < 256 / w) :
    lane256 w i (SlideUpBlocks k v) = if k * (128 / w) ≤ i then lane256 w (i - k * (128 / w)) v else 0#w := by
  interval_cases k <;> rcases hw with rfl | rfl | rfl | rfl <;> qstat <;> qleaf0 h
/-- `SlideDownBlocks<k>(d, v)`. -/
theorem C72_slideDownBlocks {w k : Nat} (hw : Width w) (hk : k < 2) (v : M256) {i : Nat} (h : i < 256 / w) :
    lane256 w i (SlideDownBlocks k v) = if i + k * (128 / w) < 256 / w then lane256 w (i + k * (128 / w)) v else 0#w := by
  interval_cases k <;> rcases hw with rfl | rfl | rfl | rfl <;> qstat <;> qleaf0 h

end Hwy.X86.V256
