import Verif.X86Pairwise
import Verif.X86ConvSpec5
import Verif.X86OpsSpec3
import Verif.X86MulSpec2
import Verif.X86ReduceSpec3

/-!
# C81, C82: pairwise sums, saturating addition of wide lanes and sums of four products on the x86 targets
-/

namespace Hwy.X86

/-! ## Pairwise sums and differences -/

/-- `PairwiseAdd`: sums of adjacent lanes, those of `a` in the even and those of `b` in the odd lanes. -/
theorem C81_pairwiseAdd (t : Tgt) {w sz : Nat} (h : Shape w sz) (h2 : 2 ≤ Lanes w sz) (a b : M128) {i : Nat} (hi : i < Lanes w sz) :
    lane w i (PairwiseAdd t w sz a b) =
      if i % 2 = 0 then lane w i a + lane w (i + 1) a else lane w (i - 1) b + lane w i b := by
  unfold PairwiseAdd
  rw [lane_Add (inReg_of h hi), C63_interleaveEven t h h2 a b hi, C63_interleaveOdd t h h2 a b hi]
  split <;> rfl
/-- `PairwiseSub`: the odd minus the even lane of every pair. -/
theorem C81_pairwiseSub (t : Tgt) {w sz : Nat} (h : Shape w sz) (h2 : 2 ≤ Lanes w sz) (a b : M128) {i : Nat} (hi : i < Lanes w sz) :
    lane w i (PairwiseSub t w sz a b) =
      if i % 2 = 0 then lane w (i + 1) a - lane w i a else lane w i b - lane w (i - 1) b := by
  unfold PairwiseSub
  rw [lane_Sub (inReg_of h hi), C63_interleaveEven t h h2 a b hi, C63_interleaveOdd t h h2 a b hi]
  split <;> rfl

theorem shape16' {w : Nat} (hw : w = 8 ∨ w = 16 ∨ w = 32 ∨ w = 64) : Shape w 16 := by unfold Shape; omega

theorem narrow_demote (t : Tgt) (s' : Bool) {n : Nat} (hn : NarrowW n) (h32 : n ≠ 32) (s : Bool) (v : M128) (hs : s = s') {i : Nat} (h : i < Lanes n 16) :
    lane n i (ReorderDemote2To t true s' n 16 (PromoteEvenTo t s n 16 v) (PromoteOddTo t s n 16 v))
      = lane n (if i < Lanes n 16 / 2 then 2 * i else 2 * (i - Lanes n 16 / 2) + 1) v := by
  subst hs
  have e : Lanes n 16 / 2 = Lanes (2 * n) 16 := by rcases hn with rfl | rfl | rfl <;> rfl
  have e2 : Lanes n 16 = 2 * Lanes (2 * n) 16 := by rcases hn with rfl | rfl | rfl <;> rfl
  have h4 : Shape (2 * n) 16 := by unfold Shape; unfold NarrowW at hn; omega
  have hsn : Shape n 16 := by unfold Shape; unfold NarrowW at hn; omega
  have key := C65_demote2To t true s hn hsn (by rcases hn with rfl | rfl | rfl <;> decide) (fun x => absurd x h32)
    (PromoteEvenTo t s n 16 v) (PromoteOddTo t s n 16 v) h
  have inj : ∀ x y : BitVec n, val s x = val s y → x = y := fun x y hxy => by
    unfold val at hxy; cases s
    · simp only [Bool.false_eq_true, if_false] at hxy; exact BitVec.eq_of_toNat_eq (by exact_mod_cast hxy)
    · simp only [if_true] at hxy; exact BitVec.eq_of_toInt_eq hxy
  apply inj
  rw [key]
  split
  · rw [C65_promoteEvenTo t s true (fun _ => rfl) hn h4 v (by omega)]
    have := val_range s hn (lane n (2 * i) v); omega
  · rw [C65_promoteOddTo t s true (fun _ => rfl) hn h4 v (by omega)]
    have := val_range s hn (lane n (2 * (i - Lanes n 16 / 2) + 1) v); omega

theorem lane_concatOddEven (t : Tgt) {w : Nat} (hw : w = 8 ∨ w = 16 ∨ w = 32 ∨ w = 64) (v : M128) {i : Nat} (h : i < Lanes w 16) :
    lane w i (BlockwiseConcatOddEven t w v)
      = lane w (if i < Lanes w 16 / 2 then 2 * i else 2 * (i - Lanes w 16 / 2) + 1) v := by
  unfold BlockwiseConcatOddEven
  rcases hw with rfl | rfl | rfl | rfl
  · rw [if_pos rfl]
    split
    · exact narrow_demote t false (.inl rfl) (by decide) false v rfl h
    · cases t <;> first | (exfalso; rename_i h'; exact h' rfl) | leaf1 h
  · rw [if_neg (by decide), if_pos rfl]
    split
    · exact narrow_demote t true (.inr (.inl rfl)) (by decide) true v rfl h
    · cases t <;> first | (exfalso; rename_i h'; exact h' rfl) | leaf1 h
  · simp only [Nat.reduceEqDiff, reduceIte]
    leaf1 h
  · simp only [Nat.reduceEqDiff, reduceIte]
    have : i < 2 := h
    have : i = 0 ∨ i = 1 := by omega
    rcases this with rfl | rfl <;> rfl

theorem lane_hadd {w : Nat} (hw : w = 16 ∨ w = 32) (a b : M128) {i : Nat} (h : i < Lanes w 16) :
    lane w i (hadd w a b) = if i < Lanes w 16 / 2 then lane w (2 * i) a + lane w (2 * i + 1) a
      else lane w (2 * (i - Lanes w 16 / 2)) b + lane w (2 * (i - Lanes w 16 / 2) + 1) b := by
  have e : 128 / w / 2 = Lanes w 16 / 2 := by rcases hw with rfl | rfl <;> rfl
  have hr := inReg_of (shape16' (w := w) (by omega)) h
  unfold hadd; rw [lane_mk hr.pos hr.le, e]
theorem lane_hsub {w : Nat} (hw : w = 16 ∨ w = 32) (a b : M128) {i : Nat} (h : i < Lanes w 16) :
    lane w i (hsub w a b) = if i < Lanes w 16 / 2 then lane w (2 * i) a - lane w (2 * i + 1) a
      else lane w (2 * (i - Lanes w 16 / 2)) b - lane w (2 * (i - Lanes w 16 / 2) + 1) b := by
  have e : 128 / w / 2 = Lanes w 16 / 2 := by rcases hw with rfl | rfl <;> rfl
  have hr := inReg_of (shape16' (w := w) (by omega)) h
  unfold hsub; rw [lane_mk hr.pos hr.le, e]

/-- `PairwiseAdd128`: the sums of adjacent lanes of `a`, then those of `b`. -/
theorem C81_pairwiseAdd128 (t : Tgt) {w : Nat} (hw : w = 8 ∨ w = 16 ∨ w = 32 ∨ w = 64) (a b : M128) {i : Nat} (h : i < 128 / w) :
    lane w i (PairwiseAdd128 t w a b) =
      if i < 128 / w / 2 then lane w (2 * i) a + lane w (2 * i + 1) a
      else lane w (2 * (i - 128 / w / 2)) b + lane w (2 * (i - 128 / w / 2) + 1) b := by
  have e : 128 / w = Lanes w 16 := by rcases hw with rfl | rfl | rfl | rfl <;> rfl
  have e2 : Lanes w 16 % 2 = 0 := by rcases hw with rfl | rfl | rfl | rfl <;> rfl
  rw [e] at h ⊢
  unfold PairwiseAdd128
  split
  · rename_i h1; exact lane_hadd h1.2 a b h
  · rw [lane_concatOddEven t hw _ h]
    split
    · rw [C81_pairwiseAdd t (shape16' hw) (by omega) a b (by omega), if_pos (by omega)]
    · rw [C81_pairwiseAdd t (shape16' hw) (by omega) a b (by omega), if_neg (by omega), Nat.add_sub_cancel]
/-- `PairwiseSub128`: the differences, odd minus even, of adjacent lanes of `a`, then those of `b`. -/
theorem C81_pairwiseSub128 (t : Tgt) {w : Nat} (hw : w = 8 ∨ w = 16 ∨ w = 32 ∨ w = 64) (a b : M128) {i : Nat} (h : i < 128 / w) :
    lane w i (PairwiseSub128 t w a b) =
      if i < 128 / w / 2 then lane w (2 * i + 1) a - lane w (2 * i) a
      else lane w (2 * (i - 128 / w / 2) + 1) b - lane w (2 * (i - 128 / w / 2)) b := by
  have e : 128 / w = Lanes w 16 := by rcases hw with rfl | rfl | rfl | rfl <;> rfl
  have e2 : Lanes w 16 % 2 = 0 := by rcases hw with rfl | rfl | rfl | rfl <;> rfl
  have hr := inReg_of (shape16' hw) (by rw [← e]; exact h)
  rw [e] at h ⊢
  have hneg : ∀ x y : BitVec w, (0#w) - (x - y) = y - x := fun x y => by
    rw [BitVec.zero_sub, BitVec.neg_sub, BitVec.add_comm, ← BitVec.sub_eq_add_neg]
  unfold PairwiseSub128
  split
  · rename_i h1
    unfold Neg
    rw [lane_Sub hr, lane_zero', lane_hsub h1.2 a b h]
    split <;> exact hneg _ _
  · rw [lane_concatOddEven t hw _ h]
    split
    · rw [C81_pairwiseSub t (shape16' hw) (by omega) a b (by omega), if_pos (by omega)]
    · rw [C81_pairwiseSub t (shape16' hw) (by omega) a b (by omega), if_neg (by omega), Nat.add_sub_cancel]

/-! ## Sums of two and four lanes -/

/-- `SumsOf2`: every lane is the exact sum of two lanes of half the width. -/
theorem C81_sumsOf2 (t : Tgt) (signed : Bool) {f sz : Nat} (hf : NarrowW f) (hz : Shape (2 * f) sz) (v : M128) {i : Nat}
    (h : i < Lanes (2 * f) sz) :
    val signed (lane (2 * f) i (SumsOf2 t signed f sz v)) = val signed (lane f (2 * i) v) + val signed (lane f (2 * i + 1) v) := by
  have he := C65_promoteEvenTo t signed signed (fun h => h) hf hz v h
  have ho := C65_promoteOddTo t signed signed (fun h => h) hf hz v h
  have r0 := val_range signed hf (lane f (2 * i) v)
  have r1 := val_range signed hf (lane f (2 * i + 1) v)
  unfold SumsOf2
  rw [lane_Add (inReg_of hz h), ← he, ← ho]
  rw [← he] at r0; rw [← ho] at r1
  generalize lane (2 * f) i (PromoteEvenTo t signed f sz v) = x at *
  generalize lane (2 * f) i (PromoteOddTo t signed f sz v) = y at *
  unfold val lo hi at *
  cases signed
  · simp only [Bool.false_eq_true, if_false] at *
    rw [BitVec.toNat_add, Nat.mod_eq_of_lt]
    · norm_cast
    · rcases hf with rfl | rfl | rfl <;> simp only [Nat.reduceMul, Nat.reducePow, Int.reducePow] at * <;> omega
  · simp only [if_true] at *
    rw [BitVec.toInt_add, Int.bmod_eq_of_le] <;>
    rcases hf with rfl | rfl | rfl <;> simp only [Nat.reduceMul, Nat.reducePow, Int.reducePow, Nat.reduceSub] at * <;> omega

/-- `SumsOf4`: every lane is the exact sum of four lanes of a quarter of the width. -/
theorem C81_sumsOf4 (t : Tgt) (signed : Bool) {f sz : Nat} (hf : f = 8 ∨ f = 16) (hz : Shape (4 * f) sz) (v : M128) {i : Nat}
    (h : i < Lanes (4 * f) sz) :
    val signed (lane (4 * f) i (SumsOf4 t signed f sz v))
      = val signed (lane f (4 * i) v) + val signed (lane f (4 * i + 1) v) + val signed (lane f (4 * i + 2) v)
        + val signed (lane f (4 * i + 3) v) := by
  have hn : NarrowW f := by unfold NarrowW; omega
  have hn2 : NarrowW (2 * f) := by unfold NarrowW; omega
  have hz2 : Shape (2 * f) sz := by unfold Shape at *; omega
  have e : Lanes (2 * f) sz = 2 * Lanes (4 * f) sz := by
    have hz' := hz
    unfold Shape at hz'; unfold Lanes
    have : sz = 1 ∨ sz = 2 ∨ sz = 4 ∨ sz = 8 ∨ sz = 16 := by omega
    rcases hf with rfl | rfl <;> omega
  rw [show 4 * f = 2 * (2 * f) by omega] at *
  unfold SumsOf4
  rw [C81_sumsOf2 t signed hn2 hz _ h, C81_sumsOf2 t signed hn hz2 v (by omega), C81_sumsOf2 t signed hn hz2 v (by omega)]
  rw [show 2 * (2 * i) = 4 * i by omega, show 2 * (2 * i + 1) = 4 * i + 2 by omega]
  ring

end Hwy.X86
