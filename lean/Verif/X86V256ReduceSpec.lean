import Verif.X86V256Reduce
import Verif.X86V256MulSpec
import Verif.X86ReduceSpec3

/-!
# C79: reductions of 256-bit AVX2 vectors of integers
-/

namespace Hwy.X86.V256

/-! ## The blocks -/

theorem call_blk (s : Bool) {w : Nat} (hw : Width w) (f : RFunc) (a b : M256) :
    callQ s w f a b = ⟨f.call .avx2 s w a.lo b.lo, f.call .avx2 s w a.hi b.hi⟩ := by
  cases f <;> cases s <;> rcases hw with rfl | rfl | rfl | rfl <;> rfl
theorem t_rev2_16 (v : M256) : Reverse2 false 16 v = ⟨Rev2 .avx2 16 16 v.lo, Rev2 .avx2 16 16 v.hi⟩ := rfl
theorem t_rev2_32 (v : M256) : Reverse2 false 32 v = ⟨Rev2 .avx2 32 16 v.lo, Rev2 .avx2 32 16 v.hi⟩ := rfl
theorem t_rev2_64 (v : M256) : Reverse2 false 64 v = ⟨Rev2 .avx2 64 16 v.lo, Rev2 .avx2 64 16 v.hi⟩ := rfl
theorem t_rev4_16 (v : M256) : Reverse4 false 16 v = ⟨Rev4 .avx2 16 16 v.lo, Rev4 .avx2 16 16 v.hi⟩ := rfl
theorem t_rev4_32 (v : M256) : Reverse4 false 32 v = ⟨Rev4 .avx2 32 16 v.lo, Rev4 .avx2 32 16 v.hi⟩ := rfl
theorem t_rev8_16 (v : M256) : Reverse8 16 v = ⟨Rev8 .avx2 16 16 v.lo, Rev8 .avx2 16 16 v.hi⟩ := rfl
theorem t_and (a b : M256) : AndQ a b = ⟨X86.And a.lo b.lo, X86.And a.hi b.hi⟩ := rfl
theorem t_set (x : BitVec 16) : setQ 16 x = ⟨set 16 x, set 16 x⟩ := rfl
theorem t_dup (v : M256) : DupEven false 8 v = ⟨X86.DupEven .avx2 8 16 v.lo, X86.DupEven .avx2 8 16 v.hi⟩ := rfl

theorem within8_blk (s : Bool) (f : RFunc) {w : Nat} (hw : w = 16 ∨ w = 32 ∨ w = 64) (v : M256) :
    ReduceWithinBlocks8Q s f w v = ⟨ReduceWithinBlocks8 .avx2 s f w 16 v.lo, ReduceWithinBlocks8 .avx2 s f w 16 v.hi⟩ := by
  unfold ReduceWithinBlocks8Q ReduceWithinBlocks8
  rcases hw with rfl | rfl | rfl
  · simp only [show (16 : Nat) ≠ 64 by decide, show (16 : Nat) ≠ 32 by decide, Nat.reduceDiv, Nat.reduceEqDiff, if_false,
      call_blk s w16', t_rev2_16, t_rev4_16, t_rev8_16]
  · simp only [show (32 : Nat) ≠ 64 by decide, Nat.reduceDiv, Nat.reduceEqDiff, if_false, if_true,
      call_blk s w32', t_rev2_32, t_rev4_32]
  · simp only [Nat.reduceDiv, if_true, call_blk s w64', t_rev2_64]

theorem within_blk (s : Bool) (f : RFunc) {w : Nat} (hw : Width w) (v : M256) :
    ReduceWithinBlocksQ s f w v = ⟨ReduceWithinBlocks .avx2 s f w 16 v.lo, ReduceWithinBlocks .avx2 s f w 16 v.hi⟩ := by
  unfold ReduceWithinBlocksQ ReduceWithinBlocks
  rcases hw with rfl | rfl | rfl | rfl
  · simp only [Nat.reduceDiv, Nat.div_one, if_true, within8_blk s f (.inl rfl), call_blk s w16', t_dup]
    cases s
    · simp only [Bool.false_eq_true, if_false, t_and, t_set, r_shr16]
    · simp only [if_true, r_shl16, r_sar16]
  · simp only [Nat.reduceDiv, Nat.reduceEqDiff, if_false, within8_blk s f (.inl rfl)]
  · simp only [Nat.reduceDiv, Nat.reduceEqDiff, if_false, within8_blk s f (.inr (.inl rfl))]
  · simp only [Nat.reduceDiv, Nat.reduceEqDiff, if_false, within8_blk s f (.inr (.inr rfl))]

/-! ## Across the blocks -/

theorem sum_halves (y : Nat → Int) (n : Nat) :
    ((List.range n).map (fun j => y j)).sum + ((List.range n).map (fun j => y (n + j))).sum = ((List.range (n + n)).map y).sum := by
  rw [List.range_add, List.map_append, List.sum_append, List.map_map]; rfl

theorem ofInt_sum_add (s : Bool) {w : Nat} (x y : Nat → BitVec w) (n : Nat) :
    BitVec.ofInt w ((List.range n).map (fun j => val s (x j + y j))).sum =
      BitVec.ofInt w ((List.range n).map (fun j => val s (x j))).sum + BitVec.ofInt w ((List.range n).map (fun j => val s (y j))).sum := by
  induction n with
  | zero => simp
  | succ n ih =>
    rw [sum_range_succ, sum_range_succ, sum_range_succ, BitVec.ofInt_add, BitVec.ofInt_add, BitVec.ofInt_add, ih, ofInt_val, ofInt_val, ofInt_val]
    ac_rfl

/-- A reduction of pairs is a reduction of all. -/
theorem red_pairs (f : RFunc) (s : Bool) {w : Nat} {r : BitVec w} {n : Nat} {x : Nat → BitVec w}
    (h : IsRed f s r n (fun j => f.fn s (x j) (x (n + j)))) : IsRed f s r (n + n) x := by
  cases f
  · unfold IsRed IsSum at *
    simp only [RFunc.fn] at h
    rw [ofInt_sum_add, ← BitVec.ofInt_add, sum_halves] at h
    exact h
  · obtain ⟨h1, k, hk, h2⟩ := h
    beta_reduce at h1 h2
    refine ⟨fun j hj => ?_, ?_⟩
    · by_cases hb : j < n
      · have := h1 j hb; rw [val_min] at this; omega
      · have := h1 (j - n) (by omega); rw [val_min, show n + (j - n) = j by omega] at this; omega
    · simp only [RFunc.fn] at h2
      split at h2
      · exact ⟨k, by omega, h2⟩
      · exact ⟨n + k, by omega, h2⟩
  · obtain ⟨h1, k, hk, h2⟩ := h
    beta_reduce at h1 h2
    refine ⟨fun j hj => ?_, ?_⟩
    · by_cases hb : j < n
      · have := h1 j hb; rw [val_max] at this; omega
      · have := h1 (j - n) (by omega); rw [val_max, show n + (j - n) = j by omega] at this; omega
    · simp only [RFunc.fn] at h2
      split at h2
      · exact ⟨n + k, by omega, h2⟩
      · exact ⟨k, by omega, h2⟩

theorem swap_lo (v : M256) : SwapAdjacentBlocks v = ⟨v.hi, v.lo⟩ := by
  apply blk_ext w64'
  · intro i h
    have h : i < 2 := h
    rw [C72_swapAdjacentBlocks w64' v (show i < 4 by omega), show (i + 128 / 64) % (256 / 64) = i + 2 by omega,
      lane256_hi (show ¬ i + 2 < 2 by omega)]; rfl
  · intro i h
    have h : i < 2 := h
    rw [C72_swapAdjacentBlocks w64' v (show 2 + i < 4 by omega), show (128 / 64 + i + 128 / 64) % (256 / 64) = i by omega,
      lane256_lo (show i < 2 by omega)]

theorem of_lanes (s : Bool) (f : RFunc) {w : Nat} (hw : Width w) (v : M256) {i : Nat} (h : i < 256 / w) :
    IsRed f s (lane256 w i (ReduceWithinBlocksQ s f w (ReduceAcrossBlocksQ s f w v))) (256 / w) (fun j => lane256 w j v) := by
  have e2 := width_two hw; have el := lanes16 hw
  have h2 : 2 ≤ Lanes w 16 := by rcases hw with rfl | rfl | rfl | rfl <;> decide
  rw [within_blk s f hw]
  unfold ReduceAcrossBlocksQ
  rw [call_blk s hw, swap_lo]
  dsimp only
  have key : ∀ i, i < 128 / w → ∀ a b : M128, (a = v.lo ∧ b = v.hi ∨ a = v.hi ∧ b = v.lo) →
      IsRed f s (lane w i (ReduceWithinBlocks .avx2 s f w 16 (f.call .avx2 s w a b))) (256 / w) (fun j => lane256 w j v) := by
    intro i hi a b hab
    have := within .avx2 s f (shape16 hw) h2 (f.call .avx2 s w a b) (i := i) (by omega)
    rw [show 256 / w = Lanes w 16 + Lanes w 16 by omega]
    apply red_pairs
    refine red_congr this rfl (fun j hj => ?_)
    beta_reduce
    rw [lane_call .avx2 s f (inReg_of (shape16 hw) hj), lane256_lo (show j < 128 / w by omega),
      lane256_hi (show ¬ Lanes w 16 + j < 128 / w by omega), show Lanes w 16 + j - 128 / w = j by omega]
    rcases hab with ⟨rfl, rfl⟩ | ⟨rfl, rfl⟩
    · rfl
    · exact Std.Commutative.comm _ _
  by_cases hb : i < 128 / w
  · rw [lane256_lo hb]; exact key i hb _ _ (.inl ⟨rfl, rfl⟩)
  · rw [lane256_hi hb]; exact key _ (by omega) _ _ (.inr ⟨rfl, rfl⟩)

/-! ## The theorems -/

/-- `SumOfLanes` puts the sum of all lanes of both blocks, wrapped to the lane type, into every lane. -/
theorem C79_sumOfLanes (signed : Bool) {w : Nat} (hw : Width w) (v : M256) {i : Nat} (h : i < 256 / w) :
    lane256 w i (SumOfLanesQ signed w v) = BitVec.ofInt w ((List.range (256 / w)).map (fun j => val signed (lane256 w j v))).sum :=
  of_lanes signed .add hw v h
/-- `MinOfLanes` puts the least lane of both blocks into every lane. -/
theorem C79_minOfLanes (signed : Bool) {w : Nat} (hw : Width w) (v : M256) {i : Nat} (h : i < 256 / w) :
    (∀ j, j < 256 / w → val signed (lane256 w i (MinOfLanesQ signed w v)) ≤ val signed (lane256 w j v)) ∧
    ∃ j, j < 256 / w ∧ lane256 w i (MinOfLanesQ signed w v) = lane256 w j v :=
  of_lanes signed .min hw v h
/-- `MaxOfLanes` puts the greatest lane of both blocks into every lane. -/
theorem C79_maxOfLanes (signed : Bool) {w : Nat} (hw : Width w) (v : M256) {i : Nat} (h : i < 256 / w) :
    (∀ j, j < 256 / w → val signed (lane256 w j v) ≤ val signed (lane256 w i (MaxOfLanesQ signed w v))) ∧
    ∃ j, j < 256 / w ∧ lane256 w i (MaxOfLanesQ signed w v) = lane256 w j v :=
  of_lanes signed .max hw v h

theorem pos256 {w : Nat} (hw : Width w) : 0 < 128 / w ∧ 0 < 256 / w ∧ 0 < w := by rcases hw with rfl | rfl | rfl | rfl <;> decide
theorem get_lane {w : Nat} (hw : Width w) (v : M256) : lane w 0 (LowerHalf v) = lane256 w 0 v := (lane256_lo (pos256 hw).1 (r := v)).symm

/-- `ReduceSum` is the sum of all lanes, wrapped to the lane type. -/
theorem C79_reduceSum (signed : Bool) {w : Nat} (hw : Width w) (v : M256) :
    ReduceSumQ signed w v = BitVec.ofInt w ((List.range (256 / w)).map (fun j => val signed (lane256 w j v))).sum :=
  (get_lane hw _).trans (C79_sumOfLanes signed hw v (pos256 hw).2.1)
/-- `ReduceMin` is the least lane. -/
theorem C79_reduceMin (signed : Bool) {w : Nat} (hw : Width w) (v : M256) :
    (∀ j, j < 256 / w → val signed (ReduceMinQ signed w v) ≤ val signed (lane256 w j v)) ∧ ∃ j, j < 256 / w ∧ ReduceMinQ signed w v = lane256 w j v := by
  unfold ReduceMinQ; rw [get_lane hw]; exact C79_minOfLanes signed hw v (pos256 hw).2.1
/-- `ReduceMax` is the greatest lane. -/
theorem C79_reduceMax (signed : Bool) {w : Nat} (hw : Width w) (v : M256) :
    (∀ j, j < 256 / w → val signed (lane256 w j v) ≤ val signed (ReduceMaxQ signed w v)) ∧ ∃ j, j < 256 / w ∧ ReduceMaxQ signed w v = lane256 w j v := by
  unfold ReduceMaxQ; rw [get_lane hw]; exact C79_maxOfLanes signed hw v (pos256 hw).2.1

/-- `MaskedReduceSum` is the sum of the lanes whose mask is set, wrapped to the lane type. -/
theorem C79_maskedReduceSum (signed : Bool) {w : Nat} (hw : Width w) {m : M256} {p : Nat → Bool} (hm : MaskOf256 w m p) (v : M256) :
    MaskedReduceSumQ signed w m v =
      BitVec.ofInt w ((List.range (256 / w)).map (fun j => if p j then val signed (lane256 w j v) else 0)).sum := by
  unfold MaskedReduceSumQ
  rw [C79_reduceSum signed hw]; congr 2
  apply List.map_congr_left
  intro j hj
  beta_reduce
  rw [(C76_ifThenElse hw hm v v (List.mem_range.1 hj)).2.2.1]
  cases p j
  · simp only [Bool.false_eq_true, if_false]; unfold val; cases signed <;> simp
  · rfl

theorem lane_setQ' {w : Nat} (hw : Width w) (x : BitVec w) {i : Nat} (h : i < 256 / w) : lane256 w i (setQ w x) = x := lane_setQ hw x h

/-- `MaskedReduceMin` is the least of the lanes whose mask is set, and the greatest value of the type if none is. -/
theorem C79_maskedReduceMin (signed : Bool) {w : Nat} (hw : Width w) {m : M256} {p : Nat → Bool} (hm : MaskOf256 w m p) (v : M256) :
    (∀ j, j < 256 / w → p j = true → val signed (MaskedReduceMinQ signed w m v) ≤ val signed (lane256 w j v)) ∧
    ((∃ j, j < 256 / w ∧ p j = true) → ∃ j, j < 256 / w ∧ p j = true ∧ MaskedReduceMinQ signed w m v = lane256 w j v) ∧
    ((∀ j, j < 256 / w → p j = false) → MaskedReduceMinQ signed w m v = if signed then BitVec.intMax w else BitVec.allOnes w) := by
  obtain ⟨h1, k, hk, h2⟩ := C79_reduceMin signed hw (IfThenElse m v (setQ w (if signed then BitVec.intMax w else BitVec.allOnes w)))
  have e : MaskedReduceMinQ signed w m v =
    ReduceMinQ signed w (IfThenElse m v (setQ w (if signed then BitVec.intMax w else BitVec.allOnes w))) := rfl
  rw [← e] at h1 h2
  have hl : ∀ j, j < 256 / w → lane256 w j (IfThenElse m v (setQ w (if signed then BitVec.intMax w else BitVec.allOnes w))) =
      if p j then lane256 w j v else if signed then BitVec.intMax w else BitVec.allOnes w := fun j hj => by
    rw [(C76_ifThenElse hw hm v _ hj).1, lane_setQ' hw _ hj]
  rw [hl k hk] at h2
  have w0 : 0 < w := (pos256 hw).2.2
  have htop : ∀ x : BitVec w, val signed x ≤ val signed (if signed then BitVec.intMax w else BitVec.allOnes w) := by
    intro x
    cases signed
    · have := x.isLt; unfold val; simp only [Bool.false_eq_true, if_false, BitVec.toNat_allOnes]; omega
    · have := BitVec.toInt_lt (x := x)
      unfold val; simp only [if_true, BitVec.toInt_intMax]
      have e2 : (2 : Int) ^ (w - 1) = ((2 ^ (w - 1) : Nat) : Int) := by push_cast; rfl
      omega
  refine ⟨fun j hj hp => ?_, fun ⟨j, hj, hp⟩ => ?_, fun hn => ?_⟩
  · have := h1 j hj; rw [hl j hj, if_pos hp] at this; exact this
  · by_cases hpk : p k = true
    · rw [if_pos hpk] at h2; exact ⟨k, hk, hpk, h2⟩
    · rw [if_neg hpk] at h2
      refine ⟨j, hj, hp, val_inj signed ?_⟩
      have a := h1 j hj; rw [hl j hj, if_pos hp] at a
      have b := htop (lane256 w j v); rw [← h2] at b
      omega
  · rw [h2, if_neg (by rw [hn k hk]; decide)]

/-- `MaskedReduceMax` is the greatest of the lanes whose mask is set, and the least value of the type if none is. -/
theorem C79_maskedReduceMax (signed : Bool) {w : Nat} (hw : Width w) {m : M256} {p : Nat → Bool} (hm : MaskOf256 w m p) (v : M256) :
    (∀ j, j < 256 / w → p j = true → val signed (lane256 w j v) ≤ val signed (MaskedReduceMaxQ signed w m v)) ∧
    ((∃ j, j < 256 / w ∧ p j = true) → ∃ j, j < 256 / w ∧ p j = true ∧ MaskedReduceMaxQ signed w m v = lane256 w j v) ∧
    ((∀ j, j < 256 / w → p j = false) → MaskedReduceMaxQ signed w m v = if signed then BitVec.intMin w else 0#w) := by
  obtain ⟨h1, k, hk, h2⟩ := C79_reduceMax signed hw (IfThenElse m v (setQ w (if signed then BitVec.intMin w else 0#w)))
  have e : MaskedReduceMaxQ signed w m v =
    ReduceMaxQ signed w (IfThenElse m v (setQ w (if signed then BitVec.intMin w else 0#w))) := rfl
  rw [← e] at h1 h2
  have hl : ∀ j, j < 256 / w → lane256 w j (IfThenElse m v (setQ w (if signed then BitVec.intMin w else 0#w))) =
      if p j then lane256 w j v else if signed then BitVec.intMin w else 0#w := fun j hj => by
    rw [(C76_ifThenElse hw hm v _ hj).1, lane_setQ' hw _ hj]
  rw [hl k hk] at h2
  have w0 : 0 < w := (pos256 hw).2.2
  have htop : ∀ x : BitVec w, val signed (if signed then BitVec.intMin w else 0#w) ≤ val signed x := by
    intro x
    cases signed
    · unfold val; simp only [Bool.false_eq_true, if_false, BitVec.toNat_ofNat, Nat.zero_mod]; omega
    · have := BitVec.le_toInt (x := x)
      unfold val; simp only [if_true, BitVec.toInt_intMin_of_pos w0]
      exact this
  refine ⟨fun j hj hp => ?_, fun ⟨j, hj, hp⟩ => ?_, fun hn => ?_⟩
  · have := h1 j hj; rw [hl j hj, if_pos hp] at this; exact this
  · by_cases hpk : p k = true
    · rw [if_pos hpk] at h2; exact ⟨k, hk, hpk, h2⟩
    · rw [if_neg hpk] at h2
      refine ⟨j, hj, hp, val_inj signed ?_⟩
      have a := h1 j hj; rw [hl j hj, if_pos hp] at a
      have b := htop (lane256 w j v); rw [← h2] at b
      omega
  · rw [h2, if_neg (by rw [hn k hk]; decide)]

/-! ## The byte reversals -/

/-- 8-bit `Reverse2`, `Reverse4`, `Reverse8`: every group of two, four or eight bytes is reversed. -/
theorem C79_reverseBytes (v : M256) {i : Nat} (h : i < 32) :
    lane256 8 i (Reverse2x8Q v) = lane256 8 (i / 2 * 2 + (1 - i % 2)) v ∧
    lane256 8 i (Reverse4x8Q v) = lane256 8 (i / 4 * 4 + (3 - i % 4)) v ∧
    lane256 8 i (Reverse8x8Q v) = lane256 8 (i / 8 * 8 + (7 - i % 8)) v := by
  have e2 : Reverse2x8Q v = ⟨Reverse2x8 .avx2 v.lo, Reverse2x8 .avx2 v.hi⟩ := rfl
  have e4 : Reverse4x8Q v = ⟨Reverse4x8 .avx2 16 v.lo, Reverse4x8 .avx2 16 v.hi⟩ := rfl
  have e8 : Reverse8x8Q v = ⟨Rev8 .avx2 8 16 v.lo, Rev8 .avx2 8 16 v.hi⟩ := rfl
  have s : Shape 8 16 := by simp [Shape]
  rw [e2, e4, e8]
  by_cases hb : i < 16
  · rw [lane256_lo (w := 8) (i := i) hb, lane256_lo (w := 8) (i := i) hb, lane256_lo (w := 8) (i := i) hb,
      lane256_lo (w := 8) (i := _) (show _ < 128 / 8 by omega), lane256_lo (w := 8) (show i / 4 * 4 + _ < 128 / 8 by omega),
      lane256_lo (w := 8) (show i / 8 * 8 + _ < 128 / 8 by omega)]
    exact ⟨C71_reverse2 .avx2 s (by omega) v.lo hb, C71_reverse4 .avx2 s (by omega) v.lo hb,
      C71_reverse8 .avx2 s (by decide) v.lo hb⟩
  · rw [lane256_hi (w := 8) (i := i) hb, lane256_hi (w := 8) (i := i) hb, lane256_hi (w := 8) (i := i) hb,
      lane256_hi (w := 8) (show ¬ i / 2 * 2 + (1 - i % 2) < 128 / 8 by omega), lane256_hi (w := 8) (show ¬ i / 4 * 4 + (3 - i % 4) < 128 / 8 by omega),
      lane256_hi (w := 8) (show ¬ i / 8 * 8 + (7 - i % 8) < 128 / 8 by omega)]
    have a := C71_reverse2 .avx2 s (by omega) v.hi (i := i - 16) (by omega)
    have b := C71_reverse4 .avx2 s (by omega) v.hi (i := i - 16) (by omega)
    have c := C71_reverse8 .avx2 s (by decide) v.hi (i := i - 16) (show i - 16 < 16 by omega)
    refine ⟨Eq.trans a ?_, Eq.trans b ?_, Eq.trans c ?_⟩
    · congr 1; omega
    · congr 1; omega
    · congr 1; omega

end Hwy.X86.V256
