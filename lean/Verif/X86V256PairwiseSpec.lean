import Verif.X86V256Pairwise
import Verif.X86SatWideSpec
import Verif.X86V256MulSpec
import Verif.X86V256ConvSpec
import Verif.X86V256OpsSpec

/-!
# C81, C82 for 256-bit AVX2 vectors
-/

namespace Hwy.X86.V256

theorem interleaveEven_blk {w : Nat} (hw : Width w) (a b : M256) : InterleaveEven false w a b = blk2 (X86.InterleaveEven .avx2 w 16) a b := by
  have e2 := width_two hw; have e := even_lanes hw; have el := lanes16 hw; have := width_le hw
  apply blk_ext hw
  · intro i h
    rw [C72_interleaveEven false hw a b (by omega), C63_interleaveEven .avx2 (shape16 hw) (by omega) a.lo b.lo (by omega)]
    by_cases c : i % 2 = 0
    · rw [if_pos c, if_pos c, lane256_lo (by omega)]
    · rw [if_neg c, if_neg c, lane256_lo (by omega)]
  · intro i h
    rw [C72_interleaveEven false hw a b (by omega), C63_interleaveEven .avx2 (shape16 hw) (by omega) a.hi b.hi (by omega)]
    by_cases c : i % 2 = 0
    · rw [if_pos (by omega), if_pos c, lane256_hi (by omega), Nat.add_sub_cancel_left]
    · rw [if_neg (by omega), if_neg c, lane256_hi (by omega)]
      congr 1; omega

/-! ## Pairwise sums and differences -/

/-- `PairwiseAdd`: sums of adjacent lanes, those of `a` in the even and those of `b` in the odd lanes. -/
theorem C81_pairwiseAdd {w : Nat} (hw : Width w) (a b : M256) {i : Nat} (h : i < 256 / w) :
    lane256 w i (PairwiseAddQ w a b) =
      if i % 2 = 0 then lane256 w i a + lane256 w (i + 1) a else lane256 w (i - 1) b + lane256 w i b := by
  unfold PairwiseAddQ
  rw [(C76_addSub hw _ _ h).1, C72_interleaveEven false hw a b h, C72_interleaveOdd false hw a b h]
  split <;> rfl
/-- `PairwiseSub`: the odd minus the even lane of every pair. -/
theorem C81_pairwiseSub {w : Nat} (hw : Width w) (a b : M256) {i : Nat} (h : i < 256 / w) :
    lane256 w i (PairwiseSubQ w a b) =
      if i % 2 = 0 then lane256 w (i + 1) a - lane256 w i a else lane256 w i b - lane256 w (i - 1) b := by
  unfold PairwiseSubQ
  rw [(C76_addSub hw _ _ h).2.1, C72_interleaveEven false hw a b h, C72_interleaveOdd false hw a b h]
  split <;> rfl

theorem pairwiseAdd_blk {w : Nat} (hw : Width w) (a b : M256) : PairwiseAddQ w a b = blk2 (X86.PairwiseAdd .avx2 w 16) a b := by
  unfold PairwiseAddQ; rw [interleaveEven_blk hw, interleaveOdd_blk hw]; rfl
theorem pairwiseSub_blk {w : Nat} (hw : Width w) (a b : M256) : PairwiseSubQ w a b = blk2 (X86.PairwiseSub .avx2 w 16) a b := by
  unfold PairwiseSubQ; rw [interleaveEven_blk hw, interleaveOdd_blk hw]; rfl
theorem concat_blk {w : Nat} (hw : w = 8 ∨ w = 64) (v : M256) :
    BlockwiseConcatOddEvenQ w v = blk1 (X86.BlockwiseConcatOddEven .avx2 w) v := by
  rcases hw with rfl | rfl <;> rfl
theorem pairwiseAdd128_blk {w : Nat} (hw : Width w) (a b : M256) : PairwiseAdd128Q w a b = blk2 (X86.PairwiseAdd128 .avx2 w) a b := by
  unfold PairwiseAdd128Q
  split
  · rename_i h
    rcases h with rfl | rfl <;> rfl
  · rename_i h
    have e : ∀ x y : M128, X86.PairwiseAdd128 .avx2 w x y = X86.BlockwiseConcatOddEven .avx2 w (X86.PairwiseAdd .avx2 w 16 x y) :=
      fun x y => if_neg (fun hh => h hh.2)
    rw [concat_blk (by unfold Width at hw; omega), pairwiseAdd_blk hw]
    unfold blk1 blk2
    simp only [e]
theorem pairwiseSub128_blk {w : Nat} (hw : Width w) (a b : M256) : PairwiseSub128Q w a b = blk2 (X86.PairwiseSub128 .avx2 w) a b := by
  unfold PairwiseSub128Q
  split
  · rename_i h
    rcases h with rfl | rfl <;> rfl
  · rename_i h
    have e : ∀ x y : M128, X86.PairwiseSub128 .avx2 w x y = X86.BlockwiseConcatOddEven .avx2 w (X86.PairwiseSub .avx2 w 16 x y) :=
      fun x y => if_neg (fun hh => h hh.2)
    rw [concat_blk (by unfold Width at hw; omega), pairwiseSub_blk hw]
    unfold blk1 blk2
    simp only [e]

/-- Lane `j` of 128-bit block `k`. -/
theorem lane_block {w : Nat} (hw : Width w) {k j : Nat} (hk : k < 2) (hj : j < 128 / w) (r : M256) :
    lane256 w (k * (128 / w) + j) r = lane w j (if k = 0 then r.lo else r.hi) := by
  obtain rfl | rfl : k = 0 ∨ k = 1 := by omega
  · rw [Nat.zero_mul, Nat.zero_add, lane256_lo hj, if_pos rfl]
  · rw [Nat.one_mul, lane256_hi (by omega), Nat.add_sub_cancel_left, if_neg (by decide)]

/-- `PairwiseAdd128`: in every 128-bit block `k` the sums of adjacent lanes of that block of `a`, then those of `b`. -/
theorem C81_pairwiseAdd128 {w : Nat} (hw : Width w) (a b : M256) {k j : Nat} (hk : k < 2) (hj : j < 128 / w) :
    lane256 w (k * (128 / w) + j) (PairwiseAdd128Q w a b) =
      if j < 128 / w / 2 then lane256 w (k * (128 / w) + 2 * j) a + lane256 w (k * (128 / w) + (2 * j + 1)) a
      else lane256 w (k * (128 / w) + 2 * (j - 128 / w / 2)) b + lane256 w (k * (128 / w) + (2 * (j - 128 / w / 2) + 1)) b := by
  have e := even_lanes hw
  rw [pairwiseAdd128_blk hw, lane_block hw hk hj]
  by_cases c : j < 128 / w / 2
  · rw [if_pos c, lane_block hw hk (by omega), lane_block hw hk (by omega)]
    have key := fun x y : M128 => (X86.C81_pairwiseAdd128 .avx2 hw x y hj).trans (if_pos c)
    by_cases c0 : k = 0
    · simp only [if_pos c0]; exact key a.lo b.lo
    · simp only [if_neg c0]; exact key a.hi b.hi
  · rw [if_neg c, lane_block hw hk (by omega), lane_block hw hk (by omega)]
    have key := fun x y : M128 => (X86.C81_pairwiseAdd128 .avx2 hw x y hj).trans (if_neg c)
    by_cases c0 : k = 0
    · simp only [if_pos c0]; exact key a.lo b.lo
    · simp only [if_neg c0]; exact key a.hi b.hi
/-- `PairwiseSub128`: in every block the differences, odd minus even, of adjacent lanes of `a`, then those of `b`. -/
theorem C81_pairwiseSub128 {w : Nat} (hw : Width w) (a b : M256) {k j : Nat} (hk : k < 2) (hj : j < 128 / w) :
    lane256 w (k * (128 / w) + j) (PairwiseSub128Q w a b) =
      if j < 128 / w / 2 then lane256 w (k * (128 / w) + (2 * j + 1)) a - lane256 w (k * (128 / w) + 2 * j) a
      else lane256 w (k * (128 / w) + (2 * (j - 128 / w / 2) + 1)) b - lane256 w (k * (128 / w) + 2 * (j - 128 / w / 2)) b := by
  have e := even_lanes hw
  rw [pairwiseSub128_blk hw, lane_block hw hk hj]
  by_cases c : j < 128 / w / 2
  · rw [if_pos c, lane_block hw hk (by omega), lane_block hw hk (by omega)]
    have key := fun x y : M128 => (X86.C81_pairwiseSub128 .avx2 hw x y hj).trans (if_pos c)
    by_cases c0 : k = 0
    · simp only [if_pos c0]; exact key a.lo b.lo
    · simp only [if_neg c0]; exact key a.hi b.hi
  · rw [if_neg c, lane_block hw hk (by omega), lane_block hw hk (by omega)]
    have key := fun x y : M128 => (X86.C81_pairwiseSub128 .avx2 hw x y hj).trans (if_neg c)
    by_cases c0 : k = 0
    · simp only [if_pos c0]; exact key a.lo b.lo
    · simp only [if_neg c0]; exact key a.hi b.hi
/-! ## Sums of two and four lanes -/

/-- `SumsOf2`: every lane is the exact sum of two lanes of half the width. -/
theorem C81_sumsOf2 (signed : Bool) {f : Nat} (hf : NarrowW f) (v : M256) {i : Nat} (h : i < 256 / (2 * f)) :
    val signed (lane256 (2 * f) i (SumsOf2Q signed f v)) = val signed (lane256 f (2 * i) v) + val signed (lane256 f (2 * i + 1) v) := by
  have he := C75_promoteEvenTo signed signed (fun h => h) hf v h
  have ho := C75_promoteOddTo signed signed (fun h => h) hf v h
  have r0 := val_range signed hf (lane256 f (2 * i) v)
  have r1 := val_range signed hf (lane256 f (2 * i + 1) v)
  unfold SumsOf2Q
  rw [(C76_addSub (by unfold NarrowW at hf; unfold Width; omega) _ _ h).1, ← he, ← ho]
  rw [← he] at r0; rw [← ho] at r1
  generalize lane256 (2 * f) i (PromoteEvenTo signed f v) = x at *
  generalize lane256 (2 * f) i (PromoteOddTo signed f v) = y at *
  unfold val lo hi at *
  cases signed
  · simp only [Bool.false_eq_true, if_false] at *
    rw [BitVec.toNat_add, Nat.mod_eq_of_lt]
    · norm_cast
    · rcases hf with rfl | rfl | rfl <;> simp only [Nat.reduceMul, Nat.reducePow, Int.reducePow] at * <;> omega
  · simp only [if_true] at *
    rw [BitVec.toInt_add, Int.bmod_eq_of_le] <;>
    rcases hf with rfl | rfl | rfl <;> simp only [Nat.reduceMul, Nat.reducePow, Int.reducePow, Nat.reduceSub] at * <;> omega

/-- `SumsOf4`: every lane is the exact sum of four lanes of a quarter of the width. -/
theorem C81_sumsOf4 (signed : Bool) {f : Nat} (hf : f = 8 ∨ f = 16) (v : M256) {i : Nat} (h : i < 256 / (4 * f)) :
    val signed (lane256 (4 * f) i (SumsOf4Q signed f v))
      = val signed (lane256 f (4 * i) v) + val signed (lane256 f (4 * i + 1) v) + val signed (lane256 f (4 * i + 2) v)
        + val signed (lane256 f (4 * i + 3) v) := by
  have hn : NarrowW f := by unfold NarrowW; omega
  have hn2 : NarrowW (2 * f) := by unfold NarrowW; omega
  have e : 256 / (2 * f) = 2 * (256 / (4 * f)) := by rcases hf with rfl | rfl <;> rfl
  rw [show 4 * f = 2 * (2 * f) by omega] at *
  unfold SumsOf4Q
  rw [C81_sumsOf2 signed hn2 _ h, C81_sumsOf2 signed hn v (by omega), C81_sumsOf2 signed hn v (by omega)]
  rw [show 2 * (2 * i) = 4 * i by omega, show 2 * (2 * i + 1) = 4 * i + 2 by omega]
  ring

/-! ## Saturating addition and subtraction -/

theorem satAdd_blk (signed : Bool) {w : Nat} (hw : w = 32 ∨ w = 64) (a b : M256) :
    SaturatedAddWideQ signed w a b = blk2 (X86.SaturatedAddWide .avx2 signed w) a b := by
  rcases hw with rfl | rfl <;> cases signed <;> rfl
theorem satSub_blk (signed : Bool) {w : Nat} (hw : w = 32 ∨ w = 64) (a b : M256) :
    SaturatedSubWideQ signed w a b = blk2 (X86.SaturatedSubWide .avx2 signed w) a b := by
  rcases hw with rfl | rfl <;> cases signed <;> rfl

/-- `SaturatedAdd` of 32- and 64-bit lanes: the nearest value of the type to the exact sum. -/
theorem C82_saturatedAdd (signed : Bool) {w : Nat} (hw : w = 32 ∨ w = 64) (a b : M256) {i : Nat} (h : i < 256 / w) :
    val signed (lane256 w i (SaturatedAddWideQ signed w a b))
      = max (lo signed w) (min (val signed (lane256 w i a) + val signed (lane256 w i b)) (hi signed w)) := by
  rw [satAdd_blk signed hw]
  exact lift2 (P := fun x y z => val signed z = max (lo signed w) (min (val signed x + val signed y) (hi signed w)))
    (by unfold Width; omega) (fun i a b r => X86.C82_saturatedAdd .avx2 signed r hw a b) h a b
/-- `SaturatedSub` of 32- and 64-bit lanes: the nearest value of the type to the exact difference. -/
theorem C82_saturatedSub (signed : Bool) {w : Nat} (hw : w = 32 ∨ w = 64) (a b : M256) {i : Nat} (h : i < 256 / w) :
    val signed (lane256 w i (SaturatedSubWideQ signed w a b))
      = max (lo signed w) (min (val signed (lane256 w i a) - val signed (lane256 w i b)) (hi signed w)) := by
  rw [satSub_blk signed hw]
  exact lift2 (P := fun x y z => val signed z = max (lo signed w) (min (val signed x - val signed y) (hi signed w)))
    (by unfold Width; omega) (fun i a b r => X86.C82_saturatedSub .avx2 signed r hw a b) h a b

/-! ## Saturating sums of products -/

theorem pairB_lo {i : Nat} (h : i < 8) (r : M256) : lane256 16 i r = lane 16 i r.lo ∧ lane256 8 (2 * i) r = lane 8 (2 * i) r.lo ∧
    lane256 8 (2 * i + 1) r = lane 8 (2 * i + 1) r.lo := ⟨lane256_lo h r, lane256_lo (by omega) r, lane256_lo (by omega) r⟩
theorem pairB_hi {i : Nat} (h : ¬ i < 8) (r : M256) : lane256 16 i r = lane 16 (i - 8) r.hi ∧ lane256 8 (2 * i) r = lane 8 (2 * (i - 8)) r.hi ∧
    lane256 8 (2 * i + 1) r = lane 8 (2 * (i - 8) + 1) r.hi := by
  refine ⟨lane256_hi h r, ?_, ?_⟩
  · rw [lane256_hi (by omega)]; congr 1; omega
  · rw [lane256_hi (by omega)]; congr 1; omega

/-- `SatWidenMulPairwiseAdd`: the sum of the two products of an unsigned and a signed byte, saturated to 16 bits. -/
theorem C82_satWidenMulPairwiseAdd (a b : M256) {i : Nat} (h : i < 16) :
    val true (lane256 16 i (SatWidenMulPairwiseAddQ a b))
      = max (-32768) (min (val false (lane256 8 (2 * i) a) * val true (lane256 8 (2 * i) b)
          + val false (lane256 8 (2 * i + 1) a) * val true (lane256 8 (2 * i + 1) b)) 32767) := by
  have e : SatWidenMulPairwiseAddQ a b = blk2 (X86.SatWidenMulPairwiseAdd .avx2 16) a b := rfl
  rw [e]
  by_cases hb : i < 8
  · simp only [(pairB_lo hb _).1, (pairB_lo hb a).2.1, (pairB_lo hb a).2.2, (pairB_lo hb b).2.1, (pairB_lo hb b).2.2]
    exact X86.C65_satWidenMulPairwiseAdd .avx2 (sz := 16) (by simp [Shape]) _ _ hb
  · simp only [(pairB_hi hb _).1, (pairB_hi hb a).2.1, (pairB_hi hb a).2.2, (pairB_hi hb b).2.1, (pairB_hi hb b).2.2]
    exact X86.C65_satWidenMulPairwiseAdd .avx2 (sz := 16) (by simp [Shape]) _ _ (by show i - 8 < 8; omega)

theorem widenI_blk (a b : M256) : WidenMulPairwiseAddQ true a b = ⟨X86.WidenMulPairwiseAdd .avx2 true a.lo b.lo, X86.WidenMulPairwiseAdd .avx2 true a.hi b.hi⟩ := rfl
theorem accum_blk (a b sum : M256) : SatWidenMulPairwiseAccumulateQ a b sum = blk3 (X86.SatWidenMulPairwiseAccumulate .avx2) a b sum := by
  unfold SatWidenMulPairwiseAccumulateQ
  rw [satAdd_blk true (.inl rfl), widenI_blk]; rfl

/-- `SatWidenMulPairwiseAccumulate`: the nearest 32-bit value to the exact sum of the accumulator and the two products. -/
theorem C82_satWidenMulPairwiseAccumulate (a b sum : M256) {i : Nat} (h : i < 8) :
    val true (lane256 32 i (SatWidenMulPairwiseAccumulateQ a b sum))
      = max (-2147483648) (min (val true (lane256 32 i sum) + (val true (lane256 16 (2 * i) a) * val true (lane256 16 (2 * i) b)
          + val true (lane256 16 (2 * i + 1) a) * val true (lane256 16 (2 * i + 1) b))) 2147483647) := by
  rw [accum_blk]
  by_cases hb : i < 4
  · simp only [(pair_lo hb _).1, (pair_lo hb a).2.1, (pair_lo hb a).2.2, (pair_lo hb b).2.1, (pair_lo hb b).2.2]
    exact X86.C82_satWidenMulPairwiseAccumulate .avx2 _ _ _ hb
  · simp only [(pair_hi hb _).1, (pair_hi hb a).2.1, (pair_hi hb a).2.2, (pair_hi hb b).2.1, (pair_hi hb b).2.2]
    exact X86.C82_satWidenMulPairwiseAccumulate .avx2 _ _ _ (by omega)

/-! ## Sums of four products -/

/-- The four-product sum of the narrow lanes `4*i … 4*i+3`. -/
def quad (sa sb : Bool) (f i : Nat) (a b : M256) : Int :=
  val sa (lane256 f (4 * i) a) * val sb (lane256 f (4 * i) b) + val sa (lane256 f (4 * i + 1) a) * val sb (lane256 f (4 * i + 1) b)
    + val sa (lane256 f (4 * i + 2) a) * val sb (lane256 f (4 * i + 2) b)
    + val sa (lane256 f (4 * i + 3) a) * val sb (lane256 f (4 * i + 3) b)

theorem quad_lift {f : Nat} (hf : f = 8 ∨ f = 16) (sa sb : Bool) (G : M256 → M256 → M256 → M256) (g : M128 → M128 → M128 → M128)
    (hG : ∀ a b s, G a b s = blk3 g a b s)
    (hg : ∀ a b s i, i < 128 / (4 * f) → lane (4 * f) i (g a b s) = lane (4 * f) i s + BitVec.ofInt (4 * f) (X86.quad sa sb f i a b))
    (a b sum : M256) {i : Nat} (h : i < 256 / (4 * f)) :
    lane256 (4 * f) i (G a b sum) = lane256 (4 * f) i sum + BitVec.ofInt (4 * f) (quad sa sb f i a b) := by
  have e : 128 / f = 4 * (128 / (4 * f)) ∧ 256 / (4 * f) = 2 * (128 / (4 * f)) := by rcases hf with rfl | rfl <;> decide
  have key := hg
  rw [hG]
  unfold quad
  by_cases hb : i < 128 / (4 * f)
  · have L : ∀ k, k < 4 → ∀ r : M256, lane256 f (4 * i + k) r = lane f (4 * i + k) r.lo := fun k hk r => lane256_lo (by omega) r
    have L0 : ∀ r : M256, lane256 f (4 * i) r = lane f (4 * i) r.lo := fun r => lane256_lo (by omega) r
    rw [lane256_lo hb, lane256_lo hb, L0, L0, L 1 (by omega), L 1 (by omega), L 2 (by omega), L 2 (by omega), L 3 (by omega), L 3 (by omega)]
    exact hg _ _ _ _ hb
  · have L : ∀ k, k < 4 → ∀ r : M256, lane256 f (4 * i + k) r = lane f (4 * (i - 128 / (4 * f)) + k) r.hi := fun k hk r => by
      rw [lane256_hi (by omega)]; congr 1; omega
    have L0 : ∀ r : M256, lane256 f (4 * i) r = lane f (4 * (i - 128 / (4 * f))) r.hi := fun r => by
      rw [lane256_hi (by omega)]; congr 1; omega
    rw [lane256_hi hb, lane256_hi hb, L0, L0, L 1 (by omega), L 1 (by omega), L 2 (by omega), L 2 (by omega), L 3 (by omega), L 3 (by omega)]
    exact hg _ _ _ _ (by omega)

theorem evenI8_blk (v : M256) : PromoteEvenTo true 8 v = ⟨X86.PromoteEvenTo .avx2 true 8 16 v.lo, X86.PromoteEvenTo .avx2 true 8 16 v.hi⟩ := by
  unfold PromoteEvenTo X86.PromoteEvenTo
  simp only [if_true, Nat.reduceEqDiff, if_false, blk1]
theorem oddI8_blk (v : M256) : PromoteOddTo true 8 v = ⟨X86.PromoteOddTo .avx2 true 8 16 v.lo, X86.PromoteOddTo .avx2 true 8 16 v.hi⟩ := by
  unfold PromoteOddTo X86.PromoteOddTo
  simp only [if_true, Nat.reduceEqDiff, if_false, blk1]
theorem add32_blk (a b : M256) : AddQ 32 a b = ⟨Add 32 a.lo b.lo, Add 32 a.hi b.hi⟩ := rfl
theorem set16_blk (x : BitVec 16) : setQ 16 x = ⟨set 16 x, set 16 x⟩ := rfl

/-- `SumOfMulQuadAccumulate` of signed bytes: the accumulator plus the four products (modulo `2^32`). -/
theorem C82_sumOfMulQuadAccumulate_i8 (a b sum : M256) {i : Nat} (h : i < 8) :
    lane256 32 i (SumOfMulQuadAccumulateI8Q a b sum) = lane256 32 i sum + BitVec.ofInt 32 (quad true true 8 i a b) :=
  quad_lift (f := 8) (.inl rfl) true true SumOfMulQuadAccumulateI8Q (X86.SumOfMulQuadAccumulateI8 .avx2 16)
    (fun a b s => by
      unfold SumOfMulQuadAccumulateI8Q X86.SumOfMulQuadAccumulateI8 blk3
      simp only [evenI8_blk, oddI8_blk, widenI_blk, add32_blk])
    (fun a b s _ hi => X86.C82_sumOfMulQuadAccumulate_i8 .avx2 (sz := 16) (by simp [Shape]) a b s hi) a b sum h
/-- `SumOfMulQuadAccumulate` of unsigned bytes. -/
theorem C82_sumOfMulQuadAccumulate_u8 (a b sum : M256) {i : Nat} (h : i < 8) :
    lane256 32 i (SumOfMulQuadAccumulateU8Q a b sum) = lane256 32 i sum + BitVec.ofInt 32 (quad false false 8 i a b) :=
  quad_lift (f := 8) (.inl rfl) false false SumOfMulQuadAccumulateU8Q (X86.SumOfMulQuadAccumulateU8 .avx2)
    (fun a b s => by
      unfold SumOfMulQuadAccumulateU8Q X86.SumOfMulQuadAccumulateU8 blk3
      simp only [set16_blk, q_and, r_shr16, widenI_blk, add32_blk])
    (fun a b s _ hi => X86.C82_sumOfMulQuadAccumulate_u8 .avx2 a b s hi) a b sum h
/-- `SumOfMulQuadAccumulate` of unsigned times signed bytes. -/
theorem C82_sumOfMulQuadAccumulate_u8i8 (a b sum : M256) {i : Nat} (h : i < 8) :
    lane256 32 i (SumOfMulQuadAccumulateU8I8Q a b sum) = lane256 32 i sum + BitVec.ofInt 32 (quad false true 8 i a b) :=
  quad_lift (f := 8) (.inl rfl) false true SumOfMulQuadAccumulateU8I8Q (X86.SumOfMulQuadAccumulateU8I8 .avx2)
    (fun a b s => by
      unfold SumOfMulQuadAccumulateU8I8Q X86.SumOfMulQuadAccumulateU8I8 blk3
      simp only [set16_blk, q_and, r_shr16, r_shl16, r_sar16, widenI_blk, add32_blk])
    (fun a b s _ hi => X86.C82_sumOfMulQuadAccumulate_u8i8 .avx2 a b s hi) a b sum h

theorem andNot_blk (a b : M256) : AndNotQ a b = ⟨AndNot a.lo b.lo, AndNot a.hi b.hi⟩ := rfl
theorem eq32_blk (a b : M256) : EqQ 32 a b = ⟨X86.Eq .avx2 32 a.lo b.lo, X86.Eq .avx2 32 a.hi b.hi⟩ := rfl
theorem set32_blk (x : BitVec 32) : setQ 32 x = ⟨set 32 x, set 32 x⟩ := rfl

theorem i16_blk (a b s : M256) : SumOfMulQuadAccumulateI16Q a b s = blk3 (X86.SumOfMulQuadAccumulateI16 .avx2) a b s := by
  have sar : ∀ v : M256, ShiftRightIQ 64 32 v = ⟨ShiftRightI .avx2 64 32 v.lo, ShiftRightI .avx2 64 32 v.hi⟩ := fun v => rfl
  unfold SumOfMulQuadAccumulateI16Q X86.SumOfMulQuadAccumulateI16 blk3
  simp only [set32_blk, q_set, q_and, andNot_blk, eq32_blk, sar, q_shl, widenI_blk, q_add]

/-- `SumOfMulQuadAccumulate` of signed 16-bit lanes: the accumulator plus the four exact products (modulo `2^64`), also when a pair
of products overflows 32 bits. -/
theorem C82_sumOfMulQuadAccumulate_i16 (a b sum : M256) {i : Nat} (h : i < 4) :
    lane256 64 i (SumOfMulQuadAccumulateI16Q a b sum) = lane256 64 i sum + BitVec.ofInt 64 (quad true true 16 i a b) :=
  quad_lift (f := 16) (.inr rfl) true true SumOfMulQuadAccumulateI16Q (X86.SumOfMulQuadAccumulateI16 .avx2) i16_blk
    (fun a b s _ hi => X86.C82_sumOfMulQuadAccumulate_i16 .avx2 a b s hi) a b sum h

theorem u16_blk (a b s : M256) : SumOfMulQuadAccumulateU16Q a b s = blk3 (X86.SumOfMulQuadAccumulateU16 .avx2 16) a b s := by
  have pe : ∀ v : M256, PromoteEvenTo false 32 v = ⟨X86.PromoteEvenTo .avx2 false 32 16 v.lo, X86.PromoteEvenTo .avx2 false 32 16 v.hi⟩ := fun v => rfl
  have po : ∀ v : M256, PromoteOddTo false 32 v = ⟨X86.PromoteOddTo .avx2 false 32 16 v.lo, X86.PromoteOddTo .avx2 false 32 16 v.hi⟩ := fun v => rfl
  unfold SumOfMulQuadAccumulateU16Q X86.SumOfMulQuadAccumulateU16 blk3
  simp only [r_mulEven16, r_mulOdd16, blk2, pe, po, q_add]

/-- `SumOfMulQuadAccumulate` of unsigned 16-bit lanes. -/
theorem C82_sumOfMulQuadAccumulate_u16 (a b sum : M256) {i : Nat} (h : i < 4) :
    lane256 64 i (SumOfMulQuadAccumulateU16Q a b sum) = lane256 64 i sum + BitVec.ofInt 64 (quad false false 16 i a b) :=
  quad_lift (f := 16) (.inr rfl) false false SumOfMulQuadAccumulateU16Q (X86.SumOfMulQuadAccumulateU16 .avx2 16) u16_blk
    (fun a b s _ hi => X86.C82_sumOfMulQuadAccumulate_u16 .avx2 (sz := 16) (.inr rfl) a b s hi) a b sum h

end Hwy.X86.V256
