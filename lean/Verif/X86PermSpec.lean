import Verif.X86Sym

/-!
# C63: the rearranging operations of the x86 128-bit targets

Every theorem is stated for every integer lane width `w`, every vector size `sz` in bytes that the
operation accepts, both code paths of every target (SSE2, SSSE3, SSE4, AVX2) and all register contents,
including the unspecified bytes above a partial vector.  `Lanes w sz` is the number of lanes.
-/

namespace Hwy.X86

/-- The vector types `Vec128<T, N>`: `w` bits per lane, `sz` bytes in all. -/
def Shape (w sz : Nat) : Prop :=
  (w = 8 ∧ (sz = 1 ∨ sz = 2 ∨ sz = 4 ∨ sz = 8 ∨ sz = 16)) ∨ (w = 16 ∧ (sz = 2 ∨ sz = 4 ∨ sz = 8 ∨ sz = 16))
    ∨ (w = 32 ∧ (sz = 4 ∨ sz = 8 ∨ sz = 16)) ∨ (w = 64 ∧ (sz = 8 ∨ sz = 16))

/-- `Lanes(d)`. -/
abbrev Lanes (w sz : Nat) : Nat := sz / (w / 8)

/-- Splits a shape hypothesis into the concrete vector types. -/
macro "shapes" h:ident : tactic => `(tactic|
  rcases $h:ident with ⟨hw, (hs | hs | hs | hs | hs)⟩ | ⟨hw, (hs | hs | hs | hs)⟩ | ⟨hw, (hs | hs | hs)⟩
    | ⟨hw, (hs | hs)⟩ <;> subst hw hs)

/-- Evaluates the compile-time conditions. -/
macro "stat" : tactic => `(tactic| simp only [InterleaveLower, InterleaveUpper, UpperHalf, LowerHalf, Combine, ZeroExtendVector,
  ShiftRightBytes, ShiftRightLanes, ShiftLeftBytes, ShiftLeftLanes, CombineShiftRightBytes, ConcatLowerLower, ConcatUpperUpper, ConcatLowerUpper,
  ConcatUpperLower, ConcatOdd, ConcatEven, DupEven, DupOdd, OddEven, InterleaveEven, InterleaveOdd,
  Shuffle1032, Shuffle01, Shuffle0321, Shuffle2103, Shuffle0123, Shuffle2301, ShuffleTwo2301, ShuffleTwo1230, ShuffleTwo3012,
  Reverse, Reverse2, Reverse4, Reverse8, Reverse16, ShiftLeft, ShiftRightU, ShiftRightI, RotateRight, Broadcast, Broadcast16,
  Nat.reduceMul, Nat.reduceDiv, Nat.reduceSub, Nat.reduceAdd, Nat.reduceMod, Nat.reduceEqDiff, Nat.reduceLeDiff, Nat.reduceGT,
  Nat.min_def, Nat.reduceLT, Nat.reduceAnd, Nat.reducePow, Tgt.val, HWY_AVX2, HWY_SSE4, HWY_SSSE3, HWY_SSE2, ne_eq, not_true_eq_false, not_false_eq_true, reduceIte, gt_iff_lt])

/-- Closes a goal about one concrete code path: lanes from two inputs. -/
macro "leaf" h:term : tactic => `(tactic| (
  apply Sym.lanesW (hi := $h)
  · decide
  · decide
  · sym
  · decide +kernel))

/-- Closes a goal about one concrete code path: lanes of one input or zeros. -/
macro "leaf0" h:term : tactic => `(tactic| (
  apply Sym.lanes0W (b := 0#128) (hi := $h)
  · decide
  · decide
  · sym
  · decide +kernel))

/-- Closes a goal about one concrete code path: lanes of one input. -/
macro "leaf1" h:term : tactic => `(tactic| (
  apply Sym.lanes1W (b := 0#128) (hi := $h)
  · decide
  · decide
  · sym
  · decide +kernel))

/-- `InterleaveLower(a, b)` alternates the lower lanes of `a` and `b`. -/
theorem C63_interleaveLower {w sz : Nat} (h : Shape w sz) (a b : M128) {i : Nat} (hi' : i < Lanes w sz) :
    lane w i (InterleaveLower w a b) =
      if i % 2 = 0 then lane w (i / 2) a else lane w (i / 2) b := by
  shapes h <;> stat <;> leaf hi'

/-- `InterleaveUpper(d, a, b)` alternates the lanes of the upper halves. -/
theorem C63_interleaveUpper (t : Tgt) {w sz : Nat} (h : Shape w sz) (h2 : 2 ≤ Lanes w sz) (a b : M128) {i : Nat}
    (hi' : i < Lanes w sz) :
    lane w i (InterleaveUpper t w sz a b) =
      if i % 2 = 0 then lane w (Lanes w sz / 2 + i / 2) a else lane w (Lanes w sz / 2 + i / 2) b := by
  shapes h <;> first | (exfalso; revert h2; decide) | (cases t <;> stat <;> leaf hi')

/-- `UpperHalf(d, v)`: the lanes after the first `Lanes(d)`. -/
theorem C63_upperHalf (t : Tgt) {w sz : Nat} (h : Shape w sz) (h2 : sz ≤ 8) (v : M128) {i : Nat} (hi' : i < Lanes w sz) :
    lane w i (UpperHalf t w sz v) =
      lane w (Lanes w sz + i) v := by
  shapes h <;> first | (exfalso; revert h2; decide) | (cases t <;> stat <;> leaf1 hi')

/-- `Combine(d, hi, lo)`. -/
theorem C63_combine {w sz : Nat} (h : Shape w sz) (h2 : 2 ≤ Lanes w sz) (hi lo : M128) {i : Nat}
    (hi' : i < Lanes w sz) :
    lane w i (Combine sz hi lo) =
      if i < Lanes w sz / 2 then lane w i lo else lane w (i - Lanes w sz / 2) hi := by
  shapes h <;> first | (exfalso; revert h2; decide) | (stat; leaf hi')

/-- `ZeroExtendVector(d, lo)`. -/
theorem C63_zeroExtendVector (t : Tgt) {w sz : Nat} (h : Shape w sz) (h2 : 2 ≤ Lanes w sz) (lo : M128) {i : Nat}
    (hi' : i < Lanes w sz) :
    lane w i (ZeroExtendVector t w sz lo) =
      if i < Lanes w sz / 2 then lane w i lo else 0#w := by
  shapes h <;> first | (exfalso; revert h2; decide) | (cases t <;> stat <;> leaf0 hi')

/-- `ConcatLowerLower(d, hi, lo)`. -/
theorem C63_concatLowerLower {w sz : Nat} (h : Shape w sz) (h2 : 2 ≤ Lanes w sz) (hi lo : M128) {i : Nat}
    (hi' : i < Lanes w sz) :
    lane w i (ConcatLowerLower sz hi lo) =
      if i < Lanes w sz / 2 then lane w i lo else lane w (i - Lanes w sz / 2) hi := by
  shapes h <;> first | (exfalso; revert h2; decide) | (stat; leaf hi')

/-- `ConcatUpperUpper(d, hi, lo)`. -/
theorem C63_concatUpperUpper (t : Tgt) {w sz : Nat} (h : Shape w sz) (h2 : 2 ≤ Lanes w sz) (hi lo : M128) {i : Nat}
    (hi' : i < Lanes w sz) :
    lane w i (ConcatUpperUpper t w sz hi lo) =
      if i < Lanes w sz / 2 then lane w (Lanes w sz / 2 + i) lo else lane w i hi := by
  shapes h <;> first | (exfalso; revert h2; decide) | (cases t <;> stat <;> leaf hi')

/-- `ConcatLowerUpper(d, hi, lo)`: the inner halves. -/
theorem C63_concatLowerUpper (t : Tgt) {w sz : Nat} (h : Shape w sz) (h2 : 2 ≤ Lanes w sz) (hi lo : M128) {i : Nat}
    (hi' : i < Lanes w sz) :
    lane w i (ConcatLowerUpper t w sz hi lo) =
      if i < Lanes w sz / 2 then lane w (Lanes w sz / 2 + i) lo else lane w (i - Lanes w sz / 2) hi := by
  shapes h <;> first | (exfalso; revert h2; decide) | (cases t <;> stat <;> leaf hi')

/-- `ConcatUpperLower(d, hi, lo)`: the outer halves. -/
theorem C63_concatUpperLower (t : Tgt) {w sz : Nat} (h : Shape w sz) (h2 : 2 ≤ Lanes w sz) (hi lo : M128) {i : Nat}
    (hi' : i < Lanes w sz) :
    lane w i (ConcatUpperLower t w sz hi lo) =
      if i < Lanes w sz / 2 then lane w i lo else lane w i hi := by
  shapes h <;> first | (exfalso; revert h2; decide) | (cases t <;> stat <;> leaf hi')

/-- `ConcatOdd(d, hi, lo)`: the odd lanes. -/
theorem C63_concatOdd (t : Tgt) {w sz : Nat} (h : Shape w sz) (h2 : 2 ≤ Lanes w sz) (hi lo : M128) {i : Nat}
    (hi' : i < Lanes w sz) :
    lane w i (ConcatOdd t w sz hi lo) =
      if i < Lanes w sz / 2 then lane w (2 * i + 1) lo else lane w (2 * (i - Lanes w sz / 2) + 1) hi := by
  shapes h <;> first | (exfalso; revert h2; decide) | (cases t <;> stat <;> leaf hi')

/-- `ConcatEven(d, hi, lo)`: the even lanes. -/
theorem C63_concatEven (t : Tgt) {w sz : Nat} (h : Shape w sz) (h2 : 2 ≤ Lanes w sz) (hi lo : M128) {i : Nat}
    (hi' : i < Lanes w sz) :
    lane w i (ConcatEven t w sz hi lo) =
      if i < Lanes w sz / 2 then lane w (2 * i) lo else lane w (2 * (i - Lanes w sz / 2)) hi := by
  shapes h <;> first | (exfalso; revert h2; decide) | (cases t <;> stat <;> leaf hi')

/-- `DupEven(v)`. -/
theorem C63_dupEven (t : Tgt) {w sz : Nat} (h : Shape w sz) (v : M128) {i : Nat} (hi' : i < Lanes w sz) :
    lane w i (DupEven t w sz v) =
      lane w (i / 2 * 2) v := by
  shapes h <;> (cases t <;> stat <;> leaf1 hi')

/-- `DupOdd(v)`, for at least two lanes. -/
theorem C63_dupOdd (t : Tgt) {w sz : Nat} (h : Shape w sz) (h2 : 2 ≤ Lanes w sz) (v : M128) {i : Nat} (hi' : i < Lanes w sz) :
    lane w i (DupOdd t w sz v) =
      lane w (i / 2 * 2 + 1) v := by
  shapes h <;> first | (exfalso; revert h2; decide) | (cases t <;> stat <;> leaf1 hi')

/-- `OddEven(a, b)`: odd lanes of `a`, even lanes of `b`. -/
theorem C63_oddEven (t : Tgt) {w sz : Nat} (h : Shape w sz) (a b : M128) {i : Nat}
    (hi' : i < Lanes w sz) :
    lane w i (OddEven t w a b) =
      if i % 2 = 1 then lane w i a else lane w i b := by
  shapes h <;> (cases t <;> stat <;> leaf hi')

/-- `InterleaveEven(d, a, b)`. -/
theorem C63_interleaveEven (t : Tgt) {w sz : Nat} (h : Shape w sz) (h2 : 2 ≤ Lanes w sz) (a b : M128) {i : Nat}
    (hi' : i < Lanes w sz) :
    lane w i (InterleaveEven t w sz a b) =
      if i % 2 = 0 then lane w i a else lane w (i - 1) b := by
  shapes h <;> first | (exfalso; revert h2; decide) | (cases t <;> stat <;> leaf hi')

/-- `InterleaveOdd(d, a, b)`. -/
theorem C63_interleaveOdd (t : Tgt) {w sz : Nat} (h : Shape w sz) (h2 : 2 ≤ Lanes w sz) (a b : M128) {i : Nat}
    (hi' : i < Lanes w sz) :
    lane w i (InterleaveOdd t w sz a b) =
      if i % 2 = 0 then lane w (i + 1) a else lane w i b := by
  shapes h <;> first | (exfalso; revert h2; decide) | (cases t <;> stat <;> leaf hi')

/-- `Shuffle1032(v)` swaps the 64-bit halves. -/
theorem C63_shuffle1032 (v : M128) {i : Nat} (hi' : i < 4) :
    lane 32 i (Shuffle1032 v) =
      lane 32 ((i + 2) % 4) v := by
  stat; leaf1 hi'

/-- `Shuffle0321(v)` rotates right by one lane. -/
theorem C63_shuffle0321 (v : M128) {i : Nat} (hi' : i < 4) :
    lane 32 i (Shuffle0321 v) =
      lane 32 ((i + 1) % 4) v := by
  stat; leaf1 hi'

/-- `Shuffle2103(v)` rotates left by one lane. -/
theorem C63_shuffle2103 (v : M128) {i : Nat} (hi' : i < 4) :
    lane 32 i (Shuffle2103 v) =
      lane 32 ((i + 3) % 4) v := by
  stat; leaf1 hi'

/-- `Shuffle0123(v)` reverses. -/
theorem C63_shuffle0123 (v : M128) {i : Nat} (hi' : i < 4) :
    lane 32 i (Shuffle0123 v) =
      lane 32 (3 - i) v := by
  stat; leaf1 hi'

/-- `Shuffle2301(v)` swaps neighbours. -/
theorem C63_shuffle2301 (v : M128) {i : Nat} (hi' : i < 4) :
    lane 32 i (Shuffle2301 v) =
      lane 32 ((i / 2 * 2 + (1 - i % 2))) v := by
  stat; leaf1 hi'

/-- `Shuffle01(v)` swaps the 64-bit lanes. -/
theorem C63_shuffle01 (v : M128) {i : Nat} (hi' : i < 2) :
    lane 64 i (Shuffle01 v) =
      lane 64 (1 - i) v := by
  stat; leaf1 hi'

/-- `detail::ShuffleTwo2301(a, b)`: `a[1] a[0] b[3] b[2]`. -/
theorem C63_shuffleTwo2301 (t : Tgt) {w : Nat} (h : w = 8 ∨ w = 16 ∨ w = 32) (a b : M128) {i : Nat} (hi' : i < 4) :
    lane w i (ShuffleTwo2301 t w a b) =
      if i < 2 then lane w (1 - i) a else lane w (5 - i) b := by
  rcases h with h | h | h <;> subst h <;> (cases t <;> stat <;> leaf hi')

/-- `detail::ShuffleTwo1230(a, b)`: `a[0] a[3] b[2] b[1]`. -/
theorem C63_shuffleTwo1230 (t : Tgt) {w : Nat} (h : w = 8 ∨ w = 16 ∨ w = 32) (a b : M128) {i : Nat} (hi' : i < 4) :
    lane w i (ShuffleTwo1230 t w a b) =
      if i < 2 then lane w (3 * i) a else lane w (4 - i) b := by
  rcases h with h | h | h <;> subst h <;> (cases t <;> stat <;> leaf hi')

/-- `detail::ShuffleTwo3012(a, b)`: `a[2] a[1] b[0] b[3]`. -/
theorem C63_shuffleTwo3012 (t : Tgt) {w : Nat} (h : w = 8 ∨ w = 16 ∨ w = 32) (a b : M128) {i : Nat} (hi' : i < 4) :
    lane w i (ShuffleTwo3012 t w a b) =
      if i < 2 then lane w (2 - i) a else lane w (3 * (i - 2)) b := by
  rcases h with h | h | h <;> subst h <;> (cases t <;> stat <;> leaf hi')

/-- `Reverse(d, v)`. -/
theorem C63_reverse (t : Tgt) {w sz : Nat} (h : Shape w sz) (v : M128) {i : Nat} (hi' : i < Lanes w sz) :
    lane w i (Reverse t w sz v) =
      lane w (Lanes w sz - 1 - i) v := by
  shapes h <;> (cases t <;> stat <;> leaf1 hi')

/-- `Reverse2(d, v)` reverses each group of two lanes. -/
theorem C63_reverse2 (t : Tgt) {w sz : Nat} (h : Shape w sz) (hw : w ≠ 8) (h2 : 2 ≤ Lanes w sz) (v : M128) {i : Nat} (hi' : i < Lanes w sz) :
    lane w i (Reverse2 t w sz v) =
      lane w (i / 2 * 2 + (1 - i % 2)) v := by
  shapes h <;> first | (exfalso; revert h2; decide) | (exfalso; revert hw; decide) | (cases t <;> stat <;> leaf1 hi')

/-- `Reverse4(d, v)` reverses each group of four lanes. -/
theorem C63_reverse4 (t : Tgt) {w sz : Nat} (h : Shape w sz) (hw : w = 16 ∨ w = 32) (h2 : 4 ≤ Lanes w sz) (v : M128) {i : Nat} (hi' : i < Lanes w sz) :
    lane w i (Reverse4 t w sz v) =
      lane w (i / 4 * 4 + (3 - i % 4)) v := by
  shapes h <;> first | (exfalso; revert h2; decide) | (exfalso; revert hw; decide) | (cases t <;> stat <;> leaf1 hi')

/-- `Reverse8(d, v)` of eight 16-bit lanes. -/
theorem C63_reverse8 (t : Tgt) (v : M128) {i : Nat} (hi' : i < 8) :
    lane 16 i (Reverse8 t v) =
      lane 16 (7 - i) v := by
  cases t <;> stat <;> leaf1 hi'

theorem below16 {k : Nat} (h : k < 16) : k = 0 ∨ k = 1 ∨ k = 2 ∨ k = 3 ∨ k = 4 ∨ k = 5 ∨ k = 6 ∨ k = 7 ∨ k = 8 ∨ k = 9
    ∨ k = 10 ∨ k = 11 ∨ k = 12 ∨ k = 13 ∨ k = 14 ∨ k = 15 := by omega

/-- `Broadcast<k>(v)`. -/
theorem C63_broadcast (t : Tgt) {w : Nat} (h : w = 8 ∨ w = 16 ∨ w = 32 ∨ w = 64) {k : Nat} (hk : k < 128 / w)
    (v : M128) {i : Nat} (hi' : i < 128 / w) : lane w i (Broadcast t w k v) = lane w k v := by
  have hk' : k < 16 := by rcases h with h | h | h | h <;> subst h <;> omega
  rcases h with h | h | h | h <;> subst h <;>
  rcases below16 hk' with h | h | h | h | h | h | h | h | h | h | h | h | h | h | h | h <;> subst h <;>
    first | (exfalso; revert hk; decide) | (cases t <;> stat <;> leaf1 hi')

/-- `ShiftLeftBytes<k>(v)` on the whole register. -/
theorem C63_shiftLeftBytes (k : Nat) (v : M128) {i : Nat} (hi : i < 16) :
    lane 8 i (ShiftLeftBytes k v) = if k ≤ i then lane 8 (i - k) v else 0#8 :=
  lane_mk (by omega) (by omega) _

/-- `ShiftLeftLanes<k>(v)`. -/
theorem C63_shiftLeftLanes {w sz : Nat} (h : Shape w sz) (k : Nat) (v : M128) {i : Nat} (hi : i < Lanes w sz) :
    lane w i (ShiftLeftLanes w k v) = if k ≤ i then lane w (i - k) v else 0#w := by
  have hw : w = 8 * (w / 8) := by shapes h <;> rfl
  have h16 : w / 8 * Lanes w sz ≤ 16 := by shapes h <;> decide
  have hm : 0 < w / 8 := by shapes h <;> decide
  apply lane_bytes hw
  intro j hj
  rw [byte_lane hw hj]
  have hlt : w / 8 * i + j < 16 := by
    have : w / 8 * (i + 1) ≤ w / 8 * Lanes w sz := Nat.mul_le_mul_left _ hi
    rw [Nat.mul_add] at this; omega
  unfold ShiftLeftLanes
  rw [C63_shiftLeftBytes _ _ hlt]
  generalize hM : w / 8 = m at *
  by_cases c : k ≤ i
  · have h1 : k * m ≤ m * i + j := by
      have := Nat.mul_le_mul_left m c; rw [Nat.mul_comm m k] at this; omega
    rw [if_pos h1, if_pos c, byte_lane hw hj, Nat.mul_sub, Nat.mul_comm m k]
    have : k * m ≤ m * i := by rw [Nat.mul_comm k m]; exact Nat.mul_le_mul_left m c
    rw [show m * i + j - k * m = m * i - k * m + j by omega]
  · have h1 : ¬ k * m ≤ m * i + j := by
      have : m * (i + 1) ≤ m * k := Nat.mul_le_mul_left m (by omega)
      rw [Nat.mul_add, Nat.mul_comm m k] at this; omega
    rw [if_neg h1, if_neg c]; simp

/-- `ShiftRightBytes<k>(d, v)`: zeros enter from above, whatever follows a partial vector in the register. -/
theorem C63_shiftRightBytes (t : Tgt) {w sz : Nat} (h : Shape w sz) (k : Nat) (v : M128) {i : Nat} (hi : i < sz) :
    lane 8 i (ShiftRightBytes t w sz k v) = if i + k < sz then lane 8 (i + k) v else 0#8 := by
  have hi16 : i < 16 := by shapes h <;> omega
  have e : ∀ r : M128, lane 8 i (srliBytes r k) = if i + k < 16 then lane 8 (i + k) r else 0#8 :=
    fun r => lane_mk (by omega) (by omega) _
  unfold ShiftRightBytes
  by_cases c : sz = 16
  · subst c; simp only [ne_eq, not_true_eq_false, if_false]; rw [e]
  · simp only [ne_eq, c, not_false_eq_true, if_true]
    rw [e]
    by_cases c2 : i + k < 16
    · rw [if_pos c2]
      have hw : w = 8 * (w / 8) := by shapes h <;> rfl
      have hd : w / 8 = 1 ∨ w / 8 = 2 ∨ w / 8 = 4 ∨ w / 8 = 8 := by shapes h <;> decide
      have hn : 128 / w ≤ 16 / (w / 8) := by shapes h <;> decide
      have hs := sym_IfThenElseZero (sym_FirstN (a := v) (b := v) t hw hd (128 / w) (sz / (w / 8)) hn) sym_a
      have hx := hs (i + k) c2
      have e1 : (i + k) / (w / 8) < 128 / w := by shapes h <;> simp only [Nat.reduceDiv] <;> omega
      have e2 : (i + k) / (w / 8) < sz / (w / 8) ↔ i + k < sz := by
        clear hx hs; shapes h <;> simp only [Nat.reduceDiv] <;> omega
      simp only [e1, if_true, e2] at hx
      by_cases c3 : i + k < sz
      · simp only [c3, if_true] at hx ⊢
        exact hx _ rfl
      · simp only [c3, if_false] at hx ⊢
        exact hx _ rfl
    · have : ¬ i + k < sz := by shapes h <;> omega
      rw [if_neg c2, if_neg this]

/-- `ShiftRightLanes<k>(d, v)`. -/
theorem C63_shiftRightLanes (t : Tgt) {w sz : Nat} (h : Shape w sz) (k : Nat) (v : M128) {i : Nat} (hi : i < Lanes w sz) :
    lane w i (ShiftRightLanes t w sz k v) = if i + k < Lanes w sz then lane w (i + k) v else 0#w := by
  have hw : w = 8 * (w / 8) := by shapes h <;> rfl
  have h16 : w / 8 * Lanes w sz = sz := by shapes h <;> decide
  have h8 : Shape 8 sz := by shapes h <;> simp [Shape]
  apply lane_bytes hw
  intro j hj
  rw [byte_lane hw hj]
  have hlt : w / 8 * i + j < sz := by
    have : w / 8 * (i + 1) ≤ w / 8 * Lanes w sz := Nat.mul_le_mul_left _ hi
    rw [Nat.mul_add] at this; omega
  unfold ShiftRightLanes
  rw [C63_shiftRightBytes t h8 _ _ hlt]
  generalize hN : Lanes w sz = N at *
  generalize hM : w / 8 = m at *
  by_cases c : i + k < N
  · have h1 : m * i + j + k * m < sz := by
      have := Nat.mul_le_mul_left m (show i + k + 1 ≤ N from c)
      rw [Nat.mul_add, Nat.mul_add, Nat.mul_comm m k] at this; omega
    rw [if_pos h1, if_pos c, byte_lane hw hj, Nat.mul_add, Nat.mul_comm m k]
    rw [show m * i + j + k * m = m * i + k * m + j by omega]
  · have h1 : ¬ m * i + j + k * m < sz := by
      have : m * N ≤ m * (i + k) := Nat.mul_le_mul_left m (by omega)
      rw [Nat.mul_add, Nat.mul_comm m k] at this; omega
    rw [if_neg h1, if_neg c]; simp

/-- `CombineShiftRightBytes<k>(d, hi, lo)`: bytes `k ..` of `hi:lo`. -/
theorem C63_combineShiftRightBytes (t : Tgt) {w sz : Nat} (h : Shape w sz) {k : Nat} (hk : k < sz) (hi lo : M128) {i : Nat}
    (hi' : i < sz) :
    lane 8 i (CombineShiftRightBytes t w sz k hi lo) =
      if i + k < sz then lane 8 (i + k) lo else lane 8 (i + k - sz) hi := by
  have hsz : sz = 1 ∨ sz = 2 ∨ sz = 4 ∨ sz = 8 ∨ sz = 16 := by shapes h <;> decide
  have hal : ∀ (a b : M128) (q : Nat), lane 8 i (alignr a b q) =
      if i + q < 16 then lane 8 (i + q) b else if i + q < 32 then lane 8 (i + q - 16) a else 0#8 :=
    fun a b q => lane_mk (by omega) (by omega) _
  unfold CombineShiftRightBytes
  by_cases ct : t.val = HWY_SSE2
  · rw [if_pos ct]
    by_cases c : sz = 16
    · subst c
      rw [if_pos rfl, lane_Or, C63_shiftRightBytes t h _ _ hi', C63_shiftLeftBytes _ _ hi']
      by_cases c2 : i + k < 16
      · rw [if_pos c2, if_neg (by omega), if_pos c2, BitVec.or_zero]
      · rw [if_neg c2, if_pos (by omega), if_neg c2, BitVec.zero_or, show i - (16 - k) = i + k - 16 by omega]
    · rw [if_neg c]
      have h2 : Shape w (2 * sz) := by shapes h <;> first | (exfalso; exact c rfl) | (simp only [Shape]; decide)
      have h8 : Shape 8 (2 * sz) := by shapes h <;> first | (exfalso; exact c rfl) | (simp only [Shape]; decide)
      have hL : Lanes 8 (2 * sz) = 2 * sz := Nat.div_one _
      rw [C63_shiftRightBytes t h2 _ _ (by omega), if_pos (by omega),
        C63_combine h8 (by rw [hL]; omega) hi lo (by rw [hL]; omega), hL,
        show 2 * sz / 2 = sz by omega]
  · rw [if_neg ct]
    by_cases c : sz = 16
    · subst c
      rw [if_pos rfl, hal]
      by_cases c2 : i + k < 16
      · rw [if_pos c2, if_pos c2]
      · rw [if_neg c2, if_neg c2, if_pos (by omega)]
    · rw [if_neg c, hal]
      by_cases c2 : i + k < sz
      · rw [if_pos (by omega), if_pos c2, C63_shiftLeftBytes _ _ (by omega), if_pos (by omega),
          show i + (16 - sz + k) - (16 - sz) = i + k by omega]
      · rw [if_neg (by omega), if_pos (by omega), if_neg c2, show i + (16 - sz + k) - 16 = i + k - sz by omega]

end Hwy.X86
