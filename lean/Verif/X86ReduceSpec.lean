import Verif.X86Reduce
import Verif.X86FirstSpec

/-!
# C71: reductions
-/

namespace Hwy.X86

/-- Reduces the static conditions of the byte reversals. -/
macro "rstat" : tactic => `(tactic| (simp only [Rev2, Rev4, Rev8, Reverse2x8, Reverse4x8, Reverse8x8, reduceIte, Nat.reduceEqDiff]; stat))

theorem lane_Rev2 (t : Tgt) {w sz : Nat} (h : Shape w sz) (h2 : 2 ≤ Lanes w sz) (v : M128) {i : Nat} (hi' : i < Lanes w sz) :
    lane w i (Rev2 t w sz v) = lane w (i / 2 * 2 + (1 - i % 2)) v := by
  by_cases hw : w = 8
  · shapes h <;> first | (exfalso; revert h2; decide) | (exfalso; revert hw; decide) | (cases t <;> rstat <;> leaf1 hi')
  · unfold Rev2; rw [if_neg hw]; exact C63_reverse2 t h hw h2 v hi'
theorem lane_Rev4 (t : Tgt) {w sz : Nat} (h : Shape w sz) (h2 : 4 ≤ Lanes w sz) (v : M128) {i : Nat} (hi' : i < Lanes w sz) :
    lane w i (Rev4 t w sz v) = lane w (i / 4 * 4 + (3 - i % 4)) v := by
  by_cases hw : w = 8
  · shapes h <;> first | (exfalso; revert h2; decide) | (exfalso; revert hw; decide) | (cases t <;> rstat <;> leaf1 hi')
  · unfold Rev4; rw [if_neg hw]; refine C63_reverse4 t h ?_ h2 v hi'
    shapes h <;> first | decide | (exfalso; revert h2; decide) | (exfalso; revert hw; decide)
theorem lane_Rev8 (t : Tgt) {w sz : Nat} (h : Shape w sz) (h2 : Lanes w sz = 8) (v : M128) {i : Nat} (hi' : i < Lanes w sz) :
    lane w i (Rev8 t w sz v) = lane w (7 - i) v := by
  by_cases hw : w = 8
  · shapes h <;> first | (exfalso; revert h2; decide) | (exfalso; revert hw; decide) | (cases t <;> rstat <;> leaf1 hi')
  · have : w = 16 := by shapes h <;> first | rfl | (exfalso; revert h2; decide) | (exfalso; revert hw; decide)
    subst this
    unfold Rev8; rw [if_neg hw]; exact C63_reverse8 t v (by omega)

/-- `Reverse8` of 8- and 16-bit lanes: each group of eight lanes reversed. -/
theorem C71_reverse8 (t : Tgt) {w sz : Nat} (h : Shape w sz) (h2 : 8 ≤ Lanes w sz) (v : M128) {i : Nat} (hi' : i < Lanes w sz) :
    lane w i (Rev8 t w sz v) = lane w (i / 8 * 8 + (7 - i % 8)) v := by
  by_cases hw : w = 8
  · shapes h <;> first | (exfalso; revert h2; decide) | (exfalso; revert hw; decide) | (cases t <;> rstat <;> leaf1 hi')
  · have e : Lanes w sz = 8 := by shapes h <;> first | rfl | (exfalso; revert h2; decide) | (exfalso; revert hw; decide)
    rw [lane_Rev8 t h e v hi', show i / 8 * 8 + (7 - i % 8) = 7 - i by omega]

/-! ## Functors on lanes -/

/-- The functors on single lanes. -/
def RFunc.fn (s : Bool) {w : Nat} : RFunc → BitVec w → BitVec w → BitVec w
  | .add, a, b => a + b
  | .min, a, b => if val s a < val s b then a else b
  | .max, a, b => if val s a < val s b then b else a

theorem val_inj (s : Bool) {w : Nat} {a b : BitVec w} (h : val s a = val s b) : a = b := by
  unfold val at h
  cases s
  · simp only [Bool.false_eq_true, if_false] at h
    exact BitVec.eq_of_toNat_eq (by omega)
  · simp only [if_true] at h
    exact BitVec.eq_of_toInt_eq h

theorem val_min (s : Bool) {w : Nat} (a b : BitVec w) : val s (RFunc.min.fn s a b) = min (val s a) (val s b) := by
  simp only [RFunc.fn]; split <;> omega
theorem val_max (s : Bool) {w : Nat} (a b : BitVec w) : val s (RFunc.max.fn s a b) = max (val s a) (val s b) := by
  simp only [RFunc.fn]; split <;> omega

instance (f : RFunc) (s : Bool) (w : Nat) : Std.Commutative (f.fn s (w := w)) := ⟨by
  intro a b
  cases f
  · exact BitVec.add_comm a b
  · apply val_inj s; rw [val_min, val_min]; omega
  · apply val_inj s; rw [val_max, val_max]; omega⟩
instance (f : RFunc) (s : Bool) (w : Nat) : Std.Associative (f.fn s (w := w)) := ⟨by
  intro a b c
  cases f
  · exact BitVec.add_assoc a b c
  · apply val_inj s; rw [val_min, val_min, val_min, val_min]; omega
  · apply val_inj s; rw [val_max, val_max, val_max, val_max]; omega⟩

theorem lane_call (t : Tgt) (s : Bool) (f : RFunc) {w i : Nat} (hr : InReg w i) (a b : M128) :
    lane w i (f.call t s w a b) = f.fn s (lane w i a) (lane w i b) := by
  cases f
  · exact lane_Add hr a b
  · cases s
    · simp only [RFunc.call, RFunc.fn, val, Bool.false_eq_true, if_false, Int.ofNat_lt]
      exact lane_MinU t hr a b
    · simp only [RFunc.call, RFunc.fn, val, if_true]
      exact lane_MinI t hr a b
  · cases s
    · simp only [RFunc.call, RFunc.fn, val, Bool.false_eq_true, if_false, Int.ofNat_lt]
      exact lane_MaxU t hr a b
    · simp only [RFunc.call, RFunc.fn, val, if_true]
      exact lane_MaxI t hr a b

/-- The reduction of `x 0, ..., x n`. -/
def fold {w : Nat} (g : BitVec w → BitVec w → BitVec w) (x : Nat → BitVec w) : Nat → BitVec w
  | 0 => x 0
  | n + 1 => g (fold g x n) (x (n + 1))

theorem within8 (t : Tgt) (s : Bool) (f : RFunc) {w sz : Nat} (h : Shape w sz) (hn : Lanes w sz = 2 ∨ Lanes w sz = 4 ∨ Lanes w sz = 8)
    (v : M128) {i : Nat} (hi : i < Lanes w sz) :
    lane w i (ReduceWithinBlocks8 t s f w sz v) = fold (f.fn s) (fun j => lane w j v) (Lanes w sz - 1) := by
  have hr : ∀ {i}, i < Lanes w sz → InReg w i := fun h' => inReg_of h h'
  unfold ReduceWithinBlocks8
  simp only []
  rcases hn with hn | hn | hn
  · rw [if_pos hn, hn, lane_call t s f (hr hi), lane_Rev2 t h (by omega) v hi]
    have : i = 0 ∨ i = 1 := by omega
    rcases this with rfl | rfl
    · rfl
    · simp only [fold, Nat.reduceDiv, Nat.reduceMul, Nat.reduceMod, Nat.reduceSub, Nat.reduceAdd]
      ac_rfl
  · rw [if_neg (show ¬ sz / (w / 8) = 2 from fun e => by have : Lanes w sz = 2 := e; omega), if_pos hn, hn]
    have c : ∀ k, k < 4 → ∀ a b, lane w k (f.call t s w a b) = f.fn s (lane w k a) (lane w k b) :=
      fun k hk a b => lane_call t s f (hr (by omega)) a b
    have r2 : ∀ k, k < 4 → ∀ a, lane w k (Rev2 t w sz a) = lane w (k / 2 * 2 + (1 - k % 2)) a :=
      fun k hk a => lane_Rev2 t h (by omega) a (by omega)
    have r4 : ∀ k, k < 4 → ∀ a, lane w k (Rev4 t w sz a) = lane w (k / 4 * 4 + (3 - k % 4)) a :=
      fun k hk a => lane_Rev4 t h (by omega) a (by omega)
    have : i = 0 ∨ i = 1 ∨ i = 2 ∨ i = 3 := by omega
    rcases this with rfl | rfl | rfl | rfl <;>
      (simp (disch := omega) only [c, r2, r4, fold, Nat.zero_div, Nat.zero_mul, Nat.zero_mod, Nat.reduceDiv, Nat.reduceMul, Nat.reduceMod,
         Nat.reduceSub, Nat.reduceAdd, Nat.sub_zero, Nat.zero_add, Nat.add_zero, Nat.sub_self]
       ac_rfl)
  · rw [if_neg (show ¬ sz / (w / 8) = 2 from fun e => by have : Lanes w sz = 2 := e; omega),
      if_neg (show ¬ sz / (w / 8) = 4 from fun e => by have : Lanes w sz = 4 := e; omega), hn]
    have c : ∀ k, k < 8 → ∀ a b, lane w k (f.call t s w a b) = f.fn s (lane w k a) (lane w k b) :=
      fun k hk a b => lane_call t s f (hr (by omega)) a b
    have r2 : ∀ k, k < 8 → ∀ a, lane w k (Rev2 t w sz a) = lane w (k / 2 * 2 + (1 - k % 2)) a :=
      fun k hk a => lane_Rev2 t h (by omega) a (by omega)
    have r4 : ∀ k, k < 8 → ∀ a, lane w k (Rev4 t w sz a) = lane w (k / 4 * 4 + (3 - k % 4)) a :=
      fun k hk a => lane_Rev4 t h (by omega) a (by omega)
    have r8 : ∀ k, k < 8 → ∀ a, lane w k (Rev8 t w sz a) = lane w (7 - k) a :=
      fun k hk a => lane_Rev8 t h hn a (by omega)
    have : i = 0 ∨ i = 1 ∨ i = 2 ∨ i = 3 ∨ i = 4 ∨ i = 5 ∨ i = 6 ∨ i = 7 := by omega
    rcases this with rfl | rfl | rfl | rfl | rfl | rfl | rfl | rfl <;>
      (simp (disch := omega) only [c, r2, r4, r8, fold, Nat.zero_div, Nat.zero_mul, Nat.zero_mod, Nat.reduceDiv, Nat.reduceMul, Nat.reduceMod,
         Nat.reduceSub, Nat.reduceAdd, Nat.sub_zero, Nat.zero_add, Nat.add_zero, Nat.sub_self]
       ac_rfl)

/-! ## What a fold is -/

theorem sum_range_succ (y : Nat → Int) (n : Nat) : ((List.range (n + 1)).map y).sum = ((List.range n).map y).sum + y n := by
  rw [List.range_succ, List.map_append, List.sum_append]; simp

theorem fold_add (s : Bool) {w : Nat} (x : Nat → BitVec w) (n : Nat) :
    fold (RFunc.add.fn s) x n = BitVec.ofInt w (((List.range (n + 1)).map (fun j => val s (x j))).sum) := by
  induction n with
  | zero => simp [fold, ofInt_val]
  | succ n ih => rw [fold, ih, sum_range_succ _ (n + 1), BitVec.ofInt_add, ofInt_val]; rfl

theorem fold_min (s : Bool) {w : Nat} (x : Nat → BitVec w) (n : Nat) :
    (∀ j, j ≤ n → val s (fold (RFunc.min.fn s) x n) ≤ val s (x j)) ∧ ∃ j, j ≤ n ∧ fold (RFunc.min.fn s) x n = x j := by
  induction n with
  | zero => exact ⟨fun j hj => by rw [show j = 0 by omega]; exact Int.le_refl _, 0, by omega, rfl⟩
  | succ n ih =>
    obtain ⟨h1, k, hk, h2⟩ := ih
    constructor
    · intro j hj
      rw [fold, val_min]
      by_cases hjn : j ≤ n
      · have := h1 j hjn; omega
      · rw [show j = n + 1 by omega]; omega
    · rw [fold]; simp only [RFunc.fn]
      split
      · exact ⟨k, by omega, h2⟩
      · exact ⟨n + 1, by omega, rfl⟩
theorem fold_max (s : Bool) {w : Nat} (x : Nat → BitVec w) (n : Nat) :
    (∀ j, j ≤ n → val s (x j) ≤ val s (fold (RFunc.max.fn s) x n)) ∧ ∃ j, j ≤ n ∧ fold (RFunc.max.fn s) x n = x j := by
  induction n with
  | zero => exact ⟨fun j hj => by rw [show j = 0 by omega]; exact Int.le_refl _, 0, by omega, rfl⟩
  | succ n ih =>
    obtain ⟨h1, k, hk, h2⟩ := ih
    constructor
    · intro j hj
      rw [fold, val_max]
      by_cases hjn : j ≤ n
      · have := h1 j hjn; omega
      · rw [show j = n + 1 by omega]; omega
    · rw [fold]; simp only [RFunc.fn]
      split
      · exact ⟨n + 1, by omega, rfl⟩
      · exact ⟨k, by omega, h2⟩

/-! ## The statements' vocabulary -/

/-- `r` is the sum of `x 0 .. x (n-1)`, wrapped to the lane type. -/
def IsSum (s : Bool) {w : Nat} (r : BitVec w) (n : Nat) (x : Nat → BitVec w) : Prop :=
  r = BitVec.ofInt w (((List.range n).map (fun j => val s (x j))).sum)
/-- `r` is one of `x 0 .. x (n-1)` and at most all of them. -/
def IsMin (s : Bool) {w : Nat} (r : BitVec w) (n : Nat) (x : Nat → BitVec w) : Prop :=
  (∀ j, j < n → val s r ≤ val s (x j)) ∧ ∃ j, j < n ∧ r = x j
/-- `r` is one of `x 0 .. x (n-1)` and at least all of them. -/
def IsMax (s : Bool) {w : Nat} (r : BitVec w) (n : Nat) (x : Nat → BitVec w) : Prop :=
  (∀ j, j < n → val s (x j) ≤ val s r) ∧ ∃ j, j < n ∧ r = x j
/-- `r` is the reduction of `x 0 .. x (n-1)`. -/
def IsRed (f : RFunc) (s : Bool) {w : Nat} (r : BitVec w) (n : Nat) (x : Nat → BitVec w) : Prop :=
  match f with | .add => IsSum s r n x | .min => IsMin s r n x | .max => IsMax s r n x

theorem fold_isRed (f : RFunc) (s : Bool) {w : Nat} (x : Nat → BitVec w) (n : Nat) : IsRed f s (fold (f.fn s) x n) (n + 1) x := by
  cases f
  · exact fold_add s x n
  · obtain ⟨h1, k, hk, h2⟩ := fold_min s x n
    exact ⟨fun j hj => h1 j (by omega), k, by omega, h2⟩
  · obtain ⟨h1, k, hk, h2⟩ := fold_max s x n
    exact ⟨fun j hj => h1 j (by omega), k, by omega, h2⟩

theorem red_congr {f : RFunc} {s : Bool} {w : Nat} {r r' : BitVec w} {n : Nat} {x y : Nat → BitVec w} (h : IsRed f s r n x)
    (hr : r = r') (hx : ∀ j, j < n → x j = y j) : IsRed f s r' n y := by
  subst hr
  cases f
  · have : (List.range n).map (fun j => val s (x j)) = (List.range n).map (fun j => val s (y j)) :=
      List.map_congr_left (fun j hj => by rw [hx j (List.mem_range.1 hj)])
    unfold IsRed IsSum at *; rw [← this]; exact h
  · obtain ⟨h1, k, hk, h2⟩ := h
    exact ⟨fun j hj => by rw [← hx j hj]; exact h1 j hj, k, hk, by rw [← hx k hk]; exact h2⟩
  · obtain ⟨h1, k, hk, h2⟩ := h
    exact ⟨fun j hj => by rw [← hx j hj]; exact h1 j hj, k, hk, by rw [← hx k hk]; exact h2⟩

/-! ## Narrowing a wide reduction -/

theorem trunc16 (S : Int) : BitVec.setWidth 8 (BitVec.ofInt 16 S) = BitVec.ofInt 8 S := by
  apply BitVec.eq_of_toNat_eq
  simp only [BitVec.toNat_setWidth, BitVec.toNat_ofInt]; omega
theorem trunc64 (S : Int) : BitVec.setWidth 8 (BitVec.ofInt 64 S) = BitVec.ofInt 8 S := by
  apply BitVec.eq_of_toNat_eq
  simp only [BitVec.toNat_setWidth, BitVec.toNat_ofInt]; omega
theorem val_widen (s : Bool) (x : BitVec 8) : val s (BitVec.ofInt 16 (val s x)) = val s x := by
  cases s
  · have := x.isLt
    simp only [val, Bool.false_eq_true, if_false, BitVec.toNat_ofInt]; omega
  · have h1 := BitVec.toInt_lt (x := x); have h2 := BitVec.le_toInt (x := x)
    simp only [val, if_true, BitVec.toInt_ofInt, Int.bmod_def]; omega
theorem narrow (s : Bool) (x : BitVec 8) : BitVec.setWidth 8 (BitVec.ofInt 16 (val s x)) = x := by rw [trunc16, ofInt_val]

/-- A reduction of the 16-bit extensions of bytes, truncated, is a reduction of the bytes. -/
theorem red_narrow {f : RFunc} {s : Bool} {r : BitVec 16} {n : Nat} {x : Nat → BitVec 8}
    (h : IsRed f s r n (fun j => BitVec.ofInt 16 (val s (x j)))) : IsRed f s (BitVec.setWidth 8 r) n x := by
  cases f
  · simp only [IsRed, IsSum, val_widen] at h ⊢
    rw [h, trunc16]
  · obtain ⟨h1, k, hk, h2⟩ := h
    refine ⟨fun j hj => ?_, k, hk, by rw [h2, narrow]⟩
    have := h1 j hj
    rw [h2, val_widen, val_widen] at this
    rw [h2, narrow]; exact this
  · obtain ⟨h1, k, hk, h2⟩ := h
    refine ⟨fun j hj => ?_, k, hk, by rw [h2, narrow]⟩
    have := h1 j hj
    rw [h2, val_widen, val_widen] at this
    rw [h2, narrow]; exact this

end Hwy.X86
