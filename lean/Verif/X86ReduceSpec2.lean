import Verif.X86ReduceSpec
import Verif.X86ConvSpec3

/-!
# C71: reductions, the statements
-/

namespace Hwy.X86

theorem low_byte (v : M128) (k : Nat) : lane 8 (2 * k) v = BitVec.setWidth 8 (lane 16 k v) := by
  have := byte_lane (w := 16) (m := 2) rfl (j := 0) (by decide) k v
  rw [Nat.add_zero] at this
  rw [← this]; apply BitVec.eq_of_getLsbD_eq; intro i hi; simp [hi]

theorem fold16 {w : Nat} (f : RFunc) (s : Bool) (X : Nat → BitVec w) :
    fold (f.fn s) (fun j => f.fn s (X (2 * j)) (X (2 * j + 1))) 7 = fold (f.fn s) X 15 := by
  simp only [fold, Nat.mul_zero, Nat.zero_add, Nat.reduceMul, Nat.reduceAdd]
  ac_rfl

/-- The even bytes of 16-bit lanes, extended. -/
theorem evenExt16 (t : Tgt) (s : Bool) (v : M128) {j : Nat} (hj : j < 8) :
    lane 16 j (if s then ShiftRightI t 16 8 (ShiftLeft 16 8 v) else And v (set 16 0xFF#16)) = BitVec.ofInt 16 (val s (lane 8 (2 * j) v)) := by
  have hr : InReg 16 j := ⟨by omega, by omega⟩
  rw [low_byte]
  cases s
  · rw [if_neg (by decide), lane_And, lane_set hr]
    generalize lane 16 j v = x
    apply BitVec.eq_of_toNat_eq
    have := x.isLt
    simp only [val, Bool.false_eq_true, if_false, BitVec.toNat_ofInt, BitVec.toNat_setWidth, BitVec.toNat_and, BitVec.toNat_ofNat]
    rw [show (255 % 2 ^ 16 : Nat) = 2 ^ 8 - 1 from rfl, Nat.and_two_pow_sub_one_eq_mod]; omega
  · rw [if_pos rfl, C62_shiftRight_signed t hr _ 8 (by decide), C62_shiftLeft hr _ 8 (by decide)]
    generalize lane 16 j v = x
    apply BitVec.eq_of_toInt_eq
    have := x.isLt
    simp only [val, if_true, BitVec.toInt_sshiftRight, BitVec.toInt_ofInt, Int.shiftRight_eq_div_pow]
    simp only [BitVec.toInt_eq_toNat_bmod, BitVec.toNat_shiftLeft, BitVec.toNat_setWidth, Nat.shiftLeft_eq, Int.bmod_def]
    omega
/-- The odd bytes of 16-bit lanes, extended. -/
theorem oddExt16 (t : Tgt) (s : Bool) (v : M128) {j : Nat} (hj : j < 8) :
    lane 16 j (if s then ShiftRightI t 16 8 v else ShiftRightU 16 8 v) = BitVec.ofInt 16 (val s (lane 8 (2 * j + 1) v)) := by
  have hr : InReg 16 j := ⟨by omega, by omega⟩
  have hb : lane 8 (2 * j + 1) v = (lane 16 j v >>> 8).setWidth 8 := by
    have := byte_lane (w := 16) (m := 2) rfl (j := 1) (by decide) j v
    rw [← this]; apply BitVec.eq_of_getLsbD_eq; intro i hi; simp [hi]
  rw [hb]
  cases s
  · rw [if_neg (by decide), C62_shiftRight_unsigned hr _ 8 (by decide)]
    generalize lane 16 j v = x
    apply BitVec.eq_of_toNat_eq
    have := x.isLt
    simp only [val, Bool.false_eq_true, if_false, BitVec.toNat_ofInt, BitVec.toNat_setWidth, BitVec.toNat_ushiftRight, Nat.shiftRight_eq_div_pow]
    omega
  · rw [if_pos rfl, C62_shiftRight_signed t hr _ 8 (by decide)]
    generalize lane 16 j v = x
    apply BitVec.eq_of_toInt_eq
    have := x.isLt
    simp only [val, if_true, BitVec.toInt_sshiftRight, BitVec.toInt_ofInt, Int.shiftRight_eq_div_pow]
    simp only [BitVec.toInt_eq_toNat_bmod, BitVec.toNat_ushiftRight, BitVec.toNat_setWidth, Nat.shiftRight_eq_div_pow, Int.bmod_def]
    omega

theorem lanes_pow5 {w sz : Nat} (h : Shape w sz) : Lanes w sz = 1 ∨ Lanes w sz = 2 ∨ Lanes w sz = 4 ∨ Lanes w sz = 8 ∨ (Lanes w sz = 16 ∧ w = 8 ∧ sz = 16) := by
  shapes h <;> decide

theorem within (t : Tgt) (s : Bool) (f : RFunc) {w sz : Nat} (h : Shape w sz) (h2 : 2 ≤ Lanes w sz) (v : M128) {i : Nat}
    (hi : i < Lanes w sz) : IsRed f s (lane w i (ReduceWithinBlocks t s f w sz v)) (Lanes w sz) (fun j => lane w j v) := by
  unfold ReduceWithinBlocks
  rcases lanes_pow5 h with hn | hn | hn | hn | ⟨hn, rfl, rfl⟩
  · omega
  all_goals try (
    rw [if_neg (show ¬ sz / (w / 8) = 16 from fun e => by have : Lanes w sz = 16 := e; omega), within8 t s f h (by omega) v hi]
    have := fold_isRed f s (fun j => lane w j v) (Lanes w sz - 1)
    rwa [Nat.sub_add_cancel (by omega)] at this)
  simp only []
  have hi' : i < 16 := hi
  rw [if_pos (by decide), C63_dupEven t (by simp [Shape]) _ hi, Nat.mul_comm, low_byte]
  apply red_narrow
  rw [within8 t s f (by simp [Shape]) (by decide) _ (show i / 2 < 8 by omega)]
  have e := fold16 (w := 16) f s (fun j => BitVec.ofInt 16 (val s (lane 8 j v)))
  have hx := fold_isRed f s (fun j => BitVec.ofInt 16 (val s (lane 8 j v))) 15
  rw [← e] at hx
  have e2 : ∀ n, n ≤ 7 → fold (f.fn s) (fun j => lane 16 j (f.call t s 16
      (if s then ShiftRightI t 16 8 (ShiftLeft 16 8 v) else And v (set 16 0xFF#16))
      (if s then ShiftRightI t 16 8 v else ShiftRightU 16 8 v))) n
      = fold (f.fn s) (fun j => f.fn s (BitVec.ofInt 16 (val s (lane 8 (2 * j) v))) (BitVec.ofInt 16 (val s (lane 8 (2 * j + 1) v)))) n := by
    intro n hn
    have st : ∀ j, j ≤ 7 → lane 16 j (f.call t s 16
      (if s then ShiftRightI t 16 8 (ShiftLeft 16 8 v) else And v (set 16 0xFF#16))
      (if s then ShiftRightI t 16 8 v else ShiftRightU 16 8 v)) =
        f.fn s (BitVec.ofInt 16 (val s (lane 8 (2 * j) v))) (BitVec.ofInt 16 (val s (lane 8 (2 * j + 1) v))) := by
      intro j hj
      rw [lane_call t s f ⟨by omega, by omega⟩, evenExt16 t s v (by omega), oddExt16 t s v (by omega)]
    induction n with
    | zero => exact st 0 (by omega)
    | succ n ih => rw [fold, fold, ih (by omega), st (n + 1) hn]
  rw [show Lanes 16 16 - 1 = 7 from rfl, e2 7 (by omega)]
  exact hx

end Hwy.X86
