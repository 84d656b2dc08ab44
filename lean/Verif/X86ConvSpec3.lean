import Verif.X86ConvSpec2

/-!
# C65: truncations and demotions of 64-bit lanes

`TruncateTo` keeps the lower bits; the 64-bit demotions saturate first and then truncate.
-/

namespace Hwy.X86

theorem trunc16_8 (v : M128) {i : Nat} (h : i < 8) :
    lane 8 i (DemoteI16I8 (ShiftRightI .sse2 16 8 (ShiftLeft 16 8 v))) = lane 8 (2 * i) v := by
  rw [demoteI16I8 _ h]
  have := val_range true (n := 8) (Or.inl rfl) (lane 8 (2 * i) v)
  have e : val true (BitVec.ofInt 16 (val true (lane 8 (2 * i) v))) = val true (lane 8 (2 * i) v) :=
    val_ofInt_val true true (Or.inl ⟨rfl, Or.inl rfl⟩) (fun h => h) _
  have e2 : lane 16 i (ShiftRightI .sse2 16 8 (ShiftLeft 16 8 v)) = BitVec.ofInt 16 (val true (lane 8 (2 * i) v)) :=
    lane_low8 .sse2 true h v
  rw [e2, e]
  unfold satLane
  rw [show max (lo true 8) (min (val true (lane 8 (2 * i) v)) (hi true 8)) = val true (lane 8 (2 * i) v) by omega]
  exact ofInt_val true _

/-- The part of the source lane that a truncation keeps. -/
theorem trunc_part (t : Tgt) {f n : Nat} (hp : Narrows f n) {N : Nat} (hN : N = 1 ∨ N = 2 ∨ N = 4 ∨ N = 8)
    (hfit : N ≤ 128 / f) (v : M128) {i : Nat} (h : i < N) :
    lane n i (TruncateTo t f n N v) = lane n (f / n * i) v := by
  by_cases h1 : N = 1
  · subst h1
    have : i = 0 := by omega
    subst this; rfl
  unfold TruncateTo
  rw [if_neg h1]
  rcases hp with ⟨rfl, (rfl | rfl | rfl)⟩ | ⟨rfl, (rfl | rfl)⟩ | ⟨rfl, rfl⟩ <;>
    rcases hN with rfl | rfl | rfl | rfl <;>
    first
    | (exfalso; revert hfit; decide)
    | (exfalso; exact h1 rfl)
    | (cases t <;> statc <;>
       first
       | exact trunc16_8 v (by omega)
       | (unfold DemoteI32U8; stat; leaf1 h)
       | (unfold DemoteI32I16; stat; leaf1 h)
       | (stat; leaf1 h)
       | leaf1 h)

theorem low_part {f n i : Nat} (hd : f = n * (f / n)) (h0 : 0 < f / n) (r : M128) :
    (lane n (f / n * i) r).toNat = (lane f i r).toNat % 2 ^ n := by
  have e := lane_sub n (f / n) i 0 h0 r
  rw [Nat.add_zero, Nat.mul_zero] at e
  have : ∀ g, g = n * (f / n) → (lane n (f / n * i) r).toNat = (lane g i r).toNat % 2 ^ n := by
    intro g hg; subst hg
    rw [e, BitVec.extractLsb'_toNat, Nat.shiftRight_zero]
  exact this f hd

/-- `TruncateTo`: the value modulo `2^n`. -/
theorem C65_truncateTo (t : Tgt) {f n : Nat} (hp : Narrows f n) {N : Nat} (hN : N = 1 ∨ N = 2 ∨ N = 4 ∨ N = 8)
    (hfit : N ≤ 128 / f) (v : M128) {i : Nat} (h : i < N) :
    (lane n i (TruncateTo t f n N v)).toNat = (lane f i v).toNat % 2 ^ n := by
  rw [trunc_part t hp hN hfit v h]
  apply low_part <;> rcases hp with ⟨rfl, (rfl | rfl | rfl)⟩ | ⟨rfl, (rfl | rfl)⟩ | ⟨rfl, rfl⟩ <;> decide

/-! ### Saturation of 64-bit lanes -/

theorem tooBig (t : Tgt) (v : M128) {i k : Nat} (h : i < 2) (hk : 0 < k) (hk' : k < 64) :
    lane 64 i (Gt t true 64 (ShiftRightU 64 k v) zero) = maskLane 64 (2 ^ k ≤ (lane 64 i v).toNat) := by
  have hr : InReg 64 i := ⟨by omega, by omega⟩
  rw [C62_gt t true hr, lane_zero', C62_shiftRight_unsigned hr _ k hk']
  apply maskLane_congr
  generalize lane 64 i v = x
  have h1 : (x >>> k).toNat = x.toNat / 2 ^ k := by rw [BitVec.toNat_ushiftRight, Nat.shiftRight_eq_div_pow]
  have hp := Nat.two_pow_pos k
  have h2 : x.toNat / 2 ^ k < 2 ^ 63 := by
    have : x.toNat / 2 ^ k ≤ x.toNat / 2 := Nat.div_le_div_left (Nat.le_self_pow (by omega) 2) (by omega)
    have := x.isLt
    omega
  have h3 : val true (x >>> k) = ((x.toNat / 2 ^ k : Nat) : Int) := by
    unfold val; simp only [if_true]
    rw [BitVec.toInt_eq_toNat_cond, h1, if_pos (by omega)]
  rw [h3, show val true (0#64) = 0 by decide]
  rw [gt_iff_lt, show (0 : Int) = ((0 : Nat) : Int) from rfl, Int.ofNat_lt]
  constructor
  · intro h
    have := Nat.div_pos_iff.1 h
    exact this.2
  · intro h; exact Nat.div_pos h hp

theorem satU64U (t : Tgt) {n : Nat} (hn : NarrowW n) (v : M128) {i : Nat} (h : i < 2) :
    (lane 64 i (DemoteFromU64Saturate t false n v)).toNat % 2 ^ n = min (lane 64 i v).toNat (2 ^ n - 1) := by
  unfold DemoteFromU64Saturate DemoteFromU64MaskOutResult
  simp only [if_false, Bool.false_eq_true, Nat.sub_zero]
  rw [lane_Or, tooBig t v h (by unfold NarrowW at hn; omega) (by unfold NarrowW at hn; omega)]
  generalize lane 64 i v = x
  unfold maskLane
  split
  · rename_i hb
    rw [BitVec.or_allOnes, BitVec.toNat_allOnes]
    rcases hn with rfl | rfl | rfl <;> simp only [Nat.reducePow, Nat.reduceSub, Nat.reduceMod] at * <;> omega
  · rename_i hb
    rw [BitVec.or_zero, Nat.mod_eq_of_lt (by omega)]; omega

theorem satU64I (t : Tgt) {n : Nat} (hn : NarrowW n) (v : M128) {i : Nat} (h : i < 2) :
    (lane 64 i (DemoteFromU64Saturate t true n v)).toNat = min (lane 64 i v).toNat (2 ^ (n - 1) - 1) := by
  have hr : InReg 64 i := ⟨by omega, by omega⟩
  unfold DemoteFromU64Saturate DemoteFromU64MaskOutResult
  simp only [if_true]
  rw [lane_And, lane_Or, lane_set hr, tooBig t v h (by unfold NarrowW at hn; omega) (by unfold NarrowW at hn; omega)]
  generalize lane 64 i v = x
  have hM : ((BitVec.intMax n).setWidth 64).toNat = 2 ^ (n - 1) - 1 := by
    rw [BitVec.toNat_setWidth, BitVec.toNat_intMax]; rcases hn with rfl | rfl | rfl <;> rfl
  unfold maskLane
  split
  · rename_i hb
    rw [BitVec.or_allOnes, BitVec.allOnes_and, hM]; omega
  · rename_i hb
    rw [BitVec.or_zero, BitVec.toNat_and, hM, Nat.and_two_pow_sub_one_eq_mod, Nat.mod_eq_of_lt (by omega)]; omega

theorem satI64I (t : Tgt) {n : Nat} (hn : NarrowW n) (v : M128) {i : Nat} (h : i < 2) :
    (lane 64 i (SaturateI64I t n v)).toNat % 2 ^ n = (satLane true n (val true (lane 64 i v))).toNat := by
  have hr : InReg 64 i := ⟨by omega, by omega⟩
  unfold SaturateI64I
  have e := satU64I t hn (Xor (BroadcastSignBit t 64 v) v) h
  simp only [lane_Xor] at e ⊢
  rw [toNat_satLane, C62_broadcastSignBit t hr] at *
  generalize lane 64 i (DemoteFromU64Saturate t true n (Xor (BroadcastSignBit t 64 v) v)) = y at *
  generalize lane 64 i v = x at *
  have hy := y.isLt
  have hx := x.isLt
  have hc := toInt_cases x
  have hl := BitVec.le_toInt (x := x)
  have hl2 := BitVec.toInt_lt (x := x)
  have hv : val true x = x.toInt := rfl
  rw [hv]
  unfold lo hi
  by_cases hneg : x.toInt < 0
  · rw [if_pos hneg] at *
    rw [BitVec.allOnes_xor] at *
    rw [BitVec.toNat_not] at *
    rcases hn with rfl | rfl | rfl <;>
      simp only [if_true, Nat.reduceSub, Nat.reducePow, Int.reducePow, Int.reduceSub, Int.reduceNeg] at * <;> omega
  · rw [if_neg hneg] at *
    rw [BitVec.zero_xor] at *
    rcases hn with rfl | rfl | rfl <;>
      simp only [if_true, Nat.reduceSub, Nat.reducePow, Int.reducePow, Int.reduceSub, Int.reduceNeg] at * <;> omega

theorem satI64U (t : Tgt) {n : Nat} (hn : NarrowW n) (v : M128) {i : Nat} (h : i < 2) :
    (lane 64 i (SaturateI64U t n v)).toNat % 2 ^ n = (satLane false n (val true (lane 64 i v))).toNat := by
  have hr : InReg 64 i := ⟨by omega, by omega⟩
  unfold SaturateI64U
  rw [satU64U t hn _ h, lane_AndNot hr, C62_broadcastSignBit t hr, toNat_satLane]
  generalize lane 64 i v = x at *
  have hx := x.isLt
  have hc := toInt_cases x
  have hv : val true x = x.toInt := rfl
  rw [hv]
  unfold lo hi
  by_cases hneg : x.toInt < 0
  · rw [if_pos hneg, BitVec.not_allOnes, BitVec.zero_and, BitVec.toNat_zero]
    rcases hn with rfl | rfl | rfl <;>
      simp only [if_false, Bool.false_eq_true, Nat.reducePow, Int.reducePow, Int.reduceSub] at * <;> omega
  · rw [if_neg hneg, and_allOnes']
    rcases hn with rfl | rfl | rfl <;>
      simp only [if_false, Bool.false_eq_true, Nat.reducePow, Int.reducePow, Int.reduceSub] at * <;> omega

theorem satU64 (t : Tgt) (s : Bool) {n : Nat} (hn : NarrowW n) (v : M128) {i : Nat} (h : i < 2) :
    (lane 64 i (DemoteFromU64Saturate t s n v)).toNat % 2 ^ n = (satLane s n (val false (lane 64 i v))).toNat := by
  rw [toNat_satLane]
  cases s
  · rw [satU64U t hn v h]
    unfold lo hi val
    rcases hn with rfl | rfl | rfl <;>
      simp only [if_false, Bool.false_eq_true, Nat.reducePow, Int.reducePow, Int.reduceSub, Nat.reduceSub] at * <;> omega
  · rw [satU64I t hn v h]
    unfold lo hi val
    rcases hn with rfl | rfl | rfl <;>
      simp only [if_true, if_false, Bool.false_eq_true, Nat.reducePow, Int.reducePow, Int.reduceSub, Nat.reduceSub] at * <;> omega

theorem narrows64 {n : Nat} (hn : NarrowW n) : Narrows 64 n := by
  unfold Narrows Widens NarrowW at *; omega

/-- Truncating a saturated lane. -/
theorem trunc_sat (t : Tgt) (s : Bool) {n : Nat} (hn : NarrowW n) {N : Nat} (hN : N = 1 ∨ N = 2) (R : M128) {i : Nat} (h : i < N)
    {z : Int} (e : (lane 64 i R).toNat % 2 ^ n = (satLane s n z).toNat) : lane n i (TruncateTo t 64 n N R) = satLane s n z := by
  apply BitVec.eq_of_toNat_eq
  rw [C65_truncateTo t (narrows64 hn) (by omega) (by omega) R h, e]

theorem demoteFromI64 (t : Tgt) (s : Bool) {n : Nat} (hn : NarrowW n) {N : Nat} (hN : N = 1 ∨ N = 2) (v : M128) {i : Nat} (h : i < N) :
    lane n i (DemoteFromI64 t s n N v) = satLane s n (val true (lane 64 i v)) := by
  unfold DemoteFromI64
  cases s <;> simp only [if_true, if_false, Bool.false_eq_true]
  · exact trunc_sat t false hn hN _ h (satI64U t hn v (by omega))
  · exact trunc_sat t true hn hN _ h (satI64I t hn v (by omega))

theorem demoteFromU64 (t : Tgt) (s : Bool) {n : Nat} (hn : NarrowW n) {N : Nat} (hN : N = 1 ∨ N = 2) (v : M128) {i : Nat} (h : i < N) :
    lane n i (DemoteFromU64 t s n N v) = satLane s n (val false (lane 64 i v)) := by
  unfold DemoteFromU64
  split
  · rename_i hc
    obtain ⟨hs, ht, h32⟩ := hc
    have hs : s = true := hs
    subst hs
    have hp : Narrows 32 n := by unfold Narrows Widens; unfold NarrowW at hn; omega
    rw [demoteFromI t true hp (by omega) _ (by omega)]
    have h3 : NarrowW 32 := Or.inr (Or.inr rfl)
    rw [trunc_sat t true h3 hN _ h (satU64 t true h3 v (by omega))]
    apply satLane_of_val _ h3
    apply satLane_congr
    simp only [lo, hi, if_true]
    rcases hn with rfl | rfl | rfl <;> omega
  · exact trunc_sat t s hn hN _ h (satU64 t s hn v (by omega))

theorem demoteTo (t : Tgt) (sf st : Bool) {f n : Nat} (hp : Narrows f n) {N : Nat} (hN : N = 1 ∨ N = 2 ∨ N = 4 ∨ N = 8)
    (hfit : N ≤ 128 / f) (v : M128) {i : Nat} (h : i < N) :
    lane n i (DemoteTo t sf f st n N v) = satLane st n (val sf (lane f i v)) := by
  unfold DemoteTo
  split
  · rename_i e; subst e
    have hn : NarrowW n := by unfold Narrows Widens at hp; unfold NarrowW; omega
    cases sf <;> simp only [if_true, if_false, Bool.false_eq_true]
    · exact demoteFromU64 t st hn (by omega) v h
    · exact demoteFromI64 t st hn (by omega) v h
  · have hf : f ≤ 32 := by unfold Narrows Widens at hp; omega
    cases sf <;> simp only [if_true, if_false, Bool.false_eq_true]
    · exact demoteFromU t st hp hf v (by omega)
    · exact demoteFromI t st hp hf v (by omega)

/-- `DemoteTo` for every pair of integer types: each lane becomes the nearest value of the narrower type. -/
theorem C65_demoteTo (t : Tgt) (signedFrom signedTo : Bool) {f n : Nat} (hp : Narrows f n) {N : Nat}
    (hN : N = 1 ∨ N = 2 ∨ N = 4 ∨ N = 8) (hfit : N ≤ 128 / f) (v : M128) {i : Nat} (h : i < N) :
    val signedTo (lane n i (DemoteTo t signedFrom f signedTo n N v))
      = max (lo signedTo n) (min (val signedFrom (lane f i v)) (hi signedTo n)) := by
  have hn : NarrowW n := by unfold Narrows Widens at hp; unfold NarrowW; omega
  rw [demoteTo t signedFrom signedTo hp hN hfit v h, val_satLane signedTo hn]

end Hwy.X86
