import Verif.X86Lookup
import Verif.X86ConvSpec

/-!
# C66: runtime permutations of the x86 128-bit targets — slides
-/

namespace Hwy.X86

/-- A slide of bytes is a slide of lanes. -/
theorem slide_up_lift {w sz amt : Nat} (h : Shape w sz) {R v : M128}
    (hb : ∀ j, j < sz → lane 8 j R = if amt * (w / 8) ≤ j then lane 8 (j - amt * (w / 8)) v else 0#8)
    {i : Nat} (hi : i < Lanes w sz) : lane w i R = if amt ≤ i then lane w (i - amt) v else 0#w := by
  have hw : w = 8 * (w / 8) := by shapes h <;> rfl
  have h16 : w / 8 * Lanes w sz = sz := by shapes h <;> decide
  apply lane_bytes hw
  intro j hj
  have hlt : w / 8 * i + j < sz := by
    have : w / 8 * (i + 1) ≤ w / 8 * Lanes w sz := Nat.mul_le_mul_left _ hi
    rw [Nat.mul_add] at this; omega
  rw [byte_lane hw hj, hb _ hlt]
  have hc : amt * (w / 8) = w / 8 * amt := Nat.mul_comm _ _
  by_cases c : amt ≤ i
  · have e : w / 8 * i = w / 8 * amt + w / 8 * (i - amt) := by rw [← Nat.mul_add]; congr 1; omega
    rw [if_pos (by omega), if_pos c, byte_lane hw hj]; congr 1; omega
  · have : w / 8 * (i + 1) ≤ w / 8 * amt := Nat.mul_le_mul_left _ (by omega)
    rw [Nat.mul_add] at this
    rw [if_neg (by omega), if_neg c]; simp

theorem slide_down_lift {w sz amt : Nat} (h : Shape w sz) {R v : M128}
    (hb : ∀ j, j < sz → lane 8 j R = if j + amt * (w / 8) < sz then lane 8 (j + amt * (w / 8)) v else 0#8)
    {i : Nat} (hi : i < Lanes w sz) : lane w i R = if i + amt < Lanes w sz then lane w (i + amt) v else 0#w := by
  have hw : w = 8 * (w / 8) := by shapes h <;> rfl
  have h16 : w / 8 * Lanes w sz = sz := by shapes h <;> decide
  apply lane_bytes hw
  intro j hj
  have hlt : w / 8 * i + j < sz := by
    have : w / 8 * (i + 1) ≤ w / 8 * Lanes w sz := Nat.mul_le_mul_left _ hi
    rw [Nat.mul_add] at this; omega
  rw [byte_lane hw hj, hb _ hlt]
  have hc : amt * (w / 8) = w / 8 * amt := Nat.mul_comm _ _
  have e : w / 8 * (i + amt) = w / 8 * i + w / 8 * amt := Nat.mul_add _ _ _
  by_cases c : i + amt < Lanes w sz
  · have : w / 8 * (i + amt + 1) ≤ w / 8 * Lanes w sz := Nat.mul_le_mul_left _ c
    rw [Nat.mul_add] at this
    rw [if_pos (by omega), if_pos c, byte_lane hw hj]; congr 1; omega
  · have : w / 8 * Lanes w sz ≤ w / 8 * (i + amt) := Nat.mul_le_mul_left _ (by omega)
    rw [if_neg (by omega), if_neg c]; simp

theorem shiftLeftSame64 (v : M128) (n : Nat) (h : n < 2 ^ 31) : ShiftLeftSame 64 v n = slli 64 n v := by
  unfold ShiftLeftSame; rw [if_neg (by decide), sll_eq 64 n h]
theorem shiftRightSameW (w : Nat) (hw : w ≠ 8) (v : M128) (n : Nat) (h : n < 2 ^ 31) : ShiftRightSameU w v n = srli w n v := by
  unfold ShiftRightSameU; rw [if_neg hw, srl_eq w n h]

/-- The bytes denoted by a shift. -/
def upS (q i : Nat) : SB := if q ≤ i then .byte false (i - q) else .lit 0
def downS (q i : Nat) : SB := if i + q < 16 then .byte false (i + q) else .lit 0

theorem den_upS {R v : M128} {S : Nat → SB} {n : Nat} (q : Nat) (hn : n ≤ 16) (h : Sym v 0#128 R S)
    (he : ∀ i, i < n → S i = upS q i) (j : Nat) (hj : j < n) :
    lane 8 j R = if q ≤ j then lane 8 (j - q) v else 0#8 := by
  refine h j (by omega) _ ?_
  rw [he j hj]; unfold upS
  split <;> rfl
theorem den_downS {R v : M128} {S : Nat → SB} {n : Nat} (q : Nat) (hn : n ≤ 16) (h : Sym v 0#128 R S)
    (he : ∀ i, i < n → S i = if i + q < n then .byte false (i + q) else .lit 0) (j : Nat) (hj : j < n) :
    lane 8 j R = if j + q < n then lane 8 (j + q) v else 0#8 := by
  refine h j (by omega) _ ?_
  rw [he j hj]
  split <;> rfl

theorem up_sse2_chk : allLT 16 (fun q => allLT 16 (fun i => SB.same
    ((if q % 8 ≤ i % 8 then SB.ite (.lit (if 8 ≤ q then 255 else 0)) (if 8 ≤ i - q % 8 then SB.byte false (i - q % 8 - 8) else .lit 0) (.byte false (i - q % 8)) else .lit 0).or
      (if i % 8 + (8 - q % 8) < 8 then
        (if 8 ≤ i + (8 - q % 8) then SB.ite (.lit (if 8 ≤ q then 255 else 0)) (if 8 ≤ i + (8 - q % 8) - 8 then SB.byte false (i + (8 - q % 8) - 8 - 8) else .lit 0) (.byte false (i + (8 - q % 8) - 8)) else .lit 0)
        else .lit 0)) (upS q i))) = true := by decide +kernel

theorem maskLit (p : Prop) [Decidable p] (a b : M128) :
    Sym a b (set 32 (if p then BitVec.allOnes 32 else 0#32)) (fun _ => .lit (if p then 255 else 0)) := by
  intro i hi x hx
  have hs := sym_set32 (a := a) (b := b) (if p then BitVec.allOnes 32 else 0#32) i hi
  apply hs
  rw [← hx]; congr 1
  have : i % 4 = 0 ∨ i % 4 = 1 ∨ i % 4 = 2 ∨ i % 4 = 3 := by omega
  split <;> rcases this with h | h | h | h <;> simp only [h] <;> rfl

theorem slideUp_bytes (t : Tgt) {w sz : Nat} (h : Shape w sz) (v : M128) {amt : Nat} (ha : amt < Lanes w sz) (j : Nat)
    (hj : j < sz) : lane 8 j (SlideUpLanesRt t w sz v amt)
      = if amt * (w / 8) ≤ j then lane 8 (j - amt * (w / 8)) v else 0#8 := by
  have hm : w / 8 * Lanes w sz = sz := by shapes h <;> decide
  have hs : sz ≤ 8 ∨ sz = 16 := by shapes h <;> omega
  have hq : amt * (w / 8) < sz := by
    have : w / 8 * (amt + 1) ≤ w / 8 * Lanes w sz := Nat.mul_le_mul_left _ ha
    have : 0 < w / 8 := by shapes h <;> decide
    rw [Nat.mul_comm]; rw [Nat.mul_add] at *; omega
  have hk : (amt ≥ 8 / (w / 8)) ↔ 8 ≤ amt * (w / 8) := by
    clear hq; shapes h <;> simp only [Nat.reduceDiv] <;> omega
  unfold SlideUpLanesRt
  dsimp only
  simp only [hk]
  generalize amt * (w / 8) = q at *
  have h64 := fun (r : M128) (n : Nat) (h : n ≤ 128) => shiftLeftSame64 r n (by omega)
  have h64' := fun (r : M128) (n : Nat) (h : n ≤ 128) => shiftRightSameW 64 (by decide) r n (by omega)
  rcases hs with hs | rfl
  · rw [if_pos hs, h64 _ _ (by omega)]
    refine den_upS q (n := sz) (by omega) (sym_slli (m := 8) rfl (by omega) _ q (by omega) sym_a) ?_ j hj
    intro i hi
    unfold upS
    rw [Nat.mod_eq_of_lt (by omega)]
  rw [if_neg (by omega)]
  split
  · have hidx : (lane 8 j (Iota 8 (BitVec.ofInt 8 (0 - (q : Nat))))).toNat = if q ≤ j then j - q else 256 + j - q := by
      rw [C62_iota ⟨by omega, by omega⟩, BitVec.toNat_add, BitVec.toNat_ofInt, BitVec.toNat_ofNat]
      split <;> omega
    rw [C62_tableLookupBytesOr0 t hj v _ (by rw [hidx]; split <;> omega), hidx]
    by_cases c : q ≤ j
    · rw [if_pos c, if_neg (by omega), if_pos c]
    · rw [if_neg c, if_pos (by omega), if_neg c]
  · have e1 : q * 8 % 64 = 8 * (q % 8) := by omega
    have e2 : 64 - q * 8 % 64 = 8 * (8 - q % 8) := by omega
    rw [h64 _ _ (by omega), h64' _ _ (by omega)]
    have hS := sym_Or (sym_slli (m := 8) rfl (by omega) _ _ e1 (sym_IfVecThenElse t (maskLit (8 ≤ q) v 0#128) (sym_slliBytes 8 sym_a) sym_a))
      (sym_srli (m := 8) rfl (by omega) _ _ e2 (sym_slliBytes 8 (sym_IfVecThenElse t (maskLit (8 ≤ q) v 0#128) (sym_slliBytes 8 sym_a) sym_a)))
    exact den_upS q (by omega) hS (fun i hi => SB.same_eq (allLT_iff (allLT_iff up_sse2_chk q hq) i hi)) j hj

/-- `SlideUpLanes(d, v, amt)`: lane `i` is lane `i - amt`, the lowest `amt` lanes are zero. -/
theorem C66_slideUpLanes (t : Tgt) (isConst : Bool) {w sz : Nat} (h : Shape w sz) (v : M128) {amt : Nat} (ha : amt < Lanes w sz)
    {i : Nat} (hi : i < Lanes w sz) :
    lane w i (SlideUpLanes t isConst w sz v amt) = if amt ≤ i then lane w (i - amt) v else 0#w := by
  unfold SlideUpLanes
  split
  · have : amt = 0 := by unfold Lanes at *; omega
    subst this; simp
  split
  · split
    · rename_i e; subst e; simp
    · exact C63_shiftLeftLanes h amt v hi
  · exact slide_up_lift h (slideUp_bytes t h v ha) hi

theorem down_sse2_chk : allLT 16 (fun q => allLT 16 (fun i => SB.same
    ((if i % 8 + q % 8 < 8 then SB.ite (.lit (if 8 ≤ q then 255 else 0)) (if i + q % 8 + 8 < 16 then SB.byte false (i + q % 8 + 8) else .lit 0) (.byte false (i + q % 8)) else .lit 0).or
      (if 8 - q % 8 ≤ i % 8 then
        (if i - (8 - q % 8) + 8 < 16 then SB.ite (.lit (if 8 ≤ q then 255 else 0)) (if i - (8 - q % 8) + 8 + 8 < 16 then SB.byte false (i - (8 - q % 8) + 8 + 8) else .lit 0) (.byte false (i - (8 - q % 8) + 8)) else .lit 0)
        else .lit 0)) (if i + q < 16 then .byte false (i + q) else .lit 0))) = true := by decide +kernel

theorem slideDown_bytes (t : Tgt) {w sz : Nat} (h : Shape w sz) (v : M128) {amt : Nat} (h2 : 1 < Lanes w sz) (ha : amt < Lanes w sz) (j : Nat)
    (hj : j < sz) : lane 8 j (SlideDownLanesRt t w sz v amt)
      = if j + amt * (w / 8) < sz then lane 8 (j + amt * (w / 8)) v else 0#8 := by
  have hm : w / 8 * Lanes w sz = sz := by shapes h <;> decide
  have hs : (sz = 2 ∨ sz = 4 ∨ sz = 8) ∨ sz = 16 := by shapes h <;> first | (exfalso; revert h2; decide) | omega
  have hq : amt * (w / 8) < sz := by
    have : w / 8 * (amt + 1) ≤ w / 8 * Lanes w sz := Nat.mul_le_mul_left _ ha
    have : 0 < w / 8 := by shapes h <;> decide
    rw [Nat.mul_comm]; rw [Nat.mul_add] at *; omega
  have hk : (amt ≥ 8 / (w / 8)) ↔ 8 ≤ amt * (w / 8) := by
    clear hq; shapes h <;> simp only [Nat.reduceDiv] <;> omega
  unfold SlideDownLanesRt ShiftRightBytes
  dsimp only
  simp only [hk]
  generalize amt * (w / 8) = q at *
  have h64 := fun (r : M128) (n : Nat) (h : n ≤ 128) => shiftLeftSame64 r n (by omega)
  have h64' := fun (w : Nat) (hw : w ≠ 8) (r : M128) (n : Nat) (h : n ≤ 128) => shiftRightSameW w hw r n (by omega)
  rcases hs with hs | rfl
  · rw [if_pos (by omega), h64' _ (by omega) _ _ (by omega)]
    refine den_downS q (n := sz) (by omega) (sym_srli (m := sz) (by omega) (by omega) _ q (by omega) sym_a) ?_ j hj
    intro i hi
    rw [Nat.mod_eq_of_lt (by omega)]
  rw [if_neg (by omega)]
  split
  · have hr : InReg 8 j := ⟨by omega, by omega⟩
    have hidx : (lane 8 j (Iota 8 (BitVec.ofNat 8 q))).toNat = q + j := by
      rw [C62_iota hr, BitVec.toNat_add, BitVec.toNat_ofNat, BitVec.toNat_ofNat]; omega
    have hg : lane 8 j (Gt t true 8 (Iota 8 (BitVec.ofNat 8 q)) (set 8 15#8)) = if 16 ≤ q + j then BitVec.allOnes 8 else 0#8 := by
      rw [C62_gt t true hr, lane_set hr]
      unfold maskLane val
      simp only [if_true]
      have : (lane 8 j (Iota 8 (BitVec.ofNat 8 q))).toInt = (q + j : Nat) := by
        rw [BitVec.toInt_eq_toNat_cond, hidx]; split <;> omega
      rw [this, show (15#8).toInt = 15 from rfl]
      by_cases c : 16 ≤ q + j
      · rw [if_pos c, if_pos (by omega)]
      · rw [if_neg c, if_neg (by omega)]
    have hor : (lane 8 j (Or (Iota 8 (BitVec.ofNat 8 q)) (Gt t true 8 (Iota 8 (BitVec.ofNat 8 q)) (set 8 15#8)))).toNat
        = if 16 ≤ q + j then 255 else q + j := by
      rw [lane_Or, hg]
      split
      · rw [BitVec.or_allOnes]; rfl
      · rw [BitVec.or_zero, hidx]
    rw [C62_tableLookupBytesOr0 t hj v _ (by rw [hor]; split <;> omega), hor]
    by_cases c : 16 ≤ q + j
    · rw [if_pos c, if_pos (by omega), if_neg (by omega)]
    · rw [if_neg c, if_neg (by omega), if_pos (by omega), Nat.add_comm q j]
  · have e1 : q * 8 % 64 = 8 * (q % 8) := by omega
    have e2 : 64 - q * 8 % 64 = 8 * (8 - q % 8) := by omega
    rw [h64 _ _ (by omega), h64' 64 (by decide) _ _ (by omega)]
    simp only [ne_eq, not_true_eq_false, reduceIte]
    have hS := sym_Or (sym_srli (m := 8) rfl (by omega) _ _ e1 (sym_IfVecThenElse t (maskLit (8 ≤ q) v 0#128) (sym_srliBytes 8 sym_a) sym_a))
      (sym_slli (m := 8) rfl (by omega) _ _ e2 (sym_srliBytes 8 (sym_IfVecThenElse t (maskLit (8 ≤ q) v 0#128) (sym_srliBytes 8 sym_a) sym_a)))
    exact den_downS q (by omega) hS (fun i hi => SB.same_eq (allLT_iff (allLT_iff down_sse2_chk q hq) i hi)) j hj

/-- `SlideDownLanes(d, v, amt)`: lane `i` is lane `i + amt`, the uppermost `amt` lanes are zero. -/
theorem C66_slideDownLanes (t : Tgt) (isConst : Bool) {w sz : Nat} (h : Shape w sz) (v : M128) {amt : Nat} (ha : amt < Lanes w sz)
    {i : Nat} (hi : i < Lanes w sz) :
    lane w i (SlideDownLanes t isConst w sz v amt) = if i + amt < Lanes w sz then lane w (i + amt) v else 0#w := by
  unfold SlideDownLanes
  split
  · have : amt = 0 := by unfold Lanes at *; omega
    subst this; rw [Nat.add_zero, if_pos hi]
  rename_i hne
  split
  · split
    · rename_i e; subst e; rw [Nat.add_zero, if_pos hi]
    · exact C63_shiftRightLanes t h amt v hi
  · exact slide_down_lift h (slideDown_bytes t h v (by unfold Lanes at *; omega) ha) hi

/-- `Slide1Up`: for every vector, also of a single lane. -/
theorem C66_slide1Up {w sz : Nat} (h : Shape w sz) (v : M128) {i : Nat} (hi : i < Lanes w sz) :
    lane w i (Slide1Up w sz v) = if 1 ≤ i then lane w (i - 1) v else 0#w := by
  unfold Slide1Up
  split
  · rw [if_neg (by unfold Lanes at *; omega), lane_zero']
  · exact C63_shiftLeftLanes h 1 v hi

/-- `Slide1Down`: for every vector, also of a single lane. -/
theorem C66_slide1Down (t : Tgt) {w sz : Nat} (h : Shape w sz) (v : M128) {i : Nat} (hi : i < Lanes w sz) :
    lane w i (Slide1DownD t w sz v) = if i + 1 < Lanes w sz then lane w (i + 1) v else 0#w := by
  unfold Slide1DownD Slide1Down
  split
  · rw [if_neg (by unfold Lanes at *; omega), lane_zero']
  · exact C63_shiftRightLanes t h 1 v hi

end Hwy.X86
