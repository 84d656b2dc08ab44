import Verif.X86V256Spec2
import Verif.X86LookupSpec3
import Verif.X86ShiftSpec

/-!
# C73: lookups and slides of 256-bit vectors
-/

namespace Hwy.X86.V256

/-! ## Lookups of bytes -/

/-- The bytes of a lane. -/
theorem byte256_lane {w m : Nat} (hw : w = 8 * m) (hd : m = 1 ∨ m = 2 ∨ m = 4 ∨ m = 8) {j : Nat} (hj : j < m) (i : Nat) (v : M256) :
    (lane256 w i v).extractLsb' (8 * j) 8 = lane256 8 (m * i + j) v := by
  have hd1 : 128 / w = 16 / m := by subst hw; rcases hd with rfl | rfl | rfl | rfl <;> rfl
  unfold lane256
  rw [hd1]
  by_cases h : i < 16 / m
  · rw [if_pos h, if_pos (by rcases hd with rfl | rfl | rfl | rfl <;> omega), byte_lane hw hj]
  · rw [if_neg h, if_neg (by rcases hd with rfl | rfl | rfl | rfl <;> omega), byte_lane hw hj]
    congr 1
    rcases hd with rfl | rfl | rfl | rfl <;> omega

theorem shl_byte_msb (s : Nat) (hs : s = 2 ∨ s = 3) (idx : M128) {p k : Nat} (hp : p < 16) (h : (lane 8 p idx).toNat = k) :
    (lane 8 p (slli 16 s idx)).msb = decide (k / 2 ^ (7 - s) % 2 = 1) := by
  have e := byte_lane (w := 16) (m := 2) rfl (show p % 2 < 2 by omega) (p / 2) (slli 16 s idx)
  have e' := byte_lane (w := 16) (m := 2) rfl (show p % 2 < 2 by omega) (p / 2) idx
  rw [Nat.div_add_mod] at e e'
  have hb : (lane 8 p idx).getLsbD (7 - s) = decide (k / 2 ^ (7 - s) % 2 = 1) := by
    rw [BitVec.getLsbD, h, Nat.testBit_eq_decide_div_mod_eq]
  have hl : lane 16 (p / 2) (slli 16 s idx) = lane 16 (p / 2) idx <<< s := by
    unfold slli map1; rw [lane_mk (by omega) (by omega)]
  rw [← hb, ← e, ← e', BitVec.msb_eq_getLsbD_last, hl]
  simp only [BitVec.getLsbD_extractLsb', BitVec.getLsbD_shiftLeft]
  have h1 : 8 * (p % 2) + (8 - 1) < 16 := by omega
  have h2 : ¬ 8 * (p % 2) + (8 - 1) < s := by omega
  have h3 : 8 * (p % 2) + (8 - 1) - s = 8 * (p % 2) + (7 - s) := by omega
  have h4 : 7 - s < 8 := by omega
  simp only [h1, h2, h3, h4, decide_true, decide_false, Bool.not_false, Bool.true_and, Nat.reduceSub, Nat.reduceLT]

theorem sh8_lt {p : Nat} (hp : p < 16) (v idx : M128) {k : Nat} (h : (lane 8 p idx).toNat = k) (hk : k < 128) :
    lane 8 p (shuffle8 v idx) = lane 8 (k % 16) v := by
  have hm : (lane 8 p idx).msb = false := by
    rw [BitVec.msb_eq_decide, h]; simp; omega
  unfold shuffle8
  rw [lane_mk (by omega) (by omega), hm, h]; simp
theorem sh8_ge {p : Nat} (hp : p < 16) (v idx : M128) {k : Nat} (h : (lane 8 p idx).toNat = k) (hk : 128 ≤ k) :
    lane 8 p (shuffle8 v idx) = 0#8 := by
  have hm : (lane 8 p idx).msb = true := by
    rw [BitVec.msb_eq_decide, h]; simp; omega
  unfold shuffle8
  rw [lane_mk (by omega) (by omega), hm]; simp

/-- One block of the byte lookup. -/
theorem tl8_blk (v : M256) (idx : M128) {p k : Nat} (hp : p < 16) (h : (lane 8 p idx).toNat = k) :
    lane 8 p (blendv 8 (shuffle8 v.lo idx) (shuffle8 v.hi idx) (slli 16 3 idx)) = if k < 128 then lane256 8 (k % 32) v else 0#8 := by
  rw [lane_blendv ⟨by omega, by omega⟩, shl_byte_msb 3 (by omega) idx hp h]
  by_cases hk : k < 128
  · rw [if_pos hk, sh8_lt hp _ _ h hk, sh8_lt hp _ _ h hk]
    unfold lane256
    simp only [decide_eq_true_eq, Nat.reduceDiv, Nat.reduceSub, Nat.reducePow]
    by_cases c : k / 16 % 2 = 1
    · rw [if_pos c, if_neg (by omega)]; congr 1; omega
    · rw [if_neg c, if_pos (by omega)]; congr 1; omega
  · rw [if_neg hk, sh8_ge hp _ _ h (by omega), sh8_ge hp _ _ h (by omega)]; simp

/-- `TableLookupLanes` of bytes. -/
theorem tl8_byte (v idx : M256) {p k : Nat} (hp : p < 32) (h : (lane256 8 p idx).toNat = k) :
    lane256 8 p (TableLookupLanes8 v idx) = if k < 128 then lane256 8 (k % 32) v else 0#8 := by
  by_cases hb : p < 128 / 8
  · rw [lane256_lo hb] at h ⊢
    exact tl8_blk v idx.lo hb h
  · rw [lane256_hi hb] at h ⊢
    exact tl8_blk v idx.hi (by simp only [Nat.reduceDiv] at *; omega) h

/-- `TwoTablesLookupLanes` of bytes. -/
theorem two8q_byte (a b idx : M256) {p k : Nat} (hp : p < 32) (h : (lane256 8 p idx).toNat = k) (hk : k < 64) :
    lane256 8 p (TwoTablesLookupLanes8 a b idx) = if k < 32 then lane256 8 k a else lane256 8 (k - 32) b := by
  have ha := tl8_byte a idx hp h
  have hb := tl8_byte b idx hp h
  rw [if_pos (by omega)] at ha hb
  have key : ∀ (x y m : M128) (q : Nat), q < 16 → (lane 8 q m).toNat = k →
      lane 8 q (blendv 8 x y (slli 16 2 m)) = if k < 32 then lane 8 q x else lane 8 q y := by
    intro x y m q hq hm
    rw [lane_blendv ⟨by omega, by omega⟩, shl_byte_msb 2 (by omega) m hq hm]
    simp only [decide_eq_true_eq, Nat.reduceSub, Nat.reducePow]
    by_cases c : k < 32
    · rw [if_pos c, if_neg (by omega)]
    · rw [if_neg c, if_pos (by omega)]
  have e : lane256 8 p (TwoTablesLookupLanes8 a b idx) =
      if k < 32 then lane256 8 p (TableLookupLanes8 a idx) else lane256 8 p (TableLookupLanes8 b idx) := by
    by_cases hb : p < 128 / 8
    · rw [lane256_lo hb] at h
      rw [lane256_lo hb, lane256_lo hb, lane256_lo hb]
      exact key _ _ _ _ hb h
    · rw [lane256_hi hb] at h
      rw [lane256_hi hb, lane256_hi hb, lane256_hi hb]
      exact key _ _ _ _ (by simp only [Nat.reduceDiv] at *; omega) h
  rw [e, ha, hb]
  by_cases c : k < 32
  · rw [if_pos c, if_pos c, Nat.mod_eq_of_lt c]
  · rw [if_neg c, if_neg c]; congr 1; omega

/-! ## Indices -/

/-- Byte indices are lane indices scaled by the lane size. -/
def ByteIdxQ (m i n : Nat) (idx : M256) : Prop := ∀ j, j < m → (lane256 8 (m * i + j) idx).toNat = m * n + j

theorem sh8_bc (tab : List Nat) {p q n : Nat} (hp : p < 16) (hq : q < 16) (ht : tab.getD p 0 = q) (vec : M128)
    (h : (lane 8 q vec).toNat = n) : (lane 8 p (shuffle8 vec (ofBytes tab))).toNat = n := by
  have hi : (lane 8 p (ofBytes tab)).toNat = q := by
    unfold ofBytes; rw [lane_mk (by omega) (by omega), BitVec.toNat_ofNat, ht]; omega
  rw [sh8_lt hp vec _ hi (by omega), Nat.mod_eq_of_lt hq, h]

/-- One block of the conversion of 16-bit lane indices. -/
theorem idx16_blk (vec : M128) {i n : Nat} (hi : i < 8) (h : (lane 16 i vec).toNat = n) (hn : n < 64) :
    ByteIdx 2 i n (addI 8 (slli 16 1 (shuffle8 vec (ofBytes [0, 0, 2, 2, 4, 4, 6, 6, 8, 8, 10, 10, 12, 12, 14, 14])))
      (ofBytes [0, 1, 0, 1, 0, 1, 0, 1, 0, 1, 0, 1, 0, 1, 0, 1])) := by
  intro j hj
  have hz := byte0_toNat (m := 2) rfl (by omega) i vec h (by omega)
  have hb : ∀ k, k < 2 → (lane 8 (2 * i + k) (shuffle8 vec
      (ofBytes [0, 0, 2, 2, 4, 4, 6, 6, 8, 8, 10, 10, 12, 12, 14, 14]))).toNat = n := by
    intro k hk
    refine sh8_bc _ (q := 2 * i) (by omega) (by omega) ?_ vec hz
    clear hz h
    have : i = 0 ∨ i = 1 ∨ i = 2 ∨ i = 3 ∨ i = 4 ∨ i = 5 ∨ i = 6 ∨ i = 7 := by omega
    have hk' : k = 0 ∨ k = 1 := by omega
    rcases this with rfl | rfl | rfl | rfl | rfl | rfl | rfl | rfl <;> rcases hk' with rfl | rfl <;> rfl
  have hp := pair16 _ (hb 0 (by omega)) (hb 1 (by omega))
  have hs := shl_byte 1 (by omega) _ (p := 2 * i + j) (by omega) (n := n)
    (by rw [show (2 * i + j) / 2 = i by omega]; exact hp) (by omega)
  have hadd : ∀ x y : M128, lane 8 (2 * i + j) (addI 8 x y) = lane 8 (2 * i + j) x + lane 8 (2 * i + j) y :=
    fun x y => lane_Add (w := 8) (i := 2 * i + j) ⟨by omega, by omega⟩ x y
  rw [hadd, BitVec.toNat_add]
  have ho : (lane 8 (2 * i + j) (ofBytes [0, 1, 0, 1, 0, 1, 0, 1, 0, 1, 0, 1, 0, 1, 0, 1])).toNat = j := by
    unfold ofBytes; rw [lane_mk (by omega) (by omega), BitVec.toNat_ofNat]
    clear hb hp hz h hs
    have : i = 0 ∨ i = 1 ∨ i = 2 ∨ i = 3 ∨ i = 4 ∨ i = 5 ∨ i = 6 ∨ i = 7 := by omega
    have hk' : j = 0 ∨ j = 1 := by omega
    rcases this with rfl | rfl | rfl | rfl | rfl | rfl | rfl | rfl <;> rcases hk' with rfl | rfl <;> rfl
  rw [ho]
  have hs' : (lane 8 (2 * i + j) (slli 16 1 (shuffle8 vec (ofBytes [0, 0, 2, 2, 4, 4, 6, 6, 8, 8, 10, 10, 12, 12, 14, 14])))).toNat = 2 ^ 1 * n := hs
  rw [hs']; omega

/-- `IndicesFromVec` of 16-bit lanes makes byte indices. -/
theorem idx16q (vec : M256) {i n : Nat} (hi : i < 16) (h : (lane256 16 i vec).toNat = n) (hn : n < 64) :
    ByteIdxQ 2 i n (IndicesFromVec 16 vec) := by
  intro j hj
  by_cases hb : i < 128 / 16
  · rw [lane256_lo hb] at h
    rw [lane256_lo (by simp only [Nat.reduceDiv] at *; omega)]
    exact idx16_blk vec.lo hb h hn j hj
  · rw [lane256_hi hb] at h
    rw [lane256_hi (by simp only [Nat.reduceDiv] at *; omega)]
    have := idx16_blk vec.hi (by simp only [Nat.reduceDiv] at *; omega) h hn j hj
    rwa [show 2 * (i - 128 / 16) + j = 2 * i + j - 128 / 8 by simp only [Nat.reduceDiv] at *; omega] at this

/-- `VPERMD`. -/
theorem pv8 (v idx : M256) {i n : Nat} (hi : i < 8) (h : (lane256 32 i idx).toNat = n) :
    lane256 32 i (permutevar8x32 v idx) = lane256 32 (n % 8) v := by
  by_cases hb : i < 128 / 32
  · rw [lane256_lo hb] at h ⊢
    unfold permutevar8x32
    rw [lane_mk (by omega) (by simp only [Nat.reduceDiv] at *; omega), h]
  · rw [lane256_hi hb] at h ⊢
    unfold permutevar8x32
    rw [lane_mk (by omega) (by simp only [Nat.reduceDiv] at *; omega), h]

/-- The two 32-bit halves of a 64-bit lane. -/
theorem half256 {j : Nat} (hj : j < 2) (i : Nat) (v : M256) :
    (lane256 64 i v).extractLsb' (32 * j) 32 = lane256 32 (2 * i + j) v := by
  have key : ∀ (k : Nat) (x : M128), (lane 64 k x).extractLsb' (32 * j) 32 = lane 32 (2 * k + j) x := by
    intro k x
    apply BitVec.eq_of_getLsbD_eq
    intro b hb
    simp only [BitVec.getLsbD_extractLsb', getLsbD_lane, hb, decide_true, Bool.true_and,
      show 32 * j + b < 64 by omega]
    congr 1; omega
  unfold lane256
  by_cases h : i < 128 / 64
  · rw [if_pos h, if_pos (by simp only [Nat.reduceDiv] at *; omega), key]
  · rw [if_neg h, if_neg (by simp only [Nat.reduceDiv] at *; omega), key]
    congr 1; simp only [Nat.reduceDiv] at *; omega

theorem lane64_halves {a b : BitVec 64} (h : ∀ j, j < 2 → a.extractLsb' (32 * j) 32 = b.extractLsb' (32 * j) 32) : a = b := by
  apply BitVec.eq_of_getLsbD_eq
  intro k hk
  have := congrArg (fun x => x.getLsbD (k % 32)) (h (k / 32) (by omega))
  simp only [BitVec.getLsbD_extractLsb', show k % 32 < 32 by omega, decide_true, Bool.true_and, Nat.div_add_mod] at this
  exact this

/-- One block of the conversion of 64-bit lane indices. -/
theorem idx64_blk (vec : M128) {i n : Nat} (hi : i < 2) (h : (lane 64 i vec).toNat = n) (hn : n < 8) :
    (lane 64 i (addI 64 (addI 64 (moveldup vec) (moveldup vec)) (set 64 (1#64 <<< 32)))).toNat = 2 * n + 2 ^ 32 * (2 * n + 1) := by
  have hr : InReg 64 i := ⟨by omega, by omega⟩
  have hadd : ∀ x y : M128, lane 64 i (addI 64 x y) = lane 64 i x + lane 64 i y := fun x y => lane_Add (w := 64) hr x y
  have e32 : ∀ j, j < 2 → lane 32 (2 * i + j) (moveldup vec) = BitVec.ofNat 32 n := by
    intro j hj
    unfold moveldup
    rw [lane_mk (by omega) (by omega), show (2 * i + j) / 2 * 2 = 2 * i by omega]
    apply BitVec.eq_of_toNat_eq
    have : lane 32 (2 * i) vec = (lane 64 i vec).setWidth 32 := by
      apply BitVec.eq_of_getLsbD_eq
      intro b hb
      simp only [getLsbD_lane, BitVec.getLsbD_setWidth, hb, decide_true, Bool.true_and, show b < 64 by omega]
      congr 1; omega
    rw [this, BitVec.toNat_setWidth, h, BitVec.toNat_ofNat]
  have el : lane 64 i (moveldup vec) = BitVec.ofNat 64 (n + 2 ^ 32 * n) := by
    apply lane64_halves
    intro j hj
    have : (lane 64 i (moveldup vec)).extractLsb' (32 * j) 32 = lane 32 (2 * i + j) (moveldup vec) := by
      apply BitVec.eq_of_getLsbD_eq
      intro b hb
      simp only [BitVec.getLsbD_extractLsb', getLsbD_lane, hb, decide_true, Bool.true_and,
        show 32 * j + b < 64 by omega]
      congr 1; omega
    rw [this, e32 j hj]
    apply BitVec.eq_of_toNat_eq
    clear e32 this h hadd
    have : j = 0 ∨ j = 1 := by omega
    rcases this with rfl | rfl <;> interval_cases n <;> decide +kernel
  rw [hadd, hadd, el, lane_set hr]
  clear e32 el h hadd
  interval_cases n <;> decide +kernel

/-- `IndicesFromVec` of 64-bit lanes makes pairs of 32-bit indices. -/
theorem idx64q (vec : M256) {i n : Nat} (hi : i < 4) (h : (lane256 64 i vec).toNat = n) (hn : n < 8) :
    ∀ j, j < 2 → (lane256 32 (2 * i + j) (IndicesFromVec 64 vec)).toNat = 2 * n + j := by
  intro j hj
  have e : (lane256 64 i (IndicesFromVec 64 vec)).toNat = 2 * n + 2 ^ 32 * (2 * n + 1) := by
    by_cases hb : i < 128 / 64
    · rw [lane256_lo hb] at h ⊢
      exact idx64_blk vec.lo hb h hn
    · rw [lane256_hi hb] at h ⊢
      exact idx64_blk vec.hi (by simp only [Nat.reduceDiv] at *; omega) h hn
  rw [← half256 hj, BitVec.extractLsb'_toNat, e, Nat.shiftRight_eq_div_pow]
  clear e h
  have : j = 0 ∨ j = 1 := by omega
  rcases this with rfl | rfl <;> interval_cases n <;> decide +kernel

/-! ## Lookups of lanes -/

theorem idx_same {w : Nat} (hw : w = 8 ∨ w = 32) (vec : M256) : IndicesFromVec w vec = vec := by
  unfold IndicesFromVec; rw [if_neg (by omega), if_neg (by omega)]

theorem lane256_bytes {w m : Nat} (hw : w = 8 * m) (hd : m = 1 ∨ m = 2 ∨ m = 4 ∨ m = 8) {i : Nat} {R : M256} {x : BitVec w}
    (h : ∀ j, j < m → lane256 8 (m * i + j) R = x.extractLsb' (8 * j) 8) : lane256 w i R = x := by
  apply lane_bytes hw
  intro j hj
  rw [byte256_lane hw hd hj, h j hj]

/-- `TableLookupLanes(v, IndicesFromVec(d, indices))`: lane `i` is the lane of `v` that index `i` names. -/
theorem C73_tableLookupLanes {w : Nat} (hw : Width w) (v vec : M256) {i : Nat} (h : i < 256 / w) (hn : (lane256 w i vec).toNat < 256 / w) :
    lane256 w i (TableLookupLanes w v (IndicesFromVec w vec)) = lane256 w (lane256 w i vec).toNat v := by
  generalize e : (lane256 w i vec).toNat = n at *
  rcases hw with rfl | rfl | rfl | rfl
  · rw [idx_same (by omega)]
    unfold TableLookupLanes
    rw [if_pos (by omega), tl8_byte v vec h e, if_pos (by omega), Nat.mod_eq_of_lt hn]
  · unfold TableLookupLanes
    rw [if_pos (by omega)]
    apply lane256_bytes (m := 2) rfl (by decide)
    intro j hj
    simp only [Nat.reduceDiv] at h hn
    rw [tl8_byte v _ (by omega) (idx16q vec h e (by omega) j hj), if_pos (by omega), byte256_lane (m := 2) rfl (by decide) hj,
      Nat.mod_eq_of_lt (by omega)]
  · rw [idx_same (by omega)]
    unfold TableLookupLanes
    rw [if_neg (by omega), pv8 v vec h e, Nat.mod_eq_of_lt hn]
  · unfold TableLookupLanes
    rw [if_neg (by omega)]
    simp only [Nat.reduceDiv] at h hn
    apply lane64_halves
    intro j hj
    rw [half256 hj, half256 hj, pv8 v _ (by omega) (idx64q vec h e (by omega) j hj), Nat.mod_eq_of_lt (by omega)]

theorem two32q (a b idx : M256) {i n : Nat} (hi : i < 8) (h : (lane256 32 i idx).toNat = n) (hn : n < 16) :
    lane256 32 i (TwoTablesLookupLanes32 a b idx) = if n < 8 then lane256 32 n a else lane256 32 (n - 8) b := by
  have ha := pv8 a idx hi h
  have hb := pv8 b idx hi h
  have key : ∀ (x y m : M128) (q : Nat), q < 4 → (lane 32 q m).toNat = n →
      lane 32 q (blendv 32 x y (slli 32 28 m)) = if n < 8 then lane 32 q x else lane 32 q y := by
    intro x y m q hq hm
    have hr : InReg 32 q := ⟨by omega, by omega⟩
    have hs : (lane 32 q (slli 32 28 m)).msb = _ := shl_msb 32 28 hr m (by omega) hm
    rw [lane_blendv hr, hs]
    simp only [decide_eq_true_eq, Nat.reduceSub, Nat.reducePow]
    by_cases c : n < 8
    · rw [if_pos c, if_neg (by omega)]
    · rw [if_neg c, if_pos (by omega)]
  have e : lane256 32 i (TwoTablesLookupLanes32 a b idx) =
      if n < 8 then lane256 32 i (permutevar8x32 a idx) else lane256 32 i (permutevar8x32 b idx) := by
    by_cases hb : i < 128 / 32
    · rw [lane256_lo hb] at h
      rw [lane256_lo hb, lane256_lo hb, lane256_lo hb]
      exact key _ _ _ _ hb h
    · rw [lane256_hi hb] at h
      rw [lane256_hi hb, lane256_hi hb, lane256_hi hb]
      exact key _ _ _ _ (by simp only [Nat.reduceDiv] at *; omega) h
  rw [e, ha, hb]
  by_cases c : n < 8
  · rw [if_pos c, if_pos c, Nat.mod_eq_of_lt c]
  · rw [if_neg c, if_neg c]; congr 1; omega

/-- `TwoTablesLookupLanes(a, b, IndicesFromVec(d, indices))`: an index below the number of lanes names a lane of `a`,
the others name the lanes of `b`. -/
theorem C73_twoTablesLookupLanes {w : Nat} (hw : Width w) (a b vec : M256) {i : Nat} (h : i < 256 / w)
    (hn : (lane256 w i vec).toNat < 2 * (256 / w)) :
    lane256 w i (TwoTablesLookupLanes w a b (IndicesFromVec w vec)) =
      if (lane256 w i vec).toNat < 256 / w then lane256 w (lane256 w i vec).toNat a
      else lane256 w ((lane256 w i vec).toNat - 256 / w) b := by
  generalize e : (lane256 w i vec).toNat = n at *
  rcases hw with rfl | rfl | rfl | rfl
  · rw [idx_same (by omega)]
    unfold TwoTablesLookupLanes
    rw [if_pos (by omega), two8q_byte a b vec h e (by omega)]
  · unfold TwoTablesLookupLanes
    rw [if_pos (by omega)]
    apply lane256_bytes (m := 2) rfl (by decide)
    intro j hj
    simp only [Nat.reduceDiv] at h hn ⊢
    rw [two8q_byte a b _ (by omega) (idx16q vec h e (by omega) j hj) (by omega)]
    by_cases c : n < 16
    · rw [if_pos c, if_pos (by omega), byte256_lane (m := 2) rfl (by decide) hj]
    · rw [if_neg c, if_neg (by omega), byte256_lane (m := 2) rfl (by decide) hj]
      congr 1; omega
  · rw [idx_same (by omega)]
    unfold TwoTablesLookupLanes
    rw [if_neg (by omega), two32q a b vec h e (by omega)]
  · unfold TwoTablesLookupLanes
    rw [if_neg (by omega)]
    simp only [Nat.reduceDiv] at h hn ⊢
    apply lane64_halves
    intro j hj
    rw [half256 hj, two32q a b _ (by omega) (idx64q vec h e (by omega) j hj) (by omega)]
    by_cases c : n < 4
    · rw [if_pos c, if_pos (by omega), half256 hj]
    · rw [if_neg c, if_neg (by omega), half256 hj]
      congr 1; omega

/-! ## Reversals -/

theorem lane_ofLanes {w : Nat} (hw : Width w) (l : List Nat) {i : Nat} (h : i < 256 / w) :
    lane256 w i (ofLanes w l) = BitVec.ofNat w (l.getD i 0) := by
  by_cases hb : i < 128 / w
  · rw [lane256_lo hb]
    unfold ofLanes
    rw [lane_mk (by rcases hw with rfl | rfl | rfl | rfl <;> omega) (by rcases hw with rfl | rfl | rfl | rfl <;> omega)]
  · rw [lane256_hi hb]
    unfold ofLanes
    rw [lane_mk (by rcases hw with rfl | rfl | rfl | rfl <;> omega) (by rcases hw with rfl | rfl | rfl | rfl <;> omega),
      Nat.add_sub_cancel' (by omega)]

/-- `Reverse(d, v)`. -/
theorem C73_reverse {w : Nat} (hw : Width w) (v : M256) {i : Nat} (h : i < 256 / w) :
    lane256 w i (Reverse w v) = lane256 w (256 / w - 1 - i) v := by
  rcases hw with rfl | rfl | rfl | rfl
  · qstat; qleaf1 h
  · qstat; qleaf1 h
  · have hl := lane_ofLanes (w := 32) (by simp [Width]) [7, 6, 5, 4, 3, 2, 1, 0] h
    have e : (lane256 32 i (ofLanes 32 [7, 6, 5, 4, 3, 2, 1, 0])).toNat = 256 / 32 - 1 - i := by
      rw [hl]; simp only [Nat.reduceDiv] at h; clear hl; interval_cases i <;> rfl
    have := C73_tableLookupLanes (w := 32) (by simp [Width]) v _ h (by rw [e]; omega)
    rw [e] at this
    exact this
  · have hl := lane_ofLanes (w := 64) (by simp [Width]) [3, 2, 1, 0] h
    have e : (lane256 64 i (ofLanes 64 [3, 2, 1, 0])).toNat = 256 / 64 - 1 - i := by
      rw [hl]; simp only [Nat.reduceDiv] at h; clear hl; interval_cases i <;> rfl
    have := C73_tableLookupLanes (w := 64) (by simp [Width]) v _ h (by rw [e]; omega)
    rw [e] at this
    exact this

/-- `Reverse8(d, v)` of 16- and 32-bit lanes. -/
theorem C73_reverse8 {w : Nat} (hw : w = 16 ∨ w = 32) (v : M256) {i : Nat} (h : i < 256 / w) :
    lane256 w i (Reverse8 w v) = lane256 w (i / 8 * 8 + (7 - i % 8)) v := by
  rcases hw with rfl | rfl
  · qstat; qleaf1 h
  · unfold Reverse8
    rw [if_neg (by omega), C73_reverse (by simp [Width]) v h]
    congr 1; simp only [Nat.reduceDiv] at *; omega

end Hwy.X86.V256
