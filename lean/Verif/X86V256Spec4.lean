import Verif.X86V256Spec3

/-!
# C73: slides of 256-bit vectors
-/

namespace Hwy.X86.V256

/-! ## Byte slides and lane slides -/

/-- The bytes moved up by a whole number of lanes. -/
theorem up_bytes {w m : Nat} (hw : w = 8 * m) (hd : m = 1 ∨ m = 2 ∨ m = 4 ∨ m = 8) {R v : M256} {amt : Nat}
    (H : ∀ p, p < 32 → lane256 8 p R = if amt * m ≤ p then lane256 8 (p - amt * m) v else 0#8) {i : Nat} (h : i < 256 / w) :
    lane256 w i R = if amt ≤ i then lane256 w (i - amt) v else 0#w := by
  have h' : m * i + m ≤ 32 := by subst hw; rcases hd with rfl | rfl | rfl | rfl <;> omega
  apply lane256_bytes hw hd
  intro j hj
  rw [H _ (by omega)]
  by_cases c : amt ≤ i
  · rw [if_pos c, if_pos (by rcases hd with rfl | rfl | rfl | rfl <;> omega), byte256_lane hw hd hj]
    congr 1; rcases hd with rfl | rfl | rfl | rfl <;> omega
  · rw [if_neg c, if_neg (by rcases hd with rfl | rfl | rfl | rfl <;> omega), extract_zero]

/-- The bytes moved down by a whole number of lanes. -/
theorem down_bytes {w m : Nat} (hw : w = 8 * m) (hd : m = 1 ∨ m = 2 ∨ m = 4 ∨ m = 8) {R v : M256} {amt : Nat}
    (H : ∀ p, p < 32 → lane256 8 p R = if p + amt * m < 32 then lane256 8 (p + amt * m) v else 0#8) {i : Nat} (h : i < 256 / w) :
    lane256 w i R = if i + amt < 256 / w then lane256 w (i + amt) v else 0#w := by
  have hd2 : 256 / w = 32 / m := by subst hw; rcases hd with rfl | rfl | rfl | rfl <;> rfl
  rw [hd2] at h ⊢
  have h' : m * i + m ≤ 32 := by rcases hd with rfl | rfl | rfl | rfl <;> omega
  apply lane256_bytes hw hd
  intro j hj
  rw [H _ (by omega)]
  by_cases c : i + amt < 32 / m
  · rw [if_pos c, if_pos (by rcases hd with rfl | rfl | rfl | rfl <;> omega), byte256_lane hw hd hj]
    congr 1; rcases hd with rfl | rfl | rfl | rfl <;> omega
  · rw [if_neg c, if_neg (by rcases hd with rfl | rfl | rfl | rfl <;> omega), extract_zero]

theorem lane_IotaQ {w : Nat} (hw : Width w) (x : BitVec w) {i : Nat} (h : i < 256 / w) :
    lane256 w i (Iota w x) = BitVec.ofNat w i + x := by
  by_cases hb : i < 128 / w
  · rw [lane256_lo hb]
    unfold Iota
    rw [lane_mk (by rcases hw with rfl | rfl | rfl | rfl <;> omega) (by rcases hw with rfl | rfl | rfl | rfl <;> omega)]
  · rw [lane256_hi hb]
    unfold Iota
    rw [lane_mk (by rcases hw with rfl | rfl | rfl | rfl <;> omega) (by rcases hw with rfl | rfl | rfl | rfl <;> omega),
      Nat.add_sub_cancel' (by omega)]

/-- `Iota(d, first)`. -/
theorem C73_iota {w : Nat} (hw : Width w) (first : BitVec w) {i : Nat} (h : i < 256 / w) :
    lane256 w i (Iota w first) = first + BitVec.ofNat w i := by rw [lane_IotaQ hw first h, BitVec.add_comm]

/-! ## The runtime paths -/

theorem rt_up8 (v : M256) {b p : Nat} (hb : b < 32) (hp : p < 32) :
    lane256 8 p (TableLookupLanes8 v (Iota 8 (BitVec.ofInt 8 (0 - (b : Nat))))) = if b ≤ p then lane256 8 (p - b) v else 0#8 := by
  have e : (lane256 8 p (Iota 8 (BitVec.ofInt 8 (0 - (b : Nat))))).toNat = if b ≤ p then p - b else 256 + p - b := by
    rw [lane_IotaQ (by simp [Width]) _ hp, BitVec.toNat_add, BitVec.toNat_ofNat, BitVec.toNat_ofInt]
    split <;> omega
  rw [tl8_byte v _ hp e]
  by_cases c : b ≤ p
  · simp only [if_pos c]; rw [if_pos (by omega), Nat.mod_eq_of_lt (by omega)]
  · simp only [if_neg c]; rw [if_neg (by omega)]

theorem rt_down8 (v : M256) {b p : Nat} (hb : b < 32) (hp : p < 32) :
    lane256 8 p (TableLookupLanes8 v (blk2 por (Iota 8 (BitVec.ofNat 8 b))
      (blk2 (cmpgt 8) (Iota 8 (BitVec.ofNat 8 b)) (dup128 (set 8 31#8))))) = if p + b < 32 then lane256 8 (p + b) v else 0#8 := by
  generalize hI : Iota 8 (BitVec.ofNat 8 b) = I
  have eI : lane256 8 p I = BitVec.ofNat 8 (p + b) := by
    rw [← hI, lane_IotaQ (by simp [Width]) _ hp]
    apply BitVec.eq_of_toNat_eq
    simp only [BitVec.toNat_add, BitVec.toNat_ofNat]; omega
  have key : ∀ (x : M128) (q : Nat), q < 16 → lane 8 q x = BitVec.ofNat 8 (p + b) →
      (lane 8 q (por x (cmpgt 8 x (set 8 31#8)))).toNat = if p + b < 32 then p + b else 255 := by
    intro x q hq hx
    have hr : InReg 8 q := ⟨by omega, by omega⟩
    have h1 : lane 8 q (por x (cmpgt 8 x (set 8 31#8))) = lane 8 q x ||| lane 8 q (cmpgt 8 x (set 8 31#8)) := lane_Or _ _ _ _
    have h2 : lane 8 q (cmpgt 8 x (set 8 31#8)) = if (31#8).toInt < (lane 8 q x).toInt then BitVec.allOnes 8 else 0#8 := by
      unfold cmpgt; rw [lane_map2 hr, lane_set hr]
    rw [h1, h2, hx]
    clear h1 h2 hx eI hI
    have : p + b < 63 := by omega
    generalize p + b = n at *
    interval_cases n <;> decide +kernel
  have e : (lane256 8 p (blk2 por I (blk2 (cmpgt 8) I (dup128 (set 8 31#8))))).toNat = if p + b < 32 then p + b else 255 := by
    by_cases hc : p < 128 / 8
    · rw [lane256_lo hc] at eI ⊢
      exact key _ _ hc eI
    · rw [lane256_hi hc] at eI ⊢
      exact key _ _ (by simp only [Nat.reduceDiv] at *; omega) eI
  rw [tl8_byte v _ hp e]
  by_cases c : p + b < 32
  · simp only [if_pos c]; rw [if_pos (by omega), Nat.mod_eq_of_lt c]
  · simp only [if_neg c]; rw [if_neg (by omega)]

/-- The 32-bit lookups: the lanes whose index is out of range are zeroed. -/
theorem rt32 (v idx : M256) {i : Nat} (hi : i < 8) :
    lane256 32 i (blk2 pand (TableLookupLanes 32 v (IndicesFromVec 32 (blk2 pand idx (dup128 (set 32 7#32)))))
      (blk2 (cmpeq 32) idx (blk2 pand idx (dup128 (set 32 7#32))))) =
      if (lane256 32 i idx).toNat < 8 then lane256 32 (lane256 32 i idx).toNat v else 0#32 := by
  generalize hM : blk2 pand idx (dup128 (set 32 7#32)) = M
  have eM : lane256 32 i M = lane256 32 i idx &&& 7#32 := by
    rw [← hM]
    unfold blk2 dup128 lane256
    by_cases hc : i < 128 / 32
    · simp only [if_pos hc]
      rw [show lane 32 i (pand idx.lo (set 32 7#32)) = lane 32 i idx.lo &&& lane 32 i (set 32 7#32) from lane_And _ _ _ _,
        lane_set (w := 32) (i := i) ⟨by omega, by omega⟩ 7#32]
    · simp only [if_neg hc]
      rw [show lane 32 (i - 128 / 32) (pand idx.hi (set 32 7#32)) = lane 32 (i - 128 / 32) idx.hi &&& lane 32 (i - 128 / 32) (set 32 7#32)
        from lane_And _ _ _ _,
        lane_set (w := 32) (i := i - 128 / 32) ⟨by omega, by simp only [Nat.reduceDiv] at *; omega⟩ 7#32]
  have nM : (lane256 32 i M).toNat = (lane256 32 i idx).toNat % 8 := by
    rw [eM, BitVec.toNat_and]; exact Nat.and_two_pow_sub_one_eq_mod _ 3
  have eL := C73_tableLookupLanes (w := 32) (by simp [Width]) v M (i := i) (by omega) (by omega)
  rw [nM] at eL
  have eC : lane256 32 i (blk2 (cmpeq 32) idx M) = if lane256 32 i idx = lane256 32 i M then BitVec.allOnes 32 else 0#32 :=
    lane256_map2 (by omega) (by omega) _ _ _
  have eA : ∀ x y : M256, lane256 32 i (blk2 pand x y) = lane256 32 i x &&& lane256 32 i y := by
    intro x y
    unfold blk2 lane256
    by_cases hc : i < 128 / 32
    · simp only [if_pos hc]; exact lane_And _ _ _ _
    · simp only [if_neg hc]; exact lane_And _ _ _ _
  rw [eA, eL, eC]
  by_cases c : (lane256 32 i idx).toNat < 8
  · rw [if_pos c, if_pos (BitVec.eq_of_toNat_eq (by rw [nM]; omega)), Nat.mod_eq_of_lt c, BitVec.and_allOnes]
  · rw [if_neg c, if_neg (fun hc => c (by have := congrArg BitVec.toNat hc; rw [nM] at this; omega))]; simp

theorem rt_up32 (v : M256) {amt i : Nat} (ha : amt < 8) (hi : i < 8) :
    lane256 32 i (TableLookupSlideUpLanes32 v amt) = if amt ≤ i then lane256 32 (i - amt) v else 0#32 := by
  have e : (lane256 32 i (Iota 32 (BitVec.ofInt 32 (0 - (amt : Int))))).toNat = if amt ≤ i then i - amt else 2 ^ 32 + i - amt := by
    rw [lane_IotaQ (by simp [Width]) _ (by omega), BitVec.toNat_add, BitVec.toNat_ofNat, BitVec.toNat_ofInt]
    split <;> omega
  unfold TableLookupSlideUpLanes32
  rw [rt32 _ _ hi, e]
  by_cases c : amt ≤ i
  · simp only [if_pos c]; rw [if_pos (by omega)]
  · simp only [if_neg c]; rw [if_neg (by omega)]

theorem rt_down32 (v : M256) {amt i : Nat} (ha : amt < 8) (hi : i < 8) :
    lane256 32 i (TableLookupSlideDownLanes32 v amt) = if i + amt < 8 then lane256 32 (i + amt) v else 0#32 := by
  have e : (lane256 32 i (Iota 32 (BitVec.ofNat 32 amt))).toNat = i + amt := by
    rw [lane_IotaQ (by simp [Width]) _ (by omega), BitVec.toNat_add, BitVec.toNat_ofNat, BitVec.toNat_ofNat]
    omega
  unfold TableLookupSlideDownLanes32
  rw [rt32 _ _ hi, e]

/-- `SlideUpLanes` when nothing is known about the distance. -/
theorem rt_up {w : Nat} (hw : Width w) (v : M256) {amt i : Nat} (ha : amt < 256 / w) (h : i < 256 / w) :
    lane256 w i (TableLookupSlideUpLanes w v amt) = if amt ≤ i then lane256 w (i - amt) v else 0#w := by
  unfold TableLookupSlideUpLanes TableLookupLanes
  rcases hw with rfl | rfl | rfl | rfl
  · rw [if_pos (by omega), if_pos (by omega)]
    exact up_bytes (m := 1) rfl (by decide) (fun p hp => rt_up8 v (by omega) hp) h
  · rw [if_pos (by omega), if_pos (by omega)]
    exact up_bytes (m := 2) rfl (by decide) (fun p hp => rt_up8 v (by omega) hp) h
  · rw [if_neg (by omega), if_pos rfl]
    exact rt_up32 v ha h
  · rw [if_neg (by omega), if_neg (by omega)]
    simp only [Nat.reduceDiv] at ha h
    apply lane64_halves
    intro j hj
    rw [half256 hj, rt_up32 v (by omega) (by omega)]
    by_cases c : amt ≤ i
    · rw [if_pos c, if_pos (by omega), half256 hj]; congr 1; omega
    · rw [if_neg c, if_neg (by omega)]; apply BitVec.eq_of_toNat_eq; simp

/-- `SlideDownLanes` when nothing is known about the distance. -/
theorem rt_down {w : Nat} (hw : Width w) (v : M256) {amt i : Nat} (ha : amt < 256 / w) (h : i < 256 / w) :
    lane256 w i (TableLookupSlideDownLanes w v amt) = if i + amt < 256 / w then lane256 w (i + amt) v else 0#w := by
  unfold TableLookupSlideDownLanes TableLookupLanes
  dsimp only
  rcases hw with rfl | rfl | rfl | rfl
  · rw [if_pos (by omega), if_pos (by omega)]
    exact down_bytes (m := 1) rfl (by decide) (fun p hp => rt_down8 v (by omega) hp) h
  · rw [if_pos (by omega), if_pos (by omega)]
    exact down_bytes (m := 2) rfl (by decide) (fun p hp => rt_down8 v (by omega) hp) h
  · rw [if_neg (by omega), if_pos rfl]
    exact rt_down32 v ha h
  · rw [if_neg (by omega), if_neg (by omega)]
    simp only [Nat.reduceDiv] at ha h ⊢
    apply lane64_halves
    intro j hj
    rw [half256 hj, rt_down32 v (by omega) (by omega)]
    by_cases c : i + amt < 4
    · rw [if_pos c, if_pos (by omega), half256 hj]; congr 1; omega
    · rw [if_neg c, if_neg (by omega)]; apply BitVec.eq_of_toNat_eq; simp

/-! ## The constant paths -/

theorem const_i64_up {k : Nat} (hk : k = 1 ∨ k = 3) (v : M256) {i : Nat} (h : i < 32) :
    lane256 8 i (SlideUpI64Lanes false k v) = if k * 8 ≤ i then lane256 8 (i - k * 8) v else 0#8 := by
  have h' : i < 256 / 8 := h
  rcases hk with rfl | rfl <;> qstat <;> qleaf0 h'
theorem const_i64_down {k : Nat} (hk : k = 1 ∨ k = 3) (v : M256) {i : Nat} (h : i < 32) :
    lane256 8 i (SlideDownI64Lanes false k v) = if i + k * 8 < 32 then lane256 8 (i + k * 8) v else 0#8 := by
  have h' : i < 256 / 8 := h
  rcases hk with rfl | rfl <;> qstat <;> qleaf0 h'
theorem const_up {b : Nat} (hb : b < 16) (v : M256) {i : Nat} (h : i < 32) :
    lane256 8 i (CombineShiftRightBytes (16 - b) v (ConcatLowerLower v zero256)) = if b ≤ i then lane256 8 (i - b) v else 0#8 := by
  have h' : i < 256 / 8 := h
  interval_cases b <;> qstat <;> qleaf0 h'
theorem const_down {b : Nat} (hb : b < 16) (v : M256) {i : Nat} (h : i < 32) :
    lane256 8 i (CombineShiftRightBytes b (ZeroExtendVector (UpperHalf v)) v) = if i + b < 32 then lane256 8 (i + b) v else 0#8 := by
  have h' : i < 256 / 8 := h
  interval_cases b <;> qstat <;> qleaf0 h'
theorem const_up16 (v : M256) {i : Nat} (h : i < 32) :
    lane256 8 i (ConcatLowerLower v zero256) = if 16 ≤ i then lane256 8 (i - 16) v else 0#8 := by
  have h' : i < 256 / 8 := h
  qstat; qleaf0 h'
theorem const_down16 (v : M256) {i : Nat} (h : i < 32) :
    lane256 8 i (ZeroExtendVector (UpperHalf v)) = if i + 16 < 32 then lane256 8 (i + 16) v else 0#8 := by
  have h' : i < 256 / 8 := h
  qstat; qleaf0 h'

/-- `SlideUpLanes(d, v, amt)`: every lane moves up by `amt`, zeros enter below; whatever the compiler knows about `amt`. -/
theorem C73_slideUpLanes (isConst isConstGe isConst128 : Bool) {w : Nat} (hw : Width w) (v : M256) {amt : Nat} (ha : amt < 256 / w)
    {i : Nat} (h : i < 256 / w) :
    lane256 w i (SlideUpLanes isConst isConstGe isConst128 w v amt) = if amt ≤ i then lane256 w (i - amt) v else 0#w := by
  have hwm : w = 8 * (w / 8) := by rcases hw with rfl | rfl | rfl | rfl <;> rfl
  have hd : w / 8 = 1 ∨ w / 8 = 2 ∨ w / 8 = 4 ∨ w / 8 = 8 := by rcases hw with rfl | rfl | rfl | rfl <;> simp
  unfold SlideUpLanes
  dsimp only
  split
  · rename_i c
    have : amt = 0 := by rcases hw with rfl | rfl | rfl | rfl <;> omega
    subst this; simp
  split
  · rename_i c; exact up_bytes hwm hd (fun p hp => by rw [c.2, const_i64_up (Or.inl rfl) v hp]) h
  split
  · rename_i c; exact up_bytes hwm hd (fun p hp => const_up c.2 v hp) h
  split
  · rename_i c; exact up_bytes hwm hd (fun p hp => by rw [c.2, const_up16 v hp]) h
  split
  · rename_i c; exact up_bytes hwm hd (fun p hp => by rw [c.2, const_i64_up (Or.inr rfl) v hp]) h
  split
  · rename_i c
    have hs : Shape w 16 := by rcases hw with rfl | rfl | rfl | rfl <;> simp [Shape]
    have hL : 16 / (w / 8) = 128 / w := by rcases hw with rfl | rfl | rfl | rfl <;> rfl
    have h2 : 256 / w = 2 * (128 / w) := by rcases hw with rfl | rfl | rfl | rfl <;> rfl
    rw [hL] at c ⊢
    by_cases hb : i < 128 / w
    · rw [lane256_lo hb, if_neg (by omega)]
      unfold Combine inserti128 ZeroExtendVector; simp only [inserti128]
      exact lane_zero' w i
    · rw [lane256_hi hb]
      have := C66_slideUpLanes .avx2 isConst128 hs (LowerHalf v) (amt := amt - 128 / w) (i := i - 128 / w)
        (by unfold Lanes; omega) (by unfold Lanes; omega)
      unfold Combine inserti128
      rw [if_neg (by decide)]
      rw [this]
      by_cases c' : amt ≤ i
      · rw [if_pos c', if_pos (by omega), lane256_lo (by omega), show i - 128 / w - (amt - 128 / w) = i - amt by omega]; rfl
      · rw [if_neg c', if_neg (by omega)]
  · exact rt_up hw v ha h

/-- `SlideDownLanes(d, v, amt)`: every lane moves down by `amt`, zeros enter above; whatever the compiler knows about `amt`. -/
theorem C73_slideDownLanes (isConst isConstGe isConst128 : Bool) {w : Nat} (hw : Width w) (v : M256) {amt : Nat} (ha : amt < 256 / w)
    {i : Nat} (h : i < 256 / w) :
    lane256 w i (SlideDownLanes isConst isConstGe isConst128 w v amt) = if i + amt < 256 / w then lane256 w (i + amt) v else 0#w := by
  have hwm : w = 8 * (w / 8) := by rcases hw with rfl | rfl | rfl | rfl <;> rfl
  have hd : w / 8 = 1 ∨ w / 8 = 2 ∨ w / 8 = 4 ∨ w / 8 = 8 := by rcases hw with rfl | rfl | rfl | rfl <;> simp
  unfold SlideDownLanes
  dsimp only
  split
  · rename_i c
    have : amt = 0 := by rcases hw with rfl | rfl | rfl | rfl <;> omega
    subst this; rw [Nat.add_zero, if_pos h]
  split
  · rename_i c; exact down_bytes hwm hd (fun p hp => by rw [c.2, const_i64_down (Or.inl rfl) v hp]) h
  split
  · rename_i c; exact down_bytes hwm hd (fun p hp => const_down c.2 v hp) h
  split
  · rename_i c; exact down_bytes hwm hd (fun p hp => by rw [c.2, const_down16 v hp]) h
  split
  · rename_i c; exact down_bytes hwm hd (fun p hp => by rw [c.2, const_i64_down (Or.inr rfl) v hp]) h
  split
  · rename_i c
    have hs : Shape w 16 := by rcases hw with rfl | rfl | rfl | rfl <;> simp [Shape]
    have hL : 16 / (w / 8) = 128 / w := by rcases hw with rfl | rfl | rfl | rfl <;> rfl
    have h2 : 256 / w = 2 * (128 / w) := by rcases hw with rfl | rfl | rfl | rfl <;> rfl
    have hLL : Lanes w 16 = 128 / w := hL
    rw [hL] at c ⊢
    by_cases hb : i < 128 / w
    · rw [lane256_lo hb]
      have := C66_slideDownLanes .avx2 isConst128 hs (UpperHalf v) (amt := amt - 128 / w) (i := i)
        (by unfold Lanes; omega) (by unfold Lanes; omega)
      unfold ZeroExtendVector inserti128
      rw [if_pos (by decide)]
      rw [this, hLL]
      by_cases c' : i + amt < 256 / w
      · rw [if_pos c', if_pos (by omega), lane256_hi (by omega), show i + (amt - 128 / w) = i + amt - 128 / w by omega]; rfl
      · rw [if_neg c', if_neg (by omega)]
    · rw [lane256_hi hb, if_neg (by omega)]
      unfold ZeroExtendVector inserti128
      rw [if_pos (by decide)]
      exact lane_zero' w _
  · exact rt_down hw v ha h

end Hwy.X86.V256
