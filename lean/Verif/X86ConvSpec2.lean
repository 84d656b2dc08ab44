import Verif.X86ConvSpec

/-!
# C65: demotions of the x86 128-bit targets

`DemoteTo` saturates to the range of the narrower lane type, `TruncateTo` keeps the lower bits.
-/

namespace Hwy.X86

theorem lane_packs_lo {w i : Nat} (hw : w = 16 ∨ w = 32) (a b : M128) (h : i < 128 / w) :
    lane (w / 2) i (packs w a b) = BitVec.ofInt (w / 2) (clampI (w / 2) (lane w i a).toInt) := by
  unfold packs
  rw [lane_mk (by omega) (by rcases hw with rfl | rfl <;> omega), if_pos h]
theorem lane_packs_hi {w i : Nat} (hw : w = 16 ∨ w = 32) (a b : M128) (h : i < 128 / w) :
    lane (w / 2) (128 / w + i) (packs w a b) = BitVec.ofInt (w / 2) (clampI (w / 2) (lane w i b).toInt) := by
  unfold packs
  rw [lane_mk (by omega) (by rcases hw with rfl | rfl <;> omega), if_neg (by omega), Nat.add_sub_cancel_left]
theorem lane_packus_lo {w i : Nat} (hw : w = 16 ∨ w = 32) (a b : M128) (h : i < 128 / w) :
    lane (w / 2) i (packus w a b) = BitVec.ofInt (w / 2) (max 0 (min (lane w i a).toInt (2 ^ (w / 2) - 1))) := by
  unfold packus
  rw [lane_mk (by omega) (by rcases hw with rfl | rfl <;> omega), if_pos h]
theorem lane_packus_hi {w i : Nat} (hw : w = 16 ∨ w = 32) (a b : M128) (h : i < 128 / w) :
    lane (w / 2) (128 / w + i) (packus w a b) = BitVec.ofInt (w / 2) (max 0 (min (lane w i b).toInt (2 ^ (w / 2) - 1))) := by
  unfold packus
  rw [lane_mk (by omega) (by rcases hw with rfl | rfl <;> omega), if_neg (by omega), Nat.add_sub_cancel_left]

/-- The saturated value `z` as a lane of `n` bits. -/
def satLane (signed : Bool) (n : Nat) (z : Int) : BitVec n := BitVec.ofInt n (max (lo signed n) (min z (hi signed n)))

theorem toNat_satLane (s : Bool) {n : Nat} (z : Int) :
    (satLane s n z).toNat = (max (lo s n) (min z (hi s n)) % ((2 ^ n : Nat) : Int)).toNat := BitVec.toNat_ofInt _

/-- Its value: the nearest value of the lane type. -/
theorem val_satLane (s : Bool) {n : Nat} (hn : NarrowW n) (z : Int) :
    val s (satLane s n z) = max (lo s n) (min z (hi s n)) := by
  unfold satLane val lo hi
  rcases hn with rfl | rfl | rfl <;> cases s <;>
    simp only [Bool.false_eq_true, if_false, if_true, Nat.reduceSub, Int.reducePow, Int.reduceSub, Int.reduceNeg,
      BitVec.toNat_ofInt, BitVec.toInt_ofInt, Int.bmod_def, Nat.reducePow] <;> omega

theorem clampI_eq (n : Nat) (z : Int) : BitVec.ofInt n (clampI n z) = satLane true n z := rfl
theorem clampU_eq (n : Nat) (z : Int) : BitVec.ofInt n (max 0 (min z (2 ^ n - 1))) = satLane false n z := rfl

theorem val_range (s : Bool) {n : Nat} (hn : NarrowW n) (x : BitVec n) : lo s n ≤ val s x ∧ val s x ≤ hi s n := by
  have hx := x.isLt
  have h1 := BitVec.toInt_lt (x := x)
  have h2 := BitVec.le_toInt (x := x)
  unfold val lo hi
  rcases hn with rfl | rfl | rfl <;> cases s <;> simp at * <;> omega

theorem satLane_congr {s : Bool} {n : Nat} {y z : Int}
    (h : max (lo s n) (min y (hi s n)) = max (lo s n) (min z (hi s n))) : satLane s n y = satLane s n z := by
  unfold satLane; rw [h]

/-- Saturating twice. -/
theorem satLane_of_val {s s' : Bool} {n f : Nat} (y : Int) (hf : NarrowW f) (h : satLane s n (max (lo s' f) (min y (hi s' f))) = satLane s n y) :
    satLane s n (val s' (satLane s' f y)) = satLane s n y := by
  rw [val_satLane s' hf]; exact h

theorem demoteI32I16 (v : M128) {i : Nat} (h : i < 4) :
    lane 16 i (DemoteI32I16 v) = satLane true 16 (val true (lane 32 i v)) := lane_packs_lo (Or.inr rfl) v v h
theorem demoteI16U8 (v : M128) {i : Nat} (h : i < 8) :
    lane 8 i (DemoteI16U8 v) = satLane false 8 (val true (lane 16 i v)) := lane_packus_lo (Or.inl rfl) v v h
theorem demoteI16I8 (v : M128) {i : Nat} (h : i < 8) :
    lane 8 i (DemoteI16I8 v) = satLane true 8 (val true (lane 16 i v)) := lane_packs_lo (Or.inl rfl) v v h
theorem demoteI32U8 (v : M128) {i : Nat} (h : i < 4) :
    lane 8 i (DemoteI32U8 v) = satLane false 8 (val true (lane 32 i v)) := by
  refine (demoteI16U8 _ (by omega)).trans ?_
  rw [show lane 16 i (packs 32 v v) = _ from demoteI32I16 v h]
  apply satLane_of_val _ (Or.inr (Or.inl rfl))
  apply satLane_congr; simp only [lo, hi, if_true, if_false, Bool.false_eq_true]; omega
theorem demoteI32I8 (v : M128) {i : Nat} (h : i < 4) :
    lane 8 i (DemoteI32I8 v) = satLane true 8 (val true (lane 32 i v)) := by
  refine (demoteI16I8 _ (by omega)).trans ?_
  rw [show lane 16 i (packs 32 v v) = _ from demoteI32I16 v h]
  apply satLane_of_val _ (Or.inr (Or.inl rfl))
  apply satLane_congr; simp only [lo, hi, if_true]; omega

/-- The two ways of keeping the lower halves of 32-bit lanes. -/
theorem low16 (X : M128) {i : Nat} (h : i < 4) :
    lane 16 i (DemoteI32I16 (ShiftRightI .sse2 32 16 (ShiftLeft 32 16 X))) = lane 16 (2 * i) X ∧
    lane 16 i (TableLookupBytes .ssse3 X kLower2Bytes) = lane 16 (2 * i) X := by
  constructor
  · unfold DemoteI32I16; stat; leaf1 h
  · unfold kLower2Bytes; leaf1 h

theorem low16_sat (s : Bool) {X : M128} {i : Nat} {z : Int}
    (e : (lane 32 i X).extractLsb' 0 16 = satLane s 16 z) : lane 16 (2 * i) X = satLane s 16 z := by
  rw [← e]; exact lane_sub 16 2 i 0 (by omega) X

theorem and_allOnes' {w : Nat} (x : BitVec w) : ~~~(0#w) &&& x = x := by simp
theorem lane_signfill (t : Tgt) {i : Nat} (h : i < 4) (v : M128) :
    lane 32 i (ShiftRightI t 32 31 v) = if (lane 32 i v).toInt < 0 then BitVec.allOnes 32 else 0#32 := by
  rw [C62_shiftRight_signed t ⟨by omega, by omega⟩ _ 31 (by omega)]; exact sar31 _

theorem clampedI (t : Tgt) (v : M128) {i : Nat} (h : i < 4) :
    (lane 32 i (Or (AndNot (ShiftRightI t 32 31 v) v) (Gt t true 32 v (set 32 0xFFFF#32)))).extractLsb' 0 16
      = satLane false 16 (val true (lane 32 i v)) := by
  have hr : InReg 32 i := ⟨by omega, by omega⟩
  rw [lane_Or, lane_AndNot hr, lane_signfill t h, C62_gt t true hr, lane_set hr]
  generalize lane 32 i v = x
  have hx := BitVec.toInt_lt (x := x)
  have hx2 := BitVec.le_toInt (x := x)
  have hc : val true (0xFFFF#32) = 65535 := by decide
  rw [hc]
  apply BitVec.eq_of_toNat_eq
  unfold satLane maskLane lo hi val
  simp only [if_true, if_false, Bool.false_eq_true, BitVec.extractLsb'_toNat, Nat.shiftRight_zero, BitVec.toNat_ofInt]
  by_cases h0 : x.toInt < 0
  · rw [if_pos h0, if_neg (by omega)]; simp; omega
  · rw [if_neg h0]
    by_cases h1 : 65535 < x.toInt
    · rw [if_pos h1, BitVec.or_allOnes, BitVec.toNat_allOnes]; omega
    · rw [if_neg h1, and_allOnes', BitVec.or_zero]
      rcases toInt_cases x with ⟨h2, _⟩ | ⟨_, h3⟩
      · exact absurd h2 h0
      · omega

theorem clampedU (t : Tgt) (v : M128) {i : Nat} (h : i < 4) :
    (lane 32 i (Or v (Gt t true 32 (ShiftRightU 32 16 v) zero))).extractLsb' 0 16
      = satLane false 16 (val false (lane 32 i v)) := by
  have hr : InReg 32 i := ⟨by omega, by omega⟩
  rw [lane_Or, C62_gt t true hr, lane_zero', C62_shiftRight_unsigned hr _ 16 (by omega)]
  generalize lane 32 i v = x
  have hx := x.isLt
  have h1 : (x >>> 16).toNat = x.toNat / 65536 := by rw [BitVec.toNat_ushiftRight, Nat.shiftRight_eq_div_pow]
  have hc : val true (0#32) = 0 := by decide
  have h2 : val true (x >>> 16) = ((x.toNat / 65536 : Nat) : Int) := by
    unfold val; simp only [if_true]
    rw [BitVec.toInt_eq_toNat_cond, h1, if_pos (by omega)]
  rw [hc, h2]
  apply BitVec.eq_of_toNat_eq
  unfold satLane maskLane lo hi val
  simp only [if_false, Bool.false_eq_true, BitVec.extractLsb'_toNat, Nat.shiftRight_zero, BitVec.toNat_ofInt]
  by_cases h1 : x.toNat < 65536
  · rw [if_neg (by omega), BitVec.or_zero]; omega
  · rw [if_pos (by omega), BitVec.or_allOnes]; simp; omega

theorem demoteI32U16 (t : Tgt) (v : M128) {i : Nat} (h : i < 4) :
    lane 16 i (DemoteI32U16 t v) = satLane false 16 (val true (lane 32 i v)) := by
  unfold DemoteI32U16
  cases t <;> statc
  · exact lane_packus_lo (Or.inr rfl) v v h
  · exact lane_packus_lo (Or.inr rfl) v v h
  · rw [(low16 _ h).2]; exact low16_sat false (clampedI _ v h)
  · rw [(low16 _ h).1]; exact low16_sat false (clampedI _ v h)

theorem val_min_u32 (t : Tgt) (v : M128) {i : Nat} (h : i < 4) :
    val true (lane 32 i (MinU t 32 v (set 32 0x7FFFFFFF#32))) = min (val false (lane 32 i v)) 2147483647 := by
  have hr : InReg 32 i := ⟨by omega, by omega⟩
  have e := (C62_min t hr v (set 32 0x7FFFFFFF#32)).1
  rw [lane_set hr, show val false (0x7FFFFFFF#32) = 2147483647 by decide] at e
  rw [← e]
  unfold val at *
  simp only [if_true, if_false, Bool.false_eq_true] at *
  rw [BitVec.toInt_eq_toNat_cond, if_pos (by omega)]

theorem demoteU32U16 (t : Tgt) (v : M128) {i : Nat} (h : i < 4) :
    lane 16 i (DemoteU32U16 t v) = satLane false 16 (val false (lane 32 i v)) := by
  unfold DemoteU32U16
  have hb : ∀ t', lane 16 i (DemoteI32U16 t' (MinU t' 32 v (set 32 0x7FFFFFFF#32))) = satLane false 16 (val false (lane 32 i v)) := by
    intro t'
    rw [demoteI32U16 t' _ h, val_min_u32 t' v h]
    apply satLane_congr; simp only [lo, hi, if_false, Bool.false_eq_true]; omega
  cases t <;> statc
  · exact hb _
  · exact hb _
  · rw [(low16 _ h).2]; exact low16_sat false (clampedU _ v h)
  · rw [(low16 _ h).1]; exact low16_sat false (clampedU _ v h)

/-! ### Unsigned 32- and 16-bit lanes to bytes -/

theorem toNat_bytes4 (x : BitVec 32) : x.toNat = (x.extractLsb' 0 8).toNat + 2 ^ 8 * (x.extractLsb' 8 8).toNat
    + 2 ^ 16 * (x.extractLsb' 16 8).toNat + 2 ^ 24 * (x.extractLsb' 24 8).toNat := by
  simp only [BitVec.extractLsb'_toNat, Nat.shiftRight_eq_div_pow]
  have := x.isLt
  omega

theorem min_byte_keep (t : Tgt) (v c : M128) {k : Nat} (h : k < 16) (hc : (lane 8 k c).toNat = 255) :
    lane 8 k (MinU t 8 v c) = lane 8 k v := by
  rw [lane_MinU t ⟨by omega, by omega⟩, hc]
  split
  · rfl
  · apply BitVec.eq_of_toNat_eq; have := (lane 8 k v).isLt; omega

theorem byte32 (i j : Nat) (hj : j < 4) (r : M128) : (lane 32 i r).extractLsb' (8 * j) 8 = lane 8 (4 * i + j) r :=
  (lane_sub 8 4 i j hj r).symm
theorem byte16 (i j : Nat) (hj : j < 2) (r : M128) : (lane 16 i r).extractLsb' (8 * j) 8 = lane 8 (2 * i + j) r :=
  (lane_sub 8 2 i j hj r).symm

/-- The clamped value is the value itself, or both are too big. -/
theorem clampU32 (t : Tgt) (v : M128) {i : Nat} (h : i < 4) :
    val true (lane 32 i (ClampU32 t v)) = val false (lane 32 i v) ∨
      (65536 ≤ val true (lane 32 i (ClampU32 t v)) ∧ 65536 ≤ val false (lane 32 i v)) := by
  unfold ClampU32
  by_cases ht : t.val ≥ HWY_SSSE3
  · rw [if_pos ht]
    have hr : InReg 32 i := ⟨by omega, by omega⟩
    have cb : ∀ j, j < 4 → (lane 8 (4 * i + j) (set 32 0x7FFFFFFF#32)).toNat = if j = 3 then 127 else 255 := by
      intro j hj
      rw [← byte32 i j hj, lane_set hr]
      clear h hr
      revert j; decide
    have hk : ∀ j, j < 3 → lane 8 (4 * i + j) (MinU t 8 v (set 32 0x7FFFFFFF#32)) = lane 8 (4 * i + j) v := by
      intro j hj
      apply min_byte_keep t v _ (by omega)
      rw [cb j (by omega), if_neg (by omega)]
    have h3 := (C62_min t (w := 8) (i := 4 * i + 3) ⟨by omega, by omega⟩ v (set 32 0x7FFFFFFF#32)).1
    have e1 := toNat_bytes4 (lane 32 i (MinU t 8 v (set 32 0x7FFFFFFF#32)))
    have e2 := toNat_bytes4 (lane 32 i v)
    have b := fun r j hj => byte32 i j hj r
    have b0 := fun r => b r 0 (by omega)
    have b1 := fun r => b r 1 (by omega)
    have b2 := fun r => b r 2 (by omega)
    have b3 := fun r => b r 3 (by omega)
    simp only [Nat.mul_zero, Nat.mul_one, Nat.reduceMul] at b0 b1 b2 b3
    rw [b0, b1, b2, b3, hk 0 (by omega), hk 1 (by omega), hk 2 (by omega)] at e1
    rw [b0, b1, b2, b3] at e2
    have h4 := cb 3 (by omega)
    rw [if_pos rfl] at h4
    have g := fun j => (lane 8 (4 * i + j) v).isLt
    have g0 := g 0; have g1 := g 1; have g2 := g 2; have g3 := g 3
    unfold val at *
    simp only [if_true, if_false, Bool.false_eq_true] at *
    rw [BitVec.toInt_eq_toNat_cond, if_pos (by omega)]
    omega
  · rw [if_neg ht, val_min_u32 t v h]; omega

theorem demoteU32U8 (t : Tgt) (v : M128) {i : Nat} (h : i < 4) :
    lane 8 i (DemoteU32U8 t v) = satLane false 8 (val false (lane 32 i v)) := by
  refine (demoteI32U8 _ h).trans ?_
  have := clampU32 t v h
  apply satLane_congr; simp only [lo, hi, if_false, Bool.false_eq_true]; omega

theorem toNat_bytes2 (x : BitVec 16) : x.toNat = (x.extractLsb' 0 8).toNat + 2 ^ 8 * (x.extractLsb' 8 8).toNat := by
  simp only [BitVec.extractLsb'_toNat, Nat.shiftRight_eq_div_pow]
  have := x.isLt
  omega

theorem clampU16 (t : Tgt) (v : M128) {i : Nat} (h : i < 8) :
    val true (lane 16 i (ClampU16 t v)) = val false (lane 16 i v) ∨
      (256 ≤ val true (lane 16 i (ClampU16 t v)) ∧ 256 ≤ val false (lane 16 i v)) := by
  have hr : InReg 16 i := ⟨by omega, by omega⟩
  unfold ClampU16
  by_cases ht : t.val ≥ HWY_SSSE3
  · rw [if_pos ht]
    have cb : ∀ j, j < 2 → (lane 8 (2 * i + j) (set 16 0x7FFF#16)).toNat = if j = 1 then 127 else 255 := by
      intro j hj
      rw [← byte16 i j hj, lane_set hr]
      clear h hr
      revert j; decide
    have hk : lane 8 (2 * i + 0) (MinU t 8 v (set 16 0x7FFF#16)) = lane 8 (2 * i + 0) v := by
      apply min_byte_keep t v _ (by omega)
      rw [cb 0 (by omega), if_neg (by omega)]
    have h3 := (C62_min t (w := 8) (i := 2 * i + 1) ⟨by omega, by omega⟩ v (set 16 0x7FFF#16)).1
    have e1 := toNat_bytes2 (lane 16 i (MinU t 8 v (set 16 0x7FFF#16)))
    have e2 := toNat_bytes2 (lane 16 i v)
    have b := fun r j hj => byte16 i j hj r
    have b0 := fun r => b r 0 (by omega)
    have b1 := fun r => b r 1 (by omega)
    simp only [Nat.mul_zero, Nat.mul_one] at b0 b1
    rw [b0, b1, hk] at e1
    rw [b0, b1] at e2
    have h4 := cb 1 (by omega)
    rw [if_pos rfl] at h4
    have g := fun j => (lane 8 (2 * i + j) v).isLt
    have g0 := g 0; have g1 := g 1
    unfold val at *
    simp only [if_true, if_false, Bool.false_eq_true] at *
    rw [BitVec.toInt_eq_toNat_cond, if_pos (by omega)]
    omega
  · rw [if_neg ht]
    have e := (C62_min t hr v (set 16 0x7FFF#16)).1
    rw [lane_set hr, show val false (0x7FFF#16) = 32767 by decide] at e
    unfold val at *
    simp only [if_true, if_false, Bool.false_eq_true] at *
    rw [BitVec.toInt_eq_toNat_cond, if_pos (by omega)]
    omega

theorem demoteU16U8 (t : Tgt) (v : M128) {i : Nat} (h : i < 8) :
    lane 8 i (DemoteU16U8 t v) = satLane false 8 (val false (lane 16 i v)) := by
  refine (demoteI16U8 _ h).trans ?_
  have := clampU16 t v h
  apply satLane_congr; simp only [lo, hi, if_false, Bool.false_eq_true]; omega

/-- The pairs of lane widths `DemoteTo` accepts. -/
def Narrows (f n : Nat) : Prop := Widens n f

theorem demoteFromI (t : Tgt) (s : Bool) {f n : Nat} (hp : Narrows f n) (hf : f ≤ 32) (v : M128) {i : Nat} (h : i < 128 / f) :
    lane n i (DemoteFromI t f s n v) = satLane s n (val true (lane f i v)) := by
  unfold DemoteFromI
  rcases hp with ⟨rfl, (rfl | rfl | rfl)⟩ | ⟨rfl, (rfl | rfl)⟩ | ⟨rfl, rfl⟩ <;>
    first
    | omega
    | (cases s <;> simp only [Nat.reduceEqDiff, reduceIte, Bool.false_eq_true] <;>
       first | exact demoteI16U8 v h | exact demoteI16I8 v h | exact demoteI32U8 v h | exact demoteI32I8 v h
             | exact demoteI32U16 t v h | exact demoteI32I16 v h)

/-- The unsigned minimum with the largest signed value corrects a signed saturation. -/
theorem min_intMax (t : Tgt) {f n : Nat} (hp : Narrows f n) (hf : f ≤ 32) (R : M128) {i : Nat} (x : BitVec f)
    (hr : InReg n i) (e : lane n i R = satLane true n (val true x)) :
    lane n i (MinU t n R (set n (BitVec.intMax n))) = satLane true n (val false x) := by
  have hx := x.isLt
  have hc := toInt_cases x
  have hl := BitVec.le_toInt (x := x)
  rw [lane_MinU t hr, lane_set hr, e]
  have hv : val false x = x.toNat := rfl
  have hv2 : val true x = x.toInt := rfl
  rw [hv, hv2]
  have e1 := toNat_satLane true (n := n) x.toInt
  have e2 := toNat_satLane true (n := n) (x.toNat : Int)
  rcases hp with ⟨rfl, (rfl | rfl | rfl)⟩ | ⟨rfl, (rfl | rfl)⟩ | ⟨rfl, rfl⟩ <;>
    first
    | omega
    | (simp only [lo, hi, if_true, Nat.reduceSub, Int.reducePow, Int.reduceSub, Int.reduceNeg, Nat.reducePow] at e1 e2
       simp only [Nat.reducePow, Int.reducePow, Nat.reduceSub] at hx hc hl
       apply BitVec.eq_of_toNat_eq
       rw [apply_ite BitVec.toNat, e1, e2, BitVec.toNat_intMax]
       simp only [Nat.reducePow, Nat.reduceSub]
       split <;> omega)

theorem demoteFromU (t : Tgt) (s : Bool) {f n : Nat} (hp : Narrows f n) (hf : f ≤ 32) (v : M128) {i : Nat} (h : i < 128 / f) :
    lane n i (DemoteFromU t f s n v) = satLane s n (val false (lane f i v)) := by
  unfold DemoteFromU
  cases s
  · rcases hp with ⟨rfl, (rfl | rfl | rfl)⟩ | ⟨rfl, (rfl | rfl)⟩ | ⟨rfl, rfl⟩ <;>
    first
    | omega
    | (simp only [Nat.reduceEqDiff, reduceIte, Bool.false_eq_true]
       first | exact demoteU16U8 t v h | exact demoteU32U8 t v h | exact demoteU32U16 t v h)
  · rw [if_pos rfl]
    have hr : InReg n i := by
      rcases hp with ⟨rfl, (rfl | rfl | rfl)⟩ | ⟨rfl, (rfl | rfl)⟩ | ⟨rfl, rfl⟩ <;> exact ⟨by omega, by omega⟩
    exact min_intMax t hp hf _ _ hr (demoteFromI t true hp hf v h)

end Hwy.X86
