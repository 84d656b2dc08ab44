import Verif.X86ConvSpec4

/-!
# C65: promotions of even and odd lanes, 8-bit products, saturated pairwise products
-/

namespace Hwy.X86

theorem low_half_ext (s : Bool) (f : Nat) (hf : 0 < f) (x : BitVec (f * 2)) :
    (if s then (x <<< f).sshiftRight f else x &&& (BitVec.allOnes f).setWidth (f * 2))
      = BitVec.ofInt (f * 2) (val s (x.extractLsb' 0 f)) := by
  rw [ofInt_val_ext]
  cases s <;> simp only [if_true, if_false, Bool.false_eq_true]
  · apply BitVec.eq_of_getLsbD_eq; intro k hk
    rw [BitVec.getLsbD_setWidth, BitVec.getLsbD_extractLsb', BitVec.getLsbD_and, BitVec.getLsbD_setWidth, BitVec.getLsbD_allOnes]
    by_cases h8 : k < f <;> simp [h8, hk]
  · have e := sar_top (g := f * 2) f (by omega) (by omega) (x <<< f)
    rw [show f * 2 - f = f by omega] at e
    rw [e, shl_hi]

theorem high_half_ext (s : Bool) (f : Nat) (hf : 0 < f) (x : BitVec (f * 2)) :
    (if s then x.sshiftRight f else x >>> f) = BitVec.ofInt (f * 2) (val s (x.extractLsb' f f)) := by
  rw [ofInt_val_ext]
  cases s <;> simp only [if_true, if_false, Bool.false_eq_true]
  · apply BitVec.eq_of_getLsbD_eq; intro k hk
    rw [BitVec.getLsbD_setWidth, BitVec.getLsbD_extractLsb', BitVec.getLsbD_ushiftRight]
    by_cases h8 : k < f
    · simp [h8, hk]
    · simp only [h8, hk, decide_false, Bool.false_and, Bool.and_false]
      exact (BitVec.getLsbD_of_ge _ _ (by omega))
  · have e := sar_top (g := f * 2) f (by omega) (by omega) x
    rw [show f * 2 - f = f by omega] at e
    rw [e]

theorem inReg2 {f i : Nat} (hf : NarrowW f) (h : i < 128 / (f * 2)) : InReg (f * 2) i := by
  unfold NarrowW at hf; rcases hf with rfl | rfl | rfl <;> exact ⟨by omega, by omega⟩

theorem lane_even {f i : Nat} (r : M128) : (lane (f * 2) i r).extractLsb' 0 f = lane f (2 * i) r := by
  have e := lane_sub f 2 i 0 (by omega) r
  rw [Nat.mul_zero, Nat.add_zero] at e; exact e.symm
theorem lane_odd {f i : Nat} (r : M128) : (lane (f * 2) i r).extractLsb' f f = lane f (2 * i + 1) r := by
  have e := lane_sub f 2 i 1 (by omega) r
  rw [Nat.mul_one] at e; exact e.symm

/-- The shift and mask forms. -/
theorem lane_even_sh (t : Tgt) (s : Bool) {f : Nat} (hf : NarrowW f) (v : M128) {i : Nat} (h : i < 128 / (f * 2)) :
    lane (f * 2) i (if s then ShiftRightI t (f * 2) f (ShiftLeft (f * 2) f v)
        else And v (set (f * 2) ((BitVec.allOnes f).setWidth (f * 2))))
      = BitVec.ofInt (f * 2) (val s (lane f (2 * i) v)) := by
  have hr := inReg2 hf h
  have hk : f < f * 2 := by unfold NarrowW at hf; omega
  rw [← lane_even, ← low_half_ext s f (by unfold NarrowW at hf; omega)]
  cases s <;> simp only [if_true, if_false, Bool.false_eq_true]
  · rw [lane_And, lane_set hr]
  · rw [C62_shiftRight_signed t hr _ f hk, C62_shiftLeft hr _ f hk]

theorem lane_odd_sh (t : Tgt) (s : Bool) {f : Nat} (hf : NarrowW f) (v : M128) {i : Nat} (h : i < 128 / (f * 2)) :
    lane (f * 2) i (if s then ShiftRightI t (f * 2) f v else ShiftRightU (f * 2) f v)
      = BitVec.ofInt (f * 2) (val s (lane f (2 * i + 1) v)) := by
  have hr := inReg2 hf h
  have hk : f < f * 2 := by unfold NarrowW at hf; omega
  rw [← lane_odd, ← high_half_ext s f (by omega)]
  cases s <;> simp only [if_true, if_false, Bool.false_eq_true]
  · rw [C62_shiftRight_unsigned hr _ f hk]
  · rw [C62_shiftRight_signed t hr _ f hk]

theorem lane_promoteEven (t : Tgt) (s : Bool) {f sz : Nat} (hf : NarrowW f) (hz : Shape (f * 2) sz) (v : M128) {i : Nat}
    (h : i < Lanes (f * 2) sz) :
    lane (f * 2) i (PromoteEvenTo t s f sz v) = BitVec.ofInt (f * 2) (val s (lane f (2 * i) v)) := by
  have h' : i < 128 / (f * 2) := by
    unfold Lanes at h; unfold Shape at hz; unfold NarrowW at hf
    rcases hf with rfl | rfl | rfl <;> omega
  by_cases e : s = true ∧ f = 32
  · obtain ⟨rfl, rfl⟩ := e
    unfold PromoteEvenTo PromoteLowerTo LowerHalf
    simp only [if_true]
    have hp : Widens 32 64 := widens2 narrow32
    have hsz : sz = 8 ∨ sz = 16 := by unfold Shape at hz; omega
    rcases hsz with rfl | rfl
    · rw [if_pos rfl]
      refine (lane_promote t true hp v h').trans ?_
      have : i = 0 := by unfold Lanes at h; omega
      subst this; rfl
    · simp only [Nat.reduceEqDiff, if_false]
      refine (lane_promote t true hp _ h').trans ?_
      have h2 : i < 2 := h'
      rw [C63_concatEven t (w := 32) (sz := 16) (by unfold Shape; omega) (by decide) v v (by unfold Lanes; omega),
        if_pos (by unfold Lanes; omega)]
  · rw [← lane_even_sh t s hf v h']
    congr 1
    unfold PromoteEvenTo
    rw [Nat.mul_comm 2 f]
    cases s
    · rfl
    · rw [if_pos rfl, if_pos rfl, if_neg (fun h => e ⟨rfl, h⟩)]

theorem lane_promoteOdd (t : Tgt) (s : Bool) {f sz : Nat} (hf : NarrowW f) (hz : Shape (f * 2) sz) (v : M128) {i : Nat}
    (h : i < Lanes (f * 2) sz) :
    lane (f * 2) i (PromoteOddTo t s f sz v) = BitVec.ofInt (f * 2) (val s (lane f (2 * i + 1) v)) := by
  have h' : i < 128 / (f * 2) := by
    unfold Lanes at h; unfold Shape at hz; unfold NarrowW at hf
    rcases hf with rfl | rfl | rfl <;> omega
  by_cases e : s = true ∧ f = 32
  · obtain ⟨rfl, rfl⟩ := e
    unfold PromoteOddTo PromoteLowerTo LowerHalf
    simp only [if_true]
    have hp : Widens 32 64 := widens2 narrow32
    have hsz : sz = 8 ∨ sz = 16 := by unfold Shape at hz; omega
    refine (lane_promote t true hp _ h').trans ?_
    rcases hsz with rfl | rfl
    · rw [C63_concatOdd t (w := 32) (sz := 8) (by unfold Shape; omega) (by decide) v v (by unfold Lanes at *; omega),
        if_pos (by unfold Lanes at *; omega)]
    · have h2 : i < 2 := h'
      rw [C63_concatOdd t (w := 32) (sz := 16) (by unfold Shape; omega) (by decide) v v (by unfold Lanes; omega),
        if_pos (by unfold Lanes; omega)]
  · rw [← lane_odd_sh t s hf v h']
    congr 1
    unfold PromoteOddTo
    rw [Nat.mul_comm 2 f]
    cases s
    · rfl
    · rw [if_pos rfl, if_pos rfl, if_neg (fun h => e ⟨rfl, h⟩)]

/-- `PromoteEvenTo`: lane `i` of the result has the value of lane `2*i`. -/
theorem C65_promoteEvenTo (t : Tgt) (signedFrom signedTo : Bool) (hs : signedFrom = true → signedTo = true) {f sz : Nat}
    (hf : NarrowW f) (hz : Shape (2 * f) sz) (v : M128) {i : Nat} (h : i < Lanes (2 * f) sz) :
    val signedTo (lane (2 * f) i (PromoteEvenTo t signedFrom f sz v)) = val signedFrom (lane f (2 * i) v) := by
  rw [Nat.mul_comm 2 f] at *
  rw [lane_promoteEven t signedFrom hf hz v h, val_ofInt_val signedFrom signedTo (by
    have := widens2 hf; rw [Nat.mul_comm 2 f] at this; exact this) hs]

/-- `PromoteOddTo`: lane `i` of the result has the value of lane `2*i + 1`. -/
theorem C65_promoteOddTo (t : Tgt) (signedFrom signedTo : Bool) (hs : signedFrom = true → signedTo = true) {f sz : Nat}
    (hf : NarrowW f) (hz : Shape (2 * f) sz) (v : M128) {i : Nat} (h : i < Lanes (2 * f) sz) :
    val signedTo (lane (2 * f) i (PromoteOddTo t signedFrom f sz v)) = val signedFrom (lane f (2 * i + 1) v) := by
  rw [Nat.mul_comm 2 f] at *
  rw [lane_promoteOdd t signedFrom hf hz v h, val_ofInt_val signedFrom signedTo (by
    have := widens2 hf; rw [Nat.mul_comm 2 f] at this; exact this) hs]

theorem mul_promoted (t : Tgt) (s : Bool) (a b : M128) {i : Nat} (h : i < 8) :
    lane 8 (2 * i) (Mul16 (PromoteTo t s 8 16 a) (PromoteTo t s 8 16 b))
      = BitVec.ofInt 8 (val s (lane 8 i a) * val s (lane 8 i b)) := by
  have hp : Widens 8 16 := Or.inl ⟨rfl, Or.inl rfl⟩
  have ha := C65_promoteTo t s s (fun h => h) hp a (i := i) (by omega)
  have hb := C65_promoteTo t s s (fun h => h) hp b (i := i) (by omega)
  have e := lane_Mul16 s h (PromoteTo t s 8 16 a) (PromoteTo t s 8 16 b)
  rw [ha, hb] at e
  exact lower_of (w := 8) e

/-- 8-bit multiplication: the product modulo 256. (A full vector on AVX2 works on 256-bit registers, see `C75_mul8_128`.) -/
theorem C65_mul8 (t : Tgt) (signed : Bool) {sz : Nat} (hs : Shape 8 sz) (_h256 : sz = 16 → t ≠ .avx2) (a b : M128) {i : Nat}
    (h : i < sz) :
    lane 8 i (Mul8 t signed sz a b) = BitVec.ofInt 8 (val signed (lane 8 i a) * val signed (lane 8 i b)) := by
  have hsz : (sz = 1 ∨ sz = 2 ∨ sz = 4 ∨ sz = 8) ∨ sz = 16 := by unfold Shape at hs; omega
  unfold Mul8 LowerHalf
  rcases hsz with hN | rfl
  · rw [if_pos (by omega)]
    rw [trunc_part t (f := 16) (n := 8) (Or.inl ⟨rfl, Or.inl rfl⟩) hN (by omega) _ h]
    exact mul_promoted t signed a b (by omega)
  · simp only [Nat.reduceLeDiff, reduceIte]
    rw [C63_concatEven t (w := 8) (sz := 16) (by unfold Shape; omega) (by decide) _ _ (by unfold Lanes; omega)]
    have hL : Lanes 8 16 / 2 = 8 := rfl
    rw [hL]
    split
    · exact mul_promoted t signed a b (by omega)
    · rw [mul_promoted t signed _ _ (by omega)]
      have hu := fun v => C63_upperHalf t (w := 8) (sz := 8) (by unfold Shape; omega) (by decide) v (i := i - 8) (by unfold Lanes; omega)
      rw [hu, hu, show Lanes 8 8 + (i - 8) = i by unfold Lanes; omega]

theorem mul16_exact (x y : Int) (hx : 0 ≤ x ∧ x ≤ 255) (hy : -128 ≤ y ∧ y ≤ 127) (X Y : M128) {i : Nat} (h : i < 8)
    (eX : lane 16 i X = BitVec.ofInt 16 x) (eY : lane 16 i Y = BitVec.ofInt 16 y) :
    val true (lane 16 i (Mul16 X Y)) = x * y := by
  rw [lane_Mul16_of X Y h eX eY]
  have h1 : x * y ≤ 255 * 127 := by nlinarith [hx.1, hx.2, hy.1, hy.2]
  have h2 : -(255 * 128) ≤ x * y := by nlinarith [hx.1, hx.2, hy.1, hy.2]
  unfold val; simp only [if_true]
  generalize x * y = z at *
  rw [BitVec.toInt_ofInt, Int.bmod_def]; omega

/-- `SatWidenMulPairwiseAdd`: the sum of the two products of an unsigned and a signed byte, saturated to 16 bits. -/
theorem C65_satWidenMulPairwiseAdd (t : Tgt) {sz : Nat} (hz : Shape 16 sz) (a b : M128) {i : Nat} (h : i < Lanes 16 sz) :
    val true (lane 16 i (SatWidenMulPairwiseAdd t sz a b))
      = max (-32768) (min (val false (lane 8 (2 * i) a) * val true (lane 8 (2 * i) b)
          + val false (lane 8 (2 * i + 1) a) * val true (lane 8 (2 * i + 1) b)) 32767) := by
  have h8 : i < 8 := by unfold Lanes at h; unfold Shape at hz; omega
  have hr : InReg 16 i := ⟨by omega, by omega⟩
  unfold SatWidenMulPairwiseAdd
  split
  · rw [C62_saturatedAdd true hr (Or.inr rfl)]
    have rU := fun k => val_range false narrow8 (lane 8 k a)
    have rI := fun k => val_range true narrow8 (lane 8 k b)
    simp only [lo, hi, if_true, if_false, Bool.false_eq_true, Nat.reduceSub, Int.reducePow, Int.reduceSub, Int.reduceNeg] at rU rI ⊢
    rw [mul16_exact _ _ (rU (2 * i)) (rI (2 * i)) _ _ h8 (lane_promoteEven t false narrow8 hz a h) (lane_promoteEven t true narrow8 hz b h),
      mul16_exact _ _ (rU (2 * i + 1)) (rI (2 * i + 1)) _ _ h8 (lane_promoteOdd t false narrow8 hz a h) (lane_promoteOdd t true narrow8 hz b h)]
  · unfold maddubs16
    rw [lane_mk (by omega) (by omega), clampI_eq, val_satLane true narrow16]
    rfl

end Hwy.X86
