import Verif.X86V256Conv
import Verif.X86V256MaskSpec
import Verif.X86ConvSpec5

/-!
# Integer conversions of 256-bit vectors on AVX2 (C75)
-/

namespace Hwy.X86.V256

/-! ## Promotions -/

/-- `PromoteTo`: every lane keeps its value, for all pairs of integer types. -/
theorem C75_promoteTo (signedFrom signedTo : Bool) (hs : signedFrom = true → signedTo = true) {f g : Nat} (hp : Widens f g)
    (v : M128) {i : Nat} (h : i < 256 / g) :
    val signedTo (lane256 g i (PromoteTo signedFrom f g v)) = val signedFrom (lane f i v) := by
  rw [PromoteTo, lane256_promote _ hp v h, val_ofInt_val signedFrom signedTo hp hs]

theorem narrow_width {f : Nat} (hf : NarrowW f) : Width f := by unfold NarrowW at hf; unfold Width; omega
theorem narrow_width2 {f : Nat} (hf : NarrowW f) : Width (f * 2) := by unfold NarrowW at hf; unfold Width; omega
theorem narrow_half {f : Nat} (hf : NarrowW f) : 256 / (2 * f) = 128 / f := by rcases hf with rfl | rfl | rfl <;> rfl

/-- `PromoteLowerTo`: the lanes of the lower half. -/
theorem C75_promoteLowerTo (signedFrom signedTo : Bool) (hs : signedFrom = true → signedTo = true) {f : Nat} (hf : NarrowW f)
    (v : M256) {i : Nat} (h : i < 128 / f) :
    val signedTo (lane256 (2 * f) i (PromoteLowerTo signedFrom f v)) = val signedFrom (lane256 f i v) := by
  rw [PromoteLowerTo, C75_promoteTo signedFrom signedTo hs (widens2 hf) _ (by rw [narrow_half hf]; exact h),
    (C72_halves (narrow_width hf) v h).1]
/-- `PromoteUpperTo`: the lanes of the upper half. -/
theorem C75_promoteUpperTo (signedFrom signedTo : Bool) (hs : signedFrom = true → signedTo = true) {f : Nat} (hf : NarrowW f)
    (v : M256) {i : Nat} (h : i < 128 / f) :
    val signedTo (lane256 (2 * f) i (PromoteUpperTo signedFrom f v)) = val signedFrom (lane256 f (i + 128 / f) v) := by
  rw [PromoteUpperTo, C75_promoteTo signedFrom signedTo hs (widens2 hf) _ (by rw [narrow_half hf]; exact h),
    (C72_halves (narrow_width hf) v h).2]

/-- Parts of a wide lane. -/
theorem part256 {w m : Nat} (hd : (128 : Nat) / w = m * (128 / (w * m))) (hm : 0 < m) {i : Nat} (k : Nat) (hk : k < m) (r : M256) :
    (lane256 (w * m) i r).extractLsb' (w * k) w = lane256 w (m * i + k) r := by
  unfold lane256
  by_cases hb : i < 128 / (w * m)
  · have h2 : m * i + k < 128 / w := by
      rw [hd]
      calc m * i + k < m * i + m := by omega
        _ = m * (i + 1) := by rw [Nat.mul_add, Nat.mul_one]
        _ ≤ _ := Nat.mul_le_mul_left _ hb
    rw [if_pos hb, if_pos h2]; exact (lane_sub w m i k hk _).symm
  · have h3 : m * (128 / (w * m)) ≤ m * i := Nat.mul_le_mul_left _ (by omega)
    have h2 : ¬ m * i + k < 128 / w := by omega
    rw [if_neg hb, if_neg h2]
    have e := lane_sub w m (i - 128 / (w * m)) k hk r.hi
    rw [Nat.mul_sub, ← hd] at e
    rw [show m * i + k - 128 / w = m * i - 128 / w + k by omega]
    exact e.symm

theorem even256 {f : Nat} (hf : NarrowW f) {i : Nat} (r : M256) : (lane256 (f * 2) i r).extractLsb' 0 f = lane256 f (2 * i) r := by
  have := part256 (w := f) (m := 2) (by rcases hf with rfl | rfl | rfl <;> rfl) (by omega) (i := i) 0 (by omega) r
  rwa [Nat.mul_zero] at this
theorem odd256 {f : Nat} (hf : NarrowW f) {i : Nat} (r : M256) : (lane256 (f * 2) i r).extractLsb' f f = lane256 f (2 * i + 1) r := by
  have := part256 (w := f) (m := 2) (by rcases hf with rfl | rfl | rfl <;> rfl) (by omega) (i := i) 1 (by omega) r
  rwa [Nat.mul_one] at this

theorem sext_of_halves (x : BitVec (32 * 2)) (y : BitVec 32) (h0 : x.extractLsb' 0 32 = y)
    (h1 : x.extractLsb' 32 32 = if y.toInt < 0 then BitVec.allOnes 32 else 0#32) : x = BitVec.ofInt (32 * 2) y.toInt := by
  apply BitVec.eq_of_toNat_eq
  have e0 := congrArg BitVec.toNat h0
  have e1 := congrArg BitVec.toNat h1
  rw [BitVec.extractLsb'_toNat, Nat.shiftRight_eq_div_pow] at e0 e1
  rw [apply_ite BitVec.toNat, BitVec.toNat_allOnes, BitVec.toNat_ofNat] at e1
  rw [BitVec.toNat_ofInt]
  have hx := x.isLt
  have hy := y.isLt
  have hc := toInt_cases y
  simp only [Nat.reducePow, Nat.reduceMul, Nat.reduceMod, Nat.reduceSub, Int.reducePow] at *
  split at e1 <;> omega

theorem lane_promoteEven256 (s : Bool) {f : Nat} (hf : NarrowW f) (v : M256) {i : Nat} (h : i < 256 / (f * 2)) :
    lane256 (f * 2) i (PromoteEvenTo s f v) = BitVec.ofInt (f * 2) (val s (lane256 f (2 * i) v)) := by
  have hw := narrow_width2 hf
  have h2 : 2 * i + 1 < 256 / f := by rcases hf with rfl | rfl | rfl <;> omega
  by_cases e : s = true ∧ f = 32
  · obtain ⟨rfl, rfl⟩ := e
    unfold PromoteEvenTo
    rw [if_pos rfl, if_pos rfl]
    have w32 : Width 32 := narrow_width hf
    apply sext_of_halves
    · rw [even256 hf, C72_oddEven false w32 _ _ (by omega), if_neg (by omega)]
    · rw [odd256 hf, C72_oddEven false w32 _ _ (by omega), if_pos (by omega), C72_dupEven false w32 _ (by omega),
        show (2 * i + 1) / 2 * 2 = 2 * i by omega,
        lane_blk1 w32 (F := fun x => if x.toInt < 0 then BitVec.allOnes 32 else 0#32)
          (fun i a hr => C62_broadcastSignBit .avx2 hr a) v (by omega)]
  · rw [← even256 hf, ← low_half_ext s f (by unfold NarrowW at hf; omega)]
    unfold PromoteEvenTo
    rw [Nat.mul_comm 2 f]
    have hk : f < f * 2 := by unfold NarrowW at hf; omega
    cases s
    · simp only [Bool.false_eq_true, if_false]
      rw [show lane256 (f * 2) i (blk2 And v _) = _ from lane_andQ hw _ _ h, lane_setQ hw _ h]
    · rw [if_pos rfl, if_neg (fun h => e ⟨rfl, h⟩), if_pos rfl,
        lane_blk1 hw (F := fun x => x.sshiftRight f) (fun i a hr => C62_shiftRight_signed .avx2 hr a f hk) _ h,
        lane_blk1 hw (F := fun x => x <<< f) (fun i a hr => C62_shiftLeft hr a f hk) _ h]

theorem lane_promoteOdd256 (s : Bool) {f : Nat} (hf : NarrowW f) (v : M256) {i : Nat} (h : i < 256 / (f * 2)) :
    lane256 (f * 2) i (PromoteOddTo s f v) = BitVec.ofInt (f * 2) (val s (lane256 f (2 * i + 1) v)) := by
  have hw := narrow_width2 hf
  have h2 : 2 * i + 1 < 256 / f := by rcases hf with rfl | rfl | rfl <;> omega
  by_cases e : s = true ∧ f = 32
  · obtain ⟨rfl, rfl⟩ := e
    unfold PromoteOddTo
    rw [if_pos rfl, if_pos rfl]
    have w32 : Width 32 := narrow_width hf
    apply sext_of_halves
    · rw [even256 hf, C72_oddEven false w32 _ _ (by omega), if_neg (by omega), C72_dupOdd false w32 _ (by omega),
        show 2 * i / 2 * 2 = 2 * i by omega]
    · rw [odd256 hf, C72_oddEven false w32 _ _ (by omega), if_pos (by omega),
        lane_blk1 w32 (F := fun x => if x.toInt < 0 then BitVec.allOnes 32 else 0#32)
          (fun i a hr => C62_broadcastSignBit .avx2 hr a) v (by omega)]
  · rw [← odd256 hf, ← high_half_ext s f (by unfold NarrowW at hf; omega)]
    unfold PromoteOddTo
    rw [Nat.mul_comm 2 f]
    have hk : f < f * 2 := by unfold NarrowW at hf; omega
    cases s
    · simp only [Bool.false_eq_true, if_false]
      rw [lane_blk1 hw (F := fun x => x >>> f) (fun i a hr => C62_shiftRight_unsigned hr a f hk) _ h]
    · rw [if_pos rfl, if_neg (fun h => e ⟨rfl, h⟩), if_pos rfl,
        lane_blk1 hw (F := fun x => x.sshiftRight f) (fun i a hr => C62_shiftRight_signed .avx2 hr a f hk) _ h]

/-- `PromoteEvenTo`: lane `i` of the result has the value of lane `2*i`. -/
theorem C75_promoteEvenTo (signedFrom signedTo : Bool) (hs : signedFrom = true → signedTo = true) {f : Nat} (hf : NarrowW f)
    (v : M256) {i : Nat} (h : i < 256 / (2 * f)) :
    val signedTo (lane256 (2 * f) i (PromoteEvenTo signedFrom f v)) = val signedFrom (lane256 f (2 * i) v) := by
  have hp := widens2 hf
  rw [Nat.mul_comm 2 f] at *
  rw [lane_promoteEven256 signedFrom hf v h, val_ofInt_val signedFrom signedTo hp hs]
/-- `PromoteOddTo`: lane `i` of the result has the value of lane `2*i + 1`. -/
theorem C75_promoteOddTo (signedFrom signedTo : Bool) (hs : signedFrom = true → signedTo = true) {f : Nat} (hf : NarrowW f)
    (v : M256) {i : Nat} (h : i < 256 / (2 * f)) :
    val signedTo (lane256 (2 * f) i (PromoteOddTo signedFrom f v)) = val signedFrom (lane256 f (2 * i + 1) v) := by
  have hp := widens2 hf
  rw [Nat.mul_comm 2 f] at *
  rw [lane_promoteOdd256 signedFrom hf v h, val_ofInt_val signedFrom signedTo hp hs]

/-! ## Truncations -/

theorem trunc_part256 {f n : Nat} (hp : Narrows f n) (v : M256) {i : Nat} (h : i < 256 / f) :
    lane n i (TruncateTo f n v) = (lane256 f i v).extractLsb' 0 n := by
  by_cases e : f = 64
  · subst e
    unfold TruncateTo
    rw [if_pos rfl]
    have ex : ∀ {n m : Nat}, n * m = 64 → 0 < m → (128 : Nat) / n = m * (128 / (n * m)) →
        (lane256 64 i v).extractLsb' 0 n = lane256 n (m * i) v := by
      intro n m e h0 hd
      have := part256 (w := n) (m := m) hd h0 (i := i) 0 h0 v
      rw [Nat.mul_zero, Nat.add_zero] at this
      rw [← this]; congr 1 <;> rw [e]
    rcases hp with ⟨rfl, (hn | hn | hn)⟩ | ⟨rfl, (hn | hn)⟩ | ⟨rfl, hn⟩ <;> first | omega | skip
    · rw [if_pos rfl, ex (n := 8) (m := 8) rfl (by omega) rfl]
      unfold TableLookupBytes X86.LowerHalf LowerHalf UpperHalf castsi256 extracti128 blk2 lane256
      obtain ⟨lo, hi⟩ := v
      simp only [Nat.reduceMod, Nat.reduceEqDiff, if_false, Nat.reduceDiv]
      have e8 : (8 * i < 16) = (i < 2) := by rw [eq_iff_iff]; omega
      simp only [e8]
      apply Sym.lanesW (hi := h)
      · decide
      · decide
      · exact sym_Or (sym_shuffle8z sym_a (sym_ofBytes _)) (sym_shuffle8z sym_b (sym_ofBytes _))
      · decide +kernel
    · simp only [Nat.reduceEqDiff, reduceIte]
      rw [ex (n := 16) (m := 4) rfl (by omega) rfl]
      unfold LookupAndConcatQuarters lane256
      obtain ⟨lo, hi⟩ := v
      simp only [permute_CC, blk2, X86.LowerHalf, Nat.reduceDiv]
      have e8 : (4 * i < 8) = (i < 2) := by rw [eq_iff_iff]; omega
      simp only [e8]
      apply Sym.lanesW (hi := h)
      · decide
      · decide
      · exact sym_packus32
          (sym_shufflePd _ (sym_shuffle8z sym_a (sym_of16 _)) (sym_shuffle8z sym_b (sym_of16 _)))
          (sym_shufflePd _ (sym_shuffle8z sym_a (sym_of16 _)) (sym_shuffle8z sym_b (sym_of16 _)))
      · decide +kernel
    · simp only [Nat.reduceEqDiff, reduceIte]
      have h4 : i < 4 := h
      rw [ex (n := 32) (m := 2) rfl (by omega) rfl]
      have w32 : Width 32 := by unfold Width; omega
      rw [(C72_halves w32 _ (show i < 128 / 32 from h4)).1]
      have hl := lane_ofLanes w32 [0, 2, 4, 6, 0, 2, 4, 6] (i := i) (by omega)
      have hl2 : (lane256 32 i (ofLanes 32 [0, 2, 4, 6, 0, 2, 4, 6])).toNat = 2 * i := by
        rw [hl]; interval_cases i <;> rfl
      rw [C73_tableLookupLanes w32 v _ (by omega) (by omega), hl2]
  · unfold TruncateTo
    rw [if_neg e]
    exact trunc256_part (by unfold Narrows Widens at hp; omega) v h

/-- `TruncateTo`: every lane keeps its lower bits. -/
theorem C75_truncateTo {f n : Nat} (hp : Narrows f n) (v : M256) {i : Nat} (h : i < 256 / f) :
    (lane n i (TruncateTo f n v)).toNat = (lane256 f i v).toNat % 2 ^ n := by
  rw [trunc_part256 hp v h, BitVec.extractLsb'_toNat, Nat.shiftRight_zero]

/-- `U8FromU32` keeps the lowest byte of every lane, which is the lane itself if it is in `[0, 255]`. -/
theorem C75_u8FromU32 (v : M256) {i : Nat} (h : i < 8) : (lane 8 i (U8FromU32 v)).toNat = (lane256 32 i v).toNat % 2 ^ 8 := by
  have ex : (lane256 32 i v).extractLsb' 0 8 = lane256 8 (4 * i) v := by
    have := part256 (w := 8) (m := 4) rfl (by omega) (i := i) 0 (by omega) v
    rw [Nat.mul_zero, Nat.add_zero] at this
    exact this
  have key : lane 8 i (U8FromU32 v) = (lane256 32 i v).extractLsb' 0 8 := by
    rw [ex]
    unfold U8FromU32 TableLookupBytes X86.LowerHalf LowerHalf UpperHalf castsi256 extracti128 blk2 lane256
    obtain ⟨lo, hi⟩ := v
    simp only [Nat.reduceMod, Nat.reduceEqDiff, if_false, Nat.reduceDiv]
    have e8 : (4 * i < 16) = (i < 4) := by rw [eq_iff_iff]; omega
    simp only [e8]
    apply Sym.lanesW (hi := h)
    · decide
    · decide
    · exact sym_Or (sym_shuffle8z sym_a (sym_ofBytes _)) (sym_shuffle8z sym_b (sym_ofBytes _))
    · decide +kernel
  rw [key, BitVec.extractLsb'_toNat, Nat.shiftRight_zero]

/-! ## Demotions -/

theorem demoteFromI256 (s : Bool) {f n : Nat} (hp : Narrows f n) (hf : f ≤ 32) (v : M256) {i : Nat} (h : i < 256 / f) :
    lane n i (DemoteFromI f s n v) = satLane s n (val true (lane256 f i v)) := by
  unfold DemoteFromI
  rcases hp with ⟨rfl, (rfl | rfl | rfl)⟩ | ⟨rfl, (rfl | rfl)⟩ | ⟨rfl, rfl⟩ <;> first | omega | skip
  · simp only [Nat.reduceEqDiff, reduceIte]; exact demoteI16_256 s v h
  · simp only [reduceIte]; exact demoteI32_256 s (Or.inr rfl) v h
  · simp only [reduceIte]; exact demoteI32_256 s (Or.inl rfl) v h

/-- The clamped value is the value itself, or both are too big. -/
theorem clampU256 {n : Nat} (hn : n = 8 ∨ n = 16) (v : M256) {i : Nat} (h : i < 256 / (2 * n)) :
    val true (lane256 (2 * n) i (ClampU (2 * n) v)) = val false (lane256 (2 * n) i v) ∨
      ((2 : Int) ^ n ≤ val true (lane256 (2 * n) i (ClampU (2 * n) v)) ∧ (2 : Int) ^ n ≤ val false (lane256 (2 * n) i v)) := by
  unfold ClampU blk2 setQ dup128
  rcases hn with rfl | rfl
  · simp only [Nat.reduceMul, Nat.reduceEqDiff, if_false]
    have c : ∀ x, MinU .avx2 16 x (set 16 0x7FFF#16) = ClampU16 .avx2 x := fun x => by
      unfold ClampU16; rw [if_neg (by decide)]
    simp only [c]
    by_cases hb : i < 8
    · rw [lane256_lo hb, lane256_lo hb]; exact clampU16 .avx2 _ hb
    · rw [lane256_hi hb, lane256_hi hb]; exact clampU16 .avx2 _ (by simp only [Nat.reduceMul, Nat.reduceDiv] at *; omega)
  · simp only [Nat.reduceMul, if_true]
    have c : ∀ x, MinU .avx2 32 x (set 32 0x7FFFFFFF#32) = ClampU32 .avx2 x := fun x => by
      unfold ClampU32; rw [if_neg (by decide)]
    simp only [c]
    by_cases hb : i < 4
    · rw [lane256_lo hb, lane256_lo hb]; exact clampU32 .avx2 _ hb
    · rw [lane256_hi hb, lane256_hi hb]; exact clampU32 .avx2 _ (by simp only [Nat.reduceMul, Nat.reduceDiv] at *; omega)

/-- `2*n`-bit lanes clamped, then demoted. -/
theorem sat_clamp {n m : Nat} (hn : n = 8 ∨ n = 16) (hm : m ≤ n) {x y : BitVec (2 * n)}
    (h : val true x = val false y ∨ ((2 : Int) ^ n ≤ val true x ∧ (2 : Int) ^ n ≤ val false y)) :
    satLane false m (val true x) = satLane false m (val false y) := by
  apply satLane_congr
  have : (2 : Int) ^ m ≤ 2 ^ n := by
    have := Nat.pow_le_pow_right (n := 2) (by omega) hm
    exact_mod_cast this
  have h0 : (0 : Int) < 2 ^ m := by positivity
  simp only [lo, hi, if_false, Bool.false_eq_true]
  generalize (2 : Int) ^ m = p at *
  generalize (2 : Int) ^ n = q at *
  omega

theorem demoteFromU256 (s : Bool) {f n : Nat} (hp : Narrows f n) (hf : f ≤ 32) (v : M256) {i : Nat} (h : i < 256 / f) :
    lane n i (DemoteFromU f s n v) = satLane s n (val false (lane256 f i v)) := by
  unfold DemoteFromU
  cases s
  · simp only [Bool.false_eq_true, if_false]
    rw [demoteFromI256 false hp hf _ h]
    have hf' : ∃ m, f = 2 * m ∧ (m = 8 ∨ m = 16) ∧ n ≤ m := by
      unfold Narrows Widens at hp
      rcases hp with ⟨rfl, hp⟩ | ⟨rfl, hp⟩ | ⟨rfl, hp⟩
      · exact ⟨f / 2, by omega, by omega, by omega⟩
      · exact ⟨16, by omega, by omega, by omega⟩
      · omega
    obtain ⟨m, rfl, hm, hnm⟩ := hf'
    exact sat_clamp hm hnm (clampU256 hm v h)
  · rw [if_pos rfl]
    have hr : InReg n i := by
      rcases hp with ⟨rfl, (rfl | rfl | rfl)⟩ | ⟨rfl, (rfl | rfl)⟩ | ⟨rfl, rfl⟩ <;> exact ⟨by omega, by omega⟩
    exact min_intMax .avx2 hp hf _ _ hr (demoteFromI256 true hp hf v h)

theorem saturate64 (sf st : Bool) {n : Nat} (hn : NarrowW n) (v : M256) {i : Nat} (h : i < 4) :
    (lane256 64 i (Saturate64 sf st n v)).toNat % 2 ^ n = (satLane st n (val sf (lane256 64 i v))).toNat := by
  unfold Saturate64 blk1
  by_cases hb : i < 2
  · cases sf
    · simp only [Bool.false_eq_true, if_false]
      rw [lane256_lo hb, lane256_lo hb]; exact satU64 .avx2 st hn _ hb
    · cases st <;> simp only [Bool.false_eq_true, if_false, if_true] <;> rw [lane256_lo hb, lane256_lo hb]
      · exact satI64U .avx2 hn _ hb
      · exact satI64I .avx2 hn _ hb
  · have h2 : i - 128 / 64 < 2 := by omega
    cases sf
    · simp only [Bool.false_eq_true, if_false]
      rw [lane256_hi hb, lane256_hi hb]; exact satU64 .avx2 st hn _ h2
    · cases st <;> simp only [Bool.false_eq_true, if_false, if_true] <;> rw [lane256_hi hb, lane256_hi hb]
      · exact satI64U .avx2 hn _ h2
      · exact satI64I .avx2 hn _ h2

theorem demoteTo256 (sf st : Bool) {f n : Nat} (hp : Narrows f n) (v : M256) {i : Nat} (h : i < 256 / f) :
    lane n i (DemoteTo sf f st n v) = satLane st n (val sf (lane256 f i v)) := by
  unfold DemoteTo
  split
  · rename_i e; subst e
    have hn : NarrowW n := by unfold Narrows Widens at hp; unfold NarrowW; omega
    apply BitVec.eq_of_toNat_eq
    rw [C75_truncateTo hp _ h, saturate64 sf st hn v h]
  · have hf : f ≤ 32 := by unfold Narrows Widens at hp; omega
    cases sf <;> simp only [if_true, if_false, Bool.false_eq_true]
    · exact demoteFromU256 st hp hf v h
    · exact demoteFromI256 st hp hf v h

/-- `DemoteTo` for every pair of integer types: each lane becomes the nearest value of the narrower type. -/
theorem C75_demoteTo (signedFrom signedTo : Bool) {f n : Nat} (hp : Narrows f n) (v : M256) {i : Nat} (h : i < 256 / f) :
    val signedTo (lane n i (DemoteTo signedFrom f signedTo n v))
      = max (lo signedTo n) (min (val signedFrom (lane256 f i v)) (hi signedTo n)) := by
  have hn : NarrowW n := by unfold Narrows Widens at hp; unfold NarrowW; omega
  rw [demoteTo256 signedFrom signedTo hp v h, val_satLane signedTo hn]

/-! ## Demotions of two vectors -/

/-- The lane of `a` or `b` at position `i` of a result built block by block. -/
def blockCat (n : Nat) (a b : M256) (i : Nat) : BitVec (2 * n) :=
  if i % (128 / n) < 64 / n then lane256 (2 * n) (i / (128 / n) * (64 / n) + i % (128 / n)) a
  else lane256 (2 * n) (i / (128 / n) * (64 / n) + i % (128 / n) - 64 / n) b

theorem blockCat_lo {n : Nat} (hn : NarrowW n) (a b : M256) {i : Nat} (h : i < 128 / n) :
    blockCat n a b i = if i < 64 / n then lane (2 * n) i a.lo else lane (2 * n) (i - 64 / n) b.lo := by
  unfold blockCat
  rw [Nat.mod_eq_of_lt h, Nat.div_eq_of_lt h, Nat.zero_mul, Nat.zero_add]
  have e : 128 / (2 * n) = 64 / n := by rcases hn with rfl | rfl | rfl <;> rfl
  have e2 : 128 / n = 64 / n + 64 / n := by rcases hn with rfl | rfl | rfl <;> rfl
  by_cases h' : i < 64 / n
  · rw [if_pos h', if_pos h', lane256_lo (by omega)]
  · rw [if_neg h', if_neg h', lane256_lo (by omega)]
theorem blockCat_hi {n : Nat} (hn : NarrowW n) (a b : M256) {i : Nat} (h : ¬ i < 128 / n) (hi : i < 256 / n) :
    blockCat n a b i = if i - 128 / n < 64 / n then lane (2 * n) (i - 128 / n) a.hi else lane (2 * n) (i - 128 / n - 64 / n) b.hi := by
  unfold blockCat
  have e : 128 / (2 * n) = 64 / n := by rcases hn with rfl | rfl | rfl <;> rfl
  have e2 : 128 / n = 64 / n + 64 / n := by rcases hn with rfl | rfl | rfl <;> rfl
  have e3 : 256 / n = 128 / n + 128 / n := by rcases hn with rfl | rfl | rfl <;> rfl
  have h0 : 0 < 64 / n := by rcases hn with rfl | rfl | rfl <;> decide
  obtain ⟨j, rfl⟩ := Nat.exists_eq_add_of_le (Nat.le_of_not_lt h)
  have hj : j < 128 / n := by omega
  rw [Nat.add_mod_left, Nat.mod_eq_of_lt hj, Nat.add_div_left _ (by omega), Nat.div_eq_of_lt hj, Nat.add_sub_cancel_left]
  by_cases h' : j < 64 / n
  · rw [if_pos h', if_pos h', lane256_hi (by omega)]; congr 1; omega
  · rw [if_neg h', if_neg h', lane256_hi (by omega)]; congr 1; omega

theorem reorderI256 (st : Bool) {n : Nat} (hn : n = 8 ∨ n = 16) (a b : M256) {i : Nat} (h : i < 256 / n) :
    lane256 n i (ReorderDemote2FromI st n a b) = satLane st n (val true (blockCat n a b i)) := by
  have hN : NarrowW n := by unfold NarrowW; omega
  have hn2 : n = 2 * n / 2 := by omega
  have key : ∀ (x y : M128) {k : Nat}, k < 128 / n → lane n k (if st then packs (2 * n) x y else packus (2 * n) x y)
      = satLane st n (val true (if k < 64 / n then lane (2 * n) k x else lane (2 * n) (k - 64 / n) y)) := by
    intro x y k hk
    rcases hn with rfl | rfl
    · exact lane_pack st (w := 16) (Or.inl rfl) x y hk
    · exact lane_pack st (w := 32) (Or.inr rfl) x y hk
  unfold ReorderDemote2FromI
  rw [pack_ite]
  by_cases hb : i < 128 / n
  · rw [lane256_lo hb, blockCat_lo hN a b hb]; exact key _ _ hb
  · rw [lane256_hi hb, blockCat_hi hN a b hb h]; exact key _ _ (by rcases hn with rfl | rfl <;> omega)

theorem lane_ps2020 (x y : M128) {k : Nat} (h : k < 4) :
    lane 32 k (shufflePs x y (MM_SHUFFLE 2 0 2 0)) = if k < 2 then lane 32 (2 * k) x else lane 32 (2 * (k - 2)) y := by
  leaf h

theorem reorder256 (sf st : Bool) {n : Nat} (hn : NarrowW n) (a b : M256) {i : Nat} (h : i < 256 / n) :
    lane256 n i (ReorderDemote2To sf st n a b) = satLane st n (val sf (blockCat n a b i)) := by
  have hw := narrow_width hn
  unfold ReorderDemote2To
  by_cases e : n = 32
  · subst e
    rw [if_pos rfl]
    have low : ∀ j (r : M128), (lane 32 (2 * j) r).toNat = (lane 64 j r).toNat % 2 ^ 32 :=
      fun j r => low_part (f := 64) (n := 32) (by decide) (by decide) r
    have sL : ∀ (v : M256) j, j < 2 → (lane 32 (2 * j) (Saturate64 sf st 32 v).lo).toNat = (satLane st 32 (val sf (lane 64 j v.lo))).toNat := by
      intro v j hj
      have := saturate64 sf st narrow32 v (i := j) (by omega)
      rw [lane256_lo (by omega), lane256_lo (by omega)] at this
      rw [low]; exact this
    have sH : ∀ (v : M256) j, j < 2 → (lane 32 (2 * j) (Saturate64 sf st 32 v).hi).toNat = (satLane st 32 (val sf (lane 64 j v.hi))).toNat := by
      intro v j hj
      have := saturate64 sf st narrow32 v (i := j + 2) (by omega)
      rw [lane256_hi (by omega), lane256_hi (by omega), show j + 2 - 128 / 64 = j by omega] at this
      rw [low]; exact this
    apply BitVec.eq_of_toNat_eq
    by_cases hb : i < 4
    · rw [lane256_lo hb, blockCat_lo hn a b hb]
      simp only [blk2]
      rw [lane_ps2020 _ _ hb]
      by_cases h2 : i < 2
      · rw [if_pos h2, if_pos h2, sL a i h2]
      · rw [if_neg h2, if_neg h2, sL b (i - 2) (by omega)]
    · have h4 : i - 4 < 4 := by omega
      rw [lane256_hi hb, blockCat_hi hn a b hb h]
      simp only [blk2]
      rw [show i - 128 / 32 = i - 4 from rfl, lane_ps2020 _ _ h4]
      by_cases h2 : i - 4 < 2
      · rw [if_pos h2, if_pos h2, sH a _ h2]
      · rw [if_neg h2, if_neg h2, sH b _ (by omega)]
  · have hn' : n = 8 ∨ n = 16 := by unfold NarrowW at hn; omega
    rw [if_neg e]
    cases sf <;> simp only [if_true, if_false, Bool.false_eq_true]
    · cases st <;> simp only [if_true, if_false, Bool.false_eq_true]
      · rw [reorderI256 false hn' _ _ h]
        have hc : ∀ (v : M256) {j : Nat}, j < 256 / (2 * n) → satLane false n (val true (lane256 (2 * n) j (ClampU (2 * n) v)))
            = satLane false n (val false (lane256 (2 * n) j v)) := fun v j hj => sat_clamp hn' (Nat.le_refl n) (clampU256 hn' v hj)
        unfold blockCat
        split
        · exact hc a (by rcases hn' with rfl | rfl <;> omega)
        · exact hc b (by rcases hn' with rfl | rfl <;> omega)
      · have hp : Narrows (2 * n) n := widens2 hn
        have hr := reorderI256 true hn' a b h
        unfold blk2 setQ dup128
        by_cases hb : i < 128 / n
        · rw [lane256_lo hb] at hr ⊢
          exact min_intMax .avx2 hp (by omega) _ _ (inReg_lo hw hb) hr
        · rw [lane256_hi hb] at hr ⊢
          exact min_intMax .avx2 hp (by omega) _ _ (inReg_hi hw h) hr
    · exact reorderI256 st hn' a b h

/-- `ReorderDemote2To`: in each block, the lanes of that block of `a` and then those of `b`, each replaced by the nearest value of
the narrower type. -/
theorem C75_reorderDemote2To (signedFrom signedTo : Bool) {n : Nat} (hn : NarrowW n) (a b : M256) {i : Nat} (h : i < 256 / n) :
    val signedTo (lane256 n i (ReorderDemote2To signedFrom signedTo n a b))
      = max (lo signedTo n) (min (val signedFrom
          (if i % (128 / n) < 64 / n then lane256 (2 * n) (i / (128 / n) * (64 / n) + i % (128 / n)) a
            else lane256 (2 * n) (i / (128 / n) * (64 / n) + i % (128 / n) - 64 / n) b)) (hi signedTo n)) := by
  rw [reorder256 signedFrom signedTo hn a b h, val_satLane signedTo hn]; rfl

theorem lane_permute3120 {n : Nat} (hn : NarrowW n) (q : M256) {i : Nat} (h : i < 256 / n) :
    lane256 n i (permute4x64 q (MM_SHUFFLE 3 1 2 0)) =
      if i < 64 / n then lane256 n i q else if i < 128 / n then lane256 n (i + 64 / n) q
      else if i - 128 / n < 64 / n then lane256 n (i - 64 / n) q else lane256 n i q := by
  rw [permute_3120]
  have e2 : 128 / n = 64 / n + 64 / n := by rcases hn with rfl | rfl | rfl <;> rfl
  have e3 : 256 / n = 128 / n + 128 / n := by rcases hn with rfl | rfl | rfl <;> rfl
  by_cases hb : i < 128 / n
  · rw [lane256_lo hb, lane_pd0 hn _ _ hb]
    by_cases h' : i < 64 / n
    · rw [if_pos h', if_pos h', lane256_lo hb]
    · rw [if_neg h', if_neg h', if_pos hb, lane256_hi (by omega)]; congr 1; omega
  · have h1 : ¬ i < 64 / n := by omega
    rw [lane256_hi hb, lane_pd3 hn _ _ (by omega), if_neg h1, if_neg hb]
    by_cases h' : i - 128 / n < 64 / n
    · rw [if_pos h', if_pos h', lane256_lo (by omega)]; congr 1; omega
    · rw [if_neg h', if_neg h', lane256_hi (by omega)]

theorem ordered256 (sf st : Bool) {n : Nat} (hn : NarrowW n) (a b : M256) {i : Nat} (h : i < 256 / n) :
    lane256 n i (OrderedDemote2To sf st n a b)
      = satLane st n (val sf (if i < 128 / n then lane256 (2 * n) i a else lane256 (2 * n) (i - 128 / n) b)) := by
  unfold OrderedDemote2To
  have e2 : 128 / n = 64 / n + 64 / n := by rcases hn with rfl | rfl | rfl <;> rfl
  have e3 : 256 / n = 128 / n + 128 / n := by rcases hn with rfl | rfl | rfl <;> rfl
  have e4 : 128 / (2 * n) = 64 / n := by rcases hn with rfl | rfl | rfl <;> rfl
  rw [lane_permute3120 hn _ h]
  by_cases h1 : i < 64 / n
  · have hb : i < 128 / n := by omega
    rw [if_pos h1, reorder256 sf st hn a b h, blockCat_lo hn a b hb, if_pos h1, if_pos hb, lane256_lo (by omega)]
  · rw [if_neg h1]
    by_cases hb : i < 128 / n
    · have h3 : i + 64 / n - 128 / n < 64 / n := by omega
      rw [if_pos hb, if_pos hb, reorder256 sf st hn a b (by omega), blockCat_hi hn a b (by omega) (by omega), if_pos h3, lane256_hi (by omega)]
      congr 3; omega
    · rw [if_neg hb, if_neg hb]
      by_cases h3 : i - 128 / n < 64 / n
      · have h4 : ¬ i - 64 / n < 64 / n := by omega
        rw [if_pos h3, reorder256 sf st hn a b (by omega), blockCat_lo hn a b (by omega), if_neg h4, lane256_lo (by omega)]
        congr 3; omega
      · rw [if_neg h3, reorder256 sf st hn a b h, blockCat_hi hn a b hb h, if_neg h3, lane256_hi (by omega), e4]

/-- `OrderedDemote2To`: the lanes of `a`, then those of `b`, each replaced by the nearest value of the narrower type. -/
theorem C75_orderedDemote2To (signedFrom signedTo : Bool) {n : Nat} (hn : NarrowW n) (a b : M256) {i : Nat} (h : i < 256 / n) :
    val signedTo (lane256 n i (OrderedDemote2To signedFrom signedTo n a b))
      = max (lo signedTo n) (min (val signedFrom
          (if i < 128 / n then lane256 (2 * n) i a else lane256 (2 * n) (i - 128 / n) b)) (hi signedTo n)) := by
  rw [ordered256 signedFrom signedTo hn a b h, val_satLane signedTo hn]

/-- `ReorderDemote2To` and `OrderedDemote2To` of 128-bit vectors of 64-bit lanes on AVX2: completes `C65_demote2To`. -/
theorem C75_demote2To128 (signedFrom signedTo : Bool) (a b : M128) {i : Nat} (h : i < 4) :
    val signedTo (lane 32 i (ReorderDemote2To128 signedFrom signedTo a b))
      = max (lo signedTo 32) (min (val signedFrom (if i < 2 then lane 64 i a else lane 64 (i - 2) b)) (hi signedTo 32)) := by
  unfold ReorderDemote2To128
  rw [C75_demoteTo signedFrom signedTo (narrows64 narrow32) _ (by omega), C72_combine]

/-! ## 8-bit multiplication -/

theorem mul_promoted256 (s : Bool) (a b : M128) {i : Nat} (h : i < 16) :
    (lane256 16 i (blk2 Mul16 (PromoteTo s 8 16 a) (PromoteTo s 8 16 b))).extractLsb' 0 8
      = BitVec.ofInt 8 (val s (lane 8 i a) * val s (lane 8 i b)) := by
  have w16 : Width 16 := by unfold Width; omega
  have hp : Widens 8 16 := Or.inl ⟨rfl, Or.inl rfl⟩
  rw [lane_blk2 w16 (F := fun x y => BitVec.ofInt 16 (val s x * val s y)) (fun i a b hr => lane_Mul16 s hr.2 a b) _ _ h,
    C75_promoteTo s s (fun h => h) hp a h, C75_promoteTo s s (fun h => h) hp b h]
  exact half0 8 _

/-- 8-bit multiplication of 128-bit vectors on AVX2: the product modulo 256. Completes `C65_mul8`. -/
theorem C75_mul8_128 (signed : Bool) (a b : M128) {i : Nat} (h : i < 16) :
    lane 8 i (Mul8_128 signed a b) = BitVec.ofInt 8 (val signed (lane 8 i a) * val signed (lane 8 i b)) := by
  unfold Mul8_128
  rw [trunc_part256 (Or.inl ⟨rfl, Or.inl rfl⟩) _ h, mul_promoted256 signed a b h]
/-- 8-bit multiplication of 256-bit vectors: the product modulo 256. -/
theorem C75_mul8 (signed : Bool) (a b : M256) {i : Nat} (h : i < 32) :
    lane256 8 i (Mul8 signed a b) = BitVec.ofInt 8 (val signed (lane256 8 i a) * val signed (lane256 8 i b)) := by
  unfold Mul8
  have w8' : Width 8 := by unfold Width; omega
  rw [C72_concatEven w8' _ _ h]
  by_cases hb : i < 16
  · rw [if_pos hb, ← even256 narrow8, mul_promoted256 signed _ _ hb]
    rw [(C72_halves w8' a hb).1, (C72_halves w8' b hb).1]
  · have h2 : i - 16 < 16 := by omega
    rw [if_neg hb, ← even256 narrow8]
    refine (mul_promoted256 signed _ _ h2).trans ?_
    rw [(C72_halves w8' a h2).2, (C72_halves w8' b h2).2, show i - 16 + 128 / 8 = i by omega]

end Hwy.X86.V256
