import Verif.X86Reg256Spec

/-!
# C67: left shifts by a count per lane

Each lane is shifted by the count in the same lane, on every target and for every integer vector type, as long as the
count is less than the width of a lane.
-/

namespace Hwy.X86

theorem eq_ofNat {w k : Nat} {x : BitVec w} (h : x.toNat = k) : x = BitVec.ofNat w k := by
  apply BitVec.eq_of_toNat_eq; rw [BitVec.toNat_ofNat, h, Nat.mod_eq_of_lt (h ▸ x.isLt)]

/-! ## Powers of two through float exponents -/

theorem cvt_pow2_32 : ∀ near : Bool, ∀ k : Fin 32,
    cvtF32I32 near (BitVec.ofNat 32 k <<< 23 + 0x3F800000#32) = BitVec.ofNat 32 (2 ^ k.val) := by decide +kernel
theorem cvt_pow2_16 : ∀ near : Bool, ∀ k : Fin 16,
    cvtF32I32 near ((BitVec.ofNat 16 k <<< 7 + 0x3F80#16) ++ 0#16) = BitVec.ofNat 32 (2 ^ k.val) := by decide +kernel

theorem lane_pow2_32 (gcc : Bool) (bits : M128) {i k : Nat} (h : i < 4) (hk : (lane 32 i bits).toNat = k) (hlt : k < 32) :
    lane 32 i (Pow2_32 gcc bits) = BitVec.ofNat 32 (2 ^ k) := by
  have hr : InReg 32 i := ⟨by omega, by omega⟩
  unfold Pow2_32 Pow2ConvF32ToI32 cvtps
  rw [lane_map1 hr, lane_Add hr, lane_set hr, C62_shiftLeft hr _ _ (by omega), eq_ofNat hk]
  exact cvt_pow2_32 _ ⟨k, hlt⟩

theorem append_ext {x : BitVec 32} {u : BitVec 16} (h0 : x.extractLsb' 0 16 = 0#16) (h1 : x.extractLsb' 16 16 = u) : x = u ++ 0#16 := by
  apply BitVec.eq_of_getLsbD_eq; intro j hj
  rw [BitVec.getLsbD_append]
  by_cases h : j < 16
  · have := congrArg (fun z => z.getLsbD j) h0
    simpa [BitVec.getLsbD_extractLsb', h] using this
  · have := congrArg (fun z => z.getLsbD (j - 16)) h1
    simp only [BitVec.getLsbD_extractLsb', show j - 16 < 16 by omega, decide_true, Bool.true_and,
      show 16 + (j - 16) = j by omega] at this
    simp [h, this]

/-- The exponent vectors of the lower and upper lanes hold the powers of two after conversion. -/
theorem lane_pow2_conv (gcc : Bool) (F upper : M128) {i j k : Nat} (hi : i < 4)
    (h0 : lane 16 (2 * i) F = 0#16) (h1 : lane 16 (2 * i + 1) F = lane 16 j upper)
    (hu : lane 16 j upper = BitVec.ofNat 16 k <<< 7 + 0x3F80#16) (hk : k < 16) :
    lane 32 i (Pow2ConvF32ToI32 gcc F) = BitVec.ofNat 32 (2 ^ k) := by
  have hr : InReg 32 i := ⟨by omega, by omega⟩
  unfold Pow2ConvF32ToI32 cvtps
  rw [lane_map1 hr]
  have e : lane 32 i F = (BitVec.ofNat 16 k <<< 7 + 0x3F80#16) ++ 0#16 := by
    apply append_ext
    · rw [← h0]; exact (lane_sub 16 2 i 0 (by omega) F).symm
    · rw [← hu, ← h1]; exact (lane_sub 16 2 i 1 (by omega) F).symm
  rw [e]; exact cvt_pow2_16 _ ⟨k, hk⟩

theorem pack_pow2 : ∀ k : Fin 16, satLane false 16 (val true (BitVec.ofNat 32 (2 ^ k.val))) = BitVec.ofNat 16 (2 ^ k.val) := by
  decide +kernel
theorem low_pow2 : ∀ k : Fin 16, (BitVec.ofNat 32 (2 ^ k.val)).extractLsb' 0 16 = BitVec.ofNat 16 (2 ^ k.val) := by
  decide +kernel

theorem lane_zip0 (upper : M128) {i : Nat} (h : i < 8) :
    lane 16 i (InterleaveLower 16 zero upper) = if i % 2 = 0 then 0#16 else lane 16 (i / 2) upper := by
  have := C63_interleaveLower shape16 zero upper h
  rw [this]
  have e := lane_zero 16 (i / 2)
  split <;> simp_all [zero]
theorem lane_zip1 (t : Tgt) (upper : M128) {i : Nat} (h : i < 8) :
    lane 16 i (InterleaveUpper t 16 16 zero upper) = if i % 2 = 0 then 0#16 else lane 16 (4 + i / 2) upper := by
  have := C63_interleaveUpper t shape16 (by decide) zero upper h
  rw [this, show Lanes 16 16 / 2 = 4 from rfl]
  have e := lane_zero 16 (4 + i / 2)
  split <;> simp_all [zero]

theorem compact_even (X : M128) {i : Nat} (h : i < 4) :
    lane 16 i (TableLookupBytes .ssse3 X (of16 [0x0100, 0x0504, 0x0908, 0x0D0C])) = lane 16 (2 * i) X := by
  leaf1 h

theorem lane_pow2_16 (t : Tgt) (gcc : Bool) {sz : Nat} (hs : Shape 16 sz) (bits : M128) {i k : Nat} (h : i < Lanes 16 sz)
    (hk : (lane 16 i bits).toNat = k) (hlt : k < 16) :
    lane 16 i (Pow2_16 t gcc sz bits) = BitVec.ofNat 16 (2 ^ k) := by
  have hi8 : i < 8 := by unfold Lanes at h; unfold Shape at hs; omega
  have hr : InReg 16 i := ⟨by omega, by omega⟩
  have hu : lane 16 i (Add 16 (ShiftLeft 16 (23 - 16) bits) (set 16 0x3F80#16)) = BitVec.ofNat 16 k <<< 7 + 0x3F80#16 := by
    rw [lane_Add hr, lane_set hr, C62_shiftLeft hr _ _ (by omega), eq_ofNat hk]
  unfold Pow2_16
  simp only []
  generalize hU : Add 16 (ShiftLeft 16 (23 - 16) bits) (set 16 0x3F80#16) = U at *
  have lo_part : i < 4 → lane 32 i (Pow2ConvF32ToI32 gcc (InterleaveLower 16 zero U)) = BitVec.ofNat 32 (2 ^ k) := by
    intro h4
    apply lane_pow2_conv gcc _ U (j := i) h4 _ _ hu hlt
    · rw [lane_zip0 _ (by omega), if_pos (by omega)]
    · rw [lane_zip0 _ (by omega), if_neg (by omega), show (2 * i + 1) / 2 = i by omega]
  have hi_part : 4 ≤ i → lane 32 (i - 4) (Pow2ConvF32ToI32 gcc (InterleaveUpper t 16 16 zero U)) = BitVec.ofNat 32 (2 ^ k) := by
    intro h4
    apply lane_pow2_conv gcc _ U (j := i) (by omega) _ _ hu hlt
    · rw [lane_zip1 _ _ (by omega), if_pos (by omega)]
    · rw [lane_zip1 _ _ (by omega), if_neg (by omega), show 4 + (2 * (i - 4) + 1) / 2 = i by omega]
  have pk : ∀ X Y : M128, lane 16 i (packus 32 X Y) = satLane false 16 (val true (if i < 4 then lane 32 i X else lane 32 (i - 4) Y)) :=
    fun X Y => lane_pack false (Or.inr rfl) X Y hi8
  have ex : ∀ j r, lane 16 (2 * j) r = (lane 32 j r).extractLsb' 0 16 := fun j r => lane_sub 16 2 j 0 (by omega) r
  by_cases h16 : sz = 16
  · rw [if_pos h16]
    by_cases ht : t.val ≤ HWY_SSE4
    · rw [if_pos ht, pk]
      by_cases h4 : i < 4
      · rw [if_pos h4, lo_part h4]; exact pack_pow2 ⟨k, hlt⟩
      · rw [if_neg h4, hi_part (by omega)]; exact pack_pow2 ⟨k, hlt⟩
    · rw [if_neg ht, C63_concatEven t shape16 (by decide) _ _ hi8, show Lanes 16 16 / 2 = 4 from rfl]
      by_cases h4 : i < 4
      · rw [if_pos h4, ex, lo_part h4]; exact low_pow2 ⟨k, hlt⟩
      · rw [if_neg h4]
        rw [ex, hi_part (by omega)]; exact low_pow2 ⟨k, hlt⟩
  · have h4 : i < 4 := by unfold Lanes at h; unfold Shape at hs; omega
    rw [if_neg h16]
    by_cases ht : t.val ≤ HWY_SSE4
    · rw [if_pos ht, pk, if_pos h4, lo_part h4]; exact pack_pow2 ⟨k, hlt⟩
    · rw [if_neg ht]
      cases t
      · exact absurd (by decide) ht
      · exact absurd (by decide) ht
      · rw [if_pos (by decide), compact_even _ h4, ex, lo_part h4]; exact low_pow2 ⟨k, hlt⟩
      · rw [if_neg (by decide)]
        refine ((low16 _ h4).1).trans ?_
        rw [ex, lo_part h4]; exact low_pow2 ⟨k, hlt⟩

/-! ## Shifts of one lane type -/

theorem mul_pow2 {w k : Nat} (hk : k < w) (x : BitVec w) : x * BitVec.ofNat w (2 ^ k) = x <<< k := by
  apply BitVec.eq_of_toNat_eq
  have h2 : 2 ^ k < 2 ^ w := Nat.pow_lt_pow_right (by omega) hk
  rw [BitVec.toNat_mul, BitVec.toNat_ofNat, BitVec.toNat_shiftLeft, Nat.shiftLeft_eq, Nat.mod_eq_of_lt h2]

/-- A shift in wider lanes, truncated. -/
theorem shl_wide {f g k : Nat} (hfg : f ≤ g) (x : BitVec f) : ((x.setWidth g) <<< k).extractLsb' 0 f = x <<< k := by
  apply BitVec.eq_of_getLsbD_eq; intro j hj
  rw [BitVec.getLsbD_extractLsb', BitVec.getLsbD_shiftLeft, BitVec.getLsbD_setWidth, BitVec.getLsbD_shiftLeft]
  simp [hj, show j < g by omega, show j - k < g by omega]

theorem val_false_eq {w : Nat} (x : BitVec w) : val false x = (x.toNat : Int) := rfl

theorem zext_toNat {f g : Nat} (hfg : f ≤ g) (x : BitVec f) : (BitVec.ofInt g (val false x)).toNat = x.toNat := by
  rw [ofInt_val_ext]; simp only [Bool.false_eq_true, if_false]
  exact BitVec.toNat_setWidth_of_le hfg
theorem zext_eq {f g : Nat} (x : BitVec f) : BitVec.ofInt g (val false x) = x.setWidth g := by
  rw [ofInt_val_ext]; simp

theorem count1_eq (t : Tgt) {m : Nat} (hm : m = 8 ∨ m = 16) (bits : M128) :
    (lane 64 0 (count1 t m bits)).toNat = (lane m 0 bits).toNat := by
  have hr : InReg 64 0 := ⟨by omega, by omega⟩
  unfold count1
  split
  · rw [lane_cvtepu hr]; exact BitVec.toNat_setWidth_of_le (by omega)
  · have e : lane 64 0 (And bits (ofBytes (if m = 16 then [0xFF, 0xFF] else [0xFF]))) = (lane m 0 bits).setWidth 64 := by
      rcases hm with rfl | rfl
      · simp only [Nat.reduceEqDiff, if_false]
        apply zext_lane (f := 8) (m := 8) (by omega)
        intro j hj
        have : 8 * 0 + j < 8 := by omega
        rw [show (8 * 0 + j) = j by omega]
        have key : ∀ {k : Nat}, k < 8 → lane 8 k (And bits (ofBytes [0xFF])) = if k = 0 then lane 8 0 bits else 0#8 := by
          intro k hk; leaf0 hk
        exact key hj
      · simp only [if_true]
        apply zext_lane (f := 16) (m := 4) (by omega)
        intro j hj
        rw [show (4 * 0 + j) = j by omega]
        have key : ∀ {k : Nat}, k < 4 → lane 16 k (And bits (ofBytes [0xFF, 0xFF])) = if k = 0 then lane 16 0 bits else 0#16 := by
          intro k hk; leaf0 hk
        exact key hj
    rw [e]; exact BitVec.toNat_setWidth_of_le (by omega)

theorem count1_32_eq (t : Tgt) (bits : M128) : (lane 64 0 (count1_32 t bits)).toNat = (lane 32 0 bits).toNat := by
  have hr : InReg 64 0 := ⟨by omega, by omega⟩
  unfold count1_32
  split
  · rw [lane_cvtepu hr]; exact BitVec.toNat_setWidth_of_le (by omega)
  · have e : lane 64 0 (Combine 8 zero bits) = (lane 32 0 bits).setWidth 64 := by
      apply zext_lane (f := 32) (m := 2) (by omega)
      intro j hj
      rw [show (2 * 0 + j) = j by omega]
      have := C63_combine (w := 32) (sz := 8) (by simp [Shape]) (by decide) zero bits (i := j) hj
      rw [this]
      obtain rfl | rfl : j = 0 ∨ j = 1 := by omega
      · rfl
      · exact lane_zero 32 0
    rw [e]; exact BitVec.toNat_setWidth_of_le (by omega)

theorem lane_sll {w i : Nat} (h : InReg w i) (v c : M128) : lane w i (sll w v c) = lane w i v <<< (lane 64 0 c).toNat := lane_slli h _ v
theorem lane_srl {w i : Nat} (h : InReg w i) (v c : M128) : lane w i (srl w v c) = lane w i v >>> (lane 64 0 c).toNat := lane_srli h _ v
theorem lane_sra {w i : Nat} (h : InReg w i) (v c : M128) : lane w i (sra w v c) = (lane w i v).sshiftRight (lane 64 0 c).toNat :=
  lane_srai h _ v

theorem trunc_extract (t : Tgt) {n : Nat} (hn : n = 8 ∨ n = 16) {N : Nat} (hN : N = 1 ∨ N = 2 ∨ N = 4) (X : M128)
    {i : Nat} (h : i < N) : lane n i (TruncateTo t 32 n N X) = (lane 32 i X).extractLsb' 0 n := by
  have hp : Narrows 32 n := by rcases hn with rfl | rfl <;> simp [Narrows, Widens]
  rw [trunc_part t hp (by omega) (by omega) X h]
  rcases hn with rfl | rfl
  · exact lane_sub 8 4 i 0 (by omega) X
  · exact lane_sub 16 2 i 0 (by omega) X

theorem lane_sllv {w i : Nat} (h : InReg w i) (a b : M128) : lane w i (sllv w a b) = lane w i a <<< (lane w i b).toNat := lane_map2 h _ a b
theorem lane_srlv {w i : Nat} (h : InReg w i) (a b : M128) : lane w i (srlv w a b) = lane w i a >>> (lane w i b).toNat := lane_map2 h _ a b
theorem lane_srav {w i : Nat} (h : InReg w i) (a b : M128) : lane w i (srav w a b) = (lane w i a).sshiftRight (lane w i b).toNat :=
  lane_map2 h _ a b

theorem widens32 {f : Nat} (hf : f = 8 ∨ f = 16) : Widens f 32 := by rcases hf with rfl | rfl <;> simp [Widens]

/-- The AVX2 path of narrow left shifts in 128-bit registers. -/
theorem shl_via32 (t : Tgt) {f : Nat} (hf : f = 8 ∨ f = 16) {N : Nat} (hN : N = 1 ∨ N = 2 ∨ N = 4) (v bits : M128) {i : Nat} (h : i < N) :
    lane f i (TruncateTo t 32 f N (sllv 32 (PromoteTo t false f 32 v) (PromoteTo t false f 32 bits)))
      = lane f i v <<< (lane f i bits).toNat := by
  have hr : InReg 32 i := ⟨by omega, by omega⟩
  rw [trunc_extract t hf hN _ h, lane_sllv hr, lane_promote t false (widens32 hf) _ (by omega),
    lane_promote t false (widens32 hf) _ (by omega), zext_toNat (by omega), zext_eq, shl_wide (by omega)]

/-- The lanes of the AVX2 path in a 256-bit register. -/
theorem sllv256 {f : Nat} (hf : f = 8 ∨ f = 16) (v bits : M128) {i : Nat} (h : i < 8) :
    (lane256 32 i (blk2 (sllv 32) (PromoteTo256 false f 32 v) (PromoteTo256 false f 32 bits)))
      = (lane f i v).setWidth 32 <<< (lane f i bits).toNat := by
  unfold sllv
  rw [lane256_map2 (by omega) (by omega), lane256_promote false (widens32 hf) _ (by omega),
    lane256_promote false (widens32 hf) _ (by omega), zext_toNat (by omega), zext_eq]

theorem lane_Shl16 (t : Tgt) (gcc : Bool) {sz : Nat} (hs : Shape 16 sz) (v bits : M128) {i : Nat} (h : i < Lanes 16 sz)
    (hb : (lane 16 i bits).toNat < 16) :
    lane 16 i (Shl16 t gcc sz v bits) = lane 16 i v <<< (lane 16 i bits).toNat := by
  have hi8 : i < 8 := by unfold Lanes at h; unfold Shape at hs; omega
  have hr : InReg 16 i := ⟨by omega, by omega⟩
  unfold Shl16
  split
  · rename_i e; subst e
    have : i = 0 := by unfold Lanes at h; omega
    subst this
    rw [lane_sll hr, count1_eq t (Or.inr rfl)]
  · split
    · split
      · apply shl_via32 t (Or.inr rfl)
        · unfold Shape at hs; omega
        · unfold Lanes at h; omega
      · rw [trunc256_part (by omega) _ hi8, sllv256 (Or.inr rfl) _ _ hi8, shl_wide (by omega)]
    · have e : lane 16 i (Mul16 v (Pow2_16 t gcc sz bits)) = _ := lane_mullo false hr v _
      rw [e, ofInt_mul_val, lane_pow2_16 t gcc hs bits h rfl hb, mul_pow2 hb]

theorem lane_Shl32 (t : Tgt) (gcc : Bool) {sz : Nat} (hs : Shape 32 sz) (v bits : M128) {i : Nat} (h : i < Lanes 32 sz)
    (hb : (lane 32 i bits).toNat < 32) :
    lane 32 i (Shl32 t gcc sz v bits) = lane 32 i v <<< (lane 32 i bits).toNat := by
  have hi4 : i < 4 := by unfold Lanes at h; unfold Shape at hs; omega
  have hr : InReg 32 i := ⟨by omega, by omega⟩
  unfold Shl32
  split
  · split
    · rename_i e; subst e
      have : i = 0 := by unfold Lanes at h; omega
      subst this
      rw [lane_sll hr, count1_32_eq]
    · rw [lane_Mul32 t _ _ hi4, lane_pow2_32 gcc bits hi4 rfl hb, mul_pow2 hb]
  · exact lane_sllv hr v bits

theorem upper64 (b : M128) : lane 64 0 (unpackhi 64 b b) = lane 64 1 b := lane_mk (by omega) (by omega) _

theorem lane_Shl64 (t : Tgt) {sz : Nat} (hs : Shape 64 sz) (v bits : M128) {i : Nat} (h : i < Lanes 64 sz) :
    lane 64 i (Shl64 t sz v bits) = lane 64 i v <<< (lane 64 i bits).toNat := by
  have hi2 : i < 2 := by unfold Lanes at h; unfold Shape at hs; omega
  have hr : InReg 64 i := ⟨by omega, by omega⟩
  unfold Shl64
  split
  · rename_i e; subst e
    have : i = 0 := by unfold Lanes at h; omega
    subst this
    exact lane_sll hr v bits
  · split
    · rw [C63_concatUpperLower t (w := 64) (sz := 16) (by simp [Shape]) (by decide) _ _ hi2, show Lanes 64 16 / 2 = 1 from rfl]
      obtain rfl | rfl : i = 0 ∨ i = 1 := by omega
      · exact lane_sll hr v bits
      · rw [if_neg (by omega), lane_sll hr, upper64]
    · exact lane_sllv hr v bits

/-- The byte lanes of 16-bit lanes. -/
theorem even_byte (j : Nat) (r : M128) : lane 8 (2 * j) r = (lane 16 j r).extractLsb' 0 8 := lane_sub 8 2 j 0 (by omega) r
theorem odd_byte (j : Nat) (r : M128) : lane 8 (2 * j + 1) r = (lane 16 j r).extractLsb' 8 8 := lane_sub 8 2 j 1 (by omega) r

theorem and_ff (x : BitVec 16) : (x &&& 0x00FF#16) = (x.extractLsb' 0 8).setWidth 16 := by
  apply BitVec.eq_of_toNat_eq
  rw [BitVec.toNat_and, BitVec.toNat_setWidth, BitVec.extractLsb'_toNat, Nat.shiftRight_zero]
  have := Nat.and_two_pow_sub_one_eq_mod x.toNat 8
  simp only [Nat.reducePow, Nat.reduceSub] at this
  rw [show (0x00FF#16).toNat = 255 from rfl, this]
  omega
theorem shr_8 (x : BitVec 16) : x >>> 8 = (x.extractLsb' 8 8).setWidth 16 := by
  apply BitVec.eq_of_toNat_eq
  have := x.isLt
  rw [BitVec.toNat_ushiftRight, BitVec.toNat_setWidth, BitVec.extractLsb'_toNat, Nat.shiftRight_eq_div_pow]
  omega

theorem shl_low (x : BitVec 16) (k : Nat) : (x <<< k).extractLsb' 0 8 = x.extractLsb' 0 8 <<< k := by
  apply BitVec.eq_of_getLsbD_eq; intro j hj
  simp only [BitVec.getLsbD_extractLsb', BitVec.getLsbD_shiftLeft, hj, decide_true, Bool.true_and, Nat.zero_add,
    show j < 16 by omega, show j - k < 8 by omega]
theorem shl_high (x : BitVec 16) (k : Nat) : ((x &&& 0xFF00#16) <<< k).extractLsb' 8 8 = x.extractLsb' 8 8 <<< k := by
  apply BitVec.eq_of_getLsbD_eq; intro j hj
  have hc : ∀ n : Fin 16, (0xFF00#16).getLsbD n.val = decide (8 ≤ n.val) := by decide
  simp only [BitVec.getLsbD_extractLsb', BitVec.getLsbD_shiftLeft, BitVec.getLsbD_and, hj, decide_true, Bool.true_and,
    show 8 + j < 16 by omega]
  by_cases h : j < k
  · by_cases h2 : 8 + j < k
    · simp [h, h2]
    · have e := hc ⟨8 + j - k, by omega⟩
      simp only at e
      simp [h, e, show ¬ 8 ≤ 8 + j - k by omega]
  · have e := hc ⟨8 + j - k, by omega⟩
    simp only at e
    rw [e]
    simp [h, show ¬ 8 + j < k by omega, show j - k < 8 by omega, show 8 + j - k = 8 + (j - k) by omega]

theorem lane_Shl8 (t : Tgt) (gcc : Bool) {sz : Nat} (hs : Shape 8 sz) (v bits : M128) {i : Nat} (h : i < Lanes 8 sz)
    (hb : (lane 8 i bits).toNat < 8) :
    lane 8 i (Shl8 t gcc sz v bits) = lane 8 i v <<< (lane 8 i bits).toNat := by
  have hi : i < sz := by unfold Lanes at h; omega
  have hsz : sz = 1 ∨ sz = 2 ∨ sz = 4 ∨ sz = 8 ∨ sz = 16 := by unfold Shape at hs; omega
  have hr : InReg 8 i := ⟨by omega, by omega⟩
  unfold Shl8
  split
  · rename_i e; subst e
    have : i = 0 := by omega
    subst this
    rw [even_byte 0, lane_sll ⟨by omega, by omega⟩, count1_eq t (Or.inl rfl), shl_low, ← even_byte 0]
  · split
    · split
      · exact shl_via32 t (Or.inl rfl) (by omega) v bits hi
      · split
        · rw [trunc256_part (by omega) _ (by omega), sllv256 (Or.inl rfl) _ _ (by omega), shl_wide (by omega)]
        · have h16 : sz = 16 := by omega
          subst h16
          rw [trunc256_part (Or.inr ⟨rfl, rfl⟩) _ (by omega), concatEven16_256 _ _ (by omega)]
          have e : ∀ x : BitVec 32, (x.extractLsb' 0 16).extractLsb' 0 8 = x.extractLsb' 0 8 := by
            intro x; apply BitVec.eq_of_getLsbD_eq; intro j hj
            simp [hj]
          by_cases h8 : i < 8
          · rw [if_pos h8, sllv256 (Or.inl rfl) _ _ h8, e, shl_wide (by omega)]; rfl
          · rw [if_neg h8, sllv256 (Or.inl rfl) _ _ (by omega), e, shl_wide (by omega),
              C63_upperHalf t (w := 8) (sz := 8) (by simp [Shape]) (by omega) v (by unfold Lanes; omega),
              C63_upperHalf t (w := 8) (sz := 8) (by simp [Shape]) (by omega) bits (by unfold Lanes; omega)]
            rw [show Lanes 8 8 + (i - 8) = i by unfold Lanes; omega]
    · have hs16 : Shape 16 sz := by unfold Shape; omega
      rw [C63_oddEven t hs _ _ h]
      by_cases ho : i % 2 = 1
      · obtain ⟨j, rfl⟩ : ∃ j, i = 2 * j + 1 := ⟨i / 2, by omega⟩
        have hj : j < Lanes 16 sz := by unfold Lanes; omega
        have hrj : InReg 16 j := ⟨by omega, by omega⟩
        have hc : (lane 16 j (ShiftRightU 16 8 bits)).toNat = (lane 8 (2 * j + 1) bits).toNat := by
          rw [C62_shiftRight_unsigned hrj _ _ (by omega), shr_8, odd_byte]; exact BitVec.toNat_setWidth_of_le (by omega)
        rw [if_pos ho, odd_byte j, lane_Shl16 t gcc hs16 _ _ hj (by omega), hc, lane_And, lane_set hrj, shl_high, ← odd_byte]
      · obtain ⟨j, rfl⟩ : ∃ j, i = 2 * j := ⟨i / 2, by omega⟩
        have hj : j < Lanes 16 sz := by unfold Lanes; omega
        have hrj : InReg 16 j := ⟨by omega, by omega⟩
        have hc : (lane 16 j (And bits (set 16 0x00FF#16))).toNat = (lane 8 (2 * j) bits).toNat := by
          rw [lane_And, lane_set hrj, and_ff, even_byte]; exact BitVec.toNat_setWidth_of_le (by omega)
        rw [if_neg ho, even_byte j, lane_Shl16 t gcc hs16 _ _ hj (by omega), hc, shl_low, ← even_byte]

/-- `v << bits`: every lane is shifted left by the count in the same lane of `bits`, which must be less than the lane width.
Signed and unsigned lanes behave alike. -/
theorem C67_shl (t : Tgt) (gcc : Bool) {w sz : Nat} (hs : Shape w sz) (v bits : M128) {i : Nat} (h : i < Lanes w sz)
    (hb : (lane w i bits).toNat < w) :
    lane w i (Shl t gcc w sz v bits) = lane w i v <<< (lane w i bits).toNat := by
  have hw : w = 8 ∨ w = 16 ∨ w = 32 ∨ w = 64 := by unfold Shape at hs; omega
  unfold Shl
  rcases hw with rfl | rfl | rfl | rfl
  · rw [if_pos rfl]; exact lane_Shl8 t gcc hs v bits h hb
  · rw [if_neg (by omega), if_pos rfl]; exact lane_Shl16 t gcc hs v bits h hb
  · rw [if_neg (by omega), if_neg (by omega), if_pos rfl]; exact lane_Shl32 t gcc hs v bits h hb
  · rw [if_neg (by omega), if_neg (by omega), if_neg (by omega)]; exact lane_Shl64 t hs v bits h

end Hwy.X86
