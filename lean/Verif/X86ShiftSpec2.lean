import Verif.X86ShiftSpec

/-!
# C67: right shifts by a count per lane
-/

namespace Hwy.X86

/-- `x >> k`: arithmetic for signed lanes, logical for unsigned ones. -/
def shrLane (signed : Bool) {w : Nat} (x : BitVec w) (k : Nat) : BitVec w := if signed then x.sshiftRight k else x >>> k

theorem val_shrLane (s : Bool) {w : Nat} (x : BitVec w) (k : Nat) : val s (shrLane s x k) = val s x / 2 ^ k := by
  cases s
  · simp only [val, shrLane, Bool.false_eq_true, if_false, BitVec.toNat_ushiftRight, Nat.shiftRight_eq_div_pow]
    push_cast; rfl
  · simp only [val, shrLane, if_true, BitVec.toInt_sshiftRight, Int.shiftRight_eq_div_pow]
    push_cast; rfl

theorem satLane_val (s : Bool) {n : Nat} (hn : NarrowW n) (x : BitVec n) : satLane s n (val s x) = x := by
  have h := val_range s hn x
  unfold satLane
  rw [Int.min_eq_left h.2, Int.max_eq_right h.1, ofInt_val]

theorem narrow8_16 {f : Nat} (hf : f = 8 ∨ f = 16) : NarrowW f := by rcases hf with rfl | rfl <;> simp [NarrowW]

/-- The value of a narrow lane, shifted in a 32-bit lane. -/
theorem val_wide_shr (s : Bool) {f : Nat} (hf : f = 8 ∨ f = 16) (x : BitVec f) (k : Nat) :
    val true (shrLane s (BitVec.ofInt 32 (val s x)) k) = val s (shrLane s x k) := by
  rw [val_shrLane]
  cases s
  · have e : ((BitVec.ofInt 32 (val false x)) >>> k).toNat = x.toNat / 2 ^ k := by
      rw [BitVec.toNat_ushiftRight, zext_toNat (by omega), Nat.shiftRight_eq_div_pow]
    have hx : x.toNat < 2 ^ 16 := Nat.lt_of_lt_of_le x.isLt (Nat.pow_le_pow_right (by omega) (by omega))
    have hle : x.toNat / 2 ^ k ≤ x.toNat := Nat.div_le_self _ _
    have e2 : val false x / 2 ^ k = ((x.toNat / 2 ^ k : Nat) : Int) := by
      simp only [val, Bool.false_eq_true, if_false]; push_cast; rfl
    rw [e2]
    show BitVec.toInt _ = _
    simp only [shrLane, Bool.false_eq_true, if_false]
    rw [BitVec.toInt_eq_toNat_of_lt (by rw [e]; omega), e]
  · rw [val_shrLane true, val_ofInt_val true true (widens32 hf) (by simp)]

theorem narrow_shr (s : Bool) {f : Nat} (hf : f = 8 ∨ f = 16) (x : BitVec f) (k : Nat) :
    satLane s f (val true (shrLane s (BitVec.ofInt 32 (val s x)) k)) = shrLane s x k := by
  rw [val_wide_shr s hf, satLane_val s (narrow8_16 hf)]

/-- Through 16-bit lanes, as the 16-byte vectors of bytes go. -/
theorem narrow_shr_2 (s : Bool) (x : BitVec 8) (k : Nat) :
    satLane s 8 (val true (satLane s 16 (val true (shrLane s (BitVec.ofInt 32 (val s x)) k)))) = shrLane s x k := by
  rw [val_wide_shr s (Or.inl rfl)]
  generalize shrLane s x k = y
  have h := val_range s (n := 8) (by simp [NarrowW]) y
  have e : val true (satLane s 16 (val s y)) = val s y := by
    have hlo : lo s 16 ≤ val s y ∧ val s y ≤ hi s 16 := by
      cases s <;> simp [lo, hi] at h ⊢ <;> omega
    unfold satLane
    rw [Int.min_eq_left hlo.2, Int.max_eq_right hlo.1]
    have : -32768 ≤ val s y ∧ val s y < 32768 := by cases s <;> simp [lo, hi] at h <;> omega
    exact BitVec.toInt_ofInt_eq_self (by omega) (by simpa using this.1) (by simpa using this.2)
  rw [e, satLane_val s (by simp [NarrowW])]

theorem count_ext (s : Bool) {f : Nat} (hf : f = 8 ∨ f = 16) (b : BitVec f) (hb : b.toNat < f) :
    (BitVec.ofInt 32 (val s b)).toNat = b.toNat := by
  cases s
  · exact zext_toNat (by omega) b
  · have e : val true b = val false b := by
      show b.toInt = (b.toNat : Int)
      apply BitVec.toInt_eq_toNat_of_lt
      rcases hf with rfl | rfl <;> omega
    rw [e]; exact zext_toNat (by omega) b

theorem lane_shrv (s : Bool) {w i : Nat} (h : InReg w i) (a b : M128) :
    lane w i ((cond s srav srlv) w a b) = shrLane s (lane w i a) (lane w i b).toNat := by
  cases s
  · exact lane_srlv h a b
  · exact lane_srav h a b

theorem shrv_via32 (t : Tgt) (s : Bool) {f : Nat} (hf : f = 8 ∨ f = 16) (v bits : M128) {i : Nat} (h : i < 4)
    (hb : (lane f i bits).toNat < f) :
    lane 32 i ((cond s srav srlv) 32 (PromoteTo t s f 32 v) (PromoteTo t s f 32 bits))
      = shrLane s (BitVec.ofInt 32 (val s (lane f i v))) (lane f i bits).toNat := by
  have hr : InReg 32 i := ⟨by omega, by omega⟩
  rw [lane_shrv s hr, lane_promote t s (widens32 hf) _ (by omega), lane_promote t s (widens32 hf) _ (by omega), count_ext s hf _ hb]

theorem shrv256 (s : Bool) {f : Nat} (hf : f = 8 ∨ f = 16) (v bits : M128) {i : Nat} (h : i < 8)
    (hb : (lane f i bits).toNat < f) :
    lane256 32 i (blk2 ((cond s srav srlv) 32) (PromoteTo256 s f 32 v) (PromoteTo256 s f 32 bits))
      = shrLane s (BitVec.ofInt 32 (val s (lane f i v))) (lane f i bits).toNat := by
  have e : lane256 32 i (blk2 ((cond s srav srlv) 32) (PromoteTo256 s f 32 v) (PromoteTo256 s f 32 bits))
      = shrLane s (lane256 32 i (PromoteTo256 s f 32 v)) (lane256 32 i (PromoteTo256 s f 32 bits)).toNat := by
    cases s
    · show lane256 32 i (blk2 (srlv 32) _ _) = _
      unfold srlv; rw [lane256_map2 (by omega) (by omega)]; rfl
    · show lane256 32 i (blk2 (srav 32) _ _) = _
      unfold srav; rw [lane256_map2 (by omega) (by omega)]; rfl
  rw [e, lane256_promote s (widens32 hf) _ (by omega), lane256_promote s (widens32 hf) _ (by omega), count_ext s hf _ hb]

/-- The 16-byte AVX2 path of byte lanes. -/
theorem shr8_full (t : Tgt) (s : Bool) (v bits : M128) {i : Nat} (h : i < 16) (hb : (lane 8 i bits).toNat < 8) :
    lane 8 i (DemoteI16_256 s (OrderedDemote2I32_256 s
      (blk2 ((cond s srav srlv) 32) (PromoteTo256 s 8 32 (LowerHalf v)) (PromoteTo256 s 8 32 (LowerHalf bits)))
      (blk2 ((cond s srav srlv) 32) (PromoteTo256 s 8 32 (UpperHalf t 8 8 v)) (PromoteTo256 s 8 32 (UpperHalf t 8 8 bits)))))
      = shrLane s (lane 8 i v) (lane 8 i bits).toNat := by
  rw [demoteI16_256 s _ h, orderedDemote2I32_256 s _ _ h]
  by_cases h8 : i < 8
  · rw [if_pos h8, shrv256 s (Or.inl rfl) (LowerHalf v) (LowerHalf bits) h8 hb, narrow_shr_2]; rfl
  · have eu : ∀ r : M128, lane 8 (i - 8) (UpperHalf t 8 8 r) = lane 8 i r := by
      intro r
      rw [C63_upperHalf t (w := 8) (sz := 8) (by simp [Shape]) (by omega) r (by unfold Lanes; omega),
        show Lanes 8 8 + (i - 8) = i by unfold Lanes; omega]
    rw [if_neg h8, shrv256 s (Or.inl rfl) _ _ (by omega) (by rw [eu]; exact hb), narrow_shr_2, eu, eu]

/-! ## Unsigned lanes through multiplication -/

theorem mulhi_shr {w : Nat} {x : BitVec w} {k : Nat} (hk : 0 < k) (hkw : k < w) :
    BitVec.ofInt w (val false x * val false (BitVec.ofNat w (2 ^ (w - k))) / 2 ^ w) = x >>> k := by
  apply BitVec.eq_of_toNat_eq
  have h2 : 2 ^ (w - k) < 2 ^ w := Nat.pow_lt_pow_right (by omega) (by omega)
  have e1 : val false x * val false (BitVec.ofNat w (2 ^ (w - k))) / 2 ^ w = ((x.toNat / 2 ^ k : Nat) : Int) := by
    simp only [val, Bool.false_eq_true, if_false, BitVec.toNat_ofNat, Nat.mod_eq_of_lt h2]
    have e : x.toNat * 2 ^ (w - k) / 2 ^ w = x.toNat / 2 ^ k := by
      have hp : 2 ^ w = 2 ^ k * 2 ^ (w - k) := by rw [← Nat.pow_add]; congr 1; omega
      rw [hp, Nat.mul_div_mul_right _ _ (Nat.two_pow_pos _)]
    rw [← e]; push_cast; rfl
  rw [e1, BitVec.toNat_ushiftRight, Nat.shiftRight_eq_div_pow, BitVec.toNat_ofInt, ← Int.natCast_emod, Int.toNat_natCast]
  exact Nat.mod_eq_of_lt (Nat.lt_of_le_of_lt (Nat.div_le_self _ _) x.isLt)

theorem lane_ShrU16 (t : Tgt) (gcc : Bool) {sz : Nat} (hs : Shape 16 sz) (v bits : M128) {i : Nat} (h : i < Lanes 16 sz)
    (hb : (lane 16 i bits).toNat < 16) :
    lane 16 i (ShrU16 t gcc sz v bits) = lane 16 i v >>> (lane 16 i bits).toNat := by
  have hi8 : i < 8 := by unfold Lanes at h; unfold Shape at hs; omega
  have hr : InReg 16 i := ⟨by omega, by omega⟩
  unfold ShrU16
  split
  · rename_i e; subst e
    have : i = 0 := by unfold Lanes at h; omega
    subst this
    rw [lane_srl hr, count1_eq t (Or.inr rfl)]
  · split
    · split
      · have h4 : i < 4 := by unfold Lanes at h; omega
        rw [demoteI32U16 t _ h4]
        exact (congrArg (fun y => satLane false 16 (val true y)) (shrv_via32 t false (Or.inr rfl) v bits h4 hb)).trans
          (narrow_shr false (Or.inr rfl) _ _)
      · rw [demoteI32_256 false (Or.inl rfl) _ hi8]
        exact (congrArg (fun y => satLane false 16 (val true y)) (shrv256 false (Or.inr rfl) v bits hi8 hb)).trans
          (narrow_shr false (Or.inr rfl) _ _)
    · have hm : lane 16 i (Eq t 16 bits zero) = maskLane 16 (lane 16 i bits = 0#16) := by
        rw [C62_eq t hr, show lane 16 i zero = 0#16 from lane_zero _ _]; rfl
      simp only []
      rw [lane_IfThenElse t hr _ _ _ _ hm]
      split
      · rename_i e; rw [e]; simp
      · rename_i e
        have hk : 0 < (lane 16 i bits).toNat := by
          rcases Nat.eq_zero_or_pos (lane 16 i bits).toNat with h0 | h0
          · exact absurd (BitVec.eq_of_toNat_eq (by simpa using h0)) e
          · exact h0
        have hk2 : (lane 16 i (Sub 16 (set 16 16#16) bits)).toNat = 16 - (lane 16 i bits).toNat := by
          rw [lane_Sub hr, lane_set hr, BitVec.toNat_sub]
          generalize (lane 16 i bits).toNat = k at *
          show (2 ^ 16 - k + 16) % 2 ^ 16 = _
          omega
        rw [lane_mulhi false hi8, lane_pow2_16 t gcc hs _ h hk2 (by omega), mulhi_shr hk hb]

theorem shr_low (x : BitVec 16) (k : Nat) : ((x &&& 0x00FF#16) >>> k).extractLsb' 0 8 = x.extractLsb' 0 8 >>> k := by
  rw [and_ff]
  apply BitVec.eq_of_getLsbD_eq; intro j hj
  simp only [BitVec.getLsbD_extractLsb', BitVec.getLsbD_ushiftRight, BitVec.getLsbD_setWidth, hj, decide_true, Bool.true_and, Nat.zero_add]
  by_cases hk : k + j < 8
  · simp [hk, show k + j < 16 by omega]
  · simp [hk]
theorem shr_high (x : BitVec 16) (k : Nat) : (x >>> k).extractLsb' 8 8 = x.extractLsb' 8 8 >>> k := by
  apply BitVec.eq_of_getLsbD_eq; intro j hj
  simp only [BitVec.getLsbD_extractLsb', BitVec.getLsbD_ushiftRight, hj, decide_true, Bool.true_and]
  by_cases hk : k + j < 8
  · simp [hk, show k + (8 + j) = 8 + (k + j) by omega]
  · rw [BitVec.getLsbD_of_ge _ _ (by omega : 16 ≤ k + (8 + j))]; simp [hk]

theorem lane_ShrU8 (t : Tgt) (gcc : Bool) {sz : Nat} (hs : Shape 8 sz) (v bits : M128) {i : Nat} (h : i < Lanes 8 sz)
    (hb : (lane 8 i bits).toNat < 8) :
    lane 8 i (ShrU8 t gcc sz v bits) = lane 8 i v >>> (lane 8 i bits).toNat := by
  have hi : i < sz := by unfold Lanes at h; omega
  have hsz : sz = 1 ∨ sz = 2 ∨ sz = 4 ∨ sz = 8 ∨ sz = 16 := by unfold Shape at hs; omega
  have hr : InReg 8 i := ⟨by omega, by omega⟩
  unfold ShrU8
  split
  · rename_i e; subst e
    have : i = 0 := by omega
    subst this
    have e : ∀ x : BitVec 8, ∀ k : Nat, (x.setWidth 16 >>> k).extractLsb' 0 8 = x >>> k := by
      intro x k
      apply BitVec.eq_of_getLsbD_eq; intro j hj
      simp only [BitVec.getLsbD_extractLsb', BitVec.getLsbD_ushiftRight, BitVec.getLsbD_setWidth, hj, decide_true, Bool.true_and, Nat.zero_add]
      by_cases hk : k + j < 8
      · simp [show k + j < 16 by omega]
      · rw [BitVec.getLsbD_of_ge _ _ (by omega : 8 ≤ k + j)]; simp
    simp only []
    rw [even_byte 0, lane_srl ⟨by omega, by omega⟩, count1_eq t (Or.inl rfl)]
    have e8 : lane 16 0 (if t.val ≤ HWY_SSE4 then cvtepu 8 16 v else And v (ofBytes [0xFF])) = (lane 8 0 v).setWidth 16 := by
      split
      · exact lane_cvtepu ⟨by omega, by omega⟩ v
      · apply zext_lane (f := 8) (m := 2) (by omega)
        intro j hj
        rw [show (2 * 0 + j) = j by omega]
        have key : ∀ {k : Nat}, k < 8 → lane 8 k (And v (ofBytes [0xFF])) = if k = 0 then lane 8 0 v else 0#8 := by
          intro k hk; leaf0 hk
        exact key (by omega)
    rw [e8, e]
  · split
    · split
      · rw [demoteI32U8 _ (by omega)]
        exact (congrArg (fun y => satLane false 8 (val true y)) (shrv_via32 t false (Or.inl rfl) v bits (by omega) hb)).trans
          (narrow_shr false (Or.inl rfl) _ _)
      · split
        · rw [demoteI32_256 false (Or.inr rfl) _ (by omega)]
          exact (congrArg (fun y => satLane false 8 (val true y)) (shrv256 false (Or.inl rfl) v bits (by omega) hb)).trans
            (narrow_shr false (Or.inl rfl) _ _)
        · exact shr8_full t false v bits (by omega) hb
    · have hs16 : Shape 16 sz := by unfold Shape; omega
      simp only []
      rw [C63_oddEven t hs _ _ h]
      by_cases ho : i % 2 = 1
      · obtain ⟨j, rfl⟩ : ∃ j, i = 2 * j + 1 := ⟨i / 2, by omega⟩
        have hj : j < Lanes 16 sz := by unfold Lanes; omega
        have hrj : InReg 16 j := ⟨by omega, by omega⟩
        have hc : (lane 16 j (ShiftRightU 16 8 bits)).toNat = (lane 8 (2 * j + 1) bits).toNat := by
          rw [C62_shiftRight_unsigned hrj _ _ (by omega), shr_8, odd_byte]; exact BitVec.toNat_setWidth_of_le (by omega)
        rw [if_pos ho, odd_byte j, lane_ShrU16 t gcc hs16 _ _ hj (by omega), hc, shr_high, ← odd_byte]
      · obtain ⟨j, rfl⟩ : ∃ j, i = 2 * j := ⟨i / 2, by omega⟩
        have hj : j < Lanes 16 sz := by unfold Lanes; omega
        have hrj : InReg 16 j := ⟨by omega, by omega⟩
        have hc : (lane 16 j (And bits (set 16 0x00FF#16))).toNat = (lane 8 (2 * j) bits).toNat := by
          rw [lane_And, lane_set hrj, and_ff, even_byte]; exact BitVec.toNat_setWidth_of_le (by omega)
        rw [if_neg ho, even_byte j, lane_ShrU16 t gcc hs16 _ _ hj (by omega), hc, lane_And, lane_set hrj, shr_low, ← even_byte]

theorem lane_ShrU32 (t : Tgt) (gcc : Bool) {sz : Nat} (hs : Shape 32 sz) (v bits : M128) {i : Nat} (h : i < Lanes 32 sz)
    (hb : (lane 32 i bits).toNat < 32) :
    lane 32 i (ShrU32 t gcc sz v bits) = lane 32 i v >>> (lane 32 i bits).toNat := by
  have hi4 : i < 4 := by unfold Lanes at h; unfold Shape at hs; omega
  have hr : InReg 32 i := ⟨by omega, by omega⟩
  unfold ShrU32
  split
  · split
    · rename_i e; subst e
      have : i = 0 := by unfold Lanes at h; omega
      subst this
      rw [lane_srl hr, count1_32_eq]
    · have hm : lane 32 i (Eq t 32 bits zero) = maskLane 32 (lane 32 i bits = 0#32) := by
        rw [C62_eq t hr, show lane 32 i zero = 0#32 from lane_zero _ _]; rfl
      simp only []
      rw [lane_IfThenElse t hr _ _ _ _ hm]
      split
      · rename_i e; rw [e]; simp
      · rename_i e
        have hk : 0 < (lane 32 i bits).toNat := by
          rcases Nat.eq_zero_or_pos (lane 32 i bits).toNat with h0 | h0
          · exact absurd (BitVec.eq_of_toNat_eq (by simpa using h0)) e
          · exact h0
        have hk2 : (lane 32 i (Sub 32 (set 32 32#32) bits)).toNat = 32 - (lane 32 i bits).toNat := by
          rw [lane_Sub hr, lane_set hr, BitVec.toNat_sub]
          generalize (lane 32 i bits).toNat = k at *
          show (2 ^ 32 - k + 32) % 2 ^ 32 = _
          omega
        have hp := lane_pow2_32 gcc (Sub 32 (set 32 32#32) bits) hi4 hk2 (by omega)
        rw [C63_oddEven t hs _ _ h]
        by_cases ho : i % 2 = 1
        · obtain ⟨j, rfl⟩ : ∃ j, i = 2 * j + 1 := ⟨i / 2, by omega⟩
          have ex : ∀ r, lane 32 (2 * j) (shuffle32 r 0x31) = lane 32 (2 * j + 1) r := by
            intro r
            rw [lane_shuffle32 (by omega)]
            obtain rfl | rfl : j = 0 ∨ j = 1 := by omega
            · rfl
            · rfl
          rw [if_pos ho, even_hi (by omega), ex, ex, hp, mulhi_shr hk hb]
        · obtain ⟨j, rfl⟩ : ∃ j, i = 2 * j := ⟨i / 2, by omega⟩
          rw [if_neg ho, shr32_lo (by omega), even_hi (by omega), hp, mulhi_shr hk hb]
  · exact lane_srlv hr v bits

theorem lane_ShrU64 (t : Tgt) {sz : Nat} (hs : Shape 64 sz) (v bits : M128) {i : Nat} (h : i < Lanes 64 sz) :
    lane 64 i (ShrU64 t sz v bits) = lane 64 i v >>> (lane 64 i bits).toNat := by
  have hi2 : i < 2 := by unfold Lanes at h; unfold Shape at hs; omega
  have hr : InReg 64 i := ⟨by omega, by omega⟩
  unfold ShrU64
  split
  · rename_i e; subst e
    have : i = 0 := by unfold Lanes at h; omega
    subst this
    exact lane_srl hr v bits
  · split
    · simp only []
      rw [C63_concatUpperLower t (w := 64) (sz := 16) (by simp [Shape]) (by decide) _ _ hi2, show Lanes 64 16 / 2 = 1 from rfl]
      obtain rfl | rfl : i = 0 ∨ i = 1 := by omega
      · exact lane_srl hr v bits
      · rw [if_neg (by omega), lane_srl hr, upper64]
    · exact lane_srlv hr v bits

theorem lane_ShrU (t : Tgt) (gcc : Bool) {w sz : Nat} (hs : Shape w sz) (v bits : M128) {i : Nat} (h : i < Lanes w sz)
    (hb : (lane w i bits).toNat < w) :
    lane w i (ShrU t gcc w sz v bits) = lane w i v >>> (lane w i bits).toNat := by
  have hw : w = 8 ∨ w = 16 ∨ w = 32 ∨ w = 64 := by unfold Shape at hs; omega
  unfold ShrU
  rcases hw with rfl | rfl | rfl | rfl
  · rw [if_pos rfl]; exact lane_ShrU8 t gcc hs v bits h hb
  · rw [if_neg (by omega), if_pos rfl]; exact lane_ShrU16 t gcc hs v bits h hb
  · rw [if_neg (by omega), if_neg (by omega), if_pos rfl]; exact lane_ShrU32 t gcc hs v bits h hb
  · rw [if_neg (by omega), if_neg (by omega), if_neg (by omega)]; exact lane_ShrU64 t hs v bits h

/-! ## Signed lanes -/

theorem lane_SignedShr (t : Tgt) (gcc : Bool) {w sz : Nat} (hs : Shape w sz) (v bits : M128) {i : Nat} (h : i < Lanes w sz)
    (hb : (lane w i bits).toNat < w) :
    lane w i (SignedShr t gcc w sz v bits) = (lane w i v).sshiftRight (lane w i bits).toNat := by
  have hw : w = 8 ∨ w = 16 ∨ w = 32 ∨ w = 64 := by unfold Shape at hs; omega
  have hr : InReg w i := ⟨by omega, by
    unfold Lanes at h; unfold Shape at hs
    rcases hw with rfl | rfl | rfl | rfl <;> omega⟩
  unfold SignedShr
  simp only []
  rw [lane_Xor, lane_ShrU t gcc hs _ _ h hb, lane_Xor, C62_broadcastSignBit t hr]
  split
  · rename_i hn
    have hm : (lane w i v).msb = true := by
      rw [BitVec.msb_eq_toInt]; simpa using hn
    rw [BitVec.sshiftRight_eq_of_msb_true hm, BitVec.xor_allOnes, BitVec.xor_allOnes]
  · rename_i hn
    have hm : (lane w i v).msb = false := by
      rw [BitVec.msb_eq_toInt]; simpa using hn
    rw [BitVec.sshiftRight_eq_of_msb_false hm]; simp

theorem lane_ShrI16 (t : Tgt) (gcc : Bool) {sz : Nat} (hs : Shape 16 sz) (v bits : M128) {i : Nat} (h : i < Lanes 16 sz)
    (hb : (lane 16 i bits).toNat < 16) :
    lane 16 i (ShrI16 t gcc sz v bits) = (lane 16 i v).sshiftRight (lane 16 i bits).toNat := by
  have hi8 : i < 8 := by unfold Lanes at h; unfold Shape at hs; omega
  have hr : InReg 16 i := ⟨by omega, by omega⟩
  unfold ShrI16
  split
  · rename_i e; subst e
    have : i = 0 := by unfold Lanes at h; omega
    subst this
    rw [lane_sra hr, count1_eq t (Or.inr rfl)]
  · split
    · split
      · have h4 : i < 4 := by unfold Lanes at h; omega
        rw [demoteI32I16 _ h4]
        exact (congrArg (fun y => satLane true 16 (val true y)) (shrv_via32 t true (Or.inr rfl) v bits h4 hb)).trans
          (narrow_shr true (Or.inr rfl) _ _)
      · rw [demoteI32_256 true (Or.inl rfl) _ hi8]
        exact (congrArg (fun y => satLane true 16 (val true y)) (shrv256 true (Or.inr rfl) v bits hi8 hb)).trans
          (narrow_shr true (Or.inr rfl) _ _)
    · exact lane_SignedShr t gcc hs v bits h hb

theorem lane_ShrI8 (t : Tgt) (gcc : Bool) {sz : Nat} (hs : Shape 8 sz) (v bits : M128) {i : Nat} (h : i < Lanes 8 sz)
    (hb : (lane 8 i bits).toNat < 8) :
    lane 8 i (ShrI8 t gcc sz v bits) = (lane 8 i v).sshiftRight (lane 8 i bits).toNat := by
  have hi : i < sz := by unfold Lanes at h; omega
  have hsz : sz = 1 ∨ sz = 2 ∨ sz = 4 ∨ sz = 8 ∨ sz = 16 := by unfold Shape at hs; omega
  unfold ShrI8
  split
  · rename_i e; subst e
    have : i = 0 := by omega
    subst this
    have hr0 : InReg 16 0 := ⟨by omega, by omega⟩
    simp only []
    rw [even_byte 0, lane_sra hr0, count1_eq t (Or.inl rfl)]
    have e8 : lane 16 0 (if t.val ≤ HWY_SSE4 then cvtepi 8 16 v else ShiftRightI t 16 8 (Combine 2 v v)) = (lane 8 0 v).signExtend 16 := by
      split
      · exact lane_cvtepi hr0 v
      · rw [C62_shiftRight_signed t hr0 _ _ (by omega), sar_top (g := 16) 8 (by omega) (by omega)]
        congr 1
        have := C63_combine (w := 8) (sz := 2) (by simp [Shape]) (by decide) v v (i := 1) (by decide)
        rw [show Lanes 8 2 / 2 = 1 from rfl, if_neg (by omega)] at this
        exact (odd_byte 0 _).symm.trans this
    rw [e8]
    generalize lane 8 0 v = x
    generalize (lane 8 0 bits).toNat = k
    apply BitVec.eq_of_getLsbD_eq; intro j hj
    rw [BitVec.getLsbD_extractLsb', BitVec.getLsbD_sshiftRight, BitVec.getLsbD_signExtend, BitVec.getLsbD_sshiftRight]
    simp only [hj, decide_true, Bool.true_and, Nat.zero_add]
    by_cases hk : k + j < 8
    · simp [hk, show ¬ 16 ≤ j by omega, show k + j < 16 by omega, show ¬ 8 ≤ j by omega]
    · by_cases hk2 : k + j < 16
      · simp [hk, hk2, show ¬ 16 ≤ j by omega, show ¬ 8 ≤ j by omega]
      · simp [hk, hk2, show ¬ 16 ≤ j by omega, show ¬ 8 ≤ j by omega, BitVec.msb_signExtend]
  · split
    · split
      · rw [demoteI32I8 _ (by omega)]
        exact (congrArg (fun y => satLane true 8 (val true y)) (shrv_via32 t true (Or.inl rfl) v bits (by omega) hb)).trans
          (narrow_shr true (Or.inl rfl) _ _)
      · split
        · rw [demoteI32_256 true (Or.inr rfl) _ (by omega)]
          exact (congrArg (fun y => satLane true 8 (val true y)) (shrv256 true (Or.inl rfl) v bits (by omega) hb)).trans
            (narrow_shr true (Or.inl rfl) _ _)
        · exact shr8_full t true v bits (by omega) hb
    · exact lane_SignedShr t gcc hs v bits h hb

theorem lane_ShrI32 (t : Tgt) (gcc : Bool) {sz : Nat} (hs : Shape 32 sz) (v bits : M128) {i : Nat} (h : i < Lanes 32 sz)
    (hb : (lane 32 i bits).toNat < 32) :
    lane 32 i (ShrI32 t gcc sz v bits) = (lane 32 i v).sshiftRight (lane 32 i bits).toNat := by
  have hi4 : i < 4 := by unfold Lanes at h; unfold Shape at hs; omega
  have hr : InReg 32 i := ⟨by omega, by omega⟩
  unfold ShrI32
  split
  · rename_i e; obtain ⟨_, rfl⟩ := e
    have : i = 0 := by unfold Lanes at h; omega
    subst this
    rw [lane_sra hr, count1_32_eq]
  · split
    · exact lane_srav hr v bits
    · exact lane_SignedShr t gcc hs v bits h hb

/-- `v >> bits`: every lane is shifted right by the count in the same lane of `bits`, which must be less than the lane width;
signed lanes keep their sign, unsigned lanes are filled with zeros. -/
theorem C67_shr (t : Tgt) (gcc signed : Bool) {w sz : Nat} (hs : Shape w sz) (v bits : M128) {i : Nat} (h : i < Lanes w sz)
    (hb : (lane w i bits).toNat < w) :
    lane w i (Shr t gcc signed w sz v bits)
      = if signed then (lane w i v).sshiftRight (lane w i bits).toNat else lane w i v >>> (lane w i bits).toNat := by
  have hw : w = 8 ∨ w = 16 ∨ w = 32 ∨ w = 64 := by unfold Shape at hs; omega
  unfold Shr
  cases signed
  · simp only [Bool.false_eq_true, if_false]; exact lane_ShrU t gcc hs v bits h hb
  · simp only [if_true]
    rcases hw with rfl | rfl | rfl | rfl
    · rw [if_pos rfl]; exact lane_ShrI8 t gcc hs v bits h hb
    · rw [if_neg (by omega), if_pos rfl]; exact lane_ShrI16 t gcc hs v bits h hb
    · rw [if_neg (by omega), if_neg (by omega), if_pos rfl]; exact lane_ShrI32 t gcc hs v bits h hb
    · rw [if_neg (by omega), if_neg (by omega), if_neg (by omega)]; exact lane_SignedShr t gcc hs v bits h hb

/-- The same as a number: the quotient by `2^k`, rounded down. -/
theorem C67_shr_value (t : Tgt) (gcc signed : Bool) {w sz : Nat} (hs : Shape w sz) (v bits : M128) {i : Nat} (h : i < Lanes w sz)
    (hb : (lane w i bits).toNat < w) :
    val signed (lane w i (Shr t gcc signed w sz v bits)) = val signed (lane w i v) / 2 ^ (lane w i bits).toNat := by
  rw [C67_shr t gcc signed hs v bits h hb]
  exact val_shrLane signed _ _

/-! ## Rotates -/

theorem and_mask {w n : Nat} (hw : w = 8 ∨ w = 16 ∨ w = 32 ∨ w = 64) (hn : 8 ≤ n) (x : BitVec n) :
    (x &&& BitVec.ofNat n (w - 1)).toNat = x.toNat % w := by
  have hlt : w - 1 < 2 ^ n := Nat.lt_of_lt_of_le (by omega : w - 1 < 2 ^ 8) (Nat.pow_le_pow_right (by omega) hn)
  rw [BitVec.toNat_and, BitVec.toNat_ofNat, Nat.mod_eq_of_lt hlt]
  rcases hw with rfl | rfl | rfl | rfl
  · exact Nat.and_two_pow_sub_one_eq_mod x.toNat 3
  · exact Nat.and_two_pow_sub_one_eq_mod x.toNat 4
  · exact Nat.and_two_pow_sub_one_eq_mod x.toNat 5
  · exact Nat.and_two_pow_sub_one_eq_mod x.toNat 6

theorem and_mask_neg {w n : Nat} (hw : w = 8 ∨ w = 16 ∨ w = 32 ∨ w = 64) (hn : 8 ≤ n) (x : BitVec n) :
    ((0#n - x) &&& BitVec.ofNat n (w - 1)).toNat = (w - x.toNat % w) % w := by
  rw [and_mask hw hn, BitVec.toNat_sub]
  have hd : ∃ q, 2 ^ n = w * q := by
    obtain ⟨e, rfl, he⟩ : ∃ e, w = 2 ^ e ∧ e ≤ 8 := by
      rcases hw with rfl | rfl | rfl | rfl
      · exact ⟨3, rfl, by omega⟩
      · exact ⟨4, rfl, by omega⟩
      · exact ⟨5, rfl, by omega⟩
      · exact ⟨6, rfl, by omega⟩
    exact ⟨2 ^ (n - e), by rw [← Nat.pow_add]; congr 1; omega⟩
  obtain ⟨q, hq⟩ := hd
  have hx := x.isLt
  have h0 : (0#n).toNat = 0 := by simp
  rw [h0, Nat.add_zero, hq, Nat.mod_mul_right_mod]
  rw [hq] at hx
  generalize x.toNat = y at *
  rcases hw with rfl | rfl | rfl | rfl <;> omega

theorem rol_parts {w : Nat} (hw : 0 < w) (x : BitVec w) (k : Nat) :
    x <<< (k % w) ||| x >>> ((w - k % w) % w) = x.rotateLeft k := by
  have hk := Nat.mod_lt k hw
  show _ = x.rotateLeftAux (k % w)
  unfold BitVec.rotateLeftAux
  by_cases h0 : k % w = 0
  · rw [h0, Nat.sub_zero, Nat.mod_self, BitVec.ushiftRight_eq_zero (Nat.le_refl w)]
    simp
  · rw [Nat.mod_eq_of_lt (show w - k % w < w by omega)]
theorem ror_parts {w : Nat} (hw : 0 < w) (x : BitVec w) (k : Nat) :
    x <<< ((w - k % w) % w) ||| x >>> (k % w) = x.rotateRight k := by
  have hk := Nat.mod_lt k hw
  show _ = x.rotateRightAux (k % w)
  unfold BitVec.rotateRightAux
  by_cases h0 : k % w = 0
  · rw [h0, Nat.sub_zero, Nat.mod_self]
    simp
  · rw [Nat.mod_eq_of_lt (show w - k % w < w by omega), BitVec.or_comm]

/-- `Rol`: each lane of `a` is rotated left by the count in the same lane of `b`, whatever it is (modulo the lane width). -/
theorem C67_rol (t : Tgt) (gcc : Bool) {w sz : Nat} (hs : Shape w sz) (a b : M128) {i : Nat} (h : i < Lanes w sz) :
    lane w i (Rol t gcc w sz a b) = (lane w i a).rotateLeft (lane w i b).toNat := by
  have hw : w = 8 ∨ w = 16 ∨ w = 32 ∨ w = 64 := by unfold Shape at hs; omega
  have hr : InReg w i := ⟨by omega, by
    unfold Lanes at h; unfold Shape at hs
    rcases hw with rfl | rfl | rfl | rfl <;> omega⟩
  have h1 : (lane w i (And b (set w (BitVec.ofNat w (w - 1))))).toNat = (lane w i b).toNat % w := by
    rw [lane_And, lane_set hr, and_mask hw (by omega)]
  have h2 : (lane w i (And (Neg w b) (set w (BitVec.ofNat w (w - 1))))).toNat = (w - (lane w i b).toNat % w) % w := by
    rw [lane_And, lane_set hr]
    unfold Neg
    rw [lane_Sub hr, show lane w i zero = 0#w from lane_zero _ _, and_mask_neg hw (by omega)]
  have hl := Nat.mod_lt (lane w i b).toNat (show w > 0 by omega)
  have hl2 := Nat.mod_lt (w - (lane w i b).toNat % w) (show w > 0 by omega)
  unfold Rol
  simp only []
  rw [lane_Or, C67_shl t gcc hs _ _ h (by omega), C67_shr t gcc false hs _ _ h (by omega), h1, h2]
  simp only [Bool.false_eq_true, if_false]
  exact rol_parts (by omega) _ _

/-- `Ror`: each lane of `a` is rotated right by the count in the same lane of `b`, whatever it is (modulo the lane width). -/
theorem C67_ror (t : Tgt) (gcc : Bool) {w sz : Nat} (hs : Shape w sz) (a b : M128) {i : Nat} (h : i < Lanes w sz) :
    lane w i (Ror t gcc w sz a b) = (lane w i a).rotateRight (lane w i b).toNat := by
  have hw : w = 8 ∨ w = 16 ∨ w = 32 ∨ w = 64 := by unfold Shape at hs; omega
  have hr : InReg w i := ⟨by omega, by
    unfold Lanes at h; unfold Shape at hs
    rcases hw with rfl | rfl | rfl | rfl <;> omega⟩
  have h1 : (lane w i (And b (set w (BitVec.ofNat w (w - 1))))).toNat = (lane w i b).toNat % w := by
    rw [lane_And, lane_set hr, and_mask hw (by omega)]
  have h2 : (lane w i (And (Neg w b) (set w (BitVec.ofNat w (w - 1))))).toNat = (w - (lane w i b).toNat % w) % w := by
    rw [lane_And, lane_set hr]
    unfold Neg
    rw [lane_Sub hr, show lane w i zero = 0#w from lane_zero _ _, and_mask_neg hw (by omega)]
  have hl := Nat.mod_lt (lane w i b).toNat (show w > 0 by omega)
  have hl2 := Nat.mod_lt (w - (lane w i b).toNat % w) (show w > 0 by omega)
  unfold Ror
  simp only []
  rw [lane_Or, C67_shl t gcc hs _ _ h (by omega), C67_shr t gcc false hs _ _ h (by omega), h1, h2]
  simp only [Bool.false_eq_true, if_false]
  exact ror_parts (by omega) _ _

/-- `RotateLeftSame`: all lanes are rotated left by the same `int`, of either sign, modulo the lane width. -/
theorem C67_rotateLeftSame {w i : Nat} (h : InReg w i) (hw : w = 8 ∨ w = 16 ∨ w = 32 ∨ w = 64) (v : M128) (bits : BitVec 32) :
    lane w i (RotateLeftSame w v bits) = (lane w i v).rotateLeft (bits.toInt % w).toNat := by
  have h1 := and_mask hw (n := 32) (by omega) bits
  have h2 := and_mask_neg hw (n := 32) (by omega) bits
  have hm : (bits.toInt % w).toNat = bits.toNat % w := by
    rcases toInt_cases bits with ⟨_, e⟩ | ⟨_, e⟩ <;> rw [e] <;> rcases hw with rfl | rfl | rfl | rfl <;> omega
  have hl := Nat.mod_lt bits.toNat (show w > 0 by omega)
  have hl2 := Nat.mod_lt (w - bits.toNat % w) (show w > 0 by omega)
  unfold RotateLeftSame
  simp only []
  rw [lane_Or, h1, h2, C62_shiftLeftSame h _ _ hl, C62_shiftRightSame_unsigned h _ _ hl2, hm, rol_parts (by omega)]
  simp only [BitVec.rotateLeft, Nat.mod_mod]

/-- `RotateRightSame`: all lanes are rotated right by the same `int`, of either sign, modulo the lane width. -/
theorem C67_rotateRightSame {w i : Nat} (h : InReg w i) (hw : w = 8 ∨ w = 16 ∨ w = 32 ∨ w = 64) (v : M128) (bits : BitVec 32) :
    lane w i (RotateRightSame w v bits) = (lane w i v).rotateRight (bits.toInt % w).toNat := by
  have h1 := and_mask hw (n := 32) (by omega) bits
  have h2 := and_mask_neg hw (n := 32) (by omega) bits
  have hm : (bits.toInt % w).toNat = bits.toNat % w := by
    rcases toInt_cases bits with ⟨_, e⟩ | ⟨_, e⟩ <;> rw [e] <;> rcases hw with rfl | rfl | rfl | rfl <;> omega
  have hl := Nat.mod_lt bits.toNat (show w > 0 by omega)
  have hl2 := Nat.mod_lt (w - bits.toNat % w) (show w > 0 by omega)
  unfold RotateRightSame
  simp only []
  rw [lane_Or, h1, h2, C62_shiftLeftSame h _ _ hl2, C62_shiftRightSame_unsigned h _ _ hl, hm, ror_parts (by omega)]
  simp only [BitVec.rotateRight, Nat.mod_mod]

/-- `RotateLeft<k>`: each lane is rotated left by the constant `k`. -/
theorem C67_rotateLeft {w i : Nat} (h : InReg w i) (v : M128) (k : Nat) (hk : k < w) :
    lane w i (RotateLeft w k v) = (lane w i v).rotateLeft k := by
  unfold RotateLeft
  rw [C62_rotateRight h v _ (by split <;> omega)]
  rw [← rol_parts (by omega), ← ror_parts (by omega)]
  by_cases h0 : k = 0
  · subst h0; simp
  · rw [if_neg h0, Nat.mod_eq_of_lt hk, Nat.mod_eq_of_lt (show w - k < w by omega), show w - (w - k) = k by omega, Nat.mod_eq_of_lt hk]

end Hwy.X86
