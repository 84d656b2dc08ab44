import Verif.X86Bits
import Verif.X86V256ReduceSpec

/-!
# C80: population count, byte and bit reversal on the x86 targets

`popcount x` below is `(List.range w).countP (fun k => x.getLsbD k)`: the number of set bits.
-/

namespace Hwy.X86

/-! ## Population count -/

/-- Number of set bits among the lowest `b` bits. -/
def pc (b x : Nat) : Nat := (List.range b).countP (fun k => x.testBit k)
theorem pc_add (a b x : Nat) : pc (a + b) x = pc a x + pc b (x / 2 ^ a) := by
  unfold pc
  rw [List.range_add, List.countP_append, List.countP_map]
  congr 2
  funext k
  simp only [Function.comp]
  rw [Nat.testBit_div_two_pow, Nat.add_comm]
theorem pc_mod (b x : Nat) : pc b (x % 2 ^ b) = pc b x := by
  unfold pc
  refine List.countP_congr fun k hk => ?_
  rw [Nat.testBit_mod_two_pow]
  simp [List.mem_range.1 hk]
theorem pc_le (b x : Nat) : pc b x ≤ b := by
  have := List.countP_le_length (p := fun k => x.testBit k) (l := List.range b)
  rwa [List.length_range] at this

theorem pop_table : ∀ x : BitVec 8,
    (BitVec.ofNat 8 ([0, 1, 1, 2, 1, 2, 2, 3, 1, 2, 2, 3, 2, 3, 3, 4].getD (x >>> 4).toNat 0) +
      BitVec.ofNat 8 ([0, 1, 1, 2, 1, 2, 2, 3, 1, 2, 2, 3, 2, 3, 3, 4].getD (x &&& 0xF#8).toNat 0)).toNat = pc 8 x.toNat := by
  decide +kernel
theorem pop_arith : ∀ x : BitVec 8,
    (let v := x - ((x >>> 1) &&& 0x55#8)
     let v := ((v >>> 2) &&& 0x33#8) + (v &&& 0x33#8)
     (v + (v >>> 4)) &&& 0x0F#8).toNat = pc 8 x.toNat := by
  decide +kernel

theorem pop8 (t : Tgt) (sz : Nat) {i : Nat} (hi : i < 16) (v : M128) :
    (lane 8 i (PopulationCount8 t sz v)).toNat = pc 8 (lane 8 i v).toNat := by
  have hr : InReg 8 i := ⟨by omega, by omega⟩
  have hs : ∀ k, k < 8 → ∀ a, lane 8 i (ShiftRightU 8 k a) = lane 8 i a >>> k := fun k hk a => C62_shiftRight_unsigned hr a k hk
  unfold PopulationCount8
  split
  · dsimp only
    have e1 : lane 8 i (ShiftRightU 8 4 v) = lane 8 i v >>> 4 := hs 4 (by omega) v
    have e2 : lane 8 i (And v (set 8 0xF#8)) = lane 8 i v &&& 0xF#8 := by rw [lane_And, lane_set hr]
    have l1 : ∀ x : BitVec 8, (x >>> 4).toNat < 16 ∧ (x &&& 0xF#8).toNat < 16 := by decide +kernel
    rw [lane_Add hr, C62_tableLookupBytes t hi _ _ (by rw [e1]; exact (l1 _).1), C62_tableLookupBytes t hi _ _ (by rw [e2]; exact (l1 _).2), e1, e2,
      lane_ofBytes _ (l1 _).1, lane_ofBytes _ (l1 _).2]
    exact pop_table _
  · dsimp only
    rw [lane_And, lane_set hr, lane_Add hr, hs 4 (by omega), lane_Add hr, lane_And, lane_And, lane_set hr, hs 2 (by omega), lane_Sub hr,
      lane_And, lane_set hr, hs 1 (by omega)]
    exact pop_arith _

theorem lane_double {b i : Nat} (v : M128) :
    (lane (b + b) i v).toNat = (lane b (2 * i + 1) v).toNat * 2 ^ b + (lane b (2 * i) v).toNat := by
  simp only [lane, BitVec.extractLsb'_toNat, Nat.shiftRight_eq_div_pow]
  rw [show (b + b) * i = b * (2 * i) by ring, show b * (2 * i + 1) = b * (2 * i) + b by ring, pow_add _ b b,
    pow_add _ (b * (2 * i)) b, ← Nat.div_div_eq_div_mul, Nat.mod_mul, Nat.mul_comm (2 ^ b)]
  omega

theorem pop_step {b : Nat} (hb : b = 8 ∨ b = 16 ∨ b = 32) {v P : M128} {i : Nat} (hi : i < 128 / (b + b))
    (h : ∀ j, j < 128 / b → (lane b j P).toNat = pc b (lane b j v).toNat) :
    (lane (b + b) i (Add (b + b) (ShiftRightU (b + b) b P) (And P (set (b + b) (BitVec.ofNat (b + b) 0xFF))))).toNat
      = pc (b + b) (lane (b + b) i v).toNat := by
  have hd : 2 * (128 / (b + b)) = 128 / b := by rcases hb with rfl | rfl | rfl <;> decide
  have hr : InReg (b + b) i := by
    rcases hb with rfl | rfl | rfl <;> exact ⟨by omega, by omega⟩
  rw [lane_Add hr, C62_shiftRight_unsigned hr _ b (by rcases hb with rfl | rfl | rfl <;> omega), lane_And, lane_set hr]
  have h0 := h (2 * i) (by omega)
  have h1 := h (2 * i + 1) (by omega)
  have c0 := pc_le b (lane b (2 * i) v).toNat
  have c1 := pc_le b (lane b (2 * i + 1) v).toNat
  have eP := lane_double (b := b) (i := i) P
  have eV := lane_double (b := b) (i := i) v
  have l0 := (lane b (2 * i) v).isLt
  rw [pc_add, ← pc_mod b, eV, Nat.mul_add_mod_self_right, pc_mod, Nat.add_comm (_ * _), Nat.add_mul_div_right _ _ (Nat.two_pow_pos b),
    Nat.div_eq_of_lt l0, Nat.zero_add, ← h0, ← h1]
  rw [← h0] at c0
  rw [← h1] at c1
  simp only [BitVec.toNat_add, BitVec.toNat_ushiftRight, BitVec.toNat_and, BitVec.toNat_ofNat, Nat.shiftRight_eq_div_pow, eP]
  generalize (lane b (2 * i) P).toNat = x at *
  generalize (lane b (2 * i + 1) P).toNat = y at *
  rcases hb with rfl | rfl | rfl
  · rw [show 255 % 2 ^ (8 + 8) = 2 ^ 8 - 1 from rfl, Nat.and_two_pow_sub_one_eq_mod]; omega
  · rw [show 255 % 2 ^ (16 + 16) = 2 ^ 8 - 1 from rfl, Nat.and_two_pow_sub_one_eq_mod]; omega
  · rw [show 255 % 2 ^ (32 + 32) = 2 ^ 8 - 1 from rfl, Nat.and_two_pow_sub_one_eq_mod]; omega

theorem pop16 (t : Tgt) (sz : Nat) (v : M128) {i : Nat} (hi : i < 8) :
    (lane 16 i (PopulationCount16 t sz v)).toNat = pc 16 (lane 16 i v).toNat :=
  pop_step (.inl rfl) hi (fun _ hj => pop8 t sz hj v)
theorem pop32 (t : Tgt) (sz : Nat) (v : M128) {i : Nat} (hi : i < 4) :
    (lane 32 i (PopulationCount32 t sz v)).toNat = pc 32 (lane 32 i v).toNat :=
  pop_step (.inr (.inl rfl)) hi (fun _ hj => pop16 t sz v hj)
theorem pop64 (t : Tgt) (sz : Nat) (v : M128) {i : Nat} (hi : i < 2) :
    (lane 64 i (PopulationCount64 t sz v)).toNat = pc 64 (lane 64 i v).toNat :=
  pop_step (.inr (.inr rfl)) hi (fun _ hj => pop32 t sz v hj)

theorem pc_lane {w : Nat} (x : BitVec w) : pc w x.toNat = (List.range w).countP (fun k => x.getLsbD k) := by
  unfold pc; congr 1

theorem popAny (t : Tgt) {w : Nat} (hw : V256.Width w) (sz : Nat) (v : M128) {i : Nat} (hi : i < 128 / w) :
    (lane w i (PopulationCount t w sz v)).toNat = (List.range w).countP (fun k => (lane w i v).getLsbD k) := by
  rw [← pc_lane]
  rcases hw with rfl | rfl | rfl | rfl
  · exact pop8 t sz hi v
  · exact pop16 t sz v hi
  · exact pop32 t sz v hi
  · exact pop64 t sz v hi

theorem shape_width {w sz : Nat} (h : Shape w sz) : V256.Width w ∧ Lanes w sz ≤ 128 / w := by
  shapes h <;> refine ⟨by simp [V256.Width], by decide⟩

/-- `PopulationCount(v)` of 8-, 16-, 32- and 64-bit lanes: the number of set bits of each lane. -/
theorem C80_populationCount (t : Tgt) {w sz : Nat} (h : Shape w sz) (v : M128) {i : Nat} (hi : i < Lanes w sz) :
    (lane w i (PopulationCount t w sz v)).toNat = (List.range w).countP (fun k => (lane w i v).getLsbD k) :=
  popAny t (shape_width h).1 sz v (lt_of_lt_of_le hi (shape_width h).2)

/-! ## `ReverseLaneBytes` -/

/-- Byte `j` of each lane of `ReverseLaneBytes(v)` is byte `w/8-1-j` of that lane of `v`. -/
theorem C80_reverseLaneBytes (t : Tgt) {w sz : Nat} (h : Shape w sz) (h8 : w ≠ 8) (v : M128) {i : Nat} (hi : i < Lanes w sz)
    {j : Nat} (hj : j < w / 8) :
    (lane w i (ReverseLaneBytes t w sz v)).extractLsb' (8 * j) 8 = (lane w i v).extractLsb' (8 * (w / 8 - 1 - j)) 8 := by
  obtain ⟨h1, h2, h3⟩ := shape_cases h
  have hs : Shape 8 sz := .inl ⟨rfl, h2⟩
  have e : w = 8 * (w / 8) := by omega
  rw [byte_lane e hj, byte_lane e (by omega)]
  have hin : w / 8 * i + j < sz := by
    have : sz / (w / 8) * (w / 8) ≤ sz := Nat.div_mul_le_self _ _
    have h' : i + 1 ≤ sz / (w / 8) := hi
    have := Nat.mul_le_mul_right (w / 8) h'
    rw [Nat.add_mul, Nat.one_mul, Nat.mul_comm] at this
    omega
  rcases h1 with rfl | rfl | rfl | rfl
  · omega
  · simp only [Nat.reduceDiv] at *
    rw [show ReverseLaneBytes t 16 sz v = Reverse2x8 t v from rfl, C71_reverse2 t hs (by omega) v hin]; congr 1; omega
  · simp only [Nat.reduceDiv] at *
    rw [show ReverseLaneBytes t 32 sz v = Reverse4x8 t sz v from rfl, C71_reverse4 t hs (by omega) v hin]; congr 1; omega
  · simp only [Nat.reduceDiv] at *
    rw [show ReverseLaneBytes t 64 sz v = Reverse8x8 t sz v from rfl]
    refine Eq.trans (C71_reverse8 t (w := 8) (sz := sz) hs (by show 8 ≤ sz / 1; omega) v (i := 8 * i + j) (by show _ < sz / 1; omega)) ?_
    congr 1; omega

/-! ## `ReverseBits` -/

theorem byte_bit (v : M128) (i k : Nat) (hk : k < 8) : (lane 8 i v).getLsbD k = (lane 16 (i / 2) v).getLsbD (8 * (i % 2) + k) := by
  rw [getLsbD_lane, getLsbD_lane]
  have : 16 * (i / 2) + (8 * (i % 2) + k) = 8 * i + k := by omega
  rw [this]
  simp only [hk, decide_true, Bool.true_and]
  rw [decide_eq_true (show 8 * (i % 2) + k < 16 by omega), Bool.true_and]

theorem step_bit {s : Nat} (hs : s < 8) (M : BitVec 8) (hM : ∀ k, k < 8 → if M.getLsbD k then k + s < 8 else s ≤ k) (v : M128)
    {i : Nat} (hi : i < 16) {k : Nat} (hk : k < 8) :
    (lane 8 i (UI8ReverseBitsStep s M v)).getLsbD k = if M.getLsbD k then (lane 8 i v).getLsbD (k + s) else (lane 8 i v).getLsbD (k - s) := by
  have hr : InReg 8 i := ⟨by omega, by omega⟩
  have hr16 : InReg 16 (i / 2) := ⟨by omega, by omega⟩
  have hM' := hM k hk
  unfold UI8ReverseBitsStep
  dsimp only
  rw [lane_Or, lane_And, lane_AndNot hr, lane_set hr, BitVec.getLsbD_or, BitVec.getLsbD_and, BitVec.getLsbD_and, BitVec.getLsbD_not,
    byte_bit (ShiftRightU 16 s v) i k hk, byte_bit (ShiftLeft 16 s v) i k hk, C62_shiftRight_unsigned hr16 _ s (by omega),
    C62_shiftLeft hr16 _ s (by omega), BitVec.getLsbD_ushiftRight, BitVec.getLsbD_shiftLeft]
  by_cases hb : M.getLsbD k = true
  · rw [if_pos hb] at hM' ⊢
    rw [hb, byte_bit v i (k + s) hM', show 8 * (i % 2) + (k + s) = s + (8 * (i % 2) + k) by omega]
    simp
  · rw [if_neg hb] at hM' ⊢
    rw [Bool.not_eq_true] at hb
    rw [hb, byte_bit v i (k - s) (by omega), show 8 * (i % 2) + (k - s) = 8 * (i % 2) + k - s by omega]
    simp [hk, show ¬ 8 * (i % 2) + k < s by omega, show 8 * (i % 2) + k < 16 by omega]

theorem revBits8 (v : M128) {i : Nat} (hi : i < 16) {k : Nat} (hk : k < 8) :
    (lane 8 i (ReverseBits8 v)).getLsbD k = (lane 8 i v).getLsbD (7 - k) := by
  unfold ReverseBits8
  dsimp only
  have s1 : ∀ k, k < 8 → ∀ a, _ := fun k hk a => step_bit (s := 1) (by omega) 0x55#8 (by decide) a hi (k := k) hk
  have s2 : ∀ k, k < 8 → ∀ a, _ := fun k hk a => step_bit (s := 2) (by omega) 0x33#8 (by decide) a hi (k := k) hk
  have s4 : ∀ k, k < 8 → ∀ a, _ := fun k hk a => step_bit (s := 4) (by omega) 0x0F#8 (by decide) a hi (k := k) hk
  interval_cases k <;>
    simp (disch := omega) only [s1, s2, s4] <;> simp

/-- Bit `k` of each lane of `ReverseBits(v)` is bit `w-1-k` of that lane of `v`. -/
theorem C80_reverseBits (t : Tgt) {w sz : Nat} (h : Shape w sz) (v : M128) {i : Nat} (hi : i < Lanes w sz) {k : Nat} (hk : k < w) :
    (lane w i (ReverseBits t w sz v)).getLsbD k = (lane w i v).getLsbD (w - 1 - k) := by
  obtain ⟨h1, h2, h3⟩ := shape_cases h
  have hl : Lanes w sz ≤ 128 / w := (shape_width h).2
  unfold ReverseBits
  by_cases h8 : w = 8
  · subst h8
    rw [if_pos rfl, revBits8 v (by omega) hk]
  rw [if_neg h8]
  have hj : k / 8 < w / 8 := by omega
  have b := C80_reverseLaneBytes t h h8 (ReverseBits8 v) hi hj
  have e : w = 8 * (w / 8) := by omega
  have hin : w / 8 * i + (w / 8 - 1 - k / 8) < 16 := by
    have hi' : i < 128 / w := by omega
    rcases h1 with rfl | rfl | rfl | rfl <;> omega
  rw [byte_lane e (show w / 8 - 1 - k / 8 < w / 8 by omega)] at b
  have b1 := congrArg (fun x => x.getLsbD (k % 8)) b
  beta_reduce at b1
  rw [revBits8 v hin (by omega), ← byte_lane e (show w / 8 - 1 - k / 8 < w / 8 by omega)] at b1
  simp only [BitVec.getLsbD_extractLsb', show k % 8 < 8 by omega, show 7 - k % 8 < 8 by omega, decide_true, Bool.true_and] at b1
  rw [show 8 * (k / 8) + k % 8 = k by omega, show 8 * (w / 8 - 1 - k / 8) + (7 - k % 8) = w - 1 - k by omega] at b1
  exact b1

namespace V256

/-! ## 256 bits -/

theorem pop_blk {w : Nat} (hw : Width w) (v : M256) :
    PopulationCountQ w v = ⟨PopulationCount .avx2 w 16 v.lo, PopulationCount .avx2 w 16 v.hi⟩ := by
  have e8 : ∀ v, PopulationCount8Q v = ⟨PopulationCount8 .avx2 16 v.lo, PopulationCount8 .avx2 16 v.hi⟩ := fun v => rfl
  have s16 : ∀ P : M256, AddQ 16 (ShiftRightUQ 16 8 P) (AndQ P (setQ 16 0xFF#16)) =
    ⟨Add 16 (ShiftRightU 16 8 P.lo) (X86.And P.lo (set 16 0xFF#16)), Add 16 (ShiftRightU 16 8 P.hi) (X86.And P.hi (set 16 0xFF#16))⟩ := fun _ => rfl
  have s32 : ∀ P : M256, AddQ 32 (ShiftRightUQ 32 16 P) (AndQ P (setQ 32 0xFF#32)) =
    ⟨Add 32 (ShiftRightU 32 16 P.lo) (X86.And P.lo (set 32 0xFF#32)), Add 32 (ShiftRightU 32 16 P.hi) (X86.And P.hi (set 32 0xFF#32))⟩ := fun _ => rfl
  have s64 : ∀ P : M256, AddQ 64 (ShiftRightUQ 64 32 P) (AndQ P (setQ 64 0xFF#64)) =
    ⟨Add 64 (ShiftRightU 64 32 P.lo) (X86.And P.lo (set 64 0xFF#64)), Add 64 (ShiftRightU 64 32 P.hi) (X86.And P.hi (set 64 0xFF#64))⟩ := fun _ => rfl
  have e16 : ∀ v, PopulationCount16Q v = ⟨PopulationCount16 .avx2 16 v.lo, PopulationCount16 .avx2 16 v.hi⟩ := fun v => by
    unfold PopulationCount16Q PopulationCount16; simp only [s16, e8]
  have e32 : ∀ v, PopulationCount32Q v = ⟨PopulationCount32 .avx2 16 v.lo, PopulationCount32 .avx2 16 v.hi⟩ := fun v => by
    unfold PopulationCount32Q PopulationCount32; simp only [s32, e16]
  have e64 : ∀ v, PopulationCount64Q v = ⟨PopulationCount64 .avx2 16 v.lo, PopulationCount64 .avx2 16 v.hi⟩ := fun v => by
    unfold PopulationCount64Q PopulationCount64; simp only [s64, e32]
  rcases hw with rfl | rfl | rfl | rfl
  · exact e8 v
  · exact e16 v
  · exact e32 v
  · exact e64 v

/-- 256-bit `PopulationCount(v)`: the number of set bits of each lane. -/
theorem C80_populationCount {w : Nat} (hw : Width w) (v : M256) {i : Nat} (h : i < 256 / w) :
    (lane256 w i (PopulationCountQ w v)).toNat = (List.range w).countP (fun k => (lane256 w i v).getLsbD k) := by
  rw [pop_blk hw]
  have e2 := width_two hw
  by_cases hb : i < 128 / w
  · rw [lane256_lo hb, lane256_lo hb]; exact popAny .avx2 hw 16 v.lo hb
  · rw [lane256_hi hb, lane256_hi hb]; exact popAny .avx2 hw 16 v.hi (by omega)

theorem revBytes_blk (w : Nat) (v : M256) :
    ReverseLaneBytesQ w v = ⟨ReverseLaneBytes .avx2 w 16 v.lo, ReverseLaneBytes .avx2 w 16 v.hi⟩ := by
  unfold ReverseLaneBytesQ ReverseLaneBytes
  split
  · rfl
  · split <;> rfl
theorem revBits_blk (w : Nat) (v : M256) : ReverseBitsQ w v = ⟨ReverseBits .avx2 w 16 v.lo, ReverseBits .avx2 w 16 v.hi⟩ := by
  have e : ReverseBits8Q v = ⟨ReverseBits8 v.lo, ReverseBits8 v.hi⟩ := rfl
  unfold ReverseBitsQ ReverseBits
  rw [e, revBytes_blk]
  split <;> rfl

/-- Byte `j` of each lane of the 256-bit `ReverseLaneBytes(v)` is byte `w/8-1-j` of that lane of `v`. -/
theorem C80_reverseLaneBytes {w : Nat} (hw : Width w) (h8 : w ≠ 8) (v : M256) {i : Nat} (h : i < 256 / w) {j : Nat} (hj : j < w / 8) :
    (lane256 w i (ReverseLaneBytesQ w v)).extractLsb' (8 * j) 8 = (lane256 w i v).extractLsb' (8 * (w / 8 - 1 - j)) 8 := by
  have e2 := width_two hw; have el := lanes16 hw
  rw [revBytes_blk]
  by_cases hb : i < 128 / w
  · rw [lane256_lo hb, lane256_lo hb]; exact X86.C80_reverseLaneBytes .avx2 (shape16 hw) h8 v.lo (by omega) hj
  · rw [lane256_hi hb, lane256_hi hb]; exact X86.C80_reverseLaneBytes .avx2 (shape16 hw) h8 v.hi (by omega) hj

/-- Bit `k` of each lane of the 256-bit `ReverseBits(v)` is bit `w-1-k` of that lane of `v`. -/
theorem C80_reverseBits {w : Nat} (hw : Width w) (v : M256) {i : Nat} (h : i < 256 / w) {k : Nat} (hk : k < w) :
    (lane256 w i (ReverseBitsQ w v)).getLsbD k = (lane256 w i v).getLsbD (w - 1 - k) := by
  have e2 := width_two hw; have el := lanes16 hw
  rw [revBits_blk]
  by_cases hb : i < 128 / w
  · rw [lane256_lo hb, lane256_lo hb]; exact X86.C80_reverseBits .avx2 (shape16 hw) v.lo (by omega) hk
  · rw [lane256_hi hb, lane256_hi hb]; exact X86.C80_reverseBits .avx2 (shape16 hw) v.hi (by omega) hk

end V256
end Hwy.X86
