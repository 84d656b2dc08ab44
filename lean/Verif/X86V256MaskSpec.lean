import Verif.X86V256Mask
import Verif.X86V256Spec4
import Verif.X86CompressSpec2

/-!
# C74: masks and bits of 256-bit AVX2 vectors

`MaskOf256 w m p`: the mask register `m` is true exactly in the lanes `i` with `p i`.
-/

namespace Hwy.X86.V256

/-- The mask `m` of `w`-bit lanes is all-ones where `p` holds and zero elsewhere. -/
def MaskOf256 (w : Nat) (m : M256) (p : Nat → Bool) : Prop :=
  ∀ i, i < 256 / w → lane256 w i m = if p i then BitVec.allOnes w else 0#w

theorem inReg_lo {w : Nat} (hw : Width w) {i : Nat} (h : i < 128 / w) : InReg w i := by
  rcases hw with rfl | rfl | rfl | rfl <;> exact ⟨by omega, by simp only [Nat.reduceDiv] at *; omega⟩
theorem width_two {w : Nat} (hw : Width w) : 256 / w = 128 / w + 128 / w := by rcases hw with rfl | rfl | rfl | rfl <;> rfl
theorem width_le {w : Nat} (hw : Width w) : 256 / w ≤ 32 ∧ 2 ≤ 128 / w := by rcases hw with rfl | rfl | rfl | rfl <;> decide
theorem shape16 {w : Nat} (hw : Width w) : Shape w 16 := by rcases hw with rfl | rfl | rfl | rfl <;> simp [Shape]
theorem lanes16 {w : Nat} (hw : Width w) : Lanes w 16 = 128 / w := lanes_full hw
theorem inReg_hi {w : Nat} (hw : Width w) {i : Nat} (h : i < 256 / w) : InReg w (i - 128 / w) := by
  have := width_two hw; have := width_le hw
  exact inReg_lo hw (by omega)

theorem maskOf_lo {w : Nat} (hw : Width w) {m : M256} {p : Nat → Bool} (hm : MaskOf256 w m p) : MaskOf w 16 m.lo p := by
  intro i hi
  rw [lanes16 hw] at hi
  have := width_two hw
  rw [← lane256_lo hi m]; exact hm i (by omega)
theorem maskOf_hi {w : Nat} (hw : Width w) {m : M256} {p : Nat → Bool} (hm : MaskOf256 w m p) : MaskOf w 16 m.hi (fun i => p (128 / w + i)) := by
  intro i hi
  rw [lanes16 hw] at hi
  have := width_two hw
  have := hm (128 / w + i) (by omega)
  rw [lane256_hi (by omega), Nat.add_sub_cancel_left] at this
  exact this

/-- Lanes of an instruction that acts on each block. -/
theorem lane_blk1 {w : Nat} {g : M128 → M128} {F : BitVec w → BitVec w} (hw : Width w) (hg : ∀ i a, InReg w i → lane w i (g a) = F (lane w i a))
    (a : M256) {i : Nat} (h : i < 256 / w) : lane256 w i (blk1 g a) = F (lane256 w i a) := by
  by_cases hb : i < 128 / w
  · rw [lane256_lo hb, lane256_lo hb]; exact hg _ _ (inReg_lo hw hb)
  · rw [lane256_hi hb, lane256_hi hb]; exact hg _ _ (inReg_hi hw h)
theorem lane_blk2 {w : Nat} {g : M128 → M128 → M128} {F : BitVec w → BitVec w → BitVec w} (hw : Width w)
    (hg : ∀ i a b, InReg w i → lane w i (g a b) = F (lane w i a) (lane w i b))
    (a b : M256) {i : Nat} (h : i < 256 / w) : lane256 w i (blk2 g a b) = F (lane256 w i a) (lane256 w i b) := by
  by_cases hb : i < 128 / w
  · rw [lane256_lo hb, lane256_lo hb, lane256_lo hb]; exact hg _ _ _ (inReg_lo hw hb)
  · rw [lane256_hi hb, lane256_hi hb, lane256_hi hb]; exact hg _ _ _ (inReg_hi hw h)

theorem lane_setQ {w : Nat} (hw : Width w) (x : BitVec w) {i : Nat} (h : i < 256 / w) : lane256 w i (setQ w x) = x := by
  unfold setQ dup128
  by_cases hb : i < 128 / w
  · rw [lane256_lo hb]; exact lane_set (inReg_lo hw hb) x
  · rw [lane256_hi hb]; exact lane_set (inReg_hi hw h) x

theorem lane_andQ {w : Nat} (hw : Width w) (a b : M256) {i : Nat} (h : i < 256 / w) :
    lane256 w i (blk2 pand a b) = lane256 w i a &&& lane256 w i b := lane_blk2 hw (fun i a b _ => lane_And w i a b) a b h

theorem lane_TestBit {w : Nat} (hw : Width w) (v bit : M256) {i : Nat} (h : i < 256 / w) :
    lane256 w i (TestBit w v bit) = if lane256 w i v &&& lane256 w i bit = lane256 w i bit then BitVec.allOnes w else 0#w := by
  unfold TestBit
  rw [lane_blk2 (F := fun x y => if x = y then BitVec.allOnes w else 0#w) hw (fun i a b hr => lane_cmpeq hr a b) _ _ h, lane_andQ hw _ _ h]

/-! ## Bits -/

theorem testBit_movemaskQ {w : Nat} (hw : Width w) (r : M256) (i : Nat) :
    (movemaskQ w r).testBit i = (decide (i < 256 / w) && (lane256 w i r).msb) := by
  unfold movemaskQ
  have := width_two hw
  rw [Nat.testBit_or, Nat.testBit_shiftLeft, testBit_movemask, testBit_movemask]
  by_cases hb : i < 128 / w
  · rw [lane256_lo hb]
    simp [hb, show ¬ 128 / w ≤ i by omega, show i < 256 / w by omega]
  · rw [lane256_hi hb]
    have e : decide (i - 128 / w < 128 / w) = decide (i < 256 / w) := by apply decide_eq_decide.2; omega
    simp [hb, show 128 / w ≤ i by omega, e]

theorem odd_bits : (List.range 32).filter (Nat.testBit 0xAAAAAAAA) = (List.range 16).map (fun i => 2 * i + 1) := by decide +kernel

theorem testBit_pext (a i : Nat) : (pext32 a 0xAAAAAAAA).testBit i = (decide (i < 16) && a.testBit (2 * i + 1)) := by
  unfold pext32
  rw [odd_bits, BitVec.testBit_toNat, BitVec.getLsbD_ofBoolListLE]
  by_cases h : i < 16
  · simp [h]
  · simp [h]

/-- A 16-bit mask seen as a mask of bytes. -/
theorem maskOf_bytes {m : M256} {p : Nat → Bool} (hm : MaskOf256 16 m p) : MaskOf256 8 m (fun i => p (i / 2)) := by
  intro i hi
  have h := byte256_lane (w := 16) (m := 2) rfl (by omega) (j := i % 2) (by omega) (i / 2) m
  rw [show 2 * (i / 2) + i % 2 = i by omega, hm (i / 2) (by simp only [Nat.reduceDiv] at *; omega)] at h
  rw [← h]
  beta_reduce
  rcases Nat.mod_two_eq_zero_or_one i with e | e <;> rw [e] <;> cases p (i / 2) <;> rfl

theorem packs_msb : ∀ b : Bool, (BitVec.ofInt 8 (clampI 8 (if b then BitVec.allOnes 16 else 0#16).toInt)).msb = b := by decide +kernel

/-- `BitsFromMask(d, m)`: bit `i` is set exactly if `i` is a lane and its mask is true; with and without `PEXT`. -/
theorem C74_bitsFromMask (bmi2 : Bool) {w : Nat} (hw : Width w) {m : M256} {p : Nat → Bool} (hm : MaskOf256 w m p) (i : Nat) :
    (BitsFromMask bmi2 w m).testBit i = (decide (i < 256 / w) && p i) := by
  unfold BitsFromMask
  split
  · rename_i e; subst e
    cases bmi2
    · rw [if_neg (by simp)]
      simp only []
      rw [testBit_movemask, show 256 / 16 = 128 / 8 from rfl]
      by_cases hi : i < 128 / 8
      · simp only [hi, decide_true, Bool.true_and]
        rw [permute_3120]
        unfold castsi256 blk2
        by_cases hb : i < 8
        · have e : lane 8 i (shufflePd (packs 16 m.lo zero256.lo) (packs 16 m.hi zero256.hi) 0) = lane 8 i (packs 16 m.lo zero256.lo) := by
            rw [lane_pd0 (w := 8) (by simp) _ _ hi]; simp [hb]
          have e2 := lane_packs_lo (w := 16) (i := i) (by simp) m.lo zero256.lo (by simp only [Nat.reduceDiv]; omega)
          have e3 := hm i (by simp only [Nat.reduceDiv] at *; omega)
          rw [lane256_lo (by simp only [Nat.reduceDiv]; omega)] at e3
          rw [e3] at e2
          rw [e]
          refine Eq.trans (congrArg BitVec.msb e2) (packs_msb _)
        · have e : lane 8 i (shufflePd (packs 16 m.lo zero256.lo) (packs 16 m.hi zero256.hi) 0) = lane 8 (i - 8) (packs 16 m.hi zero256.hi) := by
            rw [lane_pd0 (w := 8) (by simp) _ _ hi]; simp [hb]
          have e2 := lane_packs_lo (w := 16) (i := i - 8) (by simp) m.hi zero256.hi (by simp only [Nat.reduceDiv] at *; omega)
          have e3 := hm i (by simp only [Nat.reduceDiv] at *; omega)
          rw [lane256_hi (by simp only [Nat.reduceDiv]; omega)] at e3
          rw [show i - 128 / 16 = i - 8 from rfl] at e3
          rw [e3] at e2
          rw [e]
          refine Eq.trans (congrArg BitVec.msb e2) (packs_msb _)
      · simp [hi]
    · rw [if_pos rfl, testBit_pext, testBit_movemaskQ (w := 8) (by simp [Width])]
      have h8 := maskOf_bytes hm
      by_cases hi : i < 16
      · rw [h8 (2 * i + 1) (by simp only [Nat.reduceDiv]; omega)]
        rw [maskLane_msb (by decide)]
        beta_reduce
        rw [show (2 * i + 1) / 2 = i by omega]
        simp [hi]; omega
      · simp [hi]
  · rw [testBit_movemaskQ hw]
    by_cases hi : i < 256 / w
    · rw [hm i hi, maskLane_msb (by rcases hw with rfl | rfl | rfl | rfl <;> decide)]
    · simp [hi]

theorem C74_bits_lt (bmi2 : Bool) {w : Nat} (hw : Width w) {m : M256} {p : Nat → Bool} (hm : MaskOf256 w m p) :
    BitsFromMask bmi2 w m < 2 ^ (256 / w) := bits_lt (C74_bitsFromMask bmi2 hw hm)

/-- `StoreMaskBits(d, m, bits)`: writes `(Lanes + 7) / 8` bytes holding the mask bits in ascending order, zero bits after the
last lane, and leaves all other bytes. -/
theorem C74_storeMaskBits (bmi2 : Bool) {w : Nat} (hw : Width w) {m : M256} {p : Nat → Bool} (hm : MaskOf256 w m p) (bits : Mem 8) :
    (StoreMaskBits bmi2 w m bits).2 = (256 / w + 7) / 8 ∧
    (∀ j, j < (256 / w + 7) / 8 → ∀ k, k < 8 →
      ((StoreMaskBits bmi2 w m bits).1 j).getLsbD k = (decide (8 * j + k < 256 / w) && p (8 * j + k))) ∧
    (∀ j, (256 / w + 7) / 8 ≤ j → (StoreMaskBits bmi2 w m bits).1 j = bits j) := by
  have hb := C74_bitsFromMask bmi2 hw hm
  unfold StoreMaskBits
  refine ⟨rfl, ?_, ?_⟩
  · intro j hj k hk
    simp only [hj, if_true]
    rw [BitVec.getLsbD_ofNat, Nat.testBit_shiftRight, hb]
    simp [hk]
  · intro j hj
    simp only [show ¬ j < (256 / w + 7) / 8 by omega, if_false]

theorem testBit_fold (bits : Mem 8) (n i : Nat) :
    ((List.range n).foldr (fun j acc => acc ||| (bits j).toNat <<< (8 * j)) 0).testBit i
      = (decide (i < 8 * n) && (bits (i / 8)).getLsbD (i % 8)) := by
  have key : ∀ (l : List Nat), (l.foldr (fun j acc => acc ||| (bits j).toNat <<< (8 * j)) 0).testBit i
      = (decide (i / 8 ∈ l) && (bits (i / 8)).getLsbD (i % 8)) := by
    intro l
    induction l with
    | nil => simp
    | cons j l ih =>
      rw [List.foldr_cons, Nat.testBit_or, ih, Nat.testBit_shiftLeft, testBit_byte]
      by_cases hj : i / 8 = j
      · subst hj
        simp [show 8 * (i / 8) ≤ i by omega, show i - 8 * (i / 8) = i % 8 by omega, show i % 8 < 8 by omega]
      · have : (decide (i ≥ 8 * j) && (decide (i - 8 * j < 8) && (bits j).getLsbD (i - 8 * j))) = false := by
          by_cases h1 : i ≥ 8 * j
          · simp [show ¬ i - 8 * j < 8 by omega]
          · simp [h1]
        rw [this]; simp [hj]
  rw [key]
  congr 1
  apply decide_eq_decide.2
  rw [List.mem_range]; omega

theorem testBit_bitsFromBytesQ {N : Nat} (hN : N = 4 ∨ N % 8 = 0) (bits : Mem 8) (i : Nat) :
    (bitsFromBytesQ N bits).testBit i = (decide (i < N) && bitAt bits i) := by
  unfold bitsFromBytesQ bitAt
  simp only []
  split
  · rw [Nat.testBit_and, testBit_fold, Nat.testBit_two_pow_sub_one]
    by_cases h : i < N
    · simp [h, show i < 8 * ((N + 7) / 8) by omega]
    · simp [h]
  · rw [testBit_fold, show decide (i < 8 * ((N + 7) / 8)) = decide (i < N) by apply decide_eq_decide.2; omega]

theorem width_bytes {w : Nat} (hw : Width w) : 256 / w = 4 ∨ 256 / w % 8 = 0 := by rcases hw with rfl | rfl | rfl | rfl <;> decide

theorem bit_test {w : Nat} (x : BitVec w) {k : Nat} (hk : k < w) :
    (x &&& BitVec.ofNat w (2 ^ k) = BitVec.ofNat w (2 ^ k)) ↔ x.getLsbD k = true := by
  constructor
  · intro h
    have := congrArg (fun y => y.getLsbD k) h
    simp only [BitVec.getLsbD_and, BitVec.getLsbD_ofNat, Nat.testBit_two_pow_self, hk, decide_true, Bool.true_and, Bool.and_true] at this
    exact this
  · intro h
    apply BitVec.eq_of_getLsbD_eq
    intro j hj
    rw [BitVec.getLsbD_and, BitVec.getLsbD_ofNat, Nat.testBit_two_pow]
    by_cases e : k = j
    · subst e; simp [h]
    · simp [e]

theorem lane_bit (x : Nat) {w k : Nat} (hk : k < w) :
    (if (BitVec.ofNat w x &&& BitVec.ofNat w (2 ^ k) = BitVec.ofNat w (2 ^ k)) then BitVec.allOnes w else 0#w)
      = if x.testBit k then BitVec.allOnes w else 0#w := by
  have := bit_test (BitVec.ofNat w x) hk
  rw [BitVec.getLsbD_ofNat] at this
  simp only [hk, decide_true, Bool.true_and] at this
  simp only [this]

theorem lane_LoadMaskBits256 {w : Nat} (hw : Width w) (b : Nat) {i : Nat} (h : i < 256 / w) :
    lane256 w i (LoadMaskBits256 w b) = if b.testBit i then BitVec.allOnes w else 0#w := by
  unfold LoadMaskBits256
  rcases hw with rfl | rfl | rfl | rfl
  · rw [if_pos rfl]
    simp only []
    have hi : i < 32 := h
    have h8 : Width 8 := by simp [Width]
    rw [lane_TestBit h8 _ _ h]
    have hb : lane256 8 i (dup128 (ofBytes [1, 2, 4, 8, 16, 32, 64, 128, 1, 2, 4, 8, 16, 32, 64, 128])) = BitVec.ofNat 8 (2 ^ (i % 8)) := by
      unfold dup128
      by_cases hc : i < 128 / 8
      · rw [lane256_lo hc, lane_ofBytes _ (by simp only [Nat.reduceDiv] at *; omega)]
        have : ∀ i, i < 16 → [1, 2, 4, 8, 16, 32, 64, 128, 1, 2, 4, 8, 16, 32, 64, 128].getD i 0 = 2 ^ (i % 8) := by decide
        rw [this i hc]
      · rw [lane256_hi hc, lane_ofBytes _ (by simp only [Nat.reduceDiv] at *; omega)]
        have : ∀ i, i < 32 → ¬ i < 16 → [1, 2, 4, 8, 16, 32, 64, 128, 1, 2, 4, 8, 16, 32, 64, 128].getD (i - 16) 0 = 2 ^ (i % 8) := by decide
        rw [show i - 128 / 8 = i - 16 from rfl, this i hi hc]
    have hx : (lane256 8 i (ofLanes 64 [0x0000000000000000, 0x0101010101010101, 0x0202020202020202, 0x0303030303030303])).toNat = i / 8 := by
      have e := byte256_lane (w := 64) (m := 8) rfl (by omega) (j := i % 8) (by omega) (i / 8)
        (ofLanes 64 [0x0000000000000000, 0x0101010101010101, 0x0202020202020202, 0x0303030303030303])
      rw [show 8 * (i / 8) + i % 8 = i by omega, lane_ofLanes (by simp [Width]) _ (by simp only [Nat.reduceDiv]; omega)] at e
      rw [← e]
      have : ∀ i, i < 32 → (BitVec.extractLsb' (8 * (i % 8)) 8 (BitVec.ofNat 64
        ([0x0000000000000000, 0x0101010101010101, 0x0202020202020202, 0x0303030303030303].getD (i / 8) 0))).toNat = i / 8 := by decide +kernel
      exact this i hi
    have hv : lane256 8 i (TableLookupBytes (setQ 32 (BitVec.ofNat 32 b))
        (ofLanes 64 [0x0000000000000000, 0x0101010101010101, 0x0202020202020202, 0x0303030303030303])) = BitVec.ofNat 8 (b >>> (8 * (i / 8))) := by
      rw [C72_tableLookupBytes _ _ hi (by rw [hx]; omega), hx]
      have e := byte256_lane (w := 32) (m := 4) rfl (by omega) (j := i / 8) (by omega) (i / 16 * 4) (setQ 32 (BitVec.ofNat 32 b))
      rw [lane_setQ (by simp [Width]) _ (by simp only [Nat.reduceDiv]; omega)] at e
      rw [show 16 * (i / 16) + i / 8 = 4 * (i / 16 * 4) + i / 8 by omega, ← e]
      apply BitVec.eq_of_getLsbD_eq
      intro k hk
      rw [BitVec.getLsbD_extractLsb', BitVec.getLsbD_ofNat, BitVec.getLsbD_ofNat, Nat.testBit_shiftRight]
      simp [hk]; omega
    rw [hv, hb, lane_bit _ (by omega), Nat.testBit_shiftRight, show 8 * (i / 8) + i % 8 = i by omega]
  · rw [if_neg (by decide), if_pos rfl]
    have h1 : Width 16 := by simp [Width]
    rw [lane_TestBit h1 _ _ h, lane_setQ h1 _ h, lane_ofLanes h1 _ h]
    have : ∀ i, i < 16 → [1, 2, 4, 8, 16, 32, 64, 128, 0x100, 0x200, 0x400, 0x800, 0x1000, 0x2000, 0x4000, 0x8000].getD i 0 = 2 ^ i := by decide
    rw [this i h, lane_bit _ h]
  · rw [if_neg (by decide), if_neg (by decide), if_pos rfl]
    have h1 : Width 32 := by simp [Width]
    have hi : i < 8 := h
    rw [lane_TestBit h1 _ _ h, lane_setQ h1 _ h, lane_ofLanes h1 _ h]
    have : ∀ i, i < 8 → [1, 2, 4, 8, 16, 32, 64, 128].getD i 0 = 2 ^ i := by decide
    rw [this i h, lane_bit _ (by omega)]
  · rw [if_neg (by decide), if_neg (by decide), if_neg (by decide)]
    have h1 : Width 64 := by simp [Width]
    have hi : i < 4 := h
    rw [lane_TestBit h1 _ _ h, lane_setQ h1 _ h, lane_ofLanes h1 _ h]
    have : ∀ i, i < 4 → [1, 2, 4, 8].getD i 0 = 2 ^ i := by decide
    rw [this i h, lane_bit _ (by omega)]

/-- `LoadMaskBits(d, p)`: lane `i` is true exactly if bit `i` of the bytes at `p` is set; unused bits do not matter. -/
theorem C74_loadMaskBits {w : Nat} (hw : Width w) (bits : Mem 8) :
    MaskOf256 w (LoadMaskBits w bits) (fun i => (bits (i / 8)).getLsbD (i % 8)) := by
  intro i hi
  unfold LoadMaskBits
  rw [lane_LoadMaskBits256 hw _ hi, testBit_bitsFromBytesQ (width_bytes hw)]
  simp only [hi, decide_true, Bool.true_and]
  rfl

/-- Storing a mask and loading it gives the same mask. -/
theorem C74_roundtrip (bmi2 : Bool) {w : Nat} (hw : Width w) {m : M256} {p : Nat → Bool} (hm : MaskOf256 w m p) (u : Mem 8) :
    MaskOf256 w (LoadMaskBits w (StoreMaskBits bmi2 w m u).1) p := by
  intro i hi
  rw [C74_loadMaskBits hw _ i hi]
  have e := (C74_storeMaskBits bmi2 hw hm u).2.1 (i / 8) (by omega) (i % 8) (by omega)
  rw [Nat.div_add_mod] at e
  simp only [e, hi, decide_true, Bool.true_and]

/-- `Dup128MaskFromMaskBits(d, bits)`: every block has the mask given by the low bits. -/
theorem C74_dup128MaskFromMaskBits {w : Nat} (hw : Width w) (bits : Nat) :
    MaskOf256 w (Dup128MaskFromMaskBits w bits) (fun i => bits.testBit (i % (128 / w))) := by
  intro i hi
  have h := C68_dup128MaskFromMaskBits .avx2 (shape16 hw) bits
  have h2 := width_two hw
  unfold Dup128MaskFromMaskBits
  simp only []
  rw [C72_combine]
  by_cases hb : i < 128 / w
  · rw [if_pos hb, h i (by rw [lanes16 hw]; exact hb)]
    beta_reduce
    simp only [Nat.mod_eq_of_lt hb]
  · rw [if_neg hb, h (i - 128 / w) (by rw [lanes16 hw]; omega)]
    beta_reduce
    simp only [show i % (128 / w) = i - 128 / w by rw [Nat.mod_eq_sub_mod (by omega), Nat.mod_eq_of_lt (by omega)]]

/-! ## Tests of masks -/

/-- `AllFalse(d, m)`. -/
theorem C74_allFalse (bmi2 : Bool) {w : Nat} (hw : Width w) {m : M256} {p : Nat → Bool} (hm : MaskOf256 w m p) :
    AllFalse bmi2 w m = true ↔ ∀ i, i < 256 / w → p i = false := by
  unfold AllFalse
  split
  · rename_i e; subst e
    rw [beq_iff_eq, bits_zero_iff (C74_bitsFromMask bmi2 (w := 8) (by simp [Width]) (maskOf_bytes hm))]
    constructor
    · intro h i hi
      have := h (2 * i) (by simp only [Nat.reduceDiv] at *; omega)
      rwa [show 2 * i / 2 = i by omega] at this
    · intro h i hi
      exact h _ (by simp only [Nat.reduceDiv] at *; omega)
  · rw [beq_iff_eq]; exact bits_zero_iff (C74_bitsFromMask bmi2 hw hm)

theorem bits_ones_iff {N b : Nat} {q : Nat → Bool} (h : ∀ i, b.testBit i = (decide (i < N) && q i)) :
    b = 2 ^ N - 1 ↔ ∀ i, i < N → q i = true := by
  constructor
  · rintro rfl i hi
    have := h i
    rw [Nat.testBit_two_pow_sub_one] at this
    simpa [hi] using this.symm
  · intro hq
    apply Nat.eq_of_testBit_eq; intro i
    rw [h, Nat.testBit_two_pow_sub_one]
    by_cases hi : i < N
    · simp [hi, hq i hi]
    · simp [hi]

/-- `AllTrue(d, m)`. -/
theorem C74_allTrue (bmi2 : Bool) {w : Nat} (hw : Width w) {m : M256} {p : Nat → Bool} (hm : MaskOf256 w m p) :
    AllTrue bmi2 w m = true ↔ ∀ i, i < 256 / w → p i = true := by
  unfold AllTrue
  split
  · rename_i e; subst e
    rw [beq_iff_eq, show (2 : Nat) ^ 32 - 1 = 2 ^ (256 / 8) - 1 from rfl,
      bits_ones_iff (C74_bitsFromMask bmi2 (w := 8) (by simp [Width]) (maskOf_bytes hm))]
    constructor
    · intro h i hi
      have := h (2 * i) (by simp only [Nat.reduceDiv] at *; omega)
      rwa [show 2 * i / 2 = i by omega] at this
    · intro h i hi
      exact h _ (by simp only [Nat.reduceDiv] at *; omega)
  · rw [beq_iff_eq]; exact bits_ones_iff (C74_bitsFromMask bmi2 hw hm)

theorem filter_pairs (q : Nat → Bool) (n : Nat) :
    ((List.range (2 * n)).filter (fun i => q (i / 2))).length = 2 * ((List.range n).filter q).length := by
  induction n with
  | zero => rfl
  | succ n ih =>
    rw [show 2 * (n + 1) = 2 * n + 1 + 1 by omega, List.range_succ, List.range_succ, List.range_succ]
    rw [List.filter_append, List.filter_append, List.filter_append, List.length_append, List.length_append, List.length_append, ih]
    simp only [List.filter_cons, List.filter_nil, show (2 * n + 1) / 2 = n by omega, show 2 * n / 2 = n by omega]
    cases q n <;> simp <;> omega

/-- `CountTrue(d, m)`: the number of true lanes. -/
theorem C74_countTrue (bmi2 : Bool) {w : Nat} (hw : Width w) {m : M256} {p : Nat → Bool} (hm : MaskOf256 w m p) :
    CountTrue bmi2 w m = ((List.range (256 / w)).filter p).length := by
  have := width_le hw
  unfold CountTrue
  split
  · rename_i e; subst e
    rw [popcnt_bits (by decide) (C74_bitsFromMask bmi2 (w := 8) (by simp [Width]) (maskOf_bytes hm)),
      show 256 / 8 = 2 * (256 / 16) from rfl, filter_pairs, Nat.shiftRight_eq_div_pow]
    omega
  · exact popcnt_bits (by omega) (C74_bitsFromMask bmi2 hw hm)

/-- `FindFirstTrue(d, m)`: the first true lane, or -1 if there is none; `FindKnownFirstTrue` agrees if there is one. -/
theorem C74_findFirstTrue (bmi2 : Bool) {w : Nat} (hw : Width w) {m : M256} {p : Nat → Bool} (hm : MaskOf256 w m p) :
    ((∀ i, i < 256 / w → p i = false) → FindFirstTrue bmi2 w m = -1) ∧
    (∀ k, k < 256 / w → p k = true → (∀ j, j < k → p j = false) →
      FindFirstTrue bmi2 w m = (k : Nat) ∧ FindKnownFirstTrue bmi2 w m = k) := by
  have hb := C74_bitsFromMask bmi2 hw hm
  have hN := width_le hw
  unfold FindFirstTrue FindKnownFirstTrue
  constructor
  · intro h
    have := (bits_zero_iff hb).2 h
    simp [this]
  · intro k hk hp hf
    have hne : BitsFromMask bmi2 w m ≠ 0 := by
      intro e; have := (bits_zero_iff hb).1 e k hk; rw [hp] at this; cases this
    simp only []
    rw [ctz_bits hN.1 hb hk hp hf]
    simp [hne]

/-- `FindLastTrue(d, m)`: the last true lane, or -1 if there is none; `FindKnownLastTrue` agrees if there is one. -/
theorem C74_findLastTrue (bmi2 : Bool) {w : Nat} (hw : Width w) {m : M256} {p : Nat → Bool} (hm : MaskOf256 w m p) :
    ((∀ i, i < 256 / w → p i = false) → FindLastTrue bmi2 w m = -1) ∧
    (∀ k, k < 256 / w → p k = true → (∀ j, k < j → j < 256 / w → p j = false) →
      FindLastTrue bmi2 w m = (k : Nat) ∧ FindKnownLastTrue bmi2 w m = k) := by
  have hb := C74_bitsFromMask bmi2 hw hm
  have hN := width_le hw
  unfold FindLastTrue FindKnownLastTrue
  constructor
  · intro h
    have := (bits_zero_iff hb).2 h
    simp [this]
  · intro k hk hp hf
    have hne : BitsFromMask bmi2 w m ≠ 0 := by
      intro e; have := (bits_zero_iff hb).1 e k hk; rw [hp] at this; cases this
    simp only []
    rw [bsr_bits hN.1 hb hk hp hf]
    rw [show 31 - (31 - k) = k by omega]
    simp [hne]

theorem toInt_small {w n : Nat} (hw : Width w) (h : n ≤ 32) : (BitVec.ofNat w n).toInt = n := by
  rcases hw with rfl | rfl | rfl | rfl <;>
  · rw [BitVec.toInt_eq_toNat_cond, BitVec.toNat_ofNat, Nat.mod_eq_of_lt (by omega), if_pos (by omega)]

/-- `FirstN(d, n)`: exactly the first `n` lanes are true. -/
theorem C74_firstN {w : Nat} (hw : Width w) (n : Nat) : MaskOf256 w (FirstN w n) (fun i => decide (i < n)) := by
  intro i hi
  have hl := width_le hw
  unfold FirstN
  rw [lane_blk2 (F := fun x y => if y.toInt < x.toInt then BitVec.allOnes w else 0#w) hw (fun i a b hr => lane_cmpgt hr a b) _ _ hi,
    lane_setQ hw _ hi, C73_iota hw _ hi, BitVec.zero_add, toInt_small hw (by omega), toInt_small hw (by omega)]
  by_cases h : i < n
  · rw [if_pos (by omega)]; simp [h]
  · rw [if_neg (by omega)]; simp [h]

/-- `BlendedStore(v, m, d, p)`: exactly the lanes with a true mask are written. -/
theorem C74_blendedStore {w : Nat} (hw : Width w) (v : M256) {m : M256} {p : Nat → Bool} (hm : MaskOf256 w m p) (mem : Mem w) (i : Nat) :
    BlendedStore w v m mem i = if i < 256 / w ∧ p i = true then lane256 w i v else mem i := by
  have hpos : 0 < w := by rcases hw with rfl | rfl | rfl | rfl <;> decide
  unfold BlendedStore
  by_cases hi : i < 256 / w
  · split
    · beta_reduce
      rw [hm i hi]
      by_cases hp : p i = true
      · simp [hi, hp]; omega
      · simp [hp]
    · beta_reduce
      rw [hm i hi, maskLane_msb hpos]
  · split <;> simp [hi]

end Hwy.X86.V256
