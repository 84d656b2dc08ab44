import Verif.X86Mask
import Verif.X86ShiftSpec2
import Verif.X86LookupSpec3
import Verif.BitSetLemmas
import Verif.BaseArithLemmas

/-!
# C68: masks and mask bits
-/

namespace Hwy.X86

/-- `m` is a mask of the vector type with `p i` telling whether lane `i` is set; what lies above the vector is arbitrary. -/
def MaskOf (w sz : Nat) (m : M128) (p : Nat → Bool) : Prop :=
  ∀ i, i < Lanes w sz → lane w i m = if p i then BitVec.allOnes w else 0#w

theorem testBit_movemask (w : Nat) (r : M128) (i : Nat) :
    (movemask w r).testBit i = (decide (i < 128 / w) && (lane w i r).msb) := by
  unfold movemask
  rw [BitVec.testBit_toNat, BitVec.getLsbD_ofBoolListLE]
  by_cases h : i < 128 / w
  · simp [h]
  · simp [h]

theorem testBit_OnlyActive (w sz b i : Nat) :
    (OnlyActive w sz b).testBit i = (b.testBit i && (decide (16 ≤ sz) || decide (i < sz / (w / 8)))) := by
  unfold OnlyActive
  split
  · rename_i h; simp [h]
  · rename_i h
    rw [Nat.testBit_and, Nat.testBit_two_pow_sub_one]
    simp [show ¬ 16 ≤ sz by omega]

theorem maskLane_msb {w : Nat} (hw : 0 < w) (b : Bool) : (if b then BitVec.allOnes w else 0#w).msb = b := by
  cases b <;> simp [BitVec.msb_allOnes hw]

theorem shape_cases {w sz : Nat} (hs : Shape w sz) :
    (w = 8 ∨ w = 16 ∨ w = 32 ∨ w = 64) ∧ (sz = 1 ∨ sz = 2 ∨ sz = 4 ∨ sz = 8 ∨ sz = 16) ∧ w / 8 ≤ sz := by
  unfold Shape at hs; omega

theorem lanes_def (w sz : Nat) : Lanes w sz = sz / (w / 8) := by unfold Lanes; rfl

theorem inReg_of {w sz i : Nat} (hs : Shape w sz) (h : i < Lanes w sz) : InReg w i := by
  obtain ⟨hw, hz, hl⟩ := shape_cases hs
  unfold Lanes at h
  refine ⟨by omega, ?_⟩
  rcases hw with rfl | rfl | rfl | rfl <;> omega

theorem lanes_le {w sz : Nat} (hs : Shape w sz) : 0 < Lanes w sz ∧ Lanes w sz ≤ 128 / w ∧ Lanes w sz ≤ 16 := by
  obtain ⟨hw, hz, hl⟩ := shape_cases hs
  unfold Lanes
  rcases hw with rfl | rfl | rfl | rfl <;> omega

theorem lanes_full {w : Nat} (hw : w = 8 ∨ w = 16 ∨ w = 32 ∨ w = 64) : Lanes w 16 = 128 / w := by
  rcases hw with rfl | rfl | rfl | rfl <;> rfl

/-- `BitsFromMask(d, m)`: bit `i` is set exactly if `i` is a lane and its mask is true. -/
theorem C68_bitsFromMask {w sz : Nat} (hs : Shape w sz) {m : M128} {p : Nat → Bool} (hm : MaskOf w sz m p) (i : Nat) :
    (BitsFromMask w sz m).testBit i = (decide (i < Lanes w sz) && p i) := by
  obtain ⟨hw, hz, hl⟩ := shape_cases hs
  have hle := lanes_le hs
  unfold BitsFromMask
  split
  · rename_i e; subst e
    rw [testBit_OnlyActive, testBit_movemask, ← lanes_def]
    by_cases hi : i < Lanes 16 sz
    · have h8 : i < 8 := by omega
      have e := lane_packs_lo (w := 16) (Or.inl rfl) m zero (i := i) h8
      have e' : lane 8 i (packs 16 m zero) = if p i then BitVec.allOnes 8 else 0#8 := by
        refine e.trans ?_
        rw [hm i hi]
        cases p i <;> rfl
      rw [e', maskLane_msb (by omega)]
      simp [hi, show i < 16 by omega]
    · by_cases h16 : 16 ≤ sz
      · have hsz : sz = 16 := by omega
        subst hsz
        rw [show Lanes 16 16 = 8 from rfl] at *
        by_cases hi2 : i < 16
        · have e := lane_packs_hi (w := 16) (Or.inl rfl) m zero (i := i - 8) (by omega)
          rw [show (128 / 16 + (i - 8)) = i by omega, show lane 16 (i - 8) zero = 0#16 from lane_zero _ _] at e
          have e' : lane 8 i (packs 16 m zero) = 0#8 := e
          rw [e']; simp [hi]
        · simp [hi, hi2]
      · simp [hi, h16]
  · rw [testBit_OnlyActive, testBit_movemask, ← lanes_def]
    by_cases hi : i < Lanes w sz
    · rw [hm i hi, maskLane_msb (by omega)]
      simp [hi, show i < 128 / w by omega]
    · by_cases h16 : 16 ≤ sz
      · have hsz : sz = 16 := by omega
        subst hsz
        rw [lanes_full hw] at hi
        simp [hi, lanes_full hw]
      · simp [hi, h16]

theorem bits_lt {N b : Nat} {q : Nat → Bool} (h : ∀ i, b.testBit i = (decide (i < N) && q i)) : b < 2 ^ N := by
  apply Nat.lt_pow_two_of_testBit
  intro i hi; rw [h]; simp [show ¬ i < N by omega]

theorem C68_bits_lt {w sz : Nat} (hs : Shape w sz) {m : M128} {p : Nat → Bool} (hm : MaskOf w sz m p) :
    BitsFromMask w sz m < 2 ^ Lanes w sz := bits_lt (C68_bitsFromMask hs hm)

/-- `StoreMaskBits(d, m, bits)`: writes `(Lanes + 7) / 8` bytes holding the mask bits in ascending order, zero bits after the last
lane, and leaves all other bytes. -/
theorem C68_storeMaskBits {w sz : Nat} (hs : Shape w sz) {m : M128} {p : Nat → Bool} (hm : MaskOf w sz m p) (bits : Mem 8) :
    (StoreMaskBits w sz m bits).2 = (Lanes w sz + 7) / 8 ∧
    (∀ j, j < (Lanes w sz + 7) / 8 → ∀ k, k < 8 →
      ((StoreMaskBits w sz m bits).1 j).getLsbD k = (decide (8 * j + k < Lanes w sz) && p (8 * j + k))) ∧
    (∀ j, (Lanes w sz + 7) / 8 ≤ j → (StoreMaskBits w sz m bits).1 j = bits j) := by
  have hb := C68_bitsFromMask hs hm
  unfold StoreMaskBits
  simp only [← lanes_def]
  refine ⟨trivial, ?_, ?_⟩
  · intro j hj k hk
    rw [if_pos hj, BitVec.getLsbD_ofNat, Nat.testBit_shiftRight, hb]
    simp [hk]
  · intro j hj; rw [if_neg (by omega)]

theorem testBit_bitsFromBytes {N : Nat} (hN : N = 1 ∨ N = 2 ∨ N = 4 ∨ N = 8 ∨ N = 16) (bits : Mem 8) (i : Nat) :
    (bitsFromBytes N bits).testBit i = (decide (i < N) && (bits (i / 8)).getLsbD (i % 8)) := by
  unfold bitsFromBytes
  have h8 : ∀ i, 8 ≤ i → (bits 0).toNat.testBit i = false := fun i h =>
    Nat.testBit_lt_two_pow (Nat.lt_of_lt_of_le (bits 0).isLt (Nat.pow_le_pow_right (by omega) h))
  by_cases h16 : N = 16
  · subst h16
    simp only [Nat.reduceAdd, Nat.reduceDiv, Nat.reduceEqDiff, if_false, Nat.reduceLT]
    rw [show (bits 0).toNat + 256 * (bits 1).toNat = 2 ^ 8 * (bits 1).toNat + (bits 0).toNat by omega,
      Nat.testBit_two_pow_mul_add _ (bits 0).isLt]
    by_cases hi : i < 8
    · rw [if_pos hi, BitVec.testBit_toNat, show i / 8 = 0 by omega, Nat.mod_eq_of_lt hi]; simp [show i < 16 by omega]
    · rw [if_neg hi, BitVec.testBit_toNat]
      by_cases hi2 : i < 16
      · rw [show i / 8 = 1 by omega, show i % 8 = i - 8 by omega]; simp [hi2]
      · simp [hi2, BitVec.getLsbD_of_ge _ _ (show 8 ≤ i - 8 by omega)]
  · rw [if_pos (by omega : (N + 7) / 8 = 1)]
    have key : (bits 0).toNat.testBit i = (decide (i < 8) && (bits (i / 8)).getLsbD (i % 8)) := by
      by_cases hi : i < 8
      · rw [BitVec.testBit_toNat, show i / 8 = 0 by omega, Nat.mod_eq_of_lt hi]; simp [hi]
      · rw [h8 i (by omega)]; simp [hi]
    split
    · rw [Nat.testBit_and, Nat.testBit_two_pow_sub_one, key]
      by_cases hi : i < N
      · simp [hi, show i < 8 by omega]
      · simp [hi]
    · rw [key, show N = 8 by omega]

/-- The bit tested by lane `i`. -/
theorem lane_LoadMaskBits128 (t : Tgt) {w : Nat} (hw : w = 8 ∨ w = 16 ∨ w = 32 ∨ w = 64) (b : Nat) {i : Nat} (h : i < 128 / w) :
    lane w i (LoadMaskBits128 t w b) = if b.testBit i then BitVec.allOnes w else 0#w := by
  unfold LoadMaskBits128
  rcases hw with rfl | rfl | rfl | rfl
  · rw [if_pos rfl]
    have hr : InReg 8 i := ⟨by omega, by omega⟩
    have hv : ∀ q, q < 2 → lane 8 q (cvtsi32 b) = BitVec.ofNat 8 (b >>> (8 * q)) := by
      intro q hq
      apply BitVec.eq_of_getLsbD_eq; intro j hj
      unfold cvtsi32
      rw [getLsbD_lane, BitVec.getLsbD_setWidth, BitVec.getLsbD_ofNat, Nat.testBit_shiftRight]
      rw [show BitVec.ofInt 32 (b : Int) = BitVec.ofNat 32 b from BitVec.ofInt_natCast ..]
      rw [BitVec.getLsbD_ofNat]
      simp [hj, show 8 * q + j < 128 by omega, show 8 * q + j < 32 by omega]
    have hrep : ∀ (X : M128), lane 8 i (if t.val = HWY_SSE2 then
        unpacklo 32 (unpacklo 16 (unpacklo 8 X X) (unpacklo 8 X X)) (unpacklo 16 (unpacklo 8 X X) (unpacklo 8 X X))
        else TableLookupBytes t X (ofBytes [0, 0, 0, 0, 0, 0, 0, 0, 1, 1, 1, 1, 1, 1, 1, 1])) = lane 8 (i / 8) X := by
      intro X
      have h16 : i < 16 := h
      cases t <;> stat <;> leaf1 h16
    simp only []
    rw [C62_testBit t hr _ _ (i % 8) (by omega)
      (by unfold ofBytes; rw [lane_mk (by omega) (by omega)]
          have : ∀ i : Fin 16, BitVec.ofNat 8 ([1, 2, 4, 8, 16, 32, 64, 128, 1, 2, 4, 8, 16, 32, 64, 128].getD i.val 0) = 1#8 <<< (i.val % 8) := by decide
          exact this ⟨i, h⟩), hrep, hv _ (by omega), BitVec.getLsbD_ofNat, Nat.testBit_shiftRight, Nat.div_add_mod]
    unfold maskLane
    simp [show i % 8 < 8 by omega]
  · rw [if_neg (by omega), if_pos rfl]
    have hr : InReg 16 i := ⟨by omega, by omega⟩
    rw [C62_testBit t hr _ _ i (by omega)
      (by rw [lane_mk (by omega) (by omega)]
          have : ∀ i : Fin 8, BitVec.ofNat 16 ([1, 2, 4, 8, 16, 32, 64, 128].getD i.val 0) = 1#16 <<< i.val := by decide
          exact this ⟨i, h⟩), lane_set hr, BitVec.getLsbD_ofNat]
    unfold maskLane; simp [show i < 16 by omega]
  · rw [if_neg (by omega), if_neg (by omega), if_pos rfl]
    have hr : InReg 32 i := ⟨by omega, by omega⟩
    rw [C62_testBit t hr _ _ i (by omega)
      (by rw [lane_mk (by omega) (by omega)]
          have : ∀ i : Fin 4, BitVec.ofNat 32 ([1, 2, 4, 8].getD i.val 0) = 1#32 <<< i.val := by decide
          exact this ⟨i, h⟩), lane_set hr, BitVec.getLsbD_ofNat]
    unfold maskLane; simp [show i < 32 by omega]
  · rw [if_neg (by omega), if_neg (by omega), if_neg (by omega)]
    have hr : InReg 64 i := ⟨by omega, by omega⟩
    rw [C62_testBit t hr _ _ i (by omega)
      (by rw [lane_mk (by omega) (by omega)]
          have : ∀ i : Fin 2, BitVec.ofNat 64 ([1, 2].getD i.val 0) = 1#64 <<< i.val := by decide
          exact this ⟨i, h⟩), lane_set hr, BitVec.getLsbD_ofNat]
    unfold maskLane; simp [show i < 64 by omega]

/-- `LoadMaskBits(d, bits)`: lane `i` is true exactly if bit `i` of the array is set, whatever the unused bits are. -/
theorem C68_loadMaskBits (t : Tgt) {w sz : Nat} (hs : Shape w sz) (bits : Mem 8) :
    MaskOf w sz (LoadMaskBits t w sz bits) (fun i => (bits (i / 8)).getLsbD (i % 8)) := by
  intro i hi
  obtain ⟨hw, hz, hl⟩ := shape_cases hs
  have hle := lanes_le hs
  have hN : Lanes w sz = 1 ∨ Lanes w sz = 2 ∨ Lanes w sz = 4 ∨ Lanes w sz = 8 ∨ Lanes w sz = 16 := by
    unfold Lanes; rcases hw with rfl | rfl | rfl | rfl <;> omega
  unfold LoadMaskBits
  rw [lane_LoadMaskBits128 t hw _ (by omega), ← lanes_def, testBit_bitsFromBytes hN]
  simp [hi]

/-- `Dup128MaskFromMaskBits(d, bits)`: lane `i` is bit `i`. -/
theorem C68_dup128MaskFromMaskBits (t : Tgt) {w sz : Nat} (hs : Shape w sz) (bits : Nat) :
    MaskOf w sz (Dup128MaskFromMaskBits t w sz bits) (fun i => bits.testBit i) := by
  intro i hi
  obtain ⟨hw, hz, hl⟩ := shape_cases hs
  have hle := lanes_le hs
  unfold Dup128MaskFromMaskBits
  simp only [← lanes_def]
  rw [lane_LoadMaskBits128 t hw _ (by omega)]
  split
  · rw [Nat.testBit_and, Nat.testBit_two_pow_sub_one]; simp [hi]
  · rfl

/-- Loading stored bits gives back the mask. -/
theorem C68_roundtrip (t : Tgt) {w sz : Nat} (hs : Shape w sz) {m : M128} {p : Nat → Bool} (hm : MaskOf w sz m p) (u : Mem 8) :
    MaskOf w sz (LoadMaskBits t w sz (StoreMaskBits w sz m u).1) p := by
  intro i hi
  rw [C68_loadMaskBits t hs _ i hi]
  have e := (C68_storeMaskBits hs hm u).2.1 (i / 8) (by omega) (i % 8) (by omega)
  rw [Nat.div_add_mod] at e
  simp only [e, hi, decide_true, Bool.true_and]

/-! ## Testing masks -/

theorem bits_zero_iff {N b : Nat} {q : Nat → Bool} (h : ∀ i, b.testBit i = (decide (i < N) && q i)) :
    b = 0 ↔ ∀ i, i < N → q i = false := by
  constructor
  · rintro rfl i hi
    have := h i; simp [hi] at this; simpa using this
  · intro hq
    apply Nat.eq_of_testBit_eq; intro i
    rw [h, Nat.zero_testBit]
    by_cases hi : i < N
    · simp [hi, hq i hi]
    · simp [hi]

/-- `AllFalse(d, m)`. -/
theorem C68_allFalse {w sz : Nat} (hs : Shape w sz) {m : M128} {p : Nat → Bool} (hm : MaskOf w sz m p) :
    AllFalse w sz m = true ↔ ∀ i, i < Lanes w sz → p i = false := by
  unfold AllFalse
  rw [beq_iff_eq]; exact bits_zero_iff (C68_bitsFromMask hs hm)

/-- `AllTrue(d, m)`. -/
theorem C68_allTrue {w sz : Nat} (hs : Shape w sz) {m : M128} {p : Nat → Bool} (hm : MaskOf w sz m p) :
    AllTrue w sz m = true ↔ ∀ i, i < Lanes w sz → p i = true := by
  have hb := C68_bitsFromMask hs hm
  unfold AllTrue
  rw [beq_iff_eq, ← lanes_def]
  constructor
  · intro e i hi
    have := hb i
    rw [e, Nat.testBit_two_pow_sub_one] at this
    simpa [hi] using this
  · intro hq
    apply Nat.eq_of_testBit_eq; intro i
    rw [hb, Nat.testBit_two_pow_sub_one]
    by_cases hi : i < Lanes w sz
    · simp [hi, hq i hi]
    · simp [hi]

theorem filter_range {N M : Nat} (hNM : N ≤ M) (q r : Nat → Bool) (h : ∀ i, i < M → r i = (decide (i < N) && q i)) :
    (List.range M).filter r = (List.range N).filter q := by
  obtain ⟨k, rfl⟩ := Nat.exists_eq_add_of_le hNM
  rw [List.range_add, List.filter_append]
  have h1 : (List.range N).filter r = (List.range N).filter q := by
    apply List.filter_congr; intro i hi
    have := List.mem_range.1 hi
    rw [h i (by omega)]; simp [this]
  have h2 : (List.map (fun x => N + x) (List.range k)).filter r = [] := by
    rw [List.filter_eq_nil_iff]
    intro a ha
    obtain ⟨x, hx, rfl⟩ := List.mem_map.1 ha
    have := List.mem_range.1 hx
    rw [h _ (by omega)]; simp
  rw [h1, h2, List.append_nil]

theorem popcnt_bits {N b : Nat} (hN : N ≤ 64) {q : Nat → Bool} (h : ∀ i, b.testBit i = (decide (i < N) && q i)) :
    popcnt b = ((List.range N).filter q).length := by
  unfold popcnt
  rw [filter_range hN q b.testBit (fun i _ => h i)]

/-- `CountTrue(d, m)`: the number of true lanes. -/
theorem C68_countTrue {w sz : Nat} (hs : Shape w sz) {m : M128} {p : Nat → Bool} (hm : MaskOf w sz m p) :
    CountTrue w sz m = ((List.range (Lanes w sz)).filter p).length := by
  unfold CountTrue
  exact popcnt_bits (by have := lanes_le hs; omega) (C68_bitsFromMask hs hm)

theorem ofNat32_bit {N b : Nat} (hN : N ≤ 32) {q : Nat → Bool} (h : ∀ i, b.testBit i = (decide (i < N) && q i)) (i : Nat) :
    (BitVec.ofNat 32 b).getLsbD i = (decide (i < N) && q i) := by
  rw [BitVec.getLsbD_ofNat, h]
  by_cases hi : i < N
  · simp [hi, show i < 32 by omega]
  · simp [hi]

theorem ctz_bits {N b : Nat} (hN : N ≤ 32) {q : Nat → Bool} (h : ∀ i, b.testBit i = (decide (i < N) && q i)) {k : Nat}
    (hk : k < N) (hq : q k = true) (hf : ∀ j, j < k → q j = false) : ctz (BitVec.ofNat 32 b) = k := by
  have hb := ofNat32_bit hN h
  have hne : BitVec.ofNat 32 b ≠ 0 := by
    intro e; have := hb k; rw [e] at this; simp [hk, hq] at this
  obtain ⟨h1, h2, h3⟩ := ctz_spec _ hne
  rw [hb] at h2
  simp at h2
  rcases Nat.lt_trichotomy (ctz (BitVec.ofNat 32 b)) k with hl | he | hg
  · have := hf _ hl; rw [h2.2] at this; cases this
  · exact he
  · have := h3 k hg; rw [hb] at this; simp [hk, hq] at this

theorem bsr_bits {N b : Nat} (hN : N ≤ 32) {q : Nat → Bool} (h : ∀ i, b.testBit i = (decide (i < N) && q i)) {k : Nat}
    (hk : k < N) (hq : q k = true) (hf : ∀ j, k < j → j < N → q j = false) : bsr (BitVec.ofNat 32 b) = k := by
  have hb := ofNat32_bit hN h
  obtain ⟨h2, h1, h3⟩ := bsrFrom_spec (BitVec.ofNat 32 b) 32 ⟨k, by omega, by rw [hb]; simp [hk, hq]⟩
  show bsrFrom _ 32 = k
  rw [hb] at h2
  simp at h2
  generalize bsrFrom (BitVec.ofNat 32 b) 32 = z at *
  rcases Nat.lt_trichotomy z k with hl | he | hg
  · have := h3 k hl (by omega); rw [hb] at this; simp [hk, hq] at this
  · exact he
  · have := hf z hg h2.1; rw [h2.2] at this; cases this

/-- `FindFirstTrue(d, m)`: the first true lane, or -1 if there is none; `FindKnownFirstTrue` agrees if there is one. -/
theorem C68_findFirstTrue {w sz : Nat} (hs : Shape w sz) {m : M128} {p : Nat → Bool} (hm : MaskOf w sz m p) :
    ((∀ i, i < Lanes w sz → p i = false) → FindFirstTrue w sz m = -1) ∧
    (∀ k, k < Lanes w sz → p k = true → (∀ j, j < k → p j = false) →
      FindFirstTrue w sz m = (k : Nat) ∧ FindKnownFirstTrue w sz m = k) := by
  have hb := C68_bitsFromMask hs hm
  have hN := lanes_le hs
  unfold FindFirstTrue FindKnownFirstTrue
  constructor
  · intro h
    have := (bits_zero_iff hb).2 h
    simp [this]
  · intro k hk hp hf
    have hne : BitsFromMask w sz m ≠ 0 := by
      intro e; have := (bits_zero_iff hb).1 e k hk; rw [hp] at this; cases this
    simp only []
    rw [if_pos hne, ctz_bits (by omega) hb hk hp hf]
    exact ⟨rfl, rfl⟩

/-- `FindLastTrue(d, m)`: the last true lane, or -1 if there is none; `FindKnownLastTrue` agrees if there is one. -/
theorem C68_findLastTrue {w sz : Nat} (hs : Shape w sz) {m : M128} {p : Nat → Bool} (hm : MaskOf w sz m p) :
    ((∀ i, i < Lanes w sz → p i = false) → FindLastTrue w sz m = -1) ∧
    (∀ k, k < Lanes w sz → p k = true → (∀ j, k < j → j < Lanes w sz → p j = false) →
      FindLastTrue w sz m = (k : Nat) ∧ FindKnownLastTrue w sz m = k) := by
  have hb := C68_bitsFromMask hs hm
  have hN := lanes_le hs
  unfold FindLastTrue FindKnownLastTrue
  constructor
  · intro h
    have := (bits_zero_iff hb).2 h
    simp [this]
  · intro k hk hp hf
    have hne : BitsFromMask w sz m ≠ 0 := by
      intro e; have := (bits_zero_iff hb).1 e k hk; rw [hp] at this; cases this
    simp only []
    rw [if_pos hne, bsr_bits (by omega) hb hk hp hf, show 31 - (31 - k) = k by omega]
    exact ⟨rfl, rfl⟩

end Hwy.X86
