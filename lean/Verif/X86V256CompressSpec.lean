import Verif.X86V256MaskSpec

/-!
# C74: `Compress` and `Expand` of 256-bit AVX2 vectors
-/

namespace Hwy.X86.V256

/-! ## The tables, checked row by row -/

theorem qtab32 : ∀ b, b < 256 → ∀ i, i < 8 →
    compress32x8.getD b 0 < 2 ^ 32 ∧ (compress32x8.getD b 0 >>> (4 * i)) % 8 = (packOrder 8 b.testBit).getD i 0 ∧
    (compress32x8.getD b 0 >>> (4 * i)).testBit 3 = decide (i < (selected 8 b.testBit).length) := by decide +kernel
theorem qtabNot32 : ∀ b, b < 256 → ∀ i, i < 8 →
    compressNot32x8.getD b 0 < 2 ^ 32 ∧ (compressNot32x8.getD b 0 >>> (4 * i)) % 8 = (packOrder 8 (fun k => !b.testBit k)).getD i 0 := by
  decide +kernel
theorem qtab64 : ∀ b, b < 16 → ∀ i, i < 4 → ∀ j, j < 2 →
    ((compress64x4.drop (8 * b)).take 8).getD (2 * i + j) 0 < 16 ∧
    ((compress64x4.drop (8 * b)).take 8).getD (2 * i + j) 0 % 8 = 2 * (packOrder 4 b.testBit).getD i 0 + j ∧
    (((compress64x4.drop (8 * b)).take 8).getD (2 * i + j) 0).testBit 3 = decide (i < (selected 4 b.testBit).length) := by decide +kernel
theorem qtabNot64 : ∀ b, b < 16 → ∀ i, i < 4 → ∀ j, j < 2 →
    ((compressNot64x4.drop (8 * b)).take 8).getD (2 * i + j) 0 < 16 ∧
    ((compressNot64x4.drop (8 * b)).take 8).getD (2 * i + j) 0 % 8 = 2 * (packOrder 4 (fun k => !b.testBit k)).getD i 0 + j := by decide +kernel
theorem qetab32 : ∀ b, b < 256 → ∀ i, i < 8 → expand32x8.getD b 0 < 2 ^ 32 ∧
    (b.testBit i = true → (expand32x8.getD b 0 >>> (4 * i)) % 8 = rankOf b.testBit i) := by decide +kernel
theorem qetab64 : ∀ b, b < 16 → ∀ i, i < 4 → expand64x4.getD b 0 < 2 ^ 64 ∧
    (b.testBit i = true → (expand64x4.getD b 0 >>> (4 * i)) &&& 3 = rankOf b.testBit i) := by decide +kernel

theorem wd32 : Width 32 := by simp [Width]
theorem wd64 : Width 64 := by simp [Width]
theorem wd16 : Width 16 := by simp [Width]
theorem wd8 : Width 8 := by simp [Width]

/-- Extracting nibbles of one packed constant. -/
theorem nibble32 {c i : Nat} (hc : c < 2 ^ 32) (hi : i < 8) :
    (lane256 32 i (blk2 (srlv 32) (setQ 32 (BitVec.ofNat 32 c)) (shiftsQ 32))).toNat = c >>> (4 * i) := by
  have h : i < 256 / 32 := hi
  unfold shiftsQ
  rw [lane_blk2 (F := fun x c => x >>> c.toNat) wd32 (fun i a b hr => lane_map2 hr _ a b) _ _ h, lane_setQ wd32 _ h, lane_ofLanes wd32 _ h]
  have : ∀ i, i < 8 → (BitVec.ofNat 32 ([0, 4, 8, 12, 16, 20, 24, 28].getD i 0)).toNat = 4 * i := by decide
  rw [this i hi, BitVec.toNat_ushiftRight, BitVec.toNat_ofNat, Nat.mod_eq_of_lt hc]
theorem nibble64 {c i : Nat} (hc : c < 2 ^ 64) (hi : i < 4) :
    (lane256 64 i (blk2 (srlv 64) (setQ 64 (BitVec.ofNat 64 c)) (shiftsQ 64))).toNat = c >>> (4 * i) := by
  have h : i < 256 / 64 := hi
  unfold shiftsQ
  rw [lane_blk2 (F := fun x c => x >>> c.toNat) wd64 (fun i a b hr => lane_map2 hr _ a b) _ _ h, lane_setQ wd64 _ h, lane_ofLanes wd64 _ h]
  have : ∀ i, i < 4 → (BitVec.ofNat 64 ([0, 4, 8, 12, 16, 20, 24, 28].getD i 0)).toNat = 4 * i := by decide
  rw [this i hi, BitVec.toNat_ushiftRight, BitVec.toNat_ofNat, Nat.mod_eq_of_lt hc]

/-- Pairs of 32-bit indices select a 64-bit lane. -/
theorem pair64 (v idx : M256) {i n : Nat} (hi : i < 4) (hn : n < 4)
    (h : ∀ j, j < 2 → (lane256 32 (2 * i + j) idx).toNat % 8 = 2 * n + j) :
    lane256 64 i (permutevar8x32 v idx) = lane256 64 n v := by
  apply lane64_halves
  intro j hj
  rw [half256 hj, half256 hj, pv8 v idx (by omega) rfl, h j hj]

/-! ## Compress of 32- and 64-bit lanes -/

theorem lane_CompressInt32 (v : M256) {b i : Nat} (hb : b < 256) (hi : i < 8) :
    lane256 32 i (permutevar8x32 v (IndicesFromBits256 32 b)) = lane256 32 ((packOrder 8 b.testBit).getD i 0) v := by
  obtain ⟨h1, h2, -⟩ := qtab32 b hb i hi
  unfold IndicesFromBits256
  rw [if_pos rfl, pv8 v _ hi (nibble32 h1 hi), h2]
theorem lane_CompressNotInt32 (v : M256) {b i : Nat} (hb : b < 256) (hi : i < 8) :
    lane256 32 i (permutevar8x32 v (IndicesFromNotBits256 32 b)) = lane256 32 ((packOrder 8 (fun k => !b.testBit k)).getD i 0) v := by
  obtain ⟨h1, h2⟩ := qtabNot32 b hb i hi
  unfold IndicesFromNotBits256
  rw [if_pos rfl, pv8 v _ hi (nibble32 h1 hi), h2]

theorem idx_list (l : List Nat) {k : Nat} (hk : k < 8) (hl : l.getD k 0 < 16) : (lane256 32 k (ofLanes 32 l)).toNat = l.getD k 0 := by
  rw [lane_ofLanes wd32 _ (show k < 256 / 32 from hk), BitVec.toNat_ofNat, Nat.mod_eq_of_lt (by omega)]

theorem lane_CompressInt64 (v : M256) {b i : Nat} (hb : b < 16) (hi : i < 4) :
    lane256 64 i (permutevar8x32 v (IndicesFromBits256 64 b)) = lane256 64 ((packOrder 4 b.testBit).getD i 0) v := by
  unfold IndicesFromBits256
  rw [if_neg (by decide)]
  apply pair64 v _ hi (packOrder_lt _ hi)
  intro j hj
  obtain ⟨h1, h2, -⟩ := qtab64 b hb i hi j hj
  rw [idx_list _ (by omega) h1, h2]
theorem lane_CompressNotInt64 (v : M256) {b i : Nat} (hb : b < 16) (hi : i < 4) :
    lane256 64 i (permutevar8x32 v (IndicesFromNotBits256 64 b)) = lane256 64 ((packOrder 4 (fun k => !b.testBit k)).getD i 0) v := by
  unfold IndicesFromNotBits256
  rw [if_neg (by decide)]
  apply pair64 v _ hi (packOrder_lt _ hi)
  intro j hj
  obtain ⟨h1, h2⟩ := qtabNot64 b hb i hi j hj
  rw [idx_list _ (by omega) h1, h2]

/-! ## Compress of 16-bit lanes -/

theorem lane_LoadUQ {w : Nat} (hw : Width w) (mem : Mem w) (q : Nat) {i : Nat} (h : i < 256 / w) : lane256 w i (LoadUQ w mem q) = mem (q + i) := by
  have h2 := width_two hw
  unfold LoadUQ
  by_cases hb : i < 128 / w
  · rw [lane256_lo hb, lane_LoadU (inReg_lo hw hb), if_pos hb]
  · rw [lane256_hi hb, lane_LoadU (inReg_hi hw h), if_pos (by omega)]
    congr 1; omega

theorem lane_IfThenElseQ {w : Nat} (hw : Width w) {m : M256} {p : Nat → Bool} (hm : MaskOf256 w m p) (yes no : M256) {i : Nat} (h : i < 256 / w) :
    lane256 w i (IfThenElse m yes no) = if p i then lane256 w i yes else lane256 w i no := by
  have e := hm i h
  unfold IfThenElse
  by_cases hb : i < 128 / w
  · rw [lane256_lo hb] at e
    rw [lane256_lo hb, lane256_lo hb, lane256_lo hb]
    exact lane_blendv8 (inReg_lo hw hb) _ _ _ (p i = true) e
  · rw [lane256_hi hb] at e
    rw [lane256_hi hb, lane256_hi hb, lane256_hi hb]
    exact lane_blendv8 (inReg_hi hw h) _ _ _ (p i = true) e

theorem getD_append {l r : List Nat} {i : Nat} : (l ++ r).getD i 0 = if i < l.length then l.getD i 0 else r.getD (i - l.length) 0 := by
  split
  · rename_i h; simp only [List.getD_eq_getElem?_getD, List.getElem?_append_left h]
  · rename_i h; simp only [List.getD_eq_getElem?_getD, List.getElem?_append_right (Nat.le_of_not_lt h)]
theorem getD_map_add (a : Nat) {l : List Nat} {i : Nat} (h : i < l.length) : (l.map (a + ·)).getD i 0 = a + l.getD i 0 := by
  simp only [List.getD_eq_getElem?_getD, List.getElem?_map, List.getElem?_eq_getElem h, Option.map_some, Option.getD_some]

theorem len_not (N : Nat) (p : Nat → Bool) : (selected N p).length + (selected N (fun i => !p i)).length = N := by
  have := packOrder_length N p
  unfold packOrder at this
  rwa [List.length_append] at this

theorem lane_Compress16 (v : M256) {b : Nat} (hb : b < 2 ^ 16) {i : Nat} (hi : i < 16) :
    lane256 16 i (Compress16 v b) = lane256 16 ((packOrder 16 b.testBit).getD i 0) v := by
  have hb0 : ∀ k, (b &&& 0xFF).testBit k = (decide (k < 8) && b.testBit k) := by
    intro k
    rw [Nat.testBit_and, show (0xFF : Nat) = 2 ^ 8 - 1 from rfl, Nat.testBit_two_pow_sub_one, Bool.and_comm]
  have hb1 : ∀ k, (b >>> 8).testBit k = (decide (k < 8) && b.testBit (8 + k)) := by
    intro k
    rw [Nat.testBit_shiftRight]
    by_cases h : k < 8
    · simp [h]
    · simp only [h, decide_false, Bool.false_and]
      exact Nat.testBit_lt_two_pow (Nat.lt_of_lt_of_le hb (Nat.pow_le_pow_right (by decide) (by omega)))
  generalize hp0 : (fun k => b.testBit k) = p0 at *
  have ep : b.testBit = p0 := hp0
  have hc0 : ∀ k, k < 8 → lane 16 k (CompressBitsInt .avx2 16 16 (LowerHalf v) (b &&& 0xFF)) = lane 16 ((packOrder 8 p0).getD k 0) v.lo := by
    intro k hk
    unfold CompressBitsInt
    rw [lane_CompressBitsInt .avx2 (shape16 wd16) (by decide) _ (bits_lt hb0) hk, show Lanes 16 16 = 8 from rfl, ← selected_bits hb0, ← ep]
    rfl
  have hc1 : ∀ k, k < 8 → lane 16 k (CompressBitsInt .avx2 16 16 (UpperHalf v) (b >>> 8)) = lane 16 ((packOrder 8 (fun k => p0 (8 + k))).getD k 0) v.hi := by
    intro k hk
    unfold CompressBitsInt
    rw [lane_CompressBitsInt .avx2 (shape16 wd16) (by decide) _ (bits_lt hb1) hk, show Lanes 16 16 = 8 from rfl, ← selected_bits hb1, ← ep]
    rfl
  have hn0 : popcnt (b &&& 0xFF) = (selected 8 p0).length := by rw [popcnt_bits (by decide) hb0, ← ep]; rfl
  have hn1 : popcnt (b >>> 8) = (selected 8 (fun k => p0 (8 + k))).length := by rw [popcnt_bits (by decide) hb1, ← ep]; rfl
  unfold Compress16
  simp only []
  generalize CompressBitsInt .avx2 16 16 (LowerHalf v) (b &&& 0xFF) = c0 at *
  generalize CompressBitsInt .avx2 16 16 (UpperHalf v) (b >>> 8) = c1 at *
  have hS := selected_split 8 8 p0
  have hT := selected_split 8 8 (fun k => !p0 k)
  rw [ep]
  have hl0 := len_not 8 p0
  have hl1 := len_not 8 (fun k => p0 (8 + k))
  rw [lane_IfThenElseQ wd16 (C74_firstN wd16 _) _ _ (show i < 256 / 16 from hi), lane_LoadUQ wd16 _ _ (show i < 256 / 16 from hi),
    lane_LoadUQ wd16 _ _ (show i < 256 / 16 from hi), hn0, hn1, Nat.zero_add]
  have hpk : packOrder 16 p0 = (selected 8 p0 ++ (selected 8 (fun k => p0 (8 + k))).map (8 + ·)) ++
      (selected 8 (fun k => !p0 k) ++ (selected 8 (fun k => !p0 (8 + k))).map (8 + ·)) := by
    unfold packOrder; rw [← hS, ← hT]
  have hk0 : ∀ k, k < 8 → (packOrder 8 p0).getD k 0 = if k < (selected 8 p0).length then (selected 8 p0).getD k 0
      else (selected 8 (fun k => !p0 k)).getD (k - (selected 8 p0).length) 0 := fun k _ => getD_append
  have hk1 : ∀ k, k < 8 → (packOrder 8 (fun k => p0 (8 + k))).getD k 0 = if k < (selected 8 (fun k => p0 (8 + k))).length
      then (selected 8 (fun k => p0 (8 + k))).getD k 0
      else (selected 8 (fun k => !p0 (8 + k))).getD (k - (selected 8 (fun k => p0 (8 + k))).length) 0 := fun k _ => getD_append
  have hm0 : ∀ k, k < (selected 8 p0).length → (selected 8 p0).getD k 0 < 8 := fun k h => selected_mem h
  have hm0' : ∀ k, k < (selected 8 (fun k => !p0 k)).length → (selected 8 (fun k => !p0 k)).getD k 0 < 8 := fun k h => selected_mem h
  have hlo : ∀ k, k < 8 → lane256 16 k v = lane 16 k v.lo := fun k h => lane256_lo h v
  have hhi : ∀ k, lane256 16 (8 + k) v = lane 16 k v.hi := fun k => by
    rw [lane256_hi (by simp only [Nat.reduceDiv]; omega), show 8 + k - 128 / 16 = k by simp only [Nat.reduceDiv]; omega]
  rw [hpk, getD_append, List.length_append, List.length_map]
  generalize hs0 : selected 8 p0 = s0 at *
  generalize hs1 : selected 8 (fun k => p0 (8 + k)) = s1 at *
  generalize ht0 : selected 8 (fun k => !p0 k) = t0 at *
  generalize ht1 : selected 8 (fun k => !p0 (8 + k)) = t1 at *
  unfold storeAt
  simp only [Nat.reduceDiv]
  by_cases hA : i < s0.length + s1.length
  · simp only [hA, decide_true, if_true]
    rw [getD_append]
    by_cases hA0 : i < s0.length
    · rw [if_neg (by omega), if_pos ⟨by omega, by omega⟩, if_pos hA0, Nat.sub_zero, hc0 i (by omega), hk0 i (by omega), if_pos hA0,
        hlo _ (hm0 _ hA0)]
    · rw [if_pos ⟨by omega, by omega⟩, if_neg hA0, hc1 _ (by omega), hk1 _ (by omega), if_pos (by omega), getD_map_add _ (by omega), hhi]
  · simp only [hA, decide_false, if_false, Bool.false_eq_true]
    rw [getD_append]
    by_cases hA0 : i < s1.length + 8
    · rw [if_pos ⟨by omega, by omega⟩, if_pos (by omega), hc0 _ (by omega), hk0 _ (by omega), if_neg (by omega),
        show i - s1.length - s0.length = i - (s0.length + s1.length) by omega, hlo _ (hm0' _ (by omega))]
    · rw [if_neg (by omega), if_pos ⟨by omega, by omega⟩, if_neg (by omega), hc1 _ (by omega), hk1 _ (by omega), if_neg (by omega),
        getD_map_add _ (by omega), hhi, show i - 8 - s1.length = i - (s0.length + s1.length) - t0.length by omega]

/-! ## Compress of all wider lanes -/

theorem lane_CompressInt {w : Nat} (hw : Width w) (hw8 : w ≠ 8) (v : M256) {b : Nat} (hb : b < 2 ^ (256 / w)) {i : Nat} (hi : i < 256 / w) :
    lane256 w i (CompressInt w v b) = lane256 w ((packOrder (256 / w) b.testBit).getD i 0) v := by
  unfold CompressInt TableLookupLanes
  rcases hw with rfl | rfl | rfl | rfl
  · exact absurd rfl hw8
  · rw [if_pos rfl]; exact lane_Compress16 v hb hi
  · rw [if_neg (by decide), if_neg (by decide)]; exact lane_CompressInt32 v hb hi
  · rw [if_neg (by decide), if_neg (by decide)]; exact lane_CompressInt64 v hb hi

/-- `Compress(v, mask)` for lanes of 16, 32 and 64 bits: the lanes with a true mask come first, in their order, then the others
in theirs. -/
theorem C74_compress (bmi2 : Bool) {w : Nat} (hw : Width w) (hw8 : w ≠ 8) (v : M256) {m : M256} {p : Nat → Bool} (hm : MaskOf256 w m p)
    {i : Nat} (hi : i < 256 / w) :
    lane256 w i (Compress bmi2 w v m) = lane256 w ((packOrder (256 / w) p).getD i 0) v := by
  have hb := C74_bitsFromMask bmi2 hw hm
  unfold Compress
  rw [lane_CompressInt hw hw8 v (bits_lt hb) hi, selected_bits hb]

/-- `CompressNot(v, mask)`: the lanes with a false mask come first, then the others. -/
theorem C74_compressNot (bmi2 : Bool) {w : Nat} (hw : Width w) (hw8 : w ≠ 8) (v : M256) {m : M256} {p : Nat → Bool} (hm : MaskOf256 w m p)
    {i : Nat} (hi : i < 256 / w) :
    lane256 w i (CompressNot bmi2 w v m) = lane256 w ((packOrder (256 / w) (fun k => !p k)).getD i 0) v := by
  have hb := C74_bitsFromMask bmi2 hw hm
  have hq : packOrder (256 / w) (fun k => !(BitsFromMask bmi2 w m).testBit k) = packOrder (256 / w) (fun k => !p k) :=
    packOrder_congr (fun k hk => by simp only [hb, hk, decide_true, Bool.true_and])
  have hlt := bits_lt hb
  unfold CompressNot CompressNotInt TableLookupLanes
  rcases hw with rfl | rfl | rfl | rfl
  · exact absurd rfl hw8
  · rw [if_pos rfl]
    have hx : ∀ k, (BitsFromMask bmi2 16 m ^^^ 0xFFFF).testBit k = (decide (k < 256 / 16) && !p k) := by
      intro k
      rw [Nat.testBit_xor, hb, show (0xFFFF : Nat) = 2 ^ 16 - 1 from rfl, Nat.testBit_two_pow_sub_one]
      by_cases h : k < 16
      · simp [h]
      · simp [h]
    rw [lane_CompressInt wd16 (by decide) v (bits_lt hx) hi, ← selected_bits hx]
  · rw [if_neg (by decide), if_neg (by decide), lane_CompressNotInt32 v hlt hi]
    rw [← hq]
  · rw [if_neg (by decide), if_neg (by decide), lane_CompressNotInt64 v hlt hi]
    rw [← hq]

/-- `CompressBlocksNot(v, mask)` is `CompressNot` of 64-bit lanes: whole blocks stay together if the mask is the same in both
lanes of each block. -/
theorem C74_compressBlocksNot (bmi2 : Bool) (v : M256) {m : M256} {q : Nat → Bool} (hm : MaskOf256 64 m (fun i => q (i / 2)))
    {i : Nat} (hi : i < 4) :
    lane256 64 i (CompressBlocksNot bmi2 v m) = lane256 64 (2 * (packOrder 2 (fun k => !q k)).getD (i / 2) 0 + i % 2) v := by
  unfold CompressBlocksNot
  rw [C74_compressNot bmi2 wd64 (by decide) v hm hi]
  congr 1
  rw [show 256 / 64 = 4 from rfl]
  unfold packOrder selected
  rw [show List.range 4 = [0, 1, 2, 3] from rfl, show List.range 2 = [0, 1] from rfl]
  simp only [List.filter_cons, List.filter_nil, Nat.reduceDiv]
  clear hm
  generalize q 0 = x, q 1 = y at *
  revert hi
  revert i
  cases x <;> cases y <;> decide

/-- `CompressBits(v, bits)` is `Compress` with the mask given by the bits of the array, whatever the unused bits are. -/
theorem C74_compressBits {w : Nat} (hw : Width w) (hw8 : w ≠ 8) (v : M256) (bits : Mem 8) {i : Nat} (hi : i < 256 / w) :
    lane256 w i (CompressBits w v bits) = lane256 w ((packOrder (256 / w) (bitAt bits)).getD i 0) v := by
  have hb := testBit_bitsFromBytesQ (width_bytes hw) bits
  unfold CompressBits
  rw [lane_CompressInt hw hw8 v (bits_lt hb) hi, selected_bits hb]

theorem storeQ_first {w N : Nat} {p : Nat → Bool} {v X : M256} {mem : Mem w} (hN : N = 256 / w)
    (hX : ∀ i, i < N → lane256 w i X = lane256 w ((packOrder N p).getD i 0) v) :
    (∀ i, i < (selected N p).length → StoreUQ w X mem i = lane256 w ((selected N p).getD i 0) v) ∧
    (∀ i, N ≤ i → StoreUQ w X mem i = mem i) := by
  have hl := selected_length_le N p
  constructor
  · intro i hi
    unfold StoreUQ
    rw [if_pos (by omega), hX i (by omega), packOrder_first p hi]
  · intro i hi
    unfold StoreUQ
    rw [if_neg (by omega)]

/-- `CompressStore(v, mask, d, p)`: writes the selected lanes in order at `p`, returns their number and touches nothing beyond
the lanes of one vector at `p`. -/
theorem C74_compressStore (bmi2 : Bool) {w : Nat} (hw : Width w) (hw8 : w ≠ 8) (v : M256) {m : M256} {p : Nat → Bool}
    (hm : MaskOf256 w m p) (mem : Mem w) :
    (CompressStore bmi2 w v m mem).2 = (selected (256 / w) p).length ∧
    (∀ i, i < (selected (256 / w) p).length →
      (CompressStore bmi2 w v m mem).1 i = lane256 w ((selected (256 / w) p).getD i 0) v) ∧
    (∀ i, 256 / w ≤ i → (CompressStore bmi2 w v m mem).1 i = mem i) := by
  have hb := C74_bitsFromMask bmi2 hw hm
  have hle := width_le hw
  refine ⟨popcnt_bits (by omega) hb, ?_⟩
  exact storeQ_first (mem := mem) rfl (fun i hi => by rw [lane_CompressInt hw hw8 v (bits_lt hb) hi, selected_bits hb])

/-- `CompressBitsStore(v, bits, d, p)`, likewise for bits in memory. -/
theorem C74_compressBitsStore {w : Nat} (hw : Width w) (hw8 : w ≠ 8) (v : M256) (bits : Mem 8) (mem : Mem w) :
    (CompressBitsStore w v bits mem).2 = (selected (256 / w) (bitAt bits)).length ∧
    (∀ i, i < (selected (256 / w) (bitAt bits)).length →
      (CompressBitsStore w v bits mem).1 i = lane256 w ((selected (256 / w) (bitAt bits)).getD i 0) v) ∧
    (∀ i, 256 / w ≤ i → (CompressBitsStore w v bits mem).1 i = mem i) := by
  have hb := testBit_bitsFromBytesQ (width_bytes hw) bits
  have hle := width_le hw
  refine ⟨popcnt_bits (by omega) hb, ?_⟩
  exact storeQ_first (mem := mem) rfl (fun i hi => by rw [lane_CompressInt hw hw8 v (bits_lt hb) hi, selected_bits hb])

theorem msb_shl28 (x : BitVec 32) : (x <<< 28).msb = x.toNat.testBit 3 := by
  rw [BitVec.msb_eq_getLsbD_last, BitVec.getLsbD_shiftLeft, BitVec.testBit_toNat]
  simp

theorem msb_half (v : M256) (i : Nat) : (lane256 64 i v).msb = (lane256 32 (2 * i + 1) v).msb := by
  rw [← half256 (j := 1) (by decide), BitVec.msb_eq_getLsbD_last, BitVec.msb_eq_getLsbD_last, BitVec.getLsbD_extractLsb']
  simp

theorem msb_mask {idx : M256} {k : Nat} (hk : k < 8) : (lane256 32 k (blk1 (slli 32 28) idx)).msb = (lane256 32 k idx).toNat.testBit 3 := by
  rw [lane_blk1 (F := fun x => x <<< 28) wd32 (fun i a hr => lane_slli hr 28 a) idx (show k < 256 / 32 from hk), msb_shl28]

/-- `CompressBlendedStore(v, mask, d, p)`: writes only the selected lanes. -/
theorem C74_compressBlendedStore (bmi2 : Bool) {w : Nat} (hw : Width w) (hw8 : w ≠ 8) (v : M256) {m : M256} {p : Nat → Bool}
    (hm : MaskOf256 w m p) (mem : Mem w) :
    (CompressBlendedStore bmi2 w v m mem).2 = (selected (256 / w) p).length ∧
    ∀ i, (CompressBlendedStore bmi2 w v m mem).1 i
      = if i < (selected (256 / w) p).length then lane256 w ((selected (256 / w) p).getD i 0) v else mem i := by
  have hb := C74_bitsFromMask bmi2 hw hm
  have hle := width_le hw
  have hc : popcnt (BitsFromMask bmi2 w m) = (selected (256 / w) p).length := popcnt_bits (by omega) hb
  have hsl := selected_length_le (256 / w) p
  have hlt := bits_lt hb
  have hsel : selected (256 / w) (BitsFromMask bmi2 w m).testBit = selected (256 / w) p :=
    selected_congr (fun k hk => by rw [hb]; simp [hk])
  have hpk := selected_bits hb
  unfold CompressBlendedStore
  rcases hw with rfl | rfl | rfl | rfl
  · exact absurd rfl hw8
  · simp only [if_true]
    refine ⟨hc, ?_⟩
    intro i
    rw [C74_blendedStore wd16 _ (C74_firstN wd16 _), hc]
    by_cases h : i < (selected (256 / 16) p).length
    · rw [if_pos ⟨by omega, by simpa using h⟩, if_pos h, lane_CompressInt wd16 (by decide) v hlt (by omega), ← hpk, packOrder_first p h]
    · rw [if_neg (by simp [h]), if_neg h]
  · rw [if_neg (by decide)]
    refine ⟨hc, ?_⟩
    intro i
    unfold BlendedStore TableLookupLanes
    simp only [show ¬ (32 = 8 ∨ 32 = 16) by decide, show ¬ 32 ≤ 16 by decide, if_false]
    simp only [show 256 / 32 = 8 from rfl] at *
    by_cases hi : i < 8
    · obtain ⟨h1, -, h3⟩ := qtab32 _ hlt i hi
      have hmsb : (lane256 32 i (blk1 (slli 32 28) (IndicesFromBits256 32 (BitsFromMask bmi2 32 m)))).msb = decide (i < (selected 8 p).length) := by
        rw [msb_mask hi]
        unfold IndicesFromBits256
        rw [if_pos rfl, nibble32 h1 hi, h3, hsel]
      rw [hmsb]
      by_cases h : i < (selected 8 p).length
      · rw [if_pos ⟨hi, by simpa using h⟩, if_pos h, lane_CompressInt32 v hlt hi, ← hpk, packOrder_first p h]
      · rw [if_neg (by simp [h]), if_neg h]
    · rw [if_neg (by simp [hi]), if_neg (by omega)]
  · rw [if_neg (by decide)]
    refine ⟨hc, ?_⟩
    intro i
    unfold BlendedStore TableLookupLanes
    simp only [show ¬ (64 = 8 ∨ 64 = 16) by decide, show ¬ 32 ≤ 16 by decide, if_false]
    simp only [show 256 / 64 = 4 from rfl] at *
    by_cases hi : i < 4
    · obtain ⟨h1, -, h3⟩ := qtab64 _ hlt i hi 1 (by decide)
      have hmsb : (lane256 64 i (blk1 (slli 32 28) (IndicesFromBits256 64 (BitsFromMask bmi2 64 m)))).msb = decide (i < (selected 4 p).length) := by
        rw [msb_half, msb_mask (by omega)]
        unfold IndicesFromBits256
        rw [if_neg (by decide), idx_list _ (by omega) h1, h3, hsel]
      rw [hmsb]
      by_cases h : i < (selected 4 p).length
      · rw [if_pos ⟨hi, by simpa using h⟩, if_pos h, lane_CompressInt64 v hlt hi, ← hpk, packOrder_first p h]
      · rw [if_neg (by simp [h]), if_neg h]
    · rw [if_neg (by simp [hi]), if_neg (by omega)]

/-! ## Compress of bytes -/

/-- One iteration, for any array of lanes. -/
theorem step8Q (lanes bits : Mem 8) (pos : Nat) (mem : Mem 8) (b : Nat) :
    let r := compress8Step .avx2 32 lanes bits (pos, mem) b
    let q := fun i => bitAt bits (8 * b + i)
    r.1 = pos + (selected 8 q).length ∧
    (∀ k, k < (selected 8 q).length → r.2 (pos + k) = lanes (8 * b + (selected 8 q).getD k 0)) ∧
    (∀ k, k < pos → r.2 k = mem k) ∧ (∀ k, pos + 8 ≤ k → r.2 k = mem k) := by
  intro r q
  have hbit := testBit_byte (bits b)
  have hsel : selected 8 (bits b).toNat.testBit = selected 8 q := selected_congr (fun i hi => by
    rw [hbit]; simp only [hi, decide_true, Bool.true_and, q, bitAt]
    rw [show (8 * b + i) / 8 = b by omega, show (8 * b + i) % 8 = i by omega])
  have hdiv : 8 * b / 8 = b := by omega
  refine ⟨?_, ?_, ?_, ?_⟩
  · show pos + popcnt (bits (8 * b / 8)).toNat = _
    rw [hdiv, popcnt_bits (N := 8) (by omega) hbit, ← hsel]
    congr 2
  · intro k hk
    have hl := selected_length_le 8 q
    have hlt := selected_mem hk
    have ht := tab8 8 (by simp) (bits b).toNat (bits b).isLt k (by rw [hsel]; exact hk)
    rw [hsel] at ht
    show (if pos ≤ pos + k ∧ pos + k < pos + min 32 8 then lane 8 (pos + k - pos) _ else mem (pos + k)) = _
    rw [if_pos ⟨by omega, by omega⟩, hdiv, show pos + k - pos = k by omega, show min 32 8 = 8 from rfl]
    have hn := toNat_ofBytes ((compress8.getD (bits b).toNat []).take 8) (i := k) (by omega) ht (by omega)
    rw [C62_tableLookupBytes .avx2 (by omega) _ _ (by rw [hn]; omega), hn, lane_LoadU ⟨by omega, by omega⟩, if_pos hlt]
  · intro k hk
    show (if pos ≤ k ∧ k < pos + min 32 8 then _ else mem k) = _
    rw [if_neg (by omega)]
  · intro k hk
    show (if pos ≤ k ∧ k < pos + min 32 8 then _ else mem k) = _
    rw [if_neg (by omega)]

/-- Any number of iterations. -/
theorem loop8Q (lanes bits mem : Mem 8) (n : Nat) :
    let r := (List.range n).foldl (compress8Step .avx2 32 lanes bits) (0, mem)
    r.1 = (selected (8 * n) (bitAt bits)).length ∧
    (∀ k, k < (selected (8 * n) (bitAt bits)).length → r.2 k = lanes ((selected (8 * n) (bitAt bits)).getD k 0)) ∧
    (∀ k, 8 * n ≤ k → r.2 k = mem k) := by
  induction n with
  | zero => refine ⟨rfl, fun k hk => absurd hk (by simp [selected]), fun k _ => rfl⟩
  | succ n ih =>
    intro r
    obtain ⟨i1, i2, i3⟩ := ih
    have hr : r = compress8Step .avx2 32 lanes bits ((List.range n).foldl (compress8Step .avx2 32 lanes bits) (0, mem)) n := by
      show (List.range (n + 1)).foldl _ _ = _
      rw [List.range_succ, List.foldl_append]; rfl
    generalize (List.range n).foldl (compress8Step .avx2 32 lanes bits) (0, mem) = st at *
    obtain ⟨pos, mm⟩ := st
    obtain ⟨s1, s2, s3, s4⟩ := step8Q lanes bits pos mm n
    rw [← hr] at s1 s2 s3 s4
    simp only at i1 i2 i3
    have hle := selected_length_le (8 * n) (bitAt bits)
    rw [show 8 * (n + 1) = 8 * n + 8 by omega, selected_split, List.length_append, List.length_map]
    refine ⟨by rw [s1, i1], ?_, ?_⟩
    · intro k hk
      rw [getD_append]
      by_cases h : k < (selected (8 * n) (bitAt bits)).length
      · rw [if_pos h, s3 k (by omega), i2 k h]
      · rw [if_neg h, getD_map_add _ (by omega)]
        have := s2 (k - pos) (by omega)
        rw [show pos + (k - pos) = k by omega] at this
        rw [this, ← i1]
    · intro k hk
      rw [s4 k (by omega), i3 k (by omega)]

/-- `CompressBitsStore(v, bits, d, p)` of bytes. -/
theorem C74_compressBitsStore8 (v : M256) (bits mem : Mem 8) :
    (CompressBitsStore8 v bits mem).2 = (selected 32 (bitAt bits)).length ∧
    (∀ i, i < (selected 32 (bitAt bits)).length →
      (CompressBitsStore8 v bits mem).1 i = lane256 8 ((selected 32 (bitAt bits)).getD i 0) v) ∧
    (∀ i, 32 ≤ i → (CompressBitsStore8 v bits mem).1 i = mem i) := loop8Q (fun i => lane256 8 i v) bits mem 4

/-- `CompressBits(v, bits)` of bytes: the selected lanes come first. -/
theorem C74_compressBits8 (v : M256) (bits u : Mem 8) {i : Nat} (hi : i < (selected 32 (bitAt bits)).length) :
    lane256 8 i (CompressBits8 v bits u) = lane256 8 ((selected 32 (bitAt bits)).getD i 0) v := by
  have hl := selected_length_le 32 (bitAt bits)
  unfold CompressBits8
  rw [lane_LoadUQ wd8 _ _ (show i < 256 / 8 by simp only [Nat.reduceDiv]; omega), Nat.zero_add]
  exact (C74_compressBitsStore8 v bits u).2.1 i hi

/-- `CompressStore(v, mask, d, p)` of bytes. -/
theorem C74_compressStore8 (bmi2 : Bool) (v : M256) {m : M256} {p : Nat → Bool} (hm : MaskOf256 8 m p) (u mem : Mem 8) :
    (CompressStore8 bmi2 v m u mem).2 = (selected 32 p).length ∧
    (∀ i, i < (selected 32 p).length → (CompressStore8 bmi2 v m u mem).1 i = lane256 8 ((selected 32 p).getD i 0) v) ∧
    (∀ i, 32 ≤ i → (CompressStore8 bmi2 v m u mem).1 i = mem i) := by
  have hsel : selected 32 (bitAt (StoreMaskBits bmi2 8 m u).1) = selected 32 p := selected_congr (fun i hi => by
    have e := (C74_storeMaskBits bmi2 wd8 hm u).2.1 (i / 8) (by simp only [Nat.reduceDiv]; omega) (i % 8) (by omega)
    rw [Nat.div_add_mod] at e
    unfold bitAt
    rw [e]; simp [hi])
  have h := C74_compressBitsStore8 v (StoreMaskBits bmi2 8 m u).1 mem
  rw [hsel] at h
  exact h

/-- `Compress(v, mask)` of bytes: the lanes with a true mask come first, in their order. -/
theorem C74_compress8 (bmi2 : Bool) (v : M256) {m : M256} {p : Nat → Bool} (hm : MaskOf256 8 m p) (u u2 : Mem 8)
    {i : Nat} (hi : i < (selected 32 p).length) :
    lane256 8 i (Compress8 bmi2 v m u u2) = lane256 8 ((selected 32 p).getD i 0) v := by
  have hl := selected_length_le 32 p
  unfold Compress8
  rw [lane_LoadUQ wd8 _ _ (show i < 256 / 8 by simp only [Nat.reduceDiv]; omega), Nat.zero_add]
  exact (C74_compressStore8 bmi2 v hm u u2).2.1 i hi

theorem maskOf_notQ {w : Nat} (hw : Width w) {m : M256} {p : Nat → Bool} (hm : MaskOf256 w m p) : MaskOf256 w (NotQ m) (fun i => !p i) := by
  intro i hi
  unfold NotQ
  rw [lane_blk1 (F := fun x => ~~~x) hw (fun i a hr => lane_Not hr a) m hi, hm i hi]
  by_cases h : p i = true
  · simp [h]
  · simp [h]

/-- `CompressNot(v, mask)` of bytes: the lanes with a false mask come first, in their order. -/
theorem C74_compressNot8 (bmi2 : Bool) (v : M256) {m : M256} {p : Nat → Bool} (hm : MaskOf256 8 m p) (u u2 : Mem 8)
    {i : Nat} (hi : i < (selected 32 (fun k => !p k)).length) :
    lane256 8 i (CompressNot8 bmi2 v m u u2) = lane256 8 ((selected 32 (fun k => !p k)).getD i 0) v :=
  C74_compress8 bmi2 v (maskOf_notQ wd8 hm) u u2 hi

/-- `CompressBlendedStore(v, mask, d, p)` of bytes: writes only the selected lanes. -/
theorem C74_compressBlendedStore8 (bmi2 : Bool) (v : M256) {m : M256} {p : Nat → Bool} (hm : MaskOf256 8 m p) (u u2 mem : Mem 8) :
    (CompressBlendedStore8 bmi2 v m u u2 mem).2 = (selected 32 p).length ∧
    ∀ i, (CompressBlendedStore8 bmi2 v m u u2 mem).1 i
      = if i < (selected 32 p).length then lane256 8 ((selected 32 p).getD i 0) v else mem i := by
  obtain ⟨hc, h1, -⟩ := C74_compressStore8 bmi2 v hm u u2
  have hl := selected_length_le 32 p
  refine ⟨hc, ?_⟩
  intro i
  unfold CompressBlendedStore8
  simp only []
  rw [hc, C74_blendedStore wd8 _ (C74_firstN wd8 _)]
  by_cases h : i < (selected 32 p).length
  · have hi : i < 256 / 8 := by simp only [Nat.reduceDiv]; omega
    rw [if_pos ⟨hi, by simpa using h⟩, if_pos h, lane_LoadUQ wd8 _ _ hi, Nat.zero_add, h1 i h]
  · rw [if_neg (by simp [h]), if_neg h]

/-! ## Expand -/

theorem lane_maskedQ {w : Nat} (hw : Width w) {m : M256} {p : Nat → Bool} (hm : MaskOf256 w m p) (x : M256) {i : Nat} (hi : i < 256 / w) :
    lane256 w i (IfThenElseZero m x) = if p i then lane256 w i x else 0#w := by
  unfold IfThenElseZero
  rw [lane_andQ hw _ _ hi, hm i hi]
  by_cases h : p i = true
  · simp [h]
  · simp [h]

/-- Expansion by halves: the second half continues where the first one stopped. -/
theorem expand_halves {w : Nat} (hw : Width w) (v : M256) {m : M256} {p : Nat → Bool} (hm : MaskOf256 w m p) {i : Nat} (hi : i < 256 / w) :
    lane256 w i (Combine (X86.Expand .avx2 false w 16 (LoadU w (128 / w) (fun i => lane256 w i v) (rankOf p (128 / w))) (UpperHalf m))
      (X86.Expand .avx2 false w 16 (LowerHalf v) (LowerHalf m))) = if p i then lane256 w (rankOf p i) v else 0#w := by
  have h2 := width_two hw
  have hs := shape16 hw
  have hL := lanes16 hw
  have hl : MaskOf w 16 (LowerHalf m) p := maskOf_lo hw hm
  have hh : MaskOf w 16 (UpperHalf m) (fun i => p (128 / w + i)) := maskOf_hi hw hm
  rw [C72_combine]
  by_cases hb : i < 128 / w
  · have hr := rankOf_le p i
    rw [if_pos hb, C68_expand .avx2 false hs _ hl (by rw [hL]; exact hb), lane256_lo (by omega)]
    rfl
  · have hr := rankOf_le (fun k => p (128 / w + k)) (i - 128 / w)
    have ha := rankOf_add p (128 / w) (i - 128 / w)
    rw [show 128 / w + (i - 128 / w) = i by omega] at ha
    have hlt : rankOf (fun k => p (128 / w + k)) (i - 128 / w) < 128 / w := by omega
    rw [if_neg hb, C68_expand .avx2 false hs _ hh (by rw [hL]; omega)]
    rw [lane_LoadU (inReg_lo hw (by omega)), if_pos hlt, ← ha]
    beta_reduce
    simp only [show 128 / w + (i - 128 / w) = i by omega]

theorem lane_Expand8Q (bmi2 : Bool) (v : M256) {m : M256} {p : Nat → Bool} (hm : MaskOf256 8 m p) {i : Nat} (hi : i < 256 / 8) :
    lane256 8 i (Expand8 bmi2 v m) = if p i then lane256 8 (rankOf p i) v else 0#8 := by
  have hb := C74_bitsFromMask bmi2 wd8 hm
  have hbL : ∀ k, (BitsFromMask bmi2 8 m &&& (2 ^ 16 - 1)).testBit k = (decide (k < 16) && p k) := by
    intro k
    rw [Nat.testBit_and, hb, Nat.testBit_two_pow_sub_one]
    by_cases h : k < 16
    · simp [h, show k < 32 by omega]
    · simp [h]
  have hc : popcnt (BitsFromMask bmi2 8 m &&& (2 ^ 16 - 1)) = rankOf p (128 / 8) := popcnt_bits (by decide) hbL
  have := expand_halves wd8 v hm hi
  rw [← hc] at this
  exact this

theorem lane_Expand16Q (v : M256) {m : M256} {p : Nat → Bool} (hm : MaskOf256 16 m p) {i : Nat} (hi : i < 256 / 16) :
    lane256 16 i (Expand16 v m) = if p i then lane256 16 (rankOf p i) v else 0#16 := by
  have hc : X86.CountTrue 16 16 m.lo = rankOf p (128 / 16) := C68_countTrue (shape16 wd16) (maskOf_lo wd16 hm)
  have := expand_halves wd16 v hm hi
  rw [← hc] at this
  exact this

theorem lane_Expand32Q (bmi2 : Bool) (v : M256) {m : M256} {p : Nat → Bool} (hm : MaskOf256 32 m p) {i : Nat} (hi : i < 256 / 32) :
    lane256 32 i (Expand32 bmi2 v m) = if p i then lane256 32 (rankOf p i) v else 0#32 := by
  have hb := C74_bitsFromMask bmi2 wd32 hm
  obtain ⟨e1, e2⟩ := rankOf_bits hb hi
  obtain ⟨t1, t2⟩ := qetab32 _ (bits_lt hb) i hi
  unfold Expand32 TableLookupLanes
  simp only [show ¬ 32 ≤ 16 by decide, if_false]
  rw [lane_maskedQ wd32 hm _ hi]
  by_cases hp : p i = true
  · rw [if_pos hp, if_pos hp, pv8 v _ hi (nibble32 t1 hi), t2 (by rw [e1]; exact hp), e2]
  · rw [if_neg hp, if_neg hp]

theorem lane_Expand64Q (bmi2 : Bool) (v : M256) {m : M256} {p : Nat → Bool} (hm : MaskOf256 64 m p) {i : Nat} (hi : i < 256 / 64) :
    lane256 64 i (Expand64 bmi2 v m) = if p i then lane256 64 (rankOf p i) v else 0#64 := by
  have hb := C74_bitsFromMask bmi2 wd64 hm
  obtain ⟨e1, e2⟩ := rankOf_bits hb hi
  obtain ⟨t1, t2⟩ := qetab64 _ (bits_lt hb) i hi
  have hr := rankOf_le p i
  unfold Expand64
  simp only []
  rw [lane_maskedQ wd64 hm _ hi]
  by_cases hp : p i = true
  · rw [if_pos hp, if_pos hp]
    have hidx : (lane256 64 i (blk2 pand (blk2 (srlv 64) (setQ 64 (BitVec.ofNat 64 (expand64x4.getD (BitsFromMask bmi2 64 m) 0))) (shiftsQ 64))
        (setQ 64 3#64))).toNat = rankOf p i := by
      rw [lane_andQ wd64 _ _ hi, BitVec.toNat_and, nibble64 t1 hi, lane_setQ wd64 _ hi]
      exact Eq.trans (t2 (by rw [e1]; exact hp)) e2
    rw [C73_tableLookupLanes wd64 v _ hi (by rw [hidx]; omega), hidx]
  · rw [if_neg hp, if_neg hp]

/-- `Expand(v, mask)`: a lane with a true mask gets the next unused lane of `v`, the others are zero. -/
theorem C74_expand (bmi2 : Bool) {w : Nat} (hw : Width w) (v : M256) {m : M256} {p : Nat → Bool} (hm : MaskOf256 w m p)
    {i : Nat} (hi : i < 256 / w) :
    lane256 w i (Expand bmi2 w v m) = if p i then lane256 w (rankOf p i) v else 0#w := by
  unfold Expand
  rcases hw with rfl | rfl | rfl | rfl
  · rw [if_pos rfl]; exact lane_Expand8Q bmi2 v hm hi
  · rw [if_neg (by decide), if_pos rfl]; exact lane_Expand16Q v hm hi
  · rw [if_neg (by decide), if_neg (by decide), if_pos rfl]; exact lane_Expand32Q bmi2 v hm hi
  · rw [if_neg (by decide), if_neg (by decide), if_neg (by decide)]; exact lane_Expand64Q bmi2 v hm hi

/-- `LoadExpand(mask, d, p)`: a lane with a true mask gets the next element of memory, the others are zero. -/
theorem C74_loadExpand (bmi2 : Bool) {w : Nat} (hw : Width w) {m : M256} {p : Nat → Bool} (hm : MaskOf256 w m p)
    (mem : Mem w) {i : Nat} (hi : i < 256 / w) :
    lane256 w i (LoadExpand bmi2 w m mem) = if p i then mem (rankOf p i) else 0#w := by
  have hr := rankOf_le p i
  unfold LoadExpand
  rw [C74_expand bmi2 hw _ hm hi, lane_LoadUQ hw _ _ (by omega), Nat.zero_add]

/-- Expanding what `Compress` packed gives back the lanes with a true mask. -/
theorem C74_expand_compress (bmi2 : Bool) {w : Nat} (hw : Width w) (hw8 : w ≠ 8) (v : M256) {m : M256} {p : Nat → Bool}
    (hm : MaskOf256 w m p) {i : Nat} (hi : i < 256 / w) :
    lane256 w i (Expand bmi2 w (Compress bmi2 w v m) m) = if p i then lane256 w i v else 0#w := by
  rw [C74_expand bmi2 hw _ hm hi]
  by_cases hp : p i = true
  · rw [if_pos hp, if_pos hp]
    have hr := rankOf_le p i
    rw [C74_compress bmi2 hw hw8 v hm (by omega)]
    obtain ⟨k, hk⟩ : ∃ k, 256 / w = i + (k + 1) := ⟨256 / w - i - 1, by omega⟩
    have hsel : selected (256 / w) p = selected i p ++ i :: (selected k (fun j => p (i + (1 + j)))).map (fun j => i + (1 + j)) := by
      rw [hk, selected_split, show k + 1 = 1 + k by omega, selected_split 1 k]
      have : selected 1 (fun j => p (i + j)) = [0] := by
        unfold selected; rw [show List.range 1 = [0] from rfl]; simp [hp]
      rw [this]; simp; intros; omega
    have hlen : rankOf p i < (selected (256 / w) p).length := by rw [hsel]; unfold rankOf; simp
    rw [packOrder_first p hlen, hsel, getD_append]
    unfold rankOf
    rw [if_neg (by omega), Nat.sub_self]
    rfl
  · rw [if_neg hp, if_neg hp]

end Hwy.X86.V256
