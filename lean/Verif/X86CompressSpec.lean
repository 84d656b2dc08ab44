import Verif.X86MaskSpec

/-!
# C68: `Compress`

`selected N p` are the lanes with a true mask in ascending order. `Compress` moves them to the front; for lanes wider than a
byte the others follow, also in order.
-/

namespace Hwy.X86

/-- The indices below `N` that satisfy `p`, in ascending order. -/
def selected (N : Nat) (p : Nat → Bool) : List Nat := (List.range N).filter p

/-- The order of lanes after `Compress`: first the selected ones, then the others. -/
def packOrder (N : Nat) (p : Nat → Bool) : List Nat := selected N p ++ selected N (fun i => !p i)

theorem selected_congr {N : Nat} {p q : Nat → Bool} (h : ∀ i, i < N → p i = q i) : selected N p = selected N q :=
  List.filter_congr (fun i hi => h i (List.mem_range.1 hi))
theorem packOrder_congr {N : Nat} {p q : Nat → Bool} (h : ∀ i, i < N → p i = q i) : packOrder N p = packOrder N q := by
  unfold packOrder
  rw [selected_congr h, selected_congr (p := fun i => !p i) (q := fun i => !q i) (fun i hi => by simp only [h i hi])]

theorem selected_bits {N b : Nat} {p : Nat → Bool} (h : ∀ i, b.testBit i = (decide (i < N) && p i)) :
    packOrder N p = packOrder N b.testBit := packOrder_congr (fun i hi => by rw [h]; simp [hi])

theorem packOrder_mem {N : Nat} {p : Nat → Bool} {x : Nat} (h : x ∈ packOrder N p) : x < N := by
  unfold packOrder selected at h
  rcases List.mem_append.1 h with h | h <;> exact List.mem_range.1 (List.mem_filter.1 h).1
theorem packOrder_length (N : Nat) (p : Nat → Bool) : (packOrder N p).length = N := by
  have h := List.length_eq_length_filter_add (l := List.range N) p
  unfold packOrder selected
  rw [List.length_append]
  simpa using h.symm
theorem packOrder_lt {N : Nat} (p : Nat → Bool) {i : Nat} (h : i < N) : (packOrder N p).getD i 0 < N := by
  have hl : i < (packOrder N p).length := by rw [packOrder_length]; exact h
  rw [List.getD_eq_getElem?_getD, List.getElem?_eq_getElem hl, Option.getD_some]
  exact packOrder_mem (List.getElem_mem _)
theorem packOrder_first {N : Nat} (p : Nat → Bool) {i : Nat} (h : i < (selected N p).length) :
    (packOrder N p).getD i 0 = (selected N p).getD i 0 := by
  unfold packOrder
  rw [List.getD_eq_getElem?_getD, List.getD_eq_getElem?_getD, List.getElem?_append_left h]
theorem selected_length_le (N : Nat) (p : Nat → Bool) : (selected N p).length ≤ N := by
  have := List.length_filter_le p (List.range N)
  simpa [selected] using this

/-! ## The tables, checked row by row -/

theorem tab16 : ∀ N ∈ [1, 2, 4, 8], ∀ b, b < 2 ^ N → ∀ i, i < N →
    ((compress16.getD b []).take N).getD i 0 = 2 * (packOrder N b.testBit).getD i 0 := by decide +kernel
theorem tabNot16 : ∀ b, b < 256 → ∀ i, i < 8 →
    ((compressNot16.getD b []).take 8).getD i 0 = 2 * (packOrder 8 (fun k => !b.testBit k)).getD i 0 := by decide +kernel
theorem tab32 : ∀ N ∈ [1, 2, 4], ∀ b, b < 2 ^ N → ∀ i, i < N → ∀ j, j < 4 →
    ((compress32.getD b []).take (4 * N)).getD (4 * i + j) 0 = 4 * (packOrder N b.testBit).getD i 0 + j := by decide +kernel
theorem tabNot32 : ∀ b, b < 16 → ∀ i, i < 4 → ∀ j, j < 4 →
    ((compressNot32.getD b []).take 16).getD (4 * i + j) 0 = 4 * (packOrder 4 (fun k => !b.testBit k)).getD i 0 + j := by decide +kernel
theorem tab64 : ∀ N ∈ [1, 2], ∀ b, b < 2 ^ N → ∀ i, i < N → ∀ j, j < 8 →
    ((compress64.getD b []).take (8 * N)).getD (8 * i + j) 0 = 8 * (packOrder N b.testBit).getD i 0 + j := by decide +kernel

/-! ## Table lookups -/

theorem lane_ofBytes (l : List Nat) {i : Nat} (h : i < 16) : lane 8 i (ofBytes l) = BitVec.ofNat 8 (l.getD i 0) :=
  lane_mk (by omega) (by omega) _
theorem toNat_ofBytes (l : List Nat) {i n : Nat} (h : i < 16) (hn : l.getD i 0 = n) (h256 : n < 256) :
    (lane 8 i (ofBytes l)).toNat = n := by
  rw [lane_ofBytes l h, hn, BitVec.toNat_ofNat]; omega

/-- A byte lookup whose indices name whole lanes. -/
theorem look_bytes (t : Tgt) {w m : Nat} (hw : w = 8 * m) {i n : Nat} (hi : m * i + m ≤ 16) (hn : m * n + m ≤ 16) (v idx : M128)
    (h : ∀ j, j < m → (lane 8 (m * i + j) idx).toNat = m * n + j) :
    lane w i (TableLookupBytes t v idx) = lane w n v := by
  apply lane_bytes hw
  intro j hj
  rw [byte_lane hw hj, byte_lane hw hj, C62_tableLookupBytes t (by omega) v idx (by rw [h j hj]; omega), h j hj]

theorem pair_arith : ∀ n, n < 255 → (257 * n + 256) % 65536 / 256 % 256 = n + 1 := by decide +kernel
/-- Pairs of byte indices from single ones: `ZipLower(b, b) + 0x0100`. -/
theorem pair_idx (B : M128) {i n : Nat} (hi : i < 8) (h : (lane 8 i B).toNat = n) (hn : n < 255) {j : Nat} (hj : j < 2) :
    (lane 8 (2 * i + j) (Add 16 (InterleaveLower 8 B B) (set 16 0x0100#16))).toNat = n + j := by
  have hr : InReg 16 i := ⟨by omega, by omega⟩
  have key : ∀ k, k < 16 → lane 8 k (InterleaveLower 8 B B) = lane 8 (k / 2) B := by
    intro k hk; unfold InterleaveLower; leaf1 hk
  have e0 : (lane 16 i (InterleaveLower 8 B B)).toNat = 257 * n := by
    apply pair16
    · rw [key _ (by omega), show 2 * i / 2 = i by omega, h]
    · rw [key _ (by omega), show (2 * i + 1) / 2 = i by omega, h]
  rw [← byte_lane (w := 16) (m := 2) rfl hj, BitVec.extractLsb'_toNat, Nat.shiftRight_eq_div_pow]
  have e1 : (lane 16 i (Add 16 (InterleaveLower 8 B B) (set 16 0x0100#16))).toNat = (257 * n + 256) % 65536 := by
    rw [lane_Add hr, lane_set hr, BitVec.toNat_add, e0]; rfl
  rw [e1]
  obtain rfl | rfl : j = 0 ∨ j = 1 := by omega
  · omega
  · exact pair_arith n hn

theorem lanes_pow {w sz : Nat} (hs : Shape w sz) : Lanes w sz = 1 ∨ Lanes w sz = 2 ∨ Lanes w sz = 4 ∨ Lanes w sz = 8 ∨ Lanes w sz = 16 := by
  obtain ⟨hw, hz, hl⟩ := shape_cases hs
  unfold Lanes; rcases hw with rfl | rfl | rfl | rfl <;> omega

/-- The lookup of all wider lanes. -/
theorem lane_CompressBitsInt (t : Tgt) {w sz : Nat} (hs : Shape w sz) (hw8 : w ≠ 8) (v : M128) {b : Nat} (hb : b < 2 ^ Lanes w sz) {i : Nat}
    (hi : i < Lanes w sz) :
    lane w i (TableLookupBytes t v (IndicesFromBits128 w sz b)) = lane w ((packOrder (Lanes w sz) b.testBit).getD i 0) v := by
  obtain ⟨hw, hz, hl⟩ := shape_cases hs
  have hlt := packOrder_lt b.testBit hi
  have hle := lanes_le hs
  unfold IndicesFromBits128
  rcases hw with rfl | rfl | rfl | rfl
  · exact absurd rfl hw8
  · have hL : sz / 2 = Lanes 16 sz := rfl
    rw [if_pos rfl]
    simp only []
    rw [hL]
    generalize Lanes 16 sz = N at *
    have hN : N ∈ [1, 2, 4, 8] := by simp; omega
    have ht := tab16 N hN b hb i hi
    apply look_bytes t (m := 2) rfl (by omega) (by omega)
    intro j hj
    exact pair_idx _ (by omega) (toNat_ofBytes _ (by omega) ht (by omega)) (by omega) hj
  · have hL : sz = 4 * Lanes 32 sz := by unfold Lanes; omega
    rw [if_neg (by omega), if_pos rfl]
    have hsz : (compress32.getD b []).take sz = (compress32.getD b []).take (4 * Lanes 32 sz) := by rw [← hL]
    rw [hsz]
    generalize Lanes 32 sz = N at *
    have hN : N ∈ [1, 2, 4] := by simp; omega
    have ht := tab32 N hN b hb i hi
    apply look_bytes t (m := 4) rfl (by omega) (by omega)
    intro j hj
    exact toNat_ofBytes _ (by omega) (ht j hj) (by omega)
  · have hL : sz = 8 * Lanes 64 sz := by unfold Lanes; omega
    rw [if_neg (by omega), if_neg (by omega)]
    have hsz : (compress64.getD b []).take sz = (compress64.getD b []).take (8 * Lanes 64 sz) := by rw [← hL]
    rw [hsz]
    generalize Lanes 64 sz = N at *
    have hN : N ∈ [1, 2] := by simp; omega
    have ht := tab64 N hN b hb i hi
    apply look_bytes t (m := 8) rfl (by omega) (by omega)
    intro j hj
    exact toNat_ofBytes _ (by omega) (ht j hj) (by omega)

theorem lane_CompressNotBitsInt (t : Tgt) {w : Nat} (hw : w = 16 ∨ w = 32) (v : M128) {b : Nat} (hb : b < 2 ^ (128 / w)) {i : Nat}
    (hi : i < 128 / w) :
    lane w i (CompressNotBitsInt t w 16 v b) = lane w ((packOrder (128 / w) (fun k => !b.testBit k)).getD i 0) v := by
  have hlt := packOrder_lt (fun k => !b.testBit k) hi
  unfold CompressNotBitsInt IndicesFromNotBits128
  rcases hw with rfl | rfl
  · rw [if_pos rfl]
    show _ = lane 16 ((packOrder 8 (fun k => !b.testBit k)).getD i 0) v
    replace hlt : (packOrder 8 (fun k => !b.testBit k)).getD i 0 < 8 := hlt
    have ht := tabNot16 b hb i hi
    apply look_bytes t (m := 2) rfl (by omega) (by omega)
    intro j hj
    exact pair_idx _ (by omega) (toNat_ofBytes _ (by omega) ht (by omega)) (by omega) hj
  · rw [if_neg (by omega)]
    have ht := tabNot32 b hb i hi
    apply look_bytes t (m := 4) rfl (by omega) (by omega)
    intro j hj
    exact toNat_ofBytes _ (by omega) (ht j hj) (by omega)

theorem maskOf_not {w sz : Nat} (hs : Shape w sz) {m : M128} {p : Nat → Bool} (hm : MaskOf w sz m p) :
    MaskOf w sz (Not m) (fun i => !p i) := by
  intro i hi
  rw [lane_Not (inReg_of hs hi), hm i hi]
  by_cases h : p i = true
  · simp [h]
  · simp [h]

theorem pack1 (p : Nat → Bool) : packOrder 1 p = [0] := by
  unfold packOrder selected
  rw [show List.range 1 = [0] from rfl]
  cases h : p 0 <;> simp [h]
theorem pack2 (p : Nat → Bool) : packOrder 2 p = if p 1 && !p 0 then [1, 0] else [0, 1] := by
  unfold packOrder selected
  rw [show List.range 2 = [0, 1] from rfl]
  cases h : p 0 <;> cases h1 : p 1 <;> simp [h, h1]

/-- The conditional swap of two 64-bit lanes. -/
theorem swap64 (t : Tgt) (v a b : M128) {x y : Bool} (ha : ∀ i, i < 2 → lane 64 i a = if x then BitVec.allOnes 64 else 0#64)
    (hb : ∀ i, i < 2 → lane 64 i b = if y then BitVec.allOnes 64 else 0#64) {i : Nat} (hi : i < 2) :
    lane 64 i (IfVecThenElse t (AndNot a b) (Shuffle01 v) v) = lane 64 (if y && !x then 1 - i else i) v := by
  have hr : InReg 64 i := ⟨by omega, by omega⟩
  unfold IfVecThenElse
  rw [lane_IfThenElse t hr _ _ _ ((y && !x) = true) (by
    rw [lane_AndNot hr, ha i hi, hb i hi]; unfold maskLane; cases x <;> cases y <;> rfl), lane_Shuffle01 v hi]
  split <;> rfl

/-- `Compress(v, mask)` for lanes of 16, 32 and 64 bits: the lanes with a true mask come first, in their order, then the others in
theirs (`CompressIsPartition`). -/
theorem C68_compress (t : Tgt) {w sz : Nat} (hs : Shape w sz) (hw8 : w ≠ 8) (v : M128) {m : M128} {p : Nat → Bool} (hm : MaskOf w sz m p)
    {i : Nat} (hi : i < Lanes w sz) :
    lane w i (Compress t w sz v m) = lane w ((packOrder (Lanes w sz) p).getD i 0) v := by
  obtain ⟨hw, hz, hl⟩ := shape_cases hs
  have hb := C68_bitsFromMask hs hm
  unfold Compress
  rw [← lanes_def]
  split
  · rename_i e; rw [e] at hi ⊢; rw [pack1]
    obtain rfl : i = 0 := by omega
    rfl
  · rename_i hne
    split
    · rename_i e; subst e
      have hsz : sz = 16 := by unfold Lanes at hne; omega
      subst hsz
      have hi2 : i < 2 := hi
      have hD := fun {k : Nat} (hk : k < 2) => C63_dupEven t hs m (i := k) hk
      have hO := fun {k : Nat} (hk : k < 2) => C63_dupOdd t hs (by decide) m (i := k) hk
      simp only []
      rw [swap64 t v _ _ (x := p 0) (y := p 1)
        (fun k hk => by rw [hD hk, show k / 2 * 2 = 0 by omega]; exact hm 0 (by decide))
        (fun k hk => by rw [hO hk, show k / 2 * 2 + 1 = 1 by omega]; exact hm 1 (by decide)) hi2,
        show Lanes 64 16 = 2 from rfl, pack2]
      obtain rfl | rfl : i = 0 ∨ i = 1 := by omega
      · cases p 0 <;> cases p 1 <;> rfl
      · cases p 0 <;> cases p 1 <;> rfl
    · unfold CompressBitsInt
      rw [lane_CompressBitsInt t hs hw8 v (bits_lt hb) hi, selected_bits hb]

/-- `CompressNot(v, mask)`: the lanes with a false mask come first, then the others. -/
theorem C68_compressNot (t : Tgt) {w sz : Nat} (hs : Shape w sz) (hw8 : w ≠ 8) (v : M128) {m : M128} {p : Nat → Bool} (hm : MaskOf w sz m p)
    {i : Nat} (hi : i < Lanes w sz) :
    lane w i (CompressNot t w sz v m) = lane w ((packOrder (Lanes w sz) (fun k => !p k)).getD i 0) v := by
  obtain ⟨hw, hz, hl⟩ := shape_cases hs
  have hle := lanes_le hs
  unfold CompressNot
  rw [← lanes_def]
  split
  · rename_i e; rw [e] at hi ⊢; rw [pack1]
    obtain rfl : i = 0 := by omega
    rfl
  · rename_i hne
    split
    · rename_i e; subst e
      have hsz : sz = 16 := by unfold Lanes at hne; omega
      subst hsz
      have hi2 : i < 2 := hi
      have hD := fun {k : Nat} (hk : k < 2) => C63_dupEven t hs m (i := k) hk
      have hO := fun {k : Nat} (hk : k < 2) => C63_dupOdd t hs (by decide) m (i := k) hk
      simp only []
      rw [swap64 t v _ _ (x := p 1) (y := p 0)
        (fun k hk => by rw [hO hk, show k / 2 * 2 + 1 = 1 by omega]; exact hm 1 (by decide))
        (fun k hk => by rw [hD hk, show k / 2 * 2 = 0 by omega]; exact hm 0 (by decide)) hi2,
        show Lanes 64 16 = 2 from rfl, pack2]
      obtain rfl | rfl : i = 0 ∨ i = 1 := by omega
      · cases p 0 <;> cases p 1 <;> rfl
      · cases p 0 <;> cases p 1 <;> rfl
    · split
      · have hb := C68_bitsFromMask hs (maskOf_not hs hm)
        unfold CompressBitsInt
        rw [lane_CompressBitsInt t hs hw8 v (bits_lt hb) hi, selected_bits hb]
      · have hb := C68_bitsFromMask hs hm
        have hL : Lanes w sz = 128 / w := by omega
        have hsz : sz = 16 := by
          unfold Lanes at hL
          rcases hw with rfl | rfl | rfl | rfl <;> omega
        subst hsz
        rw [lane_CompressNotBitsInt t (by omega) v (by rw [← hL]; exact bits_lt hb) (by omega), hL]
        rw [packOrder_congr (p := fun k => !(BitsFromMask w 16 m).testBit k) (q := fun k => !p k) (fun k hk => by
          simp only [hb, show k < Lanes w 16 by omega, decide_true, Bool.true_and])]

/-- `CompressBits(v, bits)` is `Compress` with the mask given by the bits of the array, whatever the unused bits are. -/
theorem C68_compressBits (t : Tgt) {w sz : Nat} (hs : Shape w sz) (hw8 : w ≠ 8) (v : M128) (bits : Mem 8) {i : Nat} (hi : i < Lanes w sz) :
    lane w i (CompressBits t w sz v bits)
      = lane w ((packOrder (Lanes w sz) (fun k => (bits (k / 8)).getLsbD (k % 8))).getD i 0) v := by
  have hb := testBit_bitsFromBytes (lanes_pow hs) bits
  unfold CompressBits CompressBitsInt
  rw [← lanes_def, lane_CompressBitsInt t hs hw8 v (bits_lt hb) hi, selected_bits hb]

theorem store_first {N : Nat} {p : Nat → Bool} {w : Nat} {v X : M128} {mem : Mem w}
    (hX : ∀ i, i < N → lane w i X = lane w ((packOrder N p).getD i 0) v) :
    (∀ i, i < (selected N p).length → StoreU w N X mem i = lane w ((selected N p).getD i 0) v) ∧
    (∀ i, N ≤ i → StoreU w N X mem i = mem i) := by
  have hl := selected_length_le N p
  constructor
  · intro i hi
    unfold StoreU
    rw [if_pos (by omega), hX i (by omega), packOrder_first p hi]
  · intro i hi
    unfold StoreU
    rw [if_neg (by omega)]

/-- `CompressStore(v, mask, d, p)`: writes the selected lanes in order at `p`, returns their number and touches nothing beyond the
`Lanes(d)` lanes at `p`. -/
theorem C68_compressStore (t : Tgt) {w sz : Nat} (hs : Shape w sz) (hw8 : w ≠ 8) (v : M128) {m : M128} {p : Nat → Bool}
    (hm : MaskOf w sz m p) (mem : Mem w) :
    (CompressStore t w sz v m mem).2 = (selected (Lanes w sz) p).length ∧
    (∀ i, i < (selected (Lanes w sz) p).length →
      (CompressStore t w sz v m mem).1 i = lane w ((selected (Lanes w sz) p).getD i 0) v) ∧
    (∀ i, Lanes w sz ≤ i → (CompressStore t w sz v m mem).1 i = mem i) := by
  have hb := C68_bitsFromMask hs hm
  have hle := lanes_le hs
  have hX : ∀ i, i < Lanes w sz → lane w i (TableLookupBytes t v (IndicesFromBits128 w sz (BitsFromMask w sz m)))
      = lane w ((packOrder (Lanes w sz) p).getD i 0) v := by
    intro i hi
    rw [lane_CompressBitsInt t hs hw8 v (bits_lt hb) hi, selected_bits hb]
  refine ⟨popcnt_bits (by omega) hb, ?_⟩
  have := store_first (mem := mem) hX
  unfold CompressStore
  simp only [← lanes_def]
  exact this

/-- `CompressBitsStore(v, bits, d, p)`, likewise for bits in memory. -/
theorem C68_compressBitsStore (t : Tgt) {w sz : Nat} (hs : Shape w sz) (hw8 : w ≠ 8) (v : M128) (bits : Mem 8) (mem : Mem w) {p : Nat → Bool}
    (hp : ∀ i, i < Lanes w sz → p i = (bits (i / 8)).getLsbD (i % 8)) :
    (CompressBitsStore t w sz v bits mem).2 = (selected (Lanes w sz) p).length ∧
    (∀ i, i < (selected (Lanes w sz) p).length →
      (CompressBitsStore t w sz v bits mem).1 i = lane w ((selected (Lanes w sz) p).getD i 0) v) ∧
    (∀ i, Lanes w sz ≤ i → (CompressBitsStore t w sz v bits mem).1 i = mem i) := by
  have hb0 := testBit_bitsFromBytes (lanes_pow hs) bits
  have hb : ∀ i, (bitsFromBytes (Lanes w sz) bits).testBit i = (decide (i < Lanes w sz) && p i) := by
    intro i; rw [hb0]
    by_cases hi : i < Lanes w sz
    · rw [hp i hi]
    · simp [hi]
  have hle := lanes_le hs
  have hX : ∀ i, i < Lanes w sz → lane w i (TableLookupBytes t v (IndicesFromBits128 w sz (bitsFromBytes (Lanes w sz) bits)))
      = lane w ((packOrder (Lanes w sz) p).getD i 0) v := by
    intro i hi
    rw [lane_CompressBitsInt t hs hw8 v (bits_lt hb) hi, selected_bits hb]
  unfold CompressBitsStore
  simp only [← lanes_def]
  exact ⟨popcnt_bits (by omega) hb, store_first (mem := mem) hX⟩

/-- `BlendedStore(v, m, d, p)`: exactly the lanes with a true mask are written. -/
theorem C68_blendedStore (t : Tgt) {w sz : Nat} (hs : Shape w sz) (v : M128) {m : M128} {p : Nat → Bool} (hm : MaskOf w sz m p)
    (mem : Mem w) (i : Nat) :
    BlendedStore t w sz v m mem i = if i < Lanes w sz ∧ p i = true then lane w i v else mem i := by
  obtain ⟨hw, hz, hl⟩ := shape_cases hs
  have hle := lanes_le hs
  unfold BlendedStore ScalarMaskedStore
  simp only [← lanes_def]
  split
  · rename_i hc
    beta_reduce
    by_cases hi : i < Lanes w sz
    · have hr := inReg_of hs hi
      have e : (lane w i (if sz < 16 then And m (FirstN t w (128 / w) (Lanes w sz)) else m)).msb = p i := by
        split
        · rw [lane_And, C62_firstN t hr _ _ (Nat.le_refl _) (by omega), if_pos hi, hm i hi]
          cases p i <;> simp [BitVec.msb_allOnes hr.pos]
        · rw [hm i hi]; exact maskLane_msb hr.pos _
      rw [e]; simp [hi, show i < 128 / w by omega]
    · have : ¬ (i < 128 / w ∧ (lane w i (if sz < 16 then And m (FirstN t w (128 / w) (Lanes w sz)) else m)).msb = true) := by
        rintro ⟨h1, h2⟩
        have hsz : sz < 16 := by
          apply Nat.lt_of_not_le; intro h16
          have : sz = 16 := by omega
          subst this; rw [lanes_full hw] at hi; omega
        have hr : InReg w i := ⟨by omega, by rcases hw with rfl | rfl | rfl | rfl <;> omega⟩
        rw [if_pos hsz, lane_And, C62_firstN t hr _ _ (Nat.le_refl _) (by omega), if_neg hi] at h2
        simp at h2
      rw [if_neg this, if_neg (by simp [hi])]
  · by_cases hi : i < Lanes w sz
    · have hr := inReg_of hs hi
      beta_reduce
      rw [hm i hi]
      by_cases hp : p i = true
      · have hz := hr.pos; simp [hi, hp]; omega
      · simp [hp]
    · simp [hi]

theorem maskOf_firstN (t : Tgt) {w sz : Nat} (hs : Shape w sz) (n : Nat) : MaskOf w sz (FirstN t w (Lanes w sz) n) (fun i => decide (i < n)) := by
  intro i hi
  have hle := lanes_le hs
  rw [C62_firstN t (inReg_of hs hi) _ _ hle.2.1 hi]
  simp

/-- `CompressBlendedStore(v, mask, d, p)`: writes only the selected lanes. -/
theorem C68_compressBlendedStore (t : Tgt) {w sz : Nat} (hs : Shape w sz) (hw8 : w ≠ 8) (v : M128) {m : M128} {p : Nat → Bool}
    (hm : MaskOf w sz m p) (mem : Mem w) :
    (CompressBlendedStore t w sz v m mem).2 = (selected (Lanes w sz) p).length ∧
    ∀ i, (CompressBlendedStore t w sz v m mem).1 i
      = if i < (selected (Lanes w sz) p).length then lane w ((selected (Lanes w sz) p).getD i 0) v else mem i := by
  have hb := C68_bitsFromMask hs hm
  have hle := lanes_le hs
  have hc : popcnt (BitsFromMask w sz m) = (selected (Lanes w sz) p).length := popcnt_bits (by omega) hb
  have hsl := selected_length_le (Lanes w sz) p
  unfold CompressBlendedStore
  simp only [← lanes_def]
  refine ⟨hc, ?_⟩
  intro i
  rw [C68_blendedStore t hs _ (maskOf_firstN t hs _), hc]
  by_cases h : i < (selected (Lanes w sz) p).length
  · rw [if_pos ⟨by omega, by simpa using h⟩, if_pos h, lane_CompressBitsInt t hs hw8 v (bits_lt hb) (by omega),
      ← selected_bits hb, packOrder_first p h]
  · rw [if_neg (by simp [h]), if_neg h]

end Hwy.X86
