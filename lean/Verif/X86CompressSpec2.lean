import Verif.X86CompressSpec
import Verif.X86ShiftSpec2
import Verif.X86LookupSpec2

/-!
# C68: `Compress` of bytes, and `Expand`

`rankOf p i` counts the true mask lanes below `i`: the index of the input lane that `Expand` puts into lane `i`.
-/

namespace Hwy.X86

/-! ## Bytes -/

theorem tab8 : ∀ N ∈ [1, 2, 4, 8], ∀ b, b < 256 → ∀ i, i < (selected N b.testBit).length →
    ((compress8.getD b []).take N).getD i 0 = (selected N b.testBit).getD i 0 := by decide +kernel

theorem selected_mem {N : Nat} {p : Nat → Bool} {i : Nat} (h : i < (selected N p).length) : (selected N p).getD i 0 < N := by
  rw [List.getD_eq_getElem?_getD, List.getElem?_eq_getElem h, Option.getD_some]
  have := List.getElem_mem h
  unfold selected at this
  exact List.mem_range.1 (List.mem_filter.1 this).1

theorem selected_split (a b : Nat) (p : Nat → Bool) :
    selected (a + b) p = selected a p ++ (selected b (fun i => p (a + i))).map (a + ·) := by
  unfold selected
  rw [List.range_add, List.filter_append, List.filter_map]
  rfl

theorem lane_LoadU {w n : Nat} {i : Nat} (hr : InReg w i) (mem : Mem w) (q : Nat) :
    lane w i (LoadU w n mem q) = if i < n then mem (q + i) else 0#w := lane_mk hr.pos hr.le _

theorem testBit_byte (x : BitVec 8) (i : Nat) : x.toNat.testBit i = (decide (i < 8) && x.getLsbD i) := by
  rw [BitVec.testBit_toNat]
  by_cases h : i < 8
  · simp [h]
  · simp [h, BitVec.getLsbD_of_ge x i (by omega)]

/-- One iteration: `m` is the number of lanes per iteration. -/
theorem step8 (t : Tgt) {sz m : Nat} (hm : m = min sz 8) (hsz : sz = 1 ∨ sz = 2 ∨ sz = 4 ∨ sz = 8 ∨ sz = 16) (v : M128) (bits : Mem 8)
    (pos : Nat) (mem : Mem 8) {b : Nat} (hb : 8 * b + m ≤ 16) :
    let r := compress8Step t sz (fun i => lane 8 i v) bits (pos, mem) b
    let q := fun i => (bits b).getLsbD i
    r.1 = pos + (selected 8 q).length ∧
    (∀ k, k < (selected m q).length → r.2 (pos + k) = lane 8 (8 * b + (selected m q).getD k 0) v) ∧
    (∀ k, k < pos → r.2 k = mem k) ∧ (∀ k, pos + m ≤ k → r.2 k = mem k) := by
  intro r q
  have hbit := testBit_byte (bits b)
  have hsel : selected m (bits b).toNat.testBit = selected m q := selected_congr (fun i hi => by rw [hbit]; simp [show i < 8 by omega, q])
  have hM : m ∈ [1, 2, 4, 8] := by simp; omega
  have hdiv : 8 * b / 8 = b := by omega
  refine ⟨?_, ?_, ?_, ?_⟩
  · show pos + popcnt (bits (8 * b / 8)).toNat = _
    rw [hdiv, popcnt_bits (N := 8) (by omega) hbit]
    rfl
  · intro k hk
    have hl := selected_length_le m q
    have hlt := selected_mem hk
    have ht := tab8 m hM (bits b).toNat (bits b).isLt k (by rw [hsel]; exact hk)
    rw [hsel] at ht
    show (if pos ≤ pos + k ∧ pos + k < pos + min sz 8 then lane 8 (pos + k - pos) _ else mem (pos + k)) = _
    rw [if_pos ⟨by omega, by omega⟩, hdiv, ← hm, show pos + k - pos = k by omega]
    have hn := toNat_ofBytes ((compress8.getD (bits b).toNat []).take m) (i := k) (by omega) ht (by omega)
    rw [C62_tableLookupBytes t (by omega) _ _ (by rw [hn]; omega), hn, lane_LoadU ⟨by omega, by omega⟩, if_pos hlt]
  · intro k hk
    show (if pos ≤ k ∧ k < pos + min sz 8 then _ else mem k) = _
    rw [if_neg (by omega)]
  · intro k hk
    show (if pos ≤ k ∧ k < pos + min sz 8 then _ else mem k) = _
    rw [if_neg (by omega)]

/-- The bits of a byte array. -/
def bitAt (bits : Mem 8) (i : Nat) : Bool := (bits (i / 8)).getLsbD (i % 8)

theorem selected_byte (bits : Mem 8) {m : Nat} (hm : m ≤ 8) (b : Nat) :
    selected m (fun i => (bits b).getLsbD i) = selected m (fun i => bitAt bits (8 * b + i)) :=
  selected_congr (fun i hi => by unfold bitAt; rw [show (8 * b + i) / 8 = b by omega, show (8 * b + i) % 8 = i by omega])

/-- `CompressBitsStore` of bytes: the selected lanes are written in order and nothing beyond the vector is touched, whatever the
unused bits are. -/
theorem C68_compressBitsStore8 (t : Tgt) {sz : Nat} (hs : Shape 8 sz) (v : M128) (bits : Mem 8) (mem : Mem 8) :
    (∀ i, i < (selected sz (bitAt bits)).length →
      (CompressBitsStore8 t sz v bits mem).1 i = lane 8 ((selected sz (bitAt bits)).getD i 0) v) ∧
    (∀ i, sz ≤ i → (CompressBitsStore8 t sz v bits mem).1 i = mem i) ∧
    (CompressBitsStore8 t sz v bits mem).2 = (selected (max sz 8) (bitAt bits)).length := by
  obtain ⟨-, hz, -⟩ := shape_cases hs
  by_cases h8 : sz ≤ 8
  · have hone : (sz + 7) / 8 = 1 := by omega
    have hsel := selected_byte bits (m := sz) h8 0
    have hsel8 := selected_byte bits (m := 8) (by omega) 0
    simp only [Nat.mul_zero, Nat.zero_add] at hsel hsel8
    obtain ⟨h1, h2, h3, h4⟩ := step8 t (m := sz) (by omega) hz v bits 0 mem (b := 0) (by omega)
    unfold CompressBitsStore8
    rw [hone, show List.range 1 = [0] from rfl]
    simp only [List.foldl_cons, List.foldl_nil]
    rw [hsel] at h2
    rw [hsel8] at h1
    refine ⟨fun i hi => ?_, fun i hi => h4 i (by omega), ?_⟩
    · have := h2 i hi
      rw [Nat.zero_add] at this
      rw [this]; simp
    · rw [h1, show max sz 8 = 8 by omega]; simp
  · have h16 : sz = 16 := by omega
    subst h16
    have hs0 := selected_byte bits (m := 8) (by omega) 0
    have hs1 := selected_byte bits (m := 8) (by omega) 1
    simp only [Nat.mul_zero, Nat.mul_one, Nat.zero_add] at hs0 hs1
    replace hs0 : selected 8 (fun i => (bits 0).getLsbD i) = selected 8 (bitAt bits) := hs0
    have hsplit := selected_split 8 8 (bitAt bits)
    have hl0 := selected_length_le 8 (bitAt bits)
    have hl1 := selected_length_le 8 (fun i => bitAt bits (8 + i))
    obtain ⟨a1, a2, a3, a4⟩ := step8 t (sz := 16) (m := 8) (by omega) hz v bits 0 mem (b := 0) (by omega)
    rw [hs0, Nat.zero_add] at a1
    rw [hs0] at a2
    generalize hr : compress8Step t 16 (fun i => lane 8 i v) bits (0, mem) 0 = r at a1 a2 a3 a4
    obtain ⟨b1, b2, b3, b4⟩ := step8 t (sz := 16) (m := 8) (by omega) hz v bits r.1 r.2 (b := 1) (by omega)
    rw [hs1] at b1 b2
    unfold CompressBitsStore8
    rw [show (16 + 7) / 8 = 2 from rfl, show List.range 2 = [0, 1] from rfl]
    simp only [List.foldl_cons, List.foldl_nil]
    rw [hr]
    rw [show max 16 8 = 8 + 8 from rfl, show (16 : Nat) = 8 + 8 from rfl, hsplit, List.length_append, List.length_map]
    refine ⟨fun i hi => ?_, fun i hi => ?_, ?_⟩
    · by_cases h : i < (selected 8 (bitAt bits)).length
      · have e1 := b3 i (by rw [a1]; exact h)
        have e2 := a2 i h
        rw [Nat.zero_add] at e2
        rw [List.getD_eq_getElem?_getD, List.getElem?_append_left h, ← List.getD_eq_getElem?_getD]
        rw [show ((8 : Nat) + 8) = 16 from rfl]
        rw [e1, e2]; simp
      · have hk : i - (selected 8 (bitAt bits)).length < (selected 8 (fun i => bitAt bits (8 + i))).length := by omega
        have e1 := b2 _ hk
        rw [show r.1 + (i - (selected 8 (bitAt bits)).length) = i by omega] at e1
        rw [List.getD_eq_getElem?_getD, List.getElem?_append_right (by omega), List.getElem?_map, List.getElem?_eq_getElem hk]
        rw [List.getD_eq_getElem?_getD, List.getElem?_eq_getElem hk] at e1
        rw [show ((8 : Nat) + 8) = 16 from rfl]
        rw [e1]; simp
    · have e1 := b4 i (by rw [a1]; omega)
      have e2 := a4 i (by omega)
      rw [show ((8 : Nat) + 8) = 16 from rfl]
      rw [e1, e2]
    · rw [show ((8 : Nat) + 8) = 16 from rfl]
      rw [b1, a1]

/-- The number that `CompressBitsStore` of bytes returns counts the unused bits of a vector of fewer than eight lanes: it is the
number of selected lanes exactly if they are clear. -/
theorem C68_compressBitsStore8_count (t : Tgt) {sz : Nat} (hs : Shape 8 sz) (v : M128) (bits : Mem 8) (mem : Mem 8) :
    (CompressBitsStore8 t sz v bits mem).2 = (selected sz (bitAt bits)).length ↔ ∀ i, sz ≤ i → i < 8 → bitAt bits i = false := by
  rw [(C68_compressBitsStore8 t hs v bits mem).2.2]
  obtain ⟨k, hk⟩ : ∃ k, max sz 8 = sz + k := ⟨max sz 8 - sz, by omega⟩
  rw [hk, selected_split, List.length_append, List.length_map]
  have hz : (selected k (fun i => bitAt bits (sz + i))).length = 0 ↔ ∀ i, i < k → bitAt bits (sz + i) = false := by
    unfold selected
    rw [List.length_eq_zero_iff, List.filter_eq_nil_iff]
    simp
  constructor
  · intro h i h1 h2
    have := hz.1 (by omega) (i - sz) (by omega)
    rwa [show sz + (i - sz) = i by omega] at this
  · intro h
    have := hz.2 (fun i hi => h _ (by omega) (by omega))
    omega

/-- `CompressBits(v, bits)` of bytes: the selected lanes come first. -/
theorem C68_compressBits8 (t : Tgt) {sz : Nat} (hs : Shape 8 sz) (v : M128) (bits u : Mem 8) {i : Nat}
    (hi : i < (selected sz (bitAt bits)).length) :
    lane 8 i (CompressBits8 t sz v bits u) = lane 8 ((selected sz (bitAt bits)).getD i 0) v := by
  have hl := selected_length_le sz (bitAt bits)
  obtain ⟨-, hz, -⟩ := shape_cases hs
  unfold CompressBits8
  rw [lane_LoadU ⟨by omega, by omega⟩, if_pos (by omega), Nat.zero_add]
  exact (C68_compressBitsStore8 t hs v bits u).1 i hi

theorem bitAt_store {sz : Nat} (hs : Shape 8 sz) {m : M128} {p : Nat → Bool} (hm : MaskOf 8 sz m p) (u : Mem 8) {i : Nat} (hi : i < max sz 8) :
    bitAt (StoreMaskBits 8 sz m u).1 i = (decide (i < sz) && p i) := by
  obtain ⟨-, hz, -⟩ := shape_cases hs
  have hL : Lanes 8 sz = sz := by unfold Lanes; omega
  have e := (C68_storeMaskBits hs hm u).2.1 (i / 8) (by rw [hL]; omega) (i % 8) (by omega)
  rw [Nat.div_add_mod, hL] at e
  exact e

/-- `CompressStore(v, mask, d, p)` of bytes. -/
theorem C68_compressStore8 (t : Tgt) {sz : Nat} (hs : Shape 8 sz) (v : M128) {m : M128} {p : Nat → Bool} (hm : MaskOf 8 sz m p) (u mem : Mem 8) :
    (CompressStore8 t sz v m u mem).2 = (selected sz p).length ∧
    (∀ i, i < (selected sz p).length → (CompressStore8 t sz v m u mem).1 i = lane 8 ((selected sz p).getD i 0) v) ∧
    (∀ i, sz ≤ i → (CompressStore8 t sz v m u mem).1 i = mem i) := by
  have hb := fun {i : Nat} (hi : i < max sz 8) => bitAt_store hs hm u hi
  have hsel : selected sz (bitAt (StoreMaskBits 8 sz m u).1) = selected sz p :=
    selected_congr (fun i hi => by rw [hb (by omega)]; simp [hi])
  have h := C68_compressBitsStore8 t hs v (StoreMaskBits 8 sz m u).1 mem
  have hc := (C68_compressBitsStore8_count t hs v (StoreMaskBits 8 sz m u).1 mem).2
    (fun i h1 h2 => by rw [hb (by omega)]; simp [show ¬ i < sz by omega])
  rw [hsel] at h hc
  exact ⟨hc, h.1, h.2.1⟩

/-- `Compress(v, mask)` of bytes: the lanes with a true mask come first, in their order. -/
theorem C68_compress8 (t : Tgt) {sz : Nat} (hs : Shape 8 sz) (v : M128) {m : M128} {p : Nat → Bool} (hm : MaskOf 8 sz m p) (u u2 : Mem 8)
    {i : Nat} (hi : i < (selected sz p).length) :
    lane 8 i (Compress8 t sz v m u u2) = lane 8 ((selected sz p).getD i 0) v := by
  have hl := selected_length_le sz p
  have hlt := selected_mem hi
  obtain ⟨-, hz, -⟩ := shape_cases hs
  unfold Compress8
  split
  · rw [show (selected sz p).getD i 0 = i by omega]
  · rw [lane_LoadU ⟨by omega, by omega⟩, if_pos (by omega), Nat.zero_add]
    exact (C68_compressStore8 t hs v hm u u2).2.1 i hi

/-- `CompressNot(v, mask)` of bytes: the lanes with a false mask come first, in their order. -/
theorem C68_compressNot8 (t : Tgt) {sz : Nat} (hs : Shape 8 sz) (v : M128) {m : M128} {p : Nat → Bool} (hm : MaskOf 8 sz m p) (u u2 : Mem 8)
    {i : Nat} (hi : i < (selected sz (fun k => !p k)).length) :
    lane 8 i (CompressNot8 t sz v m u u2) = lane 8 ((selected sz (fun k => !p k)).getD i 0) v :=
  C68_compress8 t hs v (maskOf_not hs hm) u u2 hi

/-- `CompressBlendedStore(v, mask, d, p)` of bytes: writes only the selected lanes. -/
theorem C68_compressBlendedStore8 (t : Tgt) {sz : Nat} (hs : Shape 8 sz) (v : M128) {m : M128} {p : Nat → Bool} (hm : MaskOf 8 sz m p)
    (u u2 mem : Mem 8) :
    (CompressBlendedStore8 t sz v m u u2 mem).2 = (selected sz p).length ∧
    ∀ i, (CompressBlendedStore8 t sz v m u u2 mem).1 i
      = if i < (selected sz p).length then lane 8 ((selected sz p).getD i 0) v else mem i := by
  obtain ⟨hc, h1, -⟩ := C68_compressStore8 t hs v hm u u2
  have hl := selected_length_le sz p
  obtain ⟨-, hz, -⟩ := shape_cases hs
  have hL : Lanes 8 sz = sz := by unfold Lanes; omega
  have hF := maskOf_firstN t hs (selected sz p).length
  rw [hL] at hF
  refine ⟨hc, ?_⟩
  intro i
  unfold CompressBlendedStore8
  simp only []
  rw [hc, C68_blendedStore t hs _ hF, hL]
  by_cases h : i < (selected sz p).length
  · rw [if_pos ⟨by omega, by simpa using h⟩, if_pos h, lane_LoadU ⟨by omega, by omega⟩, if_pos (by omega), Nat.zero_add, h1 i h]
  · rw [if_neg (by simp [h]), if_neg h]

/-! ## Expand -/

/-- The number of true mask lanes below `i`. -/
def rankOf (p : Nat → Bool) (i : Nat) : Nat := (selected i p).length

theorem etab8 : ∀ N ∈ [1, 2, 4, 8], ∀ b, b < 2 ^ N → ∀ i, i < N →
    ((expand8.getD b []).take N).getD i 0 = if b.testBit i then rankOf b.testBit i else 128 := by decide +kernel
theorem etab16 : ∀ N ∈ [1, 2, 4, 8], ∀ b, b < 2 ^ N → ∀ i, i < N →
    ((expand16.getD b []).take N).getD i 0 = if b.testBit i then 2 * rankOf b.testBit i else 128 := by decide +kernel
theorem etab32 : ∀ N ∈ [1, 2, 4], ∀ b, b < 2 ^ N → ∀ i, i < N →
    b.testBit i = true → ((expand32.getD b 0 % 2 ^ 32) >>> ([0, 4, 8, 12].getD i 0)) &&& (N - 1) = rankOf b.testBit i := by decide +kernel
theorem iotaTab : ∀ k, k < 9 → ∀ i, i < 8 →
    ((((List.range 16 ++ List.replicate 16 128).drop k).take 16)).getD i 0 = k + i := by decide +kernel

theorem rankOf_congr {p q : Nat → Bool} {i : Nat} (h : ∀ k, k < i → p k = q k) : rankOf p i = rankOf q i := by
  unfold rankOf; rw [selected_congr h]
theorem rankOf_le (p : Nat → Bool) (i : Nat) : rankOf p i ≤ i := selected_length_le i p
theorem rankOf_bits {N b : Nat} {p : Nat → Bool} (h : ∀ i, b.testBit i = (decide (i < N) && p i)) {i : Nat} (hi : i < N) :
    b.testBit i = p i ∧ rankOf b.testBit i = rankOf p i :=
  ⟨by rw [h]; simp [hi], rankOf_congr (fun k hk => by rw [h]; simp [show k < N by omega])⟩
theorem rankOf_add (p : Nat → Bool) (a j : Nat) : rankOf p (a + j) = rankOf p a + rankOf (fun i => p (a + i)) j := by
  unfold rankOf
  rw [selected_split, List.length_append, List.length_map]

/-- One lookup of the byte table. -/
theorem lane_expandBytes (t : Tgt) {n : Nat} (hn : n = 1 ∨ n = 2 ∨ n = 4 ∨ n = 8) (v : M128) {b : Nat} {p : Nat → Bool}
    (hb : ∀ i, b.testBit i = (decide (i < n) && p i)) {i : Nat} (hi : i < n) :
    lane 8 i (TableLookupBytesOr0 t v (IndicesForExpandFromBits n b)) = if p i then lane 8 (rankOf p i) v else 0#8 := by
  have ht := etab8 n (by simp; omega) b (bits_lt hb) i hi
  obtain ⟨e1, e2⟩ := rankOf_bits hb hi
  rw [e1, e2] at ht
  have hr := rankOf_le p i
  have hN := toNat_ofBytes ((expand8.getD b []).take n) (i := i) (by omega) ht (by split <;> omega)
  unfold IndicesForExpandFromBits
  by_cases h : p i = true
  · rw [if_pos h] at hN
    rw [C62_tableLookupBytesOr0 t (by omega) _ _ (by omega), hN, if_neg (by omega), if_pos h]
  · rw [if_neg h] at hN
    rw [C62_tableLookupBytesOr0 t (by omega) _ _ (by omega), hN, if_pos (by omega), if_neg h]

theorem lane_Expand8 (t : Tgt) {sz : Nat} (hs : Shape 8 sz) (v : M128) {m : M128} {p : Nat → Bool} (hm : MaskOf 8 sz m p) {i : Nat}
    (hi : i < sz) : lane 8 i (Expand8 t sz v m) = if p i then lane 8 (rankOf p i) v else 0#8 := by
  obtain ⟨-, hz, -⟩ := shape_cases hs
  have hL : Lanes 8 sz = sz := by unfold Lanes; omega
  have hb := C68_bitsFromMask hs hm
  rw [hL] at hb
  unfold Expand8
  split
  · exact lane_expandBytes t (by omega) v hb hi
  · obtain rfl : sz = 16 := by omega
    generalize BitsFromMask 8 16 m = b at *
    have hbL : ∀ k, (b &&& 0xFF).testBit k = (decide (k < 8) && p k) := by
      intro k
      rw [Nat.testBit_and, hb, show (0xFF : Nat) = 2 ^ 8 - 1 from rfl, Nat.testBit_two_pow_sub_one]
      by_cases h : k < 8
      · simp [h, show k < 16 by omega]
      · simp [h]
    have hbH : ∀ k, (b >>> 8).testBit k = (decide (k < 8) && p (8 + k)) := by
      intro k
      rw [Nat.testBit_shiftRight, hb]
      rw [show decide (8 + k < 16) = decide (k < 8) by apply decide_eq_decide.2; omega]
    have hpc : popcnt (b &&& 0xFF) = rankOf p 8 := popcnt_bits (by omega) hbL
    have hr8 := rankOf_le p 8
    simp only []
    rw [C63_combine (w := 8) hs (by decide) _ _ (show i < Lanes 8 16 from hi), show Lanes 8 16 / 2 = 8 from rfl]
    split
    · exact lane_expandBytes t (by omega) v hbL (by omega)
    · rw [lane_expandBytes t (by omega) _ hbH (by omega)]
      have hj : i - 8 < 8 := by omega
      have hrj := rankOf_le (fun k => p (8 + k)) (i - 8)
      have hra := rankOf_add p 8 (i - 8)
      rw [show 8 + (i - 8) = i by omega] at hra ⊢
      by_cases hp : p i = true
      · rw [if_pos hp, if_pos hp]
        unfold LowerHalf
        have hsh := toNat_ofBytes (((List.range 16 ++ List.replicate 16 128).drop (popcnt (b &&& 0xFF))).take 16)
          (i := rankOf (fun k => p (8 + k)) (i - 8)) (n := rankOf p 8 + rankOf (fun k => p (8 + k)) (i - 8)) (by omega)
          (by rw [hpc]; exact iotaTab _ (by omega) _ (by omega)) (by omega)
        rw [C62_tableLookupBytesOr0 t (by omega) _ _ (by omega), hsh, if_neg (by omega), ← hra]
      · rw [if_neg hp, if_neg hp]

theorem lane_Expand16 (t : Tgt) {sz : Nat} (hs : Shape 16 sz) (v : M128) {m : M128} {p : Nat → Bool} (hm : MaskOf 16 sz m p) {i : Nat}
    (hi : i < Lanes 16 sz) : lane 16 i (Expand16 t sz v m) = if p i then lane 16 (rankOf p i) v else 0#16 := by
  obtain ⟨-, hz, hl⟩ := shape_cases hs
  have hL : Lanes 16 sz = sz / 2 := rfl
  have hb := C68_bitsFromMask hs hm
  have ht := etab16 (sz / 2) (by simp; omega) _ (by rw [← hL]; exact bits_lt hb) i (by omega)
  obtain ⟨e1, e2⟩ := rankOf_bits hb hi
  rw [e1, e2] at ht
  have hr := rankOf_le p i
  have hi8 : i < 8 := by omega
  unfold Expand16
  simp only []
  have hN := toNat_ofBytes ((expand16.getD (BitsFromMask 16 sz m) []).take (sz / 2)) (i := i) (by omega) ht (by split <;> omega)
  by_cases hp : p i = true
  · rw [if_pos hp] at hN ⊢
    have hI := fun {j : Nat} (hj : j < 2) => pair_idx _ hi8 hN (by omega) hj
    apply lane_bytes (m := 2) rfl
    intro j hj
    rw [byte_lane (m := 2) rfl hj, byte_lane (m := 2) rfl hj, C62_tableLookupBytesOr0 t (by omega) _ _ (by rw [hI hj]; omega), hI hj,
      if_neg (by omega)]
  · rw [if_neg hp] at hN ⊢
    have hI := fun {j : Nat} (hj : j < 2) => pair_idx _ hi8 hN (by omega) hj
    have : lane 16 i (TableLookupBytesOr0 t v (Add 16 (InterleaveLower 8 (ofBytes ((expand16.getD (BitsFromMask 16 sz m) []).take (sz / 2)))
        (ofBytes ((expand16.getD (BitsFromMask 16 sz m) []).take (sz / 2)))) (set 16 0x0100#16))) = lane 16 i zero := by
      apply lane_bytes (m := 2) rfl
      intro j hj
      rw [byte_lane (m := 2) rfl hj, byte_lane (m := 2) rfl hj, C62_tableLookupBytesOr0 t (by omega) _ _ (by rw [hI hj]; omega), hI hj,
        if_pos (by omega)]
      exact (lane_zero _ _).symm
    rw [this]; exact lane_zero _ _

theorem lane_masked {w sz : Nat} {m : M128} {p : Nat → Bool} (hm : MaskOf w sz m p) (x : M128) {i : Nat} (hi : i < Lanes w sz) :
    lane w i (IfThenElseZero m x) = if p i then lane w i x else 0#w := by
  unfold IfThenElseZero
  rw [lane_And, hm i hi]
  by_cases h : p i = true
  · simp [h]
  · simp [h]

theorem lane_Expand32 (t : Tgt) (gcc : Bool) {sz : Nat} (hs : Shape 32 sz) (v : M128) {m : M128} {p : Nat → Bool} (hm : MaskOf 32 sz m p)
    {i : Nat} (hi : i < Lanes 32 sz) : lane 32 i (Expand32 t gcc sz v m) = if p i then lane 32 (rankOf p i) v else 0#32 := by
  obtain ⟨-, hz, hl⟩ := shape_cases hs
  have hL : Lanes 32 sz = sz / 4 := rfl
  have hb := C68_bitsFromMask hs hm
  obtain ⟨e1, e2⟩ := rankOf_bits hb hi
  have hr := rankOf_le p i
  unfold Expand32
  simp only []
  rw [lane_masked hm _ hi]
  by_cases hp : p i = true
  · rw [if_pos hp, if_pos hp]
    have hreg := inReg_of hs hi
    have ht := etab32 (sz / 4) (by simp; omega) _ (by rw [← hL]; exact bits_lt hb) i (by omega) (by rw [e1]; exact hp)
    rw [e2] at ht
    have hsh : (lane 32 i (mk 32 (fun i => BitVec.ofNat 32 ([0, 4, 8, 12].getD i 0)))).toNat = [0, 4, 8, 12].getD i 0 := by
      rw [lane_mk hreg.pos hreg.le]
      have : ∀ k, k < 4 → (BitVec.ofNat 32 ([0, 4, 8, 12].getD k 0)).toNat = [0, 4, 8, 12].getD k 0 := by decide
      exact this i (by omega)
    have hlt32 : ∀ k, k < 4 → [0, 4, 8, 12].getD k 0 < 32 := by decide
    have hidx : (lane 32 i (And (ShrU t gcc 32 sz (set 32 (BitVec.ofNat 32 (expand32.getD (BitsFromMask 32 sz m) 0)))
        (mk 32 (fun i => BitVec.ofNat 32 ([0, 4, 8, 12].getD i 0)))) (set 32 (BitVec.ofNat 32 (sz / 4 - 1))))).toNat = rankOf p i := by
      rw [lane_And, lane_ShrU t gcc hs _ _ hi (by rw [hsh]; exact hlt32 i (by omega)), hsh, lane_set hreg, lane_set hreg, BitVec.toNat_and,
        BitVec.toNat_ushiftRight, BitVec.toNat_ofNat, BitVec.toNat_ofNat, Nat.mod_eq_of_lt (a := sz / 4 - 1) (by omega), ht]
    rw [C66_tableLookupLanes t hs v _ hi (by rw [hidx]; omega), hidx]
  · rw [if_neg hp, if_neg hp]

/-- `Expand(v, mask)`: a lane with a true mask gets the next unused lane of `v`, the others are zero. -/
theorem C68_expand (t : Tgt) (gcc : Bool) {w sz : Nat} (hs : Shape w sz) (v : M128) {m : M128} {p : Nat → Bool} (hm : MaskOf w sz m p)
    {i : Nat} (hi : i < Lanes w sz) :
    lane w i (Expand t gcc w sz v m) = if p i then lane w (rankOf p i) v else 0#w := by
  obtain ⟨hw, hz, hl⟩ := shape_cases hs
  have hr := rankOf_le p i
  unfold Expand
  rw [← lanes_def]
  split
  · rw [lane_masked hm _ hi, show rankOf p i = i by omega]
  · rename_i hne
    rcases hw with rfl | rfl | rfl | rfl
    · rw [if_pos rfl]; exact lane_Expand8 t hs v hm (by unfold Lanes at hi; omega)
    · rw [if_neg (by decide), if_pos rfl]; exact lane_Expand16 t hs v hm hi
    · rw [if_neg (by decide), if_neg (by decide), if_pos rfl]; exact lane_Expand32 t gcc hs v hm hi
    · rw [if_neg (by decide), if_neg (by decide), if_neg (by decide), lane_masked hm _ hi]
      have hsz : sz = 16 := by unfold Lanes at hne; omega
      subst hsz
      have hi2 : i < 2 := hi
      by_cases hp : p i = true
      · rw [if_pos hp, if_pos hp, C68_compress t hs (by decide) v hm hi, show Lanes 64 16 = 2 from rfl, pack2]
        obtain rfl | rfl : i = 0 ∨ i = 1 := by omega
        · simp [hp, rankOf, selected]
        · rw [hp]
          unfold rankOf selected
          rw [show List.range 1 = [0] from rfl]
          cases h0 : p 0 <;> simp [h0]
      · rw [if_neg hp, if_neg hp]

/-- `LoadExpand(mask, d, p)`: a lane with a true mask gets the next element of memory, the others are zero. -/
theorem C68_loadExpand (t : Tgt) (gcc : Bool) {w sz : Nat} (hs : Shape w sz) {m : M128} {p : Nat → Bool} (hm : MaskOf w sz m p)
    (mem : Mem w) {i : Nat} (hi : i < Lanes w sz) :
    lane w i (LoadExpand t gcc w sz m mem) = if p i then mem (rankOf p i) else 0#w := by
  have hr := rankOf_le p i
  unfold LoadExpand
  rw [C68_expand t gcc hs _ hm hi, ← lanes_def, lane_LoadU (inReg_of hs (i := rankOf p i) (by omega)), Nat.zero_add]
  have : rankOf p i < Lanes w sz := by omega
  simp only [this, if_true]

/-- Expanding what `Compress` packed gives back the lanes with a true mask. -/
theorem C68_expand_compress (t : Tgt) (gcc : Bool) {w sz : Nat} (hs : Shape w sz) (hw8 : w ≠ 8) (v : M128) {m : M128} {p : Nat → Bool}
    (hm : MaskOf w sz m p) {i : Nat} (hi : i < Lanes w sz) :
    lane w i (Expand t gcc w sz (Compress t w sz v m) m) = if p i then lane w i v else 0#w := by
  rw [C68_expand t gcc hs _ hm hi]
  by_cases hp : p i = true
  · rw [if_pos hp, if_pos hp]
    have hr := rankOf_le p i
    rw [C68_compress t hs hw8 v hm (by omega)]
    obtain ⟨k, hk⟩ : ∃ k, Lanes w sz = i + (k + 1) := ⟨Lanes w sz - i - 1, by omega⟩
    have hsel : selected (Lanes w sz) p = selected i p ++ i :: (selected k (fun j => p (i + (1 + j)))).map (fun j => i + (1 + j)) := by
      rw [hk, selected_split, show k + 1 = 1 + k by omega, selected_split 1 k]
      have : selected 1 (fun j => p (i + j)) = [0] := by
        unfold selected; rw [show List.range 1 = [0] from rfl]; simp [hp]
      rw [this]; simp; intros; omega
    have hlen : rankOf p i < (selected (Lanes w sz) p).length := by rw [hsel]; unfold rankOf; simp
    rw [packOrder_first p hlen, hsel, List.getD_eq_getElem?_getD]
    unfold rankOf
    rw [List.getElem?_append_right (Nat.le_refl _), Nat.sub_self]
    rfl
  · rw [if_neg hp, if_neg hp]

end Hwy.X86
