import Verif.X86LookupSpec
import Verif.X86MulSpec2

/-!
# C66: runtime permutations of the x86 128-bit targets — lookups of lanes
-/

namespace Hwy.X86

theorem look_mod (t : Tgt) {j : Nat} (hj : j < 16) (v idx : M128) {n : Nat} (hn : (lane 8 j idx).toNat = n) (h : n < 128) :
    lane 8 j (TableLookupBytes t v idx) = lane 8 (n % 16) v := by
  have hm : (lane 8 j idx).msb = false := by
    rw [BitVec.msb_eq_decide, hn]; simp; omega
  unfold TableLookupBytes
  split
  · rw [lane_mk (by omega) (by omega), hn]
  · unfold shuffle8
    rw [lane_mk (by omega) (by omega), hm, hn]; simp

theorem shl_byte (s : Nat) (hs : s = 1 ∨ s = 2) (L : M128) {p n : Nat} (hp : p < 16) (h : (lane 16 (p / 2) L).toNat = 257 * n)
    (hn : n * 2 ^ s < 256) : (lane 8 p (ShiftLeft 16 s L)).toNat = 2 ^ s * n := by
  have e := byte_lane (w := 16) (m := 2) rfl (show p % 2 < 2 by omega) (p / 2) (ShiftLeft 16 s L)
  rw [Nat.div_add_mod] at e
  rw [← e, C62_shiftLeft (⟨by omega, by omega⟩ : InReg 16 (p / 2)) L s (by omega), BitVec.extractLsb'_toNat,
    BitVec.toNat_shiftLeft, h, Nat.shiftLeft_eq, Nat.shiftRight_eq_div_pow]
  have : p % 2 = 0 ∨ p % 2 = 1 := by omega
  have key : ∀ k : Nat, k < 256 → 257 * k % 65536 / 2 ^ (8 * (p % 2)) % 2 ^ 8 = k := by
    intro k hk
    rw [Nat.mod_eq_of_lt (by omega : 257 * k < 65536)]
    have e : 257 * k / 256 = k := by
      rw [show 257 * k = k + 256 * k by omega, Nat.add_mul_div_left _ _ (by omega), Nat.div_eq_of_lt hk, Nat.zero_add]
    rcases this with c | c <;> rw [c] <;> simp only [Nat.reduceMul, Nat.reducePow]
    · omega
    · rw [e]; omega
  have := key (n * 2 ^ s) hn
  rw [← Nat.mul_assoc] at this
  rw [Nat.mul_comm (2 ^ s) n]; exact this

theorem pair16 (L : M128) {k n : Nat} (h0 : (lane 8 (2 * k) L).toNat = n) (h1 : (lane 8 (2 * k + 1) L).toNat = n) :
    (lane 16 k L).toNat = 257 * n := by
  have e0 := byte_lane (w := 16) (m := 2) rfl (show 0 < 2 by omega) k L
  have e1 := byte_lane (w := 16) (m := 2) rfl (show 1 < 2 by omega) k L
  rw [← Nat.add_zero (2 * k), ← e0, BitVec.extractLsb'_toNat, Nat.shiftRight_eq_div_pow] at h0
  rw [← e1, BitVec.extractLsb'_toNat, Nat.shiftRight_eq_div_pow] at h1
  have := (lane 16 k L).isLt
  simp only [Nat.reduceMul, Nat.reducePow] at *
  omega

theorem byte0_toNat {w m : Nat} (hw : w = 8 * m) (hm : 0 < m) (i : Nat) (v : M128) {n : Nat} (h : (lane w i v).toNat = n)
    (hn : n < 256) : (lane 8 (m * i) v).toNat = n := by
  have e := byte_lane hw hm i v
  rw [Nat.add_zero] at e
  rw [← e, BitVec.extractLsb'_toNat, Nat.shiftRight_eq_div_pow, h]
  simp only [Nat.mul_zero, Nat.pow_zero, Nat.div_one]; omega

/-- The broadcast of the lowest byte of each lane. -/
theorem bcast_byte (t : Tgt) (tab : List Nat) {p q n : Nat} (hp : p < 16) (hq : q < 16) (ht : tab.getD p 0 = q) (vec : M128)
    (h : (lane 8 q vec).toNat = n) : (lane 8 p (TableLookupBytes t vec (ofBytes tab))).toNat = n := by
  have hi : (lane 8 p (ofBytes tab)).toNat = q := by
    unfold ofBytes; rw [lane_mk (by omega) (by omega), BitVec.toNat_ofNat, ht]; omega
  rw [C62_tableLookupBytes t hp vec _ (by omega), hi, h]

/-- Byte indices are lane indices scaled by the lane size. -/
def ByteIdx (m i n : Nat) (idx : M128) : Prop := ∀ j, j < m → (lane 8 (m * i + j) idx).toNat = m * n + j

theorem idx16 (t : Tgt) (ht : t ≠ .sse2) (vec : M128) {i n : Nat} (hi : i < 8) (h : (lane 16 i vec).toNat = n) (hn : n < 16) :
    ByteIdx 2 i n (IndicesFromVec t 16 vec) := by
  intro j hj
  have hz := byte0_toNat (m := 2) rfl (by omega) i vec h (by omega)
  have hb : ∀ k, k < 2 → (lane 8 (2 * i + k) (TableLookupBytes t vec
      (ofBytes [0, 0, 2, 2, 4, 4, 6, 6, 8, 8, 10, 10, 12, 12, 14, 14]))).toNat = n := by
    intro k hk
    refine bcast_byte t _ (q := 2 * i) (by omega) (by omega) ?_ vec hz
    clear hz h
    have : i = 0 ∨ i = 1 ∨ i = 2 ∨ i = 3 ∨ i = 4 ∨ i = 5 ∨ i = 6 ∨ i = 7 := by omega
    have hk' : k = 0 ∨ k = 1 := by omega
    rcases this with rfl | rfl | rfl | rfl | rfl | rfl | rfl | rfl <;> rcases hk' with rfl | rfl <;> rfl
  have hp := pair16 _ (hb 0 (by omega)) (hb 1 (by omega))
  unfold IndicesFromVec
  rw [if_pos rfl, if_neg (by cases t <;> first | exact absurd rfl ht | decide)]
  dsimp only
  rw [lane_Add ⟨by omega, by omega⟩, BitVec.toNat_add, shl_byte 1 (by omega) _ (by omega) (n := n)
    (by rw [show (2 * i + j) / 2 = i by omega]; exact hp) (by omega)]
  have ho : (lane 8 (2 * i + j) (ofBytes [0, 1, 0, 1, 0, 1, 0, 1, 0, 1, 0, 1, 0, 1, 0, 1])).toNat = j := by
    unfold ofBytes; rw [lane_mk (by omega) (by omega), BitVec.toNat_ofNat]
    clear hb hp hz h
    have : i = 0 ∨ i = 1 ∨ i = 2 ∨ i = 3 ∨ i = 4 ∨ i = 5 ∨ i = 6 ∨ i = 7 := by omega
    have hk' : j = 0 ∨ j = 1 := by omega
    rcases this with rfl | rfl | rfl | rfl | rfl | rfl | rfl | rfl <;> rcases hk' with rfl | rfl <;> rfl
  rw [ho]; omega

theorem idx32 (t : Tgt) (ht : t = .sse4 ∨ t = .ssse3) (vec : M128) {i n : Nat} (hi : i < 4) (h : (lane 32 i vec).toNat = n) (hn : n < 8) :
    ByteIdx 4 i n (IndicesFromVec t 32 vec) := by
  intro j hj
  have hz := byte0_toNat (m := 4) rfl (by omega) i vec h (by omega)
  have hb : ∀ k, k < 4 → (lane 8 (4 * i + k) (TableLookupBytes t vec
      (ofBytes [0, 0, 0, 0, 4, 4, 4, 4, 8, 8, 8, 8, 12, 12, 12, 12]))).toNat = n := by
    intro k hk
    refine bcast_byte t _ (q := 4 * i) (by omega) (by omega) ?_ vec hz
    clear hz h
    have : i = 0 ∨ i = 1 ∨ i = 2 ∨ i = 3 := by omega
    have hk' : k = 0 ∨ k = 1 ∨ k = 2 ∨ k = 3 := by omega
    rcases this with rfl | rfl | rfl | rfl <;> rcases hk' with rfl | rfl | rfl | rfl <;> rfl
  have hp : ∀ k, k < 2 → (lane 16 (2 * i + k) (TableLookupBytes t vec
      (ofBytes [0, 0, 0, 0, 4, 4, 4, 4, 8, 8, 8, 8, 12, 12, 12, 12]))).toNat = 257 * n := fun k hk => pair16 (k := 2 * i + k) _
    (by have := hb (2 * k) (by omega); rwa [show 4 * i + 2 * k = 2 * (2 * i + k) by omega] at this)
    (by have := hb (2 * k + 1) (by omega); rwa [show 4 * i + (2 * k + 1) = 2 * (2 * i + k) + 1 by omega] at this)
  unfold IndicesFromVec
  rw [if_neg (by decide), if_pos rfl, if_neg (by rcases ht with rfl | rfl <;> decide)]
  dsimp only
  rw [lane_Add ⟨by omega, by omega⟩, BitVec.toNat_add, shl_byte 2 (by omega) _ (by omega) (n := n)
    (by rw [show (4 * i + j) / 2 = 2 * i + j / 2 by omega]; exact hp (j / 2) (by omega)) (by omega)]
  have ho : (lane 8 (4 * i + j) (ofBytes [0, 1, 2, 3, 0, 1, 2, 3, 0, 1, 2, 3, 0, 1, 2, 3])).toNat = j := by
    unfold ofBytes; rw [lane_mk (by omega) (by omega), BitVec.toNat_ofNat]
    clear hb hp hz h
    have : i = 0 ∨ i = 1 ∨ i = 2 ∨ i = 3 := by omega
    have hk' : j = 0 ∨ j = 1 ∨ j = 2 ∨ j = 3 := by omega
    rcases this with rfl | rfl | rfl | rfl <;> rcases hk' with rfl | rfl | rfl | rfl <;> rfl
  rw [ho]; omega

/-- `PSHUFB` with byte indices looks up a lane. -/
theorem look_lane (t : Tgt) {w m : Nat} (hw : w = 8 * m) (hm : m = 1 ∨ m = 2 ∨ m = 4) {i n : Nat} (hi : m * i + m ≤ 16)
    (hn : m * n < 32) (v idx : M128) (h : ByteIdx m i n idx) :
    lane w i (TableLookupBytes t v idx) = lane w (n % (16 / m)) v := by
  apply lane_bytes hw
  intro j hj
  rw [byte_lane hw hj, byte_lane hw hj, look_mod t (by omega) v idx (h j hj) (by omega)]
  congr 1
  rcases hm with rfl | rfl | rfl <;> simp only [Nat.reduceDiv] <;> omega

theorem same_lane (idx : M128) {i n : Nat} (hi : i < 2) (h : (lane 64 i idx).toNat = n) (hn : n < 2) :
    lane 64 i (Sub 64 (Xor idx (Iota 64 0#64)) (set 64 1#64)) = maskLane 64 (n = i) := by
  have hr : InReg 64 i := ⟨by omega, by omega⟩
  have hx : lane 64 i idx = BitVec.ofNat 64 n := by
    apply BitVec.eq_of_toNat_eq; rw [h, BitVec.toNat_ofNat]; omega
  rw [lane_Sub hr, lane_Xor, C62_iota hr, lane_set hr, hx]
  have hi' : i = 0 ∨ i = 1 := by omega
  have hn' : n = 0 ∨ n = 1 := by omega
  clear hx h
  rcases hi' with rfl | rfl <;> rcases hn' with rfl | rfl <;> decide +kernel

theorem lane_Shuffle01 (v : M128) {i : Nat} (hi : i < 2) : lane 64 i (Shuffle01 v) = lane 64 (1 - i) v := by
  unfold Shuffle01
  revert i
  intro i hi
  leaf1 hi

/-- `TableLookupLanes` looks up lane `vec[i]`, for every vector and lane size; only the index of lane `i`
matters. -/
theorem C66_tableLookupLanes (t : Tgt) {w sz : Nat} (hs : Shape w sz) (v vec : M128) {i : Nat} (hi : i < Lanes w sz)
    (h : (lane w i vec).toNat < Lanes w sz) :
    lane w i (TableLookupLanes t w sz v (IndicesFromVec t w vec)) = lane w (lane w i vec).toNat v := by
  generalize hn : (lane w i vec).toNat = n at *
  unfold TableLookupLanes
  have hL : Lanes w sz ≤ 128 / w := by shapes hs <;> decide
  split
  · rename_i e
    have : i = 0 := by unfold Lanes at *; omega
    have : n = 0 := by unfold Lanes at *; omega
    subst i n; rfl
  have hw : w = 8 ∨ w = 16 ∨ w = 32 ∨ w = 64 := by unfold Shape at hs; omega
  have hi' : i < 128 / w := by omega
  have h' : n < 128 / w := by omega
  clear hL h hi
  rcases hw with rfl | rfl | rfl | rfl
  · rw [if_pos rfl]
    have := look_lane t (w := 8) (m := 1) rfl (by omega) (i := i) (n := n) (by omega) (by omega) v (IndicesFromVec t 8 vec)
      (by intro j hj; rw [show 1 * i + j = i by omega, show 1 * n + j = n by omega]; exact hn)
    rw [this]; congr 1; omega
  · rw [if_neg (by decide), if_pos rfl]
    by_cases c : t = .sse2
    · subst c
      rw [if_pos (by decide), lane_mk (by omega) (by omega)]
      have : IndicesFromVec .sse2 16 vec = vec := by unfold IndicesFromVec; rw [if_pos rfl, if_pos (by decide)]
      rw [this, hn]; congr 1; omega
    · rw [if_neg (by cases t <;> first | exact absurd rfl c | decide)]
      rw [look_lane t (w := 16) (m := 2) rfl (by omega) (by omega) (n := n) (by omega) v _ (idx16 t c vec hi' hn (by omega))]
      congr 1; omega
  · rw [if_neg (by decide), if_neg (by decide), if_pos rfl]
    have hv : t = .avx2 ∨ t = .sse2 → IndicesFromVec t 32 vec = vec := by
      intro c
      unfold IndicesFromVec; rw [if_neg (by decide), if_pos rfl, if_pos (by rcases c with rfl | rfl <;> decide)]
    cases t
    · rw [if_pos (by decide), hv (Or.inl rfl)]; unfold permutevarPs
      rw [lane_mk (by omega) (by omega), hn]; congr 1; omega
    · rw [if_neg (by decide), if_neg (by decide),
        look_lane _ (w := 32) (m := 4) rfl (by omega) (by omega) (n := n) (by omega) v _ (idx32 _ (Or.inl rfl) vec hi' hn (by omega))]
      congr 1; omega
    · rw [if_neg (by decide), if_neg (by decide),
        look_lane _ (w := 32) (m := 4) rfl (by omega) (by omega) (n := n) (by omega) v _ (idx32 _ (Or.inr rfl) vec hi' hn (by omega))]
      congr 1; omega
    · rw [if_neg (by decide), if_pos (by decide), hv (Or.inr rfl), lane_mk (by omega) (by omega), hn]; congr 1; omega
  · rw [if_neg (by decide), if_neg (by decide), if_neg (by decide)]
    have hv : IndicesFromVec t 64 vec = vec := by unfold IndicesFromVec; rw [if_neg (by decide), if_neg (by decide)]
    rw [hv]
    split
    · unfold permutevarPd
      rw [lane_mk (by omega) (by omega), lane_Add ⟨by omega, by omega⟩, BitVec.toNat_add, hn]; congr 1; omega
    · have hr : InReg 64 i := ⟨by omega, by omega⟩
      rw [lane_IfThenElse t hr _ _ _ (n = i) (same_lane vec (by omega) hn (by omega)), lane_Shuffle01 v (by omega)]
      split
      · rename_i e; rw [e]
      · congr 1; omega

end Hwy.X86
