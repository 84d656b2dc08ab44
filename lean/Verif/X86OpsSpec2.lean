import Verif.X86OpsSpec

/-! Shifts, rotates, sign handling, minima and maxima of the x86 128-bit targets. -/

namespace Hwy.X86

theorem dvd128 {w i : Nat} (h : InReg w i) : 128 % w = 0 := by
  rcases h.1 with rfl | rfl | rfl | rfl <;> rfl

/-! ### Shifts by a compile-time or common amount -/

theorem maskL_bit : ∀ k, k < 8 → ∀ m, m < 8 →
    (BitVec.ofNat 8 ((0xFF <<< k) &&& 0xFF)).getLsbD m = decide (k ≤ m) := by decide

theorem maskR_bit : ∀ k, k < 8 → ∀ m, m < 8 →
    (BitVec.ofNat 8 (0xFF >>> k)).getLsbD m = decide (m + k < 8) := by decide

theorem shl8 {i : Nat} (h : InReg 8 i) (v : M128) (k : Nat) (hk : k < 8) :
    lane 8 i (And (slli 16 k v) (set 8 (BitVec.ofNat 8 ((0xFF <<< k) &&& 0xFF)))) = lane 8 i v <<< k := by
  have hle := h.le
  apply lane_ext; intro m hm
  rw [lane_And, lane_set h, BitVec.getLsbD_and, maskL_bit k hk m hm, getLsbD_lane,
    getLsbD_slli (by omega) (by omega) _ _ _ (by omega), BitVec.getLsbD_shiftLeft, getLsbD_lane]
  by_cases c : k ≤ m
  · have h1 : k ≤ (8 * i + m) % 16 := by omega
    have h2 : 8 * i + m - k = 8 * i + (m - k) := by omega
    simp [c, h1, h2, hm, show ¬ m < k by omega, show m - k < 8 by omega]
  · simp [c, show m < k by omega]

theorem shr8 {i : Nat} (h : InReg 8 i) (v : M128) (k : Nat) (hk : k < 8) :
    lane 8 i (And (srli 16 k v) (set 8 (BitVec.ofNat 8 (0xFF >>> k)))) = lane 8 i v >>> k := by
  have hle := h.le
  apply lane_ext; intro m hm
  rw [lane_And, lane_set h, BitVec.getLsbD_and, maskR_bit k hk m hm, getLsbD_lane,
    getLsbD_srli (by omega) (by omega) _ _ _ (by omega), BitVec.getLsbD_ushiftRight, getLsbD_lane]
  by_cases c : m + k < 8
  · have h1 : (8 * i + m) % 16 + k < 16 := by omega
    have h2 : 8 * i + m + k = 8 * i + (k + m) := by omega
    simp [c, h1, h2, hm, show k + m < 8 by omega]
  · simp [c, show ¬ k + m < 8 by omega]

/-- `ShiftLeft<k>`: every lane is shifted by itself, no bit crosses a lane boundary. -/
theorem C62_shiftLeft {w i : Nat} (h : InReg w i) (v : M128) (k : Nat) (hk : k < w) :
    lane w i (ShiftLeft w k v) = lane w i v <<< k := by
  unfold ShiftLeft
  split
  · rename_i e; subst e
    split
    · rename_i e; subst e
      rw [lane_Add h]
      apply BitVec.eq_of_toNat_eq
      rw [BitVec.toNat_add, BitVec.toNat_shiftLeft, Nat.shiftLeft_eq]; omega
    · exact shl8 h v k hk
  · exact lane_slli h k v

theorem C62_shiftRight_unsigned {w i : Nat} (h : InReg w i) (v : M128) (k : Nat) (hk : k < w) :
    lane w i (ShiftRightU w k v) = lane w i v >>> k := by
  unfold ShiftRightU
  split
  · rename_i e; subst e; exact shr8 h v k hk
  · exact lane_srli h k v

theorem sshr_w1 {w : Nat} (hw : 0 < w) (x : BitVec w) :
    x.sshiftRight (w - 1) = maskLane w (x.toInt < 0) := by
  apply BitVec.eq_of_getLsbD_eq; intro k hk
  rw [BitVec.getLsbD_sshiftRight]
  have hm : x.msb = decide (x.toInt < 0) := by
    rw [BitVec.msb_eq_toInt]
  unfold maskLane
  by_cases c : x.toInt < 0
  · simp only [c, decide_true] at hm
    rw [if_pos c]
    by_cases c0 : w - 1 + k < w
    · have : w - 1 + k = w - 1 := by omega
      rw [this, ← BitVec.msb_eq_getLsbD_last, hm]
      simp [hk, show w - 1 < w by omega, show ¬ w ≤ k by omega]
    · simp [c0, hm, hk, show ¬ w ≤ k by omega]
  · simp only [c, decide_false] at hm
    rw [if_neg c]
    by_cases c0 : w - 1 + k < w
    · have : w - 1 + k = w - 1 := by omega
      rw [this, ← BitVec.msb_eq_getLsbD_last, hm]
      simp [show w - 1 < w by omega]
    · simp [c0, hm]

theorem toInt_neg_hi (x : BitVec 64) : ((x.extractLsb' 32 32).toInt < 0) ↔ x.toInt < 0 := by
  have hx := x.isLt
  rw [BitVec.toInt_eq_toNat_cond, BitVec.toInt_eq_toNat_cond, extHi]
  split <;> split <;> omega

theorem lane_BroadcastSignBit (t : Tgt) {w i : Nat} (h : InReg w i) (v : M128) :
    lane w i (BroadcastSignBit t w v) = maskLane w ((lane w i v).toInt < 0) := by
  unfold BroadcastSignBit
  split
  · rename_i e; subst e
    rw [C62_lt t true h, lane_zero']; exact maskLane_congr (by simp [val])
  split
  · rename_i e; subst e
    split
    · rw [C62_lt t true h, lane_zero']; exact maskLane_congr (by simp [val])
    · have hi := h.lt2
      have up : lane 32 (2 * i + 1) (srai 32 31 v) = maskLane 32 ((lane 64 i v).toInt < 0) := by
        rw [lane_srai (inReg32 (by omega)), hi32, sshr_w1 (w := 32) (by omega)]
        exact maskLane_congr (toInt_neg_hi _)
      apply lane64_ext
      · have : lane 32 (2 * i) (shuffle32 (srai 32 31 v) (MM_SHUFFLE 3 3 1 1))
            = lane 32 (2 * i + 1) (srai 32 31 v) := by
          rcases hi with rfl | rfl <;> rw [lane_shuffle32 (by omega)] <;> rfl
        rw [this, up]; unfold maskLane; split <;> rfl
      · have : lane 32 (2 * i + 1) (shuffle32 (srai 32 31 v) (MM_SHUFFLE 3 3 1 1))
            = lane 32 (2 * i + 1) (srai 32 31 v) := by
          rcases hi with rfl | rfl <;> rw [lane_shuffle32 (by omega)] <;> rfl
        rw [this, up]; unfold maskLane; split <;> rfl
  · rw [lane_srai h, sshr_w1 h.pos]

theorem C62_broadcastSignBit (t : Tgt) {w i : Nat} (h : InReg w i) (v : M128) :
    lane w i (BroadcastSignBit t w v) = if (lane w i v).toInt < 0 then BitVec.allOnes w else 0#w :=
  lane_BroadcastSignBit t h v

theorem sar8_key : ∀ k, k < 8 → ∀ x : BitVec 8,
    ((x >>> k) ^^^ BitVec.ofNat 8 (0x80 >>> k)) - BitVec.ofNat 8 (0x80 >>> k) = x.sshiftRight k := by
  decide +kernel

theorem sar64_key (x : BitVec 64) (k : Nat) (hk : k < 64) :
    x >>> k ||| (maskLane 64 (x.toInt < 0)) <<< (64 - k) = x.sshiftRight k := by
  have hm : x.msb = decide (x.toInt < 0) := by rw [BitVec.msb_eq_toInt]
  apply BitVec.eq_of_getLsbD_eq; intro n hn
  rw [BitVec.getLsbD_or, BitVec.getLsbD_ushiftRight, BitVec.getLsbD_shiftLeft, BitVec.getLsbD_sshiftRight]
  unfold maskLane
  by_cases c : k + n < 64
  · simp [c, hn, show n < 64 - k by omega, show ¬ 64 ≤ n by omega]
  · have h1 : x.getLsbD (k + n) = false := BitVec.getLsbD_of_ge _ _ (by omega)
    rw [h1, hm]
    by_cases cn : x.toInt < 0
    · rw [if_pos cn, BitVec.getLsbD_allOnes]
      simp [c, cn, hn, show ¬ n < 64 - k by omega, show n - (64 - k) < 64 by omega, show ¬ 64 ≤ n by omega]
    · rw [if_neg cn]; simp [c, cn]

theorem C62_shiftRight_signed (t : Tgt) {w i : Nat} (h : InReg w i) (v : M128) (k : Nat) (hk : k < w) :
    lane w i (ShiftRightI t w k v) = (lane w i v).sshiftRight k := by
  unfold ShiftRightI
  split
  · rename_i e; subst e
    simp only []
    rw [lane_Sub h, lane_Xor, lane_set h, C62_shiftRight_unsigned h v k hk]
    exact sar8_key k hk _
  split
  · rename_i e; subst e
    simp only []
    have : ShiftLeft 64 (64 - k) (BroadcastSignBit t 64 v) = slli 64 (64 - k) (BroadcastSignBit t 64 v) := rfl
    rw [lane_Or, C62_shiftRight_unsigned h v k hk, this, lane_slli h, lane_BroadcastSignBit t h]
    exact sar64_key _ k hk
  · exact lane_srai h k v

theorem rotr_key {w : Nat} (x : BitVec w) (k : Nat) (h0 : 0 < k) (hk : k < w) :
    x >>> k ||| x <<< (min (w - 1) (w - k)) = x.rotateRight k := by
  have e : min (w - 1) (w - k) = w - k := by omega
  rw [e, BitVec.rotateRight_def, Nat.mod_eq_of_lt hk]

theorem C62_rotateRight {w i : Nat} (h : InReg w i) (v : M128) (k : Nat) (hk : k < w) :
    lane w i (RotateRight w k v) = (lane w i v).rotateRight k := by
  unfold RotateRight
  split
  · rename_i e; subst e; rw [BitVec.rotateRight_def]; simp
  · rw [lane_Or, C62_shiftRight_unsigned h v k hk, C62_shiftLeft h v _ (by omega)]
    exact rotr_key _ k (by omega) hk

theorem count_cvtsi32 (n : Nat) (hn : n < 2 ^ 31) : (lane 64 0 (cvtsi32 (n : Int))).toNat = n := by
  unfold lane cvtsi32
  rw [BitVec.extractLsb'_toNat, BitVec.toNat_setWidth, BitVec.toNat_ofInt]
  simp only [Nat.mul_zero, Nat.shiftRight_zero]
  omega

theorem sll_eq (w n : Nat) (hn : n < 2 ^ 31) (v : M128) : sll w v (cvtsi32 (n : Int)) = slli w n v := by
  unfold sll; rw [count_cvtsi32 n hn]
theorem srl_eq (w n : Nat) (hn : n < 2 ^ 31) (v : M128) : srl w v (cvtsi32 (n : Int)) = srli w n v := by
  unfold srl; rw [count_cvtsi32 n hn]
theorem sra_eq (w n : Nat) (hn : n < 2 ^ 31) (v : M128) : sra w v (cvtsi32 (n : Int)) = srai w n v := by
  unfold sra; rw [count_cvtsi32 n hn]

theorem C62_shiftLeftSame {w i : Nat} (h : InReg w i) (v : M128) (n : Nat) (hn : n < w) :
    lane w i (ShiftLeftSame w v n) = lane w i v <<< n := by
  have hw : w ≤ 64 := by rcases h.1 with rfl | rfl | rfl | rfl <;> omega
  unfold ShiftLeftSame
  rw [sll_eq 16 n (by omega), sll_eq w n (by omega)]
  split
  · rename_i e; subst e; exact shl8 h v n hn
  · exact lane_slli h n v

theorem C62_shiftRightSame_unsigned {w i : Nat} (h : InReg w i) (v : M128) (n : Nat) (hn : n < w) :
    lane w i (ShiftRightSameU w v n) = lane w i v >>> n := by
  have hw : w ≤ 64 := by rcases h.1 with rfl | rfl | rfl | rfl <;> omega
  unfold ShiftRightSameU
  rw [srl_eq 16 n (by omega), srl_eq w n (by omega)]
  split
  · rename_i e; subst e; exact shr8 h v n hn
  · exact lane_srli h n v

theorem C62_shiftRightSame_signed (t : Tgt) {w i : Nat} (h : InReg w i) (v : M128) (n : Nat) (hn : n < w) :
    lane w i (ShiftRightSameI t w v n) = (lane w i v).sshiftRight n := by
  have hw : w ≤ 64 := by rcases h.1 with rfl | rfl | rfl | rfl <;> omega
  unfold ShiftRightSameI
  split
  · rename_i e; subst e
    simp only []
    rw [lane_Sub h, lane_Xor, lane_set h, C62_shiftRightSame_unsigned h v n hn]
    exact sar8_key n hn _
  split
  · rename_i e; subst e
    simp only []
    have : ShiftLeftSame 64 (BroadcastSignBit t 64 v) (64 - n) = slli 64 (64 - n) (BroadcastSignBit t 64 v) := by
      unfold ShiftLeftSame; rw [if_neg (by omega), sll_eq 64 _ (by omega)]
    rw [lane_Or, C62_shiftRightSame_unsigned h v n hn, this, lane_slli h, lane_BroadcastSignBit t h]
    exact sar64_key _ n hn
  · rw [sra_eq w n (by omega)]; exact lane_srai h n v

/-! ### Min, Max -/

theorem lane_minU {w i : Nat} (h : InReg w i) (a b : M128) : lane w i (minU w a b)
    = if (lane w i a).toNat < (lane w i b).toNat then lane w i a else lane w i b := lane_map2 h _ a b
theorem lane_maxU {w i : Nat} (h : InReg w i) (a b : M128) : lane w i (maxU w a b)
    = if (lane w i a).toNat < (lane w i b).toNat then lane w i b else lane w i a := lane_map2 h _ a b

theorem lane_MinUEmu (t : Tgt) {w i : Nat} (h : InReg w i) (a b : M128) : lane w i (MinUEmu t w a b)
    = if (lane w i a).toNat < (lane w i b).toNat then lane w i a else lane w i b := by
  unfold MinUEmu
  have := C62_gt t true h (Xor a (set w (1#w <<< (w - 1)))) (Xor b (set w (1#w <<< (w - 1))))
  rw [lane_IfThenElse t h _ _ _ _ this]
  simp only [val, if_true, lane_Xor, lane_set h, toInt_xor_msb h.1 _ _ (msb_const' h.1)]
  by_cases c : (lane w i a).toNat < (lane w i b).toNat
  · rw [if_pos c, if_neg (by omega)]
  · rw [if_neg c]
    split
    · rfl
    · apply BitVec.eq_of_toNat_eq; omega

theorem lane_MaxUEmu (t : Tgt) {w i : Nat} (h : InReg w i) (a b : M128) : lane w i (MaxUEmu t w a b)
    = if (lane w i a).toNat < (lane w i b).toNat then lane w i b else lane w i a := by
  unfold MaxUEmu
  have := C62_gt t true h (Xor a (set w (1#w <<< (w - 1)))) (Xor b (set w (1#w <<< (w - 1))))
  rw [lane_IfThenElse t h _ _ _ _ this]
  simp only [val, if_true, lane_Xor, lane_set h, toInt_xor_msb h.1 _ _ (msb_const' h.1)]
  by_cases c : (lane w i a).toNat < (lane w i b).toNat
  · rw [if_pos c, if_neg (by omega)]
  · rw [if_neg c]
    split
    · rfl
    · apply BitVec.eq_of_toNat_eq; omega

theorem lane_MinU (t : Tgt) {w i : Nat} (h : InReg w i) (a b : M128) : lane w i (MinU t w a b)
    = if (lane w i a).toNat < (lane w i b).toNat then lane w i a else lane w i b := by
  unfold MinU
  split
  · rename_i e; subst e; exact lane_minU h a b
  split
  · rename_i e; subst e
    split
    · rw [lane_subI h]
      have : lane 16 i (subsU 16 a b) = BitVec.ofNat 16 ((lane 16 i a).toNat - (lane 16 i b).toNat) :=
        lane_map2 h _ a b
      rw [this]
      have ha := (lane 16 i a).isLt
      have hb := (lane 16 i b).isLt
      apply BitVec.eq_of_toNat_eq
      rw [BitVec.toNat_sub, BitVec.toNat_ofNat]
      split <;> omega
    · exact lane_minU h a b
  split
  · rename_i e; subst e
    split
    · exact lane_MinUEmu t h a b
    · exact lane_minU h a b
  · exact lane_MinUEmu t h a b

theorem lane_MaxU (t : Tgt) {w i : Nat} (h : InReg w i) (a b : M128) : lane w i (MaxU t w a b)
    = if (lane w i a).toNat < (lane w i b).toNat then lane w i b else lane w i a := by
  unfold MaxU
  split
  · rename_i e; subst e; exact lane_maxU h a b
  split
  · rename_i e; subst e
    split
    · rw [lane_addI h]
      have : lane 16 i (subsU 16 b a) = BitVec.ofNat 16 ((lane 16 i b).toNat - (lane 16 i a).toNat) :=
        lane_map2 h _ b a
      rw [this]
      have ha := (lane 16 i a).isLt
      have hb := (lane 16 i b).isLt
      apply BitVec.eq_of_toNat_eq
      rw [BitVec.toNat_add, BitVec.toNat_ofNat]
      split <;> omega
    · exact lane_maxU h a b
  split
  · rename_i e; subst e
    split
    · exact lane_MaxUEmu t h a b
    · exact lane_maxU h a b
  · exact lane_MaxUEmu t h a b

theorem lane_MinI (t : Tgt) {w i : Nat} (h : InReg w i) (a b : M128) : lane w i (MinI t w a b)
    = if (lane w i a).toInt < (lane w i b).toInt then lane w i a else lane w i b := by
  have hn : lane w i (minI w a b)
    = if (lane w i a).toInt < (lane w i b).toInt then lane w i a else lane w i b := lane_map2 h _ a b
  unfold MinI
  split
  · rename_i e; subst e; exact hn
  split
  · rw [lane_IfThenElse t h _ _ _ _ (C62_lt t true h a b)]; simp [val]
  · exact hn

theorem lane_MaxI (t : Tgt) {w i : Nat} (h : InReg w i) (a b : M128) : lane w i (MaxI t w a b)
    = if (lane w i a).toInt < (lane w i b).toInt then lane w i b else lane w i a := by
  have hn : lane w i (maxI w a b)
    = if (lane w i a).toInt < (lane w i b).toInt then lane w i b else lane w i a := lane_map2 h _ a b
  unfold MaxI
  split
  · rename_i e; subst e; exact hn
  split
  · rw [lane_IfThenElse t h _ _ _ _ (C62_lt t true h a b)]; simp [val]
  · exact hn

/-- `Min` and `Max` of either signedness return the smaller / larger number. -/
theorem C62_min (t : Tgt) {w i : Nat} (h : InReg w i) (a b : M128) :
    val false (lane w i (MinU t w a b)) = min (val false (lane w i a)) (val false (lane w i b)) ∧
    val true (lane w i (MinI t w a b)) = min (val true (lane w i a)) (val true (lane w i b)) := by
  rw [lane_MinU t h, lane_MinI t h]; unfold val
  constructor
  · simp only [Bool.false_eq_true, if_false]; split <;> omega
  · simp only [if_true]; split <;> omega

theorem C62_max (t : Tgt) {w i : Nat} (h : InReg w i) (a b : M128) :
    val false (lane w i (MaxU t w a b)) = max (val false (lane w i a)) (val false (lane w i b)) ∧
    val true (lane w i (MaxI t w a b)) = max (val true (lane w i a)) (val true (lane w i b)) := by
  rw [lane_MaxU t h, lane_MaxI t h]; unfold val
  constructor
  · simp only [Bool.false_eq_true, if_false]; split <;> omega
  · simp only [if_true]; split <;> omega

end Hwy.X86
