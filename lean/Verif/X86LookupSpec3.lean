import Verif.X86LookupSpec2

/-!
# C66: lookups in two tables
-/

namespace Hwy.X86

theorem shl3_msb (idx : M128) {p k : Nat} (hp : p < 16) (h : (lane 8 p idx).toNat = k) (hk : k < 32) :
    (lane 8 p (ShiftLeft 16 3 idx)).msb = decide (16 ≤ k) := by
  have e := byte_lane (w := 16) (m := 2) rfl (show p % 2 < 2 by omega) (p / 2) (ShiftLeft 16 3 idx)
  have e' := byte_lane (w := 16) (m := 2) rfl (show p % 2 < 2 by omega) (p / 2) idx
  rw [Nat.div_add_mod] at e e'
  have hb : (lane 8 p idx).getLsbD 4 = decide (16 ≤ k) := by
    rw [BitVec.getLsbD, h, Nat.testBit_eq_decide_div_mod_eq]
    apply decide_eq_decide.2
    omega
  rw [← hb, ← e, ← e', BitVec.msb_eq_getLsbD_last, C62_shiftLeft (⟨by omega, by omega⟩ : InReg 16 (p / 2)) idx 3 (by omega)]
  simp only [BitVec.getLsbD_extractLsb', BitVec.getLsbD_shiftLeft]
  have h1 : 8 * (p % 2) + (8 - 1) < 16 := by omega
  have h2 : ¬ 8 * (p % 2) + (8 - 1) < 3 := by omega
  have h3 : 8 * (p % 2) + (8 - 1) - 3 = 8 * (p % 2) + 4 := by omega
  simp only [h1, h2, h3, decide_true, decide_false, Bool.not_false, Bool.true_and, Nat.reduceSub, Nat.reduceLT]

theorem two8_byte (t : Tgt) (a b idx : M128) {p k : Nat} (hp : p < 16) (h : (lane 8 p idx).toNat = k) (hk : k < 32) :
    lane 8 p (TwoTablesLookupLanes8 t a b idx) = if k < 16 then lane 8 k a else lane 8 (k - 16) b := by
  have hr : InReg 8 p := ⟨by omega, by omega⟩
  have ha := look_mod t hp a idx h (by omega)
  have hb := look_mod t hp b idx h (by omega)
  unfold TwoTablesLookupLanes8
  dsimp only
  by_cases c : t.val ≤ HWY_SSE4
  · rw [if_pos c]
    unfold IfThenElse
    rw [if_neg (by revert c; cases t <;> decide), lane_blendv hr, shl3_msb idx hp h hk, ha, hb]
    by_cases c : k < 16
    · rw [if_neg (by simpa using c), if_pos c, Nat.mod_eq_of_lt c]
    · rw [if_pos (by simpa using c), if_neg c]; congr 1; omega
  · rw [if_neg c]
    have hg : lane 8 p (Gt t true 8 idx (set 8 15#8)) = maskLane 8 (16 ≤ k) := by
      rw [C62_gt t true hr, lane_set hr]
      apply maskLane_congr
      unfold val; simp only [if_true]
      have : (lane 8 p idx).toInt = (k : Nat) := by
        rw [BitVec.toInt_eq_toNat_cond, h]; split <;> omega
      rw [this, show (15#8).toInt = 15 from rfl]; omega
    rw [lane_IfThenElse t hr _ _ _ _ hg, ha, hb]
    by_cases c : k < 16
    · rw [if_neg (by omega), if_pos c, Nat.mod_eq_of_lt c]
    · rw [if_pos (by omega), if_neg c]; congr 1; omega

theorem two8_lane (t : Tgt) {w m : Nat} (hw : w = 8 * m) (hm : m = 1 ∨ m = 2 ∨ m = 4) {i n : Nat} (hi : m * i + m ≤ 16)
    (hn : n < 2 * (16 / m)) (a b idx : M128) (h : ByteIdx m i n idx) :
    lane w i (TwoTablesLookupLanes8 t a b idx) = if n < 16 / m then lane w n a else lane w (n - 16 / m) b := by
  have hmn : m * n + m ≤ 32 := by rcases hm with rfl | rfl | rfl <;> omega
  apply lane_bytes hw
  intro j hj
  rw [byte_lane hw hj, two8_byte t a b idx (by omega) (h j hj) (by omega)]
  by_cases c : n < 16 / m
  · rw [if_pos (by rcases hm with rfl | rfl | rfl <;> omega), if_pos c, byte_lane hw hj]
  · rw [if_neg (by rcases hm with rfl | rfl | rfl <;> omega), if_neg c, byte_lane hw hj]
    congr 1
    rcases hm with rfl | rfl | rfl <;> simp only [Nat.reduceDiv] at * <;> omega

theorem gt_const (t : Tgt) {w i n c : Nat} (hr : InReg w i) (idx : M128) (h : (lane w i idx).toNat = n) (hn : n < 2 ^ (w - 1))
    (hc : c < 2 ^ (w - 1)) : lane w i (Gt t true w idx (set w (BitVec.ofNat w c))) = maskLane w (c < n) := by
  rw [C62_gt t true hr, lane_set hr]
  apply maskLane_congr
  have hw := hr.pos
  have hp : (2 : Nat) ^ w = 2 * 2 ^ (w - 1) := by
    rw [← Nat.pow_succ']; congr 1; omega
  unfold val; simp only [if_true]
  rw [BitVec.toInt_eq_toNat_cond, BitVec.toInt_eq_toNat_cond, h, BitVec.toNat_ofNat, Nat.mod_eq_of_lt (by omega),
    if_pos (by omega), if_pos (by omega)]
  omega

theorem lane_selF {w i : Nat} (hr : InReg w i) {t : Tgt} (ht : t.val ≤ HWY_SSE4) (m yes no : M128) {p : Prop} [Decidable p]
    (hm : (lane w i m).msb = decide p) :
    lane w i (IfThenElseF t w m yes no) = if p then lane w i yes else lane w i no := by
  unfold IfThenElseF
  rw [if_neg (by revert ht; cases t <;> decide), lane_blendv hr, hm]
  simp only [decide_eq_true_eq]

theorem shl_msb (w s : Nat) {i n : Nat} (hr : InReg w i) (idx : M128) (hs : s < w) (h : (lane w i idx).toNat = n) :
    (lane w i (ShiftLeft w s idx)).msb = decide (n / 2 ^ (w - 1 - s) % 2 = 1) := by
  have hw := hr.pos
  rw [C62_shiftLeft hr idx s hs, BitVec.msb_eq_getLsbD_last, BitVec.getLsbD_shiftLeft, BitVec.getLsbD, h,
    Nat.testBit_eq_decide_div_mod_eq]
  have h1 : w - 1 < w := by omega
  have h2 : ¬ w - 1 < s := by omega
  simp only [h1, h2, decide_true, decide_false, Bool.not_false, Bool.true_and]

theorem full_eq (t : Tgt) {w : Nat} (hs : Shape w 16) (v vec : M128) {i n : Nat} (hi : i < 128 / w) (h : (lane w i vec).toNat = n)
    (hn : n < 128 / w) : lane w i (TableLookupLanes t w 16 v (IndicesFromVec t w vec)) = lane w n v := by
  have hL : Lanes w 16 = 128 / w := by
    have : w = 8 ∨ w = 16 ∨ w = 32 ∨ w = 64 := by unfold Shape at hs; omega
    rcases this with rfl | rfl | rfl | rfl <;> rfl
  rw [C66_tableLookupLanes t hs v vec (by omega) (by omega), h]

/-- Lane lookup where the table index wraps. -/
theorem look32_mod (t : Tgt) (ht : t = .avx2 ∨ t = .sse2) (v idx : M128) {i n : Nat} (hi : i < 4) (h : (lane 32 i idx).toNat = n) :
    lane 32 i (TableLookupLanes t 32 16 v idx) = lane 32 (n % 4) v := by
  unfold TableLookupLanes
  rw [if_neg (by decide), if_neg (by decide), if_neg (by decide), if_pos rfl]
  rcases ht with rfl | rfl
  · rw [if_pos (by decide)]; unfold permutevarPs
    rw [lane_mk (by omega) (by omega), h]
  · rw [if_neg (by decide), if_pos (by decide), lane_mk (by omega) (by omega), h]

theorem look16_mod (v idx : M128) {i n : Nat} (hi : i < 8) (h : (lane 16 i idx).toNat = n) :
    lane 16 i (TableLookupLanes .sse2 16 16 v idx) = lane 16 (n % 8) v := by
  unfold TableLookupLanes
  rw [if_neg (by decide), if_neg (by decide), if_pos rfl, if_pos (by decide), lane_mk (by omega) (by omega), h]

theorem idx_id {t : Tgt} {w : Nat} (vec : M128)
    (h : (w = 16 ∧ t = .sse2) ∨ (w = 32 ∧ (t = .avx2 ∨ t = .sse2)) ∨ w = 64 ∨ w = 8) : IndicesFromVec t w vec = vec := by
  unfold IndicesFromVec
  rcases h with ⟨rfl, rfl⟩ | ⟨rfl, (rfl | rfl)⟩ | rfl | rfl
  · rw [if_pos rfl, if_pos (by decide)]
  · rw [if_neg (by decide), if_pos rfl, if_pos (by decide)]
  · rw [if_neg (by decide), if_pos rfl, if_pos (by decide)]
  · rw [if_neg (by decide), if_neg (by decide)]
  · rw [if_neg (by decide), if_neg (by decide)]

theorem two_mod {w L : Nat} {n : Nat} (hn : n < 2 * L) (a b : M128) :
    (if L - 1 < n then lane w (n % L) b else lane w (n % L) a) = if n < L then lane w n a else lane w (n - L) b := by
  have h0 : 0 < L := by omega
  by_cases c : n < L
  · rw [if_neg (by omega), if_pos c, Nat.mod_eq_of_lt c]
  · rw [if_pos (by omega), if_neg c, Nat.mod_eq_sub_mod (by omega), Nat.mod_eq_of_lt (by omega)]

theorem two16 (t : Tgt) (a b vec : M128) {i n : Nat} (hi : i < 8) (h : (lane 16 i vec).toNat = n) (hn : n < 16) :
    lane 16 i (TwoTablesLookupLanes16 t a b (IndicesFromVec t 16 vec)) = if n < 8 then lane 16 n a else lane 16 (n - 8) b := by
  have hr : InReg 16 i := ⟨by omega, by omega⟩
  unfold TwoTablesLookupLanes16
  by_cases c : t = .sse2
  · subst c
    rw [if_pos (by decide), idx_id vec (Or.inl ⟨rfl, rfl⟩)]
    dsimp only
    rw [lane_IfThenElse _ hr _ _ _ (7 < n) (gt_const _ hr vec h (by omega) (by decide)), look16_mod a vec hi h, look16_mod b vec hi h]
    exact two_mod (L := 8) (by omega) a b
  · rw [if_neg (by cases t <;> first | exact absurd rfl c | decide)]
    exact two8_lane t (w := 16) (m := 2) rfl (by omega) (by omega) (by omega) a b _ (idx16 t c vec hi h hn)

theorem two32 (t : Tgt) (a b vec : M128) {i n : Nat} (hi : i < 4) (h : (lane 32 i vec).toNat = n) (hn : n < 8) :
    lane 32 i (TwoTablesLookupLanes32 t a b (IndicesFromVec t 32 vec)) = if n < 4 then lane 32 n a else lane 32 (n - 4) b := by
  have hr : InReg 32 i := ⟨by omega, by omega⟩
  unfold TwoTablesLookupLanes32
  have h8 : ∀ t, t = Tgt.sse4 ∨ t = .ssse3 → lane 32 i (TwoTablesLookupLanes8 t a b (IndicesFromVec t 32 vec))
      = if n < 4 then lane 32 n a else lane 32 (n - 4) b := fun t ht =>
    two8_lane t (w := 32) (m := 4) rfl (by omega) (by omega) (by omega) a b _ (idx32 t ht vec hi h hn)
  cases t
  · rw [if_pos (by decide), idx_id vec (Or.inr (Or.inl ⟨rfl, Or.inl rfl⟩))]
    dsimp only
    rw [if_pos (by decide), lane_selF hr (by decide) _ _ _ (p := 3 < n) (by
      rw [shl_msb 32 29 hr vec (by decide) h]; apply decide_eq_decide.2; simp only [Nat.reduceSub, Nat.reducePow]; omega),
      look32_mod _ (Or.inl rfl) a vec hi h, look32_mod _ (Or.inl rfl) b vec hi h]
    exact two_mod (L := 4) (by omega) a b
  · rw [if_neg (by decide)]; exact h8 _ (Or.inl rfl)
  · rw [if_neg (by decide)]; exact h8 _ (Or.inr rfl)
  · rw [if_pos (by decide), idx_id vec (Or.inr (Or.inl ⟨rfl, Or.inr rfl⟩))]
    dsimp only
    rw [if_neg (by decide), lane_IfThenElse _ hr _ _ _ (3 < n) (gt_const _ hr vec h (by omega) (by decide)),
      look32_mod _ (Or.inr rfl) a vec hi h, look32_mod _ (Or.inr rfl) b vec hi h]
    exact two_mod (L := 4) (by omega) a b

theorem two64 (t : Tgt) (a b vec : M128) {i n : Nat} (hi : i < 2) (h : (lane 64 i vec).toNat = n) (hn : n < 4) :
    lane 64 i (TwoTablesLookupLanes64 t a b (IndicesFromVec t 64 vec)) = if n < 2 then lane 64 n a else lane 64 (n - 2) b := by
  have hr : InReg 64 i := ⟨by omega, by omega⟩
  rw [idx_id vec (by omega)]
  have hm : (lane 64 i (And vec (set 64 1#64))).toNat = n % 2 := by
    rw [lane_And, lane_set hr, BitVec.toNat_and, h, show (1#64).toNat = 1 from rfl, Nat.and_one_is_mod]
  have hl : ∀ v, lane 64 i (TableLookupLanes t 64 16 v (And vec (set 64 1#64))) = lane 64 (n % 2) v := by
    intro v
    have := full_eq t (w := 64) (by unfold Shape; omega) v (And vec (set 64 1#64)) (i := i) (by omega) hm (by omega)
    rwa [idx_id _ (by omega)] at this
  unfold TwoTablesLookupLanes64
  dsimp only
  split
  · rename_i c
    rw [lane_selF hr c _ _ _ (p := 1 < n) (by
      rw [shl_msb 64 62 hr vec (by decide) h]; apply decide_eq_decide.2; simp only [Nat.reduceSub, Nat.reducePow]; omega), hl, hl]
    exact two_mod (L := 2) (by omega) a b
  · have hlo : (lane 32 (2 * i) vec).toNat = n := by
      have := toNat_halves i vec
      rw [h] at this
      have := (lane 32 (2 * i) vec).isLt
      omega
    have hd : ∀ k, k < 2 → lane 32 (2 * i + k) (Gt t true 32 (DupEven t 32 16 vec) (set 32 1#32)) = maskLane 32 (1 < n) := by
      intro k hk
      refine gt_const t ⟨by omega, by omega⟩ _ ?_ (by omega) (by decide)
      rw [C63_dupEven t (by unfold Shape; omega) vec (by unfold Lanes; omega), show (2 * i + k) / 2 * 2 = 2 * i by omega]
      exact hlo
    have hmask : lane 64 i (Gt t true 32 (DupEven t 32 16 vec) (set 32 1#32)) = maskLane 64 (1 < n) := by
      refine lane2_ext (w := 32) ?_ ?_
      · rw [← Nat.add_zero (2 * i), hd 0 (by omega)]; unfold maskLane; split <;> decide
      · rw [hd 1 (by omega)]; unfold maskLane; split <;> decide
    rw [lane_IfThenElse t hr _ _ _ _ hmask, hl, hl]
    exact two_mod (L := 2) (by omega) a b

/-- `TwoTablesLookupLanes` looks up lane `vec[i]` of the concatenation of `a` (lower indices) and `b`. -/
theorem C66_twoTablesLookupLanes (t : Tgt) {w sz : Nat} (hs : Shape w sz) (a b vec : M128) {i : Nat} (hi : i < Lanes w sz)
    (h : (lane w i vec).toNat < 2 * Lanes w sz) :
    lane w i (TwoTablesLookupLanes t w sz a b (IndicesFromVec t w vec))
      = if (lane w i vec).toNat < Lanes w sz then lane w (lane w i vec).toNat a
        else lane w ((lane w i vec).toNat - Lanes w sz) b := by
  unfold TwoTablesLookupLanes LowerHalf
  by_cases c : sz ≤ 8
  · rw [if_pos c]
    have hs2 : Shape w (2 * sz) := by unfold Shape at hs ⊢; omega
    have hL : Lanes w (2 * sz) = 2 * Lanes w sz := by shapes hs <;> decide
    rw [C66_tableLookupLanes t hs2 _ vec (by omega) (by omega)]
    generalize (lane w i vec).toNat = n at *
    have := C63_combine (w := w) (sz := 2 * sz) hs2 (by unfold Lanes at *; omega) b a (i := n) (by omega)
    rw [this, hL, Nat.mul_div_cancel_left _ (by omega)]
  · have e : sz = 16 := by unfold Shape at hs; omega
    subst e
    rw [if_neg c]
    generalize hn : (lane w i vec).toNat = n at *
    have hw : w = 8 ∨ w = 16 ∨ w = 32 ∨ w = 64 := by unfold Shape at hs; omega
    clear hs
    rcases hw with rfl | rfl | rfl | rfl
    · rw [if_pos rfl]
      exact two8_lane t (w := 8) (m := 1) rfl (by omega) (by unfold Lanes at hi; omega) (by unfold Lanes at h; omega) a b _
        (by intro j hj; rw [show 1 * i + j = i by omega, show 1 * n + j = n by omega, idx_id vec (by omega)]; exact hn)
    · rw [if_neg (by decide), if_pos rfl]
      exact two16 t a b vec (by unfold Lanes at hi; omega) hn (by unfold Lanes at h; omega)
    · rw [if_neg (by decide), if_neg (by decide), if_pos rfl]
      exact two32 t a b vec (by unfold Lanes at hi; omega) hn (by unfold Lanes at h; omega)
    · rw [if_neg (by decide), if_neg (by decide), if_neg (by decide)]
      exact two64 t a b vec (by unfold Lanes at hi; omega) hn (by unfold Lanes at h; omega)

end Hwy.X86
