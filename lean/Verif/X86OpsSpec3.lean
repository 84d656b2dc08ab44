import Verif.X86OpsSpec2

/-! Absolute values, saturating arithmetic, averages, byte sums, table lookups, FirstN. -/

namespace Hwy.X86

theorem msb_toInt {w : Nat} (x : BitVec w) : x.msb = decide (x.toInt < 0) := BitVec.msb_eq_toInt

theorem lane_IfNegativeThenElse (t : Tgt) {w i : Nat} (h : InReg w i) (v yes no : M128) :
    lane w i (IfNegativeThenElse t w v yes no) = if (lane w i v).toInt < 0 then lane w i yes else lane w i no := by
  have hb : ∀ {w i : Nat} (h : InReg w i), HWY_SSSE3 ≤ t.val ∨ ¬ HWY_SSSE3 ≤ t.val →
      lane w i (IfThenElse t (BroadcastSignBit t w v) yes no)
        = if (lane w i v).toInt < 0 then lane w i yes else lane w i no :=
    fun h _ => lane_IfThenElse t h _ _ _ _ (lane_BroadcastSignBit t h v)
  have hs : t.val ≤ HWY_SSE4 → ¬ HWY_SSSE3 ≤ t.val := by
    cases t <;> simp [Tgt.val, HWY_SSE4, HWY_SSSE3, HWY_AVX2, HWY_SSE2]
  unfold IfNegativeThenElse
  split
  · rename_i e; subst e
    simp only []
    split
    · rename_i hle
      unfold IfThenElse
      rw [if_neg (hs hle), lane_blendv h, msb_toInt]; simp only [decide_eq_true_eq]
    · exact hb h (Classical.em _)
  split
  · rename_i e; subst e; exact hb h (Classical.em _)
  split
  · rename_i hle
    unfold IfThenElseF
    rw [if_neg (hs hle), lane_blendv h, msb_toInt]; simp only [decide_eq_true_eq]
  · exact hb h (Classical.em _)

theorem C62_ifNegativeThenElse (t : Tgt) {w i : Nat} (h : InReg w i) (v yes no : M128) :
    lane w i (IfNegativeThenElse t w v yes no)
      = if val true (lane w i v) < 0 then lane w i yes else lane w i no :=
  lane_IfNegativeThenElse t h v yes no

theorem toNat_lt_iff {w : Nat} (x : BitVec w) : x.toInt < 0 ↔ 2 ^ w ≤ 2 * x.toNat := by
  have := x.isLt
  rw [BitVec.toInt_eq_toNat_cond]; split <;> omega

theorem lane_Abs (t : Tgt) {w i : Nat} (h : InReg w i) (v : M128) :
    lane w i (Abs t w v) = if (lane w i v).toInt < 0 then -(lane w i v) else lane w i v := by
  have hn : lane w i (absI w v) = if (lane w i v).toInt < 0 then -(lane w i v) else lane w i v :=
    lane_map1 h _ v
  have hz : ∀ x : BitVec w, (0#w) - x = -x := fun x => BitVec.zero_sub x
  unfold Abs
  split
  · rename_i e; subst e
    split
    · rw [lane_MinU t h, lane_Sub h, lane_zero', hz]
      have hx := (lane 8 i v).isLt
      simp only [toNat_lt_iff]
      have hneg := BitVec.toNat_neg (lane 8 i v)
      split <;> split <;> first | rfl | skip
      · apply BitVec.eq_of_toNat_eq; omega
      · apply BitVec.eq_of_toNat_eq; omega
    · exact hn
  split
  · rename_i e; subst e
    split
    · rw [lane_MaxI t h, lane_Sub h, lane_zero', hz]
      have hx := (lane 16 i v).isLt
      have hneg := BitVec.toNat_neg (lane 16 i v)
      have h1 := BitVec.toInt_eq_toNat_cond (lane 16 i v)
      have h2 := BitVec.toInt_eq_toNat_cond (-(lane 16 i v))
      split <;> split <;> first | rfl | skip
      · apply BitVec.eq_of_toNat_eq; split at h1 <;> split at h2 <;> omega
      · apply BitVec.eq_of_toNat_eq; split at h1 <;> split at h2 <;> omega
    · exact hn
  split
  · rename_i e; subst e
    split
    · exact hn
    · rw [lane_IfThenElse t h _ _ _ _ (lane_BroadcastSignBit t h v), lane_Sub h, lane_zero', hz]
  · rw [lane_IfNegativeThenElse t h, lane_Sub h, lane_zero', hz]

/-- `Abs` is the absolute value, except that the minimum maps to itself. -/
theorem C62_abs (t : Tgt) {w i : Nat} (h : InReg w i) (v : M128) :
    val true (lane w i (Abs t w v)) =
      if val true (lane w i v) = -(2 ^ (w - 1)) then -(2 ^ (w - 1))
      else (Int.natAbs (val true (lane w i v)) : Int) := by
  rw [lane_Abs t h]; unfold val; simp only [if_true]
  generalize lane w i v = x
  have hx := x.isLt
  have hneg := BitVec.toNat_neg x
  have h1 := BitVec.toInt_eq_toNat_cond x
  have h2 := BitVec.toInt_eq_toNat_cond (-x)
  obtain ⟨rfl | rfl | rfl | rfl, _⟩ := h <;> simp only [Nat.reduceSub, Int.reducePow, Nat.reducePow] at * <;>
    (split <;> split <;> split at h1 <;> split at h2 <;> omega)

theorem toInt_clamp {w : Nat} (hw : w = 8 ∨ w = 16) (z : Int) :
    (BitVec.ofInt w (clampI w z)).toInt = clampI w z := by
  unfold clampI
  rcases hw with rfl | rfl
  · rw [BitVec.toInt_ofInt_eq_self (by omega) (by simp only [Nat.reduceSub, Int.reducePow]; omega)
      (by simp only [Nat.reduceSub, Int.reducePow]; omega)]
  · rw [BitVec.toInt_ofInt_eq_self (by omega) (by simp only [Nat.reduceSub, Int.reducePow]; omega)
      (by simp only [Nat.reduceSub, Int.reducePow]; omega)]


theorem two_pow_half {w : Nat} (hw : 0 < w) : ∃ M : Nat, 0 < M ∧ 2 ^ w = 2 * M ∧ 2 ^ (w - 1) = M :=
  ⟨2 ^ (w - 1), Nat.two_pow_pos _, by rw [← Nat.pow_succ']; congr 1; omega, rfl⟩

/-- `|y|` with the wrapped minimum turned into the maximum by adding the sign mask. -/
theorem satAbs_key {w : Nat} (hw : 0 < w) (y x : BitVec w) (hx : x = if y.toInt < 0 then -y else y) :
    (x + maskLane w (x.toInt < 0)).toInt = min (Int.natAbs y.toInt : Int) (2 ^ (w - 1) - 1) := by
  obtain ⟨M, hM, h2, h1⟩ := two_pow_half hw
  have hc : (2 : Int) ^ (w - 1) = (M : Int) := by rw [← h1]; push_cast; rfl
  rw [hc]
  have hlt := BitVec.toInt_lt (x := y); have hle := BitVec.le_toInt (x := y)
  rw [hc] at hlt hle
  by_cases hy : y.toInt < 0
  · rw [if_pos hy] at hx
    by_cases hm : y = BitVec.intMin w
    · subst hm
      rw [BitVec.neg_intMin] at hx; subst hx
      unfold maskLane; rw [if_pos hy]
      have hmn : (BitVec.intMin w).toNat = M := by
        rw [BitVec.toNat_intMin, h1, h2]; exact Nat.mod_eq_of_lt (by omega)
      have e : (BitVec.intMin w + BitVec.allOnes w).toNat = M - 1 := by
        rw [BitVec.toNat_add, BitVec.toNat_allOnes, hmn, h2,
          show M + (2 * M - 1) = M - 1 + 2 * M by omega, Nat.add_mod_right]
        exact Nat.mod_eq_of_lt (by omega)
      have e2 : (BitVec.intMin w).toInt = (M : Int) - 2 * M := by
        rw [BitVec.toInt_eq_toNat_cond, hmn, h2, if_neg (by omega)]; push_cast; rfl
      rw [BitVec.toInt_eq_toNat_cond, e, h2, if_pos (by omega), e2]; omega
    · have e : x.toInt = -y.toInt := by rw [hx]; exact BitVec.toInt_neg_of_ne_intMin hm
      unfold maskLane; rw [if_neg (by omega), BitVec.add_zero]
      have hne : y.toInt ≠ -(M : Int) := by
        intro hh; apply hm; apply BitVec.eq_of_toInt_eq; rw [hh, BitVec.toInt_intMin, h1, h2, Nat.mod_eq_of_lt (by omega)]
      omega
  · rw [if_neg hy] at hx; subst hx
    unfold maskLane; rw [if_neg hy, BitVec.add_zero]; omega

theorem satSub_key {w : Nat} (hw : w = 8 ∨ w = 16) (x : BitVec w) :
    (BitVec.ofInt w (clampI w ((0#w).toInt - x.toInt))).toInt = min (-x.toInt) (2 ^ (w - 1) - 1) := by
  rw [toInt_clamp hw, BitVec.toInt_zero]
  have h1 := BitVec.toInt_lt (x := x)
  have h2 := BitVec.le_toInt (x := x)
  generalize x.toInt = z at *
  unfold clampI
  rcases hw with rfl | rfl <;> simp only [Nat.reduceSub, Int.reducePow] at * <;> omega

theorem satAbs8 (x y : BitVec 8) (hs : y.toInt = min (-x.toInt) 127) :
    (if x.toNat < y.toNat then x else y).toInt = min (Int.natAbs x.toInt : Int) 127 := by
  have hx := x.isLt
  have hy := y.isLt
  have h1 := BitVec.toInt_eq_toNat_cond x
  have h2 := BitVec.toInt_eq_toNat_cond y
  generalize x.toNat = a at *
  generalize y.toNat = b at *
  split <;> (generalize x.toInt = c at *; generalize y.toInt = d at *; split at h1 <;> split at h2 <;> omega)

theorem satAbs16 (x y : BitVec 16) (hs : y.toInt = min (-x.toInt) 32767) :
    (if x.toInt < y.toInt then y else x).toInt = min (Int.natAbs x.toInt : Int) 32767 := by
  have hx := BitVec.toInt_lt (x := x)
  have hx' : x.toInt < 32768 := hx
  split <;> (generalize x.toInt = c at *; generalize y.toInt = d at *; omega)

theorem satAbs32 (y x : BitVec 32) (hx : x = if y.toInt < 0 then -y else y) :
    (if x.toNat < 2147483647 then x else BitVec.ofNat 32 2147483647).toInt
      = min (Int.natAbs y.toInt : Int) 2147483647 := by
  have hy := y.isLt
  have hneg := BitVec.toNat_neg y
  have h1 := BitVec.toInt_eq_toNat_cond y
  have h2 := BitVec.toInt_eq_toNat_cond x
  have hc : (BitVec.ofNat 32 2147483647).toInt = 2147483647 := by decide
  have hxn : x.toNat = if y.toInt < 0 then (2 ^ 32 - y.toNat) % 2 ^ 32 else y.toNat := by
    rw [hx]; split
    · rw [hneg]
    · rfl
  clear hx hneg
  generalize x.toNat = a at *
  generalize y.toNat = b at *
  generalize y.toInt = c at *
  split
  · generalize x.toInt = d at *
    split at h1 <;> split at hxn <;> split at h2 <;> omega
  · rw [hc]; clear h2
    split at h1 <;> split at hxn <;> omega

/-- `SaturatedAbs` maps the minimum to the maximum. -/
theorem C62_saturatedAbs (t : Tgt) {w i : Nat} (h : InReg w i) (v : M128) :
    val true (lane w i (SaturatedAbs t w v)) =
      min (Int.natAbs (val true (lane w i v)) : Int) (2 ^ (w - 1) - 1) := by
  have hadd : lane w i (Add w (Abs t w v) (BroadcastSignBit t w (Abs t w v)))
      = lane w i (Abs t w v) + maskLane w ((lane w i (Abs t w v)).toInt < 0) := by
    rw [lane_Add h, lane_BroadcastSignBit t h]
  have hsub : (w = 8 ∨ w = 16) → (lane w i (SaturatedSub true w zero v)).toInt
      = min (-(lane w i v).toInt) (2 ^ (w - 1) - 1) := by
    intro hw
    have e : lane w i (subsI w zero v)
        = BitVec.ofInt w (clampI w ((lane w i zero).toInt - (lane w i v).toInt)) := lane_map2 h _ zero v
    rw [show SaturatedSub true w zero v = subsI w zero v from if_pos rfl, e, lane_zero', satSub_key hw]
  unfold SaturatedAbs val
  simp only [if_true]
  split
  · rename_i e; subst e
    rw [lane_MinU t h]
    exact satAbs8 _ _ (hsub (Or.inl rfl))
  split
  · rename_i e; subst e
    rw [lane_MaxI t h]
    exact satAbs16 _ _ (hsub (Or.inr rfl))
  split
  · rename_i e; obtain ⟨rfl, _⟩ := e
    rw [lane_MinU t h, lane_set h]
    exact satAbs32 _ _ (lane_Abs t h v)
  · rw [hadd]; exact satAbs_key h.pos _ _ (lane_Abs t h v)

theorem C62_ifNegativeThenNegOrUndefIfZero (t : Tgt) {w i : Nat} (h : InReg w i) (mask v : M128)
    (hz : val true (lane w i mask) ≠ 0) :
    lane w i (IfNegativeThenNegOrUndefIfZero t w mask v)
      = if val true (lane w i mask) < 0 then -(lane w i v) else lane w i v := by
  unfold val at *; simp only [if_true] at *
  unfold IfNegativeThenNegOrUndefIfZero
  split
  · rename_i e; subst e
    rw [lane_IfNegativeThenElse t h]; unfold Neg
    rw [lane_Sub h, lane_zero', BitVec.zero_sub]
  · have : lane w i (signI w v mask) = if (lane w i mask).toInt < 0 then -(lane w i v)
        else if (lane w i mask).toInt = 0 then 0#w else lane w i v := lane_map2 h _ v mask
    rw [this, if_neg hz]

/-! ### Saturating addition and subtraction, rounding average (8- and 16-bit lanes) -/

/-- Largest and smallest values of the lane type. -/
def hi (signed : Bool) (w : Nat) : Int := if signed then 2 ^ (w - 1) - 1 else 2 ^ w - 1
@[inherit_doc hi] def lo (signed : Bool) (w : Nat) : Int := if signed then -(2 ^ (w - 1)) else 0

theorem C62_saturatedAdd (signed : Bool) {w i : Nat} (h : InReg w i) (hw : w = 8 ∨ w = 16) (a b : M128) :
    val signed (lane w i (SaturatedAdd signed w a b))
      = max (lo signed w) (min (val signed (lane w i a) + val signed (lane w i b)) (hi signed w)) := by
  unfold SaturatedAdd val lo hi
  cases signed
  · simp only [Bool.false_eq_true, if_false]
    have e : lane w i (addsU w a b)
        = BitVec.ofNat w (min ((lane w i a).toNat + (lane w i b).toNat) (2 ^ w - 1)) := lane_map2 h _ a b
    rw [e, BitVec.toNat_ofNat]
    rcases hw with rfl | rfl <;> simp only [Nat.reduceSub, Int.reducePow, Nat.reducePow] <;> omega
  · simp only [if_true]
    have e : lane w i (addsI w a b)
        = BitVec.ofInt w (clampI w ((lane w i a).toInt + (lane w i b).toInt)) := lane_map2 h _ a b
    rw [e, toInt_clamp hw]; rfl

theorem C62_saturatedSub (signed : Bool) {w i : Nat} (h : InReg w i) (hw : w = 8 ∨ w = 16) (a b : M128) :
    val signed (lane w i (SaturatedSub signed w a b))
      = max (lo signed w) (min (val signed (lane w i a) - val signed (lane w i b)) (hi signed w)) := by
  unfold SaturatedSub val lo hi
  cases signed
  · simp only [Bool.false_eq_true, if_false]
    have e : lane w i (subsU w a b)
        = BitVec.ofNat w ((lane w i a).toNat - (lane w i b).toNat) := lane_map2 h _ a b
    rw [e, BitVec.toNat_ofNat]
    have := (lane w i a).isLt
    have := (lane w i b).isLt
    rcases hw with rfl | rfl <;> simp only [Nat.reduceSub, Int.reducePow, Nat.reducePow] at * <;> omega
  · simp only [if_true]
    have e : lane w i (subsI w a b)
        = BitVec.ofInt w (clampI w ((lane w i a).toInt - (lane w i b).toInt)) := lane_map2 h _ a b
    rw [e, toInt_clamp hw]; rfl

theorem xor_msb_toNat {w : Nat} (hw : w = 8 ∨ w = 16 ∨ w = 32 ∨ w = 64) (x : BitVec w) :
    ((x ^^^ BitVec.intMin w).toNat : Int) = x.toInt + 2 ^ (w - 1) := by
  have h1 := toInt_xor_msb hw (x ^^^ BitVec.intMin w) _ rfl
  have h2 : x ^^^ BitVec.intMin w ^^^ BitVec.intMin w = x := by
    rw [BitVec.xor_assoc, BitVec.xor_self, BitVec.xor_zero]
  rw [h2] at h1; omega

theorem C62_averageRound (signed : Bool) {w i : Nat} (h : InReg w i) (hw : w = 8 ∨ w = 16) (a b : M128) :
    val signed (lane w i (AverageRound signed w a b))
      = (val signed (lane w i a) + val signed (lane w i b) + 1) / 2 := by
  have e : ∀ a b, lane w i (avgU w a b)
        = BitVec.ofNat w (((lane w i a).toNat + (lane w i b).toNat + 1) / 2) := lane_map2 h _
  have := (lane w i a).isLt
  have := (lane w i b).isLt
  unfold AverageRound val
  cases signed
  · simp only [Bool.false_eq_true, if_false]
    rw [e, BitVec.toNat_ofNat]
    rcases hw with rfl | rfl <;> simp only [Nat.reduceSub, Int.reducePow, Nat.reducePow] at * <;> omega
  · simp only [if_true]
    unfold SignBit
    rw [lane_Xor, lane_set h, toInt_xor_msb h.1 _ _ rfl, e, lane_Xor, lane_Xor, lane_set h, BitVec.toNat_ofNat]
    have hA := xor_msb_toNat h.1 (lane w i a)
    have hB := xor_msb_toNat h.1 (lane w i b)
    have h1 := BitVec.toInt_lt (x := lane w i a)
    have h2 := BitVec.le_toInt (x := lane w i a)
    have h3 := BitVec.toInt_lt (x := lane w i b)
    have h4 := BitVec.le_toInt (x := lane w i b)
    generalize (lane w i a ^^^ BitVec.intMin w).toNat = A at *
    generalize (lane w i b ^^^ BitVec.intMin w).toNat = B at *
    rcases hw with rfl | rfl <;> simp only [Nat.reduceSub, Int.reducePow, Nat.reducePow] at * <;> omega

end Hwy.X86
