import Verif.X86MulSpec
import Mathlib.Tactic.Linarith

/-! # C64, continued: `operator*`, 64-bit products, pairwise sums and fixed point -/

namespace Hwy.X86

theorem lane_unpacklo {w i : Nat} (h : InReg w i) (a b : M128) :
    lane w i (unpacklo w a b) = if i % 2 = 0 then lane w (i / 2) a else lane w (i / 2) b := by
  unfold unpacklo; rw [lane_mk h.pos h.le]
theorem lane_unpackhi {w i : Nat} (h : InReg w i) (a b : M128) :
    lane w i (unpackhi w a b) = if i % 2 = 0 then lane w (64 / w + i / 2) a else lane w (64 / w + i / 2) b := by
  unfold unpackhi; rw [lane_mk h.pos h.le]

theorem mul32_emu (a b : M128) {i : Nat} (h : i < 4) :
    lane 32 i (unpacklo 32 (shuffle32 (MulEvenU32 a b) (MM_SHUFFLE 2 0 2 0))
      (shuffle32 (MulEvenU32 (shuffle32 a (MM_SHUFFLE 3 3 1 1)) (shuffle32 b (MM_SHUFFLE 3 3 1 1))) (MM_SHUFFLE 2 0 2 0)))
      = BitVec.ofInt 32 (val false (lane 32 i a) * val false (lane 32 i b)) := by
  have hr : InReg 32 i := ⟨by omega, by omega⟩
  have hp : ∀ (x y : M128) (k : Nat), k < 2 → lane 32 (2 * k) (MulEvenU32 x y)
      = BitVec.ofInt 32 (val false (lane 32 (2 * k) x) * val false (lane 32 (2 * k) y)) := fun x y k hk =>
    lower_of (w := 32) (lane_mulEpu32 hk x y)
  have hsh : ∀ (v : M128) (k : Nat), k < 2 → lane 32 k (shuffle32 v (MM_SHUFFLE 2 0 2 0)) = lane 32 (2 * k) v := by
    intro v k hk
    rw [lane_shuffle32 (by omega)]
    rcases (by omega : k = 0 ∨ k = 1) with rfl | rfl <;> rfl
  have hsh2 : ∀ (v : M128) (k : Nat), k < 2 → lane 32 (2 * k) (shuffle32 v (MM_SHUFFLE 3 3 1 1)) = lane 32 (2 * k + 1) v := by
    intro v k hk
    rw [lane_shuffle32 (by omega)]
    rcases (by omega : k = 0 ∨ k = 1) with rfl | rfl <;> rfl
  rw [lane_unpacklo hr]
  split
  · rw [hsh _ _ (by omega), hp _ _ _ (by omega), show 2 * (i / 2) = i by omega]
  · rw [hsh _ _ (by omega), hp _ _ _ (by omega), hsh2 _ _ (by omega), hsh2 _ _ (by omega), show 2 * (i / 2) + 1 = i by omega]

theorem lane_Mul32 (t : Tgt) (a b : M128) {i : Nat} (h : i < 4) :
    lane 32 i (Mul32 t a b) = lane 32 i a * lane 32 i b := by
  have hr : InReg 32 i := ⟨by omega, by omega⟩
  rw [← ofInt_mul_val false]
  unfold Mul32
  split
  · exact mul32_emu a b h
  · exact lane_mullo false hr a b

theorem lane_Add32_halves {i : Nat} (h : i < 4) (a b : M128) :
    lane 32 i (Add 32 a b) = lane 32 i a + lane 32 i b := lane_Add ⟨by omega, by omega⟩ a b

theorem shl32_lo {i : Nat} (h : i < 2) (v : M128) : lane 32 (2 * i) (ShiftLeft 64 32 v) = 0#32 := by
  rw [lo32, C62_shiftLeft ⟨by omega, by omega⟩ _ 32 (by omega)]
  apply lane_ext; intro k hk
  simp only [BitVec.getLsbD_extractLsb', BitVec.getLsbD_shiftLeft, hk, Nat.zero_add, decide_true, Bool.not_true,
    Bool.and_false, Bool.false_and, BitVec.getLsbD_zero]
theorem shl32_hi {i : Nat} (h : i < 2) (v : M128) : lane 32 (2 * i + 1) (ShiftLeft 64 32 v) = lane 32 (2 * i) v := by
  rw [hi32, C62_shiftLeft ⟨by omega, by omega⟩ _ 32 (by omega), lo32]
  exact shl_hi 32 _
theorem shr32_lo {i : Nat} (h : i < 2) (v : M128) : lane 32 (2 * i) (ShiftRightU 64 32 v) = lane 32 (2 * i + 1) v := by
  rw [lo32, C62_shiftRight_unsigned ⟨by omega, by omega⟩ _ 32 (by omega), hi32]
  exact shr_lo 32 _

theorem even_lo {i : Nat} (h : i < 2) (a b : M128) : lane 32 (2 * i) (MulEvenU32 a b)
      = BitVec.ofInt 32 (val false (lane 32 (2 * i) a) * val false (lane 32 (2 * i) b)) :=
  lower_of (w := 32) (lane_mulEpu32 h a b)
theorem even_hi {i : Nat} (h : i < 2) (a b : M128) : lane 32 (2 * i + 1) (MulEvenU32 a b)
      = BitVec.ofInt 32 (val false (lane 32 (2 * i) a) * val false (lane 32 (2 * i) b) / 2 ^ 32) :=
  upper_of (w := 32) (lane_mulEpu32 h a b)

/-- The value of a 64-bit lane from its halves. -/
theorem toNat_halves (i : Nat) (r : M128) :
    (lane 64 i r).toNat = (lane 32 (2 * i) r).toNat + 2 ^ 32 * (lane 32 (2 * i + 1) r).toNat := by
  rw [lo32, hi32, BitVec.extractLsb'_toNat, BitVec.extractLsb'_toNat, Nat.shiftRight_zero, Nat.shiftRight_eq_div_pow]
  have := (lane 64 i r).isLt
  omega

theorem val_halves (i : Nat) (r : M128) : val false (lane 64 i r)
    = val false (lane 32 (2 * i) r) + 2 ^ 32 * val false (lane 32 (2 * i + 1) r) := by
  unfold val; simp only [Bool.false_eq_true, if_false]; rw [toNat_halves]; push_cast; rfl

theorem mul64_emu (x y : M128) {i : Nat} (h : i < 2) :
    lane 64 i (Add 32 (MulEvenU32 x y)
        (ShiftLeft 64 32 (Add 32 (MulEvenU32 x (ShiftRightU 64 32 y)) (MulEvenU32 (ShiftRightU 64 32 x) y))))
      = BitVec.ofInt 64 (val false (lane 64 i x) * val false (lane 64 i y)) := by
  rw [val_halves, val_halves]
  apply lane2_ext (w := 32)
  · rw [lane_Add32_halves (by omega), shl32_lo h, even_lo h, BitVec.add_zero]
    refine Eq.trans ?_ (half0 32 _).symm
    generalize val false (lane 32 (2 * i) x) = xl
    generalize val false (lane 32 (2 * i + 1) x) = xh
    generalize val false (lane 32 (2 * i) y) = yl
    generalize val false (lane 32 (2 * i + 1) y) = yh
    apply ofInt_shift (-(xl * yh + xh * yl + 2 ^ 32 * (xh * yh))); ring
  · rw [lane_Add32_halves (by omega), shl32_hi h, lane_Add32_halves (by omega), even_hi h, even_lo h, even_lo h,
      shr32_lo h, shr32_lo h, ← BitVec.ofInt_add, ← BitVec.ofInt_add]
    refine Eq.trans ?_ (half1 32 _).symm
    generalize val false (lane 32 (2 * i) x) = xl
    generalize val false (lane 32 (2 * i + 1) x) = xh
    generalize val false (lane 32 (2 * i) y) = yl
    generalize val false (lane 32 (2 * i + 1) y) = yh
    have e : (xl + 2 ^ 32 * xh) * (yl + 2 ^ 32 * yh) = xl * yl + 2 ^ 32 * (xl * yh + xh * yl + 2 ^ 32 * (xh * yh)) := by ring
    rw [e, Int.add_mul_ediv_left _ _ (by decide)]
    apply ofInt_shift (-(xh * yh)); ring

/-- `a * b` of 16-, 32- and 64-bit lanes is the product modulo `2^w`, for signed and unsigned lanes. -/
theorem C64_mul (t : Tgt) (signed : Bool) {w sz : Nat} (hw : w ≠ 8) (hs : Shape w sz) (a b : M128) {i : Nat}
    (hi : i < Lanes w sz) :
    lane w i (Mul t w sz a b) = BitVec.ofInt w (val signed (lane w i a) * val signed (lane w i b)) := by
  rw [ofInt_mul_val]
  unfold Mul
  rcases hs with ⟨rfl, _⟩ | ⟨rfl, h⟩ | ⟨rfl, h⟩ | ⟨rfl, h⟩
  · exact absurd rfl hw
  · have : i < 8 := by rcases h with rfl | rfl | rfl | rfl <;> (unfold Lanes at hi; omega)
    rw [if_pos rfl, ← ofInt_mul_val signed]; exact lane_Mul16 signed this a b
  · have : i < 4 := by rcases h with rfl | rfl | rfl <;> (unfold Lanes at hi; omega)
    rw [if_neg (by omega), if_pos rfl]; exact lane_Mul32 t a b this
  · rw [if_neg (by omega), if_neg (by omega)]
    unfold Mul64
    rcases h with rfl | rfl
    · have : i = 0 := by unfold Lanes at hi; omega
      subst this
      rw [if_pos rfl, lane_set ⟨by omega, by omega⟩]
    · have : i < 2 := by unfold Lanes at hi; omega
      rw [if_neg (by omega), ← ofInt_mul_val false]; exact mul64_emu a b this

/-! ## 64-bit lanes -/

/-- Knuth's double-word product. -/
theorem knuth (aL aH bL bH : Nat) (h1 : aL < 2 ^ 32) (h2 : aH < 2 ^ 32) (h3 : bL < 2 ^ 32) (h4 : bH < 2 ^ 32) :
    aH * bL + aL * bL / 2 ^ 32 < 2 ^ 64 ∧
    aL * bH + (aH * bL + aL * bL / 2 ^ 32) % 2 ^ 32 < 2 ^ 64 ∧
    ((aL * bH + (aH * bL + aL * bL / 2 ^ 32) % 2 ^ 32) * 2 ^ 32 % 2 ^ 64 + aL * bL % 2 ^ 32)
      + 2 ^ 64 * (aH * bH + (aH * bL + aL * bL / 2 ^ 32) / 2 ^ 32
        + (aL * bH + (aH * bL + aL * bL / 2 ^ 32) % 2 ^ 32) / 2 ^ 32)
      = (aL + 2 ^ 32 * aH) * (bL + 2 ^ 32 * bH) := by
  have e : (aL + 2 ^ 32 * aH) * (bL + 2 ^ 32 * bH) = aL * bL + 2 ^ 32 * (aL * bH) + 2 ^ 32 * (aH * bL) + 2 ^ 64 * (aH * bH) := by
    ring
  have b1 : aL * bL ≤ (2 ^ 32 - 1) * (2 ^ 32 - 1) := Nat.mul_le_mul (by omega) (by omega)
  have b2 : aH * bL ≤ (2 ^ 32 - 1) * (2 ^ 32 - 1) := Nat.mul_le_mul (by omega) (by omega)
  have b3 : aL * bH ≤ (2 ^ 32 - 1) * (2 ^ 32 - 1) := Nat.mul_le_mul (by omega) (by omega)
  rw [e]
  generalize aL * bL = p at *
  generalize aH * bL = q at *
  generalize aL * bH = r at *
  generalize aH * bH = s at *
  refine ⟨by omega, by omega, by omega⟩

theorem toNat_even {i : Nat} (h : i < 2) (a b : M128) :
    (lane 64 i (MulEvenU32 a b)).toNat = (lane 32 (2 * i) a).toNat * (lane 32 (2 * i) b).toNat := by
  have e : lane 64 i (MulEvenU32 a b) = BitVec.ofNat 64 ((lane 32 (2 * i) a).toNat * (lane 32 (2 * i) b).toNat) := by
    unfold MulEvenU32 mulEpu32; rw [lane_mk (by omega) (by omega)]
  rw [e, BitVec.toNat_ofNat, Nat.mod_eq_of_lt]
  have h1 := (lane 32 (2 * i) a).isLt
  have h2 := (lane 32 (2 * i) b).isLt
  calc _ ≤ (2 ^ 32 - 1) * (2 ^ 32 - 1) := Nat.mul_le_mul (by omega) (by omega)
    _ < _ := by decide

theorem toNat_and32 (x : BitVec 64) : (x &&& 0xFFFFFFFF#64).toNat = x.toNat % 2 ^ 32 := by
  rw [BitVec.toNat_and]
  exact Nat.and_two_pow_sub_one_eq_mod x.toNat 32

theorem toNat_shr32 (x : BitVec 64) : (x >>> 32).toNat = x.toNat / 2 ^ 32 := by
  rw [BitVec.toNat_ushiftRight, Nat.shiftRight_eq_div_pow]

theorem lane_Shuffle2301 {i : Nat} (h : i < 2) (v : M128) : lane 32 (2 * i) (Shuffle2301 v) = lane 32 (2 * i + 1) v := by
  rw [C63_shuffle2301 v (by omega)]; congr 1; omega

theorem mul128U {i : Nat} (h : i < 2) (a b : M128) :
    (lane 64 i (SSE2Mul128U a b).1).toNat + 2 ^ 64 * (lane 64 i (SSE2Mul128U a b).2).toNat
      = (lane 64 i a).toNat * (lane 64 i b).toNat := by
  have hr : InReg 64 i := ⟨by omega, by omega⟩
  unfold SSE2Mul128U
  simp only []
  obtain ⟨k1, k2, k3⟩ := knuth _ _ _ _ (lane 32 (2 * i) a).isLt (lane 32 (2 * i + 1) a).isLt
    (lane 32 (2 * i) b).isLt (lane 32 (2 * i + 1) b).isLt
  have hab := toNat_halves i a
  have hbb := toNat_halves i b
  have hlt : (lane 64 i a).toNat * (lane 64 i b).toNat ≤ (2 ^ 64 - 1) * (2 ^ 64 - 1) :=
    Nat.mul_le_mul (by have := (lane 64 i a).isLt; omega) (by have := (lane 64 i b).isLt; omega)
  rw [hab, hbb] at hlt ⊢
  simp only [lane_Add hr, lane_And, lane_set hr, C62_shiftLeft hr _ 32 (by omega), C62_shiftRight_unsigned hr _ 32 (by omega),
    BitVec.toNat_add, toNat_and32, toNat_shr32, BitVec.toNat_shiftLeft, toNat_even h, lane_Shuffle2301 h, Nat.shiftLeft_eq]
  rw [← k3] at hlt ⊢
  generalize (lane 32 (2 * i) a).toNat * (lane 32 (2 * i) b).toNat = p at *
  generalize (lane 32 (2 * i + 1) a).toNat * (lane 32 (2 * i) b).toNat = q at *
  generalize (lane 32 (2 * i) a).toNat * (lane 32 (2 * i + 1) b).toNat = r at *
  generalize (lane 32 (2 * i + 1) a).toNat * (lane 32 (2 * i + 1) b).toNat = s at *
  rw [Nat.mod_eq_of_lt k1, Nat.mod_eq_of_lt k2]
  generalize hX : q + p / 2 ^ 32 = X at *
  generalize hY : r + X % 2 ^ 32 = Y at *
  omega

theorem val_false_nonneg {w : Nat} (x : BitVec w) : 0 ≤ val false x := by
  unfold val; simp only [Bool.false_eq_true, if_false]; omega

theorem mul128_unsigned {i : Nat} (h : i < 2) (a b : M128) :
    lane 64 i (SSE2Mul128U a b).1 = BitVec.ofInt 64 (val false (lane 64 i a) * val false (lane 64 i b)) ∧
    lane 64 i (SSE2Mul128U a b).2 = BitVec.ofInt 64 (val false (lane 64 i a) * val false (lane 64 i b) / 2 ^ 64) := by
  have e := mul128U h a b
  have h1 := (lane 64 i (SSE2Mul128U a b).1).isLt
  have ev : val false (lane 64 i a) * val false (lane 64 i b)
      = (((lane 64 i a).toNat * (lane 64 i b).toNat : Nat) : Int) := by
    unfold val; simp only [Bool.false_eq_true, if_false]; push_cast; rfl
  rw [ev, ← e]
  generalize hX : lane 64 i (SSE2Mul128U a b).1 = X at *
  generalize hY : lane 64 i (SSE2Mul128U a b).2 = Y at *
  have h2 := Y.isLt
  constructor
  · rw [BitVec.ofInt_natCast]
    apply BitVec.eq_of_toNat_eq
    rw [BitVec.toNat_ofNat]; omega
  · have : (((X.toNat + 2 ^ 64 * Y.toNat : Nat) : Int) / 2 ^ 64) = ((Y.toNat : Nat) : Int) := by omega
    rw [this, BitVec.ofInt_natCast, BitVec.ofNat_toNat]; simp

theorem signed_high (x y : BitVec 64) :
    BitVec.ofInt 64 ((x.toNat : Int) * y.toNat / 2 ^ 64) - (if x.toInt < 0 then y else 0#64) - (if y.toInt < 0 then x else 0#64)
      = BitVec.ofInt 64 (x.toInt * y.toInt / 2 ^ 64) := by
  have hn : ∀ z : BitVec 64, z = BitVec.ofInt 64 z.toNat := fun z => by simp
  have hz : (0#64) = BitVec.ofInt 64 0 := rfl
  have d1 : ∀ p q : Int, (p - 2 ^ 64 * q) / 2 ^ 64 = p / 2 ^ 64 - q := fun p q => Int.sub_mul_ediv_left _ _ (by decide)
  rcases toInt_cases x with ⟨cx, ex⟩ | ⟨cx, ex⟩ <;> rcases toInt_cases y with ⟨cy, ey⟩ | ⟨cy, ey⟩ <;>
    simp only [cx, cy, if_true, if_false] <;> rw [ex, ey]
  · have e : ((x.toNat : Int) - 2 ^ 64) * (y.toNat - 2 ^ 64)
        = x.toNat * y.toNat - 2 ^ 64 * (x.toNat + y.toNat - 2 ^ 64) := by ring
    rw [e, d1]
    conv => lhs; rw [hn x, hn y]
    rw [ofInt_sub, ofInt_sub]
    simp only [BitVec.ofInt_natCast, BitVec.ofNat_toNat, BitVec.setWidth_eq]
    apply ofInt_shift (-1); ring
  · have e : ((x.toNat : Int) - 2 ^ 64) * y.toNat = x.toNat * y.toNat - 2 ^ 64 * y.toNat := by ring
    rw [e, d1, BitVec.sub_zero]
    conv => lhs; rhs; rw [hn y]
    rw [ofInt_sub]
  · have e : (x.toNat : Int) * (y.toNat - 2 ^ 64) = x.toNat * y.toNat - 2 ^ 64 * x.toNat := by ring
    rw [e, d1, BitVec.sub_zero]
    conv => lhs; rhs; rw [hn x]
    rw [ofInt_sub]
  · rw [BitVec.sub_zero, BitVec.sub_zero]

theorem and_ite64 (c : Prop) [Decidable c] (y : BitVec 64) :
    ((if c then BitVec.allOnes 64 else 0#64) &&& y) = if c then y else 0#64 := by
  split
  · rw [BitVec.allOnes_and]
  · rw [BitVec.zero_and]

theorem lane_SSE2Mul128 (t : Tgt) (s : Bool) {i : Nat} (h : i < 2) (a b : M128) :
    lane 64 i (SSE2Mul128 t s a b).1 = BitVec.ofInt 64 (val s (lane 64 i a) * val s (lane 64 i b)) ∧
    lane 64 i (SSE2Mul128 t s a b).2 = BitVec.ofInt 64 (val s (lane 64 i a) * val s (lane 64 i b) / 2 ^ 64) := by
  have hr : InReg 64 i := ⟨by omega, by omega⟩
  obtain ⟨h1, h2⟩ := mul128_unsigned h a b
  unfold SSE2Mul128
  cases s
  · simp only [Bool.false_eq_true, if_false]; exact ⟨h1, h2⟩
  · simp only [if_true]
    constructor
    · rw [h1, ofInt_mul_val, ofInt_mul_val]
    · rw [lane_Sub hr, lane_Sub hr, lane_And, lane_And, h2, C62_broadcastSignBit t hr, C62_broadcastSignBit t hr,
        and_ite64, BitVec.and_comm (lane 64 i a), and_ite64]
      exact signed_high _ _

theorem lane_Mul128 (s : Bool) (x y : BitVec 64) :
    (Mul128 s x y).1 = BitVec.ofInt 64 (val s x * val s y) ∧
    (Mul128 s x y).2 = BitVec.ofInt 64 (val s x * val s y / 2 ^ 64) := by
  have hp : ∀ s : Bool, BitVec.ofInt 128 (val s x * val s y)
      = (if s then x.signExtend 128 else x.setWidth 128) * (if s then y.signExtend 128 else y.setWidth 128) := fun s => by
    rw [BitVec.ofInt_mul, ofInt_val_ext, ofInt_val_ext]
  have e0 : ∀ p : BitVec 128, p.setWidth 64 = p.extractLsb' 0 64 := fun p => by
    apply lane_ext; intro k hk
    rw [BitVec.getLsbD_setWidth, BitVec.getLsbD_extractLsb', Nat.zero_add]
  have e1 : ∀ p : BitVec 128, (p >>> 64).setWidth 64 = p.extractLsb' 64 64 := fun p => by
    apply lane_ext; intro k hk
    rw [BitVec.getLsbD_setWidth, BitVec.getLsbD_extractLsb', BitVec.getLsbD_ushiftRight]
  have e2 : ∀ p : BitVec 128, (p.sshiftRight 64).setWidth 64 = p.extractLsb' 64 64 := fun p => by
    apply lane_ext; intro k hk
    rw [BitVec.getLsbD_setWidth, BitVec.getLsbD_extractLsb', BitVec.getLsbD_sshiftRight]
    simp only [hk, decide_true, Bool.true_and, show ¬ 128 ≤ k by omega, decide_false, Bool.not_false,
      show 64 + k < 128 by omega, if_true]
  have q := hp s
  unfold Mul128
  cases s
  · simp only [Bool.false_eq_true, if_false] at q ⊢
    rw [← q, e0, e1]
    exact ⟨half0 64 _, half1 64 _⟩
  · simp only [if_true] at q ⊢
    rw [← q, e0, e2]
    exact ⟨half0 64 _, half1 64 _⟩

/-- `MulHigh(a, b)` of 64-bit lanes, on x86-64 and on 32-bit x86. -/
theorem C64_mulHigh64 (t : Tgt) (x64 signed : Bool) {sz : Nat} (hs : Shape 64 sz) (a b : M128) {i : Nat}
    (hi : i < Lanes 64 sz) :
    lane 64 i (MulHigh64 t x64 signed sz a b)
      = BitVec.ofInt 64 (val signed (lane 64 i a) * val signed (lane 64 i b) / 2 ^ 64) := by
  have h2 : i < 2 := by
    rcases hs with ⟨h, _⟩ | ⟨h, _⟩ | ⟨h, _⟩ | ⟨_, rfl | rfl⟩ <;> first | omega | (unfold Lanes at hi; omega)
  unfold MulHigh64
  split
  · rename_i c
    have : i = 0 := by have := c.2; subst this; unfold Lanes at hi; omega
    subst this
    rw [← (lane_Mul128 signed (lane 64 0 a) (lane 64 0 b)).2]
    apply lane_ext; intro k hk
    rw [getLsbD_lane, BitVec.getLsbD_setWidth]
    simp only [hk, decide_true, Bool.true_and, Nat.mul_zero, Nat.zero_add, show k < 128 by omega]
  · exact (lane_SSE2Mul128 t signed h2 a b).2

/-- `MulEven(a, b)` of two 64-bit lanes: lower and upper half of the product of the lanes 0. -/
theorem C64_mulEven64 (t : Tgt) (x64 signed : Bool) (a b : M128) :
    lane 64 0 (MulEven64 t x64 signed a b) = BitVec.ofInt 64 (val signed (lane 64 0 a) * val signed (lane 64 0 b)) ∧
    lane 64 1 (MulEven64 t x64 signed a b) = BitVec.ofInt 64 (val signed (lane 64 0 a) * val signed (lane 64 0 b) / 2 ^ 64) := by
  obtain ⟨h1, h2⟩ := lane_SSE2Mul128 t signed (i := 0) (by omega) a b
  obtain ⟨g1, g2⟩ := lane_Mul128 signed (lane 64 0 a) (lane 64 0 b)
  unfold MulEven64
  split
  · simp only []
    rw [lane_mk (by omega) (by omega), lane_mk (by omega) (by omega)]
    exact ⟨g1, g2⟩
  · simp only []
    unfold InterleaveLower
    rw [lane_unpacklo ⟨by omega, by omega⟩, lane_unpacklo ⟨by omega, by omega⟩]
    exact ⟨h1, h2⟩

/-- `MulOdd(a, b)` of two 64-bit lanes: lower and upper half of the product of the lanes 1. -/
theorem C64_mulOdd64 (t : Tgt) (x64 signed : Bool) (a b : M128) :
    lane 64 0 (MulOdd64 t x64 signed a b) = BitVec.ofInt 64 (val signed (lane 64 1 a) * val signed (lane 64 1 b)) ∧
    lane 64 1 (MulOdd64 t x64 signed a b) = BitVec.ofInt 64 (val signed (lane 64 1 a) * val signed (lane 64 1 b) / 2 ^ 64) := by
  obtain ⟨h1, h2⟩ := lane_SSE2Mul128 t signed (i := 1) (by omega) a b
  have hu : ∀ v, lane 64 0 (UpperHalf t 64 8 v) = lane 64 1 v := fun v =>
    C63_upperHalf t (w := 64) (sz := 8) (by simp [Shape]) (by omega) v (i := 0) (by decide)
  unfold MulOdd64
  split
  · rw [hu, hu]
    obtain ⟨g1, g2⟩ := lane_Mul128 signed (lane 64 1 a) (lane 64 1 b)
    simp only []
    rw [lane_mk (by omega) (by omega), lane_mk (by omega) (by omega)]
    exact ⟨g1, g2⟩
  · simp only []
    have hS : Shape 64 16 := by simp [Shape]
    rw [C63_interleaveUpper t hS (by decide) _ _ (by decide), C63_interleaveUpper t hS (by decide) _ _ (by decide)]
    exact ⟨h1, h2⟩

/-! ## Sums of products and fixed point -/

theorem lane32_halves (i : Nat) (r : M128) : val false (lane 32 i r)
    = val false (lane 16 (2 * i) r) + 2 ^ 16 * val false (lane 16 (2 * i + 1) r) := by
  have e0 : lane 16 (2 * i) r = (lane 32 i r).extractLsb' 0 16 := lane_sub 16 2 i 0 (by omega) r
  have e1 : lane 16 (2 * i + 1) r = (lane 32 i r).extractLsb' 16 16 := lane_sub 16 2 i 1 (by omega) r
  rw [e0, e1]
  unfold val; simp only [Bool.false_eq_true, if_false]
  rw [BitVec.extractLsb'_toNat, BitVec.extractLsb'_toNat, Nat.shiftRight_zero, Nat.shiftRight_eq_div_pow]
  have := (lane 32 i r).isLt
  omega

theorem val_ofInt (w : Nat) (p : Int) : val false (BitVec.ofInt w p) = p % 2 ^ w := by
  unfold val; simp only [Bool.false_eq_true, if_false]
  rw [BitVec.toNat_ofInt]
  have hc : ((2 ^ w : Nat) : Int) = 2 ^ w := by norm_cast
  rw [hc, Int.toNat_of_nonneg]
  exact Int.emod_nonneg _ (by rw [← hc]; exact_mod_cast (Nat.two_pow_pos w).ne')

theorem shl16_lo {i : Nat} (h : i < 4) (v : M128) : lane 16 (2 * i) (ShiftLeft 32 16 v) = 0#16 := by
  rw [show lane 16 (2 * i) (ShiftLeft 32 16 v) = (lane 32 i (ShiftLeft 32 16 v)).extractLsb' 0 16
    from lane_sub 16 2 i 0 (by omega) _, C62_shiftLeft ⟨by omega, by omega⟩ _ 16 (by omega)]
  apply lane_ext; intro k hk
  simp only [BitVec.getLsbD_extractLsb', BitVec.getLsbD_shiftLeft, hk, Nat.zero_add, decide_true, Bool.not_true,
    Bool.and_false, Bool.false_and, BitVec.getLsbD_zero]
theorem shr16_hi {i : Nat} (h : i < 4) (v : M128) : lane 16 (2 * i + 1) (ShiftRightU 32 16 v) = 0#16 := by
  rw [show lane 16 (2 * i + 1) (ShiftRightU 32 16 v) = (lane 32 i (ShiftRightU 32 16 v)).extractLsb' 16 16
    from lane_sub 16 2 i 1 (by omega) _, C62_shiftRight_unsigned ⟨by omega, by omega⟩ _ 16 (by omega)]
  apply lane_ext; intro k hk
  simp only [BitVec.getLsbD_extractLsb', BitVec.getLsbD_ushiftRight, hk, decide_true, Bool.true_and, BitVec.getLsbD_zero]
  exact BitVec.getLsbD_of_ge _ _ (by omega)

/-- `WidenMulPairwiseAdd(d, a, b)`: the sum of the two products of the 16-bit lanes inside each 32-bit lane
(modulo `2^32`; only four factors `-32768` leave the range). -/
theorem C64_widenMulPairwiseAdd (t : Tgt) (signed : Bool) {i : Nat} (h : i < 4) (a b : M128) :
    lane 32 i (WidenMulPairwiseAdd t signed a b) = BitVec.ofInt 32
      (val signed (lane 16 (2 * i) a) * val signed (lane 16 (2 * i) b)
        + val signed (lane 16 (2 * i + 1) a) * val signed (lane 16 (2 * i + 1) b)) := by
  have hr : InReg 32 i := ⟨by omega, by omega⟩
  unfold WidenMulPairwiseAdd
  cases signed
  · simp only [Bool.false_eq_true, if_false]
    rw [lane_Add hr, ← ofInt_val false (lane 32 i (OddEven _ _ _ _)), ← ofInt_val false (lane 32 i (Or _ _)),
      ← BitVec.ofInt_add, lane32_halves, lane32_halves,
      C63_oddEven t shape16 _ _ (by show _ < 8; omega), C63_oddEven t shape16 _ _ (by show _ < 8; omega),
      if_neg (by omega), if_pos (by omega), lane_Or, lane_Or, shl16_lo h, shr16_hi h, lane_shl16 h, lane_shr16 h,
      BitVec.zero_or, BitVec.or_zero, lane_Mul16 false (by omega), lane_Mul16 false (by omega),
      lane_mulhi false (by omega), lane_mulhi false (by omega), val_ofInt, val_ofInt, val_ofInt, val_ofInt]
    have hb : ∀ k, 0 ≤ val false (lane 16 k a) * val false (lane 16 k b) ∧
        val false (lane 16 k a) * val false (lane 16 k b) < 2 ^ 32 := fun k => by
      unfold val; simp only [Bool.false_eq_true, if_false]
      have h1 := (lane 16 k a).isLt
      have h2 := (lane 16 k b).isLt
      have : (lane 16 k a).toNat * (lane 16 k b).toNat ≤ (2 ^ 16 - 1) * (2 ^ 16 - 1) :=
        Nat.mul_le_mul (by omega) (by omega)
      norm_cast
      omega
    obtain ⟨b1, b2⟩ := hb (2 * i)
    obtain ⟨b3, b4⟩ := hb (2 * i + 1)
    generalize val false (lane 16 (2 * i) a) * val false (lane 16 (2 * i) b) = p at *
    generalize val false (lane 16 (2 * i + 1) a) * val false (lane 16 (2 * i + 1) b) = q at *
    congr 1; omega
  · simp only [if_true]
    unfold madd16 val
    rw [lane_mk (by omega) (by omega)]; simp only [if_true]

/-- `ReorderWidenMulAccumulate` followed by `RearrangeToOddPlusEven` adds the sum of the two products of
each 32-bit lane to the accumulator. -/
theorem C64_reorderWidenMulAccumulate (t : Tgt) (signed : Bool) {i : Nat} (h : i < 4) (a b sum0 sum1 : M128) :
    lane 32 i (RearrangeToOddPlusEven (ReorderWidenMulAccumulate t signed a b sum0) sum1) = BitVec.ofInt 32
      (val signed (lane 32 i sum0) + (val signed (lane 16 (2 * i) a) * val signed (lane 16 (2 * i) b)
        + val signed (lane 16 (2 * i + 1) a) * val signed (lane 16 (2 * i + 1) b))) := by
  unfold RearrangeToOddPlusEven ReorderWidenMulAccumulate
  rw [lane_Add ⟨by omega, by omega⟩, C64_widenMulPairwiseAdd t signed h]
  conv => rhs; rw [BitVec.ofInt_add, ofInt_val]

/-- The 32-bit lane joined from the halves of a product. -/
theorem join_lo {i : Nat} (h : i < 4) (a b : M128) :
    lane 32 i (unpacklo 16 (Mul16 a b) (MulHigh16 true a b))
      = BitVec.ofInt 32 (val true (lane 16 i a) * val true (lane 16 i b)) := by
  apply lane2_ext (w := 16)
  · rw [lane_unpacklo ⟨by omega, by omega⟩, if_pos (by omega), lane_Mul16 true (by omega), show 2 * i / 2 = i by omega]
    exact (half0 16 _).symm
  · rw [lane_unpacklo ⟨by omega, by omega⟩, if_neg (by omega), lane_mulhi true (by omega), show (2 * i + 1) / 2 = i by omega]
    exact (half1 16 _).symm
theorem join_hi {i : Nat} (h : i < 4) (a b : M128) :
    lane 32 i (unpackhi 16 (Mul16 a b) (MulHigh16 true a b))
      = BitVec.ofInt 32 (val true (lane 16 (4 + i) a) * val true (lane 16 (4 + i) b)) := by
  apply lane2_ext (w := 16)
  · rw [lane_unpackhi ⟨by omega, by omega⟩, if_pos (by omega), lane_Mul16 true (by omega), show 64 / 16 + 2 * i / 2 = 4 + i by omega]
    exact (half0 16 _).symm
  · rw [lane_unpackhi ⟨by omega, by omega⟩, if_neg (by omega), lane_mulhi true (by omega), show 64 / 16 + (2 * i + 1) / 2 = 4 + i by omega]
    exact (half1 16 _).symm

theorem prod16_bound (x y : BitVec 16) (hne : ¬ (x.toInt = -32768 ∧ y.toInt = -32768)) :
    -(2 ^ 30) ≤ x.toInt * y.toInt ∧ x.toInt * y.toInt ≤ 2 ^ 30 - 2 ^ 15 := by
  have h1 := x.toInt_lt; have h2 := x.le_toInt; have h3 := y.toInt_lt; have h4 := y.le_toInt
  norm_num at h1 h2 h3 h4
  generalize x.toInt = p at *
  generalize y.toInt = q at *
  constructor
  · nlinarith
  · by_cases c : p = -32768
    · subst c
      have : -32767 ≤ q := by omega
      omega
    · by_cases c2 : q = -32768
      · subst c2; omega
      · have : -32767 ≤ p := by omega
        have : -32767 ≤ q := by omega
        nlinarith

theorem fix15 {i : Nat} (t : Tgt) (h : i < 4) (J : M128) (p : Int) (h1 : -(2 ^ 30) ≤ p) (h2 : p ≤ 2 ^ 30 - 2 ^ 15)
    (e : lane 32 i J = BitVec.ofInt 32 p) :
    BitVec.ofInt 16 (clampI 16 (lane 32 i (ShiftRightI t 32 15 (Add 32 J (set 32 0x4000#32)))).toInt)
      = BitVec.ofInt 16 ((p + 2 ^ 14) / 2 ^ 15) := by
  have hr : InReg 32 i := ⟨by omega, by omega⟩
  rw [C62_shiftRight_signed t hr _ 15 (by omega), lane_Add hr, lane_set hr, e,
    show 0x4000#32 = BitVec.ofInt 32 (2 ^ 14) from rfl, ← BitVec.ofInt_add, BitVec.toInt_sshiftRight,
    BitVec.toInt_ofInt_eq_self (by omega) (by norm_num; omega) (by norm_num; omega), Int.shiftRight_eq_div_pow]
  congr 1
  unfold clampI
  norm_num
  omega

/-- `MulFixedPoint15(a, b)`: the product of two Q1.15 numbers rounded to nearest, except for `-1 * -1` whose
result is not representable. -/
theorem C64_mulFixedPoint15 (t : Tgt) {sz : Nat} (hs : Shape 16 sz) (a b : M128) {i : Nat} (hi : i < Lanes 16 sz)
    (hne : ¬ (val true (lane 16 i a) = -32768 ∧ val true (lane 16 i b) = -32768)) :
    val true (lane 16 i (MulFixedPoint15 t sz a b))
      = (val true (lane 16 i a) * val true (lane 16 i b) + 2 ^ 14) / 2 ^ 15 := by
  have hsz : sz = 16 ∨ i < 4 := by
    rcases hs with ⟨h, _⟩ | ⟨_, rfl | rfl | rfl | rfl⟩ | ⟨h, _⟩ | ⟨h, _⟩ <;> first | omega | (unfold Lanes at hi; omega)
  have h8 : i < 8 := by
    rcases hs with ⟨h, _⟩ | ⟨_, rfl | rfl | rfl | rfl⟩ | ⟨h, _⟩ | ⟨h, _⟩ <;> omega
  have hr : InReg 16 i := ⟨by omega, by omega⟩
  obtain ⟨b1, b2⟩ := prod16_bound (lane 16 i a) (lane 16 i b) hne
  have key : lane 16 i (MulFixedPoint15 t sz a b)
      = BitVec.ofInt 16 ((val true (lane 16 i a) * val true (lane 16 i b) + 2 ^ 14) / 2 ^ 15) := by
    unfold MulFixedPoint15
    split
    · simp only []
      split
      · unfold packs
        simp only []
        rw [lane_mk (by omega) (by omega)]
        split
        · exact fix15 t (by omega) _ _ b1 b2 (join_lo (by omega) a b)
        · have e := join_hi (i := i - 4) (by omega) a b
          rw [show 4 + (i - 4) = i by omega] at e
          exact fix15 t (by omega) _ _ b1 b2 e
      · have h4 : i < 4 := by
          rcases hsz with h | h
          · contradiction
          · exact h
        unfold packs
        simp only []
        rw [lane_mk (by omega) (by omega), if_pos (by omega)]
        exact fix15 t h4 _ _ b1 b2 (join_lo h4 a b)
    · unfold mulhrs16
      rw [lane_map2 hr]
      unfold val; simp only [if_true]
      congr 1
      generalize (lane 16 i a).toInt * (lane 16 i b).toInt = p at *
      omega
  rw [key]
  unfold val at *; simp only [if_true] at *
  rw [BitVec.toInt_ofInt_eq_self (by omega) (by norm_num; omega) (by norm_num; omega)]

end Hwy.X86
