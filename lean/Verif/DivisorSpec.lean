import Verif.BaseArithLemmas
import Mathlib.Tactic.LinearCombination

/-! # C03, C04, C05: exact division by invariant integers and exact 128-bit products -/

namespace Hwy

theorem truncate32_toNat (x : BitVec 64) : (truncate32 x).toNat = x.toNat % 2 ^ 32 := by
  simp only [truncate32, BitVec.toNat_setWidth, BitVec.toNat_and, BitVec.toNat_ofNat]
  rw [show (0xFFFFFFFF % 2 ^ 64 : Nat) = 2 ^ 32 - 1 by norm_num, Nat.and_two_pow_sub_one_eq_mod]
  omega

theorem trunc_one_mul (n : BitVec 32) :
    truncate32 ((BitVec.setWidth 64 (1 : BitVec 32) * n.setWidth 64) >>> 32) = 0 := by
  apply BitVec.eq_of_toNat_eq
  have hn := n.isLt
  have h1 : (BitVec.setWidth 64 (1 : BitVec 32) * n.setWidth 64).toNat = n.toNat := by
    rw [BitVec.toNat_mul, show (BitVec.setWidth 64 (1 : BitVec 32)).toNat = 1 from rfl,
      BitVec.toNat_setWidth]
    omega
  rw [truncate32_toNat, BitVec.toNat_ushiftRight, Nat.shiftRight_eq_div_pow, h1,
    show (0 : BitVec 32).toNat = 0 from rfl]
  omega

/-- **C03.** For every non-zero 32-bit divisor the constructor succeeds, and `Divide`/`Remainder`
return the exact quotient and remainder for every 32-bit dividend. -/
theorem C03_divisor (d : BitVec 32) (hd : d ≠ 0) :
    ∃ v, Divisor.make d = .ok v ∧ v.divisor = d ∧
      ∀ n : BitVec 32, (v.divide n).toNat = n.toNat / d.toNat ∧
        (v.remainder n).toNat = n.toNat % d.toNat := by
  have hd0 : d.toNat ≠ 0 := by intro h; apply hd; apply BitVec.eq_of_toNat_eq; simpa using h
  have hdlt := d.isLt
  suffices h : ∃ v, Divisor.make d = .ok v ∧ v.divisor = d ∧
      ∀ n : BitVec 32, (v.divide n).toNat = n.toNat / d.toNat by
    obtain ⟨v, h1, h2, h3⟩ := h
    refine ⟨v, h1, h2, fun n => ⟨h3 n, ?_⟩⟩
    have hmod := Nat.mod_add_div n.toNat d.toNat
    rw [Nat.mul_comm] at hmod
    have := n.isLt
    rw [Divisor.remainder, h2, BitVec.toNat_sub, BitVec.toNat_mul, h3 n,
      Nat.mod_eq_of_lt (a := n.toNat / d.toNat * d.toNat) (by omega)]
    omega
  unfold Divisor.make
  by_cases h1 : d ≤ 1
  · rw [if_pos h1]
    refine ⟨_, rfl, rfl, fun n => ?_⟩
    have hd1 : d.toNat = 1 := by
      have : d.toNat ≤ 1 := by simpa [BitVec.le_def] using h1
      omega
    have hn := n.isLt
    have ht := trunc_one_mul n
    simp only [Divisor.divide, ht, hd1, Nat.div_one]
    simp
  · rw [if_neg h1]
    have hd2 : 2 ≤ d.toNat := by
      have : ¬ d.toNat ≤ 1 := by simpa [BitVec.le_def] using h1
      omega
    have hdm1 : (d - 1).toNat = d.toNat - 1 := by
      rw [BitVec.toNat_sub_of_le]
      · simp
      · rw [BitVec.le_def]; simp; omega
    have hne : d - 1 ≠ 0 := by
      intro hc
      have := congrArg BitVec.toNat hc
      rw [hdm1] at this; simp at this; omega
    obtain ⟨b1, b2, b3⟩ := bsr_spec (d - 1) hne
    rw [hdm1] at b2 b3
    simp only [num0BitsAboveMS1Bit_Nonzero32, if_neg hne, bind, Except.bind, pure, Except.pure]
    refine ⟨_, rfl, rfl, fun n => ?_⟩
    generalize bsr (d - 1) = b at *
    have hlen : (BitVec.ofNat 32 (31 - (31 - b))).toNat = b := by
      rw [BitVec.toNat_ofNat, Nat.mod_eq_of_lt (by omega)]; omega
    have hpow : 2 ^ (b + 1) ≤ 2 ^ 32 := Nat.pow_le_pow_right (by omega) (by omega)
    have hu : ((2#64 <<< (BitVec.ofNat 32 (31 - (31 - b))).toNat) - d.setWidth 64).toNat
        = 2 ^ (b + 1) - d.toNat := by
      rw [hlen, BitVec.toNat_sub, BitVec.toNat_shiftLeft, Nat.shiftLeft_eq, BitVec.toNat_setWidth,
        BitVec.toNat_ofNat]
      rw [show (2 % 2 ^ 64 : Nat) * 2 ^ b = 2 ^ (b + 1) by rw [Nat.pow_succ]; omega]
      omega
    have hhalf : 2 ^ (b + 1) = 2 * 2 ^ b := by rw [Nat.pow_succ]; omega
    obtain ⟨g1, g2, g3, g4⟩ := gm_divide 32 (b + 1) d.toNat n.toNat
      ((2 ^ (b + 1) - d.toNat) * 2 ^ 32 / d.toNat + 1) _ (by omega) (by simp; omega) (by omega)
      (by omega) n.isLt rfl rfl
    have hq : (truncate32 (((2#64 <<< (BitVec.ofNat 32 (31 - (31 - b))).toNat) - d.setWidth 64) <<< 32
        / d.setWidth 64)).toNat = (2 ^ (b + 1) - d.toNat) * 2 ^ 32 / d.toNat := by
      rw [truncate32_toNat, BitVec.toNat_udiv, BitVec.toNat_shiftLeft, hu, Nat.shiftLeft_eq,
        BitVec.toNat_setWidth, Nat.mod_eq_of_lt (by omega : d.toNat < 2 ^ 64)]
      rw [Nat.mod_eq_of_lt (a := (2 ^ (b + 1) - d.toNat) * 2 ^ 32) (by omega)]
      exact Nat.mod_eq_of_lt (by omega)
    have hmul : (truncate32 (((2#64 <<< (BitVec.ofNat 32 (31 - (31 - b))).toNat) - d.setWidth 64) <<< 32
        / d.setWidth 64) + 1).toNat = (2 ^ (b + 1) - d.toNat) * 2 ^ 32 / d.toNat + 1 := by
      rw [BitVec.toNat_add, hq]
      exact Nat.mod_eq_of_lt (by simpa using g1)
    simp only [Divisor.divide]
    generalize hmv : (truncate32 (((2#64 <<< (BitVec.ofNat 32 (31 - (31 - b))).toNat) -
      d.setWidth 64) <<< 32 / d.setWidth 64) + 1) = mv at *
    rw [← hmul] at g1 g2 g3 g4
    have ht : (truncate32 ((mv.setWidth 64 * n.setWidth 64) >>> 32)).toNat
        = mv.toNat * n.toNat / 2 ^ 32 := by
      rw [truncate32_toNat, BitVec.toNat_ushiftRight, BitVec.toNat_mul, BitVec.toNat_setWidth,
        BitVec.toNat_setWidth, Nat.shiftRight_eq_div_pow]
      have e1 := n.isLt
      have e2 := mv.isLt
      rw [Nat.mod_eq_of_lt (by omega : mv.toNat < 2 ^ 64), Nat.mod_eq_of_lt (by omega : n.toNat < 2 ^ 64)]
      have e3 : mv.toNat * n.toNat < 2 ^ 64 := by
        calc mv.toNat * n.toNat < 2 ^ 32 * 2 ^ 32 := Nat.mul_lt_mul'' e2 e1
          _ = 2 ^ 64 := by norm_num
      rw [Nat.mod_eq_of_lt e3]
      exact Nat.mod_eq_of_lt (by omega)
    generalize htv : truncate32 ((mv.setWidth 64 * n.setWidth 64) >>> 32) = t at *
    rw [hlen, BitVec.toNat_ushiftRight, Nat.shiftRight_eq_div_pow, BitVec.toNat_add,
      BitVec.toNat_ushiftRight, Nat.shiftRight_eq_div_pow]
    rw [← ht] at g2 g3 g4
    rw [BitVec.toNat_sub_of_le (by rw [BitVec.le_def]; exact g2)]
    simp only [show (1 : BitVec 32).toNat = 1 from rfl, Nat.pow_one]
    rw [Nat.mod_eq_of_lt g3]
    simpa using g4

example : ∃ v, Divisor.make 7#32 = .ok v ∧ v.divisor = 7#32 ∧
    ∀ n : BitVec 32, (v.divide n).toNat = n.toNat / 7 ∧ (v.remainder n).toNat = n.toNat % 7 :=
  C03_divisor 7#32 (by decide)

/-- Divisor 0 is accepted and silently treated as 1 by `Divide` (base.h:2960): the hypothesis of
`C03_divisor` is needed. -/
theorem C03_divisor_zero : ∃ v, Divisor.make 0 = .ok v ∧ ∀ n, v.divide n = n + 0 := by
  refine ⟨{ divisor := 0 }, by simp [Divisor.make], fun n => ?_⟩
  simp only [Divisor.divide, trunc_one_mul]
  simp

theorem mulHigh_toNat (a b : BitVec 64) : (mulHigh a b).toNat = a.toNat * b.toNat / 2 ^ 64 := by
  have e1 := a.isLt
  have e2 := b.isLt
  have e3 : a.toNat * b.toNat < 2 ^ 128 := by
    calc a.toNat * b.toNat < 2 ^ 64 * 2 ^ 64 := Nat.mul_lt_mul'' e1 e2
      _ = 2 ^ 128 := by norm_num
  rw [mulHigh, BitVec.toNat_setWidth, BitVec.toNat_ushiftRight, BitVec.toNat_mul,
    BitVec.toNat_setWidth, BitVec.toNat_setWidth, Nat.shiftRight_eq_div_pow,
    Nat.mod_eq_of_lt (by omega : a.toNat < 2 ^ 128), Nat.mod_eq_of_lt (by omega : b.toNat < 2 ^ 128),
    Nat.mod_eq_of_lt e3]
  exact Nat.mod_eq_of_lt (by omega)

/-- **C04.** The same for the 64-bit divisor (both with and without 128-bit division support; the
latter is plain `/` and `%` in C++ and needs no proof). -/
theorem C04_divisor64 (d : BitVec 64) (hd : d ≠ 0) :
    ∃ v, Divisor64.make d = .ok v ∧ v.divisor = d ∧
      ∀ n : BitVec 64, (v.divide n).toNat = n.toNat / d.toNat ∧
        (v.remainder n).toNat = n.toNat % d.toNat := by
  have hd0 : d.toNat ≠ 0 := by intro h; apply hd; apply BitVec.eq_of_toNat_eq; simpa using h
  have hdlt := d.isLt
  suffices h : ∃ v, Divisor64.make d = .ok v ∧ v.divisor = d ∧
      ∀ n : BitVec 64, (v.divide n).toNat = n.toNat / d.toNat by
    obtain ⟨v, h1, h2, h3⟩ := h
    refine ⟨v, h1, h2, fun n => ⟨h3 n, ?_⟩⟩
    have hmod := Nat.mod_add_div n.toNat d.toNat
    rw [Nat.mul_comm] at hmod
    have := n.isLt
    rw [Divisor64.remainder, h2, BitVec.toNat_sub, BitVec.toNat_mul, h3 n,
      Nat.mod_eq_of_lt (a := n.toNat / d.toNat * d.toNat) (by omega)]
    omega
  unfold Divisor64.make
  by_cases h1 : d ≤ 1
  · rw [if_pos h1]
    refine ⟨_, rfl, rfl, fun n => ?_⟩
    have hd1 : d.toNat = 1 := by
      have : d.toNat ≤ 1 := by simpa [BitVec.le_def] using h1
      omega
    have hn := n.isLt
    have ht : mulHigh (1 : BitVec 64) n = 0 := by
      apply BitVec.eq_of_toNat_eq
      rw [mulHigh_toNat]
      simp only [show (1 : BitVec 64).toNat = 1 from rfl, show (0 : BitVec 64).toNat = 0 from rfl]
      omega
    simp only [Divisor64.divide, ht, hd1, Nat.div_one]
    simp
  · rw [if_neg h1]
    have hd2 : 2 ≤ d.toNat := by
      have : ¬ d.toNat ≤ 1 := by simpa [BitVec.le_def] using h1
      omega
    have hdm1 : (d - 1).toNat = d.toNat - 1 := by
      rw [BitVec.toNat_sub_of_le]
      · simp
      · rw [BitVec.le_def]; simp; omega
    have hne : d - 1 ≠ 0 := by
      intro hc
      have := congrArg BitVec.toNat hc
      rw [hdm1] at this; simp at this; omega
    obtain ⟨b1, b2, b3⟩ := bsr_spec (d - 1) hne
    rw [hdm1] at b2 b3
    simp only [num0BitsAboveMS1Bit_Nonzero64, if_neg hne, bind, Except.bind, pure, Except.pure]
    refine ⟨_, rfl, rfl, fun n => ?_⟩
    generalize bsr (d - 1) = b at *
    have hlen : (BitVec.ofNat 64 (63 - (63 - b))).toNat = b := by
      rw [BitVec.toNat_ofNat, Nat.mod_eq_of_lt (by omega)]; omega
    have hpow : 2 ^ (b + 1) ≤ 2 ^ 64 := Nat.pow_le_pow_right (by omega) (by omega)
    have hu : ((2#64 <<< (BitVec.ofNat 64 (63 - (63 - b))).toNat) - d).toNat
        = 2 ^ (b + 1) - d.toNat := by
      rw [hlen, BitVec.toNat_sub, BitVec.toNat_shiftLeft, Nat.shiftLeft_eq, BitVec.toNat_ofNat]
      rw [show (2 % 2 ^ 64 : Nat) * 2 ^ b = 2 ^ (b + 1) by rw [Nat.pow_succ]; omega]
      omega
    have hhalf : 2 ^ (b + 1) = 2 * 2 ^ b := by rw [Nat.pow_succ]; omega
    obtain ⟨g1, g2, g3, g4⟩ := gm_divide 64 (b + 1) d.toNat n.toNat
      ((2 ^ (b + 1) - d.toNat) * 2 ^ 64 / d.toNat + 1) _ (by omega) (by simp; omega) (by omega)
      (by omega) n.isLt rfl rfl
    have hq : (div128 ((2#64 <<< (BitVec.ofNat 64 (63 - (63 - b))).toNat) - d) d).toNat
        = (2 ^ (b + 1) - d.toNat) * 2 ^ 64 / d.toNat := by
      rw [div128, BitVec.toNat_setWidth, BitVec.toNat_udiv, BitVec.toNat_shiftLeft,
        BitVec.toNat_setWidth, hu, Nat.shiftLeft_eq, BitVec.toNat_setWidth,
        Nat.mod_eq_of_lt (by omega : d.toNat < 2 ^ 128),
        Nat.mod_eq_of_lt (by omega : 2 ^ (b + 1) - d.toNat < 2 ^ 128)]
      rw [Nat.mod_eq_of_lt (a := (2 ^ (b + 1) - d.toNat) * 2 ^ 64) (by omega)]
      exact Nat.mod_eq_of_lt (by omega)
    have hmul : (div128 ((2#64 <<< (BitVec.ofNat 64 (63 - (63 - b))).toNat) - d) d + 1).toNat
        = (2 ^ (b + 1) - d.toNat) * 2 ^ 64 / d.toNat + 1 := by
      rw [BitVec.toNat_add, hq]
      exact Nat.mod_eq_of_lt (by simpa using g1)
    simp only [Divisor64.divide]
    generalize hmv : (div128 ((2#64 <<< (BitVec.ofNat 64 (63 - (63 - b))).toNat) - d) d + 1) = mv at *
    rw [← hmul] at g1 g2 g3 g4
    have ht := mulHigh_toNat mv n
    generalize htv : mulHigh mv n = t at *
    rw [hlen, BitVec.toNat_ushiftRight, Nat.shiftRight_eq_div_pow, BitVec.toNat_add,
      BitVec.toNat_ushiftRight, Nat.shiftRight_eq_div_pow]
    rw [← ht] at g2 g3 g4
    rw [BitVec.toNat_sub_of_le (by rw [BitVec.le_def]; exact g2)]
    simp only [show (1 : BitVec 64).toNat = 1 from rfl, Nat.pow_one]
    rw [Nat.mod_eq_of_lt g3]
    simpa using g4

/-- Non-vacuity, at the divisor whose `2ULL << len` wraps to zero. -/
example : ∃ v, Divisor64.make 0xFFFFFFFFFFFFFFFF#64 = .ok v ∧ v.divisor = 0xFFFFFFFFFFFFFFFF#64 ∧
    ∀ n : BitVec 64, (v.divide n).toNat = n.toNat / 0xFFFFFFFFFFFFFFFF ∧
      (v.remainder n).toNat = n.toNat % 0xFFFFFFFFFFFFFFFF :=
  C04_divisor64 _ (by decide)

/-! ## C05 -/

theorem and_lo32 (a : BitVec 64) : (a &&& 0xFFFFFFFF#64).toNat = a.toNat % 2 ^ 32 := by
  rw [BitVec.toNat_and, BitVec.toNat_ofNat,
    show (0xFFFFFFFF % 2 ^ 64 : Nat) = 2 ^ 32 - 1 by norm_num, Nat.and_two_pow_sub_one_eq_mod]

theorem shr32 (a : BitVec 64) : (a >>> 32).toNat = a.toNat / 2 ^ 32 := by
  rw [BitVec.toNat_ushiftRight, Nat.shiftRight_eq_div_pow]

/-- **C05 (unsigned).** The four-multiplication fallback returns the full 128-bit product. -/
theorem C05_mul128_unsigned (a b : BitVec 64) :
    (mul128 a b).1.toNat + 2 ^ 64 * (mul128 a b).2.toNat = a.toNat * b.toNat := by
  have hm : ∀ x y : Nat, x < 2 ^ 32 → y < 2 ^ 32 → x * y ≤ (2 ^ 32 - 1) * (2 ^ 32 - 1) :=
    fun x y hx hy => Nat.mul_le_mul (by omega) (by omega)
  have ea := Nat.div_add_mod a.toNat (2 ^ 32)
  have eb := Nat.div_add_mod b.toNat (2 ^ 32)
  have ha := a.isLt
  have hb := b.isLt
  have a0lt : a.toNat % 2 ^ 32 < 2 ^ 32 := Nat.mod_lt _ (by norm_num)
  have b0lt : b.toNat % 2 ^ 32 < 2 ^ 32 := Nat.mod_lt _ (by norm_num)
  have a1lt : a.toNat / 2 ^ 32 < 2 ^ 32 := by omega
  have b1lt : b.toNat / 2 ^ 32 < 2 ^ 32 := by omega
  have hlow : ∀ x y : BitVec 64, (((x <<< 32) ||| (y &&& 0xFFFFFFFF#64))).toNat =
      (x.toNat % 2 ^ 32) * 2 ^ 32 + y.toNat % 2 ^ 32 := by
    intro x y
    rw [BitVec.toNat_or, and_lo32, BitVec.toNat_shiftLeft, Nat.shiftLeft_eq]
    have : x.toNat * 2 ^ 32 % 2 ^ 64 = 2 ^ 32 * (x.toNat % 2 ^ 32) := by omega
    rw [this, ← Nat.two_pow_add_eq_or_of_lt (Nat.mod_lt _ (by norm_num))]
    ring
  simp only [mul128]
  rw [hlow]
  simp only [BitVec.toNat_add, shr32, and_lo32, BitVec.toNat_mul]
  generalize a.toNat / 2 ^ 32 = a1 at *
  generalize a.toNat % 2 ^ 32 = a0 at *
  generalize b.toNat / 2 ^ 32 = b1 at *
  generalize b.toNat % 2 ^ 32 = b0 at *
  have h00 := hm a0 b0 a0lt b0lt
  have h10 := hm a1 b0 a1lt b0lt
  have h01 := hm a0 b1 a0lt b1lt
  have h11 := hm a1 b1 a1lt b1lt
  have hprod : a.toNat * b.toNat = 2 ^ 64 * (a1 * b1) + 2 ^ 32 * (a1 * b0) + 2 ^ 32 * (a0 * b1)
      + a0 * b0 := by
    rw [← ea, ← eb]; ring
  rw [hprod]
  generalize a0 * b0 = p00 at *
  generalize a1 * b0 = p10 at *
  generalize a0 * b1 = p01 at *
  generalize hp : a1 * b1 = p11 at *
  have hfull : 2 ^ 64 * p11 + 2 ^ 32 * p10 + 2 ^ 32 * p01 + p00 < 2 ^ 128 := by
    rw [← hprod]
    calc a.toNat * b.toNat < 2 ^ 64 * 2 ^ 64 := Nat.mul_lt_mul'' ha hb
      _ = 2 ^ 128 := by norm_num
  rw [Nat.mod_eq_of_lt (by omega : p00 < 2 ^ 64), Nat.mod_eq_of_lt (by omega : p10 < 2 ^ 64),
    Nat.mod_eq_of_lt (by omega : p01 < 2 ^ 64), Nat.mod_eq_of_lt (by omega : p11 < 2 ^ 64)]
  omega

theorem scalarShr63_and (a b : BitVec 64) :
    (scalarShrSigned a 63 &&& b) = if a.toInt < 0 then b else 0 := by
  unfold scalarShrSigned
  by_cases h : a.toInt < 0
  · rw [if_pos h, if_pos h]
    have hz : (~~~a) >>> 63 = 0 := by
      apply BitVec.eq_of_toNat_eq
      rw [BitVec.toNat_ushiftRight, Nat.shiftRight_eq_div_pow, BitVec.toNat_not]
      have : 2 ^ 63 ≤ a.toNat := by
        rw [BitVec.toInt_eq_toNat_cond] at h
        have := a.isLt
        split at h <;> omega
      simp; omega
    rw [hz, show ~~~(0 : BitVec 64) = BitVec.allOnes 64 from rfl, BitVec.allOnes_and]
  · rw [if_neg h, if_neg h]
    have hz : a >>> 63 = 0 := by
      apply BitVec.eq_of_toNat_eq
      rw [BitVec.toNat_ushiftRight, Nat.shiftRight_eq_div_pow]
      have : a.toNat < 2 ^ 63 := by
        rw [BitVec.toInt_eq_toNat_cond] at h
        have := a.isLt
        split at h <;> omega
      simp; omega
    rw [hz]; simp

/-- **C05 (signed).** Upper word read as signed, lower as unsigned, give the exact product. -/
theorem C05_mul128_signed (a b : BitVec 64) :
    ((mul128Signed a b).1.toNat : Int) + 2 ^ 64 * (mul128Signed a b).2.toInt
      = a.toInt * b.toInt := by
  have hU := C05_mul128_unsigned a b
  simp only [mul128Signed, scalarShr63_and]
  have hL := (mul128 a b).1.isLt
  have hH := (mul128 a b).2.isLt
  generalize hLv : (mul128 a b).1.toNat = L at *
  have ha := a.isLt
  have hb := b.isLt
  have key : ∀ (x y : BitVec 64), ((mul128 a b).2 - x - y).toInt =
      (((mul128 a b).2.toNat : Int) - x.toNat - y.toNat).bmod (2 ^ 64) := by
    intro x y
    rw [BitVec.toInt_sub, BitVec.toInt_sub]
    simp only [BitVec.toInt_eq_toNat_bmod]
    simp
  rw [key]
  -- signed values
  set sa : Int := a.toInt with hsa
  set sb : Int := b.toInt with hsb
  have ba : -(2 ^ 63) ≤ sa ∧ sa < 2 ^ 63 := ⟨BitVec.le_toInt a, BitVec.toInt_lt⟩
  have bb : -(2 ^ 63) ≤ sb ∧ sb < 2 ^ 63 := ⟨BitVec.le_toInt b, BitVec.toInt_lt⟩
  have ea : sa = (a.toNat : Int) - (if sa < 0 then 2 ^ 64 else 0) := by
    rw [hsa, BitVec.toInt_eq_toNat_cond]
    split <;> split <;> omega
  have eb : sb = (b.toNat : Int) - (if sb < 0 then 2 ^ 64 else 0) := by
    rw [hsb, BitVec.toInt_eq_toNat_cond]
    split <;> split <;> omega
  have hU' : (L : Int) + 2 ^ 64 * ((mul128 a b).2.toNat : Int) = (a.toNat : Int) * b.toNat := by
    exact_mod_cast hU
  generalize hHv : (mul128 a b).2.toNat = H at *
  -- bounds of the signed product
  have p1 : sa * sb ≤ 2 ^ 126 := by nlinarith
  have p2 : -(2 ^ 126) ≤ sa * sb := by nlinarith
  have fin : ∀ (z k : Int), (L : Int) + 2 ^ 64 * (z + 2 ^ 64 * k) = sa * sb →
      (L : Int) + 2 ^ 64 * (z.bmod (2 ^ 64)) = sa * sb := by
    intro z k hz
    have hbound : -(2 ^ 63) ≤ z + 2 ^ 64 * k ∧ z + 2 ^ 64 * k < 2 ^ 63 := by omega
    have : z.bmod (2 ^ 64) = z + 2 ^ 64 * k := by
      have h1 : (z + 2 ^ 64 * k).bmod (2 ^ 64) = z.bmod (2 ^ 64) := by
        have := Int.add_mul_bmod_self_left z (2 ^ 64) k
        simpa using this
      rw [← h1]
      apply Int.bmod_eq_of_le <;> norm_num <;> omega
    rw [this]; exact hz
  by_cases h1 : sa < 0 <;> by_cases h2 : sb < 0
  · simp only [h1, h2, if_true] at ea eb ⊢
    apply fin _ 1
    rw [ea, eb]; linear_combination hU'
  · simp only [h1, h2, if_true, if_false] at ea eb ⊢
    apply fin _ 0
    rw [ea, eb]; simp; linear_combination hU'
  · simp only [h1, h2, if_true, if_false] at ea eb ⊢
    apply fin _ 0
    rw [ea, eb]; simp; linear_combination hU'
  · simp only [h1, h2, if_false] at ea eb ⊢
    apply fin _ 0
    rw [ea, eb]; simp; linear_combination hU'

example : mul128 0xFFFFFFFFFFFFFFFF#64 0xFFFFFFFFFFFFFFFF#64 = (1#64, 0xFFFFFFFFFFFFFFFE#64) := by
  decide +kernel
example : mul128Signed 0xFFFFFFFFFFFFFFFF#64 3#64 = (0xFFFFFFFFFFFFFFFD#64, 0xFFFFFFFFFFFFFFFF#64) := by
  decide +kernel

end Hwy
