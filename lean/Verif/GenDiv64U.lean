import Verif.GenDiv64

/-!
# 64-bit unsigned division: the first remainder fits in 63 bits
-/

namespace Hwy
namespace Flt
open CInt

/-- Rounds up above the midpoint of two neighbours. -/
theorem near_up {F : Fmt} (S : Std F) {x : ℚ} {r c : Nat} (hc : c + 1 < F.inf) (h : IsNearestF F x r)
    (hx : F.real c + F.real (c + 1) < 2 * x) : F.real (c + 1) ≤ F.real r := by
  have hi := S.inf_lt
  have hf : F.Fin (c + 1) := by unfold Fmt.Fin; rw [mag_of_lt (by omega)]; exact hc
  rcases le_or_gt (F.real (c + 1)) x with h1 | h1
  · exact near_ge h hf h1
  · apply real_gap S hc
    have h2 := (h.2 _ hf).1
    rw [abs_of_pos (show 0 < F.real (c + 1) - x by linarith)] at h2
    have := neg_abs_le (F.real r - x)
    linarith

theorem real_code {k n e : Nat} (hk : k < f64.inf) (h : f64.val k = n * 2 ^ e) :
    f64.real k = (n : ℚ) * 2 ^ e / 2 ^ 1074 := by
  have hi := std64.inf_lt
  rw [real_mul std64 k 0, neg_of_lt (by omega), mag_of_lt (by omega), h]
  obtain ⟨_, e2, _⟩ := f64_facts
  rw [e2]
  simp

theorem two_split (a b : Nat) : (2 : ℚ) ^ (a + b) / 2 ^ a = 2 ^ b := by
  have : (2 : ℚ) ^ a ≠ 0 := pow_ne_zero _ (by norm_num)
  rw [pow_add]
  field_simp

theorem two_split' (a b : Nat) : (2 : ℚ) ^ a / 2 ^ (a + b) = 1 / 2 ^ b := by
  have : (2 : ℚ) ^ a ≠ 0 := pow_ne_zero _ (by norm_num)
  rw [pow_add]
  field_simp

theorem code64 : f64.real 0x43EFFFFFFFFFFFFF = 2 ^ 64 - 2 ^ 11 ∧ f64.real 0x43F0000000000000 = 2 ^ 64 := by
  constructor
  · rw [real_code (n := 2 ^ 53 - 1) (e := 1085) (by decide +kernel) (by decide +kernel), mul_div_assoc,
      show (1085 : Nat) = 1074 + 11 from rfl, two_split]
    norm_num
  · rw [real_code (n := 1) (e := 1138) (by decide +kernel) (by decide +kernel), mul_div_assoc,
      show (1138 : Nat) = 1074 + 64 from rfl, two_split]
    norm_num

theorem code_m63 : f64.real 0x3C00000000000000 = 1 / 2 ^ 63 ∧ f64.real 0x3C00000000000001 = (1 + 1 / 2 ^ 52) / 2 ^ 63 := by
  constructor
  · rw [real_code (n := 1) (e := 1011) (by decide +kernel) (by decide +kernel), mul_div_assoc,
      show (1074 : Nat) = 1011 + 63 from rfl, two_split']
    norm_num
  · rw [real_code (n := 2 ^ 52 + 1) (e := 959) (by decide +kernel) (by decide +kernel), mul_div_assoc,
      show (1074 : Nat) = 959 + 115 from rfl, two_split']
    norm_num

theorem code_two : f64.real 0x3FFFFFFFFFFFFFFF = 2 - 1 / 2 ^ 52 ∧ f64.real 0x4000000000000000 = 2 := by
  constructor
  · rw [real_code (n := 2 ^ 53 - 1) (e := 1022) (by decide +kernel) (by decide +kernel), mul_div_assoc,
      show (1074 : Nat) = 1022 + 52 from rfl, two_split']
    norm_num
  · rw [real_code (n := 1) (e := 1075) (by decide +kernel) (by decide +kernel), mul_div_assoc,
      show (1075 : Nat) = 1074 + 1 from rfl, two_split]
    norm_num

/-- Multiples of `2^11` and of `2^10`, and reciprocals. -/
theorem rep_up {m k : Nat} (hm : m ≤ 2 ^ 53) (hk : k ≤ 200) : ∃ r, f64.Fin r ∧ f64.real r = (m : ℚ) * 2 ^ k := by
  obtain ⟨e1, e2, e3⟩ := f64_facts
  obtain ⟨r, h, e⟩ := rep_grid std64 false (m := m) (t := 1074 + k) (by rw [e1]; exact hm) (by rw [e1, e2, e3]; omega)
  refine ⟨r, h, ?_⟩
  rw [e, e2, mul_div_assoc, two_split]; simp

theorem rep_down {m k : Nat} (hm : m ≤ 2 ^ 53) (hk : k ≤ 1074) : ∃ r, f64.Fin r ∧ f64.real r = (m : ℚ) / 2 ^ k := by
  obtain ⟨e1, e2, e3⟩ := f64_facts
  obtain ⟨r, h, e⟩ := rep_grid std64 false (m := m) (t := 1074 - k) (by rw [e1]; exact hm) (by rw [e1, e2, e3]; omega)
  refine ⟨r, h, ?_⟩
  rw [e, e2, mul_div_assoc, show (2 : ℚ) ^ 1074 = 2 ^ (1074 - k + k) by congr 1; omega, two_split']
  simp [div_eq_mul_inv]

section
variable {a b : Int} {fb fr fa fp : Nat}

theorem Est.ge_one (E : Est a b fb fr fa fp) (hb0 : 0 < b) (hb : b < 2 ^ 63) (ha : 2 ^ 63 ≤ a) : 1 ≤ f64.real fp := by
  have hB1 := near_one_le E.hb (by omega)
  have hBp : 0 ≤ f64.real fb := by
    obtain ⟨r, hf, e⟩ := rep_up (m := 0) (k := 0) (by norm_num) (by omega)
    have := near_ge E.hb hf (by rw [e]; simp; exact_mod_cast hb0.le)
    rw [e] at this; simpa using this
  rw [abs_of_nonneg hBp] at hB1
  have hB : f64.real fb ≤ 2 ^ 63 := by
    obtain ⟨r, hf, e⟩ := rep_pow false (k := 63) (by omega)
    simp only [Bool.false_eq_true, if_false, one_mul] at e
    rw [← e]
    exact near_le E.hb hf (by rw [e]; exact_mod_cast hb.le)
  have hρ : 1 / 2 ^ 63 ≤ f64.real fr := by
    obtain ⟨r, hf, e⟩ := rep_down (m := 1) (k := 63) (by norm_num) (by omega)
    rw [Nat.cast_one] at e
    rw [← e]
    exact near_ge E.hr hf (by rw [e]; exact one_div_le_one_div_of_le (by linarith) hB)
  have hA : 2 ^ 63 ≤ f64.real fa := by
    obtain ⟨r, hf, e⟩ := rep_pow false (k := 63) (by omega)
    simp only [Bool.false_eq_true, if_false, one_mul] at e
    rw [← e]
    exact near_ge E.ha hf (by rw [e]; exact_mod_cast ha)
  obtain ⟨r, hf, e⟩ := rep_pow false (k := 0) (by omega)
  simp only [Bool.false_eq_true, if_false, one_mul, pow_zero] at e
  rw [← e]
  refine near_ge E.hp hf ?_
  rw [e]
  calc (1 : ℚ) = 2 ^ 63 * (1 / 2 ^ 63) := by norm_num
    _ ≤ _ := mul_le_mul hA hρ (by norm_num) (by linarith)

/-- The quotient estimate reaches two when `a ≥ 2^63 + b` and `b` is near `2^63`. -/
theorem Est.ge_two (E : Est a b fb fr fa fp) {m : Int} (hb : b = 2 ^ 63 - m) (hm : 0 < m) (hm2 : m < 2 ^ 14)
    (ha : 2 ^ 63 + b ≤ a) (ha2 : a < 2 ^ 64) : 2 ≤ f64.real fp := by
  obtain ⟨cA0, cA1⟩ := code64
  obtain ⟨cR0, cR1⟩ := code_m63
  obtain ⟨cP0, cP1⟩ := code_two
  have hbq : (b : ℚ) = 2 ^ 63 - m := by rw [hb]; push_cast; ring
  have haq : (2 : ℚ) ^ 64 - m ≤ a := by
    have : ((2 ^ 63 + b : Int) : ℚ) ≤ a := by exact_mod_cast ha
    push_cast at this
    rw [hbq] at this
    norm_num at this ⊢
    linarith
  have hB1 : 1 ≤ f64.real fb := by
    obtain ⟨r, hf, e⟩ := rep_up (m := 1) (k := 0) (by norm_num) (by omega)
    have := near_ge E.hb hf (by rw [e]; simp; exact_mod_cast (show 1 ≤ b by rw [hb]; norm_num at hm2 ⊢; omega))
    rw [e] at this; simpa using this
  -- bounds by the grid
  have gB : ∀ k : Nat, k ≤ 2 ^ 53 → (2 ^ 10 * (k : ℤ) ≤ m) → f64.real fb ≤ 2 ^ 63 - 2 ^ 10 * k := by
    intro k hk hkm
    obtain ⟨r, hf, e⟩ := rep_up (m := 2 ^ 53 - k) (k := 10) (by omega) (by omega)
    rw [Nat.cast_sub hk] at e
    have hkm' : (2 : ℚ) ^ 10 * k ≤ m := by exact_mod_cast hkm
    have := near_le E.hb hf (by rw [e, hbq]; push_cast; norm_num at hkm' ⊢; linarith)
    rw [e] at this
    push_cast at this
    norm_num at this ⊢
    linarith
  have gA : ∀ k : Nat, k ≤ 2 ^ 53 → (m ≤ 2 ^ 11 * (k : ℤ)) → 2 ^ 64 - 2 ^ 11 * (k : ℚ) ≤ f64.real fa := by
    intro k hk hkm
    obtain ⟨r, hf, e⟩ := rep_up (m := 2 ^ 53 - k) (k := 11) (by omega) (by omega)
    rw [Nat.cast_sub hk] at e
    have hkm' : (m : ℚ) ≤ 2 ^ 11 * k := by exact_mod_cast hkm
    have := near_ge E.ha hf (by rw [e]; push_cast; norm_num at hkm' haq ⊢; linarith)
    rw [e] at this
    push_cast at this
    norm_num at this ⊢
    linarith
  have gR : ∀ k : Nat, k ≤ 100 → f64.real fb ≤ 2 ^ 63 - 2 ^ 11 * k → (1 + (k : ℚ) / 2 ^ 52) / 2 ^ 63 ≤ f64.real fr := by
    intro k hk hkB
    obtain ⟨r, hf, e⟩ := rep_down (m := 2 ^ 52 + k) (k := 115) (by omega) (by omega)
    have hk' : (k : ℚ) ≤ 100 := by exact_mod_cast hk
    have e' : f64.real r = (1 + (k : ℚ) / 2 ^ 52) / 2 ^ 63 := by
      rw [e]; push_cast; norm_num; ring
    rw [← e']
    refine near_ge E.hr hf ?_
    rw [e', le_div_iff₀ (by linarith), div_mul_eq_mul_div, div_le_one (by positivity)]
    have h0 : (0 : ℚ) ≤ (k : ℚ) / 2 ^ 52 := div_nonneg (Nat.cast_nonneg k) (by norm_num)
    calc (1 + (k : ℚ) / 2 ^ 52) * f64.real fb ≤ (1 + (k : ℚ) / 2 ^ 52) * (2 ^ 63 - 2 ^ 11 * k) :=
          mul_le_mul_of_nonneg_left hkB (by linarith)
      _ = 2 ^ 63 - k * k / 2 ^ 41 := by ring
      _ ≤ 2 ^ 63 := by have : (0 : ℚ) ≤ k * k / 2 ^ 41 := div_nonneg (mul_nonneg (Nat.cast_nonneg k) (Nat.cast_nonneg k)) (by norm_num)
                       linarith
  have fin : 2 ≤ f64.real fa * f64.real fr → 2 ≤ f64.real fp := by
    intro h
    rw [← cP1] at h ⊢
    refine near_ge E.hp ?_ h
    unfold Fmt.Fin; decide +kernel
  have mulge : ∀ {x y : ℚ}, 0 ≤ x → 0 ≤ y → x ≤ f64.real fa → y ≤ f64.real fr → x * y ≤ f64.real fa * f64.real fr :=
    fun hx hy h1 h2 => mul_le_mul h1 h2 hy (le_trans hx h1)
  rcases lt_or_ge m (2 ^ 10) with c1 | c1
  · -- `a` rounds to `2^64`
    have hA : 2 ^ 64 ≤ f64.real fa := by
      rw [← cA1]
      refine near_up std64 (c := 0x43EFFFFFFFFFFFFF) (by decide +kernel) E.ha ?_
      rw [cA0, cA1]
      have : (m : ℚ) < 2 ^ 10 := by exact_mod_cast c1
      norm_num at this haq ⊢
      linarith
    have hρ := gR 0 (by omega) (by simpa using gB 0 (by omega) (by simpa using hm.le))
    refine fin (le_trans ?_ (mulge (by norm_num) (by norm_num) hA hρ))
    norm_num
  rcases lt_or_ge m (2 ^ 11) with c2 | c2
  · have hA := gA 1 (by norm_num) (by push_cast; omega)
    have hB := gB 1 (by norm_num) (by push_cast; omega)
    have hρ : (1 + 1 / 2 ^ 52) / 2 ^ 63 ≤ f64.real fr := by
      rw [← cR1]
      refine near_up std64 (c := 0x3C00000000000000) (by decide +kernel) E.hr ?_
      rw [cR0, cR1, mul_one_div, lt_div_iff₀ (by linarith)]
      calc _ ≤ (1 / 2 ^ 63 + (1 + 1 / 2 ^ 52) / 2 ^ 63) * (2 ^ 63 - 2 ^ 10 * ((1 : Nat) : ℚ)) :=
            mul_le_mul_of_nonneg_left hB (by norm_num)
        _ < 2 := by norm_num
    refine fin (le_trans ?_ (mulge ?_ (by norm_num) hA hρ))
    · norm_num
    · norm_num
  rcases lt_or_ge m (2 ^ 12) with c3 | c3
  · have hA := gA 2 (by norm_num) (by push_cast; omega)
    have hB := gB 2 (by norm_num) (by push_cast; omega)
    have hρ := gR 1 (by norm_num) (le_trans hB (by norm_num))
    have hX := mulge (by norm_num) (by norm_num) hA hρ
    rw [← cP1]
    refine near_up std64 (c := 0x3FFFFFFFFFFFFFFF) (by decide +kernel) E.hp ?_
    rw [cP0, cP1]
    refine lt_of_lt_of_le ?_ (mul_le_mul_of_nonneg_left hX (by norm_num))
    norm_num
  · obtain ⟨j, hj⟩ : ∃ j : Nat, m / 2 ^ 11 = (j : ℤ) := ⟨(m / 2 ^ 11).toNat, by norm_num at *; omega⟩
    norm_num at hj hm2 c3
    have h1 : 2 ≤ j ∧ j < 8 ∧ 2048 * (j : ℤ) ≤ m ∧ m ≤ 2048 * ((j : ℤ) + 1) := by omega
    have hA := gA (j + 1) (by omega) (by push_cast; norm_num; omega)
    have hB := gB (2 * j) (by omega) (by push_cast; norm_num; omega)
    have hρ := gR j (by omega) (le_trans hB (by push_cast; norm_num; linarith))
    have hX := mulge ?_ (div_nonneg (add_nonneg (by norm_num) (div_nonneg (Nat.cast_nonneg j) (by norm_num))) (by norm_num)) hA hρ
    · refine fin (le_trans ?_ hX)
      obtain ⟨p1, p2, _⟩ := h1
      interval_cases j <;> norm_num
    · have : (j : ℚ) < 8 := by exact_mod_cast h1.2.1
      push_cast; norm_num; linarith

/-- **The first remainder of unsigned division fits.** -/
theorem Est.fits_u (E : Est a b fb fr fa fp) (hb0 : 0 < b) (hb : b < 2 ^ 63) (ha0 : 0 ≤ a) (ha : a < 2 ^ 64)
    (h : Close a b (truncQ (f64.real fp))) (hp : 0 ≤ f64.real fp) : i64.Has (a - truncQ (f64.real fp) * b) := by
  obtain ⟨l, u, d⟩ := h
  have hs : sg2 a = 1 := by unfold sg2; rw [if_neg (by omega)]
  rw [hs, one_mul] at l u d
  rw [abs_of_nonneg ha0] at l u
  rw [abs_of_pos hb0] at u d
  obtain ⟨t1, t2, t3⟩ := truncQ_nonneg hp
  show -9223372036854775808 ≤ a - truncQ (f64.real fp) * b ∧ a - truncQ (f64.real fp) * b ≤ 9223372036854775807
  have p63 : (2 : ℤ) ^ 63 = 9223372036854775808 := by norm_num
  have p64 : (2 : ℤ) ^ 64 = 18446744073709551616 := by norm_num
  have p50 : (2 : ℤ) ^ 50 = 1125899906842624 := by norm_num
  rw [p50] at l u
  rw [p63] at hb
  rw [p64] at ha
  by_cases hbig : b ≤ 9223372036854775808 - 16384
  · generalize truncQ (f64.real fp) * b = z at *
    omega
  have h1 : 9223372036854775808 ≤ a → 1 ≤ truncQ (f64.real fp) := by
    intro h1
    have := E.ge_one hb0 (by rw [p63]; exact hb) (by rw [p63]; exact h1)
    have : ((0 : ℤ) : ℚ) < ((truncQ (f64.real fp) + 0 : Int) : ℚ) + 0 → 1 ≤ truncQ (f64.real fp) := fun h => by
      have : (0 : ℤ) < truncQ (f64.real fp) := by push_cast at h; simpa using h
      omega
    by_contra hc
    have : truncQ (f64.real fp) = 0 := by omega
    rw [this] at t2
    norm_num at t2
    linarith
  have h2 : 9223372036854775808 + b ≤ a → 2 ≤ truncQ (f64.real fp) := by
    intro h2
    have := E.ge_two (m := 9223372036854775808 - b) (by rw [p63]; ring) (by omega) (by norm_num; omega) (by rw [p63]; exact h2)
      (by rw [p64]; exact ha)
    by_contra hc
    have hc' : truncQ (f64.real fp) ≤ 1 := by omega
    have : (truncQ (f64.real fp) : ℚ) ≤ 1 := by exact_mod_cast hc'
    linarith
  generalize truncQ (f64.real fp) = Q at *
  have h0 : 0 ≤ Q := t3
  rcases (show Q = 0 ∨ Q = 1 ∨ 2 ≤ Q by omega) with e | e | e
  · subst e; omega
  · subst e; omega
  · have : 2 * b ≤ Q * b := Int.mul_le_mul_of_nonneg_right e (by omega)
    generalize Q * b = z at *
    omega

end
end Flt
end Hwy
