import Verif.GenDivReal

/-!
# The reciprocal estimates of 64-bit integer division
-/

namespace Hwy
namespace Flt
open CInt

theorem f64_facts : f64.p = 52 ∧ f64.unit = 1074 ∧ f64.bias = 1023 := by decide

theorem fac64 {x : ℚ} {r : Nat} (h : IsNearestF f64 x r) (hx : 1 / 2 ^ 200 ≤ |x|) (hb : |x| ≤ 2 ^ 200) :
    ∃ d : ℚ, |d| ≤ 1 / 2 ^ 53 ∧ f64.real r = x * (1 + d) := by
  obtain ⟨e1, e2, e3⟩ := f64_facts
  have h1 := near_factor std64 h ?_ ?_
  · rw [e1] at h1; exact h1
  · rw [e1, e2]
    have h3 : (0 : ℚ) < 2 ^ 1074 := pow_pos (by norm_num) _
    calc (2 : ℚ) ^ 52 ≤ 2 ^ 874 := pow_le_pow_right₀ (by norm_num) (by norm_num)
      _ = 1 / 2 ^ 200 * 2 ^ 1074 := by
        rw [one_div, eq_inv_mul_iff_mul_eq₀ (pow_ne_zero _ (by norm_num)), ← pow_add]
      _ ≤ |x| * 2 ^ 1074 := mul_le_mul_of_nonneg_right hx h3.le
  · rw [e3]
    exact lt_of_le_of_lt hb (pow_lt_pow_right₀ (by norm_num) (by norm_num))

/-- The four rounded quantities behind a quotient estimate. -/
structure Est (a b : Int) (fb fr fa fp : Nat) : Prop where
  hb : IsNearestF f64 b fb
  hr : IsNearestF f64 (1 / f64.real fb) fr
  ha : IsNearestF f64 a fa
  hp : IsNearestF f64 (f64.real fa * f64.real fr) fp

theorem mul_one_add_abs {x d : ℚ} (hd : |d| ≤ 1 / 2 ^ 53) : |x| / 2 ≤ |x * (1 + d)| ∧ |x * (1 + d)| ≤ |x| * 2 := by
  have h := abs_le.1 hd
  have hx := abs_nonneg x
  have e : |1 + d| = 1 + d := abs_of_nonneg (by norm_num at h; linarith)
  rw [abs_mul, e]
  norm_num at h
  constructor <;> nlinarith

section
variable {a b : Int} {fb fr fa fp : Nat}

theorem est_b (h : IsNearestF f64 b fb) (hb : b ≠ 0) (hb2 : |b| ≤ 2 ^ 63) :
    ∃ d : ℚ, |d| ≤ 1 / 2 ^ 53 ∧ f64.real fb = b * (1 + d) := by
  have h1 : (1 : ℚ) ≤ |(b : ℚ)| := by exact_mod_cast Int.one_le_abs hb
  have h2 : |(b : ℚ)| ≤ 2 ^ 63 := by exact_mod_cast hb2
  refine fac64 h (le_trans ?_ h1) (le_trans h2 (pow_le_pow_right₀ (by norm_num) (by norm_num)))
  rw [div_le_one (by positivity)]
  exact one_le_pow₀ (by norm_num)

/-- **The estimate** `P` of `a / b` has a relative error of at most `2^-50`. -/
theorem Est.bound (E : Est a b fb fr fa fp) (hb : b ≠ 0) (hb2 : |b| ≤ 2 ^ 63) (ha2 : |a| ≤ 2 ^ 64) :
    |f64.real fp * b - a| ≤ |(a : ℚ)| / 2 ^ 50 := by
  obtain ⟨d1, hd1, e1⟩ := est_b E.hb hb hb2
  have hb1 : (1 : ℚ) ≤ |(b : ℚ)| := by exact_mod_cast Int.one_le_abs hb
  have hb2' : |(b : ℚ)| ≤ 2 ^ 63 := by exact_mod_cast hb2
  have hbne : (b : ℚ) ≠ 0 := by exact_mod_cast hb
  obtain ⟨l1, u1⟩ := mul_one_add_abs (x := (b : ℚ)) hd1
  have hB : (0 : ℚ) < |(b : ℚ) * (1 + d1)| := by linarith
  have p200 : (2 : ℚ) ^ 66 ≤ 2 ^ 200 := pow_le_pow_right₀ (by norm_num) (by norm_num)
  have p130 : (2 : ℚ) ^ 130 ≤ 2 ^ 200 := pow_le_pow_right₀ (by norm_num) (by norm_num)
  have hBr : 1 / 2 ^ 64 ≤ |1 / ((b : ℚ) * (1 + d1))| ∧ |1 / ((b : ℚ) * (1 + d1))| ≤ 2 := by
    rw [abs_div, abs_one]
    constructor
    · apply one_div_le_one_div_of_le hB
      calc _ ≤ |(b : ℚ)| * 2 := u1
        _ ≤ 2 ^ 63 * 2 := mul_le_mul_of_nonneg_right hb2' (by norm_num)
        _ = 2 ^ 64 := by norm_num
    · rw [div_le_iff₀ hB]; linarith
  obtain ⟨d2, hd2, e2⟩ := fac64 E.hr (by
      rw [e1]; refine le_trans ?_ hBr.1
      exact one_div_le_one_div_of_le (by positivity) (pow_le_pow_right₀ (by norm_num) (by norm_num)))
    (by rw [e1]; refine le_trans hBr.2 (le_trans ?_ p200); norm_num)
  rw [e1] at e2
  obtain ⟨l2, u2⟩ := mul_one_add_abs (x := 1 / ((b : ℚ) * (1 + d1))) hd2
  by_cases ha0 : a = 0
  · have hA : f64.real fa = 0 := by
      obtain ⟨r', hf, er⟩ := rep_int std64 (by decide) false (m := 0) (by positivity)
      have := nearest_exact std64 E.ha hf (by rw [er, ha0]; simp)
      rw [this, ha0]; simp
    have hP : f64.real fp = 0 := by
      obtain ⟨r', hf, er⟩ := rep_int std64 (by decide) false (m := 0) (by positivity)
      have := nearest_exact std64 E.hp hf (by rw [er, hA]; simp)
      rw [this, hA]; simp
    rw [hP, ha0]; simp
  have ha1 : (1 : ℚ) ≤ |(a : ℚ)| := by exact_mod_cast Int.one_le_abs ha0
  have ha2' : |(a : ℚ)| ≤ 2 ^ 64 := by exact_mod_cast ha2
  obtain ⟨d3, hd3, e3⟩ := fac64 E.ha (by
      refine le_trans ?_ ha1
      rw [div_le_one (by positivity)]
      exact one_le_pow₀ (by norm_num))
    (le_trans ha2' (pow_le_pow_right₀ (by norm_num) (by norm_num)))
  obtain ⟨l3, u3⟩ := mul_one_add_abs (x := (a : ℚ)) hd3
  have hx : |f64.real fa * f64.real fr| =
      |(a : ℚ) * (1 + d3)| * |1 / ((b : ℚ) * (1 + d1)) * (1 + d2)| := by rw [e3, e2, abs_mul]
  obtain ⟨d4, hd4, e4⟩ := fac64 E.hp (by
      rw [hx]
      calc (1 : ℚ) / 2 ^ 200 ≤ 1 / 2 * (1 / 2 ^ 64 / 2) := by norm_num
        _ ≤ _ := mul_le_mul (by linarith) (by linarith [hBr.1]) (by norm_num) (by positivity))
    (by
      rw [hx]
      calc _ ≤ (2 ^ 64 * 2) * (2 * 2 : ℚ) := mul_le_mul (by linarith) (by linarith [hBr.2]) (by positivity) (by norm_num)
        _ ≤ 2 ^ 200 := by norm_num)
  -- combine
  have hd1' := abs_le.1 hd1
  have hd2' := abs_le.1 hd2
  have hd3' := abs_le.1 hd3
  have hd4' := abs_le.1 hd4
  have hne : 1 + d1 ≠ 0 := by norm_num at hd1'; intro h; linarith
  have hpos : 0 < 1 + d1 := by norm_num at hd1'; linarith
  have eP : f64.real fp * b = a * ((1 + d2) * (1 + d3) * (1 + d4) / (1 + d1)) := by
    rw [e4, e3, e2]; field_simp
  rw [eP, show (a : ℚ) * ((1 + d2) * (1 + d3) * (1 + d4) / (1 + d1)) - a =
      a * (((1 + d2) * (1 + d3) * (1 + d4) - (1 + d1)) / (1 + d1)) by field_simp, abs_mul, div_eq_mul_inv |(a : ℚ)|]
  apply mul_le_mul_of_nonneg_left _ (abs_nonneg _)
  rw [abs_div, abs_of_pos hpos, div_le_iff₀ hpos]
  have q1 : |d2 * d3| ≤ 1 / 2 ^ 53 * (1 / 2 ^ 53) := by
    rw [abs_mul]; exact mul_le_mul hd2 hd3 (abs_nonneg _) (by positivity)
  have q2 : |d2 * d4| ≤ 1 / 2 ^ 53 * (1 / 2 ^ 53) := by
    rw [abs_mul]; exact mul_le_mul hd2 hd4 (abs_nonneg _) (by positivity)
  have q3 : |d3 * d4| ≤ 1 / 2 ^ 53 * (1 / 2 ^ 53) := by
    rw [abs_mul]; exact mul_le_mul hd3 hd4 (abs_nonneg _) (by positivity)
  have q4 : |d2 * d3 * d4| ≤ 1 / 2 ^ 53 * (1 / 2 ^ 53) * (1 / 2 ^ 53) := by
    rw [abs_mul]; exact mul_le_mul q1 hd4 (abs_nonneg _) (by positivity)
  have e5 : (1 + d2) * (1 + d3) * (1 + d4) - (1 + d1) =
      d2 + d3 + d4 - d1 + (d2 * d3 + d2 * d4 + d3 * d4 + d2 * d3 * d4) := by ring
  rw [e5]
  rw [abs_le] at q1 q2 q3 q4 ⊢
  generalize d2 * d3 * d4 = z4 at *
  generalize d2 * d3 = z1 at *
  generalize d2 * d4 = z2 at *
  generalize d3 * d4 = z3 at *
  norm_num at q1 q2 q3 q4 hd1' hd2' hd3' hd4' ⊢
  constructor <;> linarith [q1.1, q1.2]

/-- The remainder after subtracting the truncated estimate. -/
theorem rem_bound {P : ℚ} {a b : Int} (hb : b ≠ 0) (h : |P * b - a| ≤ |(a : ℚ)| / 2 ^ 50) {s : Int}
    (hs : s = if a < 0 then -1 else 1) :
    -(|(a : ℚ)| / 2 ^ 50) ≤ ((s * (a - truncQ P * b) : Int) : ℚ) ∧
      ((s * (a - truncQ P * b) : Int) : ℚ) < |(b : ℚ)| + |(a : ℚ)| / 2 ^ 50 := by
  -- reduce to a ≥ 0, b > 0
  have core : ∀ {P : ℚ} {a b : Int}, 0 ≤ a → 0 < b → |P * b - a| ≤ |(a : ℚ)| / 2 ^ 50 →
      -((a : ℚ) / 2 ^ 50) ≤ ((a - truncQ P * b : Int) : ℚ) ∧ ((a - truncQ P * b : Int) : ℚ) < (b : ℚ) + a / 2 ^ 50 := by
    intro P a b ha hb h
    have ha' : (0 : ℚ) ≤ a := by exact_mod_cast ha
    have hb' : (0 : ℚ) < b := by exact_mod_cast hb
    rw [abs_of_nonneg ha', abs_le] at h
    have hP : 0 ≤ P := by
      by_contra hc
      have : P * b < 0 := mul_neg_of_neg_of_pos (not_le.1 hc) hb'
      norm_num at h
      by_cases h0 : (a : ℚ) = 0
      · rw [h0] at h; linarith [h.1]
      · have : 0 < (a : ℚ) := lt_of_le_of_ne ha' (Ne.symm h0)
        linarith [h.1]
    obtain ⟨t1, t2, _⟩ := truncQ_nonneg hP
    push_cast
    constructor <;> nlinarith [h.1, h.2]
  have hneg : ∀ {P : ℚ} {a b : Int}, |P * b - a| ≤ |(a : ℚ)| / 2 ^ 50 → |-P * b - (-a : Int)| ≤ |((-a : Int) : ℚ)| / 2 ^ 50 := by
    intro P a b h
    push_cast
    rw [abs_neg, show -P * b - -(a : ℚ) = -(P * b - a) by ring, abs_neg]; exact h
  have hnegb : ∀ {P : ℚ} {a b : Int}, |P * b - a| ≤ |(a : ℚ)| / 2 ^ 50 → |-P * (-b : Int) - a| ≤ |(a : ℚ)| / 2 ^ 50 := by
    intro P a b h
    push_cast
    rw [show -P * -(b : ℚ) - a = P * b - a by ring]; exact h
  rcases lt_or_ge a 0 with h1 | h1 <;> rcases lt_or_gt_of_ne hb with h2 | h2
  · have := core (P := P) (a := -a) (b := -b) (by omega) (by omega) (by
      have := hnegb (hneg h); rw [neg_neg] at this; exact this)
    rw [hs, if_pos h1]
    have ea : |(a : ℚ)| = ((-a : Int) : ℚ) := by rw [abs_of_neg (by exact_mod_cast h1)]; push_cast; ring
    have eb : |(b : ℚ)| = ((-b : Int) : ℚ) := by rw [abs_of_neg (by exact_mod_cast h2)]; push_cast; ring
    rw [ea, eb, show (-1 * (a - truncQ P * b) : Int) = -a - truncQ P * -b by ring]
    exact this
  · have := core (P := -P) (a := -a) (b := b) (by omega) h2 (hneg h)
    rw [hs, if_pos h1]
    have ea : |(a : ℚ)| = ((-a : Int) : ℚ) := by rw [abs_of_neg (by exact_mod_cast h1)]; push_cast; ring
    have eb : |(b : ℚ)| = (b : ℚ) := by rw [abs_of_pos (by exact_mod_cast h2)]
    rw [ea, eb, show (-1 * (a - truncQ P * b) : Int) = -a - truncQ (-P) * b by rw [truncQ_neg]; ring]
    exact this
  · have := core (P := -P) (a := a) (b := -b) h1 (by omega) (hnegb h)
    rw [hs, if_neg (not_lt.2 h1)]
    have ea : |(a : ℚ)| = (a : ℚ) := by rw [abs_of_nonneg (by exact_mod_cast h1)]
    have eb : |(b : ℚ)| = ((-b : Int) : ℚ) := by rw [abs_of_neg (by exact_mod_cast h2)]; push_cast; ring
    rw [ea, eb, show (1 * (a - truncQ P * b) : Int) = a - truncQ (-P) * -b by rw [truncQ_neg]; ring]
    exact this
  · have := core (P := P) (a := a) (b := b) h1 h2 h
    rw [hs, if_neg (not_lt.2 h1)]
    have ea : |(a : ℚ)| = (a : ℚ) := by rw [abs_of_nonneg (by exact_mod_cast h1)]
    have eb : |(b : ℚ)| = (b : ℚ) := by rw [abs_of_pos (by exact_mod_cast h2)]
    rw [ea, eb, one_mul]
    exact this

end

/-! ### Integer part -/

/-- The truncated quotient is determined by a remainder of the sign of `a`. -/
theorem tdiv_of_rem {a b q s : Int} (hs : s = if a < 0 then -1 else 1) (hb : b ≠ 0) (h0 : 0 ≤ s * (a - q * b))
    (h1 : s * (a - q * b) < |b|) : a.tdiv b = q := by
  have core : ∀ {a b q : Int}, 0 ≤ a → b ≠ 0 → 0 ≤ a - q * b → a - q * b < |b| → a.tdiv b = q := by
    intro a b q ha hb h0 h1
    rw [Int.tdiv_eq_ediv_of_nonneg ha]
    have e : a = (a - q * b) + q * b := by ring
    rw [e, Int.add_mul_ediv_right _ _ hb]
    have : (a - q * b) / b = 0 := by
      rcases lt_or_gt_of_ne hb with h | h
      · rw [abs_of_neg h] at h1
        generalize a - q * b = r at *
        have : r / (-b) = 0 := Int.ediv_eq_zero_of_lt h0 h1
        rw [Int.ediv_neg] at this; omega
      · rw [abs_of_pos h] at h1
        exact Int.ediv_eq_zero_of_lt h0 h1
    rw [this, zero_add]
  by_cases h : a < 0
  · rw [if_pos h] at hs
    have := core (a := -a) (b := b) (q := -q) (by omega) hb (by rw [hs] at h0; linarith) (by rw [hs] at h1; linarith)
    rw [Int.neg_tdiv] at this
    omega
  · rw [if_neg h] at hs
    exact core (by omega) hb (by rw [hs] at h0; linarith) (by rw [hs] at h1; linarith)

end Flt
end Hwy
