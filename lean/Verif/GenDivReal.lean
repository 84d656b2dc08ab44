import Verif.EmuFArithSpec

/-!
# Error bounds of rounding, and the estimate of integer division
-/

namespace Hwy
namespace Flt
open CInt

section
variable {F : Fmt} (S : Std F)

theorem near_le {x : ℚ} {r : Nat} (h : IsNearestF F x r) {r' : Nat} (hf : F.Fin r') (hx : x ≤ F.real r') :
    F.real r ≤ F.real r' := by
  by_contra hc
  have hc := not_le.1 hc
  have := (h.2 r' hf).1
  rw [abs_of_nonneg (by linarith), abs_of_nonneg (by linarith)] at this
  linarith

theorem near_ge {x : ℚ} {r : Nat} (h : IsNearestF F x r) {r' : Nat} (hf : F.Fin r') (hx : F.real r' ≤ x) :
    F.real r' ≤ F.real r := by
  by_contra hc
  have hc := not_le.1 hc
  have := (h.2 r' hf).1
  rw [abs_of_nonpos (by linarith), abs_of_nonpos (by linarith)] at this
  linarith

include S

/-- Representable values. -/
theorem rep_grid (b : Bool) {m t : Nat} (hm : m ≤ 2 ^ (F.p + 1)) (ht : F.p + 1 + t ≤ F.unit + F.bias) :
    ∃ r, F.Fin r ∧ F.real r = (if b then -1 else 1) * ((m : ℚ) * 2 ^ t / 2 ^ F.unit) := by
  have hv : m * 2 ^ t ≤ 2 ^ (F.p + 1 + t) := by rw [Nat.pow_add]; exact Nat.mul_le_mul_right _ hm
  obtain ⟨c, hc, hval, _⟩ := rnd_exact S (t := t) (v := m * 2 ^ t) (Dvd.intro_left m rfl) hv
    (Nat.lt_of_le_of_lt hv (Nat.pow_lt_pow_right (by decide) (by omega)))
  have hl : c < 2 ^ F.w := Nat.lt_trans hc S.inf_lt
  refine ⟨F.pack b c, ?_, ?_⟩
  · unfold Fmt.Fin; rw [mag_pack hl]; exact hc
  · rw [real_mul S _ 0, neg_pack hl, mag_pack hl, hval]; push_cast; cases b <;> simp [neg_div]

/-- Integers up to `2^(p+1)`. -/
theorem rep_int (hbig : F.p + 1 ≤ F.bias) (b : Bool) {m : Nat} (hm : m ≤ 2 ^ (F.p + 1)) :
    ∃ r, F.Fin r ∧ F.real r = (if b then -1 else 1) * (m : ℚ) := by
  have := S.pb
  have h2 := S.p2
  obtain ⟨r, h, e⟩ := rep_grid S b (m := m) (t := F.unit) hm
    (by omega)
  exact ⟨r, h, by rw [e, mul_div_assoc, div_self (by positivity), mul_one]⟩

/-- Absolute error. -/
theorem near_err {x : ℚ} {r : Nat} (h : IsNearestF F x r) {e : Nat} (he : F.p ≤ e) (heb : e + 1 ≤ F.unit + F.bias)
    (hx : |x| * 2 ^ F.unit < 2 ^ (e + 1)) : |F.real r - x| ≤ 2 ^ (e - F.p) / 2 / 2 ^ F.unit := by
  have hU : (0 : ℚ) < 2 ^ F.unit := by positivity
  have hg : (0 : ℚ) < 2 ^ (e - F.p) := by positivity
  set g : ℚ := 2 ^ (e - F.p) with hgd
  set y : ℚ := |x| * 2 ^ F.unit with hyd
  have hy0 : 0 ≤ y := by positivity
  have h0 : (0 : ℚ) ≤ y / g + 1 / 2 := by positivity
  set m := ⌊y / g + 1 / 2⌋₊ with hmd
  have h1 : (m : ℚ) ≤ y / g + 1 / 2 := Nat.floor_le h0
  have h2 : y / g + 1 / 2 < m + 1 := Nat.lt_floor_add_one _
  have eP : (2 : ℚ) ^ (e + 1) = 2 ^ (F.p + 1) * g := by rw [hgd, ← pow_add]; congr 1; omega
  have h3 : y / g < 2 ^ (F.p + 1) := by rw [div_lt_iff₀ hg, ← eP]; exact hx
  have hm : m ≤ 2 ^ (F.p + 1) := by
    have : (m : ℚ) < ((2 ^ (F.p + 1) + 1 : Nat) : ℚ) := by push_cast; linarith
    have : m < 2 ^ (F.p + 1) + 1 := by exact_mod_cast this
    omega
  obtain ⟨r', hf, er⟩ := rep_grid S (decide (x < 0)) hm (t := e - F.p) (by omega)
  refine le_trans (h.2 r' hf).1 ?_
  have hσ : ∃ σ : ℚ, (if decide (x < 0) = true then (-1 : ℚ) else 1) = σ ∧ |σ| = 1 ∧ x = σ * (y / 2 ^ F.unit) := by
    refine ⟨_, rfl, by split_ifs <;> simp, ?_⟩
    rw [hyd, mul_div_assoc, div_self hU.ne', mul_one]
    by_cases hc : x < 0
    · simp [hc, abs_of_neg hc]
    · simp [hc, abs_of_nonneg (not_lt.1 hc)]
  obtain ⟨σ, e0, h1σ, ex⟩ := hσ
  have key : |F.real r' - x| = |(m : ℚ) * g / 2 ^ F.unit - y / 2 ^ F.unit| := by
    rw [er, e0]
    calc |σ * ((m : ℚ) * 2 ^ (e - F.p) / 2 ^ F.unit) - x|
        = |σ * ((m : ℚ) * g / 2 ^ F.unit) - σ * (y / 2 ^ F.unit)| := by rw [← ex]
      _ = |(m : ℚ) * g / 2 ^ F.unit - y / 2 ^ F.unit| := by rw [← mul_sub, abs_mul, h1σ, one_mul]
  rw [key, ← sub_div, abs_div, abs_of_pos hU, div_le_div_iff_of_pos_right hU, abs_le]
  have e3 : y / g * g = y := by field_simp
  constructor <;> nlinarith

/-- Relative error of normal numbers. -/
theorem near_rel {x : ℚ} {r : Nat} (h : IsNearestF F x r) (hx : 2 ^ F.p ≤ |x| * 2 ^ F.unit)
    (hb : |x| < 2 ^ F.bias) : |F.real r - x| ≤ |x| / 2 ^ (F.p + 1) := by
  have hU : (0 : ℚ) < 2 ^ F.unit := by positivity
  have hP : (0 : ℚ) < 2 ^ F.p := by positivity
  set y : ℚ := |x| * 2 ^ F.unit with hyd
  have hy0 : 0 ≤ y := by positivity
  set n := ⌊y⌋₊ with hnd
  have hn1 : (n : ℚ) ≤ y := Nat.floor_le hy0
  have hn2 : y < n + 1 := Nat.lt_floor_add_one _
  have hnP : 2 ^ F.p ≤ n := Nat.le_floor (by push_cast; exact hx)
  have hn0 : n ≠ 0 := by have := Nat.two_pow_pos F.p; omega
  have hl1 := Nat.log2_self_le hn0
  have hl2 := Nat.lt_log2_self (n := n)
  generalize Nat.log2 n = e at *
  have he : F.p ≤ e := by
    have : 2 ^ F.p < 2 ^ (e + 1) := Nat.lt_of_le_of_lt hnP hl2
    have := (Nat.pow_lt_pow_iff_right (a := 2) (by decide)).1 this
    omega
  have hy2 : y < 2 ^ (e + 1) := by
    have : ((n + 1 : Nat) : ℚ) ≤ ((2 ^ (e + 1) : Nat) : ℚ) := by exact_mod_cast hl2
    push_cast at this
    linarith
  have hy1 : (2 : ℚ) ^ e ≤ y := by
    have : ((2 ^ e : Nat) : ℚ) ≤ (n : ℚ) := by exact_mod_cast hl1
    push_cast at this
    linarith
  have heb : e + 1 ≤ F.unit + F.bias := by
    have : y < 2 ^ (F.unit + F.bias) := by
      rw [hyd, pow_add, mul_comm]; exact mul_lt_mul_of_pos_left hb hU
    have : (2 : ℚ) ^ e < 2 ^ (F.unit + F.bias) := lt_of_le_of_lt hy1 this
    have := (pow_lt_pow_iff_right₀ (a := (2:ℚ)) (by norm_num)).1 this
    omega
  refine le_trans (near_err S h he heb hy2) ?_
  have e1 : (2 : ℚ) ^ (e - F.p) = 2 ^ e / 2 ^ F.p := by
    rw [eq_div_iff hP.ne', ← pow_add]; congr 1; omega
  rw [e1, pow_succ, div_div, div_div, div_le_div_iff₀ (by positivity) (by positivity)]
  rw [hyd] at hy1
  nlinarith [mul_pos hP (show (0:ℚ) < 2 by norm_num)]

theorem lt_over {x : ℚ} (hb : |x| < 2 ^ F.bias) : |x| < F.over := by
  refine lt_of_lt_of_le hb ?_
  unfold Fmt.over
  rw [S.val_inf]
  have hU : (0 : ℚ) < 2 ^ F.unit := by positivity
  rw [le_div_iff₀ hU, le_div_iff₀ (by norm_num)]
  push_cast
  have : (0 : ℚ) ≤ (F.val (F.inf - 1) : ℚ) := by positivity
  rw [show F.unit + F.bias + 1 = F.bias + F.unit + 1 by omega, pow_succ, pow_add]
  linarith

/-- In the factor form. -/
theorem near_factor {x : ℚ} {r : Nat} (h : IsNearestF F x r) (hx : 2 ^ F.p ≤ |x| * 2 ^ F.unit)
    (hb : |x| < 2 ^ F.bias) : ∃ d : ℚ, |d| ≤ 1 / 2 ^ (F.p + 1) ∧ F.real r = x * (1 + d) := by
  have h1 := near_rel S h hx hb
  have hx0 : x ≠ 0 := by
    intro h0
    rw [h0, abs_zero, zero_mul] at hx
    have : (0 : ℚ) < 2 ^ F.p := by positivity
    linarith
  refine ⟨(F.real r - x) / x, ?_, by field_simp; ring⟩
  rw [abs_div, div_le_iff₀ (abs_pos.2 hx0), one_div, mul_comm, ← div_eq_mul_inv]
  exact h1

/-- The next code. -/
theorem real_gap {c r : Nat} (hc : c + 1 < F.inf) (hr : F.real c < F.real r) : F.real (c + 1) ≤ F.real r := by
  have hU : (0 : ℚ) < 2 ^ F.unit := by positivity
  have hi := S.inf_lt
  have hn : ∀ k, k < F.inf → F.real k = (F.val k : ℚ) / 2 ^ F.unit := fun k hk => by
    rw [real_mul S k 0, neg_of_lt (by omega), mag_of_lt (by omega)]; simp
  rw [hn c (by omega)] at hr
  rw [hn (c + 1) hc]
  rw [real_mul S r 0] at hr ⊢
  have h0 : (0 : ℚ) ≤ (F.val c : ℚ) / 2 ^ F.unit := by positivity
  have h1 : (0 : ℚ) ≤ ((F.val (F.mag r) : Nat) : ℚ) / 2 ^ F.unit := by positivity
  cases hneg : F.neg r
  · rw [hneg] at hr
    simp only [Bool.false_eq_true, if_false, one_mul, pow_zero, mul_one, Nat.add_zero] at hr ⊢
    rw [div_lt_div_iff_of_pos_right hU] at hr
    rw [div_le_div_iff_of_pos_right hU]
    have : F.val c < F.val (F.mag r) := by exact_mod_cast hr
    have := (val_lt_iff F).1 this
    exact_mod_cast val_mono F this
  · rw [hneg] at hr
    simp only [if_true, pow_zero, mul_one, Nat.add_zero, neg_one_mul, neg_mul, one_mul, neg_div] at hr
    linarith

end

/-- `truncQ` by magnitude. -/
theorem truncQ_nonneg {x : ℚ} (h : 0 ≤ x) : (truncQ x : ℚ) ≤ x ∧ x < truncQ x + 1 ∧ 0 ≤ truncQ x := by
  unfold truncQ
  rw [if_pos h]
  exact ⟨Int.floor_le x, Int.lt_floor_add_one x, Int.floor_nonneg.2 h⟩

theorem truncQ_neg (x : ℚ) : truncQ (-x) = -truncQ x := by
  unfold truncQ
  rcases lt_trichotomy x 0 with h | h | h
  · rw [if_pos (by linarith), if_neg (by linarith), Int.floor_neg]
  · rw [h]; simp
  · rw [if_neg (by linarith), if_pos h.le, Int.ceil_neg]

theorem truncQ_unique {x : ℚ} {n : ℤ} (h0 : 0 ≤ n) (h1 : (n : ℚ) ≤ x) (h2 : x < n + 1) : truncQ x = n := by
  unfold truncQ
  rw [if_pos (le_trans (by exact_mod_cast h0) h1)]
  exact Int.floor_eq_iff.2 ⟨h1, h2⟩

/-! ### Division with a wide enough mantissa -/

section
variable {F : Fmt} (S : Std F)
include S

theorem div_trunc_nonneg (hbig : 2 * F.p + 2 ≤ F.unit) {a b r : Nat} (ha : a < 2 ^ (F.p + 1)) (hb : 0 < b) (hbF : b ≤ 2 ^ (F.p + 1))
    (h : IsNearestF F ((a : ℚ) / b) r) : truncQ (F.real r) = ((a / b : Nat) : ℤ) := by
  have hbq : (0 : ℚ) < b := by exact_mod_cast hb
  have hdm := Nat.div_add_mod a b
  have hlt := Nat.mod_lt a hb
  set q := a / b with hq
  set m := a % b with hm
  have hqa : q ≤ a := Nat.div_le_self a b
  have hqa2 : q * b ≤ a := by rw [Nat.mul_comm]; omega
  have hx1 : (q : ℚ) ≤ (a : ℚ) / b := by rw [le_div_iff₀ hbq]; exact_mod_cast hqa2
  have hx2 : (a : ℚ) / b ≤ q + 1 - 1 / b := by
    rw [div_le_iff₀ hbq, sub_mul, div_mul_cancel₀ _ hbq.ne']
    have : a + 1 ≤ (q + 1) * b := by rw [Nat.add_mul, Nat.mul_comm q b]; omega
    have : (a : ℚ) + 1 ≤ (q + 1) * b := by exact_mod_cast this
    linarith
  refine truncQ_unique (by positivity) ?_ ?_
  · obtain ⟨r', hf, er⟩ := rep_int S (by have := S.unit_eq; omega) false (m := q) (by omega)
    have := near_ge h hf (by rw [er]; simpa using hx1)
    rw [er] at this
    push_cast; simpa using this
  · by_cases ha0 : a = 0
    · obtain ⟨r', hf, er⟩ := rep_int S (by have := S.unit_eq; omega) false (m := 0) (by omega)
      have := near_le h hf (by rw [er, ha0]; simp)
      rw [er] at this
      have hq0 : (0 : ℚ) ≤ q := by positivity
      push_cast at this ⊢
      simp only [mul_zero] at this
      linarith
    · have ha1 : (1 : ℚ) ≤ a := by exact_mod_cast Nat.one_le_iff_ne_zero.2 ha0
      have hbl : (b : ℚ) ≤ 2 ^ (F.p + 1) := by exact_mod_cast hbF
      have hal : (a : ℚ) < 2 ^ (F.p + 1) := by exact_mod_cast ha
      have hPp : (0 : ℚ) < 2 ^ (F.p + 1) := by positivity
      have hxp : 0 < (a : ℚ) / b := by positivity
      have hr := near_rel S h ?_ ?_
      · rw [abs_le] at hr
        rw [abs_of_pos hxp] at hr
        have h2 := hr.2
        have : (a : ℚ) / b / 2 ^ (F.p + 1) < 1 / b := by
          rw [div_div, div_lt_div_iff₀ (by positivity) hbq]
          nlinarith
        push_cast
        linarith
      · rw [abs_of_pos hxp]
        have hu := S.unit_eq
        have hpb := S.pb
        rw [div_mul_eq_mul_div, le_div_iff₀ hbq]
        calc (2 : ℚ) ^ F.p * b ≤ 2 ^ F.p * 2 ^ (F.p + 1) := by
              exact mul_le_mul_of_nonneg_left hbl (by positivity)
          _ = 2 ^ (F.p + (F.p + 1)) := by rw [← pow_add]
          _ ≤ 2 ^ F.unit := pow_le_pow_right₀ (by norm_num) (by omega)
          _ ≤ a * 2 ^ F.unit := le_mul_of_one_le_left (by positivity) ha1
      · rw [abs_of_pos hxp]
        have hu := S.unit_eq
        have hb1 : (1 : ℚ) ≤ b := by exact_mod_cast hb
        calc (a : ℚ) / b ≤ a := div_le_self (by positivity) hb1
          _ < 2 ^ (F.p + 1) := hal
          _ ≤ 2 ^ F.bias := pow_le_pow_right₀ (by norm_num) (by omega)

/-- **Division of integers of fewer bits than the mantissa**: truncating the rounded quotient is integer division. -/
theorem div_trunc (hbig : 2 * F.p + 2 ≤ F.unit) {a b : Int} {r : Nat} (ha : a.natAbs < 2 ^ (F.p + 1)) (hb : b ≠ 0)
    (hbF : b.natAbs ≤ 2 ^ (F.p + 1)) (h : IsNearestF F ((a : ℚ) / b) r) : truncQ (F.real r) = a.tdiv b := by
  have hU : (0 : ℚ) < 2 ^ F.unit := by positivity
  have hnneg : ∀ {x : ℚ} {r : Nat}, IsNearestF F x r → IsNearestF F (-x) (fneg F r) := fun {x r} h => by
    have e : ∀ k, F.real (fneg F k) = - F.real k := fun k => by
      unfold Fmt.real; rw [sval_fneg]; push_cast; ring
    refine ⟨by unfold Fmt.Fin; rw [mag_fneg]; exact h.1, fun r' hr' => ?_⟩
    have h2 := h.2 (fneg F r') (by unfold Fmt.Fin; rw [mag_fneg]; exact hr')
    rw [e] at h2
    rw [e, mag_fneg]
    rw [show -F.real r - -x = -(F.real r - x) by ring, abs_neg]
    rw [show F.real r' - -x = -(-F.real r' - x) by ring, abs_neg]
    exact ⟨h2.1, fun hne he => h2.2 (fun h3 => hne (by linarith)) he⟩
  have key : ∀ (m n : Nat) (r : Nat), m < 2 ^ (F.p + 1) → 0 < n → n ≤ 2 ^ (F.p + 1) →
      ∀ s : Bool, IsNearestF F ((if s then -1 else 1) * ((m : ℚ) / n)) r →
        truncQ (F.real r) = (if s then -1 else 1) * ((m / n : Nat) : ℤ) := by
    intro m n r hm hn hn2 s h
    cases s
    · simp only [Bool.false_eq_true, if_false, one_mul] at h ⊢
      exact div_trunc_nonneg S hbig hm hn hn2 h
    · simp only [if_true, neg_one_mul] at h ⊢
      have h' := hnneg h
      rw [neg_neg] at h'
      have := div_trunc_nonneg S hbig hm hn hn2 h'
      rw [← this, ← truncQ_neg]
      congr 1
      unfold Fmt.real; rw [sval_fneg]; push_cast; ring
  have hn : 0 < b.natAbs := Int.natAbs_pos.2 hb
  have := key a.natAbs b.natAbs r ha hn hbF (decide (a < 0) != decide (b < 0)) (by
    convert h using 1
    rw [Nat.cast_natAbs, Nat.cast_natAbs]
    rcases lt_or_ge a 0 with h1 | h1 <;> rcases lt_or_ge b 0 with h2 | h2
    · rw [abs_of_neg h1, abs_of_neg h2]; simp [h1, h2]
    · rw [abs_of_neg h1, abs_of_nonneg h2]; simp [h1, not_lt.2 h2, neg_div]
    · rw [abs_of_nonneg h1, abs_of_neg h2]; simp [not_lt.2 h1, h2, div_neg]
    · rw [abs_of_nonneg h1, abs_of_nonneg h2]; simp [not_lt.2 h1, not_lt.2 h2])
  rw [this]
  clear this h key hnneg
  generalize hm : a.natAbs = m
  generalize hk : b.natAbs = n
  rcases lt_or_ge a 0 with h1 | h1 <;> rcases lt_or_ge b 0 with h2 | h2
  · have ea : a = -(m : ℤ) := by omega
    have eb : b = -(n : ℤ) := by omega
    rw [show (decide (a < 0) != decide (b < 0)) = false by simp [h1, h2], ea, eb, Int.neg_tdiv, Int.tdiv_neg]
    simp
  · have ea : a = -(m : ℤ) := by omega
    have eb : b = (n : ℤ) := by omega
    rw [show (decide (a < 0) != decide (b < 0)) = true by simp [h1, not_lt.2 h2], ea, eb, Int.neg_tdiv]
    simp
  · have ea : a = (m : ℤ) := by omega
    have eb : b = -(n : ℤ) := by omega
    rw [show (decide (a < 0) != decide (b < 0)) = true by simp [not_lt.2 h1, h2], ea, eb, Int.tdiv_neg]
    simp
  · have ea : a = (m : ℤ) := by omega
    have eb : b = (n : ℤ) := by omega
    rw [show (decide (a < 0) != decide (b < 0)) = false by simp [not_lt.2 h1, not_lt.2 h2], ea, eb]
    simp

end
end Flt
end Hwy
