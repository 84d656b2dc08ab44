import Verif.GenFloat
import Verif.EmuFArithLanes

/-!
# Products with powers of two

Exactness of `x * 2^k` and the correctness of scaling by three factors with a single rounding.
-/

namespace Hwy
namespace Flt
open CInt

/-- The pattern of `2^k`, `1 - bias ≤ k ≤ bias`. -/
def pow2c (F : Fmt) (k : Int) : Nat := (k + F.bias).toNat * 2 ^ F.p

section
variable {F : Fmt} (S : Std F)
include S

theorem pow2c_facts {k : Int} (h1 : 1 - (F.bias : Int) ≤ k) (h2 : k ≤ F.bias) :
    F.Fin (pow2c F k) ∧ F.neg (pow2c F k) = false ∧ F.mag (pow2c F k) ≠ 0 ∧ F.real (pow2c F k) = 2 ^ k ∧
    pow2c F k < 2 ^ F.w := by
  obtain ⟨n, hn⟩ : ∃ n : Nat, k + F.bias = (n + 1 : Nat) := ⟨(k + F.bias - 1).toNat, by omega⟩
  have hk : k = (n + 1 : Nat) - (F.bias : Int) := by omega
  have e : pow2c F k = (n + 1) * 2 ^ F.p := by unfold pow2c; rw [hn]; simp
  have hlt : (n + 1) * 2 ^ F.p < F.inf := code_lt_inf S (by omega)
  have hw := Nat.lt_trans hlt S.inf_lt
  have hm : F.mag (pow2c F k) = (n + 1) * 2 ^ F.p := by rw [e]; exact mag_of_lt hw
  have hneg : F.neg (pow2c F k) = false := by rw [e]; exact neg_of_lt hw
  refine ⟨by unfold Fmt.Fin; rw [hm]; exact hlt, hneg, ?_, ?_, by rw [e]; exact hw⟩
  · rw [hm]; have := Nat.two_pow_pos F.p; positivity
  · unfold Fmt.real Fmt.sval
    rw [hneg, hm, S.val_pow]
    simp only [Bool.false_eq_true, if_false]
    push_cast
    have hu := S.unit_eq
    rw [← zpow_natCast, ← zpow_natCast, ← zpow_sub₀ (by norm_num)]
    congr 1
    push_cast; omega

theorem abs_real' (x : Nat) : |F.real x| = (F.val (F.mag x) : ℚ) / 2 ^ F.unit := by
  unfold Fmt.real
  rw [abs_div, abs_of_pos (by positivity : (0 : ℚ) < 2 ^ F.unit)]
  congr 1
  rw [← natAbs_sval, Nat.cast_natAbs]
  push_cast
  rfl

theorem fin_lt {x : Nat} (h : F.Fin x) : |F.real x| < 2 ^ ((F.bias : Int) + 1) := by
  rw [abs_real' S, div_lt_iff₀ (by positivity)]
  have h1 := (val_lt_iff F).2 (show F.mag x < F.inf from h)
  rw [S.val_inf] at h1
  have : (F.val (F.mag x) : ℚ) < 2 ^ (F.unit + F.bias + 1) := by exact_mod_cast h1
  refine lt_of_lt_of_le this (le_of_eq ?_)
  rw [show ((F.bias : Int) + 1) = ((F.bias + 1 : Nat) : Int) by push_cast; rfl, zpow_natCast, ← pow_add]
  congr 1; omega

theorem fin_lt_over {x : Nat} (h : F.Fin x) : |F.real x| < F.over := by
  rw [abs_real' S]
  have := (over_iff S 0 (F.val (F.mag x))).1 (by
    have h1 : F.val (F.mag x) ≤ F.val (F.inf - 1) := by
      by_contra hc
      have := (val_lt_iff F).1 (Nat.lt_of_not_le hc)
      have : F.mag x < F.inf := h
      omega
    have h2 := (val_lt_iff F).2 (show F.inf - 1 < F.inf by have := S.inf_pos; omega)
    simp only [pow_zero, mul_one]
    omega)
  simpa using this

theorem over_lt : F.over < 2 ^ ((F.bias : Int) + 1) := by
  unfold Fmt.over
  have h2 := (val_lt_iff F).2 (show F.inf - 1 < F.inf by have := S.inf_pos; omega)
  rw [div_lt_iff₀ (by positivity)]
  have e : (2 : ℚ) ^ ((F.bias : Int) + 1) * 2 ^ F.unit = F.val F.inf := by
    rw [S.val_inf, show ((F.bias : Int) + 1) = ((F.bias + 1 : Nat) : Int) by push_cast; rfl, zpow_natCast, ← pow_add]
    push_cast
    congr 1; omega
  rw [e, div_lt_iff₀ (by norm_num)]
  push_cast
  have : (F.val (F.inf - 1) : ℚ) < F.val F.inf := by exact_mod_cast h2
  linarith

/-- A representable value rounds to itself. -/
theorem rounded_exact {x : ℚ} {r c : Nat} (hr : IsRoundedF F x r) (hc : F.Fin c) (hx : F.real c = x) :
    F.Fin r ∧ F.real r = x := by
  have h := hr.1 (by rw [← hx]; exact fin_lt_over S hc)
  refine ⟨h.1, ?_⟩
  have := (h.2 c hc).1
  rw [hx, sub_self, abs_zero] at this
  have := abs_nonpos_iff.1 this
  linarith

/-- Conversely an exact result is correctly rounded. -/
theorem exact_rounded {x : ℚ} {r : Nat} (hr : F.Fin r) (hx : F.real r = x) : IsRoundedF F x r := by
  refine ⟨fun _ => ⟨hr, fun r' _ => ⟨?_, fun hne he => ?_⟩⟩, fun h => ?_⟩
  · rw [hx, sub_self, abs_zero]; exact abs_nonneg _
  · rw [hx, sub_self, abs_zero] at he
    have := abs_eq_zero.1 he.symm
    exact absurd (by linarith) hne
  · have := fin_lt_over S hr
    rw [hx] at this
    linarith

/-- A finite magnitude: a multiple of `2^t` below `2^(p+1+t)`, for `t + p` its binary logarithm if that is at least `p`. -/
theorem val_shape (c : Nat) : ∃ t, 2 ^ t ∣ F.val c ∧ F.val c < 2 ^ (F.p + 1 + t) ∧ (t = 0 ∨ 2 ^ (F.p + t) ≤ F.val c) := by
  by_cases h : F.val c < 2 ^ (F.p + 1)
  · exact ⟨0, one_dvd _, h, .inl rfl⟩
  · have h : 2 ^ (F.p + 1) ≤ F.val c := Nat.le_of_not_lt h
    have hne : F.val c ≠ 0 := by have := Nat.two_pow_pos (F.p + 1); omega
    have hl := Nat.log2_self_le hne
    have hlt := Nat.lt_log2_self (n := F.val c)
    have hq : F.p + 1 ≤ (F.val c).log2 := (Nat.le_log2 hne).2 h
    refine ⟨(F.val c).log2 - F.p, rep_dvd F c _ hl, ?_, .inr ?_⟩
    · rw [show F.p + 1 + ((F.val c).log2 - F.p) = (F.val c).log2 + 1 by omega]; exact hlt
    · rw [show F.p + ((F.val c).log2 - F.p) = (F.val c).log2 by omega]; exact hl

theorem code_of_val {c v : Nat} (h : F.val c = v) (hv : v < F.val F.inf) : c < F.inf := by
  by_contra hc
  have h1 : F.val F.inf ≤ F.val c := by
    rcases Nat.lt_or_eq_of_le (Nat.le_of_not_lt hc) with h2 | h2
    · exact ((val_lt_iff F).2 h2).le
    · rw [h2]
  omega

/-- A pattern with the sign of `x` and a given magnitude. -/
theorem real_of_val {x c : Nat} (hc : c < F.inf) {q : ℚ} (h : (F.val c : ℚ) = F.val (F.mag x) * q) :
    F.Fin (F.pack (F.neg x) c) ∧ F.real (F.pack (F.neg x) c) = F.real x * q := by
  have hw := Nat.lt_trans hc S.inf_lt
  refine ⟨by unfold Fmt.Fin; rw [mag_pack hw]; exact hc, ?_⟩
  have e : (F.sval (F.pack (F.neg x) c) : ℚ) = F.sval x * q := by
    unfold Fmt.sval
    rw [neg_pack hw, mag_pack hw]
    cases F.neg x
    · simp only [Bool.false_eq_true, if_false]; push_cast; exact h
    · simp only [if_true]; push_cast; rw [h]; ring
  unfold Fmt.real
  rw [e]; ring

/-- Scaling up is exact until it overflows. -/
theorem scale_up {x : Nat} (hx : F.Fin x) {k : Nat} (h : |F.real x| * 2 ^ k < 2 ^ ((F.bias : Int) + 1)) :
    ∃ c, F.Fin c ∧ F.real c = F.real x * 2 ^ k := by
  obtain ⟨t, hd, hl, _⟩ := val_shape S (F.mag x)
  obtain ⟨c, hc⟩ := rep_mk F (t + k) (F.val (F.mag x) * 2 ^ k) (by rw [Nat.pow_add]; exact Nat.mul_dvd_mul_right hd _) (by
    rw [show F.p + 1 + (t + k) = F.p + 1 + t + k by omega, Nat.pow_add]; exact Nat.mul_le_mul_right _ hl.le)
  have hlt : F.val (F.mag x) * 2 ^ k < F.val F.inf := by
    rw [abs_real' S, div_mul_eq_mul_div, div_lt_iff₀ (by positivity)] at h
    have e : (2 : ℚ) ^ ((F.bias : Int) + 1) * 2 ^ F.unit = (2 : ℚ) ^ (F.unit + F.bias + 1) := by
      rw [show ((F.bias : Int) + 1) = ((F.bias + 1 : Nat) : Int) by push_cast; rfl, zpow_natCast, ← pow_add]
      congr 1; omega
    rw [e] at h
    rw [S.val_inf]; exact_mod_cast h
  exact ⟨_, real_of_val S (code_of_val S hc hlt) (by rw [hc]; push_cast; rfl)⟩

/-- Scaling down is exact while the result is a normal number. -/
theorem scale_down {x : Nat} (hx : F.Fin x) {k : Nat} (h : (2 : ℚ) ^ (1 - (F.bias : Int)) * 2 ^ k ≤ |F.real x|) :
    ∃ c, F.Fin c ∧ F.real c = F.real x / 2 ^ k := by
  obtain ⟨t, hd, hl, _⟩ := val_shape S (F.mag x)
  have hge : 2 ^ (F.p + k) ≤ F.val (F.mag x) := by
    rw [abs_real' S, le_div_iff₀ (by positivity)] at h
    have e : (2 : ℚ) ^ (1 - (F.bias : Int)) * 2 ^ k * 2 ^ F.unit = (2 : ℚ) ^ (F.p + k) := by
      rw [← zpow_natCast, ← zpow_natCast, ← zpow_natCast, ← zpow_add₀ (by norm_num), ← zpow_add₀ (by norm_num)]
      congr 1
      have := S.unit_eq
      push_cast; omega
    rw [e] at h
    exact_mod_cast h
  have hk : k ≤ t := by
    have := Nat.lt_of_le_of_lt hge hl
    have := (Nat.pow_lt_pow_iff_right (by decide)).1 this
    omega
  obtain ⟨j, hj⟩ := Dvd.dvd.trans (pow_dvd_pow 2 hk) hd
  have hp := Nat.two_pow_pos k
  have hjd : 2 ^ (t - k) ∣ j := by
    obtain ⟨i, hi⟩ := hd
    refine ⟨i, Nat.eq_of_mul_eq_mul_left hp ?_⟩
    rw [← hj, hi, ← mul_assoc, ← pow_add]; congr 2; omega
  have hjl : j ≤ 2 ^ (F.p + 1 + (t - k)) := by
    refine Nat.le_of_mul_le_mul_left ?_ hp
    rw [← hj, ← pow_add, show k + (F.p + 1 + (t - k)) = F.p + 1 + t by omega]
    exact hl.le
  obtain ⟨c, hc⟩ := rep_mk F (t - k) j hjd hjl
  have hlt : j < F.val F.inf := by
    have h1 := (val_lt_iff F).2 (show F.mag x < F.inf from hx)
    have : j ≤ 2 ^ k * j := Nat.le_mul_of_pos_left j hp
    omega
  refine ⟨F.pack (F.neg x) c, ?_⟩
  rw [div_eq_mul_inv]
  refine real_of_val S (code_of_val S hc hlt) ?_
  rw [hc, hj]; push_cast; field_simp

/-- One factor. -/
theorem mul_pow2 {x : Nat} (hx : F.Fin x) {k : Int} (h1 : 1 - (F.bias : Int) ≤ k) (h2 : k ≤ F.bias) :
    IsRoundedF F (F.real x * 2 ^ k) (fmul F x (pow2c F k)) ∧ F.neg (fmul F x (pow2c F k)) = F.neg x := by
  obtain ⟨p1, p2, p3, p4, _⟩ := pow2c_facts S h1 h2
  have h := fmul_spec S hx p1
  rw [p4, p2] at h
  exact ⟨h.2, by rw [h.1]; cases F.neg x <;> rfl⟩

theorem mul_pow2_inf {x : Nat} (hx : F.IsInf x) {k : Int} (h1 : 1 - (F.bias : Int) ≤ k) (h2 : k ≤ F.bias) :
    F.IsInf (fmul F x (pow2c F k)) ∧ F.neg (fmul F x (pow2c F k)) = F.neg x := by
  obtain ⟨p1, p2, p3, p4, _⟩ := pow2c_facts S h1 h2
  have h := (prod_rule S (x := x) (y := pow2c F k)).inf (.inl ⟨hx, nan_fin p1, p3⟩)
  exact ⟨h.1, by rw [h.2, p2]; cases F.neg x <;> rfl⟩

theorem mul_pow2_nan {x : Nat} (hx : F.nan x = true) {k : Int} : F.nan (fmul F x (pow2c F k)) = true :=
  (prod_rule S (x := x) (y := pow2c F k)).nan (.inl hx)

/-- Exact or overflowed. -/
def Reach (F : Fmt) (x : Nat) (y : ℚ) (s : Bool) : Prop :=
  F.neg x = s ∧ (F.Fin x ∧ F.real x = y ∨ F.IsInf x ∧ 2 ^ ((F.bias : Int) + 1) ≤ |y|)

theorem Reach.up {x : Nat} {y : ℚ} {s : Bool} (h : Reach F x y s) {k : Int} (h0 : 0 ≤ k) (h2 : k ≤ F.bias) :
    Reach F (fmul F x (pow2c F k)) (y * 2 ^ k) s := by
  have h1 : 1 - (F.bias : Int) ≤ k := by have := S.pb; have := S.p2; omega
  obtain ⟨n, rfl⟩ := Int.eq_ofNat_of_zero_le h0
  obtain ⟨hs, ⟨hx, hy⟩ | ⟨hx, hy⟩⟩ := h
  · obtain ⟨m1, m2⟩ := mul_pow2 S hx h1 h2
    refine ⟨m2.trans hs, ?_⟩
    rw [hy] at m1
    by_cases hlt : |y| * 2 ^ n < 2 ^ ((F.bias : Int) + 1)
    · obtain ⟨c, hc, ec⟩ := scale_up S hx (k := n) (by rw [hy]; exact hlt)
      rw [hy] at ec
      refine .inl (rounded_exact S m1 hc ?_)
      rw [ec]; simp
    · have hge : 2 ^ ((F.bias : Int) + 1) ≤ |y * 2 ^ (n : Int)| := by
        rw [abs_mul, abs_of_pos (zpow_pos (by norm_num) _ : (0 : ℚ) < 2 ^ (n : Int))]
        simpa using not_lt.1 hlt
      exact .inr ⟨(m1.2 ((over_lt S).le.trans hge)).1, hge⟩
  · obtain ⟨m1, m2⟩ := mul_pow2_inf S hx h1 h2
    refine ⟨m2.trans hs, .inr ⟨m1, hy.trans ?_⟩⟩
    rw [abs_mul, abs_of_pos (zpow_pos (by norm_num) _ : (0 : ℚ) < 2 ^ (n : Int))]
    refine le_mul_of_one_le_right (abs_nonneg _) ?_
    simp only [zpow_natCast]
    exact one_le_pow₀ (by norm_num)

/-- Exact while the result stays normal. -/
theorem exact_down {x : Nat} (hx : F.Fin x) {k : Int} (h1 : 1 - (F.bias : Int) ≤ k) (h2 : k ≤ 0)
    (h : (2 : ℚ) ^ (1 - (F.bias : Int)) ≤ |F.real x| * 2 ^ k) :
    F.Fin (fmul F x (pow2c F k)) ∧ F.real (fmul F x (pow2c F k)) = F.real x * 2 ^ k ∧
      F.neg (fmul F x (pow2c F k)) = F.neg x := by
  obtain ⟨m1, m2⟩ := mul_pow2 S hx h1 (by omega)
  obtain ⟨n, hn⟩ : ∃ n : Nat, k = -(n : Int) := ⟨(-k).toNat, by omega⟩
  subst hn
  have e : (2 : ℚ) ^ (-(n : Int)) = (2 ^ n)⁻¹ := by rw [zpow_neg, zpow_natCast]
  rw [e] at h m1 ⊢
  obtain ⟨c, hc, ec⟩ := scale_down S hx (k := n) (by
    rwa [← div_eq_mul_inv, le_div_iff₀ (by positivity)] at h)
  obtain ⟨g1, g2⟩ := rounded_exact S m1 hc (by rw [ec, div_eq_mul_inv])
  exact ⟨g1, g2, m2⟩

/-- Multiplication by one keeps every finite value. -/
theorem mul_one' {x : Nat} (hx : F.Fin x) :
    F.Fin (fmul F x (pow2c F 0)) ∧ F.real (fmul F x (pow2c F 0)) = F.real x ∧
      F.neg (fmul F x (pow2c F 0)) = F.neg x := by
  have h1 : 1 - (F.bias : Int) ≤ 0 := by have := S.pb; have := S.p2; omega
  obtain ⟨m1, m2⟩ := mul_pow2 S hx h1 (by omega)
  rw [zpow_zero, mul_one] at m1
  obtain ⟨g1, g2⟩ := rounded_exact S m1 hx rfl
  exact ⟨g1, g2, m2⟩

/-- Values below half the smallest subnormal round to zero, and only to zero. -/
theorem tiny_iff {y : ℚ} {r : Nat} (hy : |y| * 2 ^ (F.unit + 1) < 1) : IsRoundedF F y r ↔ F.mag r = 0 := by
  have hu : (0 : ℚ) < 2 ^ F.unit := by positivity
  have hov : |y| < F.over := by
    refine lt_of_lt_of_le (b := 1) ?_ ?_
    · have : |y| * 1 ≤ |y| * 2 ^ (F.unit + 1) := mul_le_mul_of_nonneg_left (one_le_pow₀ (by norm_num)) (abs_nonneg _)
      linarith
    · obtain ⟨p1, _, _, p4, _⟩ := pow2c_facts S (k := 0) (by have := S.pb; have := S.p2; omega) (by omega)
      have := fin_lt_over S p1
      rw [p4, zpow_zero, abs_one] at this
      exact this.le
  have hreal : ∀ r', F.mag r' ≠ 0 → 1 ≤ |F.real r'| * 2 ^ F.unit := fun r' h => by
    rw [abs_real' S, div_mul_cancel₀ _ hu.ne']
    have : F.val 0 < F.val (F.mag r') := (val_lt_iff F).2 (Nat.pos_of_ne_zero h)
    rw [val_zero] at this
    exact_mod_cast this
  have hz : ∀ r', F.mag r' = 0 → F.real r' = 0 := fun r' h => by
    have := abs_real' S r'
    rw [h, val_zero] at this
    simpa using this
  have hfar : ∀ r', F.mag r' ≠ 0 → |y| < |F.real r' - y| := fun r' h => by
    have h1 := hreal r' h
    have h2 : |F.real r'| - |y| ≤ |F.real r' - y| := abs_sub_abs_le_abs_sub _ _
    have h3 : |y| < |F.real r'| - |y| := by
      have : |y| * 2 * 2 ^ F.unit < |F.real r'| * 2 ^ F.unit := by
        rw [pow_succ] at hy; linarith
      have := lt_of_mul_lt_mul_right this hu.le
      linarith
    linarith
  constructor
  · intro h
    by_contra hc
    have hn := h.1 hov
    have h0 : F.Fin 0 := by unfold Fmt.Fin; rw [mag_zero S]; exact S.inf_pos
    have := (hn.2 0 h0).1
    rw [hz 0 (mag_zero S), zero_sub, abs_neg] at this
    exact absurd this (not_le.2 (hfar r hc))
  · intro h
    refine ⟨fun _ => ⟨by unfold Fmt.Fin; rw [h]; exact S.inf_pos, fun r' _ => ?_⟩, fun h' => absurd hov (not_lt.2 h')⟩
    rw [hz r h, zero_sub, abs_neg]
    by_cases hr : F.mag r' = 0
    · rw [hz r' hr, zero_sub, abs_neg]; exact ⟨le_refl _, fun hne => absurd rfl hne⟩
    · exact ⟨(hfar r' hr).le, fun _ he => absurd he (hfar r' hr).ne⟩

/-- The biased exponent determines the binade. -/
theorem binade {x : Nat} (hx : F.Fin x) {E : Nat} (hE : F.mag x / 2 ^ F.p = E) :
    (1 ≤ E → (2 : ℚ) ^ ((E : Int) - F.bias) ≤ |F.real x|) ∧ |F.real x| < 2 ^ (max (E : Int) 1 + 1 - F.bias) ∧
    (E : Int) ≤ 2 * F.bias := by
  have hp := Nat.two_pow_pos F.p
  have hle : E * 2 ^ F.p ≤ F.mag x := by rw [← hE]; exact Nat.div_mul_le_self _ _
  have hlt : F.mag x < (E + 1) * 2 ^ F.p := by
    rw [← hE, Nat.mul_comm]; exact Nat.lt_mul_div_succ _ hp
  have hu := S.unit_eq
  have hEb : E ≤ 2 * F.bias := by
    have h1 : F.mag x < F.inf := hx
    rw [S.inf_eq] at h1
    have := Nat.lt_of_le_of_lt hle h1
    have := Nat.lt_of_mul_lt_mul_right this
    omega
  refine ⟨fun h1 => ?_, ?_, by exact_mod_cast hEb⟩
  · obtain ⟨n, rfl⟩ : ∃ n, E = n + 1 := ⟨E - 1, by omega⟩
    rw [abs_real' S, le_div_iff₀ (by positivity)]
    have h2 : F.val ((n + 1) * 2 ^ F.p) ≤ F.val (F.mag x) := by
      rcases Nat.lt_or_eq_of_le hle with h | h
      · exact ((val_lt_iff F).2 h).le
      · rw [h]
    rw [S.val_pow] at h2
    have e : (2 : ℚ) ^ (((n + 1 : Nat) : Int) - F.bias) * 2 ^ F.unit = 2 ^ (F.p + n) := by
      rw [← zpow_natCast, ← zpow_natCast, ← zpow_add₀ (by norm_num)]
      congr 1; push_cast; omega
    rw [e]; exact_mod_cast h2
  · rw [abs_real' S, div_lt_iff₀ (by positivity)]
    have e : (2 : ℚ) ^ (max (E : Int) 1 + 1 - F.bias) * 2 ^ F.unit = 2 ^ (F.p + max E 1) := by
      rw [← zpow_natCast, ← zpow_natCast, ← zpow_add₀ (by norm_num)]
      congr 1; push_cast; omega
    rw [e]
    have h3 : F.val (F.mag x) < 2 ^ (F.p + max E 1) := by
      have h2 := (val_lt_iff F).2 hlt
      rw [S.val_pow] at h2
      refine Nat.lt_of_lt_of_le h2 (Nat.pow_le_pow_right (by decide) (by omega))
    exact_mod_cast h3

/-! ### The exponents of `MulByPow2` -/

/-- `min_exp1_plus_min_exp2` from the biased exponent. -/
def minE (F : Fmt) (E : Int) : Int := max (-(max (E - 1) 0)) (2 - F.bias - F.bias)
def clampE (F : Fmt) (E k : Int) : Int := max (min k (F.bias * 3)) (minE F E + (1 - F.bias))
def e12 (F : Fmt) (E k : Int) : Int := max (min (clampE F E k - clampE F E k / 4) (F.bias + F.bias)) (minE F E)

/-- One lane of `MulByPow2`. -/
def mulPow2Lane (F : Fmt) (x : Nat) (k : Int) : Nat :=
  let E : Int := (F.mag x / 2 ^ F.p : Nat)
  fmul F (fmul F (fmul F x (pow2c F (e12 F E k / 2))) (pow2c F (e12 F E k - e12 F E k / 2))) (pow2c F (clampE F E k - e12 F E k))

theorem expo_ranges (E k : Int) :
    let a := e12 F E k / 2
    let b := e12 F E k - e12 F E k / 2
    let c := clampE F E k - e12 F E k
    (1 - (F.bias : Int) ≤ a ∧ a ≤ F.bias) ∧ (1 - (F.bias : Int) ≤ b ∧ b ≤ F.bias) ∧ (1 - (F.bias : Int) ≤ c ∧ c ≤ F.bias) ∧
    a + b + c = clampE F E k ∧ (0 ≤ clampE F E k → 0 ≤ a ∧ 0 ≤ b ∧ 0 ≤ c) ∧
    (clampE F E k < 0 → a ≤ 0 ∧ b ≤ 0 ∧ c ≤ 0) ∧ minE F E ≤ a + b := by
  have := S.pb
  have := S.p2
  unfold e12 clampE minE
  generalize F.bias = B at *
  dsimp only
  omega

theorem real_zpow_split (y : ℚ) (a b c : Int) : y * 2 ^ a * 2 ^ b * 2 ^ c = y * 2 ^ (a + b + c) := by
  rw [zpow_add₀ (by norm_num), zpow_add₀ (by norm_num)]; ring

/-- The least nonzero magnitude. -/
theorem abs_real_ge {x : Nat} (h : F.mag x ≠ 0) : (2 : ℚ) ^ (-(F.unit : Int)) ≤ |F.real x| := by
  rw [abs_real' S, le_div_iff₀ (by positivity), ← zpow_natCast, ← zpow_add₀ (by norm_num), neg_add_cancel, zpow_zero]
  have : F.val 0 < F.val (F.mag x) := (val_lt_iff F).2 (Nat.pos_of_ne_zero h)
  rw [val_zero] at this
  exact_mod_cast this

theorem real_zero {x : Nat} (h : F.mag x = 0) : F.real x = 0 := by
  have := abs_real' S x
  rw [h, val_zero] at this
  simpa using this

theorem real_sign {x : Nat} (h : F.mag x ≠ 0) : decide (F.real x < 0) = F.neg x := by
  have hv : F.val 0 < F.val (F.mag x) := (val_lt_iff F).2 (Nat.pos_of_ne_zero h)
  rw [val_zero] at hv
  have hu : (0 : ℚ) < 2 ^ F.unit := by positivity
  have hs : F.real x < 0 ↔ F.sval x < 0 := by
    unfold Fmt.real; rw [div_lt_iff₀ hu, zero_mul]; exact_mod_cast Iff.rfl
  have : (F.sval x < 0) ↔ F.neg x = true := by
    unfold Fmt.sval
    cases F.neg x <;> simp <;> omega
  cases hn : F.neg x
  · rw [hn] at this; simp at this
    simp [hs]; omega
  · rw [hn] at this; simp [hs, this]

theorem zpow_mono {a b : Int} (h : a ≤ b) : (2 : ℚ) ^ a ≤ 2 ^ b := zpow_le_zpow_right₀ (by norm_num) h

theorem abs_mul_zpow (y : ℚ) (k : Int) : |y * 2 ^ k| = |y| * 2 ^ k := by
  rw [abs_mul, abs_of_pos (zpow_pos (by norm_num) k : (0 : ℚ) < 2 ^ k)]

/-- Large scale factors overflow whatever they are. -/
theorem rounded_large {x r : Nat} {k j : Int} (hk : 3 * (F.bias : Int) ≤ k) (hj : k ≤ j) (hr : IsRoundedF F (F.real x * 2 ^ k) r) :
    IsRoundedF F (F.real x * 2 ^ j) r := by
  by_cases h0 : F.mag x = 0
  · rw [real_zero S h0, zero_mul] at hr ⊢; exact hr
  have h1 := abs_real_ge S h0
  have hb := S.pb
  have hu := S.unit_eq
  have big : ∀ i : Int, 3 * (F.bias : Int) ≤ i → F.over ≤ |F.real x * 2 ^ i| := fun i hi => by
    rw [abs_mul_zpow S]
    refine (over_lt S).le.trans ((zpow_mono S (b := -(F.unit : Int) + i) (by omega)).trans ?_)
    rw [zpow_add₀ (by norm_num)]
    exact mul_le_mul_of_nonneg_right h1 (zpow_nonneg (by norm_num) _)
  have h2 := hr.2 (big k hk)
  have sg : ∀ i : Int, (F.real x * 2 ^ i < 0) ↔ F.real x < 0 := fun i => by
    have : (0 : ℚ) < 2 ^ i := zpow_pos (by norm_num) i
    constructor
    · intro h; by_contra hc; nlinarith
    · intro h; nlinarith
  refine ⟨fun h => absurd h (not_lt.2 (big j (by omega))), fun _ => ⟨h2.1, ?_⟩⟩
  rw [h2.2]
  exact decide_eq_decide.2 ((sg k).trans (sg j).symm)

/-- Small scale factors give zero whatever they are. -/
theorem rounded_small {x r : Nat} {k j : Int} (hj : j ≤ k) (hk : |F.real x| * 2 ^ k * 2 ^ (F.unit + 1) < 1)
    (hr : IsRoundedF F (F.real x * 2 ^ k) r) : IsRoundedF F (F.real x * 2 ^ j) r := by
  rw [tiny_iff S (by rw [abs_mul_zpow S]; exact hk)] at hr
  rw [tiny_iff S]
  · exact hr
  · rw [abs_mul_zpow S]
    refine lt_of_le_of_lt (mul_le_mul_of_nonneg_right (mul_le_mul_of_nonneg_left (zpow_mono S hj) (abs_nonneg _)) (by positivity)) hk

/-- **`MulByPow2`**, finite lane: `x * 2^k` rounded once. -/
theorem mulPow2Lane_fin (h4 : F.p + 4 ≤ F.bias) {x : Nat} (hx : F.Fin x) (k : Int) :
    IsRoundedF F (F.real x * 2 ^ k) (mulPow2Lane F x k) ∧ F.neg (mulPow2Lane F x k) = F.neg x := by
  have hu := S.unit_eq
  unfold mulPow2Lane
  dsimp only
  obtain ⟨bl, bu, bE⟩ := binade S hx rfl
  generalize hEE : F.mag x / 2 ^ F.p = E at *
  obtain ⟨ra, rb, rc, hsum, hup, hdown, hmin⟩ := expo_ranges S (F := F) (E : Int) k
  have hc : clampE F E k = max (min k (F.bias * 3)) (minE F E + (1 - F.bias)) := rfl
  have hm : minE F E = max (-(max ((E : Int) - 1) 0)) (2 - F.bias - F.bias) := rfl
  generalize e12 F E k / 2 = a at *
  generalize e12 F E k - a = b at *
  generalize clampE F E k - e12 F E k = c at *
  generalize clampE F E k = C at *
  generalize minE F E = m at *
  by_cases h0 : 0 ≤ C
  · -- scaling up
    obtain ⟨a0, b0, c0⟩ := hup h0
    have R : Reach F x (F.real x) (F.neg x) := ⟨rfl, .inl ⟨hx, rfl⟩⟩
    have R3 := ((R.up S a0 ra.2).up S b0 rb.2).up S c0 rc.2
    rw [real_zpow_split S, hsum] at R3
    obtain ⟨hs, hcase⟩ := R3
    refine ⟨?_, hs⟩
    have key : IsRoundedF F (F.real x * 2 ^ C) (fmul F (fmul F (fmul F x (pow2c F a)) (pow2c F b)) (pow2c F c)) := by
      rcases hcase with ⟨g1, g2⟩ | ⟨g1, g2⟩
      · exact exact_rounded S g1 g2
      · have hov := over_lt S
        refine ⟨fun h => absurd h (not_lt.2 (hov.le.trans g2)), fun _ => ⟨g1, ?_⟩⟩
        have hne : F.mag x ≠ 0 := fun h => by
          rw [real_zero S h, zero_mul, abs_zero] at g2
          exact absurd g2 (not_le.2 (zpow_pos (by norm_num) _))
        rw [hs, ← real_sign S hne]
        have : (0 : ℚ) < 2 ^ C := zpow_pos (by norm_num) C
        refine decide_eq_decide.2 ⟨fun h => by nlinarith, fun h => ?_⟩
        by_contra hc'; nlinarith
    by_cases hk : k ≤ F.bias * 3
    · have : C = k := by omega
      rw [← this]; exact key
    · exact rounded_large S (k := C) (by omega) (by omega) key
  · -- scaling down
    obtain ⟨a0, b0, c0⟩ := hdown (by omega)
    have key : IsRoundedF F (F.real x * 2 ^ C) (fmul F (fmul F (fmul F x (pow2c F a)) (pow2c F b)) (pow2c F c)) ∧
        F.neg (fmul F (fmul F (fmul F x (pow2c F a)) (pow2c F b)) (pow2c F c)) = F.neg x := by
      rcases Nat.eq_zero_or_pos E with hE | hE
      · have ha : a = 0 := by omega
        have hb : b = 0 := by omega
        obtain ⟨f1, v1, s1⟩ := mul_one' S hx
        obtain ⟨f2, v2, s2⟩ := mul_one' S f1
        obtain ⟨f3, s3⟩ := mul_pow2 S f2 rc.1 rc.2
        rw [ha, hb, ← hsum, ha, hb, zero_add, zero_add]
        rw [v2, v1] at f3
        exact ⟨f3, by rw [s3, s2, s1]⟩
      · have hn : (2 : ℚ) ^ (1 - (F.bias : Int)) ≤ |F.real x| * 2 ^ (a + b) := by
          refine (zpow_mono S (b := (E : Int) - F.bias + (a + b)) (by omega)).trans ?_
          rw [zpow_add₀ (by norm_num)]
          exact mul_le_mul_of_nonneg_right (bl hE) (zpow_nonneg (by norm_num) _)
        obtain ⟨f1, v1, s1⟩ := exact_down S hx ra.1 a0 (hn.trans
          (mul_le_mul_of_nonneg_left (zpow_mono S (by omega)) (abs_nonneg _)))
        obtain ⟨f2, v2, s2⟩ := exact_down S f1 rb.1 b0 (by
          rw [v1, abs_mul_zpow S, mul_assoc, ← zpow_add₀ (by norm_num)]; exact hn)
        obtain ⟨f3, s3⟩ := mul_pow2 S f2 rc.1 rc.2
        rw [v2, v1, real_zpow_split S, hsum] at f3
        exact ⟨f3, by rw [s3, s2, s1]⟩
    refine ⟨?_, key.2⟩
    by_cases hk : m + (1 - F.bias) ≤ k
    · have : C = k := by omega
      rw [← this]; exact key.1
    · refine rounded_small S (k := C) (by omega) ?_ key.1
      have h5 : |F.real x| * 2 ^ C < 2 ^ (max (E : Int) 1 + 1 - F.bias) * 2 ^ C :=
        mul_lt_mul_of_pos_right bu (zpow_pos (by norm_num) _)
      rw [← zpow_add₀ (by norm_num)] at h5
      have h6 : |F.real x| * 2 ^ C < 2 ^ (-((F.unit : Int) + 1)) :=
        lt_of_lt_of_le h5 (zpow_mono S (by omega))
      have e : (2 : ℚ) ^ (F.unit + 1) = 2 ^ ((F.unit : Int) + 1) := by
        rw [← zpow_natCast]; push_cast; rfl
      rw [e]
      refine lt_of_lt_of_le (mul_lt_mul_of_pos_right h6 (zpow_pos (by norm_num) _)) ?_
      rw [← zpow_add₀ (by norm_num), neg_add_cancel, zpow_zero]

/-- Infinite lane. -/
theorem mulPow2Lane_inf {x : Nat} (hx : F.IsInf x) (k : Int) :
    F.IsInf (mulPow2Lane F x k) ∧ F.neg (mulPow2Lane F x k) = F.neg x := by
  unfold mulPow2Lane
  dsimp only
  obtain ⟨ra, rb, rc, _⟩ := expo_ranges S (F := F) ((F.mag x / 2 ^ F.p : Nat) : Int) k
  obtain ⟨f1, s1⟩ := mul_pow2_inf S hx ra.1 ra.2
  obtain ⟨f2, s2⟩ := mul_pow2_inf S f1 rb.1 rb.2
  obtain ⟨f3, s3⟩ := mul_pow2_inf S f2 rc.1 rc.2
  exact ⟨f3, by rw [s3, s2, s1]⟩

/-- NaN lane. -/
theorem mulPow2Lane_nan {x : Nat} (hx : F.nan x = true) (k : Int) : F.nan (mulPow2Lane F x k) = true :=
  mul_pow2_nan S (mul_pow2_nan S (mul_pow2_nan S hx))

end
end Flt
end Hwy
