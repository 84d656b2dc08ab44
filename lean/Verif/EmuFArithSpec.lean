import Verif.EmuFArith
import Verif.EmuConvFloat

/-!
# Rounding of sums, products and quotients

Specification: the result is the float nearest to the exact rational result (ties to even), infinity if that
lies beyond the largest finite value by half a unit in the last place or more.
-/

namespace Hwy
namespace Flt
open CInt

/-- Half a unit in the last place above the largest finite value: from here on results round to infinity. -/
def Fmt.over (F : Fmt) : ℚ := ((F.val (F.inf - 1) + F.val F.inf : Nat) : ℚ) / 2 / 2 ^ F.unit

/-- **Specification.** `r` is the rational `x` rounded to format `F`: to nearest even, to infinity with the sign
of `x` if it is too large. -/
def IsRoundedF (F : Fmt) (x : ℚ) (r : Nat) : Prop :=
  (|x| < F.over → IsNearestF F x r) ∧ (F.over ≤ |x| → F.mag r = F.inf ∧ F.neg r = decide (x < 0))

section
variable {F : Fmt} (S : Std F)
include S

theorem Std.over_pos : 0 < F.over := by
  unfold Fmt.over
  have h : 0 < F.val F.inf := by rw [S.val_inf]; exact Nat.two_pow_pos _
  have : (0 : ℚ) < ((F.val (F.inf - 1) + F.val F.inf : Nat) : ℚ) := by exact_mod_cast (by omega)
  positivity

theorem sgn_mul_abs (b : Bool) (y : ℚ) (hy : 0 ≤ y) : |(if b then -1 else 1) * y| = y := by
  cases b <;> simp [abs_of_nonneg hy]

theorem sgn_mul_neg (b : Bool) (y : ℚ) (hy : 0 < y) : decide ((if b then -1 else 1) * y < 0) = b := by
  cases b <;> simp [hy, hy.le]

theorem over_iff (s v : Nat) :
    2 * v < (F.val (F.inf - 1) + F.val F.inf) * 2 ^ s ↔ (v : ℚ) / 2 ^ (F.unit + s) < F.over := by
  unfold Fmt.over
  have h1 : (0 : ℚ) < 2 ^ F.unit := by positivity
  have h2 : (0 : ℚ) < 2 ^ s := by positivity
  rw [pow_add, div_lt_iff₀ (by positivity)]
  rw [show ((F.val (F.inf - 1) + F.val F.inf : Nat) : ℚ) / 2 / 2 ^ F.unit * (2 ^ F.unit * 2 ^ s) =
      ((F.val (F.inf - 1) + F.val F.inf : Nat) : ℚ) * 2 ^ s / 2 by field_simp]
  rw [lt_div_iff₀ (by norm_num), mul_comm (v : ℚ) 2]
  exact_mod_cast Iff.rfl

/-- Rounding of an exactly represented value. -/
theorem rounded_real {s v r : Nat} (hm : F.mag r = rneEncode F s v) {x : ℚ}
    (hx : x = (if F.neg r then -1 else 1) * ((v : ℚ) / 2 ^ (F.unit + s))) : IsRoundedF F x r := by
  have hy : (0 : ℚ) ≤ (v : ℚ) / 2 ^ (F.unit + s) := by positivity
  have hn := (rneEncode_local F S.p1 S.e1 s v).nearest S.p1 S.e1
  rw [← hm] at hn
  refine ⟨fun h => ?_, fun h => ?_⟩
  · rw [hx, sgn_mul_abs S _ _ hy, ← over_iff S] at h
    exact nearest_real S hn h hx
  · rw [hx, sgn_mul_abs S _ _ hy] at h
    refine ⟨hn.2 (fun h' => absurd ((over_iff S _ _).1 h') (not_lt.2 h)), ?_⟩
    rw [hx, sgn_mul_neg S _ _ (lt_of_lt_of_le S.over_pos h)]

/-- Between two multiples of four, an odd integer can stand for any number within 1 of it. -/
theorem sticky_near {A B v : Int} {x : ℚ} (hA : 4 ∣ A) (hB : 4 ∣ B) (hv : v % 2 = 1) (hx : |x - v| < 1)
    (h : |(A : ℚ) - v| ≤ |(B : ℚ) - v|) : A = B ∨ |(A : ℚ) - x| < |(B : ℚ) - x| := by
  by_cases he : A = B
  · exact Or.inl he
  refine Or.inr ?_
  obtain ⟨a, rfl⟩ := hA
  obtain ⟨b, rfl⟩ := hB
  have h' : |4 * a - v| ≤ |4 * b - v| := by exact_mod_cast h
  rw [abs_lt] at hx
  have h2 := sq_le_sq.2 h'
  rcases lt_or_gt_of_ne he with hlt | hgt
  · -- A < B
    have h3 : v ≤ 2 * a + 2 * b := by nlinarith
    have h4 : v + 1 ≤ 2 * a + 2 * b := by omega
    have h5 : (v : ℚ) + 1 ≤ 2 * a + 2 * b := by exact_mod_cast h4
    have h6 : (4 * a : ℚ) < 4 * b := by exact_mod_cast hlt
    push_cast
    rw [← sq_lt_sq]
    nlinarith
  · have h3 : 2 * a + 2 * b ≤ v := by nlinarith
    have h4 : 2 * a + 2 * b + 1 ≤ v := by omega
    have h5 : (2 * a + 2 * b : ℚ) + 1 ≤ v := by exact_mod_cast h4
    have h6 : (4 * b : ℚ) < 4 * a := by exact_mod_cast hgt
    push_cast
    rw [← sq_lt_sq]
    nlinarith

/-- A real is a multiple of four quarter units. -/
theorem real_quarter (r : Nat) : ∃ A : Int, 4 ∣ A ∧ F.real r = (A : ℚ) / 2 ^ (F.unit + 2) := by
  refine ⟨4 * F.sval r, Dvd.intro _ rfl, ?_⟩
  unfold Fmt.real
  rw [pow_add]; push_cast; field_simp; norm_num

/-- Rounding through a sticky bit. -/
theorem rounded_sticky {m n r : Nat} (hn : 0 < n) (hm : F.mag r = rneEncode F 2 (stickyDiv (m * 2 ^ (F.unit + 1)) n))
    {x : ℚ} (hx : x = (if F.neg r then -1 else 1) * ((m : ℚ) / n)) : IsRoundedF F x r := by
  have hnq : (0 : ℚ) < n := by exact_mod_cast hn
  have hD : (0 : ℚ) < 2 ^ (F.unit + 2) := by positivity
  have h1 := Nat.div_add_mod (m * 2 ^ (F.unit + 1)) n
  have h2 := Nat.mod_lt (m * 2 ^ (F.unit + 1)) hn
  unfold stickyDiv at hm
  generalize hq : m * 2 ^ (F.unit + 1) / n = q at *
  generalize hs : m * 2 ^ (F.unit + 1) % n = t at *
  have h1q : (n : ℚ) * q + t = m * 2 ^ (F.unit + 1) := by exact_mod_cast h1
  have hxv : (m : ℚ) / n = (2 * (q : ℚ) + 2 * (t / n)) / 2 ^ (F.unit + 2) := by
    rw [div_eq_div_iff hnq.ne' hD.ne', show F.unit + 2 = F.unit + 1 + 1 by omega, pow_succ]
    rw [← mul_assoc, ← h1q]; field_simp
  by_cases ht : t = 0
  · rw [if_pos ht] at hm
    refine rounded_real S hm ?_
    rw [hx, hxv, ht]; push_cast; simp
  · rw [if_neg ht] at hm
    have htq : (0 : ℚ) < (t : ℚ) / n := by
      have : (0 : ℚ) < t := by exact_mod_cast Nat.pos_of_ne_zero ht
      positivity
    have htq2 : (t : ℚ) / n < 1 := by rw [div_lt_one hnq]; exact_mod_cast h2
    have hy : (0 : ℚ) ≤ (m : ℚ) / n := by positivity
    have hr := rounded_real S hm rfl
    set σ : ℚ := if F.neg r then -1 else 1 with hσ
    have hab : |σ| = 1 := by rw [hσ]; split_ifs <;> simp
    have hs1 : σ * σ = 1 := by rw [hσ]; split_ifs <;> norm_num
    have hov : ((2 * q + 1 : Nat) : ℚ) / 2 ^ (F.unit + 2) < F.over ↔ (m : ℚ) / n < F.over := by
      have e := over_iff S 2 (2 * q + 1)
      have e' : F.over = ((2 * (F.val (F.inf - 1) + F.val F.inf) : Nat) : ℚ) / 2 ^ (F.unit + 2) := by
        unfold Fmt.over; rw [pow_add]; push_cast; field_simp
      rw [hxv, e', div_lt_div_iff_of_pos_right hD, div_lt_div_iff_of_pos_right hD]
      generalize F.val (F.inf - 1) + F.val F.inf = T
      constructor
      · intro h
        have h : 2 * q + 1 < 2 * T := by exact_mod_cast h
        have : q + 1 ≤ T := by omega
        have : (q : ℚ) + 1 ≤ T := by exact_mod_cast this
        push_cast; linarith
      · intro h
        have : (2 * q : ℚ) < 2 * T := by push_cast at h; linarith
        have : 2 * q < 2 * T := by exact_mod_cast this
        have : 2 * q + 1 < 2 * T := by omega
        exact_mod_cast this
    have hy' : (0 : ℚ) ≤ ((2 * q + 1 : Nat) : ℚ) / 2 ^ (F.unit + 2) := by positivity
    refine ⟨fun h => ?_, fun h => ?_⟩
    · rw [hx, sgn_mul_abs S _ _ hy, ← hov] at h
      have hN := hr.1 (by rw [sgn_mul_abs S _ _ hy']; exact h)
      refine ⟨hN.1, fun r' hr' => ?_⟩
      have hle := (hN.2 r' hr').1
      obtain ⟨A, hA, eA⟩ := real_quarter S r
      obtain ⟨B, hB, eB⟩ := real_quarter S r'
      obtain ⟨τ, hτ⟩ : ∃ τ : Int, (τ : ℚ) = σ ∧ (τ = 1 ∨ τ = -1) := by
        rw [hσ]; cases F.neg r
        · exact ⟨1, by simp, by simp⟩
        · exact ⟨-1, by simp, by simp⟩
      have key : ∀ (C : Int) (y : ℚ), |(C : ℚ) / 2 ^ (F.unit + 2) - σ * (y / 2 ^ (F.unit + 2))| =
          |(C : ℚ) - σ * y| / 2 ^ (F.unit + 2) := fun C y => by
        rw [← mul_div_assoc, ← sub_div, abs_div, abs_of_pos hD]
      rw [eA, eB, key, key, div_le_div_iff_of_pos_right hD] at hle
      have hle' : |(A : ℚ) - ((τ * (2 * q + 1) : Int) : ℚ)| ≤ |(B : ℚ) - ((τ * (2 * q + 1) : Int) : ℚ)| := by
        have e : ((τ * (2 * q + 1) : Int) : ℚ) = σ * ((2 * q + 1 : Nat) : ℚ) := by
          rw [← hτ.1]; push_cast; ring
        rw [e]; exact hle
      have hclose : |σ * (2 * (q : ℚ) + 2 * (t / n)) - ((τ * (2 * q + 1) : Int) : ℚ)| < 1 := by
        have e : σ * (2 * (q : ℚ) + 2 * (t / n)) - ((τ * (2 * q + 1) : Int) : ℚ) = σ * (2 * (t / n) - 1) := by
          rw [← hτ.1]; push_cast; ring
        rw [e, abs_mul, hab, one_mul, abs_lt]
        constructor <;> linarith
      have := sticky_near S hA hB (by rcases hτ.2 with h | h <;> rw [h] <;> omega) hclose hle'
      rw [hx, hxv, eA, eB, key, key, div_le_div_iff_of_pos_right hD, div_left_inj' hD.ne']
      rcases this with h | h
      · rw [h]
        refine ⟨le_refl _, fun hne _ => absurd rfl hne⟩
      · exact ⟨h.le, fun _ he => absurd he h.ne⟩
    · rw [hx, sgn_mul_abs S _ _ hy] at h
      have := hr.2 (by rw [sgn_mul_abs S _ _ hy']; rw [← not_lt]; rw [hov]; exact not_lt.2 h)
      refine ⟨this.1, ?_⟩
      rw [hx, sgn_mul_neg S _ _ (lt_of_lt_of_le S.over_pos h)]

theorem encs_lt (s v : Nat) : rneEncode F s v < 2 ^ F.w :=
  Nat.lt_of_le_of_lt (rneEncode_local F S.p1 S.e1 s v).le S.inf_lt

theorem Std.qnan_lt : F.qnan < 2 ^ F.w := by
  have h := S.pow_e
  have hp : 2 ^ F.p = 2 * 2 ^ (F.p - 1) := by rw [← Nat.pow_succ']; congr 1; have := S.p2; omega
  have h0 := Nat.two_pow_pos (F.p - 1)
  unfold Fmt.qnan
  rw [S.inf_eq, show F.w = F.e + F.p by unfold Fmt.w; omega, Nat.pow_add, h, hp]
  generalize 2 ^ (F.p - 1) = k at *
  nlinarith

theorem Std.qnan_nan : F.nan F.qnan = true := by
  unfold Fmt.nan
  rw [mag_of_lt S.qnan_lt]
  have := Nat.two_pow_pos (F.p - 1)
  unfold Fmt.qnan
  simp [this]

theorem fmul_lt (a b : Nat) : fmul F a b < 2 ^ (F.w + 1) := by
  have hq : F.qnan < 2 ^ (F.w + 1) := Nat.lt_of_lt_of_le S.qnan_lt (Nat.pow_le_pow_right (by decide) (by omega))
  unfold fmul
  dsimp only
  split_ifs
  · exact hq
  · exact hq
  · exact pack_lt S.inf_lt
  · exact pack_lt (encs_lt S _ _)

theorem fdiv_lt (a b : Nat) : fdiv F a b < 2 ^ (F.w + 1) := by
  have hq : F.qnan < 2 ^ (F.w + 1) := Nat.lt_of_lt_of_le S.qnan_lt (Nat.pow_le_pow_right (by decide) (by omega))
  unfold fdiv
  dsimp only
  split_ifs
  · exact hq
  · exact hq
  · exact pack_lt S.inf_lt
  · exact pack_lt (Nat.two_pow_pos _)
  · exact hq
  · exact pack_lt S.inf_lt
  · exact pack_lt (encs_lt S _ _)

theorem sgn_xor (a b : Nat) : (if (F.neg a != F.neg b) = true then (-1 : ℚ) else 1) =
    (if F.neg a then -1 else 1) * (if F.neg b then -1 else 1) := by
  cases F.neg a <;> cases F.neg b <;> simp

/-- **Product** of finite values. -/
theorem fmul_spec {a b : Nat} (ha : F.Fin a) (hb : F.Fin b) :
    F.neg (fmul F a b) = (F.neg a != F.neg b) ∧ IsRoundedF F (F.real a * F.real b) (fmul F a b) := by
  unfold Fmt.Fin at ha hb
  have e : fmul F a b = F.pack (F.neg a != F.neg b) (rneEncode F F.unit (F.val (F.mag a) * F.val (F.mag b))) := by
    unfold fmul
    simp only [nan_fin ha, nan_fin hb, Bool.or_self, Bool.false_eq_true, if_false]
    rw [if_neg (by omega)]
  have hs : F.neg (fmul F a b) = (F.neg a != F.neg b) := by rw [e]; exact neg_pack (encs_lt S _ _)
  refine ⟨hs, rounded_real S (by rw [e]; exact mag_pack (encs_lt S _ _)) ?_⟩
  rw [hs, sgn_xor S, real_mul S a 0, real_mul S b 0, pow_add]
  push_cast
  ring

/-- **Quotient** of finite values, nonzero divisor. -/
theorem fdiv_spec {a b : Nat} (ha : F.Fin a) (hb : F.Fin b) (h0 : F.real b ≠ 0) :
    F.neg (fdiv F a b) = (F.neg a != F.neg b) ∧ IsRoundedF F (F.real a / F.real b) (fdiv F a b) := by
  have hv : F.val (F.mag b) ≠ 0 := fun h => h0 (by rw [real_mul S b 0, h]; simp)
  have hm : F.mag b ≠ 0 := fun h => hv (by rw [h, val_zero])
  unfold Fmt.Fin at ha hb
  have e : fdiv F a b = F.pack (F.neg a != F.neg b)
      (rneEncode F 2 (stickyDiv (F.val (F.mag a) * 2 ^ (F.unit + 1)) (F.val (F.mag b)))) := by
    unfold fdiv
    simp only [nan_fin ha, nan_fin hb, Bool.or_self, Bool.false_eq_true, if_false]
    rw [if_neg (by omega), if_neg (by omega), if_neg hm]
  have hs : F.neg (fdiv F a b) = (F.neg a != F.neg b) := by rw [e]; exact neg_pack (encs_lt S _ _)
  refine ⟨hs, rounded_sticky S (Nat.pos_of_ne_zero hv) (by rw [e]; exact mag_pack (encs_lt S _ _)) ?_⟩
  rw [hs, sgn_xor S, real_mul S a 0, real_mul S b 0]
  have : (F.val (F.mag b) : ℚ) ≠ 0 := by exact_mod_cast hv
  have hu : (2 : ℚ) ^ F.unit ≠ 0 := by positivity
  simp only [pow_zero, mul_one, Nat.add_zero]
  cases F.neg a <;> cases F.neg b <;> simp <;> field_simp

/-- **Sum** of finite values. -/
theorem fadd_spec {a b : Nat} (ha : F.Fin a) (hb : F.Fin b) :
    IsRoundedF F (F.real a + F.real b) (fadd F a b) := by
  unfold Fmt.Fin at ha hb
  have hu : (2 : ℚ) ^ F.unit ≠ 0 := by positivity
  have e : F.real a + F.real b = ((F.sval a + F.sval b : Int) : ℚ) / 2 ^ F.unit := by
    unfold Fmt.real; push_cast; ring
  by_cases h : F.sval a + F.sval b = 0
  · have e2 : fadd F a b = F.pack (F.neg a && F.neg b) 0 := by
      unfold fadd
      simp only [nan_fin ha, nan_fin hb, Bool.or_self, Bool.false_eq_true, if_false]
      rw [if_neg (by omega), if_neg (by omega), if_pos h]
    refine rounded_real S (s := 0) (v := 0) ?_ ?_
    · rw [e2, enc_zero S]; exact mag_pack (Nat.two_pow_pos _)
    · rw [e, h]; simp
  · have e2 := fadd_fin S ha hb h
    refine rounded_real S (s := 0) (v := (F.sval a + F.sval b).natAbs) ?_ ?_
    · rw [e2]; exact mag_pack (encs_lt S _ _)
    · rw [e, e2, neg_pack (encs_lt S _ _), Nat.add_zero]
      rw [← mul_div_assoc]; congr 1
      rw [Nat.cast_natAbs]
      by_cases h' : F.sval a + F.sval b < 0
      · rw [abs_of_neg h']; simp [h']
      · rw [abs_of_nonneg (not_lt.1 h')]; simp [h']

end
end Flt
end Hwy
