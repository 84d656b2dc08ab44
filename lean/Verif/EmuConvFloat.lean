import Verif.EmuConvF2I
import Verif.Float64Spec

/-!
# C49 (conversions to floats)
-/

namespace Hwy
namespace Flt
open CInt

/-- **Specification.** `r` is a finite pattern of format `F` whose value is nearest to `x`; of two equally near values,
the one with even mantissa. -/
def IsNearestF (F : Fmt) (x : ℚ) (r : Nat) : Prop :=
  F.Fin r ∧ ∀ r', F.Fin r' → |F.real r - x| ≤ |F.real r' - x| ∧
    (F.real r' ≠ F.real r → |F.real r - x| = |F.real r' - x| → F.mag r % 2 = 0)

section
variable {F : Fmt} (S : Std F)
include S

theorem real_mul (r s : Nat) : F.real r = (if F.neg r then -1 else 1) * ((F.val (F.mag r) * 2 ^ s : Nat) : ℚ) / 2 ^ (F.unit + s) := by
  have h1 : (2 : ℚ) ^ F.unit ≠ 0 := by positivity
  have h2 : (2 : ℚ) ^ s ≠ 0 := by positivity
  rw [real_bits S, pow_add]
  push_cast
  split_ifs <;> field_simp

theorem absdiff (r s v : Nat) (b : Bool) :
    |F.real r - (if b then -1 else 1) * ((v : ℚ) / 2 ^ (F.unit + s))| =
      ((if F.neg r = b then dist F s v (F.mag r) else F.val (F.mag r) * 2 ^ s + v : Nat) : ℚ) / 2 ^ (F.unit + s) := by
  have h1 : (0 : ℚ) < 2 ^ (F.unit + s) := by positivity
  have ed : ((dist F s v (F.mag r) : Nat) : ℚ) = |((F.val (F.mag r) * 2 ^ s : Nat) : ℚ) - (v : ℚ)| := by
    unfold dist
    rw [Nat.cast_natAbs]; push_cast; rfl
  rw [real_mul S r s, Nat.cast_ite, ed, Nat.cast_add]
  have hA : (0 : ℚ) ≤ ((F.val (F.mag r) * 2 ^ s : Nat) : ℚ) := Nat.cast_nonneg _
  have hV : (0 : ℚ) ≤ (v : ℚ) := Nat.cast_nonneg _
  generalize ((F.val (F.mag r) * 2 ^ s : Nat) : ℚ) = A at *
  generalize (v : ℚ) = V at *
  generalize (2 : ℚ) ^ (F.unit + s) = D at *
  have key : ∀ z : ℚ, |z / D| = |z| / D := fun z => by rw [abs_div, abs_of_pos h1]
  cases F.neg r <;> cases b <;>
    simp only [Bool.false_eq_true, Bool.true_eq_false, if_true, if_false]
  · rw [← key]; congr 1; ring
  · rw [← abs_of_nonneg (add_nonneg hA hV), ← key]; congr 1; ring
  · rw [← abs_of_nonneg (add_nonneg hA hV), ← key, ← abs_neg]; congr 1; ring
  · rw [← key, ← abs_neg]; congr 1; ring

theorem dist_zero (s v : Nat) : dist F s v 0 = v := by
  unfold dist
  rw [val_zero]; simp

theorem nearest_real {s v r : Nat} (hm : IsNearestEven F s v (F.mag r))
    (hov : 2 * v < (F.val (F.inf - 1) + F.val F.inf) * 2 ^ s) {x : ℚ}
    (hx : x = (if F.neg r then -1 else 1) * ((v : ℚ) / 2 ^ (F.unit + s))) : IsNearestF F x r := by
  obtain ⟨hc, hall⟩ := hm.1 hov
  have h1 : (0 : ℚ) < 2 ^ (F.unit + s) := by positivity
  refine ⟨hc, fun r' hr' => ?_⟩
  rw [hx, absdiff S r s v, absdiff S r' s v, if_pos rfl]
  rw [div_le_div_iff_of_pos_right h1, Nat.cast_le, div_left_inj' h1.ne', Nat.cast_inj]
  by_cases h : F.neg r' = F.neg r
  · rw [if_pos h]
    refine ⟨(hall _ hr').1, fun hne he => (hall _ hr').2 (fun hc => hne ?_) he⟩
    rw [real_mul S r' 0, real_mul S r 0, h, hc]
  · rw [if_neg h]
    obtain ⟨h0, h0'⟩ := hall 0 S.inf_pos
    rw [dist_zero S] at h0 h0'
    refine ⟨by omega, fun hne he => ?_⟩
    by_cases hz : F.mag r = 0
    · rw [hz]
    · refine h0' (fun h => hz h.symm) ?_
      omega

theorem nearest_exact {x : ℚ} {r : Nat} (h : IsNearestF F x r) {r' : Nat} (hf : F.Fin r') (hr : F.real r' = x) :
    F.real r = x := by
  have := (h.2 r' hf).1
  rw [hr, sub_self, abs_zero] at this
  have := abs_nonpos_iff.1 this
  linarith

/-- Every integer below `2^64` is far below the largest finite value. -/
theorem ofInt_noover {n : Int} (hn : n.natAbs < 2 ^ F.bias) :
    2 * (n.natAbs * 2 ^ F.unit) < (F.val (F.inf - 1) + F.val F.inf) * 2 ^ 0 := by
  rw [S.val_inf]
  have h2 : F.val (2 * F.bias * 2 ^ F.p) ≤ F.val (F.inf - 1) :=
    val_mono F (by have := code_lt_inf S (le_refl (2 * F.bias)); omega)
  have hb : 1 ≤ 2 * F.bias := by have := S.pb; have := S.p2; omega
  rw [show 2 * F.bias = (2 * F.bias - 1) + 1 by omega, S.val_pow] at h2
  have hu := S.unit_eq
  rw [show F.p + (2 * F.bias - 1) = F.unit + F.bias by omega] at h2
  have h3 : n.natAbs * 2 ^ F.unit < 2 ^ (F.unit + F.bias) := by
    rw [Nat.pow_add, Nat.mul_comm]
    exact Nat.mul_lt_mul_of_pos_left hn (Nat.two_pow_pos _)
  have h4 : 2 ^ (F.unit + F.bias + 1) = 2 * 2 ^ (F.unit + F.bias) := by rw [Nat.pow_succ]; omega
  rw [h4, Nat.pow_zero, Nat.mul_one]
  omega

/-- **Conversion of an integer to a float**: the nearest float, exact if representable. -/
theorem ofInt_spec {n : Int} (hn : n.natAbs < 2 ^ F.bias) :
    ofInt F n < 2 ^ (F.w + 1) ∧ F.neg (ofInt F n) = decide (n < 0) ∧ IsNearestF F n (ofInt F n) := by
  have hm : F.mag (ofInt F n) = rneEncode F 0 (n.natAbs * 2 ^ F.unit) := mag_pack (enc_lt S _)
  have hs : F.neg (ofInt F n) = decide (n < 0) := neg_pack (enc_lt S _)
  refine ⟨ofInt_lt S n, hs, ?_⟩
  refine nearest_real S (s := 0) (v := n.natAbs * 2 ^ F.unit) ?_ (ofInt_noover S hn) ?_
  · rw [hm]; exact (rneEncode_local F S.p1 S.e1 0 _).nearest S.p1 S.e1
  · have hU : (2 : ℚ) ^ F.unit ≠ 0 := by positivity
    rw [hs, Nat.add_zero]
    rw [Nat.cast_mul, Nat.cast_natAbs]
    push_cast
    rw [mul_div_assoc, div_self hU, mul_one]
    by_cases h : n < 0
    · rw [abs_of_neg (by exact_mod_cast h)]; simp [h]
    · rw [abs_of_nonneg (by exact_mod_cast (not_lt.1 h))]; simp [h]

end

/-- Widening: exact. -/
theorem widen_code {F G : Fmt} (S : Std F) (T : Std G) {d : Nat} (hu : G.unit = F.unit + d) (hp : F.p ≤ G.p)
    (hb : F.bias ≤ G.bias) {c : Nat} (hc : c < F.inf) :
    ∃ c', c' < G.inf ∧ G.val c' = F.val c * 2 ^ d ∧ rneEncode G 0 (F.val c * 2 ^ d) = c' := by
  obtain ⟨g, hg, hg2⟩ := val_sig F c
  have h1 : F.val c < 2 ^ (F.unit + F.bias + 1) := by
    rw [← S.val_inf]; exact (val_lt_iff F).2 hc
  refine rnd_exact T (t := c / 2 ^ F.p - 1 + d) ?_ ?_ ?_
  · rw [hg, Nat.pow_add]
    exact Nat.mul_dvd_mul_right (Dvd.intro_left g rfl) _
  · rw [hg]
    unfold Fmt.ulp
    rw [Nat.mul_assoc, ← Nat.pow_add, Nat.pow_add 2 (G.p + 1)]
    apply Nat.mul_le_mul_right
    exact Nat.le_trans (Nat.le_of_lt hg2) (Nat.pow_le_pow_right (by decide) (by omega))
  · calc F.val c * 2 ^ d < 2 ^ (F.unit + F.bias + 1) * 2 ^ d := Nat.mul_lt_mul_of_pos_right h1 (Nat.two_pow_pos _)
      _ = 2 ^ (F.unit + F.bias + 1 + d) := by rw [← Nat.pow_add]
      _ ≤ _ := Nat.pow_le_pow_right (by decide) (by omega)

theorem widen_real {F G : Fmt} (S : Std F) (T : Std G) {d : Nat} (hu : G.unit = F.unit + d) {a c' : Nat}
    (hc' : c' < G.inf) (hv : G.val c' = F.val (F.mag a) * 2 ^ d) : G.real (G.pack (F.neg a) c') = F.real a := by
  have hw := Nat.lt_trans hc' T.inf_lt
  rw [real_bits T, mag_pack hw, neg_pack hw, hv, real_mul S a d, hu]
  push_cast
  split_ifs <;> ring

/-- **`static_cast<double>(float)`** is exact. -/
theorem f64OfF32_spec {a : Nat} :
    f64OfF32 a < 2 ^ (f64.w + 1) ∧ f64.neg (f64OfF32 a) = f32.neg a ∧
    (f32.Fin a → f64.Fin (f64OfF32 a) ∧ f64.real (f64OfF32 a) = f32.real a) ∧
    (f32.mag a = f32.inf → f64.mag (f64OfF32 a) = f64.inf) ∧ (f32.nan a = true → f64.nan (f64OfF32 a) = true) := by
  have hcase : ∀ c, c < 2 ^ f64.w → f64.pack (f32.neg a) c < 2 ^ (f64.w + 1) ∧ f64.neg (f64.pack (f32.neg a) c) = f32.neg a ∧
      f64.mag (f64.pack (f32.neg a) c) = c := fun c hc => ⟨pack_lt hc, neg_pack hc, mag_pack hc⟩
  unfold f64OfF32
  by_cases hn : f32.nan a = true
  · rw [if_pos hn]
    have hlt : f64.inf ||| 2 ^ 51 ||| (f32.mag a % 2 ^ 23) <<< 29 < 2 ^ f64.w := by
      apply Nat.or_lt_two_pow (by decide)
      rw [Nat.shiftLeft_eq]
      have : f32.mag a % 2 ^ 23 < 2 ^ 23 := Nat.mod_lt _ (by decide)
      show _ < 2 ^ 63
      omega
    have hge : f64.inf < f64.inf ||| 2 ^ 51 ||| (f32.mag a % 2 ^ 23) <<< 29 :=
      Nat.lt_of_lt_of_le (by decide : f64.inf < f64.inf ||| 2 ^ 51) Nat.left_le_or
    obtain ⟨h1, h2, h3⟩ := hcase _ hlt
    refine ⟨h1, h2, fun hf => ?_, fun hi => ?_, fun _ => ?_⟩
    · unfold Fmt.nan at hn; unfold Fmt.Fin at hf; simp at hn; omega
    · unfold Fmt.nan at hn; simp at hn; omega
    · unfold Fmt.nan; rw [h3]; exact decide_eq_true hge
  · rw [if_neg hn]
    by_cases hi : f32.mag a = f32.inf
    · rw [if_pos hi]
      obtain ⟨h1, h2, h3⟩ := hcase f64.inf (by decide)
      exact ⟨h1, h2, fun hf => by unfold Fmt.Fin at hf; omega, fun _ => h3, fun h => absurd h hn⟩
    · rw [if_neg hi]
      have hf : f32.Fin a := by
        unfold Fmt.nan at hn; unfold Fmt.Fin
        simp at hn; omega
      obtain ⟨c', hc, hv, he⟩ := widen_code std32 std64 (d := 925) (by decide) (by decide) (by decide) hf
      rw [he]
      obtain ⟨h1, h2, h3⟩ := hcase c' (Nat.lt_trans hc std64.inf_lt)
      refine ⟨h1, h2, fun _ => ⟨by unfold Fmt.Fin; rw [h3]; exact hc, ?_⟩, fun h => absurd h hi, fun h => absurd h hn⟩
      exact widen_real std32 std64 (by decide) hc hv

theorem scalarIsInf_eq {F : Fmt} (S : Std F) (x : Nat) : scalarIsInf F x = decide (F.mag x = F.inf) := by
  unfold scalarIsInf Fmt.mag Fmt.signMask
  have e1 : x <<< 1 % 2 ^ (F.w + 1) = 2 * (x % 2 ^ F.w) := by
    rw [Nat.shiftLeft_eq, Nat.pow_succ 2 F.w, pow_one, Nat.mul_mod_mul_right, Nat.mul_comm]
  have e2 : 2 ^ (F.w + 1) - 1 <<< (F.p + 1) = 2 * F.inf := by
    unfold Fmt.inf Fmt.w
    rw [Nat.shiftLeft_eq, Nat.sub_mul, Nat.pow_succ, Nat.pow_succ, ← Nat.pow_add, Nat.add_comm F.e F.p]
    omega
  rw [e1, e2]
  simp only [beq_eq_decide]
  congr 1
  rw [eq_iff_iff]
  omega

/-- `FLT_MAX`. -/
def fltMax : ℚ := (2 ^ 24 - 1) * 2 ^ 104

theorem real_highest : f32.real f32Highest = fltMax ∧ f32.real f32Lowest = -fltMax := by
  have h1 : f32.sval f32Highest = (2 ^ 24 - 1) * 2 ^ 253 := by decide +kernel
  have h2 : f32.sval f32Lowest = -((2 ^ 24 - 1) * 2 ^ 253) := by decide +kernel
  have hu : f32.unit = 149 := by decide
  unfold Fmt.real fltMax
  rw [h1, h2, hu]
  constructor <;> push_cast <;> norm_num

/-- **`DemoteTo` double to float**, one lane. -/
theorem demoteF64_spec {x : Nat} (hx : x < 2 ^ 64) :
    demoteF64 x < 2 ^ (f32.w + 1) ∧ f32.neg (demoteF64 x) = f64.neg x ∧
    (f64.nan x = true → f32.nan (demoteF64 x) = true) ∧
    (f64.Fin x → |f64.real x| ≤ fltMax → IsNearestF f32 (f64.real x) (demoteF64 x)) ∧
    (f64.nan x = false → ¬ (f64.Fin x ∧ |f64.real x| ≤ fltMax) →
      f32.Fin (demoteF64 x) ∧ f32.real (demoteF64 x) = if f64.neg x then -fltMax else fltMax) := by
  have hx' : x < 2 ^ (f64.w + 1) := hx
  obtain ⟨-, n0, hr0, -, -⟩ := f64OfF32_spec (a := f32Highest)
  obtain ⟨hf0, hr0⟩ := hr0 (by unfold Fmt.Fin; decide)
  have hlt : flt f64 (f64OfF32 f32Highest) (f64.mag x) = true ↔
      f64.nan x = false ∧ (f64.Fin x → fltMax < |f64.real x|) := by
    have hnn : f64.nan (f64.mag x) = f64.nan x := by
      unfold Fmt.nan; rw [mag_of_lt (mag_lt x)]
    have hn0 : f64.nan (f64OfF32 f32Highest) = false := nan_fin hf0
    have hm0 : f64.neg (f64.mag x) = false := neg_of_lt (mag_lt x)
    have hrx : f64.real (f64.mag x) = |f64.real x| := by
      rw [abs_real std64, real_bits std64, hm0, mag_of_lt (mag_lt x)]; simp
    rw [Emu.flt_ext (Or.inr rfl), hnn, hn0]
    simp only [true_and]
    refine and_congr_right (fun hn => ?_)
    unfold Emu.extOf
    rw [if_pos (show f64.mag (f64OfF32 f32Highest) < f64.inf from hf0), hr0, real_highest.1, hm0, hrx, mag_of_lt (mag_lt x)]
    by_cases hf : f64.Fin x
    · have hf' : f64.mag x < f64.inf := hf
      rw [if_pos hf', WithBot.coe_lt_coe, WithTop.coe_lt_coe]
      simp [hf]
    · have hf' : ¬ f64.mag x < f64.inf := hf
      rw [if_neg hf']
      simp only [Bool.false_eq_true, if_false, WithBot.coe_lt_coe, WithTop.coe_lt_top, hf, false_imp_iff]
  have hsat : (scalarIsInf f64 x || flt f64 (f64OfF32 f32Highest) (scalarAbs f64 x)) = true ↔
      f64.nan x = false ∧ ¬ (f64.Fin x ∧ |f64.real x| ≤ fltMax) := by
    rw [scalarAbs_eq, Bool.or_eq_true, hlt, scalarIsInf_eq std64, decide_eq_true_eq, not_and, not_le]
    constructor
    · rintro (h | h)
      · refine ⟨?_, fun hf => ?_⟩
        · unfold Fmt.nan; rw [h]; simp
        · unfold Fmt.Fin at hf; rw [h] at hf; exact absurd hf (lt_irrefl _)
      · exact h
    · exact fun h => Or.inr h
  unfold demoteF64
  by_cases hs : (scalarIsInf f64 x || flt f64 (f64OfF32 f32Highest) (scalarAbs f64 x)) = true
  · rw [if_pos hs, scalarSignBit_eq hx']
    obtain ⟨h1, h2⟩ := hsat.1 hs
    have h3 := real_highest
    refine ⟨?_, ?_, fun h => by rw [h1] at h; simp at h, fun a b => absurd ⟨a, b⟩ h2, fun _ _ => ?_⟩
    · split_ifs <;> decide
    · cases f64.neg x <;> decide
    · cases f64.neg x
      · exact ⟨by unfold Fmt.Fin; decide, h3.1⟩
      · exact ⟨by unfold Fmt.Fin; decide, h3.2⟩
  · rw [if_neg hs]
    rw [hsat] at hs
    obtain ⟨k1, k2, k3, -, k5⟩ := f32OfF64_spec x hx
    have hw32 : f32.w = 31 := by decide
    have hw64 : f64.w = 63 := by decide
    have em : f32.mag (f32OfF64 x) = f32OfF64 x % 2 ^ 31 := rfl
    have em' : f64.mag x = x % 2 ^ 63 := rfl
    have hneg : f32.neg (f32OfF64 x) = f64.neg x := by
      unfold Fmt.neg Fmt.signMask
      rw [hw32, hw64]
      have : 2 ^ 31 ≤ f32OfF64 x ↔ 2 ^ 63 ≤ x := by omega
      exact decide_eq_decide.2 this
    refine ⟨k1, hneg, fun hn => ?_, fun hf hb => ?_, fun h1 h2 => absurd ⟨h1, h2⟩ hs⟩
    · unfold Fmt.nan at hn ⊢
      rw [em]; rw [em'] at hn
      rw [decide_eq_true_eq] at hn ⊢
      exact k5 hn
    · have hU : (0 : ℚ) < 2 ^ f64.unit := by positivity
      have hu : f64.unit = f32.unit + 925 := by decide
      have hval : f64.val (f64.mag x) ≤ f32.val (f32.inf - 1) * 2 ^ 925 := by
        rw [abs_real std64, div_le_iff₀ hU, ← real_highest.1, hu] at hb
        have : f32.real f32Highest * 2 ^ (f32.unit + 925) = ((f32.val (f32.inf - 1) * 2 ^ 925 : Nat) : ℚ) := by
          rw [real_mul std32 _ 925, show f32.neg f32Highest = false by decide,
            show f32.mag f32Highest = f32.inf - 1 by decide, div_mul_cancel₀ _ (by positivity)]
          simp
        rw [this] at hb
        exact_mod_cast hb
      refine nearest_real std32 (s := 925) (v := f64.val (f64.mag x)) ?_ ?_ ?_
      · rw [em, (k3 hf).1]
        exact (rneEncode_local f32 (by decide) (by decide) 925 _).nearest (by decide) (by decide)
      · have h1 : f32.val (f32.inf - 1) < f32.val f32.inf := (val_lt_iff f32).2 (by decide)
        have h2 := Nat.mul_lt_mul_of_pos_right h1 (Nat.two_pow_pos 925)
        rw [Nat.add_mul]
        generalize f32.val (f32.inf - 1) * 2 ^ 925 = A at *
        generalize f32.val f32.inf * 2 ^ 925 = B at *
        omega
      · rw [hneg, ← hu, real_bits std64]
        split_ifs <;> ring

end Flt
end Hwy
