import Verif.GenDivReal2
import Verif.EmuConvF2I

/-!
# 64-bit integer division with two reciprocal estimates: the arithmetic
-/

namespace Hwy
namespace Flt
open CInt

/-- `CastValueForInRangeF2IConv` as a number. -/
def inr (F : Fmt) (t : Ty) (x : Nat) : Int :=
  match castInRangeF2I F t x with
  | .ok n => n
  | .error _ => 0

/-- It is total: the truncated value if representable, else the smallest value. -/
theorem inr_spec {F : Fmt} (hF : F = f32 ∨ F = f64) {t : Ty} (ht : t ∈ convTys) (x : Nat) :
    castInRangeF2I F t x = .ok (inr F t x) ∧ t.Has (inr F t x) ∧
      (F.Fin x → t.Has (truncQ (F.real x)) → inr F t x = truncQ (F.real x)) ∧
      (F.Fin x → ¬ t.Has (truncQ (F.real x)) → inr F t x = t.lo) := by
  obtain ⟨n, e, hn, h⟩ := castInRangeF2I_spec hF ht (x := x)
  have e' : inr F t x = n := by unfold inr; rw [e]
  rw [e']
  refine ⟨e, hn, h, fun hf hT => ?_⟩
  unfold castInRangeF2I at e
  by_cases hc : f2iField F t x < f2iMin F t
  · obtain ⟨h1, h2⟩ := (f2i_test hF ht).1 hc
    have hh := inRange_has hF ht h1 h2
    rw [← truncQ_sg hF] at hh
    exact absurd hh hT
  · rw [if_neg hc] at e
    injection e with e
    exact e.symm

/-! ### Bounds on the estimate -/

theorem rep_pow (b : Bool) {k : Nat} (hk : k ≤ 200) : ∃ r, f64.Fin r ∧ f64.real r = (if b then -1 else 1) * (2 : ℚ) ^ k := by
  obtain ⟨e1, e2, e3⟩ := f64_facts
  obtain ⟨r, h, e⟩ := rep_grid std64 b (m := 1) (t := f64.unit + k) (Nat.one_le_two_pow)
    (by rw [e1, e2, e3]; omega)
  refine ⟨r, h, ?_⟩
  have : (2 : ℚ) ^ f64.unit ≠ 0 := pow_ne_zero _ (by norm_num)
  rw [e, pow_add]
  congr 1
  generalize (2 : ℚ) ^ f64.unit = u at *
  field_simp
  push_cast
  ring

theorem near_abs_le {x : ℚ} {r k : Nat} (hk : k ≤ 200) (h : IsNearestF f64 x r) (hx : |x| ≤ 2 ^ k) : |f64.real r| ≤ 2 ^ k := by
  obtain ⟨r1, f1, e1⟩ := rep_pow false hk
  obtain ⟨r2, f2, e2⟩ := rep_pow true hk
  simp only [Bool.false_eq_true, if_false, if_true, one_mul, neg_one_mul] at e1 e2
  rw [abs_le] at hx ⊢
  have a1 := near_le h f1 (by rw [e1]; exact hx.2)
  have a2 := near_ge h f2 (by rw [e2]; exact hx.1)
  rw [e1] at a1
  rw [e2] at a2
  exact ⟨a2, a1⟩

theorem near_one_le {b : Int} {r : Nat} (h : IsNearestF f64 b r) (hb : b ≠ 0) : 1 ≤ |f64.real r| := by
  obtain ⟨r1, f1, e1⟩ := rep_pow false (k := 0) (by omega)
  obtain ⟨r2, f2, e2⟩ := rep_pow true (k := 0) (by omega)
  simp only [Bool.false_eq_true, if_false, if_true, one_mul, pow_zero, mul_one] at e1 e2
  rcases lt_or_gt_of_ne hb with hc | hc
  · have hc' : (b : ℚ) ≤ -1 := by exact_mod_cast (show b ≤ -1 by omega)
    have a1 := near_le h f2 (by rw [e2]; exact hc')
    rw [e2] at a1
    rw [abs_of_nonpos (by linarith)]; linarith
  · have hc' : (1 : ℚ) ≤ b := by exact_mod_cast hc
    have a1 := near_ge h f1 (by rw [e1]; exact hc')
    rw [e1] at a1
    rw [abs_of_nonneg (by linarith)]; exact a1

section
variable {a b : Int} {fb fr fa fp : Nat}

theorem Est.le (E : Est a b fb fr fa fp) (hb : b ≠ 0) {k : Nat} (hk : k ≤ 200) (ha : |a| ≤ 2 ^ k) : |f64.real fp| ≤ 2 ^ k := by
  have h1 := near_one_le E.hb hb
  have h2 : |f64.real fr| ≤ 1 := by
    have := near_abs_le (k := 0) (by omega) E.hr (by
      rw [abs_div, abs_one, pow_zero, div_le_one (by linarith)]; exact h1)
    simpa using this
  have h3 := near_abs_le hk E.ha (by exact_mod_cast ha)
  refine near_abs_le hk E.hp ?_
  rw [abs_mul]
  calc _ ≤ (2 : ℚ) ^ k * 1 := mul_le_mul h3 h2 (abs_nonneg _) (by positivity)
    _ = 2 ^ k := mul_one _

end

theorem truncQ_abs_le {P : ℚ} {M : Int} (h : |P| ≤ M) : |truncQ P| ≤ M := by
  have core : ∀ {P : ℚ}, 0 ≤ P → |P| ≤ M → |truncQ P| ≤ M := by
    intro P hP h
    obtain ⟨h1, h2, h3⟩ := truncQ_nonneg hP
    rw [abs_of_nonneg hP] at h
    rw [abs_of_nonneg h3]
    exact_mod_cast le_trans h1 h
  rcases le_total 0 P with hP | hP
  · exact core hP h
  · have := core (P := -P) (by linarith) (by rwa [abs_neg])
    rwa [truncQ_neg, abs_neg] at this

/-- The signed conversion agrees modulo `2^64`. -/
theorem inr_mod_i64 {x : Nat} (hf : f64.Fin x) (h : |f64.real x| ≤ 2 ^ 63) : inr f64 i64 x ≡ truncQ (f64.real x) [ZMOD 2 ^ 64] := by
  obtain ⟨_, _, h1, h2⟩ := inr_spec (F := f64) (t := i64) (.inr rfl) (by decide) x
  have h3 := truncQ_abs_le (P := f64.real x) (M := 2 ^ 63) (by push_cast; exact h)
  by_cases hc : i64.Has (truncQ (f64.real x))
  · rw [h1 hf hc]
  · rw [h2 hf hc]
    have hc' : ¬ (-9223372036854775808 ≤ truncQ (f64.real x) ∧ truncQ (f64.real x) ≤ 9223372036854775807) := hc
    rw [abs_le] at h3
    norm_num at h3
    have : truncQ (f64.real x) = 9223372036854775808 := by omega
    rw [this]
    rfl

/-- The unsigned one too. -/
theorem inr_mod_u64 {x : Nat} (hf : f64.Fin x) (h0 : 0 ≤ f64.real x) (h : |f64.real x| ≤ 2 ^ 64) :
    inr f64 u64 x ≡ truncQ (f64.real x) [ZMOD 2 ^ 64] := by
  obtain ⟨_, _, h1, h2⟩ := inr_spec (F := f64) (t := u64) (.inr rfl) (by decide) x
  have h3 := truncQ_abs_le (P := f64.real x) (M := 2 ^ 64) (by push_cast; exact h)
  have h4 := (truncQ_nonneg h0).2.2
  by_cases hc : u64.Has (truncQ (f64.real x))
  · rw [h1 hf hc]
  · rw [h2 hf hc]
    have hc' : ¬ (0 ≤ truncQ (f64.real x) ∧ truncQ (f64.real x) ≤ 18446744073709551615) := hc
    rw [abs_le] at h3
    norm_num at h3
    have : truncQ (f64.real x) = 18446744073709551616 := by omega
    rw [this]
    rfl

/-! ### Integers -/

/-- The sign used below. -/
def sg2 (a : Int) : Int := if a < 0 then -1 else 1

/-- What an estimate `Q` of `a / b` guarantees. -/
structure Close (a b Q : Int) : Prop where
  lo : -|a| ≤ 2 ^ 50 * (sg2 a * (a - Q * b))
  hi : 2 ^ 50 * (sg2 a * (a - Q * b) - |b|) < |a|
  dir : Q = 0 ∨ |b| ≤ sg2 a * (Q * b)

theorem close_of {P : ℚ} {a b : Int} (hb : b ≠ 0) (h : |P * b - a| ≤ |(a : ℚ)| / 2 ^ 50) : Close a b (truncQ P) := by
  obtain ⟨h1, h2⟩ := rem_bound hb h (s := sg2 a) rfl
  refine ⟨?_, ?_, ?_⟩
  · have : ((-|a| : Int) : ℚ) ≤ ((2 ^ 50 * (sg2 a * (a - truncQ P * b)) : Int) : ℚ) := by
      push_cast at h1 ⊢
      norm_num at h1 ⊢
      linarith
    exact_mod_cast this
  · have : ((2 ^ 50 * (sg2 a * (a - truncQ P * b) - |b|) : Int) : ℚ) < ((|a| : Int) : ℚ) := by
      push_cast at h2 ⊢
      norm_num at h2 ⊢
      linarith
    exact_mod_cast this
  · by_cases hQ : truncQ P = 0
    · exact .inl hQ
    right
    -- the sign of `P * b` is that of `a`
    have hs : 0 ≤ (sg2 a : ℚ) * (P * b) := by
      rw [abs_le] at h
      unfold sg2
      split_ifs with hc
      · have hc' : (a : ℚ) < 0 := by exact_mod_cast hc
        rw [abs_of_neg hc'] at h
        norm_num at h ⊢
        linarith [h.2]
      · have hc' : (0 : ℚ) ≤ a := by exact_mod_cast not_lt.1 hc
        rw [abs_of_nonneg hc'] at h
        norm_num at h ⊢
        linarith [h.1]
    have hsP : (0 ≤ P ∧ 0 ≤ truncQ P) ∨ (P ≤ 0 ∧ truncQ P ≤ 0) := by
      rcases le_total 0 P with hP | hP
      · exact .inl ⟨hP, (truncQ_nonneg hP).2.2⟩
      · right
        have := (truncQ_nonneg (x := -P) (by linarith)).2.2
        rw [truncQ_neg] at this
        exact ⟨hP, by omega⟩
    have hP0 : P ≠ 0 := by
      intro h0; rw [h0] at hQ
      exact hQ (by unfold truncQ; simp)
    have hn : 0 ≤ sg2 a * (truncQ P * b) := by
      have hb' : (b : ℚ) ≠ 0 := by exact_mod_cast hb
      have hsb : 0 ≤ (sg2 a * b : Int) ∧ 0 ≤ P ∨ (sg2 a * b : Int) ≤ 0 ∧ P ≤ 0 := by
        rw [show (sg2 a : ℚ) * (P * b) = (sg2 a * b) * P by ring] at hs
        rcases hsP with ⟨p, _⟩ | ⟨p, _⟩
        · left
          refine ⟨?_, p⟩
          have : (0 : ℚ) ≤ sg2 a * b := nonneg_of_mul_nonneg_left hs (lt_of_le_of_ne p (Ne.symm hP0))
          exact_mod_cast this
        · right
          refine ⟨?_, p⟩
          have : (sg2 a * b : ℚ) ≤ 0 := by
            by_contra hc
            have := mul_neg_of_pos_of_neg (not_le.1 hc) (lt_of_le_of_ne p hP0)
            linarith
          exact_mod_cast this
      rw [show sg2 a * (truncQ P * b) = (sg2 a * b) * truncQ P by ring]
      rcases hsb with ⟨q, p⟩ | ⟨q, p⟩
      · exact mul_nonneg q (truncQ_nonneg p).2.2
      · rcases hsP with ⟨p', _⟩ | ⟨_, r⟩
        · exact absurd (le_antisymm p p') hP0
        · exact mul_nonneg_of_nonpos_of_nonpos q r
    have e : sg2 a * (truncQ P * b) = |truncQ P| * |b| := by
      rw [← abs_of_nonneg hn, abs_mul, abs_mul]
      have : |sg2 a| = 1 := by unfold sg2; split_ifs <;> rfl
      rw [this, one_mul]
    rw [e]
    have := Int.one_le_abs hQ
    exact le_mul_of_one_le_left (abs_nonneg b) this

theorem sg2_cases (a : Int) : (sg2 a = 1 ∧ 0 ≤ a) ∨ (sg2 a = -1 ∧ a < 0) := by
  unfold sg2; split_ifs with h
  · exact .inr ⟨rfl, h⟩
  · exact .inl ⟨rfl, not_lt.1 h⟩

/-- The remainder of a signed value fits. -/
theorem Close.fits {a b Q : Int} (h : Close a b Q) (hb : b ≠ 0) (ha : i64.Has a) : i64.Has (a - Q * b) := by
  obtain ⟨h1, h2, h3⟩ := h
  have ha' : -9223372036854775808 ≤ a ∧ a ≤ 9223372036854775807 := ha
  show -9223372036854775808 ≤ a - Q * b ∧ a - Q * b ≤ 9223372036854775807
  have hb1 := Int.one_le_abs hb
  generalize |b| = β at *
  rcases h3 with h3 | h3
  · subst h3; omega
  · generalize hq : Q * b = z at *
    rcases sg2_cases a with ⟨e, hs⟩ | ⟨e, hs⟩
    · rw [e] at h1 h2 h3
      rw [abs_of_nonneg hs] at h1 h2
      omega
    · rw [e] at h1 h2 h3
      rw [abs_of_neg hs] at h1 h2
      omega

/-- After two estimates the remainder is off by at most one divisor. -/
theorem two_steps {a b Q0 Q1 : Int} (hb : b ≠ 0) (ha : |a| ≤ 2 ^ 64) (h0 : Close a b Q0)
    (h1 : Close (a - Q0 * b) b Q1) :
    -|b| ≤ sg2 a * (a - (Q0 + Q1) * b) ∧ sg2 a * (a - (Q0 + Q1) * b) < 2 * |b| := by
  obtain ⟨l0, u0, _⟩ := h0
  obtain ⟨l1, u1, _⟩ := h1
  rw [show a - (Q0 + Q1) * b = a - Q0 * b - Q1 * b by ring]
  have hb1 := Int.one_le_abs hb
  generalize |b| = β at *
  generalize |a| = α at *
  generalize a - Q0 * b = r at *
  generalize r - Q1 * b = r1 at *
  norm_num at ha
  rcases sg2_cases a with ⟨e, hs⟩ | ⟨e, hs⟩ <;> rcases sg2_cases r with ⟨e', hs'⟩ | ⟨e', hs'⟩ <;> rw [e] at l0 u0 ⊢ <;>
    rw [e'] at l1 u1 <;>
    first
      | (rw [abs_of_nonneg hs'] at l1 u1; omega)
      | (rw [abs_of_neg hs'] at l1 u1; omega)

/-- The final correction. -/
theorem correct {a b Q : Int} (hb : b ≠ 0) (hl : -|b| ≤ sg2 a * (a - Q * b)) (hu : sg2 a * (a - Q * b) < 2 * |b|) :
    a.tdiv b = Q + (if 0 ≤ sg2 a * (a - Q * b) ∧ sg2 a * (a - Q * b) < |b| then 0
      else if (decide (a - Q * b < 0) != decide (b < 0)) = true then -1 else 1) := by
  by_cases hc : 0 ≤ sg2 a * (a - Q * b) ∧ sg2 a * (a - Q * b) < |b|
  · rw [if_pos hc, add_zero]
    exact tdiv_of_rem rfl hb hc.1 hc.2
  · rw [if_neg hc]
    have hb1 := Int.one_le_abs hb
    have e1 : a - (Q + 1) * b = a - Q * b - b := by ring
    have e2 : a - (Q + -1) * b = a - Q * b + b := by ring
    have hbs : (|b| = b ∧ 0 < b) ∨ (|b| = -b ∧ b < 0) := by
      rcases lt_or_gt_of_ne hb with h | h
      · exact .inr ⟨abs_of_neg h, h⟩
      · exact .inl ⟨abs_of_pos h, h⟩
    generalize hR : a - Q * b = R at *
    rcases sg2_cases a with ⟨e, hs⟩ | ⟨e, hs⟩ <;> rw [e] at hl hu hc <;> rcases hbs with ⟨eb, hs'⟩ | ⟨eb, hs'⟩ <;> rw [eb] at hl hu hc <;>
      rcases lt_or_ge R 0 with hr | hr <;>
      first
        | (rw [show (decide (R < 0) != decide (b < 0)) = true by simp <;> omega, if_pos rfl]
           refine tdiv_of_rem (s := sg2 a) rfl hb ?_ ?_ <;> rw [e2] <;> rw [e] <;> (try rw [eb]) <;> omega)
        | (rw [show (decide (R < 0) != decide (b < 0)) = false by simp <;> omega, if_neg (by decide)]
           refine tdiv_of_rem (s := sg2 a) rfl hb ?_ ?_ <;> rw [e1] <;> rw [e] <;> (try rw [eb]) <;> omega)

end Flt
end Hwy
