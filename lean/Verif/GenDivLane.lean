import Verif.GenDiv64U
import Verif.GenLzcntSpec

/-!
# Integer division, one lane
-/

namespace Hwy
namespace Flt
open CInt

/-- One lane of floating-point division. -/
def fdivLane (F : Fmt) (x y : Nat) : Nat := if feq F y (ofInt F 0) then ofInt F 0 else fdiv F x y

section
variable {F : Fmt} (S : Std F)
include S

theorem fdivLane_lt (x y : Nat) : fdivLane F x y < 2 ^ (F.w + 1) := by
  unfold fdivLane; split_ifs
  · exact ofInt_lt S 0
  · exact fdiv_lt S x y

theorem feq_zero {y : Nat} (hy : F.real y ≠ 0) : feq F y (ofInt F 0) = false := by
  rw [Bool.eq_false_iff]
  intro hc
  unfold feq at hc
  simp only [Bool.and_eq_true, decide_eq_true_eq] at hc
  have h0 : F.real (ofInt F 0) = ((0 : Int) : ℚ) := real_ofInt S (by simp)
  unfold Fmt.real at hy h0
  rw [hc.2] at hy
  rw [Int.cast_zero] at h0
  exact hy h0

theorem lt_over_pow {x : ℚ} {k : Nat} (hk : k < F.bias) (hx : |x| ≤ 2 ^ k) : |x| < F.over :=
  lt_over S (lt_of_le_of_lt hx (pow_lt_pow_right₀ (by norm_num) hk))

/-- **A quotient of integers that the format holds exactly.** -/
theorem quot_lane (hbig : 2 * F.p + 2 ≤ F.unit) {a b : Int} (ha : a.natAbs ≤ 2 ^ F.p) (hb : b.natAbs ≤ 2 ^ F.p) (h0 : b ≠ 0) :
    F.Fin (fdivLane F (ofInt F a) (ofInt F b)) ∧
      truncQ (F.real (fdivLane F (ofInt F a) (ofInt F b))) = a.tdiv b := by
  have hpb : F.p + 3 ≤ F.bias := by have := S.unit_eq; omega
  have hlt : ∀ {n : Int}, n.natAbs ≤ 2 ^ F.p → n.natAbs < 2 ^ F.bias := fun h =>
    Nat.lt_of_le_of_lt h (Nat.pow_lt_pow_right (by decide) (by omega))
  have ea := real_ofInt S ha
  have eb := real_ofInt S hb
  have hb' : F.real (ofInt F b) ≠ 0 := by rw [eb]; exact_mod_cast h0
  have e : fdivLane F (ofInt F a) (ofInt F b) = fdiv F (ofInt F a) (ofInt F b) := by
    unfold fdivLane; rw [feq_zero S hb']; simp
  rw [e]
  have fa := (ofInt_spec S (hlt ha)).2.2.1
  have fb := (ofInt_spec S (hlt hb)).2.2.1
  have hq := (fdiv_spec S fa fb hb').2.1 (by
    rw [ea, eb]
    refine lt_over_pow S (k := F.p) (by omega) ?_
    rw [abs_div]
    have hb1 : (1 : ℚ) ≤ |(b : ℚ)| := by exact_mod_cast Int.one_le_abs h0
    refine le_trans (div_le_self (abs_nonneg _) hb1) ?_
    rw [← Int.cast_abs, Int.abs_eq_natAbs]
    exact_mod_cast ha)
  rw [ea, eb] at hq
  refine ⟨hq.1, div_trunc S hbig ?_ h0 ?_ hq⟩
  · rw [pow_succ]; have := Nat.two_pow_pos F.p; omega
  · rw [pow_succ]; omega

end

/-! ### 64-bit lanes -/

/-- The reciprocal and the quotient estimate of one lane. -/
def recip64 (b : Int) : Nat := fdivLane f64 f64.one (ofInt f64 b)
def est64 (a b : Int) : Nat := fmul f64 (ofInt f64 a) (recip64 b)

theorem one_f64 : f64.Fin f64.one ∧ f64.real f64.one = 1 := by
  constructor
  · unfold Fmt.Fin; decide +kernel
  · have : f64.one = 0x3FF0000000000000 := by decide +kernel
    rw [this, real_code (n := 1) (e := 1074) (by decide +kernel) (by decide +kernel), mul_div_assoc,
      div_self (pow_ne_zero _ (by norm_num))]
    norm_num

theorem est64_ok {a b : Int} (hb : b ≠ 0) (hb2 : |b| ≤ 2 ^ 63) (ha : |a| ≤ 2 ^ 64) :
    f64.Fin (est64 a b) ∧ Est a b (ofInt f64 b) (recip64 b) (ofInt f64 a) (est64 a b) := by
  obtain ⟨e1, e2, e3⟩ := f64_facts
  have hlt : ∀ {n : Int}, |n| ≤ 2 ^ 64 → n.natAbs < 2 ^ f64.bias := fun {n} h => by
    have h1 : n.natAbs ≤ 2 ^ 64 := by
      rw [Int.abs_eq_natAbs] at h; exact_mod_cast h
    rw [e3]
    exact Nat.lt_of_le_of_lt h1 (Nat.pow_lt_pow_right (by decide) (by decide))
  have hB := (ofInt_spec std64 (hlt (le_trans hb2 (by norm_num)))).2.2
  have hA := (ofInt_spec std64 (hlt ha)).2.2
  have hB1 := near_one_le hB hb
  have hB0 : f64.real (ofInt f64 b) ≠ 0 := by
    intro h; rw [h, abs_zero] at hB1; norm_num at hB1
  have er : recip64 b = fdiv f64 f64.one (ofInt f64 b) := by
    unfold recip64 fdivLane; rw [feq_zero std64 hB0]; simp
  have hρ := (fdiv_spec std64 one_f64.1 hB.1 hB0).2.1 (by
    rw [one_f64.2]
    refine lt_over_pow std64 (k := 0) (by decide) ?_
    rw [abs_div, abs_one, pow_zero, div_le_one (by linarith)]; exact hB1)
  rw [one_f64.2, ← er] at hρ
  have h2 : |f64.real (recip64 b)| ≤ 1 := by
    have := near_abs_le (k := 0) (by omega) hρ (by
      rw [abs_div, abs_one, pow_zero, div_le_one (by linarith)]; exact hB1)
    simpa using this
  have h3 := near_abs_le (k := 64) (by omega) hA (by exact_mod_cast ha)
  have hP := (fmul_spec std64 hA.1 hρ.1).2.1 (by
    refine lt_over_pow std64 (k := 64) (by decide) ?_
    rw [abs_mul]
    calc _ ≤ (2 : ℚ) ^ 64 * 1 := mul_le_mul h3 h2 (abs_nonneg _) (by positivity)
      _ = 2 ^ 64 := mul_one _)
  exact ⟨hP.1, hB, hρ, hA, hP⟩

theorem est64_lt (a b : Int) : est64 a b < 2 ^ (f64.w + 1) := fmul_lt std64 _ _

/-- First estimate. -/
theorem est64_close {a b : Int} (hb : b ≠ 0) (hb2 : |b| ≤ 2 ^ 63) (ha : |a| ≤ 2 ^ 64) :
    Close a b (truncQ (f64.real (est64 a b))) :=
  close_of hb ((est64_ok hb hb2 ha).2.bound hb hb2 ha)

theorem abs_of_i64 {a : Int} (ha : i64.Has a) : |a| ≤ 2 ^ 63 := by
  have : -9223372036854775808 ≤ a ∧ a ≤ 9223372036854775807 := ha
  rw [abs_le]; norm_num; omega

/-- The part shared by both signs: the second step and the correction. -/
theorem div64_tail {a b Q0 r0 : Int} (hb : b ≠ 0) (hb2 : |b| ≤ 2 ^ 63) (ha : |a| ≤ 2 ^ 64) (h0 : Close a b Q0)
    (hf : i64.Has (a - Q0 * b)) (er0 : r0 = a - Q0 * b) {q1 r1 : Int} (eq1 : q1 = inr f64 i64 (est64 r0 b))
    (er1 : r1 = i64.wrap (r0 - i64.wrap (q1 * b))) :
    ∃ Q1, q1 ≡ Q1 [ZMOD 2 ^ 64] ∧ r1 = a - (Q0 + Q1) * b ∧ -|b| ≤ sg2 a * r1 ∧ sg2 a * r1 < 2 * |b| ∧
      a.tdiv b = Q0 + Q1 + (if 0 ≤ sg2 a * r1 ∧ sg2 a * r1 < |b| then 0
        else if (decide (r1 < 0) != decide (b < 0)) = true then -1 else 1) := by
  have hi : i64 ∈ laneTys := by decide
  rw [← er0] at hf
  have hr63 := abs_of_i64 hf
  have hr64 : |r0| ≤ 2 ^ 64 := le_trans hr63 (by norm_num)
  have hc1 := est64_close hb hb2 hr64
  obtain ⟨hfin, E⟩ := est64_ok hb hb2 hr64
  have hq1 := inr_mod_i64 hfin (E.le hb (by norm_num) hr63)
  rw [← eq1] at hq1
  have hR1 := hc1.fits hb hf
  refine ⟨truncQ (f64.real (est64 r0 b)), hq1, ?_⟩
  generalize truncQ (f64.real (est64 r0 b)) = Q1 at *
  have e : r1 = r0 - Q1 * b := by
    rw [er1]
    have h1 : i64.wrap (r0 - i64.wrap (q1 * b)) = i64.wrap (r0 - Q1 * b) := by
      apply wrap_congr
      apply Int.ModEq.sub_left
      exact (Emu.modEq_wrap i64 _).trans (hq1.mul_right b)
    rw [h1, wrap_has' hi hR1]
  have e2 : r1 = a - (Q0 + Q1) * b := by rw [e, er0]; ring
  rw [er0] at hc1
  obtain ⟨l, u⟩ := two_steps hb ha h0 hc1
  have hc := correct hb l u
  rw [← e2] at l u hc
  exact ⟨e2, l, u, hc⟩

end Flt

namespace Emu
open CInt Flt

theorem msb_i64 {x : Int} (h : i64.Has x) : (bitsOf i64 x).msb = decide (x < 0) := by
  have h' : -9223372036854775808 ≤ x ∧ x ≤ 9223372036854775807 := h
  unfold bitsOf
  rw [BitVec.msb_eq_toInt]
  congr 1
  show ((BitVec.ofInt 64 x).toInt < 0) = (x < 0)
  rw [BitVec.toInt_ofInt]
  have : Int.bmod x (2 ^ 64) = x := Int.bmod_eq_of_le (by norm_num; omega) (by norm_num; omega)
  rw [this]

theorem msb_xor_i64 {x y : Int} (hx : i64.Has x) (hy : i64.Has y) :
    (bitsOf i64 (i64.ofBits (bitsOf i64 x ^^^ bitsOf i64 y))).msb = (decide (x < 0) != decide (y < 0)) := by
  have : bitsOf i64 (i64.ofBits (bitsOf i64 x ^^^ bitsOf i64 y)) = bitsOf i64 x ^^^ bitsOf i64 y := ofInt_ofBits _ _
  rw [this, BitVec.msb_xor, msb_i64 hx, msb_i64 hy]

/-- The correction in lanes: `q4` is `-1` if `r4 >= |b|` (unsigned), negated by sign. -/
theorem corr64 {s r1 β : Int} {n : Bool} (hs : s = 1 ∨ s = -1) (hr : i64.Has r1) (hβ0 : 0 < β) (hβ : β ≤ 2 ^ 63)
    (hl : -β ≤ s * r1) {q4 : Int}
    (e4 : q4 = if (u64.wrap (i64.wrap (s * r1)) ≥ β) then (-1 : Int) else 0) {q5 : Int}
    (e5 : q5 = if n then i64.wrap (-q4) else q4) :
    q5 = -(if 0 ≤ s * r1 ∧ s * r1 < β then 0 else if n = true then -1 else 1) := by
  have hr' : -9223372036854775808 ≤ r1 ∧ r1 ≤ 9223372036854775807 := hr
  norm_num at hβ
  have hw : u64.wrap (i64.wrap (s * r1)) = if s * r1 < 0 then s * r1 + 18446744073709551616 else s * r1 := by
    have : u64.wrap (i64.wrap (s * r1)) = u64.wrap (s * r1) := wrap_congr u64 (modEq_wrap i64 _)
    rw [this]
    have hr2 : -9223372036854775808 ≤ s * r1 ∧ s * r1 ≤ 9223372036854775808 := by
      rcases hs with h | h <;> rw [h] <;> omega
    generalize s * r1 = x at *
    split_ifs with hc
    · rw [← wrap_has' (t := u64) (by decide) (x := x + 18446744073709551616) (by
        show 0 ≤ x + 18446744073709551616 ∧ x + 18446744073709551616 ≤ 18446744073709551615; omega)]
      apply wrap_congr
      show x % (2 ^ 64) = (x + 18446744073709551616) % (2 ^ 64)
      omega
    · exact wrap_has' (t := u64) (by decide) (by show 0 ≤ x ∧ x ≤ 18446744073709551615; omega)
  rw [hw] at e4
  have w1 : i64.wrap 1 = 1 := by decide
  have w0 : i64.wrap 0 = 0 := by decide
  generalize s * r1 = x at *
  by_cases hc : 0 ≤ x ∧ x < β
  · have : q4 = 0 := by
      rw [e4]; split_ifs <;> omega
    rw [e5, this, if_pos hc]
    cases n <;> simp [w0]
  · have : q4 = -1 := by
      rw [e4]; split_ifs <;> omega
    rw [e5, this, if_neg hc]
    cases n <;> simp [w1]

end Emu
end Hwy
