import Verif.EmuFloatLane
import Mathlib.Algebra.Order.Round
import Mathlib.Data.Rat.Floor
import Mathlib.Tactic.FieldSimp
import Mathlib.Tactic.Positivity
import Mathlib.Tactic.NormNum

/-! # Rounding of float lanes: specification over the rationals and per-lane proofs -/

namespace Hwy
namespace Flt
open CInt
set_option linter.unusedSectionVars false

/-! ### Specification -/

/-- The rational number a finite bit pattern stands for. -/
def Fmt.real (F : Fmt) (a : Nat) : ℚ := F.sval a / 2 ^ F.unit

/-- Neither infinite nor NaN. -/
def Fmt.Fin (F : Fmt) (a : Nat) : Prop := F.mag a < F.inf

/-- `n` is the integer nearest to `x`; of two equally near ones, the even one. -/
def IsRne (x : ℚ) (n : ℤ) : Prop :=
  (∀ k : ℤ, |x - n| ≤ |x - k|) ∧ ((∃ k : ℤ, k ≠ n ∧ |x - k| = |x - n|) → Even n)

/-- `x` truncated toward zero. -/
def truncQ (x : ℚ) : ℤ := if 0 ≤ x then ⌊x⌋ else ⌈x⌉

/-! ### Proofs -/

theorem isRne_of_half {x : ℚ} {n : ℤ} (h1 : |x - n| ≤ 1 / 2) (h2 : |x - n| = 1 / 2 → Even n) : IsRne x n := by
  have key : ∀ k : ℤ, k ≠ n → 1 - |x - n| ≤ |x - k| := by
    intro k hk
    have : (1 : ℚ) ≤ |(n : ℚ) - k| := by
      have h : (1 : ℤ) ≤ |n - k| := Int.one_le_abs (sub_ne_zero.2 (Ne.symm hk))
      exact_mod_cast h
    have h3 : |(n : ℚ) - k| ≤ |x - n| + |x - k| := by
      have e : (n : ℚ) - k = -(x - n) + (x - k) := by ring
      rw [e]
      refine (abs_add_le _ _).trans ?_
      rw [abs_neg]
    linarith
  refine ⟨fun k => ?_, ?_⟩
  · by_cases hk : k = n
    · rw [hk]
    · have := key k hk; linarith
  · rintro ⟨k, hk, he⟩
    have := key k hk
    exact h2 (by linarith)

theorem isRne_int (n : ℤ) : IsRne n n := isRne_of_half (by simp) (by simp)

theorem natRne_isRne {U m K : Nat} (h : NatRne U m K) : IsRne ((m : ℚ) / 2 ^ U) K := by
  obtain ⟨h1, h2, h3⟩ := h
  have hU : (0 : ℚ) < 2 ^ U := by positivity
  have q1 : (2 : ℚ) * m ≤ (2 * K + 1) * 2 ^ U := by exact_mod_cast h1
  have q2 : (2 : ℚ) * K * 2 ^ U ≤ 2 * m + 2 ^ U := by exact_mod_cast h2
  have e : (m : ℚ) / 2 ^ U * 2 ^ U = m := div_mul_cancel₀ _ (ne_of_gt hU)
  generalize hx : (m : ℚ) / 2 ^ U = x at *
  have q1' : x ≤ K + 1 / 2 := by
    have : x * 2 ^ U ≤ (K + 1 / 2) * 2 ^ U := by rw [e]; linarith
    exact le_of_mul_le_mul_right this hU
  have q2' : (K : ℚ) - 1 / 2 ≤ x := by
    have : ((K : ℚ) - 1 / 2) * 2 ^ U ≤ x * 2 ^ U := by rw [e]; linarith
    exact le_of_mul_le_mul_right this hU
  refine isRne_of_half ?_ ?_
  · rw [abs_le]; constructor <;> push_cast <;> linarith
  · intro he
    have hev : K % 2 = 0 := by
      apply h3
      have he' : x - K = 1 / 2 ∨ x - K = -(1 / 2) := by
        have := eq_or_eq_neg_of_abs_eq he
        push_cast at this; exact this
      rcases he' with he' | he'
      · left
        have : (2 : ℚ) * m = (2 * K + 1) * 2 ^ U := by rw [← e, show x = K + 1 / 2 by linarith]; ring
        exact_mod_cast this
      · right
        have : (2 : ℚ) * K * 2 ^ U = 2 * m + 2 ^ U := by rw [← e, show x = K - 1 / 2 by linarith]; ring
        exact_mod_cast this
    exact_mod_cast (Nat.even_iff.2 hev)

theorem isRne_neg {x : ℚ} {n : ℤ} (h : IsRne x n) : IsRne (-x) (-n) := by
  obtain ⟨h1, h2⟩ := h
  have e : ∀ k : ℤ, |-x - ((-k : ℤ) : ℚ)| = |x - k| := fun k => by
    push_cast
    rw [← abs_neg]; congr 1; ring
  refine ⟨fun k => ?_, ?_⟩
  · have := h1 (-k)
    rw [e n]
    have e2 := e (-k)
    rw [neg_neg] at e2
    rw [e2]; exact this
  · rintro ⟨k, hk, he⟩
    rw [e n] at he
    have e2 := e (-k)
    rw [neg_neg] at e2
    rw [e2] at he
    exact (h2 ⟨-k, fun hh => hk (by omega), he⟩).neg

section
variable {F : Fmt} (S : Std F)
include S

theorem real_sg (x : Nat) : F.real x = sg F x * ((F.val (F.mag x) : ℚ) / 2 ^ F.unit) := by
  unfold Fmt.real
  rw [sval_sg]
  push_cast
  ring

theorem isRne_sg {x K : Nat} (h : NatRne F.unit (F.val (F.mag x)) K) : IsRne (F.real x) (sg F x * K) := by
  rw [real_sg S]
  have := natRne_isRne h
  unfold sg
  split_ifs
  · push_cast
    rw [neg_one_mul, neg_one_mul]
    exact isRne_neg this
  · push_cast
    rw [one_mul, one_mul]
    exact this

/-- Values of at least `2^p` are integers. -/
theorem big_int {x : Nat} (h : mantissaEnd F ≤ F.mag x) :
    ∃ n : ℤ, F.real x = n ∧ F.sval x = n * 2 ^ F.unit := by
  have hv : 2 ^ (F.p + F.unit) ≤ F.val (F.mag x) := by
    rw [← val_mantissaEnd S, ← mantissaEnd_eq S]; exact val_mono F h
  have hd := rep_dvd F _ _ hv
  rw [Nat.add_sub_cancel_left] at hd
  obtain ⟨j, hj⟩ := hd
  refine ⟨sg F x * j, ?_, ?_⟩
  · rw [real_sg S, hj]
    push_cast
    have : (2 : ℚ) ^ F.unit ≠ 0 := by positivity
    field_simp
  · rw [sval_sg, hj]
    push_cast; ring

theorem real_ofInt {n : Int} (h : n.natAbs ≤ 2 ^ F.p) : F.real (ofInt F n) = n := by
  unfold Fmt.real
  rw [sval_ofInt S h]
  push_cast
  have : (2 : ℚ) ^ F.unit ≠ 0 := by positivity
  field_simp

theorem roundK_le {x : Nat} (hm : F.val (F.mag x) < 2 ^ (F.p + F.unit)) :
    roundK F (F.val (F.mag x)) ≤ 2 ^ F.p := by
  have := (round_core S (F.mag x) hm).2
  unfold roundK
  simp only []
  generalize rnd F (F.val (F.mag x) + 2 ^ (F.unit - 1)) / 2 ^ F.unit = R at *
  split_ifs <;> omega

theorem natAbs_sg (x K : Nat) : (sg F x * (K : Int)).natAbs = K := by
  unfold sg
  split_ifs <;> omega

theorem small_iff {x : Nat} : F.mag x < mantissaEnd F ↔ F.val (F.mag x) < 2 ^ (F.p + F.unit) := by
  rw [← val_mantissaEnd S, ← mantissaEnd_eq S, val_lt_iff]

theorem has_sg {ti : Ty} (ht : ti = i32 ∨ ti = i64) {s : Int} (hs : s = 1 ∨ s = -1) {R : Nat}
    (h : (R : Int) ≤ ti.hi) : ti.Has (s * R) := by
  unfold Ty.Has
  rcases ht with ht | ht <;> subst ht
  · rw [show i32.hi = 2147483647 by decide] at *
    rw [show i32.lo = -2147483648 by decide]
    rcases hs with h | h <;> rw [h] <;> omega
  · rw [show i64.hi = 9223372036854775807 by decide] at *
    rw [show i64.lo = -9223372036854775808 by decide]
    rcases hs with h | h <;> rw [h] <;> omega

/-- The shared computation: rounded, tie corrected. -/
theorem shared {ti : Ty} (ht : ti = i32 ∨ ti = i64) {x : Nat} (hm : F.val (F.mag x) < 2 ^ (F.p + F.unit))
    (hhi : ((rnd F (F.val (F.mag x) + 2 ^ (F.unit - 1)) / 2 ^ F.unit : Nat) : Int) ≤ ti.hi) {α : Type} (zero : α)
    (neg1 : Bool) (hneg : F.sval x < 0 → neg1 = true) (hpos : 0 < F.sval x → neg1 = false)
    (fin : Int → α) (hz : zero = fin 0) :
    (do
      let rounded ← biased F ti x
      if rounded = 0 then .ok zero
      else if isTie F ti rounded x then do
        let r ← CInt.sub ⟨ti, rounded⟩ ⟨CInt.i32, if neg1 then -1 else 1⟩
        .ok (fin r.v)
      else .ok (fin rounded) : M α) = .ok (fin (sg F x * (roundK F (F.val (F.mag x)) : Int))) := by
  have hpb := S.pb
  have hxi : F.mag x < F.inf := Nat.lt_trans ((small_iff S).2 hm) (mantissaEnd_lt S)
  have hR := (round_core S (F.mag x) hm).2
  rw [biased_eq S ti hm]
  simp only []
  have hsg : sg F x = 1 ∨ sg F x = -1 := by unfold sg; split_ifs <;> simp
  have hhas : ti.Has (sg F x * ((rnd F (F.val (F.mag x) + 2 ^ (F.unit - 1)) / 2 ^ F.unit : Nat) : Int)) := by
    exact has_sg S ht hsg hhi
  rw [if_pos hhas]
  unfold roundK
  simp only []
  generalize hRd : rnd F (F.val (F.mag x) + 2 ^ (F.unit - 1)) / 2 ^ F.unit = R at *
  rw [show ∀ (f : Int → M α), (Except.ok (sg F x * (R : Int)) >>= f) = f (sg F x * (R : Int)) from fun f => rfl]
  by_cases h0 : R = 0
  · subst h0
    simp [hz]
  · have hne : sg F x * (R : Int) ≠ 0 := by rcases hsg with h | h <;> rw [h] <;> omega
    rw [if_neg hne, isTie_eq S ht hxi (by rw [natAbs_sg S]; exact hR)]
    have e1 : (sg F x * (R : Int)) % 2 = 1 ↔ R % 2 = 1 := by rcases hsg with h | h <;> rw [h] <;> omega
    have e2 : (sg F x * (R : Int) * 2 ^ F.unit - F.sval x).natAbs =
        (((R * 2 ^ F.unit : Nat) : Int) - (F.val (F.mag x) : Nat)).natAbs := by
      rw [sval_sg]
      push_cast
      rcases hsg with h | h <;> rw [h]
      · congr 1; ring
      · rw [← Int.natAbs_neg]; congr 1; ring
    rw [e2]
    by_cases htie : R % 2 = 1 ∧
        rnd F (((R * 2 ^ F.unit : Nat) : Int) - (F.val (F.mag x) : Nat)).natAbs = 2 ^ (F.unit - 1)
    · rw [if_pos htie, if_pos (by rw [Bool.and_eq_true, decide_eq_true_eq, decide_eq_true_eq, e1]; exact htie)]
      have hsv : (if neg1 = true then (-1 : Int) else 1) = sg F x := by
        unfold sg
        by_cases hn : F.sval x < 0
        · rw [if_pos (hneg hn), if_pos hn]
        · rw [if_neg hn]
          by_cases hz0 : F.sval x = 0
          · -- then R would be 0 or even... a zero input gives R = 0
            exfalso
            have hv0 : F.val (F.mag x) = 0 := by have := natAbs_sval (F := F) x; omega
            have hcore := (round_core S (F.mag x) hm).1
            obtain ⟨c', _, hv', he'⟩ := rnd_exact S (t := F.unit - 1) (v := 2 ^ (F.unit - 1)) (dvd_refl _)
              (Nat.pow_le_pow_right (by decide) (by omega)) (Nat.pow_lt_pow_right (by decide) (by omega))
            rw [hv0, Nat.zero_add] at hRd
            unfold rnd at hRd
            rw [he', hv', Nat.div_eq_of_lt (Nat.pow_lt_pow_right (by decide) (by have := S.unit_ge; omega))] at hRd
            omega
          · rw [hpos (by omega)]; rfl
      rw [hsv]
      have hsub : CInt.sub ⟨ti, sg F x * (R : Int)⟩ ⟨i32, sg F x⟩ = .ok ⟨ti, sg F x * (R : Int) - sg F x⟩ := by
        apply Emu.sub_exact
        · rcases ht with ht | ht <;> subst ht <;> rfl
        · rcases ht with ht | ht <;> subst ht <;> decide
        · exact hhas
        · rcases ht with ht | ht <;> subst ht <;> rcases hsg with h | h <;> simp only [h] <;> decide
        · show ti.Has (sg F x * (R : Int) - sg F x)
          rw [show sg F x * (R : Int) - sg F x = sg F x * ((R - 1 : Nat) : Int) by
            rw [show ((R - 1 : Nat) : Int) = (R : Int) - 1 by omega]; ring]
          exact has_sg S ht hsg (by omega)
      rw [hsub]
      show Except.ok (fin _) = _
      congr 2
      have : ((R - 1 : Nat) : Int) = (R : Int) - 1 := by omega
      simp only [this]
      ring
    · rw [if_neg htie, if_neg]
      rw [Bool.and_eq_true, decide_eq_true_eq, decide_eq_true_eq, e1]
      exact htie

end

theorem it_hi {F : Fmt} : F.it.hi = 2 ^ F.w - 1 := by
  unfold Ty.hi Fmt.it; simp

section
variable {F : Fmt} (hF : F = f32 ∨ F = f64)
include hF

theorem std_of : Std F := by rcases hF with h | h <;> subst h; exacts [std32, std64]
theorem it_of : F.it = i32 ∨ F.it = i64 := by
  rcases hF with h | h <;> subst h; exacts [.inl rfl, .inr rfl]

theorem pow_p_le_hi : ((2 ^ F.p : Nat) : Int) ≤ F.it.hi := by
  rcases hF with h | h <;> subst h <;> decide

/-- `Round` below `2^p`. -/
theorem roundLane_small {x : Nat} (hx : F.mag x < mantissaEnd F) :
    roundLane F x = .ok (ofInt F (sg F x * (roundK F (F.val (F.mag x)) : Int))) := by
  have S := std_of hF
  have hm := (small_iff S).1 hx
  have hxi : F.mag x < F.inf := Nat.lt_trans hx (mantissaEnd_lt S)
  have hR := (round_core S (F.mag x) hm).2
  unfold roundLane
  rw [scalarAbs_eq, flt_mag S x (mantissaEnd_lt S), decide_eq_true hx, flt_zero S x hxi]
  simp only [Bool.not_true, Bool.false_eq_true, if_false, Int.neg_zero, ite_self]
  exact shared S (it_of hF) hm (by have := pow_p_le_hi hF; omega) (ofInt F 0) _ (fun h => by simp [h])
    (fun h => by simp; omega) (ofInt F) rfl

/-- **`Round`**: NaN, infinities and integers are unchanged; otherwise the nearest integer, ties to even. -/
theorem roundLane_spec {x : Nat} (hx : x < 2 ^ (F.w + 1)) :
    ∃ r, roundLane F x = .ok r ∧ r < 2 ^ (F.w + 1) ∧ (¬ F.Fin x → r = x) ∧
      (F.Fin x → F.Fin r ∧ ∃ n : ℤ, F.real r = n ∧ IsRne (F.real x) n) := by
  have S := std_of hF
  by_cases hs : F.mag x < mantissaEnd F
  · have hm := (small_iff S).1 hs
    have hK := roundK_le S hm
    have hK' : (sg F x * (roundK F (F.val (F.mag x)) : Int)).natAbs ≤ 2 ^ F.p := by rw [natAbs_sg S]; exact hK
    refine ⟨_, roundLane_small hF hs, ofInt_lt S _, fun h => absurd (Nat.lt_trans hs (mantissaEnd_lt S)) h,
      fun _ => ⟨mag_ofInt S hK', _, real_ofInt S hK', ?_⟩⟩
    exact isRne_sg S (round_core S (F.mag x) hm).1
  · refine ⟨x, ?_, hx, fun _ => rfl, fun hf => ⟨hf, ?_⟩⟩
    · unfold roundLane
      rw [scalarAbs_eq, flt_mag S x (mantissaEnd_lt S), decide_eq_false hs]
      rfl
    · obtain ⟨n, hn, _⟩ := big_int S (Nat.le_of_not_lt hs)
      exact ⟨n, hn, by rw [hn]; exact isRne_int n⟩

/-- Finding: every negative input that rounds to zero, including `-0.0`, gives `+0.0`. -/
theorem roundLane_zero {x : Nat} (h0 : |F.real x| ≤ 1 / 2) : roundLane F x = .ok 0 := by
  have S := std_of hF
  have hUp : (0 : ℚ) < 2 ^ F.unit := by positivity
  have hmQ : (F.val (F.mag x) : ℚ) * 2 ≤ 2 ^ F.unit := by
    rw [real_sg S, abs_mul] at h0
    have : |((sg F x : ℤ) : ℚ)| = 1 := by unfold sg; split_ifs <;> simp
    rw [this, one_mul, abs_of_nonneg (by positivity), div_le_iff₀ hUp] at h0
    linarith
  have hm2 : F.val (F.mag x) * 2 ≤ 2 ^ F.unit := by exact_mod_cast hmQ
  have hm : F.val (F.mag x) < 2 ^ (F.p + F.unit) := by
    rw [Nat.pow_add]
    have h1 : 1 ≤ 2 ^ F.p := Nat.two_pow_pos _
    have h2 := Nat.mul_le_mul_right (2 ^ F.unit) h1
    have := Nat.two_pow_pos F.unit
    omega
  rw [roundLane_small hF ((small_iff S).2 hm)]
  obtain ⟨h1, h2, h3⟩ := (round_core S (F.mag x) hm).1
  have hK : roundK F (F.val (F.mag x)) = 0 := by
    generalize roundK F (F.val (F.mag x)) = K at *
    have hU := Nat.two_pow_pos F.unit
    rcases Nat.lt_or_ge K 1 with h | h
    · omega
    · exfalso
      have e : 2 * K * 2 ^ F.unit ≤ 2 * 2 ^ F.unit := by omega
      have hk : K ≤ 1 := by
        have := Nat.le_of_mul_le_mul_right e hU; omega
      have hk1 : K = 1 := by omega
      subst hk1
      have := h3 (Or.inr (by omega))
      omega
  rw [hK]
  simp [ofInt_zero S]

end
end Flt
end Hwy
