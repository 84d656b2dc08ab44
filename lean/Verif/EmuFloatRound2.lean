import Verif.EmuFloatRound
import Verif.EmuArithSpec

/-! # `NearestInt`, `DemoteToNearestInt`, `Trunc`, `Ceil`, `Floor` per lane -/

namespace Hwy
namespace Flt
open CInt
set_option linter.unusedSectionVars false

/-- Result of a saturating conversion of the finite value `x` rounded to `k`. -/
def satOf (t : Ty) (k : ℤ) : ℤ := max t.lo (min t.hi k)

section
variable {F : Fmt} (S : Std F)
include S

theorem sval_neg_iff {x : Nat} (h : 0 < F.val (F.mag x)) : F.sval x < 0 ↔ F.neg x = true := by
  unfold Fmt.sval
  cases F.neg x <;> simp <;> omega

theorem satOf_has {t : Ty} {k : ℤ} (h : t.Has k) : satOf t k = k := by
  obtain ⟨h1, h2⟩ := h
  unfold satOf
  rw [min_eq_right h2, max_eq_right h1]

theorem fin_of_small {x : Nat} (h : F.mag x < mantissaEnd F) : F.Fin x := Nat.lt_trans h (mantissaEnd_lt S)

theorem toInt_of_int {t : Ty} {x : Nat} {n : ℤ} (hf : F.Fin x) (hn : F.sval x = n * 2 ^ F.unit) :
    toInt F t x = if t.Has n then .ok n else .error .ub := by
  unfold toInt
  rw [if_neg (by unfold Fmt.Fin at hf; omega)]
  simp only []
  rw [hn, Int.mul_tdiv_cancel _ (by positivity)]

end

section
variable {F : Fmt} (hF : F = f32 ∨ F = f64)
include hF

theorem w_le_bias : F.w ≤ F.bias := by rcases hF with h | h <;> subst h <;> decide

/-- The float nearest to `LimitsMax` is `2^w`: `2147483648.0f`, `9223372036854775808.0`. -/
theorem ofInt_hi : ofInt F F.it.hi = (F.bias + F.w) * 2 ^ F.p := by
  rcases hF with h | h <;> subst h <;> decide +kernel

theorem val_two_pow_w : F.val ((F.bias + F.w) * 2 ^ F.p) = 2 ^ (F.w + F.unit) := by
  have S := std_of hF
  have := S.unit_eq; have := S.p2; have := S.pb
  rw [show F.bias + F.w = F.bias + F.w - 1 + 1 by omega, S.val_pow]
  congr 1; omega

theorem it_lo : F.it.lo = -(2 ^ F.w : ℤ) := by unfold Ty.lo Fmt.it; simp

/-- **`NearestInt`** except at exactly `2^w`. -/
theorem nearestIntLane_spec {x : Nat} (hx : x < 2 ^ (F.w + 1)) (hne : x ≠ (F.bias + F.w) * 2 ^ F.p) :
    ∃ n, nearestIntLane F x = .ok n ∧ F.it.Has n ∧
      (F.Fin x → ∃ k : ℤ, IsRne (F.real x) k ∧ n = satOf F.it k) ∧
      (¬ F.Fin x → n = if F.neg x then F.it.lo else F.it.hi) := by
  have S := std_of hF
  have hwb := w_le_bias hF
  have hcl : (F.bias + F.w) * 2 ^ F.p < F.inf := code_lt_inf S (by omega)
  have hlo := it_lo hF
  have hhi : F.it.hi = (2 ^ F.w : ℤ) - 1 := it_hi
  have hwp : (0 : ℤ) < 2 ^ F.w := by positivity
  have hUp : (0 : ℤ) < 2 ^ F.unit := by positivity
  by_cases hs : F.mag x < mantissaEnd F
  · have hm := (small_iff S).1 hs
    have hK := roundK_le S hm
    have hR := (round_core S (F.mag x) hm).2
    have hpl := pow_p_le_hi hF
    have hhas : F.it.Has (sg F x * (roundK F (F.val (F.mag x)) : Int)) :=
      has_sg S (it_of hF) (by unfold sg; split_ifs <;> simp) (by omega)
    refine ⟨sg F x * (roundK F (F.val (F.mag x)) : Int), ?_, hhas, fun _ => ⟨_, isRne_sg S (round_core S _ hm).1,
      (satOf_has S hhas).symm⟩, fun h => absurd (fin_of_small S hs) h⟩
    unfold nearestIntLane
    rw [scalarAbs_eq, flt_mag S x (mantissaEnd_lt S), decide_eq_true hs, scalarSignBit_eq hx]
    simp only [Bool.not_true, Bool.false_eq_true, if_false]
    have := shared S (it_of hF) hm (by omega) (0 : Int) (F.neg x)
      (fun h => by
        unfold Fmt.sval at h
        by_contra hc
        rw [if_neg hc] at h
        omega)
      (fun h => by
        unfold Fmt.sval at h
        by_contra hc
        rw [if_pos (by simpa using hc)] at h
        omega) (fun z => F.it.wrap z)
      (by rcases it_of hF with h | h <;> rw [h] <;> decide)
    have hbits : 0 < F.it.bits := by unfold Fmt.it; simp
    rw [wrap_of_has hbits hhas] at this
    rw [← this]
    simp only [CInt.cast]
    have hb := biased_eq S F.it hm
    simp only [] at hb
    have hh : F.it.Has (sg F x * ((rnd F (F.val (F.mag x) + 2 ^ (F.unit - 1)) / 2 ^ F.unit : Nat) : Int)) :=
      has_sg S (it_of hF) (by unfold sg; split_ifs <;> simp) (by omega)
    rw [if_pos hh] at hb
    rw [hb]
    simp only [Emu.ok_bind']
    rw [wrap_of_has hbits hh]
  · unfold nearestIntLane
    rw [scalarAbs_eq, flt_mag S x (mantissaEnd_lt S), decide_eq_false hs, scalarSignBit_eq hx, ofInt_hi hF,
      fle_mag S x hcl]
    simp only [Bool.not_false, if_true]
    have hmE : 0 < F.val (F.mag x) := by
      have h1 := val_mono F (Nat.le_of_not_lt hs)
      rw [mantissaEnd_eq S, val_mantissaEnd S] at h1
      exact Nat.lt_of_lt_of_le (Nat.two_pow_pos _) h1
    obtain ⟨n, hn1, hn2⟩ := big_int S (Nat.le_of_not_lt hs)
    have hna := natAbs_sval (F := F) x
    have habs : (F.val (F.mag x) : ℤ) = |n| * 2 ^ F.unit := by
      rw [← hna, hn2, Int.natCast_natAbs, abs_mul, abs_of_pos hUp]
    by_cases hle : F.mag x ≤ (F.bias + F.w) * 2 ^ F.p
    · rw [decide_eq_true hle]
      simp only [Bool.not_true, Bool.false_eq_true, if_false]
      have hfin : F.Fin x := Nat.lt_of_le_of_lt hle hcl
      have hv : |n| * 2 ^ F.unit ≤ 2 ^ F.w * 2 ^ F.unit := by
        rw [← habs, ← pow_add]
        have := val_mono F hle
        rw [val_two_pow_w hF] at this
        exact_mod_cast this
      have hn : |n| ≤ 2 ^ F.w := le_of_mul_le_mul_right hv hUp
      have hne' : n ≠ 2 ^ F.w := by
        intro hh
        have hv2 : F.val (F.mag x) = 2 ^ (F.w + F.unit) := by
          have : (F.val (F.mag x) : ℤ) = 2 ^ (F.w + F.unit) := by
            rw [habs, hh, abs_of_pos hwp, pow_add]
          exact_mod_cast this
        rw [← val_two_pow_w hF] at hv2
        have hmg := val_inj F hv2
        have hng : F.neg x = false := by
          by_contra hc
          have := (sval_neg_iff S hmE).2 (by simpa using hc)
          rw [hn2, hh] at this
          have : (0 : ℤ) < 2 ^ F.w * 2 ^ F.unit := by positivity
          omega
        apply hne
        rw [← pack_eta hx, hng, hmg]
        simp [Fmt.pack]
      have hhas : F.it.Has n := by
        unfold Ty.Has
        rw [hlo, hhi]
        rw [abs_le] at hn
        omega
      refine ⟨n, ?_, hhas, fun _ => ⟨n, by rw [hn1]; exact isRne_int n, (satOf_has S hhas).symm⟩,
        fun h => absurd hfin h⟩
      rw [toInt_of_int S hfin hn2, if_pos hhas]
    · rw [decide_eq_false hle]
      simp only [Bool.not_false, if_true]
      have hv : 2 ^ F.w * 2 ^ F.unit < |n| * 2 ^ F.unit := by
        rw [← habs, ← pow_add]
        have := val_strict F (Nat.lt_of_not_le hle)
        rw [val_two_pow_w hF] at this
        exact_mod_cast this
      have hn : 2 ^ F.w < |n| := lt_of_mul_lt_mul_right hv (le_of_lt hUp)
      refine ⟨_, rfl, ?_, fun _ => ⟨n, by rw [hn1]; exact isRne_int n, ?_⟩, fun _ => rfl⟩
      · unfold Ty.Has
        rw [hlo, hhi]
        split_ifs <;> omega
      · have hsn := sval_neg_iff S hmE
        rw [hn2] at hsn
        unfold satOf
        rw [hlo, hhi]
        by_cases hng : F.neg x = true
        · rw [if_pos hng]
          have hneg : n < 0 := by
            have := hsn.2 hng
            by_contra hc
            have : 0 ≤ n * 2 ^ F.unit := mul_nonneg (by omega) (le_of_lt hUp)
            omega
          rw [abs_of_neg hneg] at hn
          omega
        · rw [if_neg hng]
          have hpos : 0 ≤ n := by
            by_contra hc
            exact hng (hsn.1 (mul_neg_of_neg_of_pos (by omega) hUp))
          rw [abs_of_nonneg hpos] at hn
          omega

/-- Finding: at exactly `2^31` (`float`) or `2^63` (`double`) the range check passes, because `LimitsMax`
rounds up to that value, and the conversion is undefined. -/
theorem nearestIntLane_ub : nearestIntLane F ((F.bias + F.w) * 2 ^ F.p) = .error .ub := by
  rcases hF with h | h <;> subst h <;> decide +kernel

/-! ### Trunc -/

theorem floor_nat_div (m U : Nat) : ⌊(m : ℚ) / 2 ^ U⌋ = ((m / 2 ^ U : Nat) : ℤ) := by
  have hU : (0 : ℚ) < 2 ^ U := by positivity
  rw [Int.floor_eq_iff]
  have h1 := Nat.div_add_mod m (2 ^ U)
  have h2 := Nat.mod_lt m (Nat.two_pow_pos U)
  have h1' : (2 ^ U : ℚ) * ((m / 2 ^ U : Nat) : ℚ) + ((m % 2 ^ U : Nat) : ℚ) = m := by exact_mod_cast h1
  have h2' : ((m % 2 ^ U : Nat) : ℚ) < 2 ^ U := by exact_mod_cast h2
  have h3' : (0 : ℚ) ≤ ((m % 2 ^ U : Nat) : ℚ) := by positivity
  constructor
  · rw [le_div_iff₀ hU, Int.cast_natCast]; nlinarith
  · rw [div_lt_iff₀ hU, Int.cast_natCast]; nlinarith

theorem truncQ_sg (x : Nat) : truncQ (F.real x) = sg F x * ((F.val (F.mag x) / 2 ^ F.unit : Nat) : ℤ) := by
  have S := std_of hF
  have hq : (0 : ℚ) ≤ (F.val (F.mag x) : ℚ) / 2 ^ F.unit := by positivity
  have hfl := floor_nat_div hF (F.val (F.mag x)) F.unit
  rw [real_sg S]
  unfold truncQ sg
  by_cases hn : F.sval x < 0
  · rw [if_pos hn]
    push_cast
    rw [neg_one_mul, neg_one_mul]
    have hpos : (0 : ℚ) < (F.val (F.mag x) : ℚ) / 2 ^ F.unit := by
      have : 0 < F.val (F.mag x) := by have := natAbs_sval (F := F) x; omega
      have : (0 : ℚ) < F.val (F.mag x) := by exact_mod_cast this
      positivity
    rw [if_neg (by linarith), Int.ceil_neg, hfl]
    push_cast; rfl
  · rw [if_neg hn]
    push_cast
    rw [one_mul, one_mul, if_pos hq, hfl]
    push_cast; rfl

/-- **`Trunc`**. -/
theorem truncLane_spec {x : Nat} (hx : x < 2 ^ (F.w + 1)) :
    ∃ r, truncLane F x = .ok r ∧ r < 2 ^ (F.w + 1) ∧ (¬ F.Fin x → r = x) ∧
      (F.Fin x → F.Fin r ∧ F.real r = truncQ (F.real x)) ∧
      (|F.real x| < 1 → r = if F.real x < 0 then F.signMask else 0) := by
  have S := std_of hF
  have hUp : (0 : ℚ) < 2 ^ F.unit := by positivity
  by_cases hs : F.mag x ≤ mantissaEnd F
  · have hf : F.Fin x := Nat.lt_of_le_of_lt hs (mantissaEnd_lt S)
    have hv : F.val (F.mag x) ≤ 2 ^ (F.p + F.unit) := by
      rw [← val_mantissaEnd S, ← mantissaEnd_eq S]; exact val_mono F hs
    have hq : F.val (F.mag x) / 2 ^ F.unit ≤ 2 ^ F.p := by
      calc _ ≤ 2 ^ (F.p + F.unit) / 2 ^ F.unit := Nat.div_le_div_right hv
        _ = _ := by rw [Nat.pow_add, Nat.mul_div_cancel _ (Nat.two_pow_pos _)]
    have hpl := pow_p_le_hi hF
    have hsg : sg F x = 1 ∨ sg F x = -1 := by unfold sg; split_ifs <;> simp
    have hhas : F.it.Has (sg F x * ((F.val (F.mag x) / 2 ^ F.unit : Nat) : ℤ)) :=
      has_sg S (it_of hF) hsg (by omega)
    have hti : toInt F F.it x = .ok (sg F x * ((F.val (F.mag x) / 2 ^ F.unit : Nat) : ℤ)) := by
      unfold toInt
      rw [if_neg (by unfold Fmt.Fin at hf; omega)]
      simp only []
      have e : (F.sval x).tdiv (2 ^ F.unit) = sg F x * ((F.val (F.mag x) / 2 ^ F.unit : Nat) : ℤ) := by
        rw [sval_sg]
        rcases hsg with h | h <;> rw [h]
        · rw [one_mul, one_mul]; rfl
        · rw [neg_one_mul, neg_one_mul, Int.neg_tdiv]; rfl
      rw [e, if_pos hhas]
    have hreal : F.real x < 0 ↔ F.sval x < 0 := by
      unfold Fmt.real
      rw [div_lt_iff₀ hUp, zero_mul]; exact_mod_cast Iff.rfl
    unfold truncLane
    rw [scalarAbs_eq, fle_mag S x (mantissaEnd_lt S), decide_eq_true hs, hti]
    simp only [Bool.not_true, Bool.false_eq_true, if_false, Emu.ok_bind']
    by_cases h0 : sg F x * ((F.val (F.mag x) / 2 ^ F.unit : Nat) : ℤ) = 0
    · rw [if_pos h0, flt_zero S x hf, ofInt_zero S]
      have hfn : fneg F 0 = F.signMask := by
        unfold fneg
        rw [mag_zero S, neg_of_lt (Nat.two_pow_pos _)]
        simp [Fmt.pack]
      rw [hfn]
      have hsw : F.signMask < 2 ^ (F.w + 1) := Nat.pow_lt_pow_right (by decide) (by omega)
      have hsm : F.mag F.signMask = 0 := Nat.mod_self _
      have h1 : F.sval F.signMask = 0 := by
        unfold Fmt.sval; rw [hsm, val_zero]; simp
      refine ⟨_, rfl, ?_, fun h => absurd hf h, fun _ => ?_, fun _ => ?_⟩
      · split_ifs
        · exact hsw
        · exact Nat.two_pow_pos _
      · rw [truncQ_sg hF, h0]
        split_ifs
        · exact ⟨by unfold Fmt.Fin; rw [hsm]; exact S.inf_pos, by unfold Fmt.real; rw [h1]; simp⟩
        · exact ⟨by unfold Fmt.Fin; rw [mag_zero S]; exact S.inf_pos, by unfold Fmt.real; rw [sval_zero S]; simp⟩
      · simp only [decide_eq_true_eq, hreal]
    · rw [if_neg h0]
      have hna : (sg F x * ((F.val (F.mag x) / 2 ^ F.unit : Nat) : ℤ)).natAbs ≤ 2 ^ F.p := by
        rw [natAbs_sg S]; exact hq
      refine ⟨_, rfl, ofInt_lt S _, fun h => absurd hf h, fun _ => ⟨mag_ofInt S hna, ?_⟩, fun h1 => ?_⟩
      · rw [real_ofInt S hna, truncQ_sg hF]
      · exfalso
        apply h0
        rw [real_sg S, abs_mul] at h1
        have : |((sg F x : ℤ) : ℚ)| = 1 := by rcases hsg with h | h <;> rw [h] <;> simp
        rw [this, one_mul, abs_of_nonneg (by positivity), div_lt_one hUp] at h1
        have : F.val (F.mag x) < 2 ^ F.unit := by exact_mod_cast h1
        rw [Nat.div_eq_of_lt this]; simp
  · refine ⟨x, ?_, hx, fun _ => rfl, fun hf => ⟨hf, ?_⟩, fun h1 => ?_⟩
    · unfold truncLane
      rw [scalarAbs_eq, fle_mag S x (mantissaEnd_lt S), decide_eq_false hs]
      rfl
    · obtain ⟨n, hn, _⟩ := big_int S (show mantissaEnd F ≤ F.mag x by omega)
      rw [hn]
      unfold truncQ
      split_ifs <;> simp
    · exfalso
      obtain ⟨n, hn, hn2⟩ := big_int S (show mantissaEnd F ≤ F.mag x by omega)
      rw [hn] at h1
      have h2 : |n| < 1 := by exact_mod_cast h1
      have h3 : n = 0 := by rwa [Int.abs_lt_one_iff] at h2
      have h4 := natAbs_sval (F := F) x
      rw [hn2, h3] at h4
      have h5 := val_strict F (show mantissaEnd F < F.mag x by omega)
      simp at h4
      omega

end
end Flt
end Hwy
