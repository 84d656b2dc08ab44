import Verif.EmuFloatLemmas
import Verif.EmuArithSpec2
import Mathlib.Data.Nat.Bitwise

/-! # Closed forms of the float lane operations -/

namespace Hwy
namespace Flt
set_option linter.unusedSectionVars false
open CInt

section
variable {F : Fmt}

theorem unot_sign : unot F F.signMask = 2 ^ F.w - 1 := by
  unfold unot Fmt.signMask
  rw [Nat.pow_succ]; omega

theorem scalarAbs_eq (a : Nat) : scalarAbs F a = F.mag a := by
  unfold scalarAbs
  rw [unot_sign, Nat.and_two_pow_sub_one_eq_mod]; rfl

theorem scalarSignBit_eq {a : Nat} (h : a < 2 ^ (F.w + 1)) : scalarSignBit F a = F.neg a := by
  unfold scalarSignBit Fmt.neg Fmt.signMask
  rw [Nat.and_two_pow]
  have hp := Nat.two_pow_pos F.w
  rw [Nat.testBit_eq_decide_div_mod_eq]
  rw [Nat.pow_succ] at h
  by_cases hle : 2 ^ F.w ≤ a
  · have : a / 2 ^ F.w = 1 := by
      rw [Nat.div_eq_iff hp]; omega
    simp [this, hle]
  · have : a / 2 ^ F.w = 0 := Nat.div_eq_of_lt (by omega)
    simp [this, hle]

theorem mag_lt (a : Nat) : F.mag a < 2 ^ F.w := Nat.mod_lt _ (Nat.two_pow_pos _)

theorem mag_of_lt {c : Nat} (h : c < 2 ^ F.w) : F.mag c = c := Nat.mod_eq_of_lt h

theorem neg_of_lt {c : Nat} (h : c < 2 ^ F.w) : F.neg c = false := by
  unfold Fmt.neg Fmt.signMask; simp [h]

theorem mag_pack {n : Bool} {c : Nat} (h : c < 2 ^ F.w) : F.mag (F.pack n c) = c := by
  unfold Fmt.mag Fmt.pack Fmt.signMask
  cases n
  · simp [Nat.mod_eq_of_lt h]
  · simp [Nat.mod_eq_of_lt h]

theorem neg_pack {n : Bool} {c : Nat} (h : c < 2 ^ F.w) : F.neg (F.pack n c) = n := by
  unfold Fmt.neg Fmt.pack Fmt.signMask
  cases n <;> simp [h]

theorem pack_eta {a : Nat} (h : a < 2 ^ (F.w + 1)) : F.pack (F.neg a) (F.mag a) = a := by
  unfold Fmt.pack Fmt.neg Fmt.mag Fmt.signMask
  have := Nat.two_pow_pos F.w
  rw [Nat.pow_succ] at h
  by_cases hle : 2 ^ F.w ≤ a
  · rw [decide_eq_true hle, if_pos rfl, Nat.mod_eq_sub_mod hle, Nat.mod_eq_of_lt (by omega)]; omega
  · rw [decide_eq_false hle, if_neg (by decide), Nat.mod_eq_of_lt (by omega)]; omega

theorem pack_lt {n : Bool} {c : Nat} (h : c < 2 ^ F.w) : F.pack n c < 2 ^ (F.w + 1) := by
  unfold Fmt.pack Fmt.signMask
  rw [Nat.pow_succ]
  cases n <;> simp <;> omega

theorem sval_pack {n : Bool} {c : Nat} (h : c < 2 ^ F.w) :
    F.sval (F.pack n c) = if n then -(F.val c : Int) else F.val c := by
  unfold Fmt.sval
  rw [neg_pack h, mag_pack h]

theorem natAbs_sval (a : Nat) : (F.sval a).natAbs = F.val (F.mag a) := by
  unfold Fmt.sval
  split <;> omega

theorem nan_pack {n : Bool} {c : Nat} (h : c < 2 ^ F.w) : F.nan (F.pack n c) = decide (F.inf < c) := by
  unfold Fmt.nan
  rw [mag_pack h]

theorem nan_fin {a : Nat} (h : F.mag a < F.inf) : F.nan a = false := by
  unfold Fmt.nan
  simp; omega

theorem sval_fneg (a : Nat) : F.sval (fneg F a) = - F.sval a := by
  unfold fneg
  rw [sval_pack (mag_lt a)]
  unfold Fmt.sval
  cases F.neg a <;> simp

theorem mag_fneg (a : Nat) : F.mag (fneg F a) = F.mag a := mag_pack (mag_lt a)

end

section
variable {F : Fmt} (S : Std F)
include S

theorem exponentMask_eq : exponentMask F = F.inf := by
  unfold exponentMask
  rw [unot_sign, Nat.and_two_pow_sub_one_eq_mod]
  have hp := Nat.two_pow_pos F.p
  have he := S.pow_e
  have hpe : 2 ^ F.w = 2 ^ F.e * 2 ^ F.p := by rw [← Nat.pow_add]; congr 1; unfold Fmt.w; omega
  have hle : 2 ^ F.p ≤ 2 ^ F.w := Nat.pow_le_pow_right (by decide) (by unfold Fmt.w; omega)
  unfold unot Fmt.inf
  rw [Nat.one_shiftLeft, Nat.sub_mul, ← hpe, Nat.one_mul]
  have h2 : 2 ^ (F.w + 1) = 2 * 2 ^ F.w := by rw [Nat.pow_succ]; ring
  rw [h2, show 2 * 2 ^ F.w - 1 - 2 ^ F.p + 1 = 2 * 2 ^ F.w - 2 ^ F.p by omega,
    Nat.mod_eq_of_lt (show 2 * 2 ^ F.w - 2 ^ F.p < 2 * 2 ^ F.w by omega),
    show 2 * 2 ^ F.w - 2 ^ F.p = 2 ^ F.w + (2 ^ F.w - 2 ^ F.p) by omega, Nat.add_mod_left,
    Nat.mod_eq_of_lt (by omega)]

theorem scalarIsNaN_eq (a : Nat) : scalarIsNaN F a = F.nan a := by
  unfold scalarIsNaN Fmt.nan
  rw [scalarAbs_eq, exponentMask_eq S]

theorem enc_lt (v : Nat) : rneEncode F 0 v < 2 ^ F.w := Nat.lt_of_le_of_lt (enc_le_inf S v) S.inf_lt

theorem enc_zero : rneEncode F 0 0 = 0 := by
  have := enc_val S (c := 0) (Nat.zero_le _)
  rwa [val_zero] at this

theorem ofInt_zero : ofInt F 0 = 0 := by
  unfold ofInt
  simp [enc_zero S, Fmt.pack]

theorem sval_zero : F.sval 0 = 0 := by
  have h : (0 : Nat) < 2 ^ F.w := Nat.two_pow_pos _
  unfold Fmt.sval
  rw [neg_of_lt h, mag_of_lt h, val_zero]; rfl

theorem mag_zero : F.mag 0 = 0 := Nat.zero_mod _

theorem Std.inf_pos : 0 < F.inf := Flt.inf_pos F S.e1

theorem nan_zero : F.nan 0 = false := nan_fin (by rw [mag_zero S]; exact S.inf_pos)

theorem flt_zero (x : Nat) (hx : F.mag x < F.inf) : flt F x (ofInt F 0) = decide (F.sval x < 0) := by
  unfold flt
  rw [ofInt_zero S, nan_fin hx, nan_zero S, sval_zero S]; rfl

theorem zero_flt (x : Nat) (hx : F.mag x < F.inf) : flt F (ofInt F 0) x = decide (0 < F.sval x) := by
  unfold flt
  rw [ofInt_zero S, nan_fin hx, nan_zero S, sval_zero S]; rfl

theorem code_lt_inf {k : Nat} (hk : k ≤ 2 * F.bias) : k * 2 ^ F.p < F.inf := by
  rw [S.inf_eq]; exact Nat.mul_lt_mul_of_pos_right (by omega) (Nat.two_pow_pos _)

theorem val_half : F.val ((F.bias - 1) * 2 ^ F.p) = 2 ^ (F.unit - 1) := by
  have := S.unit_eq; have := S.pb; have := S.p2
  rw [show F.bias - 1 = F.bias - 2 + 1 by omega, S.val_pow]
  congr 1; omega

theorem half_pack : F.half = F.pack false ((F.bias - 1) * 2 ^ F.p) := by
  unfold Fmt.half Fmt.pack
  rw [Nat.shiftLeft_eq]; simp

theorem mhalf_pack : F.mhalf = F.pack true ((F.bias - 1) * 2 ^ F.p) := by
  unfold Fmt.mhalf Fmt.pack
  rw [Nat.shiftLeft_eq]; simp

theorem half_code_lt : (F.bias - 1) * 2 ^ F.p < F.inf := code_lt_inf S (by omega)

theorem mantissaEnd_eq : mantissaEnd F = (F.bias + F.p) * 2 ^ F.p := by
  unfold mantissaEnd; rw [Nat.shiftLeft_eq]

theorem val_mantissaEnd : F.val ((F.bias + F.p) * 2 ^ F.p) = 2 ^ (F.p + F.unit) := by
  have := S.unit_eq; have := S.p2
  rw [show F.bias + F.p = F.unit + 1 by omega, S.val_pow]

theorem mantissaEnd_lt : mantissaEnd F < F.inf := by
  rw [mantissaEnd_eq S]; exact code_lt_inf S (by have := S.pb; omega)

/-- Comparison of magnitudes is comparison of codes. -/
theorem flt_mag (x : Nat) {c : Nat} (hc : c < F.inf) : flt F (F.mag x) c = decide (F.mag x < c) := by
  have hc2 : c < 2 ^ F.w := Nat.lt_trans hc S.inf_lt
  have hm := mag_lt (F := F) x
  unfold flt Fmt.nan Fmt.sval
  rw [neg_of_lt hm, neg_of_lt hc2, mag_of_lt hm, mag_of_lt hc2]
  have h2 : decide (F.inf < c) = false := by simp; omega
  rw [h2]
  by_cases h : F.mag x < c
  · have : decide (F.inf < F.mag x) = false := by simp; omega
    simp [this, h, val_strict F h]
  · have : ¬ F.val (F.mag x) < F.val c := fun h' => h ((val_lt_iff F).1 h')
    simp [h, this]

theorem fle_mag (x : Nat) {c : Nat} (hc : c < F.inf) : fle F (F.mag x) c = decide (F.mag x ≤ c) := by
  have hc2 : c < 2 ^ F.w := Nat.lt_trans hc S.inf_lt
  have hm := mag_lt (F := F) x
  unfold fle Fmt.nan Fmt.sval
  rw [neg_of_lt hm, neg_of_lt hc2, mag_of_lt hm, mag_of_lt hc2]
  have h2 : decide (F.inf < c) = false := by simp; omega
  rw [h2]
  by_cases h : F.mag x ≤ c
  · have : decide (F.inf < F.mag x) = false := by simp; omega
    simp [this, h, val_mono F h]
  · have : ¬ F.val (F.mag x) ≤ F.val c := fun h' => by
      have := val_strict F (show c < F.mag x by omega); omega
    simp [h, this]

theorem fadd_fin {a b : Nat} (ha : F.mag a < F.inf) (hb : F.mag b < F.inf) (h : F.sval a + F.sval b ≠ 0) :
    fadd F a b = F.pack (decide (F.sval a + F.sval b < 0)) (rneEncode F 0 (F.sval a + F.sval b).natAbs) := by
  unfold fadd
  rw [nan_fin ha, nan_fin hb]
  simp only [Bool.or_self, Bool.false_eq_true, if_false]
  rw [if_neg (by omega), if_neg (by omega), if_neg h]

theorem mag_fadd {a b : Nat} (ha : F.mag a < F.inf) (hb : F.mag b < F.inf) :
    F.mag (fadd F a b) = rneEncode F 0 (F.sval a + F.sval b).natAbs := by
  by_cases h : F.sval a + F.sval b = 0
  · unfold fadd
    rw [nan_fin ha, nan_fin hb]
    simp only [Bool.or_self, Bool.false_eq_true, if_false]
    rw [if_neg (by omega), if_neg (by omega), if_pos h, mag_pack (Nat.two_pow_pos _), h]
    exact (enc_zero S).symm
  · rw [fadd_fin S ha hb h, mag_pack (enc_lt S _)]

/-- Integers up to `2^p` convert exactly. -/
theorem ofInt_exact {n : Int} (h : n.natAbs ≤ 2 ^ F.p) :
    ∃ c, c < F.inf ∧ ofInt F n = F.pack (decide (n < 0)) c ∧ F.val c = n.natAbs * 2 ^ F.unit := by
  have hpb := S.pb
  have hle : n.natAbs * 2 ^ F.unit ≤ 2 ^ (F.p + F.unit) := by
    rw [Nat.pow_add]; exact Nat.mul_le_mul_right _ h
  obtain ⟨c, h1, h2, h3⟩ := rnd_exact S (t := F.unit) (v := n.natAbs * 2 ^ F.unit) (Dvd.intro_left _ rfl)
    (Nat.le_trans hle (Nat.pow_le_pow_right (by decide) (by omega)))
    (Nat.lt_of_le_of_lt hle (Nat.pow_lt_pow_right (by decide) (by omega)))
  exact ⟨c, h1, by unfold ofInt; rw [h3], h2⟩

theorem sval_ofInt {n : Int} (h : n.natAbs ≤ 2 ^ F.p) : F.sval (ofInt F n) = n * 2 ^ F.unit := by
  obtain ⟨c, h1, h2, h3⟩ := ofInt_exact S h
  rw [h2, sval_pack (Nat.lt_trans h1 S.inf_lt), h3]
  push_cast
  by_cases hn : n < 0
  · rw [decide_eq_true hn, if_pos rfl, abs_of_neg hn]; ring
  · rw [decide_eq_false hn, if_neg (by decide), abs_of_nonneg (by omega)]

theorem mag_ofInt {n : Int} (h : n.natAbs ≤ 2 ^ F.p) : F.mag (ofInt F n) < F.inf := by
  obtain ⟨c, h1, h2, _⟩ := ofInt_exact S h
  rw [h2, mag_pack (Nat.lt_trans h1 S.inf_lt)]; exact h1

theorem ofInt_lt (n : Int) : ofInt F n < 2 ^ (F.w + 1) := pack_lt (enc_lt S _)

/-- `-1` for negative values, else `1`. -/
def sg (F : Fmt) (x : Nat) : Int := if F.sval x < 0 then -1 else 1

omit S in
theorem sval_sg (x : Nat) : F.sval x = sg F x * F.val (F.mag x) := by
  have := natAbs_sval (F := F) x
  unfold sg
  split_ifs <;> omega

theorem biased_eq (ti : Ty) {x : Nat} (hx : F.val (F.mag x) < 2 ^ (F.p + F.unit)) :
    biased F ti x =
      (let n := sg F x * ((rnd F (F.val (F.mag x) + 2 ^ (F.unit - 1)) / 2 ^ F.unit : Nat) : Int)
      if ti.Has n then .ok n else .error .ub) := by
  have hpb := S.pb
  have hxi : F.mag x < F.inf := (val_lt_iff F).1 (by
    rw [S.val_inf]
    exact Nat.lt_of_lt_of_le hx (Nat.pow_le_pow_right (by decide) (by omega)))
  have hcl := half_code_lt S
  have hcw : (F.bias - 1) * 2 ^ F.p < 2 ^ F.w := Nat.lt_trans hcl S.inf_lt
  have hh := Nat.two_pow_pos (F.unit - 1)
  have hs := sval_sg (F := F) x
  have hna := natAbs_sval (F := F) x
  obtain ⟨_, hR⟩ := round_core S (F.mag x) hx
  unfold biased
  simp only []
  rw [flt_zero S x hxi]
  -- the biased sum
  have key : fadd F x (if decide (F.sval x < 0) = true then F.mhalf else F.half) =
      F.pack (decide (F.sval x < 0)) (rneEncode F 0 (F.val (F.mag x) + 2 ^ (F.unit - 1))) := by
    by_cases hn : F.sval x < 0
    · rw [decide_eq_true hn, if_pos rfl, mhalf_pack S]
      have e1 : F.sval (F.pack true ((F.bias - 1) * 2 ^ F.p)) = -((2 ^ (F.unit - 1) : Nat) : Int) := by
        rw [sval_pack hcw, val_half S]; rfl
      rw [fadd_fin S hxi (by rw [mag_pack hcw]; exact hcl) (by rw [e1]; omega), e1,
        decide_eq_true (show F.sval x + -((2 ^ (F.unit - 1) : Nat) : Int) < 0 by omega),
        show (F.sval x + -((2 ^ (F.unit - 1) : Nat) : Int)).natAbs = F.val (F.mag x) + 2 ^ (F.unit - 1) by omega]
    · rw [decide_eq_false hn, if_neg (by decide), half_pack S]
      have e1 : F.sval (F.pack false ((F.bias - 1) * 2 ^ F.p)) = ((2 ^ (F.unit - 1) : Nat) : Int) := by
        rw [sval_pack hcw, val_half S]; rfl
      rw [fadd_fin S hxi (by rw [mag_pack hcw]; exact hcl) (by rw [e1]; omega), e1,
        decide_eq_false (show ¬ F.sval x + ((2 ^ (F.unit - 1) : Nat) : Int) < 0 by omega),
        show (F.sval x + ((2 ^ (F.unit - 1) : Nat) : Int)).natAbs = F.val (F.mag x) + 2 ^ (F.unit - 1) by omega]
  rw [key]
  have hSlt : rneEncode F 0 (F.val (F.mag x) + 2 ^ (F.unit - 1)) < F.inf := by
    apply (val_lt_iff F).1
    rw [S.val_inf]
    have h1 : rnd F (F.val (F.mag x) + 2 ^ (F.unit - 1)) < (2 ^ F.p + 1) * 2 ^ F.unit := by
      rw [← Nat.div_lt_iff_lt_mul (Nat.two_pow_pos _)]; omega
    have h2 : (2 ^ F.p + 1) * 2 ^ F.unit ≤ 2 ^ (F.unit + F.bias + 1) := by
      calc _ ≤ 2 ^ (F.p + 1) * 2 ^ F.unit := by
            apply Nat.mul_le_mul_right
            have := Nat.two_pow_pos F.p
            rw [Nat.pow_succ]; omega
        _ = 2 ^ (F.p + 1 + F.unit) := (Nat.pow_add 2 (F.p + 1) F.unit).symm
        _ ≤ _ := Nat.pow_le_pow_right (by decide) (by omega)
    exact Nat.lt_of_lt_of_le h1 h2
  have hSw := Nat.lt_trans hSlt S.inf_lt
  unfold toInt
  rw [mag_pack hSw, if_neg (by omega)]
  simp only []
  have hq : (F.sval (F.pack (decide (F.sval x < 0)) (rneEncode F 0 (F.val (F.mag x) + 2 ^ (F.unit - 1))))).tdiv
      (2 ^ F.unit) = sg F x * ((rnd F (F.val (F.mag x) + 2 ^ (F.unit - 1)) / 2 ^ F.unit : Nat) : Int) := by
    rw [sval_pack hSw]
    unfold sg
    by_cases hn : F.sval x < 0
    · rw [decide_eq_true hn, if_pos rfl, if_pos hn, Int.neg_tdiv, neg_one_mul]
      congr 1
    · rw [decide_eq_false hn, if_neg (by decide), if_neg hn, one_mul]
      rfl
  rw [hq]

theorem band_one {ti : Ty} (h : ti = i32 ∨ ti = i64) (x : Int) :
    ((band ⟨ti, x⟩ ⟨i32, 1⟩).v != 0) = decide (x % 2 = 1) := by
  have aux : ∀ n : Nat, 2 ≤ n → ((BitVec.ofInt n x &&& BitVec.ofInt n 1).toInt ≠ 0 ↔ x % 2 = 1) := by
    intro n hn
    have e0 : (BitVec.ofInt n x &&& BitVec.ofInt n 1).toInt ≠ 0 ↔
        (BitVec.ofInt n x &&& BitVec.ofInt n 1).toNat ≠ 0 := by
      rw [not_iff_not, ← BitVec.toInt_zero (w := n), BitVec.toInt_inj, ← BitVec.toNat_inj]
      simp
    rw [e0, BitVec.toNat_and]
    have e1 : (BitVec.ofInt n 1).toNat = 1 := by
      have h1 : (1 : Int) % (2 ^ n : Nat) = 1 := Int.emod_eq_of_lt (by omega) (by
        have : 2 ^ 1 < 2 ^ n := Nat.pow_lt_pow_right (by decide) (by omega)
        omega)
      rw [BitVec.toNat_ofInt, h1]; rfl
    rw [e1, Nat.and_one_is_mod, BitVec.toNat_ofInt]
    have h2 : (2 : Int) ∣ ((2 ^ n : Nat) : Int) := by
      push_cast; exact dvd_pow_self 2 (by omega)
    have h3 := Int.emod_emod_of_dvd x h2
    have h4 := Int.emod_nonneg x (show ((2 ^ n : Nat) : Int) ≠ 0 by positivity)
    omega
  rcases h with h | h <;> subst h
  · have := aux 32 (by decide)
    rw [Bool.eq_iff_iff]
    simp only [bne_iff_ne, decide_eq_true_eq]
    exact this
  · have := aux 64 (by decide)
    rw [Bool.eq_iff_iff]
    simp only [bne_iff_ne, decide_eq_true_eq]
    exact this

theorem isTie_eq {ti : Ty} (ht : ti = i32 ∨ ti = i64) {x : Nat} {n : Int} (hx : F.mag x < F.inf)
    (hn : n.natAbs ≤ 2 ^ F.p) :
    isTie F ti n x = (decide (n % 2 = 1) &&
      decide (rnd F (n * 2 ^ F.unit - F.sval x).natAbs = 2 ^ (F.unit - 1))) := by
  have hcl := half_code_lt S
  have hcw : (F.bias - 1) * 2 ^ F.p < 2 ^ F.w := Nat.lt_trans hcl S.inf_lt
  unfold isTie
  rw [band_one S ht]
  congr 1
  rw [scalarAbs_eq]
  unfold fsub
  rw [mag_fadd S (mag_ofInt S hn) (by rw [mag_fneg]; exact hx), sval_fneg, sval_ofInt S hn, ← sub_eq_add_neg]
  have hel := enc_lt S (n * 2 ^ F.unit - F.sval x).natAbs
  have hei := enc_le_inf S (n * 2 ^ F.unit - F.sval x).natAbs
  generalize F.sval x = sx at *
  unfold feq
  rw [half_pack S, nan_pack hcw, sval_pack hcw, val_half S]
  unfold Fmt.nan Fmt.sval
  rw [mag_of_lt hel, neg_of_lt hel]
  unfold rnd
  rw [decide_eq_false (show ¬ F.inf < rneEncode F 0 (n * 2 ^ F.unit - sx).natAbs by omega),
    decide_eq_false (show ¬ F.inf < (F.bias - 1) * 2 ^ F.p by omega)]
  simp only [Bool.not_false, Bool.true_and, Bool.false_eq_true, if_false]
  rw [decide_eq_decide]
  omega

end
end Flt
end Hwy
