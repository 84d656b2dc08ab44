import Verif.EmuFloatRound2

/-! # `DemoteToNearestInt`, `Ceil`, `Floor` per lane -/

namespace Hwy
namespace Flt
open CInt
set_option linter.unusedSectionVars false

/-! ### DemoteToNearestInt -/

/-- **`DemoteToNearestInt`** outside the open interval `(-2147483647.5, -2147483647)`. -/
theorem demoteToNearestIntLane_spec {F : Fmt} (S : Std F) (hp : 33 ≤ F.p) {x : Nat} (hx : x < 2 ^ (F.w + 1))
    (hne : ¬ (-2147483647.5 < F.real x ∧ F.real x < -2147483647)) :
    ∃ n, demoteToNearestIntLane F x = .ok n ∧ i32.Has n ∧
      (F.Fin x → ∃ k : ℤ, IsRne (F.real x) k ∧ n = satOf i32 k) ∧
      (¬ F.Fin x → n = if F.neg x then i32.lo else i32.hi) := by
  have hpb := S.pb
  have hlo : i32.lo = -2147483648 := by decide
  have hhi : i32.hi = 2147483647 := by decide
  have h33 : 2 ^ 33 ≤ 2 ^ F.p := Nat.pow_le_pow_right (by decide) hp
  obtain ⟨C, hcl, hC, hvC⟩ := ofInt_exact S (n := i32.hi) (by rw [hhi]; show 2147483647 ≤ _; omega)
  have hofC : ofInt F i32.hi = C := by rw [hC, hhi]; simp [Fmt.pack]
  have hnA : i32.hi.natAbs = 2147483647 := by decide
  rw [hnA] at hvC
  unfold demoteToNearestIntLane
  simp only []
  rw [scalarAbs_eq, hofC, fle_mag S x hcl, scalarSignBit_eq hx]
  have hU : (0 : ℚ) < 2 ^ F.unit := by positivity
  have hUi : (0 : ℤ) < 2 ^ F.unit := by positivity
  by_cases hle : F.mag x ≤ C
  · rw [decide_eq_true hle]
    simp only [Bool.not_true, Bool.false_eq_true, if_false]
    have hv := val_mono F hle
    rw [hvC] at hv
    have hm : F.val (F.mag x) < 2 ^ (F.p + F.unit) := by
      refine Nat.lt_of_le_of_lt hv ?_
      rw [Nat.pow_add]
      exact Nat.mul_lt_mul_of_pos_right (by omega) (Nat.two_pow_pos _)
    have hfin : F.Fin x := Nat.lt_of_le_of_lt hle hcl
    have hRle : rnd F (F.val (F.mag x) + 2 ^ (F.unit - 1)) / 2 ^ F.unit ≤ 2147483647 := by
      have hA : 2 ^ F.unit = 2 * 2 ^ (F.unit - 1) := by
        have := S.unit_ge
        rw [← Nat.pow_succ']; congr 1; omega
      have e1 : 2147483647 * 2 ^ F.unit + 2 ^ (F.unit - 1) = 4294967295 * 2 ^ (F.unit - 1) := by
        rw [hA]; ring
      have hb : 4294967295 * 2 ^ (F.unit - 1) ≤ 2 ^ (F.p + (F.unit - 1)) := by
        rw [Nat.pow_add]
        exact Nat.mul_le_mul_right _ (by omega)
      obtain ⟨c', _, hv', he'⟩ := rnd_exact S (t := F.unit - 1) (v := 4294967295 * 2 ^ (F.unit - 1))
        (Dvd.intro_left _ rfl) (Nat.le_trans hb (Nat.pow_le_pow_right (by decide) (by omega)))
        (Nat.lt_of_le_of_lt hb (Nat.pow_lt_pow_right (by decide) (by omega)))
      have h1 := val_mono F (enc_mono S (show F.val (F.mag x) + 2 ^ (F.unit - 1) ≤
        4294967295 * 2 ^ (F.unit - 1) by rw [← e1]; omega))
      rw [he', hv'] at h1
      have h2 : rnd F (F.val (F.mag x) + 2 ^ (F.unit - 1)) < 2147483648 * 2 ^ F.unit := by
        refine Nat.lt_of_le_of_lt h1 ?_
        rw [hA]
        have := Nat.two_pow_pos (F.unit - 1)
        omega
      have := (Nat.div_lt_iff_lt_mul (Nat.two_pow_pos _)).2 h2
      omega
    have hKle : roundK F (F.val (F.mag x)) ≤ 2147483647 := by
      unfold roundK
      simp only []
      generalize rnd F (F.val (F.mag x) + 2 ^ (F.unit - 1)) / 2 ^ F.unit = R at *
      split_ifs <;> omega
    have hsg : sg F x = 1 ∨ sg F x = -1 := by unfold sg; split_ifs <;> simp
    have hhas : i32.Has (sg F x * (roundK F (F.val (F.mag x)) : Int)) :=
      has_sg S (Or.inl rfl) hsg (by rw [hhi]; omega)
    refine ⟨sg F x * (roundK F (F.val (F.mag x)) : Int), ?_, hhas,
      fun _ => ⟨_, isRne_sg S (round_core S _ hm).1, (satOf_has S hhas).symm⟩, fun h => absurd hfin h⟩
    have := shared S (ti := i32) (Or.inl rfl) hm (by rw [hhi]; omega) (0 : Int) (F.neg x)
      (fun h => by
        unfold Fmt.sval at h
        by_contra hc
        rw [if_neg hc] at h
        omega)
      (fun h => by
        unfold Fmt.sval at h
        by_contra hc
        rw [if_pos (by simpa using hc)] at h
        omega) (fun z => i32.wrap z) (by decide)
    rw [wrap_of_has (by decide) hhas] at this
    rw [← this]
    simp only [CInt.cast]
    have hb := biased_eq S i32 hm
    simp only [] at hb
    have hh : i32.Has (sg F x * ((rnd F (F.val (F.mag x) + 2 ^ (F.unit - 1)) / 2 ^ F.unit : Nat) : Int)) :=
      has_sg S (Or.inl rfl) hsg (by rw [hhi]; omega)
    rw [if_pos hh] at hb
    rw [hb]
    simp only [Emu.ok_bind']
    rw [wrap_of_has (by decide) hh]
  · rw [decide_eq_false hle]
    simp only [Bool.not_false, if_true]
    have hv := val_strict F (Nat.lt_of_not_le hle)
    rw [hvC] at hv
    have hpos : 0 < F.val (F.mag x) := by omega
    have hsn := sval_neg_iff S hpos
    refine ⟨_, rfl, by split_ifs <;> decide, fun hf => ?_, fun _ => rfl⟩
    -- the rational
    have hvq : (2147483647 : ℚ) < (F.val (F.mag x) : ℚ) / 2 ^ F.unit := by
      rw [lt_div_iff₀ hU]; exact_mod_cast hv
    have hr := real_sg S x
    generalize hq : (F.val (F.mag x) : ℚ) / 2 ^ F.unit = q at *
    -- nearest integer of q, from `round half to even` on the rationals
    have hrne : ∃ k : ℤ, 2147483647 ≤ k ∧ IsRne q k ∧ (2147483647.5 ≤ q → 2147483648 ≤ k) := by
      have h1 := Int.floor_le q
      have h2 := Int.lt_floor_add_one q
      have h0 : (2147483647 : ℤ) ≤ ⌊q⌋ := Int.le_floor.2 (by push_cast; linarith)
      by_cases hlt : q - ⌊q⌋ < 1 / 2
      · refine ⟨⌊q⌋, h0, isRne_of_half (abs_le.2 ⟨by linarith, by linarith⟩) (fun h => ?_), fun h => ?_⟩
        · rw [abs_of_nonneg (by linarith)] at h; linarith
        · by_contra hc
          have : ⌊q⌋ = 2147483647 := by omega
          rw [this] at hlt
          push_cast at hlt
          linarith
      · by_cases hgt : 1 / 2 < q - ⌊q⌋
        · refine ⟨⌊q⌋ + 1, by omega, isRne_of_half (abs_le.2 ⟨by push_cast; linarith, by push_cast; linarith⟩)
            (fun h => ?_), fun _ => by omega⟩
          rw [abs_of_nonpos (by push_cast; linarith)] at h
          push_cast at h; linarith
        · have he : q - ⌊q⌋ = 1 / 2 := by linarith
          rcases Int.even_or_odd ⌊q⌋ with hev | hod
          · refine ⟨⌊q⌋, h0, isRne_of_half (abs_le.2 ⟨by linarith, by linarith⟩) (fun _ => hev), fun _ => ?_⟩
            by_contra hc
            have : ⌊q⌋ = 2147483647 := by omega
            rw [this] at hev
            exact absurd hev (by decide)
          · refine ⟨⌊q⌋ + 1, by omega, isRne_of_half (abs_le.2 ⟨by push_cast; linarith, by push_cast; linarith⟩)
              (fun _ => hod.add_one), fun _ => by omega⟩
    obtain ⟨k, hk1, hk2, hk3⟩ := hrne
    by_cases hng : F.neg x = true
    · have hs : sg F x = -1 := by unfold sg; rw [if_pos (hsn.2 hng)]
      rw [if_pos hng]
      rw [hs] at hr
      push_cast at hr
      rw [neg_one_mul] at hr
      refine ⟨-k, by rw [hr]; exact isRne_neg hk2, ?_⟩
      have hq2 : 2147483647.5 ≤ q := by
        by_contra hc
        exact hne (by rw [hr]; constructor <;> linarith)
      have := hk3 hq2
      unfold satOf
      rw [hlo, hhi]
      omega
    · have hs : sg F x = 1 := by unfold sg; rw [if_neg (fun h => hng (hsn.1 h))]
      rw [if_neg hng]
      rw [hs] at hr
      push_cast at hr
      rw [one_mul] at hr
      refine ⟨k, by rw [hr]; exact hk2, ?_⟩
      unfold satOf
      rw [hlo, hhi]
      omega

/-- Finding: `-2147483647.25` is nearest to `-2147483647`, which is an `int32_t`, but the result is
`-2147483648`. -/
theorem demoteToNearestIntLane_finding :
    f64.real 0xC1DFFFFFFFD00000 = -2147483647.25 ∧ IsRne (-2147483647.25) (-2147483647) ∧
      i32.Has (-2147483647) ∧ demoteToNearestIntLane f64 0xC1DFFFFFFFD00000 = .ok (-2147483648) := by
  refine ⟨?_, ?_, by decide, by decide +kernel⟩
  · have h : f64.sval 0xC1DFFFFFFFD00000 * 4 = -8589934589 * 2 ^ f64.unit := by decide +kernel
    have hU : (0 : ℚ) < 2 ^ f64.unit := by positivity
    have hq : (f64.sval 0xC1DFFFFFFFD00000 : ℚ) * 4 = -8589934589 * 2 ^ f64.unit := by exact_mod_cast h
    unfold Fmt.real
    rw [div_eq_iff (ne_of_gt hU)]
    linarith
  · refine isRne_of_half ?_ ?_
    · norm_num [abs_le]
    · norm_num [abs_of_neg]

/-! ### Ceil and Floor -/

section
variable {F : Fmt} (S : Std F)
include S

/-- Clearing resp. carrying past the fraction bits of a code with `0 ≤ exponent < p`. -/
theorem frac_core {c k d : Nat} (hk : c / 2 ^ F.p = k) (h1 : F.bias ≤ k) (hd : d + k = F.bias + F.p) (hd1 : 1 ≤ d) :
    F.val (c - c % 2 ^ d) = (F.val c / 2 ^ F.unit) * 2 ^ F.unit ∧
    F.val (c - c % 2 ^ d + 2 ^ d) = (F.val c / 2 ^ F.unit + 1) * 2 ^ F.unit ∧
    (c % 2 ^ d = 0 ↔ 2 ^ F.unit ∣ F.val c) ∧ c - c % 2 ^ d + 2 ^ d < F.inf := by
  have hue := S.unit_eq
  have hpb := S.pb
  have hp2 := S.p2
  have hc := Nat.div_add_mod c (2 ^ F.p)
  have hj := Nat.mod_lt c (Nat.two_pow_pos F.p)
  rw [hk] at hc
  generalize hjd : c % 2 ^ F.p = j at *
  have hjm := Nat.div_add_mod j (2 ^ d)
  have hb := Nat.mod_lt j (Nat.two_pow_pos d)
  generalize ha : j / 2 ^ d = a at *
  generalize hbd : j % 2 ^ d = b at *
  have hg : 2 ^ F.p = 2 ^ d * 2 ^ (F.p - d) := by rw [← Nat.pow_add]; congr 1; omega
  generalize hgd : 2 ^ (F.p - d) = g at *
  have hU : 2 ^ F.unit = 2 ^ d * 2 ^ (k - 1) := by rw [← Nat.pow_add]; congr 1; omega
  have hD := Nat.two_pow_pos d
  have hL := Nat.two_pow_pos (k - 1)
  have hcm : c % 2 ^ d = b := by
    rw [← hc, hg, Nat.mul_assoc, Nat.mul_add_mod]; exact hbd
  have hag : a < g := by
    rw [hg] at hj
    by_contra hcon
    have := Nat.mul_le_mul_left (2 ^ d) (show g ≤ a by omega)
    omega
  have hc0 : c - c % 2 ^ d = k * 2 ^ F.p + 2 ^ d * a := by rw [hcm, ← hc, Nat.mul_comm k]; omega
  have hda : 2 ^ d * a + 2 ^ d ≤ 2 ^ F.p := by
    have := Nat.mul_le_mul_left (2 ^ d) (show a + 1 ≤ g by omega)
    rw [hg]; rw [Nat.mul_add, Nat.mul_one] at this; exact this
  have hvc : F.val c = (2 ^ d * (g + a) + b) * 2 ^ (k - 1) := by
    rw [← hc, Nat.mul_comm, val_mul_add F k j (by omega) (by omega), hg]
    congr 1
    rw [Nat.mul_add]; omega
  have hq : F.val c / 2 ^ F.unit = g + a := by
    rw [hvc, hU, Nat.mul_div_mul_right _ _ hL, Nat.mul_add_div hD, Nat.div_eq_of_lt hb, Nat.add_zero]
  refine ⟨?_, ?_, ?_, ?_⟩
  · rw [hc0, val_mul_add F k _ (by omega) (by omega), hq, hU, hg]; ring
  · rw [hc0, Nat.add_assoc, val_mul_add F k _ (by omega) hda, hq, hU, hg]; ring
  · rw [hcm, hvc, hU]
    rw [Nat.mul_dvd_mul_iff_right hL, Nat.dvd_add_right (Dvd.intro _ rfl)]
    constructor
    · intro h; rw [h]; exact dvd_zero _
    · intro h; exact Nat.eq_zero_of_dvd_of_lt h hb
  · rw [hc0, S.inf_eq, Nat.add_assoc]
    have : k * 2 ^ F.p + (2 ^ d * a + 2 ^ d) ≤ (k + 1) * 2 ^ F.p := by rw [Nat.add_mul, Nat.one_mul]; omega
    refine Nat.lt_of_le_of_lt this ?_
    exact Nat.mul_lt_mul_of_pos_right (by omega) (Nat.two_pow_pos _)

theorem unbiasedExp_eq (x : Nat) : unbiasedExp F x = ((F.mag x / 2 ^ F.p : Nat) : ℤ) - F.bias := by
  have he := S.pow_e
  unfold unbiasedExp maxExponentField
  rw [Nat.one_shiftLeft, Nat.shiftRight_eq_div_pow, Nat.and_two_pow_sub_one_eq_mod]
  have h1 : x / 2 ^ F.p % 2 ^ F.e = F.mag x / 2 ^ F.p := by
    unfold Fmt.mag Fmt.signMask Fmt.w
    rw [Nat.pow_add, Nat.mod_mul_right_div_self]
  rw [h1, he]
  congr 1
  omega

theorem mask_eq {k d : Nat} (hd : d + k = F.p) : mantissaMask F >>> k = 2 ^ d - 1 := by
  unfold mantissaMask
  rw [Nat.one_shiftLeft, Nat.shiftRight_eq_div_pow]
  have h : 2 ^ F.p = 2 ^ d * 2 ^ k := by rw [← Nat.pow_add, hd]
  have hd' := Nat.two_pow_pos d
  have hk := Nat.two_pow_pos k
  rw [Nat.div_eq_iff hk, h, Nat.sub_mul, Nat.one_mul]
  have h2 := Nat.mul_le_mul_right (2 ^ k) (show 1 ≤ 2 ^ d from hd')
  omega

theorem incr_eq {k d : Nat} (hd : d + k = F.p) : (mantissaMask F + 1) >>> k = 2 ^ d := by
  unfold mantissaMask
  have hp := Nat.two_pow_pos F.p
  rw [Nat.one_shiftLeft, Nat.shiftRight_eq_div_pow, Nat.sub_add_cancel hp,
    show 2 ^ F.p = 2 ^ d * 2 ^ k by rw [← Nat.pow_add, hd], Nat.mul_div_cancel _ (Nat.two_pow_pos _)]

theorem and_clear {a n d : Nat} (ha : a < 2 ^ n) (hd : d ≤ n) : a &&& (2 ^ n - 1 - (2 ^ d - 1)) = a - a % 2 ^ d := by
  have h1 : 2 ^ n - 1 - (2 ^ d - 1) = (2 ^ (n - d) - 1) <<< d := by
    rw [Nat.shiftLeft_eq, Nat.sub_mul, ← Nat.pow_add, Nat.one_mul, show n - d + d = n by omega]
    have := Nat.two_pow_pos d
    have := Nat.pow_le_pow_right (show 0 < 2 by decide) hd
    omega
  have h2 : a - a % 2 ^ d = (a / 2 ^ d) <<< d := by
    rw [Nat.shiftLeft_eq]
    have := Nat.div_add_mod a (2 ^ d)
    rw [Nat.mul_comm] at this
    omega
  rw [h1, h2]
  apply Nat.eq_of_testBit_eq
  intro i
  rw [Nat.testBit_and, Nat.testBit_shiftLeft, Nat.testBit_shiftLeft, Nat.testBit_two_pow_sub_one,
    Nat.testBit_div_two_pow]
  by_cases hi : d ≤ i
  · simp only [hi, decide_true, Bool.true_and, ge_iff_le]
    rw [show i - d + d = i by omega]
    by_cases hin : i - d < n - d
    · simp [hin]
    · have : a.testBit i = false := by
        apply Nat.testBit_lt_two_pow
        exact Nat.lt_of_lt_of_le ha (Nat.pow_le_pow_right (by decide) (by omega))
      simp [this]
  · simp [hi]

/-- The bit manipulation of `Ceil` and `Floor`. -/
theorem adjust {x k d : Nat} (hx : x < 2 ^ (F.w + 1)) (hk : F.mag x / 2 ^ F.p = k) (h1 : F.bias ≤ k)
    (hd : d + k = F.bias + F.p) (hd1 : 1 ≤ d) (up : Bool) :
    ((if up then (x + 2 ^ d) % 2 ^ (F.w + 1) else x) &&& (2 ^ (F.w + 1) - 1 - (2 ^ d - 1))) =
      F.pack (F.neg x) (if up then F.mag x - F.mag x % 2 ^ d + 2 ^ d else F.mag x - F.mag x % 2 ^ d) := by
  obtain ⟨_, _, _, h4⟩ := frac_core S hk h1 hd hd1
  have hiw := S.inf_lt
  have hdw : d ≤ F.w := by unfold Fmt.w; omega
  have hpe : 2 ^ F.w = 2 ^ d * 2 ^ (F.w - d) := by rw [← Nat.pow_add]; congr 1; omega
  have hmod : x % 2 ^ d = F.mag x % 2 ^ d := by
    unfold Fmt.mag Fmt.signMask
    rw [hpe, Nat.mod_mul_right_mod]
  have hxe := pack_eta hx
  have hml := Nat.mod_le (F.mag x) (2 ^ d)
  have hd2 := Nat.mod_lt (F.mag x) (Nat.two_pow_pos d)
  have hw2 : 2 ^ (F.w + 1) = 2 * 2 ^ F.w := by rw [Nat.pow_succ]; ring
  have hxv : x = (if F.neg x then 2 ^ F.w else 0) + F.mag x := hxe.symm
  cases up
  · simp only [Bool.false_eq_true, if_false]
    rw [and_clear S hx (by omega), hmod]
    unfold Fmt.pack Fmt.signMask
    omega
  · simp only [if_true]
    have hlt : x + 2 ^ d < 2 ^ (F.w + 1) := by
      rw [hw2]
      split_ifs at hxv
      · have : F.mag x - F.mag x % 2 ^ d + 2 ^ d < 2 ^ F.w := Nat.lt_trans h4 hiw
        have e1 : 2 ^ d ∣ F.mag x - F.mag x % 2 ^ d + 2 ^ d :=
          Nat.dvd_add (Nat.dvd_sub_mod _) (dvd_refl _)
        have e2 : 2 ^ d ∣ 2 ^ F.w := pow_dvd_pow 2 hdw
        have e3 := Nat.le_of_dvd (by omega) (Nat.dvd_sub e2 e1)
        omega
      · have := Nat.pow_le_pow_right (show 0 < 2 by decide) hdw
        have := mag_lt (F := F) x
        omega
    rw [Nat.mod_eq_of_lt hlt, and_clear S hlt (by omega), Nat.add_mod_right, hmod]
    unfold Fmt.pack Fmt.signMask
    omega

theorem real_pack {n : Bool} {c q : Nat} (hc : c < F.inf) (hv : F.val c = q * 2 ^ F.unit) :
    F.real (F.pack n c) = if n then -(q : ℚ) else q := by
  have hU : (2 : ℚ) ^ F.unit ≠ 0 := by positivity
  unfold Fmt.real
  rw [sval_pack (Nat.lt_trans hc S.inf_lt), hv]
  cases n
  · simp only [Bool.false_eq_true, if_false]; push_cast; field_simp
  · simp only [if_true]; push_cast; field_simp

theorem real_bits (x : Nat) :
    F.real x = (if F.neg x then -((F.val (F.mag x) : ℚ) / 2 ^ F.unit) else (F.val (F.mag x) : ℚ) / 2 ^ F.unit) := by
  unfold Fmt.real Fmt.sval
  split_ifs
  · push_cast; ring
  · push_cast; ring

theorem real_lt_zero (x : Nat) : F.real x < 0 ↔ F.sval x < 0 := by
  have hU : (0 : ℚ) < 2 ^ F.unit := by positivity
  unfold Fmt.real
  rw [div_lt_iff₀ hU, zero_mul]; exact_mod_cast Iff.rfl

theorem real_pos (x : Nat) : 0 < F.real x ↔ 0 < F.sval x := by
  have hU : (0 : ℚ) < 2 ^ F.unit := by positivity
  unfold Fmt.real
  rw [lt_div_iff₀ hU, zero_mul]; exact_mod_cast Iff.rfl

theorem val_one : F.val (F.bias * 2 ^ F.p) = 2 ^ F.unit := by
  have := S.unit_eq; have := S.pb; have := S.p2
  rw [show F.bias = F.bias - 1 + 1 by omega, S.val_pow]
  congr 1; omega

theorem one_pack : F.one = F.pack false (F.bias * 2 ^ F.p) := by
  unfold Fmt.one Fmt.pack; rw [Nat.shiftLeft_eq]; simp

theorem mone_pack : F.mone = F.pack true (F.bias * 2 ^ F.p) := by
  unfold Fmt.mone Fmt.pack; rw [Nat.shiftLeft_eq]; simp

theorem fneg_zero : fneg F (ofInt F 0) = F.pack true 0 := by
  rw [ofInt_zero S]
  unfold fneg
  rw [mag_zero S, neg_of_lt (Nat.two_pow_pos _)]; rfl

theorem abs_real (x : Nat) : |F.real x| = (F.val (F.mag x) : ℚ) / 2 ^ F.unit := by
  have : (0 : ℚ) ≤ (F.val (F.mag x) : ℚ) / 2 ^ F.unit := by positivity
  rw [real_bits S]
  split_ifs
  · rw [abs_neg, abs_of_nonneg this]
  · rw [abs_of_nonneg this]

theorem abs_lt_one (x : Nat) : |F.real x| < 1 ↔ F.mag x < F.bias * 2 ^ F.p := by
  have hU : (0 : ℚ) < 2 ^ F.unit := by positivity
  rw [abs_real S, div_lt_one hU, ← val_lt_iff F, val_one S]
  exact_mod_cast Iff.rfl

theorem floor_real_val (m U : Nat) : ⌊(m : ℚ) / 2 ^ U⌋ = ((m / 2 ^ U : Nat) : ℤ) :=
  floor_nat_div (F := f32) (Or.inl rfl) m U

theorem ceil_real_val {m U : Nat} (h : ¬ 2 ^ U ∣ m) : ⌈(m : ℚ) / 2 ^ U⌉ = ((m / 2 ^ U + 1 : Nat) : ℤ) := by
  have hU : (0 : ℚ) < 2 ^ U := by positivity
  have h1 := Nat.div_add_mod m (2 ^ U)
  have h2 := Nat.mod_lt m (Nat.two_pow_pos U)
  have h3 : 0 < m % 2 ^ U := Nat.pos_of_ne_zero (fun h' => h (Nat.dvd_of_mod_eq_zero h'))
  have h1' : (2 ^ U : ℚ) * ((m / 2 ^ U : Nat) : ℚ) + ((m % 2 ^ U : Nat) : ℚ) = m := by exact_mod_cast h1
  have h2' : ((m % 2 ^ U : Nat) : ℚ) < 2 ^ U := by exact_mod_cast h2
  have h3' : (0 : ℚ) < ((m % 2 ^ U : Nat) : ℚ) := by exact_mod_cast h3
  rw [Int.ceil_eq_iff, Int.cast_natCast, Nat.cast_add, Nat.cast_one]
  constructor
  · rw [lt_div_iff₀ hU]; nlinarith
  · rw [div_le_iff₀ hU]; nlinarith

/-- Specification of a rounding toward an infinity. -/
structure DirSpec (F : Fmt) (f : ℚ → ℤ) (x r : Nat) : Prop where
  lt : r < 2 ^ (F.w + 1)
  same : ¬ F.Fin x → r = x
  fin : F.Fin x → F.Fin r ∧ F.real r = f (F.real x)

/-- **`Ceil`**. -/
theorem ceilLane_spec {x : Nat} (hx : x < 2 ^ (F.w + 1)) :
    DirSpec F (fun q => ⌈q⌉) x (ceilLane F x) ∧
      (|F.real x| < 1 → ceilLane F x = if 0 < F.real x then F.one else F.signMask) := by
  have hue := S.unit_eq
  have hpb := S.pb
  have hp2 := S.p2
  have hU : (0 : ℚ) < 2 ^ F.unit := by positivity
  have hpp := Nat.two_pow_pos F.p
  have hwl : 0 < 2 ^ F.w := Nat.two_pow_pos _
  have hc1 : F.bias * 2 ^ F.p < F.inf := code_lt_inf S (by omega)
  unfold ceilLane
  simp only []
  rw [unbiasedExp_eq S]
  by_cases hA : ((F.mag x / 2 ^ F.p : Nat) : ℤ) - F.bias ≥ F.p
  · rw [if_pos hA]
    have hge : mantissaEnd F ≤ F.mag x := by
      rw [mantissaEnd_eq S]
      have : F.bias + F.p ≤ F.mag x / 2 ^ F.p := by omega
      exact (Nat.le_div_iff_mul_le hpp).1 this
    refine ⟨⟨hx, fun _ => rfl, fun hf => ⟨hf, ?_⟩⟩, fun h1 => ?_⟩
    · obtain ⟨n, hn, _⟩ := big_int S hge
      rw [hn]; simp
    · exfalso
      rw [abs_lt_one S, ] at h1
      rw [mantissaEnd_eq S, Nat.add_mul] at hge
      omega
  · rw [if_neg hA]
    have hfin : F.Fin x := by
      unfold Fmt.Fin
      refine Nat.lt_trans ?_ (mantissaEnd_lt S)
      rw [mantissaEnd_eq S]
      exact (Nat.div_lt_iff_lt_mul hpp).1 (by omega)
    rw [zero_flt S x hfin]
    by_cases hB : ((F.mag x / 2 ^ F.p : Nat) : ℤ) - F.bias < 0
    · rw [if_pos hB]
      have hlt : F.mag x < F.bias * 2 ^ F.p := (Nat.div_lt_iff_lt_mul hpp).1 (by omega)
      have habs := (abs_lt_one S x).2 hlt
      rw [abs_lt] at habs
      have hsp : F.signMask = F.pack true 0 := by simp [Fmt.pack]
      refine ⟨?_, fun _ => ?_⟩
      · by_cases hpos : 0 < F.sval x
        · rw [decide_eq_true hpos, if_pos rfl, one_pack S]
          refine ⟨pack_lt (Nat.lt_trans hc1 S.inf_lt), fun h => absurd hfin h, fun _ => ⟨?_, ?_⟩⟩
          · unfold Fmt.Fin; rw [mag_pack (Nat.lt_trans hc1 S.inf_lt)]; exact hc1
          · rw [real_pack S (q := 1) hc1 (by rw [val_one S, Nat.one_mul])]
            have h2 := (real_pos S x).2 hpos
            have : ⌈F.real x⌉ = 1 := by
              rw [Int.ceil_eq_iff]; constructor <;> push_cast <;> linarith [habs.2]
            rw [this]; simp
        · rw [decide_eq_false hpos, if_neg (by decide), fneg_zero S]
          refine ⟨pack_lt hwl, fun h => absurd hfin h, fun _ => ⟨?_, ?_⟩⟩
          · unfold Fmt.Fin; rw [mag_pack hwl]; exact S.inf_pos
          · rw [real_pack S (q := 0) S.inf_pos (by rw [val_zero, Nat.zero_mul])]
            have h2 : ¬ 0 < F.real x := fun h => hpos ((real_pos S x).1 h)
            have : ⌈F.real x⌉ = 0 := by
              rw [Int.ceil_eq_iff]; constructor <;> push_cast <;> linarith [habs.1]
            rw [this]; simp
      · rw [fneg_zero S, hsp]
        simp only [decide_eq_true_eq, real_pos S]
    · rw [if_neg hB]
      obtain ⟨k, hk⟩ : ∃ k, F.mag x / 2 ^ F.p = k := ⟨_, rfl⟩
      have hkb : F.bias ≤ k := by omega
      have hkp : k < F.bias + F.p := by omega
      obtain ⟨d, hd⟩ : ∃ d, d + k = F.bias + F.p := ⟨F.bias + F.p - k, by omega⟩
      have hd1 : 1 ≤ d := by omega
      have htn : (((F.mag x / 2 ^ F.p : Nat) : ℤ) - F.bias).toNat = k - F.bias := by omega
      rw [htn, mask_eq S (show d + (k - F.bias) = F.p by omega), incr_eq S (show d + (k - F.bias) = F.p by omega)]
      obtain ⟨f1, f2, f3, f4⟩ := frac_core S hk hkb hd hd1
      have hnot1 : ¬ |F.real x| < 1 := by
        rw [abs_lt_one S]
        intro h
        have := (Nat.div_lt_iff_lt_mul hpp).2 h
        omega
      have hxm : x &&& (2 ^ d - 1) = F.mag x % 2 ^ d := by
        rw [Nat.and_two_pow_sub_one_eq_mod]
        have hpe : 2 ^ F.w = 2 ^ d * 2 ^ (F.w - d) := by
          rw [← Nat.pow_add]; congr 1; unfold Fmt.w; omega
        unfold Fmt.mag Fmt.signMask
        rw [hpe, Nat.mod_mul_right_mod]
      rw [hxm]
      refine ⟨?_, fun h => absurd h hnot1⟩
      by_cases hz : F.mag x % 2 ^ d = 0
      · rw [if_pos hz]
        refine ⟨hx, fun _ => rfl, fun hf => ⟨hf, ?_⟩⟩
        obtain ⟨j, hj⟩ := f3.1 hz
        obtain ⟨n, hn⟩ : ∃ n : ℤ, F.real x = (n : ℚ) := by
          rw [real_bits S, hj]
          cases F.neg x
          · exact ⟨(j : ℤ), by push_cast; simp; try field_simp⟩
          · exact ⟨-(j : ℤ), by push_cast; simp; try field_simp⟩
        rw [hn]; simp
      · rw [if_neg hz]
        show DirSpec F (fun q => ⌈q⌉) x
          ((if decide (0 < F.sval x) = true then (x + 2 ^ d) % 2 ^ (F.w + 1) else x) &&&
            (2 ^ (F.w + 1) - 1 - (2 ^ d - 1)))
        rw [adjust S hx hk hkb hd hd1]
        have hnd : ¬ 2 ^ F.unit ∣ F.val (F.mag x) := fun h => hz (f3.2 h)
        have hvpos : 0 < F.val (F.mag x) := Nat.pos_of_ne_zero (fun h => hnd (by rw [h]; exact dvd_zero _))
        have hsn := sval_neg_iff S hvpos
        have hna := natAbs_sval (F := F) x
        cases hng : F.neg x
        · have hp : 0 < F.sval x := by
            have : ¬ F.sval x < 0 := fun h => by rw [hsn.1 h] at hng; cases hng
            omega
          rw [decide_eq_true hp]
          simp only [if_true]
          refine ⟨pack_lt (Nat.lt_trans f4 S.inf_lt), fun h => absurd hfin h, fun _ => ⟨?_, ?_⟩⟩
          · unfold Fmt.Fin; rw [mag_pack (Nat.lt_trans f4 S.inf_lt)]; exact f4
          · rw [real_pack S f4 f2, real_bits S, hng]
            simp only [Bool.false_eq_true, if_false]
            rw [ceil_real_val S hnd]
            push_cast; rfl
        · have hp : ¬ 0 < F.sval x := by have := hsn.2 hng; omega
          rw [decide_eq_false hp]
          simp only [Bool.false_eq_true, if_false]
          have hc0 : F.mag x - F.mag x % 2 ^ d < F.inf := by omega
          refine ⟨pack_lt (Nat.lt_trans hc0 S.inf_lt), fun h => absurd hfin h, fun _ => ⟨?_, ?_⟩⟩
          · unfold Fmt.Fin; rw [mag_pack (Nat.lt_trans hc0 S.inf_lt)]; exact hc0
          · rw [real_pack S hc0 f1, real_bits S, hng]
            simp only [if_true]
            rw [Int.ceil_neg, floor_real_val S]
            push_cast; rfl

/-- **`Floor`**. -/
theorem floorLane_spec {x : Nat} (hx : x < 2 ^ (F.w + 1)) :
    DirSpec F (fun q => ⌊q⌋) x (floorLane F x) ∧
      (|F.real x| < 1 → floorLane F x = if F.real x < 0 then F.mone else 0) := by
  have hue := S.unit_eq
  have hpb := S.pb
  have hp2 := S.p2
  have hU : (0 : ℚ) < 2 ^ F.unit := by positivity
  have hpp := Nat.two_pow_pos F.p
  have hwl : 0 < 2 ^ F.w := Nat.two_pow_pos _
  have hc1 : F.bias * 2 ^ F.p < F.inf := code_lt_inf S (by omega)
  unfold floorLane
  simp only []
  rw [unbiasedExp_eq S]
  by_cases hA : ((F.mag x / 2 ^ F.p : Nat) : ℤ) - F.bias ≥ F.p
  · rw [if_pos hA]
    have hge : mantissaEnd F ≤ F.mag x := by
      rw [mantissaEnd_eq S]
      have : F.bias + F.p ≤ F.mag x / 2 ^ F.p := by omega
      exact (Nat.le_div_iff_mul_le hpp).1 this
    refine ⟨⟨hx, fun _ => rfl, fun hf => ⟨hf, ?_⟩⟩, fun h1 => ?_⟩
    · obtain ⟨n, hn, _⟩ := big_int S hge
      rw [hn]; simp
    · exfalso
      rw [abs_lt_one S, ] at h1
      rw [mantissaEnd_eq S, Nat.add_mul] at hge
      omega
  · rw [if_neg hA]
    have hfin : F.Fin x := by
      unfold Fmt.Fin
      refine Nat.lt_trans ?_ (mantissaEnd_lt S)
      rw [mantissaEnd_eq S]
      exact (Nat.div_lt_iff_lt_mul hpp).1 (by omega)
    rw [flt_zero S x hfin]
    by_cases hB : ((F.mag x / 2 ^ F.p : Nat) : ℤ) - F.bias < 0
    · rw [if_pos hB]
      have hlt : F.mag x < F.bias * 2 ^ F.p := (Nat.div_lt_iff_lt_mul hpp).1 (by omega)
      have habs := (abs_lt_one S x).2 hlt
      rw [abs_lt] at habs
      refine ⟨?_, fun _ => ?_⟩
      · by_cases hneg : F.sval x < 0
        · rw [decide_eq_true hneg, if_pos rfl, mone_pack S]
          refine ⟨pack_lt (Nat.lt_trans hc1 S.inf_lt), fun h => absurd hfin h, fun _ => ⟨?_, ?_⟩⟩
          · unfold Fmt.Fin; rw [mag_pack (Nat.lt_trans hc1 S.inf_lt)]; exact hc1
          · rw [real_pack S (q := 1) hc1 (by rw [val_one S, Nat.one_mul])]
            have h2 := (real_lt_zero S x).2 hneg
            have : ⌊F.real x⌋ = -1 := by
              rw [Int.floor_eq_iff]; constructor <;> push_cast <;> linarith [habs.1]
            rw [this]; simp
        · rw [decide_eq_false hneg, if_neg (by decide), ofInt_zero S]
          refine ⟨Nat.two_pow_pos _, fun h => absurd hfin h, fun _ => ⟨?_, ?_⟩⟩
          · unfold Fmt.Fin; rw [mag_zero S]; exact S.inf_pos
          · have h2 : ¬ F.real x < 0 := fun h => hneg ((real_lt_zero S x).1 h)
            have : ⌊F.real x⌋ = 0 := by
              rw [Int.floor_eq_iff]; constructor <;> push_cast <;> linarith [habs.2]
            rw [this]
            unfold Fmt.real; rw [sval_zero S]; simp
      · rw [ofInt_zero S]
        simp only [decide_eq_true_eq, real_lt_zero S]
    · rw [if_neg hB]
      obtain ⟨k, hk⟩ : ∃ k, F.mag x / 2 ^ F.p = k := ⟨_, rfl⟩
      have hkb : F.bias ≤ k := by omega
      have hkp : k < F.bias + F.p := by omega
      obtain ⟨d, hd⟩ : ∃ d, d + k = F.bias + F.p := ⟨F.bias + F.p - k, by omega⟩
      have hd1 : 1 ≤ d := by omega
      have htn : (((F.mag x / 2 ^ F.p : Nat) : ℤ) - F.bias).toNat = k - F.bias := by omega
      rw [htn, mask_eq S (show d + (k - F.bias) = F.p by omega), incr_eq S (show d + (k - F.bias) = F.p by omega)]
      obtain ⟨f1, f2, f3, f4⟩ := frac_core S hk hkb hd hd1
      have hnot1 : ¬ |F.real x| < 1 := by
        rw [abs_lt_one S]
        intro h
        have := (Nat.div_lt_iff_lt_mul hpp).2 h
        omega
      have hxm : x &&& (2 ^ d - 1) = F.mag x % 2 ^ d := by
        rw [Nat.and_two_pow_sub_one_eq_mod]
        have hpe : 2 ^ F.w = 2 ^ d * 2 ^ (F.w - d) := by
          rw [← Nat.pow_add]; congr 1; unfold Fmt.w; omega
        unfold Fmt.mag Fmt.signMask
        rw [hpe, Nat.mod_mul_right_mod]
      rw [hxm]
      refine ⟨?_, fun h => absurd h hnot1⟩
      by_cases hz : F.mag x % 2 ^ d = 0
      · rw [if_pos hz]
        refine ⟨hx, fun _ => rfl, fun hf => ⟨hf, ?_⟩⟩
        obtain ⟨j, hj⟩ := f3.1 hz
        obtain ⟨n, hn⟩ : ∃ n : ℤ, F.real x = (n : ℚ) := by
          rw [real_bits S, hj]
          cases F.neg x
          · exact ⟨(j : ℤ), by push_cast; simp; try field_simp⟩
          · exact ⟨-(j : ℤ), by push_cast; simp; try field_simp⟩
        rw [hn]; simp
      · rw [if_neg hz]
        show DirSpec F (fun q => ⌊q⌋) x
          ((if decide (F.sval x < 0) = true then (x + 2 ^ d) % 2 ^ (F.w + 1) else x) &&&
            (2 ^ (F.w + 1) - 1 - (2 ^ d - 1)))
        rw [adjust S hx hk hkb hd hd1]
        have hnd : ¬ 2 ^ F.unit ∣ F.val (F.mag x) := fun h => hz (f3.2 h)
        have hvpos : 0 < F.val (F.mag x) := Nat.pos_of_ne_zero (fun h => hnd (by rw [h]; exact dvd_zero _))
        have hsn := sval_neg_iff S hvpos
        have hna := natAbs_sval (F := F) x
        cases hng : F.neg x
        · have hp : ¬ F.sval x < 0 := fun h => by rw [hsn.1 h] at hng; cases hng
          rw [decide_eq_false hp]
          simp only [Bool.false_eq_true, if_false]
          have hc0 : F.mag x - F.mag x % 2 ^ d < F.inf := by omega
          refine ⟨pack_lt (Nat.lt_trans hc0 S.inf_lt), fun h => absurd hfin h, fun _ => ⟨?_, ?_⟩⟩
          · unfold Fmt.Fin; rw [mag_pack (Nat.lt_trans hc0 S.inf_lt)]; exact hc0
          · rw [real_pack S hc0 f1, real_bits S, hng]
            simp only [Bool.false_eq_true, if_false]
            rw [floor_real_val S]
            push_cast; rfl
        · have hp : F.sval x < 0 := hsn.2 hng
          rw [decide_eq_true hp]
          simp only [if_true]
          refine ⟨pack_lt (Nat.lt_trans f4 S.inf_lt), fun h => absurd hfin h, fun _ => ⟨?_, ?_⟩⟩
          · unfold Fmt.Fin; rw [mag_pack (Nat.lt_trans f4 S.inf_lt)]; exact f4
          · rw [real_pack S f4 f2, real_bits S, hng]
            simp only [if_true]
            rw [Int.floor_neg, ceil_real_val S hnd]
            push_cast; rfl

end
end Flt
end Hwy
