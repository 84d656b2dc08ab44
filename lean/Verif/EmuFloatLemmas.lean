import Verif.EmuFloat
import Verif.EmuMaskSpec
import Mathlib.Tactic.Ring
import Mathlib.Tactic.Linarith

/-! # Lemmas on the IEEE operations, and the rounding argument of `Round` -/

namespace Hwy
namespace Flt

/-- Formats with at least two mantissa bits whose largest integer-spaced value is finite. -/
structure Std (F : Fmt) : Prop where
  p2 : 2 ≤ F.p
  e2 : 2 ≤ F.e
  pb : F.p ≤ F.bias

theorem std32 : Std f32 := ⟨by decide, by decide, by decide⟩
theorem std64 : Std f64 := ⟨by decide, by decide, by decide⟩

section
variable {F : Fmt} (S : Std F)
include S

theorem Std.pow_e : 2 ^ F.e = 2 * F.bias + 2 := by
  have := S.e2
  have h : 2 ^ F.e = 2 * 2 ^ (F.e - 1) := by rw [← Nat.pow_succ']; congr 1; omega
  have := Nat.two_pow_pos (F.e - 1)
  unfold Fmt.bias
  omega

theorem Std.inf_eq : F.inf = (2 * F.bias + 1) * 2 ^ F.p := by
  unfold Fmt.inf
  rw [S.pow_e]; congr 1

theorem Std.unit_eq : F.unit + 1 = F.bias + F.p := by
  have := S.p2
  unfold Fmt.unit
  omega

theorem Std.val_pow (k : Nat) : F.val ((k + 1) * 2 ^ F.p) = 2 ^ (F.p + k) := by
  have := val_mul_add F (k + 1) 0 (by omega) (Nat.zero_le _)
  simp only [Nat.add_zero, Nat.add_sub_cancel] at this
  rw [this, Nat.pow_add]

theorem Std.val_inf : F.val F.inf = 2 ^ (F.unit + F.bias + 1) := by
  have h := S.unit_eq
  have e : F.unit + F.bias + 1 = F.p + 2 * F.bias := by omega
  rw [e, S.inf_eq, S.val_pow]

theorem Std.inf_lt : F.inf < 2 ^ F.w := by
  have := S.pow_e
  have hp := Nat.two_pow_pos F.p
  rw [S.inf_eq, show F.w = F.e + F.p by unfold Fmt.w; omega, Nat.pow_add]
  exact Nat.mul_lt_mul_of_pos_right (by omega) hp

theorem Std.p1 : 1 ≤ F.p := by have := S.p2; omega
theorem Std.e1 : 1 ≤ F.e := by have := S.e2; omega

end

theorem val_lt_iff (F : Fmt) {a b : Nat} : F.val a < F.val b ↔ a < b :=
  ⟨fun h => by
    by_contra hc
    have := val_mono F (show b ≤ a by omega)
    omega, val_strict F⟩

theorem val_inj (F : Fmt) {a b : Nat} (h : F.val a = F.val b) : a = b := by
  rcases Nat.lt_trichotomy a b with h1 | h1 | h1
  · have := val_strict F h1; omega
  · exact h1
  · have := val_strict F h1; omega

theorem val_zero (F : Fmt) : F.val 0 = 0 := by simpa using val_small F 0 (Nat.zero_le _)

/-- A representable value of at least `2^q` is a multiple of `2^(q-p)`. -/
theorem rep_dvd (F : Fmt) (c q : Nat) (h : 2 ^ q ≤ F.val c) : 2 ^ (q - F.p) ∣ F.val c := by
  have hm := Nat.mod_lt c (Nat.two_pow_pos F.p)
  unfold Fmt.val at *
  split_ifs at * with h0
  · have : q < F.p := (Nat.pow_lt_pow_iff_right (a := 2) (by decide)).1 (Nat.lt_of_le_of_lt h hm)
    rw [show q - F.p = 0 by omega]; simp
  · have h1 : (2 ^ F.p + c % 2 ^ F.p) * 2 ^ (c / 2 ^ F.p - 1) < 2 ^ (F.p + 1 + (c / 2 ^ F.p - 1)) := by
      rw [Nat.pow_add]
      apply Nat.mul_lt_mul_of_pos_right _ (Nat.two_pow_pos _)
      rw [Nat.pow_succ]; omega
    have : q < F.p + 1 + (c / 2 ^ F.p - 1) := (Nat.pow_lt_pow_iff_right (by decide)).1 (Nat.lt_of_le_of_lt h h1)
    exact Dvd.dvd.mul_left (pow_dvd_pow 2 (by omega)) _

/-- Conversely multiples of `2^t` up to `2^(p+1+t)` are representable. -/
theorem rep_mk (F : Fmt) : ∀ (t v : Nat), 2 ^ t ∣ v → v ≤ 2 ^ (F.p + 1 + t) → ∃ c, F.val c = v := by
  intro t
  induction t with
  | zero =>
    intro v _ hv
    rw [Nat.add_zero, Nat.pow_succ] at hv
    by_cases h : v ≤ 2 ^ F.p
    · exact ⟨v, val_small F v h⟩
    · refine ⟨1 * 2 ^ F.p + (v - 2 ^ F.p), ?_⟩
      rw [val_mul_add F 1 _ (by omega) (by omega)]
      simp; omega
  | succ t ih =>
    intro v hd hv
    by_cases h : v ≤ 2 ^ (F.p + 1 + t)
    · exact ih v (Dvd.dvd.trans (pow_dvd_pow 2 (by omega)) hd) h
    · obtain ⟨j, rfl⟩ := hd
      have h1 : 2 ^ F.p ≤ j := by
        have e : 2 ^ (F.p + 1 + t) = 2 ^ (t + 1) * 2 ^ F.p := by rw [← Nat.pow_add]; congr 1; omega
        rw [e] at h
        by_contra hc
        exact h (Nat.mul_le_mul_left _ (by omega))
      have h2 : j ≤ 2 ^ F.p + 2 ^ F.p := by
        have e : 2 ^ (F.p + 1 + (t + 1)) = 2 ^ (t + 1) * (2 ^ F.p + 2 ^ F.p) := by
          rw [← Nat.mul_two, ← Nat.pow_succ, ← Nat.pow_add]; congr 1; omega
        rw [e] at hv
        exact Nat.le_of_mul_le_mul_left hv (Nat.two_pow_pos _)
      refine ⟨(t + 2) * 2 ^ F.p + (j - 2 ^ F.p), ?_⟩
      rw [val_mul_add F (t + 2) _ (by omega) (by omega), show t + 2 - 1 = t + 1 by omega, Nat.mul_comm]
      congr 1; omega

/-- Rounding to the nearest representable value, in units. -/
def rnd (F : Fmt) (v : Nat) : Nat := F.val (rneEncode F 0 v)

/-- `K` is the integer nearest to `m / 2^U`, ties to even. -/
def NatRne (U m K : Nat) : Prop :=
  2 * m ≤ (2 * K + 1) * 2 ^ U ∧ 2 * K * 2 ^ U ≤ 2 * m + 2 ^ U ∧
    (2 * m = (2 * K + 1) * 2 ^ U ∨ 2 * K * 2 ^ U = 2 * m + 2 ^ U → K % 2 = 0)

section
variable {F : Fmt} (S : Std F)
include S

theorem enc_val {c : Nat} (hc : c ≤ F.inf) : rneEncode F 0 (F.val c) = c :=
  rneEncode_exact S.p1 S.e1 hc (by simp)

theorem enc_mono {u v : Nat} (h : u ≤ v) : rneEncode F 0 u ≤ rneEncode F 0 v :=
  (rneEncode_local F S.p1 S.e1 0 u).mono (rneEncode_local F S.p1 S.e1 0 v) h

theorem enc_le {v c : Nat} (hc : c ≤ F.inf) (h : v ≤ F.val c) : rneEncode F 0 v ≤ c := by
  rw [← enc_val S hc]; exact enc_mono S h

theorem enc_le_inf (v : Nat) : rneEncode F 0 v ≤ F.inf := (rneEncode_local F S.p1 S.e1 0 v).le

/-- A representable number below `2^(unit+bias+1)` is returned exactly. -/
theorem rnd_exact {t v : Nat} (hd : 2 ^ t ∣ v) (hv : v ≤ 2 ^ (F.p + 1 + t)) (hi : v < 2 ^ (F.unit + F.bias + 1)) :
    ∃ c, c < F.inf ∧ F.val c = v ∧ rneEncode F 0 v = c := by
  obtain ⟨c, hc⟩ := rep_mk F t v hd hv
  have h1 : c < F.inf := by
    rw [← S.val_inf, ← hc] at hi
    exact (val_lt_iff F).1 hi
  exact ⟨c, h1, hc, by rw [← hc]; exact enc_val S (Nat.le_of_lt h1)⟩

theorem Std.unit_ge : F.p + 1 ≤ F.unit := by
  have := S.unit_eq; have := S.p2; have := S.pb; omega

theorem dvd_absdiff {d a b : Nat} (h1 : d ∣ a) (h2 : d ∣ b) : d ∣ ((a : Int) - b).natAbs :=
  Int.natCast_dvd.1 (Int.dvd_sub (Int.natCast_dvd_natCast.2 h1) (Int.natCast_dvd_natCast.2 h2))

/-- Code of `2^(unit+k)`-ish powers: `2^(p+k)` has the even code `(k+1) * 2^p`. -/
theorem code_even (k : Nat) : (k * 2 ^ F.p) % 2 = 0 := by
  have := S.p1
  have e : 2 ^ F.p = 2 * 2 ^ (F.p - 1) := by rw [← Nat.pow_succ']; congr 1; omega
  rw [e, ← Nat.mul_assoc, Nat.mul_comm k 2, Nat.mul_assoc]
  exact Nat.mul_mod_right _ _

theorem half_ulp_below {m : Nat} (hm : m < 2 ^ (F.unit - 1))
    (hs : rnd F (m + 2 ^ (F.unit - 1)) = 2 ^ F.unit) : rnd F (2 ^ F.unit - m) = 2 ^ (F.unit - 1) := by
  have hU := S.unit_ge
  have hue := S.unit_eq
  have hpb := S.pb
  have hp2 := S.p2
  -- codes of 2^unit and of half of it
  have vA : F.val ((F.unit - F.p + 1) * 2 ^ F.p) = 2 ^ F.unit := by
    rw [S.val_pow]; congr 1; omega
  have vh : F.val ((F.unit - 1 - F.p + 1) * 2 ^ F.p) = 2 ^ (F.unit - 1) := by
    rw [S.val_pow]; congr 1; omega
  have hA : 2 ^ F.unit = 2 * 2 ^ (F.unit - 1) := by rw [← Nat.pow_succ']; congr 1; omega
  have hcl : ∀ k, k ≤ F.bias → k * 2 ^ F.p < F.inf := fun k hk => by
    rw [S.inf_eq]; exact Nat.mul_lt_mul_of_pos_right (by omega) (Nat.two_pow_pos _)
  have hpp : 4 ≤ 2 ^ F.p := by
    calc 4 = 2 ^ 2 := rfl
      _ ≤ 2 ^ F.p := Nat.pow_le_pow_right (by decide) hp2
  have hl := rneEncode_local F S.p1 S.e1 0 (m + 2 ^ (F.unit - 1))
  have hc : rneEncode F 0 (m + 2 ^ (F.unit - 1)) = (F.unit - F.p + 1) * 2 ^ F.p :=
    val_inj F (by rw [vA]; exact hs)
  rw [hc] at hl
  have kpos : 0 < (F.unit - F.p + 1) * 2 ^ F.p := Nat.mul_pos (by omega) (by omega)
  have h1 := hl.lo kpos
  have kpred : (F.unit - F.p + 1) * 2 ^ F.p - 1 = (F.unit - F.p) * 2 ^ F.p + (2 ^ F.p - 1) := by
    rw [Nat.add_mul, Nat.one_mul]; omega
  have u1 : F.ulp ((F.unit - F.p + 1) * 2 ^ F.p - 1) = 2 ^ (F.unit - F.p - 1) := by
    rw [kpred]; exact ulp_eq F _ _ (by omega)
  have s1 := val_succ F ((F.unit - F.p + 1) * 2 ^ F.p - 1)
  rw [Nat.sub_add_cancel kpos, vA, u1] at s1
  rw [vA] at h1
  -- the wanted code
  have k2 : F.unit - 1 - F.p + 1 = F.unit - F.p := by omega
  rw [k2] at vh
  have u2 : F.ulp ((F.unit - F.p) * 2 ^ F.p) = 2 ^ (F.unit - F.p - 1) := by
    have := ulp_eq F (F.unit - F.p) 0 (Nat.two_pow_pos _); rwa [Nat.add_zero] at this
  have s2 := val_succ F ((F.unit - F.p) * 2 ^ F.p)
  rw [vh, u2] at s2
  have kpos2 : 0 < (F.unit - F.p) * 2 ^ F.p := Nat.mul_pos (by omega) (by omega)
  have s3 := val_strict F (show (F.unit - F.p) * 2 ^ F.p - 1 < (F.unit - F.p) * 2 ^ F.p by omega)
  rw [vh] at s3
  have hloc : Local F 0 (2 ^ F.unit - m) ((F.unit - F.p) * 2 ^ F.p) := by
    refine ⟨Nat.le_of_lt (hcl _ (by omega)), fun _ => ?_, fun _ _ => code_even S _, fun _ => ?_,
      fun _ _ => code_even S _⟩
    · rw [vh, s2]; omega
    · rw [vh]; omega
  unfold rnd
  rw [rneEncode_eq S.p1 S.e1 hloc, vh]

/-- The integer that `Round` computes from the magnitude `m` of its input. -/
def roundK (F : Fmt) (m : Nat) : Nat :=
  let R := rnd F (m + 2 ^ (F.unit - 1)) / 2 ^ F.unit
  if R % 2 = 1 ∧ rnd F (((R * 2 ^ F.unit : Nat) : Int) - m).natAbs = 2 ^ (F.unit - 1) then R - 1 else R

theorem round_core (c : Nat) (hm : F.val c < 2 ^ (F.p + F.unit)) :
    NatRne F.unit (F.val c) (roundK F (F.val c)) ∧
      rnd F (F.val c + 2 ^ (F.unit - 1)) / 2 ^ F.unit ≤ 2 ^ F.p := by
  have hU := S.unit_ge
  have hue := S.unit_eq
  have hpb := S.pb
  have hp2 := S.p2
  have hA : 2 ^ F.unit = 2 * 2 ^ (F.unit - 1) := by rw [← Nat.pow_succ']; congr 1; omega
  have hh := Nat.two_pow_pos (F.unit - 1)
  have hpp := Nat.two_pow_pos F.p
  generalize hmd : F.val c = m at *
  have hbig : ∀ k, k ≤ F.p + F.unit → 2 ^ k < 2 ^ (F.unit + F.bias + 1) := fun k hk =>
    Nat.pow_lt_pow_right (by decide) (by omega)
  have vA : F.val ((F.unit - F.p + 1) * 2 ^ F.p) = 2 ^ F.unit := by
    rw [S.val_pow]; congr 1; omega
  rcases Nat.lt_or_ge m (2 ^ (F.unit - 1)) with h1 | h1
  · -- |x| < 1/2
    have hS : rnd F (m + 2 ^ (F.unit - 1)) ≤ 2 ^ F.unit := by
      have := enc_le S (c := (F.unit - F.p + 1) * 2 ^ F.p) (v := m + 2 ^ (F.unit - 1))
        (by rw [S.inf_eq]; exact Nat.mul_le_mul_right _ (by omega)) (by rw [vA]; omega)
      have := val_mono F this
      rw [vA] at this
      exact this
    have hK : roundK F m = 0 := by
      unfold roundK
      rcases Nat.lt_or_ge (rnd F (m + 2 ^ (F.unit - 1))) (2 ^ F.unit) with h2 | h2
      · simp only [Nat.div_eq_of_lt h2]; simp
      · have e : rnd F (m + 2 ^ (F.unit - 1)) = 2 ^ F.unit := by omega
        have hb := half_ulp_below S h1 e
        simp only [e, Nat.div_self (Nat.two_pow_pos F.unit), Nat.one_mul]
        rw [if_pos]
        refine ⟨trivial, ?_⟩
        rw [show (((2 ^ F.unit : Nat) : Int) - (m : Int)).natAbs = 2 ^ F.unit - m by omega]
        exact hb
    rw [hK]
    refine ⟨⟨by omega, by omega, fun _ => rfl⟩, ?_⟩
    calc _ ≤ 2 ^ F.unit / 2 ^ F.unit := Nat.div_le_div_right hS
      _ = 1 := Nat.div_self (Nat.two_pow_pos _)
      _ ≤ _ := hpp
  · have hm0 : m ≠ 0 := by omega
    have hq1 := Nat.log2_self_le hm0
    have hq2 := Nat.lt_log2_self (n := m)
    generalize Nat.log2 m = q at *
    have hqU : F.unit - 1 < q + 1 := (Nat.pow_lt_pow_iff_right (a := 2) (by decide)).1 (Nat.lt_of_le_of_lt h1 hq2)
    have hqp : q < F.p + F.unit := (Nat.pow_lt_pow_iff_right (a := 2) (by decide)).1 (Nat.lt_of_le_of_lt hq1 hm)
    have hdm : 2 ^ (q - F.p) ∣ m := by rw [← hmd] at hq1 ⊢; exact rep_dvd F c q hq1
    have hdh : 2 ^ (q - F.p) ∣ 2 ^ (F.unit - 1) := pow_dvd_pow 2 (by omega)
    have hdA : 2 ^ (q - F.p) ∣ 2 ^ F.unit := pow_dvd_pow 2 (by omega)
    -- differences of at most 1/2 are exact
    have hdiff : ∀ R : Nat, (((R * 2 ^ F.unit : Nat) : Int) - m).natAbs ≤ 2 ^ (F.unit - 1) →
        rnd F (((R * 2 ^ F.unit : Nat) : Int) - m).natAbs = (((R * 2 ^ F.unit : Nat) : Int) - m).natAbs := by
      intro R hR
      obtain ⟨c', _, hv', he'⟩ := rnd_exact S (t := q - F.p) (v := (((R * 2 ^ F.unit : Nat) : Int) - m).natAbs)
        (dvd_absdiff S (Dvd.dvd.mul_left hdA R) hdm)
        (Nat.le_trans hR (Nat.pow_le_pow_right (by decide) (by omega)))
        (Nat.lt_of_le_of_lt hR (hbig _ (by omega)))
      unfold rnd
      rw [he', hv']
    rcases Nat.lt_or_ge (2 ^ (q + 1)) (m + 2 ^ (F.unit - 1)) with h2 | h2
    · -- the sum crosses into the next binade
      have hQ : q + 1 < F.p + F.unit := by
        by_contra hcon
        have hq : q = F.p + F.unit - 1 := by omega
        have e : q - F.p = F.unit - 1 := by omega
        rw [e] at hdm
        have hd2 : 2 ^ (F.unit - 1) ∣ 2 ^ (q + 1) := pow_dvd_pow 2 (by omega)
        have hd3 := Nat.dvd_sub hd2 hdm
        have := Nat.le_of_dvd (by omega) hd3
        omega
      have hS1 : 2 ^ (q + 1) ≤ rnd F (m + 2 ^ (F.unit - 1)) := by
        obtain ⟨c', _, hv', he'⟩ := rnd_exact S (t := q + 1 - F.p) (v := 2 ^ (q + 1)) (pow_dvd_pow 2 (by omega))
          (Nat.pow_le_pow_right (by decide) (by omega)) (hbig _ (by omega))
        have := val_mono F (enc_mono S (Nat.le_of_lt h2))
        rw [he', hv'] at this
        exact this
      have hle : 2 ^ (F.unit - 1) ≤ 2 ^ (q + 1) := Nat.pow_le_pow_right (by decide) (by omega)
      have hS2 : rnd F (m + 2 ^ (F.unit - 1)) ≤ 2 ^ (q + 1) + 2 ^ (F.unit - 1) := by
        obtain ⟨c', hc', hv', he'⟩ := rnd_exact S (t := q + 1 - F.p) (v := 2 ^ (q + 1) + 2 ^ (F.unit - 1))
          (Nat.dvd_add (pow_dvd_pow 2 (by omega)) (pow_dvd_pow 2 (by omega)))
          (by
            have : 2 ^ (q + 1) + 2 ^ (F.unit - 1) ≤ 2 ^ (q + 2) := by rw [Nat.pow_succ 2 (q + 1)]; omega
            exact Nat.le_trans this (Nat.pow_le_pow_right (by decide) (by omega)))
          (by
            have : 2 ^ (q + 1) + 2 ^ (F.unit - 1) ≤ 2 ^ (q + 2) := by rw [Nat.pow_succ 2 (q + 1)]; omega
            exact Nat.lt_of_le_of_lt this (hbig _ (by omega)))
        have := val_mono F (enc_mono S (show m + 2 ^ (F.unit - 1) ≤ 2 ^ (q + 1) + 2 ^ (F.unit - 1) by omega))
        rw [he', hv'] at this
        exact this
      have eQ : 2 ^ (q + 1) = 2 ^ F.unit * 2 ^ (q + 1 - F.unit) := by rw [← Nat.pow_add]; congr 1; omega
      have hR : rnd F (m + 2 ^ (F.unit - 1)) / 2 ^ F.unit = 2 ^ (q + 1 - F.unit) := by
        rw [Nat.div_eq_iff (Nat.two_pow_pos _)]
        rw [Nat.mul_comm] at eQ
        generalize 2 ^ (q + 1 - F.unit) * 2 ^ F.unit = Z at *
        omega
      have hK : roundK F m = 2 ^ (q + 1 - F.unit) := by
        unfold roundK
        simp only [hR]
        rw [if_neg]
        rintro ⟨t1, t2⟩
        by_cases hqq : q + 1 = F.unit
        · rw [hqq, Nat.sub_self, Nat.pow_zero] at t2
          rw [hqq] at h2 hq2
          rw [hdiff 1 (by rw [Nat.one_mul]; omega), Nat.one_mul] at t2
          omega
        · have : 2 ^ (q + 1 - F.unit) = 2 * 2 ^ (q + 1 - F.unit - 1) := by
            rw [← Nat.pow_succ']; congr 1; omega
          omega
      rw [hR, hK]
      constructor
      · unfold NatRne
        rw [show (2 * 2 ^ (q + 1 - F.unit) + 1) * 2 ^ F.unit = 2 * 2 ^ (q + 1) + 2 ^ F.unit by rw [eQ]; ring,
          show 2 * 2 ^ (q + 1 - F.unit) * 2 ^ F.unit = 2 * 2 ^ (q + 1) by rw [eQ]; ring]
        omega
      · exact Nat.pow_le_pow_right (by decide) (by omega)
    · -- the sum is exact
      have hS : rnd F (m + 2 ^ (F.unit - 1)) = m + 2 ^ (F.unit - 1) := by
        obtain ⟨c', _, hv', he'⟩ := rnd_exact S (t := q - F.p) (v := m + 2 ^ (F.unit - 1))
          (Nat.dvd_add hdm hdh) (Nat.le_trans h2 (Nat.pow_le_pow_right (by decide) (by omega)))
          (Nat.lt_of_le_of_lt h2 (hbig _ (by omega)))
        unfold rnd
        rw [he', hv']
      have hdv := Nat.div_add_mod (m + 2 ^ (F.unit - 1)) (2 ^ F.unit)
      have hmd2 := Nat.mod_lt (m + 2 ^ (F.unit - 1)) (Nat.two_pow_pos F.unit)
      have hRle : (m + 2 ^ (F.unit - 1)) / 2 ^ F.unit ≤ 2 ^ F.p := by
        calc _ ≤ 2 ^ (q + 1) / 2 ^ F.unit := Nat.div_le_div_right h2
          _ ≤ 2 ^ (F.p + F.unit) / 2 ^ F.unit :=
            Nat.div_le_div_right (Nat.pow_le_pow_right (by decide) (by omega))
          _ = 2 ^ F.p := by rw [Nat.pow_add, Nat.mul_div_cancel _ (Nat.two_pow_pos _)]
      unfold roundK
      rw [hS]
      refine ⟨?_, hRle⟩
      simp only []
      generalize (m + 2 ^ (F.unit - 1)) / 2 ^ F.unit = R at *
      generalize (m + 2 ^ (F.unit - 1)) % 2 ^ F.unit = r at *
      rw [Nat.mul_comm] at hdv
      have hab : (((R * 2 ^ F.unit : Nat) : Int) - m).natAbs ≤ 2 ^ (F.unit - 1) := by
        generalize R * 2 ^ F.unit = Z at *
        omega
      rw [hdiff R hab]
      unfold NatRne
      split_ifs with ht
      · obtain ⟨t1, t2⟩ := ht
        obtain ⟨R', rfl⟩ : ∃ R', R = R' + 1 := ⟨R - 1, by omega⟩
        have e1 : (R' + 1) * 2 ^ F.unit = R' * 2 ^ F.unit + 2 ^ F.unit := by ring
        have e2 : (2 * (R' + 1 - 1) + 1) * 2 ^ F.unit = 2 * (R' * 2 ^ F.unit) + 2 ^ F.unit := by
          rw [Nat.add_sub_cancel]; ring
        have e3 : 2 * (R' + 1 - 1) * 2 ^ F.unit = 2 * (R' * 2 ^ F.unit) := by
          rw [Nat.add_sub_cancel]; ring
        rw [e1] at hdv hab t2
        rw [e2, e3]
        generalize R' * 2 ^ F.unit = Z at *
        omega
      · have e2 : (2 * R + 1) * 2 ^ F.unit = 2 * (R * 2 ^ F.unit) + 2 ^ F.unit := by ring
        have e3 : 2 * R * 2 ^ F.unit = 2 * (R * 2 ^ F.unit) := by ring
        rw [e2, e3]
        generalize R * 2 ^ F.unit = Z at *
        omega

end
end Flt
end Hwy
