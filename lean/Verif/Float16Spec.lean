import Verif.FloatRound
import Mathlib.Tactic.IntervalCases

/-! # C09, C10, C42: float16 / bfloat16 conversions round correctly -/

namespace Hwy
namespace Flt

theorem or3 (sg be mt : Nat) (hs : sg < 2) (hb : be < 32) (hm : mt < 1024) :
    ((sg <<< 15) ||| (be <<< 10) ||| mt) % 2 ^ 16 = sg * 2 ^ 15 + be * 2 ^ 10 + mt := by
  have h1 : (sg <<< 15) ||| (be <<< 10) = sg * 2 ^ 15 + be * 2 ^ 10 := by
    rw [Nat.shiftLeft_eq, Nat.shiftLeft_eq, Nat.mul_comm sg, ← Nat.two_pow_add_eq_or_of_lt (by omega)]
  have h2 : (sg * 2 ^ 15 + be * 2 ^ 10) ||| mt = sg * 2 ^ 15 + be * 2 ^ 10 + mt := by
    rw [show sg * 2 ^ 15 + be * 2 ^ 10 = 2 ^ 10 * (sg * 2 ^ 5 + be) by ring, ← Nat.two_pow_add_eq_or_of_lt (by omega)]
  rw [h1, h2, Nat.mod_eq_of_lt (by omega)]

/-- The code of the float16 result (without sign) computed by `F16FromF32`. -/
def f16Code (e m : Nat) : Nat :=
  if e = 255 ∧ m ≠ 0 then 0x7FFF
  else if e < 102 then 0
  else if e ≤ 112 then rne (2 ^ 23 + m) (126 - e)
  else min ((e - 112) * 1024 + rne m 13) 31744

theorem f16FromF32_eq (sg e m : Nat) (hs : sg < 2) (he : e < 256) (hm : m < 2 ^ 23) :
    f16FromF32 (sg * 2 ^ 31 + e * 2 ^ 23 + m) = sg * 2 ^ 15 + f16Code e m := by
  have b1 : (sg * 2 ^ 31 + e * 2 ^ 23 + m) >>> 31 = sg := by rw [Nat.shiftRight_eq_div_pow]; omega
  have b2 : (sg * 2 ^ 31 + e * 2 ^ 23 + m) >>> 23 &&& 0xFF = e := by
    rw [Nat.shiftRight_eq_div_pow, show (0xFF : Nat) = 2 ^ 8 - 1 by decide, Nat.and_two_pow_sub_one_eq_mod]; omega
  have b3 : (sg * 2 ^ 31 + e * 2 ^ 23 + m) &&& 0x7FFFFF = m := by
    rw [show (0x7FFFFF : Nat) = 2 ^ 23 - 1 by decide, Nat.and_two_pow_sub_one_eq_mod]; omega
  have b4 : m ||| 0x800000 = 2 ^ 23 + m := by
    rw [Nat.or_comm, show (0x800000 : Nat) = 2 ^ 23 * 1 by decide, ← Nat.two_pow_add_eq_or_of_lt hm, Nat.mul_one]
  have b5 : ∀ x : Nat, x &&& 0x7FFFFF = x % 2 ^ 23 := by
    intro x
    rw [show (0x7FFFFF : Nat) = 2 ^ 23 - 1 by decide, Nat.and_two_pow_sub_one_eq_mod]
  have b6 : ∀ x : Nat, x &&& 1 = x % 2 := fun x => Nat.and_one_is_mod x
  have hnb : (e == 255 && m != 0) = decide (e = 255 ∧ m ≠ 0) := by
    rw [Bool.eq_iff_iff]; simp
  unfold f16FromF32
  simp only [b1, b2, b3, b4, b5, b6]
  rcases Nat.lt_or_ge e 102 with h1 | h1
  · -- tiny
    have hu : (min (max (126 - (e : Int)) 13) 24).toNat = 24 := by omega
    rw [hu, if_pos]
    · rw [f16Code, if_neg (by omega), if_pos h1, Nat.shiftLeft_eq, Nat.mod_eq_of_lt (by omega)]; omega
    · split <;> omega
  · rcases Nat.lt_or_ge 112 e with h2 | h2
    · have hu : (min (max (126 - (e : Int)) 13) 24).toNat = 13 := by omega
      rw [hu]
      have hodd : ((2 ^ 23 + m) >>> 13) % 2 = m / 2 ^ 13 % 2 := by
        rw [Nat.shiftRight_eq_div_pow]; omega
      have hr : rne m 13 = (m + m / 2 ^ 13 % 2 + 2 ^ 12 - 1) / 2 ^ 13 := by simp [rne]
      rw [hodd, show (1 <<< (13 - 1) : Nat) = 2 ^ 12 by decide, show (1 <<< 23 : Nat) = 2 ^ 23 by decide]
      generalize hrd : m + m / 2 ^ 13 % 2 + 2 ^ 12 - 1 = rounded at *
      have hrl : rounded < 2 ^ 23 + 2 ^ 12 := by omega
      rcases Nat.lt_or_ge rounded (2 ^ 23) with hc | hc
      · -- no carry
        have hd : decide (rounded ≥ 2 ^ 23) = false := by simp; omega
        rw [hd]
        simp only [Bool.false_eq_true, if_false, Int.add_zero]
        rw [if_neg (by omega)]
        have hsub : (max (-14 - ((e : Int) - 127)) 0).toNat = 0 := by omega
        rw [hsub]
        simp only [if_true, Nat.add_zero, Nat.zero_add, Nat.shiftRight_eq_div_pow]
        rw [Nat.mod_eq_of_lt hc]
        have hbe : (min (max 0 ((e : Int) - 127 + 15)) 31).toNat = min (e - 112) 31 := by omega
        have ho : decide ((e : Int) - 127 ≥ 16) = decide (e ≥ 143) := by
          rw [decide_eq_decide]; omega
        rw [hbe, ho, hnb]
        unfold f16Code
        rw [hr]
        by_cases hn : e = 255 ∧ m ≠ 0
        · rw [decide_eq_true hn, if_pos rfl, if_pos hn, or3 _ _ _ hs (by omega) (by decide), hn.1]; omega
        · rw [decide_eq_false hn, if_neg Bool.false_ne_true, if_neg hn, if_neg (by omega : ¬ e < 102),
            if_neg (by omega : ¬ e ≤ 112)]
          by_cases ho : e ≥ 143
          · rw [decide_eq_true ho, if_pos rfl, or3 _ _ _ hs (by omega) (by decide)]; omega
          · rw [decide_eq_false ho, if_neg Bool.false_ne_true, or3 _ _ _ hs (by omega) (by omega)]; omega
      · -- carry
        have hd : decide (rounded ≥ 2 ^ 23) = true := by simpa using hc
        rw [hd]
        simp only [if_true]
        rw [if_neg (by omega)]
        have hsub : (max (-14 - ((e : Int) - 127 + 1)) 0).toNat = 0 := by omega
        rw [hsub]
        simp only [if_true, Nat.add_zero, Nat.zero_add, Nat.shiftRight_eq_div_pow]
        have hmod : rounded % 2 ^ 23 / 2 ^ (23 - 10) = 0 := by omega
        rw [hmod]
        have hbe : (min (max 0 ((e : Int) - 127 + 1 + 15)) 31).toNat = min (e - 111) 31 := by omega
        have hz : (if decide ((e : Int) - 127 + 1 ≥ 16) = true then 0 else 0) = 0 := by split <;> rfl
        rw [hbe, hz, hnb]
        unfold f16Code
        rw [hr]
        by_cases hn : e = 255 ∧ m ≠ 0
        · rw [decide_eq_true hn, if_pos rfl, if_pos hn, or3 _ _ _ hs (by omega) (by decide), hn.1]; omega
        · rw [decide_eq_false hn, if_neg Bool.false_ne_true, if_neg hn, if_neg (by omega : ¬ e < 102),
            if_neg (by omega : ¬ e ≤ 112), or3 _ _ _ hs (by omega) (by decide)]
          omega
    · have hcarry : ∀ r : Nat, decide (r ≥ 1 <<< 23) = decide (r ≥ 2 ^ 23) := fun _ => rfl
      unfold f16Code
      rw [hnb, decide_eq_false (by omega : ¬ (e = 255 ∧ m ≠ 0)), if_neg (by omega : ¬ (e = 255 ∧ m ≠ 0)),
        if_neg (by omega : ¬ e < 102), if_pos h2]
      have hu : (min (max (126 - (e : Int)) 13) 24).toNat = 126 - e := by omega
      simp only [hcarry, Bool.false_eq_true, if_false, hu, Nat.shiftRight_eq_div_pow, Nat.shiftLeft_eq, Nat.one_mul]
      have hr : rne (2 ^ 23 + m) (126 - e) =
          (2 ^ 23 + (m + (2 ^ 23 + m) / 2 ^ (126 - e) % 2 + 2 ^ (126 - e - 1) - 1)) / 2 ^ (126 - e) := by
        unfold rne
        rw [if_neg (by omega)]
        have := Nat.two_pow_pos (126 - e - 1)
        congr 1; omega
      rw [hr]
      have hpl : 2 ^ (126 - e - 1) ≤ 2 ^ 23 := Nat.pow_le_pow_right (by decide) (by omega)
      have hpp := Nat.two_pow_pos (126 - e - 1)
      have hrl : (m + (2 ^ 23 + m) / 2 ^ (126 - e) % 2 + 2 ^ (126 - e - 1) - 1) < 2 ^ 23 + 2 ^ (126 - e - 1) := by
        omega
      generalize hrd : (m + (2 ^ 23 + m) / 2 ^ (126 - e) % 2 + 2 ^ (126 - e - 1) - 1) = rounded at *
      have or3' := fun be mt => or3 sg be mt hs
      simp only [Nat.shiftLeft_eq] at or3'
      rcases Nat.lt_or_ge rounded (2 ^ 23) with hc | hc
      · rw [decide_eq_false (by omega : ¬ rounded ≥ 2 ^ 23), if_neg Bool.false_ne_true]
        simp only [Int.add_zero]
        have hsub : (max (-14 - ((e : Int) - 127)) 0).toNat = 113 - e := by omega
        have hbe : (min (max 0 ((e : Int) - 127 + 15)) 31).toNat = 0 := by omega
        rw [hsub, hbe, decide_eq_false (by omega : ¬ (e : Int) - 127 ≥ 16), if_neg Bool.false_ne_true,
          Nat.mod_eq_of_lt hc, if_neg (by omega : ¬ 113 - e = 0)]
        clear hrd hr
        interval_cases e
        · rw [if_pos (by decide), Nat.mod_eq_of_lt (by omega)]; omega
        all_goals
          rw [if_neg (by decide), or3' _ _ (by decide) (by omega)]
          omega
      · rw [decide_eq_true hc, if_pos rfl]
        have hsub : (max (-14 - ((e : Int) - 127 + 1)) 0).toNat = 112 - e := by omega
        have hbe : (min (max 0 ((e : Int) - 127 + 1 + 15)) 31).toNat = e - 111 := by omega
        rw [hsub, hbe, decide_eq_false (by omega : ¬ (e : Int) - 127 + 1 ≥ 16), if_neg Bool.false_ne_true,
          if_neg (by omega : ¬ (e : Int) - 127 + 1 < -24)]
        clear hrd hr
        interval_cases e
        all_goals
          simp only [Nat.reduceSub, Nat.reduceAdd, Nat.reducePow, Nat.reduceDiv, OfNat.ofNat_ne_zero, if_false,
            if_true, one_ne_zero] at *
          rw [or3' _ _ (by decide) (by omega)]
          omega

theorem f16Code_local (e m : Nat) (he : e < 255) (hm : m < 2 ^ 23) :
    Local f16 125 (f32.val (e * 2 ^ 23 + m)) (f16Code e m) := by
  have hI : f16.inf = 31744 := by decide
  have hp : f16.p = 10 := rfl
  unfold f16Code
  rw [if_neg (by omega)]
  rcases Nat.lt_or_ge e 102 with h1 | h1
  · rw [if_pos h1]
    have hv : f32.val (e * 2 ^ 23 + m) < 2 ^ 124 := by
      have : f32.val (e * 2 ^ 23 + m) < f32.val (102 * 2 ^ 23) := val_strict f32 (by omega)
      have e1 : f32.val (102 * 2 ^ 23) = 2 ^ 124 := by decide +kernel
      omega
    have v0 : f16.val 0 = 0 := by decide
    have v1 : f16.val (0 + 1) = 1 := by decide
    exact ⟨Nat.zero_le _, fun _ => by rw [v0, v1]; omega, fun _ _ => by decide, fun h => by omega, fun h => by omega⟩
  · rw [if_neg (by omega)]
    have hval : f32.val (e * 2 ^ 23 + m) = (2 ^ 23 + m) * 2 ^ (e - 1) :=
      val_mul_add f32 e m (by omega) (by show m ≤ 2 ^ 23; omega)
    by_cases h2 : e ≤ 112
    · rw [if_pos h2]
      have hx : 2 ^ 23 + m < 2 ^ (f16.p + (126 - e)) := by
        have : 2 ^ 24 ≤ 2 ^ (f16.p + (126 - e)) := Nat.pow_le_pow_right (by decide) (by omega)
        omega
      have h := (local_of_rne f16 125 (f32.val (e * 2 ^ 23 + m)) 0 (2 ^ 23 + m) (126 - e) (e - 1) (by decide)
        (by omega) (by omega) (by rw [if_pos rfl, hval]) hx).clamp (by decide)
      rw [Nat.zero_mul, Nat.zero_add] at h
      have hle : rne (2 ^ 23 + m) (126 - e) ≤ f16.inf := by
        have r3 := (rne_spec (2 ^ 23 + m) (126 - e) (by omega)).2.2.1
        have h14 : 2 ^ 14 ≤ 2 ^ (126 - e) := Nat.pow_le_pow_right (by decide) (by omega)
        rw [hI]
        by_contra hcon
        have := Nat.mul_le_mul_right (2 ^ (126 - e)) (show 2 * 31744 ≤ 2 * rne (2 ^ 23 + m) (126 - e) by omega)
        omega
      rwa [Nat.min_eq_left hle] at h
    · rw [if_neg h2]
      have h := (local_of_rne f16 125 (f32.val (e * 2 ^ 23 + m)) (e - 112) m 13 (e - 1) (by decide)
        (by decide) (by omega) (by rw [if_neg (by omega), hval]; rfl) hm).clamp (by decide)
      rw [hI, hp] at h
      exact h

theorem f16FromF32_split (b : Nat) (hb : b < 2 ^ 32) :
    f16FromF32 b = b / 2 ^ 31 * 2 ^ 15 + f16Code (b % 2 ^ 31 / 2 ^ 23) (b % 2 ^ 23) := by
  have := f16FromF32_eq (b / 2 ^ 31) (b % 2 ^ 31 / 2 ^ 23) (b % 2 ^ 23) (by omega) (by omega) (by omega)
  rw [show b / 2 ^ 31 * 2 ^ 31 + b % 2 ^ 31 / 2 ^ 23 * 2 ^ 23 + b % 2 ^ 23 = b by omega] at this
  exact this

theorem f16Code_lt (e m : Nat) (he : e < 256) (hm : m < 2 ^ 23) : f16Code e m < 2 ^ 15 := by
  by_cases h : e = 255
  · unfold f16Code
    split
    · decide
    · rw [if_neg (by omega), if_neg (by omega)]; omega
  · have h1 := (f16Code_local e m (by omega) hm).le
    have : f16.inf = 31744 := by decide
    omega

/-- **C09, float32 to float16.** For every 32-bit pattern `b`: the sign bit is kept; a finite value becomes the
nearest float16, ties to even, overflow to infinity (`2^-149 = 2^-125 * 2^-24`); infinity stays infinity; NaN
becomes NaN. -/
theorem C09_f16FromF32 (b : Nat) (hb : b < 2 ^ 32) :
    f16FromF32 b < 2 ^ 16 ∧ f16FromF32 b / 2 ^ 15 = b / 2 ^ 31 ∧
    (b % 2 ^ 31 < f32.inf → IsNearestEven f16 125 (f32.val (b % 2 ^ 31)) (f16FromF32 b % 2 ^ 15)) ∧
    (b % 2 ^ 31 = f32.inf → f16FromF32 b % 2 ^ 15 = f16.inf) ∧
    (b % 2 ^ 31 > f32.inf → f16FromF32 b % 2 ^ 15 > f16.inf) := by
  have hI : f32.inf = 255 * 2 ^ 23 := by decide
  have hI6 : f16.inf = 31744 := by decide
  have hlt := f16Code_lt (b % 2 ^ 31 / 2 ^ 23) (b % 2 ^ 23) (by omega) (by omega)
  have hmod : f16FromF32 b % 2 ^ 15 = f16Code (b % 2 ^ 31 / 2 ^ 23) (b % 2 ^ 23) := by
    rw [f16FromF32_split b hb]; omega
  refine ⟨by rw [f16FromF32_split b hb]; omega, by rw [f16FromF32_split b hb]; omega, ?_, ?_, ?_⟩
  · intro h
    rw [hmod]
    have := (f16Code_local (b % 2 ^ 31 / 2 ^ 23) (b % 2 ^ 23) (by omega) (by omega)).nearest (by decide) (by decide)
    rwa [show b % 2 ^ 31 / 2 ^ 23 * 2 ^ 23 + b % 2 ^ 23 = b % 2 ^ 31 by omega] at this
  · intro h
    rw [hmod, show b % 2 ^ 31 / 2 ^ 23 = 255 by omega, show b % 2 ^ 23 = 0 by omega]
    decide
  · intro h
    rw [hmod, show b % 2 ^ 31 / 2 ^ 23 = 255 by omega, hI6]
    unfold f16Code
    rw [if_pos (by omega)]; omega

/-! ### float16 to float32 -/

theorem f32_sub (m : Nat) (hm : m < 1024) :
    ∃ c, f32Mul kInv16384 (f32Mul (f32OfNat m) kInv1024) = c ∧ c < f32.inf ∧ f32.val c = m * 2 ^ 125 := by
  have key : ∀ j, j ≤ 149 → ∃ c, c < f32.inf ∧ f32.val c = m * 2 ^ j := by
    intro j hj
    rcases Nat.eq_zero_or_pos m with h0 | h0
    · exact ⟨0, by decide, by subst h0; simp; decide⟩
    · -- normalise
      have hl := Nat.log2_self_le (n := m) (by omega)
      have hlt := @Nat.lt_log2_self m
      generalize hq : Nat.log2 m = q at *
      have hq10 : q < 10 := by
        by_contra hcon
        have : 2 ^ 10 ≤ 2 ^ q := Nat.pow_le_pow_right (by decide) (by omega)
        omega
      have e2 : 2 ^ q * 2 ^ (23 - q) = 2 ^ 23 := by rw [← Nat.pow_add]; congr 1; omega
      rcases Nat.lt_or_ge (q + j) 23 with h | h
      · refine ⟨m * 2 ^ j, ?_, val_small f32 _ ?_⟩
        · have : m * 2 ^ j < 2 ^ (q + 1) * 2 ^ j := Nat.mul_lt_mul_of_pos_right hlt (Nat.two_pow_pos _)
          rw [← Nat.pow_add] at this
          have h3 : 2 ^ (q + 1 + j) ≤ 2 ^ 23 := Nat.pow_le_pow_right (by decide) (by omega)
          have : f32.inf = 255 * 2 ^ 23 := by decide
          omega
        · have : m * 2 ^ j < 2 ^ (q + 1) * 2 ^ j := Nat.mul_lt_mul_of_pos_right hlt (Nat.two_pow_pos _)
          rw [← Nat.pow_add] at this
          have h3 : 2 ^ (q + 1 + j) ≤ 2 ^ 23 := Nat.pow_le_pow_right (by decide) (by omega)
          show m * 2 ^ j ≤ 2 ^ 23
          omega
      · have hm2 : 2 ^ 23 ≤ m * 2 ^ (23 - q) := by
          rw [← e2]; exact Nat.mul_le_mul_right _ hl
        have hm3 : m * 2 ^ (23 - q) < 2 ^ 24 := by
          have : m * 2 ^ (23 - q) < 2 ^ (q + 1) * 2 ^ (23 - q) := Nat.mul_lt_mul_of_pos_right hlt (Nat.two_pow_pos _)
          rw [← Nat.pow_add, show q + 1 + (23 - q) = 24 by omega] at this
          exact this
        refine ⟨(q + j - 22) * 2 ^ 23 + (m * 2 ^ (23 - q) - 2 ^ 23), ?_, ?_⟩
        · have : f32.inf = 255 * 2 ^ 23 := by decide
          have : q + j - 22 ≤ 136 := by omega
          omega
        · have := val_mul_add f32 (q + j - 22) (m * 2 ^ (23 - q) - 2 ^ 23) (by omega) (by show _ ≤ 2 ^ 23; omega)
          rw [show (q + j - 22) * 2 ^ f32.p = (q + j - 22) * 2 ^ 23 from rfl] at this
          rw [this, show 2 ^ f32.p + (m * 2 ^ (23 - q) - 2 ^ 23) = m * 2 ^ (23 - q) by
            show 2 ^ 23 + _ = _; omega, Nat.mul_assoc, ← Nat.pow_add]
          congr 2; omega
  obtain ⟨c1, h1, v1⟩ := key 149 (by omega)
  obtain ⟨c2, h2, v2⟩ := key 139 (by omega)
  obtain ⟨c3, h3, v3⟩ := key 125 (by omega)
  have e1 : f32OfNat m = c1 := rneEncode_exact (by decide) (by decide) (Nat.le_of_lt h1) (by rw [v1, Nat.pow_zero, Nat.mul_one])
  have k1 : f32.val kInv1024 = 2 ^ 139 := by decide +kernel
  have k2 : f32.val kInv16384 = 2 ^ 135 := by decide +kernel
  have e2 : f32Mul c1 kInv1024 = c2 := rneEncode_exact (by decide) (by decide) (Nat.le_of_lt h2) (by
    rw [v1, v2, k1]; ring)
  have e3 : f32Mul kInv16384 c2 = c3 := rneEncode_exact (by decide) (by decide) (Nat.le_of_lt h3) (by
    rw [k2, v2, v3]; ring)
  exact ⟨c3, by rw [e1, e2, e3], h3, v3⟩

/-- **C09, float16 to float32.** For every 16-bit pattern `h`: the sign is kept, a finite value is converted
exactly, infinity to infinity, NaN to NaN. -/
theorem C09_f32FromF16 (h : Nat) (hh : h < 2 ^ 16) :
    f32FromF16 h < 2 ^ 32 ∧ f32FromF16 h / 2 ^ 31 = h / 2 ^ 15 ∧
    (h % 2 ^ 15 < f16.inf → f32FromF16 h % 2 ^ 31 < f32.inf ∧
      f32.val (f32FromF16 h % 2 ^ 31) = f16.val (h % 2 ^ 15) * 2 ^ 125) ∧
    (h % 2 ^ 15 = f16.inf → f32FromF16 h % 2 ^ 31 = f32.inf) ∧
    (h % 2 ^ 15 > f16.inf → f32FromF16 h % 2 ^ 31 > f32.inf) := by
  have hI : f32.inf = 255 * 2 ^ 23 := by decide
  have hI6 : f16.inf = 31 * 2 ^ 10 := by decide
  have b2 : h >>> 10 &&& 0x1F = h / 2 ^ 10 % 32 := by
    rw [Nat.shiftRight_eq_div_pow, show (0x1F : Nat) = 2 ^ 5 - 1 by decide, Nat.and_two_pow_sub_one_eq_mod]
  have b3 : h &&& 0x3FF = h % 2 ^ 10 := by
    rw [show (0x3FF : Nat) = 2 ^ 10 - 1 by decide, Nat.and_two_pow_sub_one_eq_mod]
  have b1 : h >>> 15 = h / 2 ^ 15 := Nat.shiftRight_eq_div_pow _ _
  unfold f32FromF16
  simp only [b1, b2, b3]
  by_cases h0 : h / 2 ^ 10 % 32 = 0
  · rw [if_pos h0]
    obtain ⟨c, hc, hc1, hc2⟩ := f32_sub (h % 2 ^ 10) (by omega)
    rw [hc]
    have hr : (if h / 2 ^ 15 ≠ 0 then c ||| 2 ^ 31 else c) = h / 2 ^ 15 * 2 ^ 31 + c := by
      by_cases hs : h / 2 ^ 15 = 0
      · rw [if_neg (by omega)]; omega
      · rw [if_pos hs, Nat.or_comm, show (2 ^ 31 : Nat) = 2 ^ 31 * 1 by decide,
          ← Nat.two_pow_add_eq_or_of_lt (by omega : c < 2 ^ 31)]
        omega
    rw [hr]
    refine ⟨by omega, by omega, fun _ => ⟨by omega, ?_⟩, fun _ => by omega, fun _ => by omega⟩
    rw [show (h / 2 ^ 15 * 2 ^ 31 + c) % 2 ^ 31 = c by omega, hc2, show h % 2 ^ 15 = h % 2 ^ 10 by omega,
      val_small f16 _ (by show h % 2 ^ 10 ≤ 2 ^ 10; omega)]
  · rw [if_neg h0]
    have hor : ∀ be, be < 256 → (h / 2 ^ 15) <<< 31 ||| be <<< 23 ||| (h % 2 ^ 10) <<< (23 - 10) =
        h / 2 ^ 15 * 2 ^ 31 + (be * 2 ^ 23 + h % 2 ^ 10 * 2 ^ 13) := by
      intro be hbe
      rw [Nat.shiftLeft_eq, Nat.shiftLeft_eq, Nat.shiftLeft_eq, Nat.mul_comm (h / 2 ^ 15),
        ← Nat.two_pow_add_eq_or_of_lt (by omega : be * 2 ^ 23 < 2 ^ 31),
        show 2 ^ 31 * (h / 2 ^ 15) + be * 2 ^ 23 = 2 ^ 23 * (2 ^ 8 * (h / 2 ^ 15) + be) by ring,
        ← Nat.two_pow_add_eq_or_of_lt (by omega)]
      omega
    by_cases h31 : h / 2 ^ 10 % 32 = 31
    · rw [if_pos h31, hor _ (by decide)]
      exact ⟨by omega, by omega, fun _ => by omega, fun _ => by omega, fun _ => by omega⟩
    · rw [if_neg h31, hor _ (by omega)]
      refine ⟨by omega, by omega, fun _ => ⟨by omega, ?_⟩, fun _ => by omega, fun _ => by omega⟩
      rw [show (h / 2 ^ 15 * 2 ^ 31 + ((h / 2 ^ 10 % 32 + (127 - 15)) * 2 ^ 23 + h % 2 ^ 10 * 2 ^ 13)) % 2 ^ 31 =
        (h / 2 ^ 10 % 32 + 112) * 2 ^ 23 + h % 2 ^ 10 * 2 ^ 13 by omega]
      have v1 := val_mul_add f32 (h / 2 ^ 10 % 32 + 112) (h % 2 ^ 10 * 2 ^ 13) (by omega) (by show _ ≤ 2 ^ 23; omega)
      have v2 := val_mul_add f16 (h / 2 ^ 10 % 32) (h % 2 ^ 10) (by omega) (by show _ ≤ 2 ^ 10; omega)
      rw [show (h / 2 ^ 10 % 32) * 2 ^ f16.p + h % 2 ^ 10 = h % 2 ^ 15 by show _ * 2 ^ 10 + _ = _; omega] at v2
      rw [show 2 ^ f32.p = 2 ^ 23 from rfl] at v1
      rw [v1, v2, show 2 ^ f16.p = 2 ^ 10 from rfl]
      have : h / 2 ^ 10 % 32 + 112 - 1 = (h / 2 ^ 10 % 32 - 1) + 112 := by omega
      rw [this, Nat.pow_add]
      ring

/-- **C09, round trip.** Converting a non-NaN float16 to float32 and back is the identity. -/
theorem C09_roundTrip (h : Nat) (hh : h < 2 ^ 16) (hn : h % 2 ^ 15 ≤ f16.inf) : f16FromF32 (f32FromF16 h) = h := by
  have hI : f32.inf = 255 * 2 ^ 23 := by decide
  obtain ⟨a1, a2, a3, a4, _⟩ := C09_f32FromF16 h hh
  obtain ⟨b1, b2, _, b4, _⟩ := C09_f16FromF32 _ a1
  have hm : f16FromF32 (f32FromF16 h) % 2 ^ 15 = h % 2 ^ 15 := by
    rcases Nat.lt_or_ge (h % 2 ^ 15) f16.inf with h1 | h1
    · obtain ⟨c1, c2⟩ := a3 h1
      have hl := f16Code_local (f32FromF16 h % 2 ^ 31 / 2 ^ 23) (f32FromF16 h % 2 ^ 23) (by omega) (by omega)
      rw [show f32FromF16 h % 2 ^ 31 / 2 ^ 23 * 2 ^ 23 + f32FromF16 h % 2 ^ 23 = f32FromF16 h % 2 ^ 31 by omega, c2] at hl
      have := hl.unique (Local.exact f16 125 (h % 2 ^ 15) hn)
      have hlt := f16Code_lt (f32FromF16 h % 2 ^ 31 / 2 ^ 23) (f32FromF16 h % 2 ^ 23) (by omega) (by omega)
      rw [f16FromF32_split _ a1]
      omega
    · have : h % 2 ^ 15 = f16.inf := by omega
      rw [b4 (a4 this), this]
  omega

/-! ### bfloat16 -/

/-- Dropping low mantissa bits: values of codes of the narrower format. -/
theorem val_narrow (F G : Fmt) (d : Nat) (hd : F.p = G.p + d) (c i : Nat) (hi : i ≤ 2 ^ d) :
    F.val (c * 2 ^ d + i) = G.val c * 2 ^ d + i * G.ulp c := by
  have hdp := Nat.two_pow_pos d
  have hc := Nat.div_add_mod c (2 ^ G.p)
  have hm := Nat.mod_lt c (Nat.two_pow_pos G.p)
  generalize c / 2 ^ G.p = k at *
  generalize c % 2 ^ G.p = j at *
  rw [Nat.mul_comm] at hc
  subst hc
  have hj : j * 2 ^ d + i ≤ 2 ^ F.p := by
    have : (j + 1) * 2 ^ d ≤ 2 ^ G.p * 2 ^ d := Nat.mul_le_mul_right _ hm
    rw [hd, Nat.pow_add]
    rw [Nat.add_mul, Nat.one_mul] at this
    omega
  have e : (k * 2 ^ G.p + j) * 2 ^ d + i = k * 2 ^ F.p + (j * 2 ^ d + i) := by
    rw [hd, Nat.pow_add]; ring
  rw [e, ulp_eq G k j hm]
  rcases Nat.eq_zero_or_pos k with h0 | h0
  · subst h0
    simp only [Nat.zero_mul, Nat.zero_add, Nat.zero_sub, Nat.pow_zero, Nat.mul_one]
    rw [val_small F _ hj, val_small G _ (Nat.le_of_lt hm)]
  · rw [val_mul_add F k _ h0 hj, val_mul_add G k _ h0 (Nat.le_of_lt hm), hd, Nat.pow_add]; ring

theorem local_narrow (F G : Fmt) (d : Nat) (hd1 : 1 ≤ d) (hd : F.p = G.p + d) (x : Nat) :
    LocalU G d (F.val x) (rne x d) := by
  obtain ⟨r1, r2, r3, r4⟩ := rne_spec x d hd1
  have e : 2 ^ d = 2 * 2 ^ (d - 1) := by
    obtain ⟨q, rfl⟩ : ∃ q, d = q + 1 := ⟨d - 1, by omega⟩
    rw [Nat.add_sub_cancel, Nat.pow_succ]; ring
  have hh := Nat.two_pow_pos (d - 1)
  generalize rne x d = q at *
  have mid : ∀ c, 2 * F.val (c * 2 ^ d + 2 ^ (d - 1)) = (G.val c + G.val (c + 1)) * 2 ^ d := by
    intro c
    rw [val_narrow F G d hd c _ (by omega), val_succ, Nat.mul_add]
    have : 2 * (2 ^ (d - 1) * G.ulp c) = 2 ^ d * G.ulp c := by rw [e]; ring
    rw [this]; ring
  have q1 : (2 * q + 1) * 2 ^ d = 2 * (q * 2 ^ d + 2 ^ (d - 1)) := by rw [e]; ring
  rw [q1] at r1 r2
  have inj : ∀ a b, F.val a = F.val b → a = b := by
    intro a b h
    rcases Nat.lt_trichotomy a b with h1 | h1 | h1
    · have := val_strict F h1; omega
    · exact h1
    · have := val_strict F h1; omega
  have hq : 0 < q → 2 * q * 2 ^ d = 2 * ((q - 1) * 2 ^ d + 2 ^ (d - 1)) + 2 ^ d := by
    intro h0
    obtain ⟨z, rfl⟩ : ∃ z, q = z + 1 := ⟨q - 1, by omega⟩
    rw [Nat.add_sub_cancel, e]; ring
  refine ⟨?_, fun h => ?_, fun h0 => ?_, fun h0 h => ?_⟩
  · rw [← mid]
    have := val_mono F (show x ≤ q * 2 ^ d + 2 ^ (d - 1) by omega)
    omega
  · rw [← mid] at h
    have := inj x (q * 2 ^ d + 2 ^ (d - 1)) (by omega)
    exact r2 (by omega)
  · have m := mid (q - 1)
    rw [Nat.sub_add_cancel h0] at m
    rw [← m]
    have hq := hq h0
    have := val_mono F (show (q - 1) * 2 ^ d + 2 ^ (d - 1) ≤ x by omega)
    omega
  · have m := mid (q - 1)
    rw [Nat.sub_add_cancel h0] at m
    rw [← m] at h
    have hq := hq h0
    have := inj ((q - 1) * 2 ^ d + 2 ^ (d - 1)) x (by omega)
    exact r4 (by omega)

theorem bf16FromF32_fin (b : Nat) (hb : b < 2 ^ 32) (hf : b % 2 ^ 31 < f32.inf) :
    bf16FromF32 b = b / 2 ^ 31 * 2 ^ 15 + rne (b % 2 ^ 31) 16 ∧ rne (b % 2 ^ 31) 16 ≤ bf16.inf := by
  have hI : f32.inf = 255 * 2 ^ 23 := by decide
  have hIb : bf16.inf = 255 * 2 ^ 7 := by decide
  have b1 : b &&& 0x7FFFFFFF = b % 2 ^ 31 := by
    rw [show (0x7FFFFFFF : Nat) = 2 ^ 31 - 1 by decide, Nat.and_two_pow_sub_one_eq_mod]
  unfold bf16FromF32 bf16RoundIncr
  rw [b1, if_pos (by omega), if_neg (by omega), Nat.and_one_is_mod, Nat.shiftRight_eq_div_pow,
    Nat.shiftRight_eq_div_pow, show (0 <<< 6 : Nat) = 0 by decide, Nat.or_zero]
  unfold rne
  rw [if_neg (by decide)]
  have h1 : b / 2 ^ 16 % 2 = b % 2 ^ 31 / 2 ^ 16 % 2 := by omega
  rw [h1]
  obtain ⟨a, ha⟩ : ∃ a, a = b % 2 ^ 31 := ⟨_, rfl⟩
  rw [← ha] at hf ⊢
  have h2 : a / 2 ^ 16 % 2 < 2 := Nat.mod_lt _ (by decide)
  generalize a / 2 ^ 16 % 2 = o at *
  rw [show (16 - 1 : Nat) = 15 from rfl]
  rcases (show b / 2 ^ 31 = 0 ∨ b / 2 ^ 31 = 1 by omega) with h3 | h3
  · constructor <;> omega
  · constructor <;> omega

/-- **C10, float32 to bfloat16.** For every 32-bit pattern: sign kept; a finite value becomes the nearest
bfloat16 (`2^-149 = 2^-16 * 2^-133`), ties to even, overflow to infinity; infinity stays infinity; NaN becomes a
(quiet) NaN, never infinity. -/
theorem C10_bf16FromF32 (b : Nat) (hb : b < 2 ^ 32) :
    bf16FromF32 b < 2 ^ 16 ∧ bf16FromF32 b / 2 ^ 15 = b / 2 ^ 31 ∧
    (b % 2 ^ 31 < f32.inf → IsNearestEven bf16 16 (f32.val (b % 2 ^ 31)) (bf16FromF32 b % 2 ^ 15)) ∧
    (b % 2 ^ 31 = f32.inf → bf16FromF32 b % 2 ^ 15 = bf16.inf) ∧
    (b % 2 ^ 31 > f32.inf → bf16FromF32 b % 2 ^ 15 ≥ bf16.inf + 2 ^ 6) := by
  have hI : f32.inf = 255 * 2 ^ 23 := by decide
  have hIb : bf16.inf = 255 * 2 ^ 7 := by decide
  have b1 : b &&& 0x7FFFFFFF = b % 2 ^ 31 := by
    rw [show (0x7FFFFFFF : Nat) = 2 ^ 31 - 1 by decide, Nat.and_two_pow_sub_one_eq_mod]
  rcases Nat.lt_trichotomy (b % 2 ^ 31) f32.inf with h | h | h
  · obtain ⟨e1, e2⟩ := bf16FromF32_fin b hb h
    rw [e1]
    refine ⟨by omega, by omega, fun _ => ?_, fun _ => by omega, fun _ => by omega⟩
    rw [show (b / 2 ^ 31 * 2 ^ 15 + rne (b % 2 ^ 31) 16) % 2 ^ 15 = rne (b % 2 ^ 31) 16 by omega]
    have := (local_narrow f32 bf16 16 (by decide) rfl (b % 2 ^ 31)).clamp (by decide)
    rw [Nat.min_eq_left e2] at this
    exact this.nearest (by decide) (by decide)
  · have e : bf16FromF32 b = b / 2 ^ 16 := by
      unfold bf16FromF32 bf16RoundIncr
      rw [b1, if_neg (by omega), if_neg (by omega), Nat.shiftRight_eq_div_pow, show (0 <<< 6 : Nat) = 0 by decide,
        Nat.or_zero]
      omega
    rw [e]
    exact ⟨by omega, by omega, fun _ => by omega, fun _ => by omega, fun _ => by omega⟩
  · have e : bf16FromF32 b = b / 2 ^ 16 ||| 2 ^ 6 := by
      unfold bf16FromF32 bf16RoundIncr
      rw [b1, if_neg (by omega), if_pos (by omega), Nat.shiftRight_eq_div_pow, show (1 <<< 6 : Nat) = 2 ^ 6 by decide]
      have hlt : (b + 0) % 2 ^ 32 / 2 ^ 16 ||| 2 ^ 6 < 2 ^ 16 := Nat.or_lt_two_pow (by omega) (by decide)
      rw [Nat.mod_eq_of_lt hlt]
      congr 1; omega
    have hd : b / 2 ^ 16 ||| 2 ^ 6 = b / 2 ^ 23 * 2 ^ 7 + (b / 2 ^ 16 % 2 ^ 7 ||| 2 ^ 6) := by
      have h1 : b / 2 ^ 16 = 2 ^ 7 * (b / 2 ^ 23) ||| b / 2 ^ 16 % 2 ^ 7 := by
        rw [← Nat.two_pow_add_eq_or_of_lt (by omega)]; omega
      conv => lhs; rw [h1]
      rw [Nat.or_assoc, ← Nat.two_pow_add_eq_or_of_lt (Nat.or_lt_two_pow (by omega) (by decide))]
      rw [Nat.mul_comm]
    have h6 : b / 2 ^ 16 % 2 ^ 7 ||| 2 ^ 6 ≥ 2 ^ 6 := Nat.right_le_or
    have h7 : b / 2 ^ 16 % 2 ^ 7 ||| 2 ^ 6 < 2 ^ 7 := Nat.or_lt_two_pow (by omega) (by decide)
    rw [e, hd]
    exact ⟨by omega, by omega, fun _ => by omega, fun _ => by omega, fun _ => by omega⟩

/-- **C10, bfloat16 to float32** is exact, on every 16-bit pattern. -/
theorem C10_f32FromBF16 (h : Nat) (hh : h < 2 ^ 16) :
    f32FromBF16 h < 2 ^ 32 ∧ f32FromBF16 h / 2 ^ 31 = h / 2 ^ 15 ∧
    (h % 2 ^ 15 < bf16.inf → f32FromBF16 h % 2 ^ 31 < f32.inf ∧
      f32.val (f32FromBF16 h % 2 ^ 31) = bf16.val (h % 2 ^ 15) * 2 ^ 16) ∧
    (h % 2 ^ 15 = bf16.inf → f32FromBF16 h % 2 ^ 31 = f32.inf) ∧
    (h % 2 ^ 15 > bf16.inf → f32FromBF16 h % 2 ^ 31 > f32.inf) := by
  have hI : f32.inf = 255 * 2 ^ 23 := by decide
  have hIb : bf16.inf = 255 * 2 ^ 7 := by decide
  have e : f32FromBF16 h = h * 2 ^ 16 := Nat.shiftLeft_eq _ _
  rw [e]
  refine ⟨by omega, by omega, fun _ => ⟨by omega, ?_⟩, fun _ => by omega, fun _ => by omega⟩
  rw [show h * 2 ^ 16 % 2 ^ 31 = h % 2 ^ 15 * 2 ^ 16 + 0 by omega, val_narrow f32 bf16 16 rfl _ _ (by decide)]
  omega

/-- **C10, round trip** is the identity on non-NaN bfloat16. -/
theorem C10_roundTrip (h : Nat) (hh : h < 2 ^ 16) (hn : h % 2 ^ 15 ≤ bf16.inf) : bf16FromF32 (f32FromBF16 h) = h := by
  have hI : f32.inf = 255 * 2 ^ 23 := by decide
  have hIb : bf16.inf = 255 * 2 ^ 7 := by decide
  have e : f32FromBF16 h = h * 2 ^ 16 := Nat.shiftLeft_eq _ _
  rw [e]
  rcases Nat.lt_or_ge (h % 2 ^ 15) bf16.inf with h1 | h1
  · rw [(bf16FromF32_fin (h * 2 ^ 16) (by omega) (by omega)).1]
    unfold rne
    rw [if_neg (by decide)]
    omega
  · have b := C10_bf16FromF32 (h * 2 ^ 16) (by omega)
    have := b.2.2.2.1 (by omega)
    omega

/-- Non-vacuity: 1 + 2^-11 (a tie) rounds to even in float16; 65520 overflows; 2^-24 is the smallest subnormal;
2^-25 is a tie with zero. -/
example : f16FromF32 0x3F801000 = 0x3C00 ∧ f16FromF32 0x3F803000 = 0x3C02 ∧ f16FromF32 0x477FF000 = 0x7C00 ∧
    f16FromF32 0x477FEFFF = 0x7BFF ∧ f16FromF32 0x33800000 = 1 ∧ f16FromF32 0x33000000 = 0 ∧
    f16FromF32 0x33000001 = 1 ∧ f16FromF32 0xFFC00000 = 0xFFFF := by decide +kernel

end Flt
end Hwy
