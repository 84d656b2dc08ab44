import Verif.Float16Spec
import Mathlib.Data.Nat.Bitwise

/-! # C42: `F16FromF64`, `BF16FromF64` round the double correctly

The code first rounds the double to odd (so that the later conversions cannot round twice), converts to
`float`, then to the 16-bit type. -/

namespace Hwy
namespace Flt

/-- Effect of the round-to-odd step on the magnitude. -/
def oddMag (d mag : Nat) : Nat := if mag % 2 ^ d = 0 then mag else 2 ^ d * (2 * (mag / 2 ^ (d + 1)) + 1)

theorem and_highMask (b n k : Nat) (hb : b < 2 ^ (n + k)) : b &&& ((2 ^ n - 1) <<< k) = b / 2 ^ k * 2 ^ k := by
  rw [← Nat.shiftRight_eq_div_pow, ← Nat.shiftLeft_eq]
  apply Nat.eq_of_testBit_eq
  intro i
  rw [Nat.testBit_and, Nat.testBit_shiftLeft, Nat.testBit_shiftLeft, Nat.testBit_shiftRight,
    Nat.testBit_two_pow_sub_one]
  by_cases h1 : i ≥ k
  · simp only [h1, decide_true, Bool.true_and]
    rw [show k + (i - k) = i by omega]
    by_cases h2 : i - k < n
    · simp [h2]
    · rw [Nat.testBit_lt_two_pow (Nat.lt_of_lt_of_le hb (Nat.pow_le_pow_right (by decide) (by omega)))]
      simp
  · simp [h1]

theorem roundOdd_gen (d b : Nat) (hd : d ≤ 62) (hb : b < 2 ^ 64) :
    (b &&& ((2 ^ (64 - d) - 1) <<< d)) ||| ((b + (2 ^ d - 1)) % 2 ^ 64 &&& 2 ^ d) =
      b / 2 ^ 63 * 2 ^ 63 + oddMag d (b % 2 ^ 63) := by
  have hD := Nat.two_pow_pos d
  have e63 : (2 : Nat) ^ 63 = 2 ^ d * 2 ^ (63 - d) := by rw [← Nat.pow_add]; congr 1; omega
  have e63' : (2 : Nat) ^ 63 = 2 ^ (d + 1) * 2 ^ (62 - d) := by rw [← Nat.pow_add]; congr 1; omega
  rw [and_highMask b (64 - d) d (by rw [show 64 - d + d = 64 by omega]; exact hb), Nat.and_two_pow]
  have hbit : ((b + (2 ^ d - 1)) % 2 ^ 64).testBit d = decide ((b + (2 ^ d - 1)) / 2 ^ d % 2 = 1) := by
    rw [Nat.testBit_mod_two_pow, Nat.testBit_eq_decide_div_mod_eq]
    simp; omega
  rw [hbit]
  have hq := Nat.div_add_mod b (2 ^ d)
  have hr := Nat.mod_lt b hD
  have hmm : b % 2 ^ 63 % 2 ^ d = b % 2 ^ d := by
    rw [e63, Nat.mod_mul_right_mod]
  have hs : b / 2 ^ 63 * 2 ^ 63 + b % 2 ^ 63 = b := by rw [Nat.mul_comm]; exact Nat.div_add_mod _ _
  have hdd : b / 2 ^ (d + 1) = b / 2 ^ d / 2 := by rw [Nat.pow_succ, Nat.div_div_eq_div_mul]
  unfold oddMag
  rw [hmm]
  have or_bit : ∀ q z : Nat, z < 2 → q * 2 ^ d ||| z * 2 ^ d = (2 * (q / 2) + (if q % 2 = 1 ∨ z = 1 then 1 else 0)) * 2 ^ d := by
    intro q z hz
    rw [← Nat.shiftLeft_eq, ← Nat.shiftLeft_eq, ← Nat.shiftLeft_or_distrib, Nat.shiftLeft_eq]
    congr 1
    have h1 : q = 2 ^ 1 * (q / 2) ||| q % 2 := by
      rw [← Nat.two_pow_add_eq_or_of_lt (by omega)]; omega
    have hz01 : z = 0 ∨ z = 1 := by omega
    have hq01 : q % 2 = 0 ∨ q % 2 = 1 := by omega
    conv => lhs; rw [h1]
    rw [Nat.or_assoc]
    rcases hz01 with rfl | rfl <;> rcases hq01 with h | h <;> rw [h]
    · simp
    · rw [show (1 ||| 0 : Nat) = 1 from rfl, ← Nat.two_pow_add_eq_or_of_lt (by decide)]; simp
    · rw [show (0 ||| 1 : Nat) = 1 from rfl, ← Nat.two_pow_add_eq_or_of_lt (by decide)]; simp
    · rw [show (1 ||| 1 : Nat) = 1 from rfl, ← Nat.two_pow_add_eq_or_of_lt (by decide)]; simp
  by_cases hlow : b % 2 ^ d = 0
  · rw [if_pos hlow]
    have hz : (b + (2 ^ d - 1)) / 2 ^ d = b / 2 ^ d := by
      conv => lhs; rw [← hq, hlow]
      rw [Nat.add_zero, Nat.mul_add_div hD, Nat.div_eq_of_lt (a := 2 ^ d - 1) (by omega), Nat.add_zero]
    rw [hz, or_bit _ _ (by cases decide (b / 2 ^ d % 2 = 1) <;> decide), hs]
    have : 2 * (b / 2 ^ d / 2) + (if b / 2 ^ d % 2 = 1 ∨ (decide (b / 2 ^ d % 2 = 1)).toNat = 1 then 1 else 0) = b / 2 ^ d := by
      by_cases h : b / 2 ^ d % 2 = 1
      · rw [if_pos (Or.inl h)]; omega
      · rw [if_neg (by simp [h])]; omega
    rw [this, Nat.mul_comm]
    omega
  · rw [if_neg hlow]
    have hz : (b + (2 ^ d - 1)) / 2 ^ d = b / 2 ^ d + 1 := by
      conv => lhs; rw [← hq]
      rw [show 2 ^ d * (b / 2 ^ d) + b % 2 ^ d + (2 ^ d - 1) = 2 ^ d * (b / 2 ^ d) + (b % 2 ^ d + (2 ^ d - 1)) by omega,
        Nat.mul_add_div hD]
      congr 1
      rw [Nat.div_eq_iff hD]; omega
    rw [hz, or_bit _ _ (by cases decide ((b / 2 ^ d + 1) % 2 = 1) <;> decide)]
    have : (if b / 2 ^ d % 2 = 1 ∨ (decide ((b / 2 ^ d + 1) % 2 = 1)).toNat = 1 then 1 else 0) = 1 := by
      by_cases h : b / 2 ^ d % 2 = 1
      · rw [if_pos (Or.inl h)]
      · rw [if_pos (Or.inr (by rw [decide_eq_true (by omega)]; rfl))]
    rw [this]
    have e1 : b / 2 ^ (d + 1) = b / 2 ^ 63 * 2 ^ (62 - d) + b % 2 ^ 63 / 2 ^ (d + 1) := by
      conv => lhs; rw [← hs, e63']
      rw [show b / (2 ^ (d + 1) * 2 ^ (62 - d)) * (2 ^ (d + 1) * 2 ^ (62 - d)) =
        2 ^ (d + 1) * (b / (2 ^ (d + 1) * 2 ^ (62 - d)) * 2 ^ (62 - d)) by ring, Nat.mul_add_div (Nat.two_pow_pos _),
        ← e63']
    rw [← hdd, e1]
    have e2 : 2 * (b / 2 ^ 63 * 2 ^ (62 - d)) * 2 ^ d = b / 2 ^ 63 * 2 ^ 63 := by
      rw [e63', Nat.pow_succ]; ring
    rw [show (2 * (b / 2 ^ 63 * 2 ^ (62 - d) + b % 2 ^ 63 / 2 ^ (d + 1)) + 1) * 2 ^ d =
      2 * (b / 2 ^ 63 * 2 ^ (62 - d)) * 2 ^ d + 2 ^ d * (2 * (b % 2 ^ 63 / 2 ^ (d + 1)) + 1) by ring, e2]

theorem low15 (q c : Nat) (h : c < 2 ^ 15) : (q * 2 ^ 15 + c) % 2 ^ 15 = c := by omega

theorem roundOdd29_eq (b : Nat) (hb : b < 2 ^ 64) : roundOdd29 b = b / 2 ^ 63 * 2 ^ 63 + oddMag 29 (b % 2 ^ 63) := by
  rw [← roundOdd_gen 29 b (by decide) hb]
  rfl

theorem roundOdd38_eq (b : Nat) (hb : b < 2 ^ 64) : roundOdd38 b = b / 2 ^ 63 * 2 ^ 63 + oddMag 38 (b % 2 ^ 63) := by
  rw [← roundOdd_gen 38 b (by decide) hb]
  rfl

/-- Round-to-odd keeps the order relation with every multiple of twice its granularity. -/
theorem oddMag_cmp (d S j : Nat) : (S < j * 2 ^ (d + 1) ↔ oddMag d S < j * 2 ^ (d + 1)) ∧
    (S = j * 2 ^ (d + 1) ↔ oddMag d S = j * 2 ^ (d + 1)) := by
  unfold oddMag
  by_cases h : S % 2 ^ d = 0
  · rw [if_pos h]; exact ⟨Iff.rfl, Iff.rfl⟩
  · rw [if_neg h]
    have hD := Nat.two_pow_pos d
    have e : 2 ^ (d + 1) = 2 * 2 ^ d := by rw [Nat.pow_succ, Nat.mul_comm]
    have hq := Nat.div_add_mod S (2 ^ (d + 1))
    have hr := Nat.mod_lt S (Nat.two_pow_pos (d + 1))
    have hr0 : S % 2 ^ (d + 1) ≠ 0 := by
      intro h0
      apply h
      have : S % 2 ^ (d + 1) % 2 ^ d = S % 2 ^ d := by rw [Nat.pow_succ, Nat.mod_mul_right_mod]
      rw [← this, h0, Nat.zero_mod]
    generalize S / 2 ^ (d + 1) = q at *
    generalize S % 2 ^ (d + 1) = r at *
    have e2 : 2 ^ d * (2 * q + 1) = 2 ^ (d + 1) * q + 2 ^ d := by rw [e]; ring
    rw [e2]
    have e3 : j * 2 ^ (d + 1) = 2 ^ (d + 1) * j := Nat.mul_comm _ _
    rw [e3]
    generalize hW : 2 ^ (d + 1) = W at *
    rcases Nat.lt_trichotomy q j with h1 | h1 | h1
    · have := Nat.mul_le_mul_left W (show q + 1 ≤ j from h1)
      rw [Nat.mul_add, Nat.mul_one] at this
      omega
    · subst h1; omega
    · have := Nat.mul_le_mul_left W (Nat.le_of_lt h1)
      omega

theorem oddMag_add (d S j : Nat) : oddMag d (j * 2 ^ (d + 1) + S) = j * 2 ^ (d + 1) + oddMag d S := by
  have hD := Nat.two_pow_pos (d + 1)
  unfold oddMag
  have h1 : (j * 2 ^ (d + 1) + S) % 2 ^ d = S % 2 ^ d := by
    rw [show j * 2 ^ (d + 1) = 2 ^ d * (2 * j) by rw [Nat.pow_succ]; ring, Nat.mul_add_mod]
  have h2 : (j * 2 ^ (d + 1) + S) / 2 ^ (d + 1) = j + S / 2 ^ (d + 1) := by
    rw [Nat.mul_comm, Nat.mul_add_div hD]
  rw [h1, h2]
  split
  · rfl
  · rw [Nat.pow_succ]; ring

theorem oddMag_dvd (d S : Nat) : 2 ^ d ∣ oddMag d S := by
  unfold oddMag
  split
  · exact Nat.dvd_of_mod_eq_zero (by assumption)
  · exact Nat.dvd_mul_right _ _

theorem oddMag_lt (d S n : Nat) (hn : d + 1 ≤ n) (h : S < 2 ^ n) : oddMag d S < 2 ^ n := by
  have e : 2 ^ n = 2 ^ (n - (d + 1)) * 2 ^ (d + 1) := by rw [← Nat.pow_add]; congr 1; omega
  rw [e] at h ⊢
  exact ((oddMag_cmp d S _).1).mp h

/-- Order relations with the midpoints determine the nearest code. -/
theorem Local.transfer {F : Fmt} {s x y c : Nat}
    (h : ∀ c, (2 * x < (F.val c + F.val (c + 1)) * 2 ^ s ↔ 2 * y < (F.val c + F.val (c + 1)) * 2 ^ s) ∧
      (2 * x = (F.val c + F.val (c + 1)) * 2 ^ s ↔ 2 * y = (F.val c + F.val (c + 1)) * 2 ^ s))
    (hy : Local F s y c) : Local F s x c := by
  have h1 := h c
  refine ⟨hy.le, fun hc => ?_, fun hc he => ?_, fun h0 => ?_, fun h0 he => ?_⟩
  · have := hy.up hc; omega
  · exact hy.upTie hc (by omega)
  · have h2 := h (c - 1)
    rw [Nat.sub_add_cancel h0] at h2
    have := hy.lo h0; omega
  · have h2 := h (c - 1)
    rw [Nat.sub_add_cancel h0] at h2
    exact hy.loTie h0 (by omega)

theorem Local.scale {F : Fmt} {s v c : Nat} (j : Nat) (h : Local F s v c) : Local F (s + j) (v * 2 ^ j) c := by
  have hJ := Nat.two_pow_pos j
  have e : ∀ a : Nat, a * 2 ^ (s + j) = a * 2 ^ s * 2 ^ j := fun a => by rw [Nat.pow_add, Nat.mul_assoc]
  have e2 : 2 * (v * 2 ^ j) = 2 * v * 2 ^ j := by ring
  refine ⟨h.le, fun hc => ?_, fun hc he => ?_, fun h0 => ?_, fun h0 he => ?_⟩
  · rw [e, e2]; exact Nat.mul_le_mul_right _ (h.up hc)
  · rw [e, e2] at he; exact h.upTie hc (Nat.eq_of_mul_eq_mul_right hJ he)
  · rw [e, e2]; exact Nat.mul_le_mul_right _ (h.lo h0)
  · rw [e, e2] at he; exact h.loTie h0 (Nat.eq_of_mul_eq_mul_right hJ he)

theorem val_sig (F : Fmt) (c : Nat) : ∃ g, F.val c = g * F.ulp c ∧ g < 2 ^ (F.p + 1) := by
  have hm := Nat.mod_lt c (Nat.two_pow_pos F.p)
  unfold Fmt.val Fmt.ulp
  rw [Nat.pow_succ]
  by_cases h : c / 2 ^ F.p = 0
  · rw [if_pos h, h]
    exact ⟨c % 2 ^ F.p, by simp, by omega⟩
  · rw [if_neg h]
    exact ⟨_, rfl, by omega⟩

/-- The round-to-odd double compares with every midpoint of the narrow format as the original does. -/
theorem odd_midpoints (G : Fmt) (d s mag : Nat) (hs : 54 ≤ s) (hd : G.p + d ≤ 50) (c : Nat) :
    (2 * f64.val mag < (G.val c + G.val (c + 1)) * 2 ^ s ↔
      2 * f64.val (oddMag d mag) < (G.val c + G.val (c + 1)) * 2 ^ s) ∧
    (2 * f64.val mag = (G.val c + G.val (c + 1)) * 2 ^ s ↔
      2 * f64.val (oddMag d mag) = (G.val c + G.val (c + 1)) * 2 ^ s) := by
  obtain ⟨g, hg1, hg2⟩ := val_sig G c
  -- the midpoint is n * 2^a
  have hW : (G.val c + G.val (c + 1)) * 2 ^ s = 2 * ((2 * g + 1) * 2 ^ (c / 2 ^ G.p - 1 + (s - 1))) := by
    rw [val_succ, hg1]
    obtain ⟨s', rfl⟩ : ∃ s', s = s' + 1 := ⟨s - 1, by omega⟩
    rw [Nat.add_sub_cancel, Nat.pow_add, Nat.pow_succ]
    unfold Fmt.ulp
    ring
  have hn : 2 * g + 1 < 2 ^ (G.p + 2) := by
    rw [Nat.pow_succ]; omega
  rw [hW]
  generalize hD : (2 * g + 1) * 2 ^ (c / 2 ^ G.p - 1 + (s - 1)) = D
  generalize ha : c / 2 ^ G.p - 1 + (s - 1) = a at *
  have ha53 : 53 ≤ a := by omega
  have hDlt : D < 2 ^ (G.p + 2 + a) := by
    rw [← hD, Nat.pow_add]; exact Nat.mul_lt_mul_of_pos_right hn (Nat.two_pow_pos _)
  have hDge : 2 ^ a ≤ D := by
    rw [← hD]; exact Nat.le_mul_of_pos_left _ (by omega)
  -- decompose the double
  have hmag := Nat.div_add_mod mag (2 ^ 52)
  have hm := Nat.mod_lt mag (Nat.two_pow_pos 52)
  generalize mag / 2 ^ 52 = E at *
  generalize mag % 2 ^ 52 = m at *
  have e52 : ∀ j, j * 2 ^ 52 = j * 2 ^ (51 - d) * 2 ^ (d + 1) := by
    intro j; rw [Nat.mul_assoc, ← Nat.pow_add]; congr 2; omega
  have hodd : oddMag d mag = E * 2 ^ 52 + oddMag d m := by
    rw [← hmag, Nat.mul_comm, e52, oddMag_add, ← e52]
  have hm' : oddMag d m < 2 ^ 52 := oddMag_lt d m 52 (by omega) hm
  rw [hodd, ← hmag, Nat.mul_comm (2 ^ 52) E]
  rcases Nat.eq_zero_or_pos E with h0 | h0
  · subst h0
    rw [Nat.zero_mul, Nat.zero_add, Nat.zero_add, val_small f64 m (Nat.le_of_lt hm),
      val_small f64 _ (Nat.le_of_lt hm')]
    have : 2 ^ 53 ≤ 2 ^ a := Nat.pow_le_pow_right (by decide) ha53
    omega
  · have v1 : f64.val (E * 2 ^ 52 + m) = (2 ^ 52 + m) * 2 ^ (E - 1) :=
      val_mul_add f64 E m h0 (Nat.le_of_lt hm)
    have v2 : f64.val (E * 2 ^ 52 + oddMag d m) = (2 ^ 52 + oddMag d m) * 2 ^ (E - 1) :=
      val_mul_add f64 E _ h0 (Nat.le_of_lt hm')
    have hS : 2 ^ 52 + oddMag d m = oddMag d (2 ^ 52 + m) := by
      have := oddMag_add d m (1 * 2 ^ (51 - d))
      rw [← e52 1, Nat.one_mul] at this
      exact this.symm
    rw [v1, v2]
    have hu := Nat.two_pow_pos (E - 1)
    have dbl : ∀ A B : Nat, (2 * A < 2 * B ↔ A < B) ∧ (2 * A = 2 * B ↔ A = B) := fun A B => ⟨by omega, by omega⟩
    simp only [(dbl _ _).1, (dbl _ _).2]
    rcases Nat.lt_or_ge (2 ^ 52 * 2 ^ (E - 1)) D with h1 | h1
    · -- D is a multiple of 2^(d+1) * u
      have hlt : 2 ^ (52 + (E - 1)) < 2 ^ (G.p + 2 + a) := by
        rw [Nat.pow_add]; exact Nat.lt_trans h1 hDlt
      have hexp : 52 + (E - 1) < G.p + 2 + a := (Nat.pow_lt_pow_iff_right (by decide)).mp hlt
      have hmul : D = (2 * g + 1) * 2 ^ (a - (E - 1) - (d + 1)) * 2 ^ (d + 1) * 2 ^ (E - 1) := by
        rw [← hD, Nat.mul_assoc, Nat.mul_assoc, ← Nat.pow_add, ← Nat.pow_add]
        congr 2; omega
      have hc := oddMag_cmp d (2 ^ 52 + m) ((2 * g + 1) * 2 ^ (a - (E - 1) - (d + 1)))
      rw [hmul, hS, Nat.mul_lt_mul_right hu, Nat.mul_lt_mul_right hu, Nat.mul_left_inj (Nat.pos_iff_ne_zero.mp hu),
        Nat.mul_left_inj (Nat.pos_iff_ne_zero.mp hu)]
      exact hc
    · have a1 : 2 ^ 52 * 2 ^ (E - 1) ≤ (2 ^ 52 + m) * 2 ^ (E - 1) := Nat.mul_le_mul_right _ (by omega)
      have a2 : 2 ^ 52 * 2 ^ (E - 1) ≤ (2 ^ 52 + oddMag d m) * 2 ^ (E - 1) := Nat.mul_le_mul_right _ (by omega)
      have hz : m = 0 ↔ oddMag d m = 0 := by
        have := (oddMag_cmp d m 0).2
        simpa using this
      have key : ∀ q, ((2 ^ 52 + q) * 2 ^ (E - 1) = D ↔ (q = 0 ∧ 2 ^ 52 * 2 ^ (E - 1) = D)) := by
        intro q
        constructor
        · intro h
          rcases Nat.eq_zero_or_pos q with hq | hq
          · subst hq; exact ⟨rfl, h⟩
          · exfalso
            have : (2 ^ 52) * 2 ^ (E - 1) < (2 ^ 52 + q) * 2 ^ (E - 1) := Nat.mul_lt_mul_of_pos_right (by omega) hu
            omega
        · rintro ⟨rfl, h⟩; exact h
      rw [key, key, hz]
      exact ⟨⟨fun h => by omega, fun h => by omega⟩, Iff.rfl⟩

/-- Double to `float` to 16-bit type after round-to-odd equals direct rounding. -/
theorem double_round (G : Fmt) (hp : 1 ≤ G.p) (he : 1 ≤ G.e) (d s32 mag : Nat) (nar : Nat → Nat)
    (hd29 : 29 ≤ d) (hd : G.p + d ≤ 50) (hs : 53 - d ≤ s32)
    (hnar : ∀ z, z < f32.inf → Local G s32 (f32.val z) (nar z)) (hinf : nar f32.inf = G.inf)
    (hbig : (G.val (G.inf - 1) + G.val G.inf) * 2 ^ (s32 + 925) ≤ 2 ^ 1203)
    (hmag : mag < f64.inf) :
    Local G (s32 + 925) (f64.val mag) (nar (rneEncode f32 925 (f64.val (oddMag d mag)))) := by
  have hI : f32.inf = 255 * 2 ^ 23 := by decide
  have hI64 : f64.inf = 2047 * 2 ^ 52 := by decide
  apply Local.transfer (odd_midpoints G d (s32 + 925) mag (by omega) hd)
  have hdv := oddMag_dvd d mag
  generalize oddMag d mag = y at *
  have hz := rneEncode_local f32 (by decide) (by decide) 925 (f64.val y)
  generalize hzd : rneEncode f32 925 (f64.val y) = z at *
  have hy := Nat.div_add_mod y (2 ^ 52)
  have hm := Nat.mod_lt y (Nat.two_pow_pos 52)
  rw [Nat.mul_comm] at hy
  have hmd : 2 ^ d ∣ y % 2 ^ 52 := by
    rw [Nat.dvd_mod_iff (Nat.pow_dvd_pow 2 (by omega))]; exact hdv
  generalize y / 2 ^ 52 = E at *
  generalize y % 2 ^ 52 = m at *
  have v0 : G.val 0 = 0 := val_small G 0 (Nat.zero_le _)
  have v1 : G.val (0 + 1) = 1 := val_small G 1 (Nat.one_le_two_pow)
  have hzero : ∀ s v, 2 * v < 2 ^ s → Local G s v 0 := by
    intro s v hv
    exact ⟨Nat.zero_le _, fun _ => by rw [v0, v1]; omega, fun _ _ => rfl, fun h => by omega, fun h => by omega⟩
  rcases Nat.lt_or_ge E (926 - d) with h1 | h1
  · -- tiny: the result is zero
    have hyv : f64.val y < 2 ^ (52 - d) * 2 ^ 925 := by
      have : f64.val y < f64.val ((926 - d) * 2 ^ 52 + 0) := val_strict f64 (by omega)
      have e : f64.val ((926 - d) * 2 ^ 52 + 0) = (2 ^ 52 + 0) * 2 ^ (926 - d - 1) :=
        val_mul_add f64 (926 - d) 0 (by omega) (Nat.zero_le _)
      rw [e, Nat.add_zero, ← Nat.pow_add, show 52 + (926 - d - 1) = 52 - d + 925 by omega] at this
      rw [← Nat.pow_add]; exact this
    have hp23 : 2 ^ (52 - d) ≤ 2 ^ 23 := Nat.pow_le_pow_right (by decide) (by omega)
    have hex := Local.exact f32 925 (2 ^ (52 - d)) (by omega)
    rw [val_small f32 _ hp23] at hex
    have hzle := hz.mono hex (Nat.le_of_lt hyv)
    have hzv := val_mono f32 hzle
    rw [val_small f32 _ hp23] at hzv
    have hps : 2 ^ (53 - d) ≤ 2 ^ s32 := Nat.pow_le_pow_right (by decide) hs
    have e53 : 2 ^ (53 - d) = 2 * 2 ^ (52 - d) := by
      rw [show 53 - d = (52 - d) + 1 by omega, Nat.pow_succ, Nat.mul_comm]
    -- z may equal 2^(52-d) only when the midpoint is not reached
    have hloc := hnar z (by omega)
    have hr : nar z = 0 := by
      rcases Nat.lt_or_ge (2 * f32.val z) (2 ^ s32) with h2 | h2
      · exact hloc.unique (hzero s32 _ h2)
      · have ht : Local G s32 (f32.val z) 0 :=
          ⟨Nat.zero_le _, fun _ => by rw [v0, v1]; omega, fun _ _ => rfl, fun h => by omega, fun h => by omega⟩
        exact hloc.unique ht
    rw [hr]
    apply hzero
    rw [Nat.pow_add]
    have := Nat.mul_le_mul_right (2 ^ 925) hps
    rw [e53] at this
    generalize 2 ^ s32 * 2 ^ 925 = Q at *
    have e3 : 2 * 2 ^ (52 - d) * 2 ^ 925 = 2 * (2 ^ (52 - d) * 2 ^ 925) := Nat.mul_assoc _ _ _
    generalize 2 ^ (52 - d) * 2 ^ 925 = R at *
    omega
  · have vy : f64.val y = (2 ^ 52 + m) * 2 ^ (E - 1) := by
      rw [← hy]; exact val_mul_add f64 E m (by omega) (Nat.le_of_lt hm)
    rcases Nat.lt_or_ge 1150 E with h2 | h2
    · -- overflow
      have hge : f32.val f32.inf * 2 ^ 925 ≤ f64.val y := by
        have e : f32.val f32.inf * 2 ^ 925 = 2 ^ 52 * 2 ^ 1150 := by decide +kernel
        rw [e, vy]
        exact Nat.mul_le_mul (by omega) (Nat.pow_le_pow_right (by decide) (by omega))
      have hzI := (Local.exact f32 925 f32.inf (Nat.le_refl _)).mono hz hge
      have : z = f32.inf := by have := hz.le; omega
      rw [this, hinf]
      have h3 : 2 ^ 1203 < 2 * f64.val y ∨ 2 ^ 1203 = 2 * f64.val y := by
        have e : 2 * (f32.val f32.inf * 2 ^ 925) = 2 ^ 1203 := by decide +kernel
        omega
      exact ⟨Nat.le_refl _, fun h => absurd h (Nat.lt_irrefl _), fun h => absurd h (Nat.lt_irrefl _),
        fun _ => by omega, fun _ _ => inf_even G hp⟩
    · -- exactly representable as float
      obtain ⟨z0, hz0, hv0⟩ : ∃ z0, z0 < f32.inf ∧ f32.val z0 * 2 ^ 925 = f64.val y := by
        rcases Nat.lt_or_ge E 897 with h3 | h3
        · have hdv52 : 2 ^ d ∣ 2 ^ 52 + m := Nat.dvd_add (Nat.pow_dvd_pow 2 (by omega)) hmd
          obtain ⟨w, hw⟩ := hdv52
          have e : w * 2 ^ (d + (E - 1) - 925) * 2 ^ 925 = f64.val y := by
            rw [vy, hw, Nat.mul_assoc, ← Nat.pow_add, show d + (E - 1) - 925 + 925 = d + (E - 1) by omega, Nat.pow_add]
            ring
          have hlt : w * 2 ^ (d + (E - 1) - 925) < 2 ^ 23 := by
            apply Nat.lt_of_mul_lt_mul_right (a := 2 ^ 925)
            rw [e, vy, ← Nat.pow_add]
            have a1 : (2 ^ 52 + m) * 2 ^ (E - 1) < 2 ^ 53 * 2 ^ (E - 1) :=
              Nat.mul_lt_mul_of_pos_right (by omega) (Nat.two_pow_pos _)
            have a2 : 2 ^ 53 * 2 ^ (E - 1) ≤ 2 ^ (23 + 925) := by
              rw [← Nat.pow_add]; exact Nat.pow_le_pow_right (by decide) (by omega)
            omega
          refine ⟨w * 2 ^ (d + (E - 1) - 925), by omega, ?_⟩
          rw [val_small f32 _ (Nat.le_of_lt hlt), e]
        · have hdv29 : 2 ^ 29 ∣ m := Nat.dvd_trans (Nat.pow_dvd_pow 2 hd29) hmd
          obtain ⟨w, hw⟩ := hdv29
          have hwlt : w < 2 ^ 23 := by omega
          refine ⟨(E - 896) * 2 ^ 23 + w, by omega, ?_⟩
          have v := val_mul_add f32 (E - 896) w (by omega) (Nat.le_of_lt hwlt)
          rw [show 2 ^ f32.p = 2 ^ 23 from rfl] at v
          rw [v, vy, hw, Nat.mul_assoc, ← Nat.pow_add, show E - 896 - 1 + 925 = 29 + (E - 1) by omega, Nat.pow_add]
          ring
      have hzz : z = z0 := by
        have := Local.exact f32 925 z0 (Nat.le_of_lt hz0)
        rw [hv0] at this
        exact hz.unique this
      rw [hzz]
      have := (hnar z0 hz0).scale 925
      rwa [hv0] at this

theorem oddMag_fin (d mag : Nat) (hd : d ≤ 51) :
    (mag < f64.inf → oddMag d mag < f64.inf) ∧ (mag = f64.inf → oddMag d mag = f64.inf) ∧
    (mag > f64.inf → oddMag d mag > f64.inf) := by
  have e : f64.inf = 2047 * 2 ^ (51 - d) * 2 ^ (d + 1) := by
    rw [Nat.mul_assoc, ← Nat.pow_add, show 51 - d + (d + 1) = 52 by omega]; decide
  have h := oddMag_cmp d mag (2047 * 2 ^ (51 - d))
  rw [e]
  generalize 2047 * 2 ^ (51 - d) * 2 ^ (d + 1) = I at *
  omega

theorem f32OfF64_spec (b : Nat) (hb : b < 2 ^ 64) :
    f32OfF64 b < 2 ^ 32 ∧ f32OfF64 b / 2 ^ 31 = b / 2 ^ 63 ∧
    (b % 2 ^ 63 < f64.inf → f32OfF64 b % 2 ^ 31 = rneEncode f32 925 (f64.val (b % 2 ^ 63)) ∧
      f32OfF64 b % 2 ^ 31 ≤ f32.inf) ∧
    (b % 2 ^ 63 = f64.inf → f32OfF64 b % 2 ^ 31 = f32.inf) ∧
    (b % 2 ^ 63 > f64.inf → f32OfF64 b % 2 ^ 31 > f32.inf) := by
  have hI : f32.inf = 255 * 2 ^ 23 := by decide
  unfold f32OfF64
  simp only
  rcases Nat.lt_trichotomy (b % 2 ^ 63) f64.inf with h | h | h
  · rw [if_neg (by omega), if_neg (by omega)]
    have hle := (rneEncode_local f32 (by decide) (by decide) 925 (f64.val (b % 2 ^ 63))).le
    generalize rneEncode f32 925 (f64.val (b % 2 ^ 63)) = z at *
    exact ⟨by omega, by omega, fun _ => by omega, fun _ => by omega, fun _ => by omega⟩
  · rw [if_neg (by omega), if_pos h]
    exact ⟨by omega, by omega, fun _ => by omega, fun _ => by omega, fun _ => by omega⟩
  · rw [if_pos h]
    have h1 : f32.inf ||| 0x400000 = 0x7FC00000 := by decide
    rw [h1]
    have h2 : 0x7FC00000 ||| b % 2 ^ 63 % 2 ^ 52 / 2 ^ 29 < 2 ^ 31 := Nat.or_lt_two_pow (by decide) (by omega)
    have h3 : 0x7FC00000 ≤ 0x7FC00000 ||| b % 2 ^ 63 % 2 ^ 52 / 2 ^ 29 := Nat.left_le_or
    generalize 0x7FC00000 ||| b % 2 ^ 63 % 2 ^ 52 / 2 ^ 29 = q at *
    exact ⟨by omega, by omega, fun _ => by omega, fun _ => by omega, fun _ => by omega⟩

/-- **C42, double to float16.** Every 64-bit pattern: sign kept, a finite double becomes the nearest float16
(ties to even, overflow to infinity; `2^-1074 = 2^-1050 * 2^-24`) in spite of the intermediate `float`; infinity
and NaN are kept. -/
theorem C42_f16FromF64 (b : Nat) (hb : b < 2 ^ 64) :
    f16FromF64 b < 2 ^ 16 ∧ f16FromF64 b / 2 ^ 15 = b / 2 ^ 63 ∧
    (b % 2 ^ 63 < f64.inf → IsNearestEven f16 1050 (f64.val (b % 2 ^ 63)) (f16FromF64 b % 2 ^ 15)) ∧
    (b % 2 ^ 63 = f64.inf → f16FromF64 b % 2 ^ 15 = f16.inf) ∧
    (b % 2 ^ 63 > f64.inf → f16FromF64 b % 2 ^ 15 > f16.inf) := by
  have hI : f32.inf = 255 * 2 ^ 23 := by decide
  have hmagl : oddMag 29 (b % 2 ^ 63) < 2 ^ 63 := oddMag_lt 29 _ 63 (by decide) (Nat.mod_lt _ (by decide))
  obtain ⟨o1, o2, o3⟩ := oddMag_fin 29 (b % 2 ^ 63) (by decide)
  unfold f16FromF64
  rw [roundOdd29_eq b hb]
  have hc1 : (b / 2 ^ 63 * 2 ^ 63 + oddMag 29 (b % 2 ^ 63)) % 2 ^ 63 = oddMag 29 (b % 2 ^ 63) := by omega
  have hc2 : (b / 2 ^ 63 * 2 ^ 63 + oddMag 29 (b % 2 ^ 63)) / 2 ^ 63 = b / 2 ^ 63 := by omega
  obtain ⟨s1, s2, s3, s4, s5⟩ := f32OfF64_spec (b / 2 ^ 63 * 2 ^ 63 + oddMag 29 (b % 2 ^ 63)) (by omega)
  rw [hc1] at s3 s4 s5
  rw [hc2] at s2
  generalize f32OfF64 (b / 2 ^ 63 * 2 ^ 63 + oddMag 29 (b % 2 ^ 63)) = w at *
  obtain ⟨t1, t2, t3, t4, t5⟩ := C09_f16FromF32 w s1
  refine ⟨t1, by omega, fun h => ?_, fun h => t4 (s4 (o2 h)), fun h => t5 (s5 (o3 h))⟩
  obtain ⟨s3, s3'⟩ := s3 (o1 h)
  have key := double_round f16 (by decide) (by decide) 29 125 (b % 2 ^ 63) (fun z => f16Code (z / 2 ^ 23) (z % 2 ^ 23))
    (by decide) (by decide) (by decide) (by
      intro z hz
      have := f16Code_local (z / 2 ^ 23) (z % 2 ^ 23) (by omega) (by omega)
      rwa [show z / 2 ^ 23 * 2 ^ 23 + z % 2 ^ 23 = z by omega] at this) (by decide) (by decide +kernel) h
  rw [← s3] at key
  rw [f16FromF32_split w s1]
  have hlt := f16Code_lt (w % 2 ^ 31 / 2 ^ 23) (w % 2 ^ 31 % 2 ^ 23) (by omega) (by omega)
  rw [show w % 2 ^ 23 = w % 2 ^ 31 % 2 ^ 23 by omega]
  generalize f16Code (w % 2 ^ 31 / 2 ^ 23) (w % 2 ^ 31 % 2 ^ 23) = c at *
  rw [show (w / 2 ^ 31 * 2 ^ 15 + c) % 2 ^ 15 = c from low15 _ _ hlt]
  exact key.nearest (by decide) (by decide)

/-- **C42, double to bfloat16** (`2^-1074 = 2^-941 * 2^-133`). -/
theorem C42_bf16FromF64 (b : Nat) (hb : b < 2 ^ 64) :
    bf16FromF64 b < 2 ^ 16 ∧ bf16FromF64 b / 2 ^ 15 = b / 2 ^ 63 ∧
    (b % 2 ^ 63 < f64.inf → IsNearestEven bf16 941 (f64.val (b % 2 ^ 63)) (bf16FromF64 b % 2 ^ 15)) ∧
    (b % 2 ^ 63 = f64.inf → bf16FromF64 b % 2 ^ 15 = bf16.inf) ∧
    (b % 2 ^ 63 > f64.inf → bf16FromF64 b % 2 ^ 15 > bf16.inf) := by
  have hI : f32.inf = 255 * 2 ^ 23 := by decide
  have hIb : bf16.inf = 255 * 2 ^ 7 := by decide
  have hmagl : oddMag 38 (b % 2 ^ 63) < 2 ^ 63 := oddMag_lt 38 _ 63 (by decide) (Nat.mod_lt _ (by decide))
  obtain ⟨o1, o2, o3⟩ := oddMag_fin 38 (b % 2 ^ 63) (by decide)
  unfold bf16FromF64
  rw [roundOdd38_eq b hb]
  have hc1 : (b / 2 ^ 63 * 2 ^ 63 + oddMag 38 (b % 2 ^ 63)) % 2 ^ 63 = oddMag 38 (b % 2 ^ 63) := by omega
  have hc2 : (b / 2 ^ 63 * 2 ^ 63 + oddMag 38 (b % 2 ^ 63)) / 2 ^ 63 = b / 2 ^ 63 := by omega
  obtain ⟨s1, s2, s3, s4, s5⟩ := f32OfF64_spec (b / 2 ^ 63 * 2 ^ 63 + oddMag 38 (b % 2 ^ 63)) (by omega)
  rw [hc1] at s3 s4 s5
  rw [hc2] at s2
  generalize f32OfF64 (b / 2 ^ 63 * 2 ^ 63 + oddMag 38 (b % 2 ^ 63)) = w at *
  obtain ⟨t1, t2, t3, t4, t5⟩ := C10_bf16FromF32 w s1
  refine ⟨t1, by omega, fun h => ?_, fun h => t4 (s4 (o2 h)), fun h => by have := t5 (s5 (o3 h)); omega⟩
  obtain ⟨s3, s3'⟩ := s3 (o1 h)
  have key := double_round bf16 (by decide) (by decide) 38 16 (b % 2 ^ 63) (fun z => rne z 16)
    (by decide) (by decide) (by decide) (by
      intro z hz
      have := (local_narrow f32 bf16 16 (by decide) rfl z).clamp (by decide)
      rwa [Nat.min_eq_left] at this
      have h2 := (bf16FromF32_fin z (by omega) (by rw [Nat.mod_eq_of_lt (by omega)]; exact hz)).2
      rwa [Nat.mod_eq_of_lt (by omega)] at h2) (by decide) (by decide +kernel) h
  rw [← s3] at key
  have hfin : bf16FromF32 w % 2 ^ 15 = rne (w % 2 ^ 31) 16 := by
    rcases Nat.lt_or_ge (w % 2 ^ 31) f32.inf with h1 | h1
    · obtain ⟨e1, e2⟩ := bf16FromF32_fin w s1 h1
      rw [e1]; exact low15 _ _ (Nat.lt_of_le_of_lt e2 (by decide))
    · have e : w % 2 ^ 31 = f32.inf := by omega
      rw [t4 e, e]; decide
  rw [hfin]
  exact key.nearest (by decide) (by decide)

/-- Non-vacuity: a double just above the tie 1 + 2^-11 (which plain `float` conversion would turn into the tie)
rounds up. -/
example : f16FromF64 0x3FF0020000000001 = 0x3C01 ∧ f16FromF32 (f32OfF64 0x3FF0020000000001) = 0x3C00 ∧
    bf16FromF64 0x3FF0100000000001 = 0x3F81 := by decide +kernel

end Flt
end Hwy
