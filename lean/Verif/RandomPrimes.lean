import Mathlib.NumberTheory.LucasPrimality
import Mathlib.Tactic.ReduceModChar
import Mathlib.Tactic.NormNum.Prime
import Mathlib.Tactic.IntervalCases

/-!
# The prime factors of 2^256 - 1

Primality of the three factors that are too large for trial division, by Pratt certificates
(Mathlib's `lucas_primality`).
-/

namespace Hwy
namespace Rnd

/-- `18533742247 - 1 = 2 · 3^3 · 181 · 1896229`, witness `6`. -/
theorem prime_18533742247 : Nat.Prime 18533742247 := by
  refine lucas_primality _ (6 : ZMod 18533742247) (by reduce_mod_char) ?_
  intro q hq h
  have e : 18533742247 - 1 = 2 * 3 ^ 3 * 181 * 1896229 := by norm_num
  rw [e] at h
  simp only [Nat.Prime.dvd_mul hq] at h
  rcases h with ((h | h) | h) | h
  · have := (Nat.prime_dvd_prime_iff_eq hq (by norm_num)).mp h
    subst this; norm_num; reduce_mod_char; decide +kernel
  · have := (Nat.prime_dvd_prime_iff_eq hq (by norm_num)).mp (hq.dvd_of_dvd_pow h)
    subst this; norm_num; reduce_mod_char; decide +kernel
  · have := (Nat.prime_dvd_prime_iff_eq hq (by norm_num)).mp h
    subst this; norm_num; reduce_mod_char; decide +kernel
  · have := (Nat.prime_dvd_prime_iff_eq hq (by norm_num)).mp h
    subst this; norm_num; reduce_mod_char; decide +kernel

/-- `116503103764643 - 1 = 2 · 7 · 449 · 18533742247`, witness `2`. -/
theorem prime_116503103764643 : Nat.Prime 116503103764643 := by
  refine lucas_primality _ (2 : ZMod 116503103764643) (by reduce_mod_char) ?_
  intro q hq h
  have e : 116503103764643 - 1 = 2 * 7 * 449 * 18533742247 := by norm_num
  rw [e] at h
  simp only [Nat.Prime.dvd_mul hq] at h
  rcases h with ((h | h) | h) | h
  · have := (Nat.prime_dvd_prime_iff_eq hq (by norm_num)).mp h
    subst this; norm_num; reduce_mod_char; decide +kernel
  · have := (Nat.prime_dvd_prime_iff_eq hq (by norm_num)).mp h
    subst this; norm_num; reduce_mod_char; decide +kernel
  · have := (Nat.prime_dvd_prime_iff_eq hq (by norm_num)).mp h
    subst this; norm_num; reduce_mod_char; decide +kernel
  · have := (Nat.prime_dvd_prime_iff_eq hq prime_18533742247).mp h
    subst this; norm_num; reduce_mod_char; decide +kernel

/-- `55515497 - 1 = 2^3 · 6939437`, witness `3`. -/
theorem prime_55515497 : Nat.Prime 55515497 := by
  refine lucas_primality _ (3 : ZMod 55515497) (by reduce_mod_char) ?_
  intro q hq h
  have e : 55515497 - 1 = 2 ^ 3 * 6939437 := by norm_num
  rw [e] at h
  simp only [Nat.Prime.dvd_mul hq] at h
  rcases h with h | h
  · have := (Nat.prime_dvd_prime_iff_eq hq (by norm_num)).mp (hq.dvd_of_dvd_pow h)
    subst this; norm_num; reduce_mod_char; decide +kernel
  · have := (Nat.prime_dvd_prime_iff_eq hq (by norm_num)).mp h
    subst this; norm_num; reduce_mod_char; decide +kernel

/-- `733803839347 - 1 = 2 · 3 · 2203 · 55515497`, witness `2`. -/
theorem prime_733803839347 : Nat.Prime 733803839347 := by
  refine lucas_primality _ (2 : ZMod 733803839347) (by reduce_mod_char) ?_
  intro q hq h
  have e : 733803839347 - 1 = 2 * 3 * 2203 * 55515497 := by norm_num
  rw [e] at h
  simp only [Nat.Prime.dvd_mul hq] at h
  rcases h with ((h | h) | h) | h
  · have := (Nat.prime_dvd_prime_iff_eq hq (by norm_num)).mp h
    subst this; norm_num; reduce_mod_char; decide +kernel
  · have := (Nat.prime_dvd_prime_iff_eq hq (by norm_num)).mp h
    subst this; norm_num; reduce_mod_char; decide +kernel
  · have := (Nat.prime_dvd_prime_iff_eq hq (by norm_num)).mp h
    subst this; norm_num; reduce_mod_char; decide +kernel
  · have := (Nat.prime_dvd_prime_iff_eq hq prime_55515497).mp h
    subst this; norm_num; reduce_mod_char; decide +kernel

/-- `67280421310721 - 1 = 2^8 · 5 · 47 · 373 · 2998279`, witness `3`. -/
theorem prime_67280421310721 : Nat.Prime 67280421310721 := by
  refine lucas_primality _ (3 : ZMod 67280421310721) (by reduce_mod_char) ?_
  intro q hq h
  have e : 67280421310721 - 1 = 2 ^ 8 * 5 * 47 * 373 * 2998279 := by norm_num
  rw [e] at h
  simp only [Nat.Prime.dvd_mul hq] at h
  rcases h with (((h | h) | h) | h) | h
  · have := (Nat.prime_dvd_prime_iff_eq hq (by norm_num)).mp (hq.dvd_of_dvd_pow h)
    subst this; norm_num; reduce_mod_char; decide +kernel
  · have := (Nat.prime_dvd_prime_iff_eq hq (by norm_num)).mp h
    subst this; norm_num; reduce_mod_char; decide +kernel
  · have := (Nat.prime_dvd_prime_iff_eq hq (by norm_num)).mp h
    subst this; norm_num; reduce_mod_char; decide +kernel
  · have := (Nat.prime_dvd_prime_iff_eq hq (by norm_num)).mp h
    subst this; norm_num; reduce_mod_char; decide +kernel
  · have := (Nat.prime_dvd_prime_iff_eq hq (by norm_num)).mp h
    subst this; norm_num; reduce_mod_char; decide +kernel

/-- `59649589127497217 - 1 = 2^9 · 116503103764643`, witness `3`. -/
theorem prime_59649589127497217 : Nat.Prime 59649589127497217 := by
  refine lucas_primality _ (3 : ZMod 59649589127497217) (by reduce_mod_char) ?_
  intro q hq h
  have e : 59649589127497217 - 1 = 2 ^ 9 * 116503103764643 := by norm_num
  rw [e] at h
  simp only [Nat.Prime.dvd_mul hq] at h
  rcases h with h | h
  · have := (Nat.prime_dvd_prime_iff_eq hq (by norm_num)).mp (hq.dvd_of_dvd_pow h)
    subst this; norm_num; reduce_mod_char; decide +kernel
  · have := (Nat.prime_dvd_prime_iff_eq hq prime_116503103764643).mp h
    subst this; norm_num; reduce_mod_char; decide +kernel

/-- `5704689200685129054721 - 1 = 2^9 · 3^5 · 5 · 12497 · 733803839347`, witness `21`. -/
theorem prime_5704689200685129054721 : Nat.Prime 5704689200685129054721 := by
  refine lucas_primality _ (21 : ZMod 5704689200685129054721) (by reduce_mod_char) ?_
  intro q hq h
  have e : 5704689200685129054721 - 1 = 2 ^ 9 * 3 ^ 5 * 5 * 12497 * 733803839347 := by norm_num
  rw [e] at h
  simp only [Nat.Prime.dvd_mul hq] at h
  rcases h with (((h | h) | h) | h) | h
  · have := (Nat.prime_dvd_prime_iff_eq hq (by norm_num)).mp (hq.dvd_of_dvd_pow h)
    subst this; norm_num; reduce_mod_char; decide +kernel
  · have := (Nat.prime_dvd_prime_iff_eq hq (by norm_num)).mp (hq.dvd_of_dvd_pow h)
    subst this; norm_num; reduce_mod_char; decide +kernel
  · have := (Nat.prime_dvd_prime_iff_eq hq (by norm_num)).mp h
    subst this; norm_num; reduce_mod_char; decide +kernel
  · have := (Nat.prime_dvd_prime_iff_eq hq (by norm_num)).mp h
    subst this; norm_num; reduce_mod_char; decide +kernel
  · have := (Nat.prime_dvd_prime_iff_eq hq prime_733803839347).mp h
    subst this; norm_num; reduce_mod_char; decide +kernel

/-- The prime factors of `2^256 - 1`. -/
def factors : List Nat :=
  [3, 5, 17, 257, 641, 65537, 274177, 6700417, 67280421310721, 59649589127497217, 5704689200685129054721]

theorem factors_prod : factors.prod = 2 ^ 256 - 1 := by decide +kernel

theorem factors_prime : ∀ r ∈ factors, Nat.Prime r := by
  intro r hr
  simp only [factors, List.mem_cons, List.not_mem_nil, or_false] at hr
  rcases hr with rfl | rfl | rfl | rfl | rfl | rfl | rfl | rfl | rfl | rfl | rfl
  · norm_num
  · norm_num
  · norm_num
  · norm_num
  · norm_num
  · norm_num
  · norm_num
  · norm_num
  · exact prime_67280421310721
  · exact prime_59649589127497217
  · exact prime_5704689200685129054721

/-- Every prime that divides `2^256 - 1` is in the list. -/
theorem mem_factors {r : Nat} (hr : r.Prime) (h : r ∣ 2 ^ 256 - 1) : r ∈ factors := by
  rw [← factors_prod] at h
  obtain ⟨q, hq, hd⟩ := (Nat.Prime.prime hr).dvd_prod_iff.mp h
  rw [(Nat.prime_dvd_prime_iff_eq hr (factors_prime q hq)).mp hd]
  exact hq

end Rnd
end Hwy
