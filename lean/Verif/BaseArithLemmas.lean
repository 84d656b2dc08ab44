import Verif.BaseArith
import Verif.BitSetLemmas
import Mathlib.Tactic.Linarith
import Mathlib.Tactic.IntervalCases

namespace Hwy

/-! ## Bit scans -/

theorem bsrFrom_spec {w : Nat} (x : BitVec w) : ∀ k,
    (∃ j, j < k ∧ x.getLsbD j = true) →
    x.getLsbD (bsrFrom x k) = true ∧ bsrFrom x k < k ∧
      ∀ j, bsrFrom x k < j → j < k → x.getLsbD j = false := by
  intro k
  induction k with
  | zero => rintro ⟨j, h, _⟩; omega
  | succ n ih =>
    rintro ⟨j, hj, hb⟩
    unfold bsrFrom
    by_cases hn : x.getLsbD n = true
    · simp only [hn, if_true]
      exact ⟨trivial, by omega, fun j h1 h2 => by omega⟩
    · simp only [hn]
      have hjn : j ≠ n := by rintro rfl; exact hn hb
      obtain ⟨a, b, c⟩ := ih ⟨j, by omega, hb⟩
      refine ⟨by simpa using a, by simp; omega, fun i h1 h2 => ?_⟩
      by_cases hin : i = n
      · subst hin; simpa using hn
      · exact c i (by simpa using h1) (by omega)

theorem bsr_spec {w : Nat} (x : BitVec w) (h : x ≠ 0) :
    bsr x < w ∧ 2 ^ bsr x ≤ x.toNat ∧ x.toNat < 2 ^ (bsr x + 1) := by
  obtain ⟨a, b, c⟩ := bsrFrom_spec x w (exists_bit_of_ne_zero x h)
  refine ⟨b, Nat.ge_two_pow_of_testBit a, ?_⟩
  apply Nat.lt_pow_two_of_testBit
  intro i hi
  by_cases hiw : i < w
  · exact c i (by unfold bsr at hi; omega) hiw
  · exact BitVec.getLsbD_of_ge x i (by omega)

theorem two_pow_unique {a b n : Nat} (h1 : 2 ^ a ≤ n) (h2 : n < 2 ^ (a + 1))
    (h3 : 2 ^ b ≤ n) (h4 : n < 2 ^ (b + 1)) : a = b := by
  have x1 : a < b + 1 := (Nat.pow_lt_pow_iff_right (by omega : 1 < 2)).mp (lt_of_le_of_lt h1 h4)
  have x2 : b < a + 1 := (Nat.pow_lt_pow_iff_right (by omega : 1 < 2)).mp (lt_of_le_of_lt h3 h2)
  omega

/-! ## Granlund-Montgomery in `Nat` -/

/-- The arithmetic heart of `Divisor` and `Divisor64`. -/
theorem gm_divide (W l d n mul t : Nat) (hl : 1 ≤ l) (h1 : 2 ^ (l - 1) < d) (h2 : d ≤ 2 ^ l)
    (hlW : l ≤ W) (hn : n < 2 ^ W)
    (hm : mul = (2 ^ l - d) * 2 ^ W / d + 1) (ht : t = mul * n / 2 ^ W) :
    mul < 2 ^ W ∧ t ≤ n ∧ t + (n - t) / 2 < 2 ^ W ∧ (t + (n - t) / 2) / 2 ^ (l - 1) = n / d := by
  have hd : 0 < d := by have := Nat.two_pow_pos (l - 1); omega
  have hW : 0 < 2 ^ W := Nat.two_pow_pos W
  have hpl : 2 ^ l = 2 * 2 ^ (l - 1) := by
    conv_lhs => rw [show l = (l - 1) + 1 by omega, Nat.pow_succ]
    omega
  have hdW : d ≤ 2 ^ W := le_trans h2 (Nat.pow_le_pow_right (by omega) hlW)
  -- u = 2^l - d ≤ d - 2
  have hu : (2 ^ l - d) + 2 ≤ d := by omega
  set u := 2 ^ l - d with hudef
  have hq : u * 2 ^ W / d + 2 ≤ 2 ^ W := by
    have : u * 2 ^ W + 2 * d ≤ d * 2 ^ W := by nlinarith
    have h3 : (u * 2 ^ W + 2 * d) / d ≤ 2 ^ W := by
      apply Nat.div_le_of_le_mul; exact this
    rwa [Nat.add_mul_div_right _ _ hd] at h3
  have hmul : mul < 2 ^ W := by omega
  have htn : t ≤ n := by
    rw [ht]
    apply Nat.div_le_of_le_mul
    nlinarith
  refine ⟨hmul, htn, by omega, ?_⟩
  have e1 : t + (n - t) / 2 = (t + n) / 2 := by omega
  rw [e1, Nat.div_div_eq_div_mul, ← hpl]
  -- (t + n) = (mul + 2^W) * n / 2^W
  have e2 : t + n = (mul + 2 ^ W) * n / 2 ^ W := by
    rw [ht, Nat.add_mul, Nat.mul_comm (2 ^ W) n, Nat.add_mul_div_right _ _ hW]
  rw [e2, Nat.div_div_eq_div_mul]
  set q := u * 2 ^ W / d with hqdef
  have hqd1 : q * d ≤ u * 2 ^ W := Nat.div_mul_le_self _ _
  have hqd2 : u * 2 ^ W < (q + 1) * d := by
    have := Nat.lt_div_mul_add (a := u * 2 ^ W) hd
    nlinarith
  -- (mul + 2^W) * d = 2^(W+l) + e with 0 < e ≤ d
  have hul : u + d = 2 ^ l := by omega
  set P := 2 ^ l with hP
  set Q := 2 ^ W with hQ
  have hMd1 : Q * P < (mul + Q) * d := by rw [hm]; nlinarith
  have hMd2 : (mul + Q) * d ≤ Q * P + d := by rw [hm]; nlinarith
  generalize hMM : mul + Q = MM at *
  have hqr := Nat.div_add_mod n d
  have hr := Nat.mod_lt n hd
  set k := n / d with hk
  set r := n % d with hrr
  have hPQ : 0 < Q * P := Nat.mul_pos hW (by omega)
  rw [Nat.div_eq_iff hPQ]
  constructor
  · -- k * (Q*P) ≤ MM * n
    have : k * (Q * P) ≤ k * (MM * d) := Nat.mul_le_mul_left _ hMd1.le
    have h5 : k * (MM * d) ≤ MM * n := by
      have : d * k ≤ n := by omega
      calc k * (MM * d) = MM * (d * k) := by ring
        _ ≤ MM * n := Nat.mul_le_mul_left _ this
    omega
  · -- MM * n ≤ k*Q*P + Q*P - 1
    have h6 : MM * n < (k + 1) * (Q * P) := by
      -- multiply by d
      have h7 : (MM * n) * d < ((k + 1) * (Q * P)) * d := by
        have a1 : (MM * n) * d = n * (MM * d) := by ring
        have a2 : n * (MM * d) ≤ n * (Q * P + d) := Nat.mul_le_mul_left _ hMd2
        have a3 : n + 1 ≤ (k + 1) * d := by
          have : (k + 1) * d = d * k + d := by ring
          omega
        have a4 : (n + 1) * (Q * P) ≤ ((k + 1) * d) * (Q * P) := Nat.mul_le_mul_right _ a3
        have a5 : n * d < Q * P := by
          calc n * d ≤ n * P := Nat.mul_le_mul_left _ h2
            _ < Q * P := Nat.mul_lt_mul_of_pos_right hn (by omega)
        have a6 : n * (Q * P + d) = n * (Q * P) + n * d := by ring
        have a7 : (n + 1) * (Q * P) = n * (Q * P) + Q * P := by ring
        have a8 : ((k + 1) * d) * (Q * P) = ((k + 1) * (Q * P)) * d := by ring
        omega
      exact Nat.lt_of_mul_lt_mul_right h7
    have : (k + 1) * (Q * P) = k * (Q * P) + Q * P := by ring
    omega

end Hwy
