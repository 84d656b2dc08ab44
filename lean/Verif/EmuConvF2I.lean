import Verif.EmuConvSpec
import Verif.EmuFloatSpec

/-!
# C49 (float to integer)
-/

namespace Hwy
namespace Flt
open CInt

/-- The integer types floats are converted to. -/
def convTys : List Ty := [i32, u32, i64, u64]

section
variable {F : Fmt} (hF : F = f32 ∨ F = f64)
include hF

theorem toInt_eq {t : Ty} {x : Nat} (hf : F.Fin x)
    (hh : t.Has (sg F x * ((F.val (F.mag x) / 2 ^ F.unit : Nat) : ℤ))) :
    toInt F t x = .ok (sg F x * ((F.val (F.mag x) / 2 ^ F.unit : Nat) : ℤ)) := by
  have S := std_of hF
  have hsg : sg F x = 1 ∨ sg F x = -1 := by unfold sg; split_ifs <;> simp
  unfold toInt
  rw [if_neg (by unfold Fmt.Fin at hf; omega)]
  simp only []
  have e : (F.sval x).tdiv (2 ^ F.unit) = sg F x * ((F.val (F.mag x) / 2 ^ F.unit : Nat) : ℤ) := by
    rw [sval_sg]
    rcases hsg with h | h <;> rw [h]
    · rw [one_mul, one_mul]; rfl
    · rw [neg_one_mul, neg_one_mul, Int.neg_tdiv]; rfl
  rw [e, if_pos hh]

/-- Bits of magnitude of `t`. -/
def magBits (t : Ty) : Nat := t.bits - (if t.sgn then 1 else 0)

theorem f2iMin_eq {t : Ty} (ht : t ∈ convTys) : f2iMin F t = F.bias + magBits t ∧ F.bias + magBits t ≤ 2 * F.bias ∧
    1 ≤ magBits t := by
  simp only [convTys, List.mem_cons, List.not_mem_nil, or_false] at ht
  rcases hF with h | h <;> subst h <;> rcases ht with h | h | h | h <;> subst h <;> decide

theorem field_lt (c : Nat) {K : Nat} (hK : 1 ≤ K) :
    c / 2 ^ F.p < F.bias + K ↔ F.val c / 2 ^ F.unit < 2 ^ K := by
  have S := std_of hF
  rw [Nat.div_lt_iff_lt_mul (Nat.two_pow_pos _), Nat.div_lt_iff_lt_mul (Nat.two_pow_pos _), ← val_lt_iff F]
  have hu := S.unit_eq
  have e : F.val ((F.bias + K) * 2 ^ F.p) = 2 ^ K * 2 ^ F.unit := by
    rw [show F.bias + K = (F.bias + K - 1) + 1 by omega, S.val_pow, ← Nat.pow_add]
    congr 1; omega
  rw [e]

theorem f2i_sat {t : Ty} (ht : t ∈ convTys) (b : Bool) :
    (do
      let s ← CInt.add (CInt.cast t.unsigned ⟨t, t.hi⟩) ⟨t.unsigned, if b then 1 else 0⟩
      .ok (CInt.cast t s).v : M Int) = .ok (if b then t.lo else t.hi) := by
  simp only [convTys, List.mem_cons, List.not_mem_nil, or_false] at ht
  rcases ht with h | h | h | h <;> subst h <;> cases b <;> decide

/-- The in-range test of `CastValueForF2IConv`. -/
theorem f2i_test {t : Ty} (ht : t ∈ convTys) {x : Nat} :
    f2iField F t x < f2iMin F t ↔
      F.val (F.mag x) / 2 ^ F.unit < 2 ^ magBits t ∧ (t.sgn = false → F.neg x = false) := by
  have S := std_of hF
  obtain ⟨e, h1, h2⟩ := f2iMin_eq hF ht
  rw [e]
  unfold f2iField
  rw [Nat.shiftRight_eq_div_pow]
  cases hs : t.sgn
  · simp only [Bool.false_eq_true, if_false, forall_const]
    constructor
    · intro h
      have hx : x < 2 ^ F.w := by
        have h3 := code_lt_inf S h1
        have h4 := S.inf_lt
        rw [Nat.div_lt_iff_lt_mul (Nat.two_pow_pos _)] at h
        omega
      rw [mag_of_lt hx]
      exact ⟨(field_lt hF x h2).1 h, neg_of_lt hx⟩
    · rintro ⟨h3, h4⟩
      have hx : x < 2 ^ F.w := by
        unfold Fmt.neg Fmt.signMask at h4
        simpa using h4
      rw [mag_of_lt hx] at h3
      exact (field_lt hF x h2).2 h3
  · simp only [if_true, scalarAbs_eq, Bool.true_eq_false, false_imp_iff, and_true]
    exact field_lt hF _ h2

theorem conv_lo_hi {t : Ty} (ht : t ∈ convTys) : t.hi = 2 ^ magBits t - 1 ∧
    t.lo = if t.sgn then -2 ^ magBits t else 0 := by
  simp only [convTys, List.mem_cons, List.not_mem_nil, or_false] at ht
  rcases ht with h | h | h | h <;> subst h <;> decide

theorem fin_of_q {t : Ty} (ht : t ∈ convTys) {x : Nat} (h : F.val (F.mag x) / 2 ^ F.unit < 2 ^ magBits t) : F.Fin x := by
  have S := std_of hF
  obtain ⟨_, h1, h2⟩ := f2iMin_eq hF ht
  have := (field_lt hF _ h2).2 h
  rw [Nat.div_lt_iff_lt_mul (Nat.two_pow_pos _)] at this
  have h3 := code_lt_inf S h1
  unfold Fmt.Fin; omega

theorem sg_cases (x : Nat) : (sg F x = 1 ∧ (F.neg x = true → F.val (F.mag x) = 0)) ∨ (sg F x = -1 ∧ F.neg x = true) := by
  unfold sg
  split_ifs with h
  · right
    refine ⟨rfl, ?_⟩
    unfold Fmt.sval at h
    by_contra hn
    rw [if_neg hn] at h
    omega
  · left
    refine ⟨rfl, fun hn => ?_⟩
    unfold Fmt.sval at h
    rw [if_pos hn] at h
    omega

theorem inRange_has {t : Ty} (ht : t ∈ convTys) {x : Nat} (h : F.val (F.mag x) / 2 ^ F.unit < 2 ^ magBits t)
    (hn : t.sgn = false → F.neg x = false) : t.Has (sg F x * ((F.val (F.mag x) / 2 ^ F.unit : Nat) : ℤ)) := by
  obtain ⟨e1, e2⟩ := conv_lo_hi hF ht
  have h' : ((F.val (F.mag x) / 2 ^ F.unit : Nat) : ℤ) < 2 ^ magBits t := by exact_mod_cast h
  unfold Ty.Has
  rw [e1, e2]
  have h0 : (0:ℤ) ≤ ((F.val (F.mag x) / 2 ^ F.unit : Nat) : ℤ) := Int.natCast_nonneg _
  generalize ((F.val (F.mag x) / 2 ^ F.unit : Nat) : ℤ) = q at h' h0
  rcases sg_cases hF x with ⟨hs, _⟩ | ⟨hs, hneg⟩ <;> rw [hs]
  · have : (0:ℤ) < 2 ^ magBits t := by positivity
    split_ifs <;> omega
  · cases hsg : t.sgn
    · rw [hn hsg] at hneg; simp at hneg
    · rw [if_pos rfl]; omega

/-- **`CastValueForF2IConv`**: never undefined; the truncated value, clamped to the destination type; infinities and
NaN give the end of the range on the side of their sign bit. -/
theorem castF2I_spec {t : Ty} (ht : t ∈ convTys) {x : Nat} (hx : x < 2 ^ (F.w + 1)) :
    ∃ n, castF2I F t x = .ok n ∧ t.Has n ∧ (F.Fin x → n = satOf t (truncQ (F.real x))) ∧
      (¬ F.Fin x → n = if F.neg x then t.lo else t.hi) := by
  have S := std_of hF
  obtain ⟨e1, e2⟩ := conv_lo_hi hF ht
  have hK : (0:ℤ) < 2 ^ magBits t := by positivity
  unfold castF2I
  by_cases h : f2iField F t x < f2iMin F t
  · rw [if_pos h]
    obtain ⟨h1, h2⟩ := (f2i_test hF ht).1 h
    have hh := inRange_has hF ht h1 h2
    have hf := fin_of_q hF ht h1
    exact ⟨_, toInt_eq hF hf hh, hh, fun _ => by rw [truncQ_sg hF, satOf_has S hh], fun hn => absurd hf hn⟩
  · rw [if_neg h, f2i_sat hF ht, scalarSignBit_eq hx]
    refine ⟨_, rfl, ?_, fun hf => ?_, fun _ => rfl⟩
    · unfold Ty.Has; rw [e1, e2]; split_ifs <;> omega
    · rw [f2i_test hF ht] at h
      rw [truncQ_sg hF]
      unfold satOf
      rw [e1, e2]
      generalize hq : F.val (F.mag x) / 2 ^ F.unit = q at h
      rcases sg_cases hF x with ⟨hs, h3⟩ | ⟨hs, hneg⟩ <;> rw [hs]
      · cases hn : F.neg x
        · have h4 : 2 ^ magBits t ≤ q := by
            by_contra hc
            exact h ⟨by omega, fun _ => hn⟩
          have h5 : (2:ℤ) ^ magBits t ≤ (q : ℤ) := by exact_mod_cast h4
          simp only [Bool.false_eq_true, if_false]
          split_ifs <;> omega
        · have h4 : q = 0 := by rw [← hq, h3 hn, Nat.zero_div]
          subst h4
          cases hsg : t.sgn
          · simp only [Bool.false_eq_true, if_false, if_true]; push_cast; omega
          · exfalso
            exact h ⟨Nat.two_pow_pos _, fun h' => by rw [hsg] at h'; simp at h'⟩
      · simp only [hneg, if_true]
        cases hsg : t.sgn
        · simp only [Bool.false_eq_true, if_false]; omega
        · have h4 : 2 ^ magBits t ≤ q := by
            by_contra hc
            exact h ⟨by omega, fun h' => by rw [hsg] at h'; simp at h'⟩
          have h5 : (2:ℤ) ^ magBits t ≤ (q : ℤ) := by exact_mod_cast h4
          simp only [if_true]; omega

/-- **`CastValueForInRangeF2IConv`**: never undefined; exact truncation if that is representable. -/
theorem castInRangeF2I_spec {t : Ty} (ht : t ∈ convTys) {x : Nat} :
    ∃ n, castInRangeF2I F t x = .ok n ∧ t.Has n ∧ (F.Fin x → t.Has (truncQ (F.real x)) → n = truncQ (F.real x)) := by
  obtain ⟨e1, e2⟩ := conv_lo_hi hF ht
  have hK : (0:ℤ) < 2 ^ magBits t := by positivity
  unfold castInRangeF2I
  by_cases h : f2iField F t x < f2iMin F t
  · rw [if_pos h]
    obtain ⟨h1, h2⟩ := (f2i_test hF ht).1 h
    have hh := inRange_has hF ht h1 h2
    have hf := fin_of_q hF ht h1
    exact ⟨_, toInt_eq hF hf hh, hh, fun _ _ => by rw [truncQ_sg hF]⟩
  · rw [if_neg h]
    refine ⟨_, rfl, ?_, fun hf hT => ?_⟩
    · unfold Ty.Has; rw [e1, e2]; split_ifs <;> omega
    · rw [f2i_test hF ht] at h
      rw [truncQ_sg hF] at hT ⊢
      unfold Ty.Has at hT
      rw [e1, e2] at hT
      rw [e2]
      generalize hq : F.val (F.mag x) / 2 ^ F.unit = q at h hT
      rcases sg_cases hF x with ⟨hs, h3⟩ | ⟨hs, hneg⟩ <;> rw [hs] at hT ⊢
      · have h4 : q < 2 ^ magBits t := by
          have : (q : ℤ) < 2 ^ magBits t := by omega
          exact_mod_cast this
        have h5 : ¬ (t.sgn = false → F.neg x = false) := fun h' => h ⟨h4, h'⟩
        rw [Classical.not_imp] at h5
        have h6 : F.neg x = true := by simpa using h5.2
        have h7 : q = 0 := by rw [← hq, h3 h6, Nat.zero_div]
        rw [h7, if_neg (by rw [h5.1]; simp)]; rfl
      · cases hsg : t.sgn
        · rw [hsg] at hT
          simp only [Bool.false_eq_true, if_false] at hT ⊢
          omega
        · rw [hsg] at hT h
          simp only [if_true, Bool.true_eq_false, false_imp_iff, and_true] at hT h ⊢
          have h5 : (2:ℤ) ^ magBits t ≤ (q : ℤ) := by
            have : 2 ^ magBits t ≤ q := by omega
            exact_mod_cast this
          omega

end
end Flt

namespace Emu
open CInt Flt

section
variable {F : Fmt} (hF : F = f32 ∨ F = f64) {t : Ty} (ht : t ∈ convTys)
include hF ht

theorem convTys_lane : t ∈ laneTys := by
  simp only [convTys, List.mem_cons, List.not_mem_nil, or_false] at ht
  rcases ht with h | h | h | h <;> subst h <;> decide

/-- `ConvertTo`, `PromoteTo` (float to 64-bit integer) and `DemoteTo` (double to 32-bit integer): defined for every
input; the lane truncated toward zero and clamped to the destination type, infinities and NaN by their sign bit. -/
theorem C49_float_to_int {N : Nat} (hN : N ≤ cap F.ut) (hNt : N ≤ cap t) {v : List Int} (hv : Reg F.ut v) :
    Lanes t N (ConvertF2I F t N v) (fun i r =>
      (F.Fin (pat v i) → r = satOf t (truncQ (F.real (pat v i)))) ∧
      (¬ F.Fin (pat v i) → r = if F.neg (pat v i) then t.lo else t.hi)) := by
  refine conv_lanes (convTys_lane hF ht) hNt (by rw [hv.len]; exact hN) (fun i hi => ?_)
  exact castF2I_spec hF ht (pat_lt hF hN hv hi).1

/-- `ConvertInRangeTo`, `PromoteInRangeTo`, `DemoteInRangeTo`: defined for every input; the truncated lane if it is
representable. -/
theorem C49_float_to_int_in_range {N : Nat} (hN : N ≤ cap F.ut) (hNt : N ≤ cap t) {v : List Int} (hv : Reg F.ut v) :
    Lanes t N (ConvertInRangeF2I F t N v) (fun i r =>
      F.Fin (pat v i) → t.Has (truncQ (F.real (pat v i))) → r = truncQ (F.real (pat v i))) := by
  refine conv_lanes (convTys_lane hF ht) hNt (by rw [hv.len]; exact hN) (fun i hi => ?_)
  exact castInRangeF2I_spec hF ht

end
end Emu
end Hwy
