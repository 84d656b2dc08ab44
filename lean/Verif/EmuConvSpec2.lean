import Verif.EmuConvFloat

/-!
# C49 (floats): conversions to and between floating-point lanes
-/

namespace Hwy
namespace Emu
open CInt Flt

/-- Integer lanes to float lanes (`ConvertTo`, `PromoteTo` to `double`, `DemoteTo` from 64-bit to `float`): the sign is
the integer's, the value the nearest float (ties to even), and exact up to `2^23` (`float`), `2^52` (`double`). -/
theorem C49_int_to_float {F : Fmt} (hF : F = f32 ∨ F = f64) {t : Ty} (ht : t ∈ laneTys) {N : Nat} (hN : N ≤ cap F.ut)
    (hNt : N ≤ cap t) {v : List Int} (hv : Reg t v) :
    Lanes F.ut N (ConvertI2F F N v) (fun i r =>
      F.neg r.toNat = decide (lane v i < 0) ∧ IsNearestF F (lane v i) r.toNat ∧
      ((lane v i).natAbs ≤ 2 ^ F.p → F.real r.toNat = lane v i)) := by
  have S := std_of hF
  refine conv_lanes (fut_mem hF) hN (by rw [hv.len]; exact hNt) (fun i hi => ?_)
  have hb : (lane v i).natAbs < 2 ^ F.bias := by
    have h := hv.lane_has (i := i) (by omega)
    have hC : ∀ t ∈ laneTys, -(2 ^ 64) < t.lo ∧ t.hi < 2 ^ 64 := by decide
    have h2 := hC t ht
    unfold Ty.Has at h
    have h3 : 2 ^ 64 ≤ 2 ^ F.bias := Nat.pow_le_pow_right (by decide) (by rcases hF with h | h <;> subst h <;> decide)
    have h4 : (lane v i).natAbs < 2 ^ 64 := by omega
    exact Nat.lt_of_lt_of_le h4 h3
  obtain ⟨h1, h2, h3⟩ := ofInt_spec S hb
  refine ⟨_, rfl, (has_nat hF).2 h1, ?_⟩
  rw [Int.toNat_natCast]
  exact ⟨h2, h3, fun h => real_ofInt S h⟩

/-- 32-bit integers to `double`: exact. -/
theorem C49_int32_to_double {t : Ty} (ht : t = i32 ∨ t = u32) {N : Nat} (hN : N ≤ cap f64.ut) {v : List Int}
    (hv : Reg t v) : Lanes f64.ut N (ConvertI2F f64 N v) (fun i r => f64.real r.toNat = lane v i) := by
  have hl : t ∈ laneTys := by rcases ht with h | h <;> subst h <;> decide
  have hc : N ≤ cap t := by
    have : cap f64.ut = 2 := by decide
    have : cap t = 4 := by rcases ht with h | h <;> subst h <;> decide
    omega
  refine (C49_int_to_float (Or.inr rfl) hl hN hc hv).mono (fun i x hi h => h.2.2 ?_)
  have h1 := hv.lane_has (i := i) (by omega)
  have h2 : -(2 ^ 32) < t.lo ∧ t.hi < 2 ^ 32 := by rcases ht with h | h <;> subst h <;> decide
  unfold Ty.Has at h1
  have : f64.p = 52 := rfl
  rw [this]
  omega

/-- `PromoteTo` `float` to `double`: exact; infinities stay, NaN stays NaN, the sign bit is kept. -/
theorem C49_promote_f32 {N : Nat} (hN : N ≤ 2) {v : List Int} (hv : Reg f32.ut v) :
    Lanes f64.ut N (PromoteF32 N v) (fun i r =>
      f64.neg r.toNat = f32.neg (pat v i) ∧
      (f32.Fin (pat v i) → f64.Fin r.toNat ∧ f64.real r.toNat = f32.real (pat v i)) ∧
      (f32.mag (pat v i) = f32.inf → f64.mag r.toNat = f64.inf) ∧
      (f32.nan (pat v i) = true → f64.nan r.toNat = true)) := by
  have c1 : cap f32.ut = 4 := by decide
  have c2 : cap f64.ut = 2 := by decide
  refine conv_lanes (fut_mem (Or.inr rfl)) (by omega) (by rw [hv.len]; omega) (fun i hi => ?_)
  obtain ⟨h1, h2⟩ := f64OfF32_spec (a := pat v i)
  refine ⟨_, rfl, (has_nat (Or.inr rfl)).2 h1, ?_⟩
  rw [Int.toNat_natCast]
  exact h2

/-- `DemoteTo` `double` to `float`: the nearest float; values beyond `±FLT_MAX`, also infinities, become `±FLT_MAX`; NaN
stays NaN; the sign bit is kept. -/
theorem C49_demote_f64 {N : Nat} (hN : N ≤ 2) {v : List Int} (hv : Reg f64.ut v) :
    Lanes f32.ut N (DemoteF64 N v) (fun i r =>
      f32.neg r.toNat = f64.neg (pat v i) ∧
      (f64.nan (pat v i) = true → f32.nan r.toNat = true) ∧
      (f64.Fin (pat v i) → |f64.real (pat v i)| ≤ fltMax → IsNearestF f32 (f64.real (pat v i)) r.toNat) ∧
      (f64.nan (pat v i) = false → ¬ (f64.Fin (pat v i) ∧ |f64.real (pat v i)| ≤ fltMax) →
        f32.Fin r.toNat ∧ f32.real r.toNat = if f64.neg (pat v i) then -fltMax else fltMax)) := by
  have c1 : cap f32.ut = 4 := by decide
  have c2 : cap f64.ut = 2 := by decide
  refine conv_lanes (fut_mem (Or.inl rfl)) (by omega) (by rw [hv.len]; omega) (fun i hi => ?_)
  obtain ⟨h1, h2⟩ := demoteF64_spec (x := pat v i) (pat_lt (Or.inr rfl) (N := N) (by omega) hv hi).1
  refine ⟨_, rfl, (has_nat (Or.inl rfl)).2 h1, ?_⟩
  rw [Int.toNat_natCast]
  exact h2

/-! ### 16-bit floats -/

theorem has_u16 {n : Nat} : u16.Has (n : Int) ↔ n < 2 ^ 16 := by
  show ((0:Int) ≤ n ∧ (n:Int) ≤ 65535) ↔ _
  omega

theorem pat16_lt {N : Nat} (hN : N ≤ 8) {v : List Int} (hv : Reg u16 v) {i : Nat} (hi : i < N) : pat v i < 2 ^ 16 := by
  have h : (0:Int) ≤ lane v i ∧ lane v i ≤ 65535 := hv.lane_has (i := i) (by show i < 8; omega)
  unfold pat; omega

theorem pat32_lt {N : Nat} (hN : N ≤ 4) {v : List Int} (hv : Reg f32.ut v) {i : Nat} (hi : i < N) : pat v i < 2 ^ 32 :=
  (pat_lt (Or.inl rfl) (N := N) hN hv hi).1

/-- `PromoteTo` `bfloat16_t` to `float`: exact. -/
theorem C49_promote_bf16 {N : Nat} (hN : N ≤ 4) {v : List Int} (hv : Reg u16 v) :
    Lanes f32.ut N (PromoteBF16 N v) (fun i r =>
      r.toNat / 2 ^ 31 = pat v i / 2 ^ 15 ∧
      (pat v i % 2 ^ 15 < bf16.inf → r.toNat % 2 ^ 31 < f32.inf ∧
        f32.val (r.toNat % 2 ^ 31) = bf16.val (pat v i % 2 ^ 15) * 2 ^ 16) ∧
      (pat v i % 2 ^ 15 = bf16.inf → r.toNat % 2 ^ 31 = f32.inf) ∧
      (pat v i % 2 ^ 15 > bf16.inf → r.toNat % 2 ^ 31 > f32.inf)) := by
  refine conv_lanes (fut_mem (Or.inl rfl)) hN (by rw [hv.len]; show N ≤ 8; omega) (fun i hi => ?_)
  obtain ⟨h1, h2⟩ := C10_f32FromBF16 (pat v i) (pat16_lt (N := N) (by omega) hv hi)
  refine ⟨_, rfl, (has_nat (Or.inl rfl)).2 h1, ?_⟩
  rw [Int.toNat_natCast]
  exact h2

/-- What conversion of `float` bits `b` to `bfloat16_t` bits `r` must satisfy. -/
def IsBF16Of (b r : Nat) : Prop :=
  r / 2 ^ 15 = b / 2 ^ 31 ∧
  (b % 2 ^ 31 < f32.inf → IsNearestEven bf16 16 (f32.val (b % 2 ^ 31)) (r % 2 ^ 15)) ∧
  (b % 2 ^ 31 = f32.inf → r % 2 ^ 15 = bf16.inf) ∧ (b % 2 ^ 31 > f32.inf → r % 2 ^ 15 > bf16.inf)

/-- What conversion of `float` bits `b` to `float16_t` bits `r` must satisfy. -/
def IsF16Of (b r : Nat) : Prop :=
  r / 2 ^ 15 = b / 2 ^ 31 ∧
  (b % 2 ^ 31 < f32.inf → IsNearestEven f16 125 (f32.val (b % 2 ^ 31)) (r % 2 ^ 15)) ∧
  (b % 2 ^ 31 = f32.inf → r % 2 ^ 15 = f16.inf) ∧ (b % 2 ^ 31 > f32.inf → r % 2 ^ 15 > f16.inf)

theorem bf16_lane (b : Nat) (hb : b < 2 ^ 32) : bf16FromF32 b < 2 ^ 16 ∧ IsBF16Of b (bf16FromF32 b) := by
  obtain ⟨h1, h2, h3, h4, h5⟩ := C10_bf16FromF32 b hb
  exact ⟨h1, h2, h3, h4, fun h => by have := h5 h; omega⟩

theorem f16_lane (b : Nat) (hb : b < 2 ^ 32) : f16FromF32 b < 2 ^ 16 ∧ IsF16Of b (f16FromF32 b) := C09_f16FromF32 b hb

/-- `DemoteTo` `float` to `bfloat16_t`: nearest even; NaN stays NaN. -/
theorem C49_demote_bf16 {N : Nat} (hN : N ≤ 4) {v : List Int} (hv : Reg f32.ut v) :
    Lanes u16 N (DemoteBF16 N v) (fun i r => IsBF16Of (pat v i) r.toNat) := by
  refine conv_lanes (by decide) (by show N ≤ 8; omega) (by rw [hv.len]; exact hN) (fun i hi => ?_)
  obtain ⟨h1, h2⟩ := bf16_lane (pat v i) (pat32_lt hN hv hi)
  refine ⟨_, rfl, has_u16.2 h1, ?_⟩
  rw [Int.toNat_natCast]
  exact h2

/-- `OrderedDemote2To` `float` to `bfloat16_t` and `float16_t`. -/
theorem C49_ordered_demote2_bf16 {N : Nat} (hN : N ≤ 4) {a b : List Int} (ha : Reg f32.ut a) (hb : Reg f32.ut b) :
    Lanes u16 (2 * N) (OrderedDemote2BF16 N a b) (fun i r =>
      IsBF16Of (if i < N then pat a i else pat b (i - N)) r.toNat) := by
  refine (conv2_lanes (f := fun x => .ok (bf16FromF32 x.toNat : Nat)) (P := fun i r => IsBF16Of (pat a i) r.toNat)
    (Q := fun i r => IsBF16Of (pat b i) r.toNat) (by decide) (by show 2 * N ≤ 8; omega) (by rw [ha.len]; exact hN)
    (by rw [hb.len]; exact hN) (fun i hi => ?_) (fun i hi => ?_)).mono ?_
  · obtain ⟨h1, h2⟩ := bf16_lane (pat a i) (pat32_lt hN ha hi)
    exact ⟨_, rfl, has_u16.2 h1, by rw [Int.toNat_natCast]; exact h2⟩
  · obtain ⟨h1, h2⟩ := bf16_lane (pat b i) (pat32_lt hN hb hi)
    exact ⟨_, rfl, has_u16.2 h1, by rw [Int.toNat_natCast]; exact h2⟩
  · intro i x hi h
    beta_reduce at h
    split_ifs at h ⊢ <;> exact h

theorem C49_ordered_demote2_f16 {N : Nat} (hN : N ≤ 4) {a b : List Int} (ha : Reg f32.ut a) (hb : Reg f32.ut b) :
    Lanes u16 (2 * N) (OrderedDemote2F16 N a b) (fun i r =>
      IsF16Of (if i < N then pat a i else pat b (i - N)) r.toNat) := by
  refine (conv2_lanes (f := fun x => .ok (f16FromF32 x.toNat : Nat)) (P := fun i r => IsF16Of (pat a i) r.toNat)
    (Q := fun i r => IsF16Of (pat b i) r.toNat) (by decide) (by show 2 * N ≤ 8; omega) (by rw [ha.len]; exact hN)
    (by rw [hb.len]; exact hN) (fun i hi => ?_) (fun i hi => ?_)).mono ?_
  · obtain ⟨h1, h2⟩ := f16_lane (pat a i) (pat32_lt hN ha hi)
    exact ⟨_, rfl, has_u16.2 h1, by rw [Int.toNat_natCast]; exact h2⟩
  · obtain ⟨h1, h2⟩ := f16_lane (pat b i) (pat32_lt hN hb hi)
    exact ⟨_, rfl, has_u16.2 h1, by rw [Int.toNat_natCast]; exact h2⟩
  · intro i x hi h
    beta_reduce at h
    split_ifs at h ⊢ <;> exact h

end Emu
end Hwy
