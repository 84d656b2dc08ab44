import Verif.EmuArithSpec3
import Mathlib.Algebra.BigOperators.Group.Finset.Basic
import Mathlib.Algebra.BigOperators.Intervals
import Mathlib.Data.Int.ModEq

/-!
# C38 (continued): comparisons, 128-bit comparisons, sums and reductions of the reference target
-/

namespace Hwy
namespace Emu
open CInt Finset

/-! ### Specification vocabulary -/

/-- The number held by a block of two 64-bit lanes (lane 0 is the lower half). -/
def u128 (a : List Int) : Int := lane a 0 + 2 ^ 64 * lane a 1

/-! ### Comparisons -/

theorem has_fromBool {t : Ty} (h : t ∈ laneTys) (b : Bool) : t.unsigned.Has (fromBool t b) := by
  simp only [laneTys, List.mem_cons, List.not_mem_nil, or_false] at h
  rcases h with h | h | h | h | h | h | h | h <;> subst h <;> cases b <;> decide

theorem cmp_mask {t : Ty} (h : t ∈ laneTys) {N : Nat} (hN : N ≤ cap t) {a b : List Int} (ha : Reg t a)
    (hb : Reg t b) {p : Val → Val → Bool} {q : Int → Int → Bool}
    (hp : ∀ x y, t.Has x → t.Has y → p ⟨t, x⟩ ⟨t, y⟩ = q x y) :
    ∃ m, cmp t N p a b = .ok m ∧ IsMask t N m (fun i => q (lane a i) (lane b i)) := by
  have hz : Reg t.unsigned (zero t.unsigned) := reg_zero (unsigned_mem h)
  obtain ⟨m, e, hr, hl⟩ := lanes_of_loop (t := t.unsigned) (N := N)
    (body := fun i m => do
      let x ← readAt a i
      let y ← readAt b i
      writeAt m i (fromBool t (p ⟨t, x⟩ ⟨t, y⟩))) hz hN
    (fun i => fromBool t (q (lane a i) (lane b i))) (fun i _ => has_fromBool h _) (by
      intro i hi r _ _ _
      have ey : readAt a i = .ok (lane a i) := readAt_some (lane_some (by rw [ha.len]; omega))
      have en : readAt b i = .ok (lane b i) := readAt_some (lane_some (by rw [hb.len]; omega))
      rw [ey, en, ok_bind', ok_bind', hp _ _ (ha.lane_has (by omega)) (hb.lane_has (by omega))])
  refine ⟨m, e, hr.len, hr.has, fun i hi => ?_⟩
  rw [hl i hi, fromBool_eq h]

/-- `==`, `!=`, `<`, `>`, `<=`, `>=`: the mask of lanes whose values compare so. -/
theorem C38_compare {t : Ty} (h : t ∈ laneTys) {N : Nat} (hN : N ≤ cap t) {a b : List Int} (ha : Reg t a)
    (hb : Reg t b) :
    (∃ m, Eq t N a b = .ok m ∧ IsMask t N m (fun i => decide (lane a i = lane b i))) ∧
    (∃ m, Ne t N a b = .ok m ∧ IsMask t N m (fun i => decide (lane a i ≠ lane b i))) ∧
    (∃ m, Lt t N a b = .ok m ∧ IsMask t N m (fun i => decide (lane a i < lane b i))) ∧
    (∃ m, Gt t N a b = .ok m ∧ IsMask t N m (fun i => decide (lane a i > lane b i))) ∧
    (∃ m, Le t N a b = .ok m ∧ IsMask t N m (fun i => decide (lane a i ≤ lane b i))) ∧
    (∃ m, Ge t N a b = .ok m ∧ IsMask t N m (fun i => decide (lane a i ≥ lane b i))) := by
  refine ⟨?_, ?_, ?_, ?_, ?_, ?_⟩
  · exact cmp_mask h hN ha hb (q := fun x y => decide (x = y)) (fun x y hx hy => eq_same h hx hy)
  · exact cmp_mask h hN ha hb (q := fun x y => decide (x ≠ y)) (fun x y hx hy => by
      rw [eq_same h hx hy]; simp)
  · exact cmp_mask h hN ha hb (q := fun x y => decide (x < y)) (fun x y hx hy => lt_same h hx hy)
  · exact cmp_mask h hN ha hb (q := fun x y => decide (x > y)) (fun x y hx hy => lt_same h hy hx)
  · exact cmp_mask h hN ha hb (q := fun x y => decide (x ≤ y)) (fun x y hx hy => by
      rw [lt_same h hy hx, ← decide_not]; simp)
  · exact cmp_mask h hN ha hb (q := fun x y => decide (x ≥ y)) (fun x y hx hy => by
      rw [lt_same h hx hy, ← decide_not]; simp)

/-- `TestBit(v, bit)`: whether `v[i] & bit[i]` is `bit[i]`; for a `bit[i]` with one bit set, whether
that bit of `v[i]` is set. -/
theorem C38_test_bit {t : Ty} (h : t ∈ laneTys) {N : Nat} (hN : N ≤ cap t) {v bit : List Int}
    (hv : Reg t v) (hb : Reg t bit) (k : Nat → Nat) (hk : ∀ i, i < N → k i < t.bits)
    (hbit : ∀ i, i < N → bitsOf t (lane bit i) = BitVec.twoPow t.bits (k i)) :
    ∃ m, TestBit t N v bit = .ok m ∧
      IsMask t N m (fun i => (bitsOf t (lane v i)).getLsbD (k i)) := by
  obtain ⟨w, e, hw, hl⟩ := C38_and h hN hv hb
  obtain ⟨m, em, hm⟩ := (C38_compare h hN hw hb).1
  refine ⟨m, by unfold TestBit; rw [e, ok_bind', em], hm.len, hm.has, fun i hi => ?_⟩
  rw [hm.lanes i hi]
  have hiff : lane w i = lane bit i ↔ (bitsOf t (lane v i)).getLsbD (k i) = true := by
    have h1 : bitsOf t (lane w i) = bitsOf t (lane v i) &&& bitsOf t (lane bit i) := hl i hi
    rw [hbit i hi] at h1
    have hinj : lane w i = lane bit i ↔ bitsOf t (lane w i) = bitsOf t (lane bit i) :=
      ⟨fun e => by rw [e], fun e => ofBits_inj t (bits_pos h) (hw.lane_has (by omega))
        (hb.lane_has (by omega)) e⟩
    rw [hinj, h1, hbit i hi, BitVec.and_twoPow]
    constructor
    · intro hc
      by_contra hne
      rw [if_neg hne] at hc
      have := congrArg (fun b => b.getLsbD (k i)) hc
      simp [hk i hi] at this
    · intro hc; rw [if_pos hc]
  by_cases hc : (bitsOf t (lane v i)).getLsbD (k i) = true
  · rw [hc, decide_eq_true (hiff.2 hc)]
  · rw [Bool.not_eq_true] at hc
    rw [hc, decide_eq_false (fun e => by rw [hiff.1 e] at hc; exact Bool.noConfusion hc)]

/-! ### 128-bit comparisons -/

theorem u64_has {x : Int} (h : u64.Has x) : 0 ≤ x ∧ x < 2 ^ 64 := by
  obtain ⟨h1, h2⟩ := h
  have e1 : u64.lo = 0 := by decide
  have e2 : u64.hi = 2 ^ 64 - 1 := by decide
  omega

theorem mask2 (b : Bool) : IsMask u64 2 [fromBool u64 b, fromBool u64 b] (fun _ => b) := by
  refine ⟨by simp only [List.length_cons, List.length_nil]; decide, ?_, ?_⟩
  · intro x hx
    simp only [List.mem_cons, List.not_mem_nil, or_false, or_self] at hx
    rw [hx]; exact has_fromBool (t := u64) (by decide) b
  · intro i hi
    interval_cases i <;> exact fromBool_eq (t := u64) (by decide) b

theorem reads2 {a : List Int} (ha : Reg u64 a) :
    readAt a 0 = .ok (lane a 0) ∧ readAt a 1 = .ok (lane a 1) ∧
    (0 ≤ lane a 0 ∧ lane a 0 < 2 ^ 64) ∧ (0 ≤ lane a 1 ∧ lane a 1 < 2 ^ 64) := by
  have hl : a.length = 2 := ha.len
  exact ⟨readAt_some (lane_some (by omega)), readAt_some (lane_some (by omega)),
    u64_has (ha.lane_has (by decide)), u64_has (ha.lane_has (by decide))⟩

theorem IsMask.congr {t : Ty} {N : Nat} {m : List Int} {b c : Nat → Bool} (h : IsMask t N m b)
    (e : ∀ i, i < N → b i = c i) : IsMask t N m c :=
  ⟨h.len, h.has, fun i hi => by rw [h.lanes i hi, e i hi]⟩

/-- `Lt128`, `Eq128`, `Ne128` compare the two lanes as one 128-bit number and set both mask lanes;
`Lt128Upper`, `Eq128Upper`, `Ne128Upper` compare the upper 64 bits. -/
theorem C38_compare128 {a b : List Int} (ha : Reg u64 a) (hb : Reg u64 b) :
    (∃ m, Lt128 a b = .ok m ∧ IsMask u64 2 m (fun _ => decide (u128 a < u128 b))) ∧
    (∃ m, Eq128 a b = .ok m ∧ IsMask u64 2 m (fun _ => decide (u128 a = u128 b))) ∧
    (∃ m, Ne128 a b = .ok m ∧ IsMask u64 2 m (fun _ => decide (u128 a ≠ u128 b))) ∧
    (∃ m, Lt128Upper a b = .ok m ∧ IsMask u64 2 m (fun _ => decide (lane a 1 < lane b 1))) ∧
    (∃ m, Eq128Upper a b = .ok m ∧ IsMask u64 2 m (fun _ => decide (lane a 1 = lane b 1))) ∧
    (∃ m, Ne128Upper a b = .ok m ∧ IsMask u64 2 m (fun _ => decide (lane a 1 ≠ lane b 1))) := by
  obtain ⟨ra0, ra1, a0, a1⟩ := reads2 ha
  obtain ⟨rb0, rb1, b0, b1⟩ := reads2 hb
  refine ⟨?_, ?_, ?_, ?_, ?_, ?_⟩
  · unfold Lt128
    rw [ra0, ra1, rb0, rb1]
    refine ⟨_, rfl, (mask2 _).congr (fun i _ => ?_)⟩
    rw [Bool.eq_iff_iff]
    simp only [Bool.or_eq_true, Bool.and_eq_true, decide_eq_true_eq]
    unfold u128
    omega
  · unfold Eq128
    rw [ra0, ra1, rb0, rb1]
    refine ⟨_, rfl, (mask2 _).congr (fun i _ => ?_)⟩
    rw [Bool.eq_iff_iff]
    simp only [Bool.and_eq_true, decide_eq_true_eq]
    unfold u128
    omega
  · unfold Ne128
    rw [ra0, ra1, rb0, rb1]
    refine ⟨_, rfl, (mask2 _).congr (fun i _ => ?_)⟩
    rw [Bool.eq_iff_iff]
    simp only [Bool.or_eq_true, decide_eq_true_eq, ne_eq]
    unfold u128
    omega
  · unfold Lt128Upper
    rw [ra1, rb1]
    exact ⟨_, rfl, mask2 _⟩
  · unfold Eq128Upper
    rw [ra1, rb1]
    exact ⟨_, rfl, mask2 _⟩
  · unfold Ne128Upper
    rw [ra1, rb1]
    exact ⟨_, rfl, mask2 _⟩

theorem u128_select {r : M (List Int)} {c : Bool} {a b : List Int}
    (h : Lanes u64 2 r (fun i x => x = if c then lane a i else lane b i)) :
    ∃ v, r = .ok v ∧ Reg u64 v ∧ u128 v = (if c then u128 a else u128 b) ∧
      lane v 1 = (if c then lane a 1 else lane b 1) := by
  obtain ⟨v, e, hr, hl⟩ := h
  have h0 := hl 0 (by decide)
  have h1 := hl 1 (by decide)
  refine ⟨v, e, hr, ?_, h1⟩
  unfold u128
  rw [h0, h1]
  cases c <;> rfl

/-- `Min128` and `Max128`: the smaller and the larger of two 128-bit numbers. -/
theorem C38_minmax128 {a b : List Int} (ha : Reg u64 a) (hb : Reg u64 b) :
    (∃ v, Min128 a b = .ok v ∧ Reg u64 v ∧ u128 v = min (u128 a) (u128 b)) ∧
    (∃ v, Max128 a b = .ok v ∧ Reg u64 v ∧ u128 v = max (u128 a) (u128 b)) := by
  have hu : u64 ∈ laneTys := by decide
  obtain ⟨m, em, hm⟩ := (C38_compare128 ha hb).1
  obtain ⟨m', em', hm'⟩ := (C38_compare128 hb ha).1
  obtain ⟨v, ev, hv, hv1, _⟩ := u128_select (C38_if_then_else hu (by decide) hm ha hb)
  obtain ⟨w, ew, hw, hw1, _⟩ := u128_select (C38_if_then_else hu (by decide) hm' ha hb)
  refine ⟨⟨v, by unfold Min128; rw [em, ok_bind', ev], hv, ?_⟩,
    ⟨w, by unfold Max128; rw [em', ok_bind', ew], hw, ?_⟩⟩
  · rw [hv1]; simp only [decide_eq_true_eq]; split_ifs <;> omega
  · rw [hw1]; simp only [decide_eq_true_eq]; split_ifs <;> omega

/-- `Min128Upper` and `Max128Upper`: one of the two arguments, with the smaller (larger) upper half;
`b` if the upper halves are equal. -/
theorem C38_minmax128_upper {a b : List Int} (ha : Reg u64 a) (hb : Reg u64 b) :
    (∃ v, Min128Upper a b = .ok v ∧ Reg u64 v ∧
      u128 v = if lane a 1 < lane b 1 then u128 a else u128 b) ∧
    (∃ v, Max128Upper a b = .ok v ∧ Reg u64 v ∧
      u128 v = if lane a 1 > lane b 1 then u128 a else u128 b) := by
  have hu : u64 ∈ laneTys := by decide
  obtain ⟨m, em, hm⟩ := (C38_compare128 ha hb).2.2.2.1
  obtain ⟨m', em', hm'⟩ := (C38_compare128 hb ha).2.2.2.1
  obtain ⟨v, ev, hv, hv1, _⟩ := u128_select (C38_if_then_else hu (by decide) hm ha hb)
  obtain ⟨w, ew, hw, hw1, _⟩ := u128_select (C38_if_then_else hu (by decide) hm' ha hb)
  refine ⟨⟨v, by unfold Min128Upper; rw [em, ok_bind', ev], hv, ?_⟩,
    ⟨w, by unfold Max128Upper; rw [em', ok_bind', ew], hw, ?_⟩⟩
  · rw [hv1]; simp only [decide_eq_true_eq]
  · rw [hw1]; simp only [decide_eq_true_eq, gt_iff_lt]

/-! ### Set, Iota -/

/-- `Set(d, x)`: every lane is `x`. -/
theorem C38_set {t : Ty} (h : t ∈ laneTys) {N : Nat} (hN : N ≤ cap t) {x : Int} (hx : t.Has x) :
    Lanes t N (Set t N x) (fun _ y => y = x) := by
  unfold Set
  exact lanes_of_loop (reg_zero h) hN (fun _ => x) (fun _ _ => hx) (fun i hi r _ _ _ => rfl)

/-- `Iota(d, first)`: lane `i` is `first + i` (mod 2^bits). -/
theorem C38_iota {t : Ty} (h : t ∈ laneTys) {N : Nat} (hN : N ≤ cap t) (first : Int) :
    Lanes t N (Iota t N first) (fun i y => y ≡ first + i [ZMOD 2 ^ t.bits]) := by
  unfold Iota
  refine (lanes_of_loop (reg_zero h) hN (fun i => t.wrap (first + i)) (fun i _ => has_wrap' h _)
    (fun i hi r _ _ _ => ?_)).mono (fun i x _ e => by rw [e]; exact modEq_wrap t _)
  have hb := bits_le h
  have e1 : add (CInt.cast u64 ⟨t, t.wrap first⟩) (CInt.cast u64 ⟨u64, i⟩) =
      .ok ⟨u64, u64.wrap (u64.wrap (u64.wrap (t.wrap first)) + u64.wrap (u64.wrap i))⟩ := rfl
  rw [e1, ok_bind']
  congr 1
  rw [cast_cast_unsigned h, band_low _ _ (by exact hb)]
  have hm : BitVec.ofInt t.bits (t.unsigned.hi) = BitVec.allOnes t.bits := by
    simp only [laneTys, List.mem_cons, List.not_mem_nil, or_false] at h
    rcases h with h | h | h | h | h | h | h | h <;> subst h <;> decide
  show t.ofBits (_ &&& BitVec.ofInt t.bits t.unsigned.hi) = _
  rw [hm, BitVec.and_allOnes]
  show t.ofBits (BitVec.ofInt t.bits (u64.wrap (u64.wrap _))) = _
  rw [ofBits_ofInt t (bits_pos h), wrap_wrap_of_le t u64 hb, wrap_wrap_of_le t u64 hb]
  have e2 : ∀ z, u64.wrap (u64.wrap z) = u64.wrap z := fun z => wrap_wrap_of_le _ _ le_rfl z
  rw [e2, e2, wrap_wrap_add t u64 hb]
  apply wrap_congr
  exact (modEq_wrap t first).add_right _

/-! ### Sums -/

/-- `ReduceSum`: the sum of the lanes (mod 2^bits).  For `int32_t` and `int64_t` lanes the running sum
must not overflow; otherwise there is no condition. -/
theorem C38_reduce_sum {t : Ty} (h : t ∈ laneTys) {N : Nat} (hN : N ≤ cap t) {v : List Int}
    (hv : Reg t v)
    (hov : t = i32 ∨ t = i64 → ∀ k, k ≤ N → t.Has (∑ i ∈ range k, lane v i)) :
    ∃ s, ReduceSum t N v = .ok s ∧ t.Has s ∧ s ≡ ∑ i ∈ range N, lane v i [ZMOD 2 ^ t.bits] := by
  unfold ReduceSum
  have key := forN_inv N (fun i sum => do
      let x ← readAt v i
      let r ← add ⟨t, sum⟩ ⟨t, x⟩
      return (CInt.cast t r).v) 0
    (fun k s => s = t.wrap (∑ i ∈ range k, lane v i)) (by simp [wrap_zero h]) (by
      intro i hi s hs
      have er : readAt v i = .ok (lane v i) := readAt_some (lane_some (by rw [hv.len]; omega))
      have hx : t.Has (lane v i) := hv.lane_has (by omega)
      have hsH : t.Has s := by rw [hs]; exact has_wrap' h _
      have goal : ∀ r : Val, t.wrap r.v = t.wrap (s + lane v i) →
          t.wrap r.v = t.wrap (∑ j ∈ range (i + 1), lane v j) := by
        intro r hr
        rw [hr, sum_range_succ]
        apply wrap_congr
        rw [hs]
        exact (modEq_wrap t _).add_right _
      have hP := promote_mem h
      by_cases hsg : t.promote.sgn = true
      · have hex : t.promote.Has (s + lane v i) := by
          by_cases h32 : t = i32 ∨ t = i64
          · have h1 := hov h32 i (by omega)
            have h2 := hov h32 (i + 1) (by omega)
            rw [sum_range_succ] at h2
            rw [wrap_has' h h1] at hs
            rw [hs]
            rcases h32 with rfl | rfl <;> exact h2
          · simp only [laneTys, List.mem_cons, List.not_mem_nil, or_false] at h
            obtain ⟨l1, l2⟩ := hx
            obtain ⟨s1, s2⟩ := hsH
            rcases h with h | h | h | h | h | h | h | h <;> subst h <;>
              first
              | exact absurd hsg (by decide)
              | exact absurd (Or.inl rfl) h32
              | exact absurd (Or.inr rfl) h32
              | (simp only [Ty.lo, Ty.hi, Ty.Has, Ty.promote, u8, i8, u16, i16, i32] at *
                 norm_num at *
                 omega)
        have ea := add_exact (a := ⟨t, s⟩) (b := ⟨t, lane v i⟩) (common_self h) (bits_pos hP)
          (has_promote h hsH) (has_promote h hx) hex
        refine ⟨t.wrap (s + lane v i), ?_, goal ⟨t, s + lane v i⟩ rfl⟩
        rw [er, ok_bind', ea]
        rfl
      · have hu : t.promote = t := by
          simp only [laneTys, List.mem_cons, List.not_mem_nil, or_false] at h
          rcases h with h | h | h | h | h | h | h | h <;> subst h <;>
            first | rfl | exact absurd rfl hsg
        have ea : add ⟨t, s⟩ ⟨t, lane v i⟩ = .ok ⟨t, t.wrap (s + lane v i)⟩ := by
          unfold add
          simp only
          rw [common_self h, hu, wrap_has' h hsH, wrap_has' h hx]
          unfold arith
          rw [if_neg (by rw [hu] at hsg; exact hsg)]
        refine ⟨t.wrap (t.wrap (s + lane v i)), ?_, ?_⟩
        · rw [er, ok_bind', ea]; rfl
        · rw [wrap_wrap_of_le t t le_rfl]; exact goal ⟨t, s + lane v i⟩ rfl)
  obtain ⟨s, e, hs⟩ := key
  exact ⟨s, e, by rw [hs]; exact has_wrap' h _, by rw [hs]; exact modEq_wrap t _⟩

/-- Finding: on `int32_t` lanes whose running sum overflows, `ReduceSum` is undefined behaviour,
although vector addition wraps around and other targets return the wrapped sum. -/
theorem C38_reduce_sum_overflow : ReduceSum i32 4 [2147483647, 1, 0, 0] = .error .ub ∧
    ReduceSum i64 2 [9223372036854775807, 1] = .error .ub := by decide +kernel

/-- `ReduceMin`: the smallest lane. -/
theorem C38_reduce_min {t : Ty} (h : t ∈ laneTys) {N : Nat} (hN : N ≤ cap t) (h0 : 0 < N) {v : List Int}
    (hv : Reg t v) :
    ∃ s, ReduceMin t N v = .ok s ∧ (∃ i, i < N ∧ s = lane v i) ∧ ∀ i, i < N → s ≤ lane v i := by
  unfold ReduceMin
  have key := forN_inv N (fun i mn => do
      let x ← readAt v i
      return (CInt.cast t (cmin ⟨t, mn⟩ ⟨t, x⟩)).v) t.hi
    (fun k s => t.Has s ∧ (k = 0 → s = t.hi) ∧ (0 < k → ∃ i, i < k ∧ s = lane v i) ∧
      ∀ i, i < k → s ≤ lane v i)
    ⟨by simp only [laneTys, List.mem_cons, List.not_mem_nil, or_false] at h
        rcases h with h | h | h | h | h | h | h | h <;> subst h <;> decide,
      fun _ => rfl, by omega, by omega⟩ (by
      rintro i hi s ⟨hsH, hz, hex, hle⟩
      have er : readAt v i = .ok (lane v i) := readAt_some (lane_some (by rw [hv.len]; omega))
      have hx : t.Has (lane v i) := hv.lane_has (by omega)
      have hm : t.Has (min s (lane v i)) := ⟨le_min hsH.1 hx.1, (min_le_left _ _).trans hsH.2⟩
      refine ⟨min s (lane v i), ?_, hm, by omega, fun _ => ?_, fun j hj => ?_⟩
      · rw [er, ok_bind', cmin_same h hsH hx]
        show Except.ok (t.wrap _) = _
        rw [wrap_has' h hm]
      · by_cases hi0 : i = 0
        · refine ⟨i, by omega, ?_⟩
          rw [hz hi0]; exact min_eq_right hx.2
        · obtain ⟨j, hj, e⟩ := hex (by omega)
          rcases min_choice s (lane v i) with e' | e'
          · exact ⟨j, by omega, by rw [e', e]⟩
          · exact ⟨i, by omega, e'⟩
      · rcases Nat.lt_succ_iff_lt_or_eq.1 hj with h' | h'
        · exact (min_le_left _ _).trans (hle j h')
        · rw [h']; exact min_le_right _ _)
  obtain ⟨s, e, _, _, hex, hle⟩ := key
  exact ⟨s, e, hex h0, hle⟩

/-- `ReduceMax`: the largest lane. -/
theorem C38_reduce_max {t : Ty} (h : t ∈ laneTys) {N : Nat} (hN : N ≤ cap t) (h0 : 0 < N) {v : List Int}
    (hv : Reg t v) :
    ∃ s, ReduceMax t N v = .ok s ∧ (∃ i, i < N ∧ s = lane v i) ∧ ∀ i, i < N → lane v i ≤ s := by
  unfold ReduceMax
  have key := forN_inv N (fun i mx => do
      let x ← readAt v i
      return (CInt.cast t (cmax ⟨t, mx⟩ ⟨t, x⟩)).v) t.lo
    (fun k s => t.Has s ∧ (k = 0 → s = t.lo) ∧ (0 < k → ∃ i, i < k ∧ s = lane v i) ∧
      ∀ i, i < k → lane v i ≤ s)
    ⟨by simp only [laneTys, List.mem_cons, List.not_mem_nil, or_false] at h
        rcases h with h | h | h | h | h | h | h | h <;> subst h <;> decide,
      fun _ => rfl, by omega, by omega⟩ (by
      rintro i hi s ⟨hsH, hz, hex, hle⟩
      have er : readAt v i = .ok (lane v i) := readAt_some (lane_some (by rw [hv.len]; omega))
      have hx : t.Has (lane v i) := hv.lane_has (by omega)
      have hm : t.Has (max s (lane v i)) := ⟨hsH.1.trans (le_max_left _ _), max_le hsH.2 hx.2⟩
      refine ⟨max s (lane v i), ?_, hm, by omega, fun _ => ?_, fun j hj => ?_⟩
      · rw [er, ok_bind', cmax_same h hsH hx]
        show Except.ok (t.wrap _) = _
        rw [wrap_has' h hm]
      · by_cases hi0 : i = 0
        · refine ⟨i, by omega, ?_⟩
          rw [hz hi0]; exact max_eq_right hx.1
        · obtain ⟨j, hj, e⟩ := hex (by omega)
          rcases max_choice s (lane v i) with e' | e'
          · exact ⟨j, by omega, by rw [e', e]⟩
          · exact ⟨i, by omega, e'⟩
      · rcases Nat.lt_succ_iff_lt_or_eq.1 hj with h' | h'
        · exact (hle j h').trans (le_max_left _ _)
        · rw [h']; exact le_max_right _ _)
  obtain ⟨s, e, _, _, hex, hle⟩ := key
  exact ⟨s, e, hex h0, hle⟩

/-- `SumOfLanes`, `MinOfLanes`, `MaxOfLanes`: the reduction in every lane. -/
theorem C38_of_lanes {t : Ty} (h : t ∈ laneTys) {N : Nat} (hN : N ≤ cap t) (h0 : 0 < N) {v : List Int}
    (hv : Reg t v) :
    ((t = i32 ∨ t = i64 → ∀ k, k ≤ N → t.Has (∑ i ∈ range k, lane v i)) →
      Lanes t N (SumOfLanes t N v) (fun _ x => x ≡ ∑ i ∈ range N, lane v i [ZMOD 2 ^ t.bits])) ∧
    Lanes t N (MinOfLanes t N v) (fun _ x => (∃ i, i < N ∧ x = lane v i) ∧ ∀ i, i < N → x ≤ lane v i) ∧
    Lanes t N (MaxOfLanes t N v) (fun _ x => (∃ i, i < N ∧ x = lane v i) ∧ ∀ i, i < N → lane v i ≤ x) := by
  refine ⟨fun hov => ?_, ?_, ?_⟩
  · obtain ⟨s, e, hs, hm⟩ := C38_reduce_sum h hN hv hov
    unfold SumOfLanes
    rw [e, ok_bind']
    exact (C38_set h hN hs).mono (fun i x _ e => by rw [e]; exact hm)
  · obtain ⟨s, e, hs, hm⟩ := C38_reduce_min h hN h0 hv
    unfold MinOfLanes
    rw [e, ok_bind']
    have hsH : t.Has s := by
      obtain ⟨i, hi, rfl⟩ := hs; exact hv.lane_has (by omega)
    exact (C38_set h hN hsH).mono (fun i x _ e => by rw [e]; exact ⟨hs, hm⟩)
  · obtain ⟨s, e, hs, hm⟩ := C38_reduce_max h hN h0 hv
    unfold MaxOfLanes
    rw [e, ok_bind']
    have hsH : t.Has s := by
      obtain ⟨i, hi, rfl⟩ := hs; exact hv.lane_has (by omega)
    exact (C38_set h hN hsH).mono (fun i x _ e => by rw [e]; exact ⟨hs, hm⟩)

/-! ### SumsOf8 -/

/-- `SumsOf8`: 64-bit lane `j` is the sum of the 8-bit lanes `8 * j`, …, `8 * j + 7`. -/
theorem C38_sums_of_8 {t : Ty} (h : t = u8 ∨ t = i8) {N : Nat} (hN : N ≤ 16) {v : List Int} (hv : Reg t v) :
    Lanes ⟨64, t.sgn⟩ ((N + 7) / 8) (SumsOf8 t N v)
      (fun j x => x = ∑ i ∈ (range N).filter (fun i => i / 8 = j), lane v i) := by
  have hw : (⟨64, t.sgn⟩ : Ty) ∈ laneTys := by rcases h with rfl | rfl <;> decide
  have hcap : cap t = 16 := by rcases h with rfl | rfl <;> decide
  have hcapw : cap ⟨64, t.sgn⟩ = 2 := by rcases h with rfl | rfl <;> decide
  have hlane : ∀ i, i < 16 → -128 ≤ lane v i ∧ lane v i ≤ 255 ∧ (t.sgn = false → 0 ≤ lane v i) := by
    intro i hi
    obtain ⟨l1, l2⟩ := hv.lane_has (i := i) (by omega)
    rcases h with rfl | rfl
    · have : (0 : Int) ≤ lane v i := l1
      have : lane v i ≤ 255 := l2
      exact ⟨by omega, by omega, fun _ => by omega⟩
    · have : (-128 : Int) ≤ lane v i := l1
      have : lane v i ≤ 127 := l2
      exact ⟨by omega, by omega, fun hh => by simp [i8] at hh⟩
  have hrange : ∀ k : Nat, k ≤ 16 → ∀ j, -128 * (k : Int) ≤ (∑ i ∈ (range k).filter (fun i => i / 8 = j), lane v i) ∧
      (∑ i ∈ (range k).filter (fun i => i / 8 = j), lane v i) ≤ 255 * (k : Int) ∧
      (t.sgn = false → 0 ≤ ∑ i ∈ (range k).filter (fun i => i / 8 = j), lane v i) := by
    intro k
    induction k with
    | zero => intro _ j; simp
    | succ k ih =>
      intro hk j
      obtain ⟨i1, i2, i3⟩ := ih (by omega) j
      obtain ⟨l1, l2, l3⟩ := hlane k (by omega)
      rw [range_add_one, filter_insert]
      push_cast
      split_ifs with hc
      · rw [sum_insert (by simp)]
        refine ⟨by omega, by omega, fun hh => by have := i3 hh; have := l3 hh; omega⟩
      · exact ⟨by omega, by omega, i3⟩
  have hhas : ∀ k : Nat, k ≤ 16 → ∀ j, (⟨64, t.sgn⟩ : Ty).Has (∑ i ∈ (range k).filter (fun i => i / 8 = j), lane v i) := by
    intro k hk j
    obtain ⟨i1, i2, i3⟩ := hrange k hk j
    rcases h with rfl | rfl
    · have := i3 rfl
      show (0 : Int) ≤ _ ∧ _ ≤ (2 : Int) ^ 64 - 1
      omega
    · show -(2 : Int) ^ 63 ≤ _ ∧ _ ≤ (2 : Int) ^ 63 - 1
      omega
  unfold SumsOf8
  have key := forN_inv N (fun i sums => do
    let s ← readAt sums (i / 8)
    let x ← readAt v i
    let r ← add ⟨⟨64, t.sgn⟩, s⟩ ⟨t, x⟩
    writeAt sums (i / 8) (CInt.cast ⟨64, t.sgn⟩ r).v) (zero ⟨64, t.sgn⟩)
    (fun k r => r.length = 2 ∧ ∀ j, j < 2 → r[j]? = some (∑ i ∈ (range k).filter (fun i => i / 8 = j), lane v i))
    (by
      refine ⟨by simp [zero, hcapw], fun j hj => ?_⟩
      rw [zero, hcapw, List.getElem?_replicate, if_pos hj]; simp)
    (by
      rintro i hi r ⟨hl, hr⟩
      have hj : i / 8 < 2 := by omega
      have e1 := readAt_some (hr (i / 8) hj)
      have e2 : readAt v i = .ok (lane v i) := readAt_some (lane_some (by rw [hv.len]; omega))
      have hs := hhas i (by omega) (i / 8)
      have hs' := hhas (i + 1) (by omega) (i / 8)
      have hsum : ∑ j ∈ (range (i + 1)).filter (fun j => j / 8 = i / 8), lane v j =
          (∑ j ∈ (range i).filter (fun j => j / 8 = i / 8), lane v j) + lane v i := by
        rw [range_add_one, filter_insert, if_pos rfl, sum_insert (by simp), add_comm]
      have hxw : (⟨64, t.sgn⟩ : Ty).Has (lane v i) := by
        obtain ⟨l1, l2, l3⟩ := hlane i (by omega)
        rcases h with rfl | rfl
        · have := l3 rfl
          show (0 : Int) ≤ _ ∧ _ ≤ (2 : Int) ^ 64 - 1
          omega
        · show -(2 : Int) ^ 63 ≤ _ ∧ _ ≤ (2 : Int) ^ 63 - 1
          omega
      have ea := add_exact (a := ⟨⟨64, t.sgn⟩, ∑ j ∈ (range i).filter (fun j => j / 8 = i / 8), lane v j⟩)
        (b := ⟨t, lane v i⟩) (T := ⟨64, t.sgn⟩) (by rcases h with rfl | rfl <;> rfl) (bits_pos hw) hs hxw
        (by rw [hsum] at hs'; exact hs')
      refine ⟨r.set (i / 8) (∑ j ∈ (range (i + 1)).filter (fun j => j / 8 = i / 8), lane v j), ?_, ?_, ?_⟩
      · rw [e1, ok_bind', e2, ok_bind', ea, ok_bind', writeAt_of_lt _ (by omega)]
        show Except.ok (r.set _ ((⟨64, t.sgn⟩ : Ty).wrap _)) = _
        rw [← hsum, wrap_has' hw hs']
      · simp [hl]
      · intro j hj2
        by_cases hc : i / 8 = j
        · subst hc
          rw [List.getElem?_set_self (by omega)]
        · rw [List.getElem?_set_ne hc, hr j hj2, range_add_one, filter_insert, if_neg hc])
  obtain ⟨r, e, hl, hr⟩ := key
  refine ⟨r, e, ⟨by rw [hl, hcapw], fun x hx => ?_⟩, fun j hj => lane_of_some (hr j (by omega))⟩
  obtain ⟨j, hj, rfl⟩ := List.getElem_of_mem hx
  have := hr j (by omega)
  rw [List.getElem?_eq_getElem hj, Option.some.injEq] at this
  rw [this]
  exact hhas N hN j

end Emu
end Hwy
