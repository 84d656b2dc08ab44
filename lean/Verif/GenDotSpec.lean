import Verif.GenDot
import Verif.GenArithSpec3

/-!
# C55: widening dot products

Each theorem gives the exact sum of products (or its residue, or its saturation) per lane of the result.
-/

namespace Hwy
namespace Emu
open CInt Finset

set_option linter.unusedSectionVars false

/-! ### Lane rules -/

section
variable {tF : Ty} (hF : tF ∈ halfTys) {N : Nat} (hN : N ≤ cap tF.wide) (ar : Bool)
  {a b : List Int} {F G : Nat → Int} (ha : Is tF (2 * N) a F) (hb : Is tF (2 * N) b G)
include hF hN ha

theorem zeven : Runs tF.wide N (PromoteEvenTo ar tF tF.wide N a) (fun i => F (2 * i)) :=
  (prom_even hF hN ar ha.1).runs hN fun i x hi _ e => by rw [e, ha.2 _ (by omega)]
theorem zodd : Runs tF.wide N (PromoteOddTo ar tF tF.wide N a) (fun i => F (2 * i + 1)) :=
  (prom_odd hF hN ar ha.1).runs hN fun i x hi _ e => by rw [e, ha.2 _ (by omega)]
theorem zsums2 : Runs tF.wide N (SumsOf2 ar tF N a) (fun i => F (2 * i) + F (2 * i + 1)) :=
  (C49_sums_of_2 hF hN ar ha.1).runs hN fun i x hi _ e => by rw [e, ha.2 _ (by omega), ha.2 _ (by omega)]

include hb
theorem zwmpa : Runs tF.wide N (WidenMulPairwiseAdd ar tF N a b)
    (fun i => tF.wide.wrap (F (2 * i) * G (2 * i) + F (2 * i + 1) * G (2 * i + 1))) :=
  (C49_widen_mul_pairwise_add hF hN ar ha.1 hb.1).runs hN fun i x hi hx e => by
    rw [ha.2 _ (by omega), ha.2 _ (by omega), hb.2 _ (by omega), hb.2 _ (by omega)] at e
    exact mod_unique (half_lane hF hN).2 hx e
end

theorem rng8u {N : Nat} (hN : N ≤ 16) {a : List Int} (ha : Reg u8 a) {i : Nat} (hi : i < N) : 0 ≤ lane a i ∧ lane a i ≤ 255 :=
  ha.lane_has (i := i) (show i < 16 by omega)
theorem rng8i {N : Nat} (hN : N ≤ 16) {a : List Int} (ha : Reg i8 a) {i : Nat} (hi : i < N) :
    -128 ≤ lane a i ∧ lane a i ≤ 127 := ha.lane_has (i := i) (show i < 16 by omega)
theorem rng16i {N : Nat} (hN : N ≤ 8) {a : List Int} (ha : Reg i16 a) {i : Nat} (hi : i < N) :
    -32768 ≤ lane a i ∧ lane a i ≤ 32767 := ha.lane_has (i := i) (show i < 8 by omega)

theorem mul_bounds {x y a b c d : Int} (h1 : a ≤ x) (h2 : x ≤ b) (h3 : c ≤ y) (h4 : y ≤ d) :
    min (min (a * c) (a * d)) (min (b * c) (b * d)) ≤ x * y ∧ x * y ≤ max (max (a * c) (a * d)) (max (b * c) (b * d)) := by
  have key : ∀ z : Int, c ≤ z → z ≤ d → ∀ w : Int, min (w * c) (w * d) ≤ w * z ∧ w * z ≤ max (w * c) (w * d) := by
    intro z hz1 hz2 w
    rcases le_total 0 w with hw | hw
    · exact ⟨(min_le_left _ _).trans (mul_le_mul_of_nonneg_left hz1 hw), (mul_le_mul_of_nonneg_left hz2 hw).trans (le_max_right _ _)⟩
    · exact ⟨(min_le_right _ _).trans (mul_le_mul_of_nonpos_left hz2 hw), (mul_le_mul_of_nonpos_left hz1 hw).trans (le_max_left _ _)⟩
  obtain ⟨k1, k2⟩ := key y h3 h4 a
  obtain ⟨k3, k4⟩ := key y h3 h4 b
  have m : min (a * y) (b * y) ≤ x * y ∧ x * y ≤ max (a * y) (b * y) := by
    rcases le_total 0 y with hw | hw
    · exact ⟨(min_le_left _ _).trans (mul_le_mul_of_nonneg_right h1 hw), (mul_le_mul_of_nonneg_right h2 hw).trans (le_max_right _ _)⟩
    · exact ⟨(min_le_right _ _).trans (mul_le_mul_of_nonpos_right h2 hw), (mul_le_mul_of_nonpos_right h1 hw).trans (le_max_left _ _)⟩
  exact ⟨(min_le_min k1 k3).trans m.1, m.2.trans (max_le_max k2 k4)⟩

/-! ### Sums -/

/-- `SumsOf4`: the exact sum of four adjacent lanes. -/
theorem C55_sums_of_4 {tF : Ty} (hF : tF = u8 ∨ tF = i8 ∨ tF = u16 ∨ tF = i16) {N : Nat} (hN : N ≤ cap tF.wide.wide) (ar : Bool)
    {a : List Int} (ha : Reg tF a) :
    Lanes tF.wide.wide N (SumsOf4 ar tF N a) (fun i r =>
      r = lane a (4 * i) + lane a (4 * i + 1) + lane a (4 * i + 2) + lane a (4 * i + 3)) := by
  have h1 : tF ∈ halfTys ∧ tF.wide ∈ halfTys ∧ cap tF.wide = 2 * cap tF.wide.wide := by
    rcases hF with rfl | rfl | rfl | rfl <;> decide
  refine Runs.lanes (Runs.bind (zsums2 h1.1 (N := 2 * N) (by omega) ar (Is.refl ha)) fun s hs => zsums2 h1.2.1 hN ar hs) hN
    fun i _ _ => ?_
  beta_reduce
  rw [show 2 * (2 * i) = 4 * i by omega, show 2 * (2 * i + 1) = 4 * i + 2 by omega, show 4 * i + 2 + 1 = 4 * i + 3 by omega]
  omega

/-- `WidenMulAccumulate`: products of the lower halves added to `low`, of the upper halves to `high`. -/
theorem C55_widen_mul_accumulate {tF : Ty} (hF : tF ∈ halfTys) {N : Nat} (hN : N ≤ cap tF.wide) {a b low high : List Int}
    (ha : Reg tF a) (hb : Reg tF b) (hl : Reg tF.wide low) (hh : Reg tF.wide high) :
    ∃ r s, WidenMulAccumulate tF N a b low high = .ok (r, s) ∧ Reg tF.wide r ∧ Reg tF.wide s ∧
      (∀ i, i < N → lane r i ≡ lane low i + lane a i * lane b i [ZMOD 2 ^ tF.wide.bits]) ∧
      (∀ i, i < N → lane s i ≡ lane high i + lane a (N + i) * lane b (N + i) [ZMOD 2 ^ tF.wide.bits]) := by
  obtain ⟨h1, h2⟩ := half_lane hF hN
  have hb2 : tF.wide.bits = 2 * tF.bits := rfl
  have hc := cap_double h2 h1 hb2
  have mula : ∀ {x y z : List Int} {A B C : Nat → Int}, Is tF.wide N x A → Is tF.wide N y B → Is tF.wide N z C →
      Runs tF.wide N (MulAdd tF.wide N x y z) (fun i => tF.wide.wrap (tF.wide.wrap (A i * B i) + C i)) := fun hx hy hz =>
    Runs.bind (xmul h2 hN hx hy) fun p hp => xadd h2 hN hp hz
  obtain ⟨ua, e1, hua⟩ := ypupper h1 h2 hb2 rfl (H := N) (by omega) (Is.refl ha)
  obtain ⟨ub, e2, hub⟩ := ypupper h1 h2 hb2 rfl (H := N) (by omega) (Is.refl hb)
  obtain ⟨s, e3, hs⟩ := mula hua hub (Is.refl hh)
  obtain ⟨la, e4, hla⟩ := yplower h1 h2 hb2 rfl (H := N) (by omega) (Is.refl ha)
  obtain ⟨lb, e5, hlb⟩ := yplower h1 h2 hb2 rfl (H := N) (by omega) (Is.refl hb)
  obtain ⟨r, e6, hr⟩ := mula hla hlb (Is.refl hl)
  refine ⟨r, s, ?_, hr.1, hs.1, fun i hi => ?_, fun i hi => ?_⟩
  · unfold WidenMulAccumulate
    rw [e1, ok_bind', e2, ok_bind', e3, ok_bind', e4, ok_bind', e5, ok_bind', e6, ok_bind']
    rfl
  · rw [hr.2 i hi, add_comm (lane low i)]
    exact (modEq_wrap _ _).trans ((modEq_wrap _ _).add_right _)
  · rw [hs.2 i hi, add_comm (lane high i)]
    exact (modEq_wrap _ _).trans ((modEq_wrap _ _).add_right _)

/-- `SatWidenMulPairwiseAdd`: the exact `a[2i] b[2i] + a[2i+1] b[2i+1]` limited to `int16_t`. -/
theorem C55_sat_widen_mul_pairwise_add {N : Nat} (hN : N ≤ 8) (ar : Bool) {a b : List Int} (ha : Reg u8 a) (hb : Reg i8 b) :
    Lanes i16 N (SatWidenMulPairwiseAdd ar N a b) (fun i r =>
      r = clamp i16 (lane a (2 * i) * lane b (2 * i) + lane a (2 * i + 1) * lane b (2 * i + 1))) := by
  have h16 : i16 ∈ laneTys := by decide
  refine Runs.lanes (Runs.bind (zeven (tF := u8) (by decide) hN ar (Is.refl ha)) fun a0 ha0 =>
    Runs.bind (zeven (tF := i8) (by decide) hN ar (Is.refl hb)) fun b0 hb0 =>
    Runs.bind (zodd (tF := u8) (by decide) hN ar (Is.refl ha)) fun a1 ha1 =>
    Runs.bind (zodd (tF := i8) (by decide) hN ar (Is.refl hb)) fun b1 hb1 =>
    Runs.bind (xmul h16 hN (is_bc_same ha0 h16 rfl hN) hb0) fun p hp =>
    Runs.bind (xmul h16 hN (is_bc_same ha1 h16 rfl hN) hb1) fun q hq => xsatadd (by decide) hN hp hq) hN fun i hi _ => ?_
  beta_reduce
  have key : ∀ j, j < 16 → i16.wrap (i16.wrap (lane a j) * lane b j) = lane a j * lane b j := by
    intro j hj
    have f1 := rng8u le_rfl ha hj
    have f2 := rng8i le_rfl hb hj
    rw [wrap_has' (t := i16) h16 (x := lane a j) (show (-32768 : Int) ≤ _ ∧ _ ≤ (32767 : Int) by omega)]
    have := mul_bounds f1.1 f1.2 f2.1 f2.2
    exact wrap_has' h16 (show (-32768 : Int) ≤ _ ∧ _ ≤ (32767 : Int) by omega)
  rw [key _ (by omega), key _ (by omega)]

/-- The exact pairwise sum of products of `int16_t` and its wrapped value. -/
theorem pair16 {w x y z : Int} (hw : -32768 ≤ w ∧ w ≤ 32767) (hx : -32768 ≤ x ∧ x ≤ 32767) (hy : -32768 ≤ y ∧ y ≤ 32767)
    (hz : -32768 ≤ z ∧ z ≤ 32767) :
    (i32.wrap (w * x + y * z) = w * x + y * z ∧ -2147483648 < w * x + y * z ∧ w * x + y * z ≤ 2147483647) ∨
    (w * x + y * z = 2147483648 ∧ i32.wrap (w * x + y * z) = -2147483648) := by
  have h1 := mul_bounds hw.1 hw.2 hx.1 hx.2
  have h2 := mul_bounds hy.1 hy.2 hz.1 hz.2
  by_cases c : w * x + y * z = 2147483648
  · right
    exact ⟨c, by rw [c]; decide +kernel⟩
  · left
    exact ⟨wrap_has' (by decide) (show (-2147483648 : Int) ≤ _ ∧ _ ≤ (2147483647 : Int) by omega), by omega, by omega⟩

theorem run_sat_acc {N : Nat} (hN : N ≤ 4) (ar : Bool) {a b sum : List Int} {A B S : Nat → Int} (ha : Is i16 (2 * N) a A)
    (hb : Is i16 (2 * N) b B) (hs : Is i32 N sum S) :
    Runs i32 N (SatWidenMulPairwiseAccumulate ar N a b sum) (fun i =>
      clamp i32 (S i + (A (2 * i) * B (2 * i) + A (2 * i + 1) * B (2 * i + 1)))) := by
  have h32 : i32 ∈ laneTys := by decide
  refine Runs.congr (Runs.bind (zwmpa (tF := i16) (by decide) hN ar ha hb) fun p hp =>
    Runs.bind (xset h32 hN (x := -2147483648) (by decide)) fun c hc => RunsM.bind (xeq h32 hN hp hc) fun m hm =>
    Runs.bind (xbsb h32 hN ar rfl hs) fun g hg => Runs.bind (xand h32 hN hg (is_vecFromMask h32 hm)) fun d hd =>
    Runs.bind (xsub h32 hN hs hd) fun e he => Runs.bind (xadd h32 hN hp (is_vecFromMask h32 hm)) fun f hf =>
    run_sat_add h32 hN ar he hf) fun i hi => ?_
  beta_reduce
  have r1 : -32768 ≤ A (2 * i) ∧ A (2 * i) ≤ 32767 := ha.has (show 2 * N ≤ 8 by omega) (by omega)
  have r2 : -32768 ≤ B (2 * i) ∧ B (2 * i) ≤ 32767 := hb.has (show 2 * N ≤ 8 by omega) (by omega)
  have r3 : -32768 ≤ A (2 * i + 1) ∧ A (2 * i + 1) ≤ 32767 := ha.has (show 2 * N ≤ 8 by omega) (by omega)
  have r4 : -32768 ≤ B (2 * i + 1) ∧ B (2 * i + 1) ≤ 32767 := hb.has (show 2 * N ≤ 8 by omega) (by omega)
  have rs : -2147483648 ≤ S i ∧ S i ≤ 2147483647 := hs.has hN hi
  have e1 : i32.wrap (-1) = -1 := by decide +kernel
  have z0 : ∀ x : Int, i32.ofBits (bitsOf i32 x &&& bitsOf i32 0) = 0 := by
    intro x
    rw [ofBits_eq_iff h32 hN (by decide)]
    simp [bitsOf]
  have z1 : i32.ofBits (bitsOf i32 (-1) &&& bitsOf i32 (-1)) = -1 := by decide +kernel
  have z2 : i32.ofBits (bitsOf i32 0 &&& bitsOf i32 (-1)) = 0 := by decide +kernel
  show clamp i32 (i32.wrap (S i - i32.ofBits (_ &&& bitsOf i32 (if decide (i32.wrap _ = _) = true then i32.wrap (-1) else 0))) +
    i32.wrap (i32.wrap _ + if decide (i32.wrap _ = _) = true then i32.wrap (-1) else 0)) = _
  rcases pair16 r1 r2 r3 r4 with ⟨p1, p2, p3⟩ | ⟨p1, p2⟩
  · have q : (if decide (A (2 * i) * B (2 * i) + A (2 * i + 1) * B (2 * i + 1) = -2147483648) = true then i32.wrap (-1)
        else (0 : Int)) = 0 := if_neg (by simp; omega)
    rw [p1, q, z0, sub_zero, add_zero, wrap_has' (x := S i) h32 rs, p1]
  · have q : (if decide ((-2147483648 : Int) = -2147483648) = true then i32.wrap (-1) else (0 : Int)) = -1 := by
      rw [if_pos (by simp), e1]
    rw [p2, p1, q]
    by_cases c : S i < 0
    · rw [if_pos c, z1]
      have w1 : i32.wrap (S i - -1) = S i + 1 := by
        rw [sub_neg_eq_add]
        exact wrap_has' h32 (show (-2147483648 : Int) ≤ _ ∧ _ ≤ (2147483647 : Int) by omega)
      have w2 : i32.wrap (-2147483648 + -1) = 2147483647 := by decide +kernel
      rw [w1, w2]
      congr 1
      omega
    · rw [if_neg c, z2, sub_zero, wrap_has' (x := S i) h32 rs]
      have w2 : i32.wrap (-2147483648 + -1) = 2147483647 := by decide +kernel
      have lh : i32.lo ≤ i32.hi := by decide
      have lo : i32.lo = -2147483648 := by decide
      have hi' : i32.hi = 2147483647 := by decide
      rw [w2, clamp_cases i32 _ lh, clamp_cases i32 _ lh, lo, hi']
      split_ifs <;> omega

/-- `SatWidenMulPairwiseAccumulate`: `sum[i] + a[2i] b[2i] + a[2i+1] b[2i+1]`, saturated once. -/
theorem C55_sat_widen_mul_pairwise_accumulate {N : Nat} (hN : N ≤ 4) (ar : Bool) {a b sum : List Int} (ha : Reg i16 a)
    (hb : Reg i16 b) (hs : Reg i32 sum) :
    Lanes i32 N (SatWidenMulPairwiseAccumulate ar N a b sum) (fun i r =>
      r = clamp i32 (lane sum i + (lane a (2 * i) * lane b (2 * i) + lane a (2 * i + 1) * lane b (2 * i + 1)))) :=
  (run_sat_acc hN ar (Is.refl ha) (Is.refl hb) (Is.refl hs)).lanes hN fun _ _ _ => rfl

/-- `SatWidenMulAccumFixedPoint`: `sum[i] + 2 a[i] b[i]`, saturated once. -/
theorem C55_sat_widen_mul_accum_fixed_point {N : Nat} (hN : N ≤ 4) (ar : Bool) {a b sum : List Int} (ha : Reg i16 a)
    (hb : Reg i16 b) (hs : Reg i32 sum) :
    Lanes i32 N (SatWidenMulAccumFixedPoint ar N a b sum) (fun i r =>
      r = clamp i32 (lane sum i + 2 * (lane a i * lane b i))) := by
  have hil : ∀ v, Reg i16 v → Runs i16 (2 * N) (InterleaveLower 0 8 (2 * N) v v) (fun i => lane v (i / 2)) := by
    intro v hv
    refine Gives.runs (C47_interleave_lower (0 : Int) (c := 8) (by omega) (by omega) hv.len hv.len) (fun r e => ?_) fun i hi => ?_
    · unfold InterleaveLower at e
      exact forN_all (fun _ _ _ e h => move_all_bind e hv.has h fun _ e h => move_all e hv.has h) e
        (fresh_all (show i16.Has 0 by decide))
    · have : v[i / 2]? = some (lane v (i / 2)) := lane_some (by rw [hv.len]; show _ < 8; omega)
      split_ifs <;> exact this
  refine Runs.lanes (Runs.bind (hil a ha) fun x hx => Runs.bind (hil b hb) fun y hy => run_sat_acc hN ar hx hy (Is.refl hs)) hN
    fun i hi _ => ?_
  beta_reduce
  rw [show 2 * i / 2 = i by omega, show (2 * i + 1) / 2 = i by omega]
  congr 2
  ring

end Emu
end Hwy
