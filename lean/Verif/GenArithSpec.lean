import Verif.GenArith
import Verif.GenDivSpec2

/-!
# C39: arithmetic fallbacks on integer lanes

Every theorem gives the exact integer value of each lane (or its residue where the operation is documented to wrap).
-/

namespace Hwy
namespace Emu
open CInt Finset

set_option linter.unusedSectionVars false

/-! ### Lane lemmas -/

section
variable {t : Ty} (h : t ∈ laneTys)
include h

theorem wrap_eq {x y : Int} (hy : t.Has y) (k : Int) (e : x = y + k * 2 ^ t.bits) : t.wrap x = y := by
  refine (mod_unique h hy ?_).symm
  rw [e]
  exact (Int.modEq_iff_dvd.2 ⟨k, by ring⟩)

theorem bits_ofBits (w : BitVec t.bits) : bitsOf t (t.ofBits w) = w := ofInt_ofBits _ _

theorem ofBits_bits {x : Int} (hx : t.Has x) : t.ofBits (bitsOf t x) = x :=
  (bits_unique h hx rfl).symm

theorem sgn_bounds : (t.sgn = true → t.lo = -2 ^ (t.bits - 1) ∧ t.hi = 2 ^ (t.bits - 1) - 1) ∧
    (t.sgn = false → t.lo = 0 ∧ t.hi = 2 ^ t.bits - 1) ∧ (2 : Int) ^ t.bits = 2 * 2 ^ (t.bits - 1) ∧
    (8 : Nat) ≤ t.bits := by
  revert h; revert t; decide +kernel

theorem msb_lane {x : Int} (hs : t.sgn = true) (hx : t.Has x) : (bitsOf t x).msb = decide (x < 0) := by
  obtain ⟨h1, -, h3, h4⟩ := sgn_bounds h
  obtain ⟨hl, hh⟩ := h1 hs
  have hx' : t.lo ≤ x ∧ x ≤ t.hi := hx
  unfold bitsOf
  rw [BitVec.msb_eq_toInt, BitVec.toInt_ofInt]
  have : Int.bmod x (2 ^ t.bits) = x := by
    have e : ((2 ^ t.bits : Nat) : Int) = 2 * 2 ^ (t.bits - 1) := by push_cast; exact h3
    apply Int.bmod_eq_of_le <;> omega
  rw [this]

theorem signed_facts : t.signed ∈ laneTys ∧ t.signed.bits = t.bits ∧ t.signed.sgn = true ∧ cap t.signed = cap t := by
  revert h; revert t; decide

end

/-- Masks do not depend on the signedness. -/
theorem mask_u {t : Ty} (_ : t ∈ laneTys) {N : Nat} {m : List Int} {p : Nat → Bool} (hm : IsMask t.unsigned N m p) : IsMask t N m p :=
  ⟨hm.len, hm.has, hm.lanes⟩

section
variable {t : Ty} (h : t ∈ laneTys) {N : Nat} (hN : N ≤ cap t)
include h hN

theorem xavg (ar : Bool) {a b : List Int} {F G : Nat → Int} (ha : Is t N a F) (hb : Is t N b G) :
    Runs t N (AverageRound ar t N a b) (fun i => (F i + G i + 1) / 2) :=
  (C38_average_round ar h hN ha.1 hb.1).runs hN (fun i x hi hx e => by rw [e, ha.2 i hi, hb.2 i hi])

/-- A vector of all-ones and zero lanes is a mask. -/
theorem is_mask {v : List Int} {F : Nat → Int} {b : Nat → Bool} (hv : Is t N v F)
    (hF : ∀ i, i < N → F i = if b i then t.wrap (-1) else 0) : IsMask t N (maskFromVec t v) b := by
  obtain ⟨hum, -, hub, -⟩ := unsigned_facts h
  refine ⟨by unfold maskFromVec; rw [List.length_map]; exact hv.1.len, fun x hx => ?_, fun i hi => ?_⟩
  · unfold maskFromVec at hx
    obtain ⟨y, -, rfl⟩ := List.mem_map.1 hx
    exact has_wrap' hum y
  · unfold maskFromVec
    rw [lane_map (wrap_zero hum), hv.2 i hi, hF i hi]
    have hw : t.unsigned.wrap (t.wrap (-1)) = 2 ^ t.bits - 1 := by
      have : ∀ t ∈ laneTys, t.unsigned.wrap (t.wrap (-1)) = 2 ^ t.bits - 1 := by decide +kernel
      exact this t h
    cases b i
    · simp [wrap_zero hum]
    · simpa using hw

theorem ofBits_eq_iff {x : Int} {w : BitVec t.bits} (hx : t.Has x) : t.ofBits w = x ↔ w = bitsOf t x :=
  ⟨fun e => by rw [← e, bits_ofBits h], fun e => by rw [e, ofBits_bits h hx]⟩

/-! ### Selection -/

/-- `Clamp`: the closest value in `[lo, hi]`. -/
theorem C39_clamp {v lo hi : List Int} (hv : Reg t v) (hlo : Reg t lo) (hhi : Reg t hi) :
    Lanes t N (Clamp t N v lo hi) (fun i r => lane lo i ≤ lane hi i →
      lane lo i ≤ r ∧ r ≤ lane hi i ∧ (lane lo i ≤ lane v i → lane v i ≤ lane hi i → r = lane v i) ∧
      (lane v i < lane lo i → r = lane lo i) ∧ (lane hi i < lane v i → r = lane hi i)) := by
  refine Runs.lanes (Runs.bind (xmax h hN (Is.refl hlo) (Is.refl hv)) fun m hm => xmin h hN hm (Is.refl hhi)) hN
    fun i _ _ hle => ?_
  omega

/-- `BitwiseIfThenElse`: every bit of the result is selected by the same bit of the mask. -/
theorem C39_bitwise_if_then_else {m yes no : List Int} (hm : Reg t m) (hy : Reg t yes) (hn : Reg t no) :
    Lanes t N (BitwiseIfThenElse t N m yes no) (fun i r => ∀ k, k < t.bits →
      (bitsOf t r).getLsbD k = if (bitsOf t (lane m i)).getLsbD k then (bitsOf t (lane yes i)).getLsbD k
        else (bitsOf t (lane no i)).getLsbD k) := by
  refine Runs.lanes (Runs.bind (xand h hN (Is.refl hm) (Is.refl hy)) fun x hx =>
    Runs.bind (xandnot h hN (Is.refl hm) (Is.refl hn)) fun y hy => xor' h hN hx hy) hN fun i _ _ k hk => ?_
  rw [bits_ofBits h, bits_ofBits h, bits_ofBits h]
  rw [BitVec.getLsbD_or, BitVec.getLsbD_and, BitVec.getLsbD_and, BitVec.getLsbD_not]
  cases (bitsOf t (lane m i)).getLsbD k <;> simp only [hk, decide_true] <;> simp

/-- `RotateLeft`. -/
theorem C39_rotate_left (ar : Bool) {a : List Int} (ha : Reg t a) {k : Nat} (hk : k < t.bits) :
    Lanes t N (RotateLeft ar t N k a) (fun i x => bitsOf t x = (bitsOf t (lane a i)).rotateLeft k) := by
  unfold RotateLeft
  by_cases h0 : k = 0
  · subst h0
    rw [if_pos rfl]
    have := C38_rotate_right ar h hN ha (k := 0) (by omega)
    refine Lanes.mono this fun i x _ e => ?_
    rw [e]
    apply BitVec.eq_of_getLsbD_eq
    intro j hj
    rw [BitVec.getLsbD_rotateRight, BitVec.getLsbD_rotateLeft]
    simp [hj]
  · rw [if_neg h0]
    have := C38_rotate_right ar h hN ha (k := t.bits - k) (by omega)
    rw [show ((t.bits - k : Nat) : Int) = (t.bits : Int) - k by omega] at this
    refine this.mono fun i x _ e => ?_
    rw [e]
    apply BitVec.eq_of_getLsbD_eq
    intro j hj
    rw [BitVec.getLsbD_rotateRight, BitVec.getLsbD_rotateLeft, Nat.mod_eq_of_lt hk,
      Nat.mod_eq_of_lt (show t.bits - k < t.bits by omega)]
    rw [show t.bits - (t.bits - k) = k by omega]

/-! ### Sign tests -/

/-- The sign mask. -/
theorem run_is_negative (ar : Bool) (hs : t.sgn = true) {v : List Int} (hv : Reg t v) :
    RunsM t N (IsNegative ar t N v) (fun i => decide (lane v i < 0)) := by
  obtain ⟨hm, hb, hsg, hc⟩ := signed_facts h
  have e : t.signed = t := by
    have : ∀ t ∈ laneTys, t.sgn = true → t.signed = t := by decide
    exact this t h hs
  unfold IsNegative
  rw [e]
  refine Runs.bindM (xbsb h hN ar hs (is_bc_same (Is.refl hv) h rfl hN)) fun w hw => RunsM.ret ?_
  refine is_mask h hN (is_bc_same hw h rfl hN) fun i hi => ?_
  rw [wrap_has' h (hv.lane_has (by omega))]
  by_cases c : lane v i < 0
  · rw [if_pos c, if_pos (by simpa using c)]
  · rw [if_neg c, if_neg (by simpa using c), wrap_zero h]

/-- `IsNegative`. -/
theorem C39_is_negative (ar : Bool) (hs : t.sgn = true) {v : List Int} (hv : Reg t v) :
    ∃ m, IsNegative ar t N v = .ok m ∧ IsMask t N m (fun i => decide (lane v i < 0)) :=
  run_is_negative h hN ar hs hv

/-- `IfNegativeThenElseZero`, `IfNegativeThenZeroElse`, `ZeroIfNegative`. -/
theorem C39_if_negative (ar : Bool) (hs : t.sgn = true) {v x : List Int} (hv : Reg t v) (hx : Reg t x) :
    Lanes t N (IfNegativeThenElseZero ar t N v x) (fun i r => r = if lane v i < 0 then lane x i else 0) ∧
    Lanes t N (IfNegativeThenZeroElse ar t N v x) (fun i r => r = if lane v i < 0 then 0 else lane x i) ∧
    Lanes t N (ZeroIfNegative ar t N v) (fun i r => r = max (lane v i) 0) := by
  refine ⟨?_, ?_, ?_⟩
  · refine Runs.lanes (RunsM.bind (run_is_negative h hN ar hs hv) fun m hm => xitez h hN hm (Is.refl hx)) hN fun i _ _ => ?_
    simp
  · refine Runs.lanes (RunsM.bind (run_is_negative h hN ar hs hv) fun m hm => xitze h hN hm (Is.refl hx)) hN fun i _ _ => ?_
    simp
  · refine Runs.lanes (RunsM.bind (run_is_negative h hN ar hs hv) fun m hm => xitze h hN hm (Is.refl hv)) hN fun i _ _ => ?_
    simp only [decide_eq_true_eq]
    split_ifs <;> omega

/-- `IfNegativeThenNegOrUndefIfZero`: negated (modulo the lane size) where the mask operand is negative. -/
theorem C39_if_negative_then_neg {m v : List Int} (hm : Reg t m) (hv : Reg t v) (hs : t.sgn = true) :
    Lanes t N (IfNegativeThenNegOrUndefIfZero t N m v) (fun i r =>
      r ≡ (if lane m i < 0 then - lane v i else lane v i) [ZMOD 2 ^ t.bits]) := by
  refine Runs.lanes (Runs.bind (xneg h hN (Is.refl hv)) fun n hn => xneg_ite h hN (Is.refl hm) hn (Is.refl hv)) hN
    fun i hi _ => ?_
  rw [msb_lane h hs (hm.lane_has (by omega))]
  simp only [decide_eq_true_eq]
  split_ifs
  · exact modEq_wrap t _
  · rfl

/-! ### Magnitudes -/

theorem abs_bits {x : Int} (hs : t.sgn = true) (hx : t.Has x) : t.unsigned.wrap (t.wrap |x|) = |x| := by
  obtain ⟨hum, hu, hub, -⟩ := unsigned_facts h
  obtain ⟨h1, -, h3, -⟩ := sgn_bounds h
  obtain ⟨-, h2, -, -⟩ := sgn_bounds hum
  obtain ⟨hl, hh⟩ := h1 hs
  obtain ⟨ul, uh⟩ := h2 hu
  rw [hub] at uh
  have hx' : t.lo ≤ x ∧ x ≤ t.hi := hx
  have hp : (0 : Int) < 2 ^ (t.bits - 1) := by positivity
  have hU : t.unsigned.Has |x| := by
    show t.unsigned.lo ≤ |x| ∧ |x| ≤ t.unsigned.hi
    rw [ul, uh, h3]
    rcases abs_cases x with ⟨e, _⟩ | ⟨e, _⟩ <;> rw [e] <;> omega
  refine (mod_unique hum hU ?_).symm
  rw [hub]
  exact (modEq_wrap t _).symm

/-- `MinMagnitude`: the operand with the smaller magnitude; of equal ones the smaller. -/
theorem C39_min_magnitude {a b : List Int} (ha : Reg t a) (hb : Reg t b) :
    Lanes t N (MinMagnitude t N a b) (fun i r =>
      r = if |lane a i| < |lane b i| ∨ |lane a i| = |lane b i| ∧ lane a i < lane b i then lane a i else lane b i) := by
  unfold MinMagnitude
  split_ifs with hs
  · obtain ⟨hum, hu, hub, huc⟩ := unsigned_facts h
    refine Runs.lanes (Runs.bind (yabs h hN (Is.refl ha)) fun x hx => Runs.bind (yabs h hN (Is.refl hb)) fun y hy =>
      RunsM.bind (xlt hum (by omega) (is_bc_same hx hum hub (by omega)) (is_bc_same hy hum hub (by omega))) fun m hm =>
      RunsM.bind (xeq hum (by omega) (is_bc_same hx hum hub (by omega)) (is_bc_same hy hum hub (by omega))) fun e he =>
      Runs.bind (xite h hN (mask_u h he) (Is.refl ha) (Is.refl hb)) fun s hs =>
      Runs.bind (xmin h hN hs (Is.refl hb)) fun n hn => xite h hN (mask_u h hm) (Is.refl ha) hn) hN fun i hi _ => ?_
    simp only [decide_eq_true_eq]
    rw [abs_bits h hN hs (ha.lane_has (by omega)), abs_bits h hN hs (hb.lane_has (by omega))]
    split_ifs <;> omega
  · have hs' : t.sgn = false := by simpa using hs
    refine Runs.lanes (xmin h hN (Is.refl ha) (Is.refl hb)) hN fun i hi _ => ?_
    have h1 : t.lo ≤ lane a i ∧ lane a i ≤ t.hi := ha.lane_has (i := i) (by omega)
    have h2 : t.lo ≤ lane b i ∧ lane b i ≤ t.hi := hb.lane_has (i := i) (by omega)
    have := ((sgn_bounds h).2.1 hs').1
    rw [abs_of_nonneg (by omega), abs_of_nonneg (by omega)]
    split_ifs <;> omega

/-- `MaxMagnitude`: the operand with the larger magnitude; of equal ones the larger. -/
theorem C39_max_magnitude {a b : List Int} (ha : Reg t a) (hb : Reg t b) :
    Lanes t N (MaxMagnitude t N a b) (fun i r =>
      r = if |lane a i| < |lane b i| ∨ |lane a i| = |lane b i| ∧ lane a i < lane b i then lane b i else lane a i) := by
  unfold MaxMagnitude
  split_ifs with hs
  · obtain ⟨hum, hu, hub, huc⟩ := unsigned_facts h
    refine Runs.lanes (Runs.bind (yabs h hN (Is.refl ha)) fun x hx => Runs.bind (yabs h hN (Is.refl hb)) fun y hy =>
      RunsM.bind (xlt hum (by omega) (is_bc_same hx hum hub (by omega)) (is_bc_same hy hum hub (by omega))) fun m hm =>
      RunsM.bind (xeq hum (by omega) (is_bc_same hx hum hub (by omega)) (is_bc_same hy hum hub (by omega))) fun e he =>
      Runs.bind (xite h hN (mask_u h he) (Is.refl hb) (Is.refl ha)) fun s hs =>
      Runs.bind (xmax h hN hs (Is.refl ha)) fun n hn => xite h hN (mask_u h hm) (Is.refl hb) hn) hN fun i hi _ => ?_
    simp only [decide_eq_true_eq]
    rw [abs_bits h hN hs (ha.lane_has (by omega)), abs_bits h hN hs (hb.lane_has (by omega))]
    split_ifs <;> omega
  · have hs' : t.sgn = false := by simpa using hs
    refine Runs.lanes (xmax h hN (Is.refl ha) (Is.refl hb)) hN fun i hi _ => ?_
    have h1 : t.lo ≤ lane a i ∧ lane a i ≤ t.hi := ha.lane_has (i := i) (by omega)
    have h2 : t.lo ≤ lane b i ∧ lane b i ≤ t.hi := hb.lane_has (i := i) (by omega)
    have := ((sgn_bounds h).2.1 hs').1
    rw [abs_of_nonneg (by omega), abs_of_nonneg (by omega)]
    split_ifs <;> omega

/-- `AbsDiff`: modulo the lane size; exact if representable. -/
theorem run_abs_diff {a b : List Int} {F G : Nat → Int} (ha : Is t N a F) (hb : Is t N b G) :
    Runs t N (AbsDiff t N a b) (fun i => t.wrap |F i - G i|) :=
  Runs.congr (Runs.bind (xmax h hN ha hb) fun x hx => Runs.bind (xmin h hN ha hb) fun y hy => xsub h hN hx hy)
    fun i _ => by rw [max_sub_min_eq_abs']

theorem C39_abs_diff {a b : List Int} (ha : Reg t a) (hb : Reg t b) :
    Lanes t N (AbsDiff t N a b) (fun i r => r ≡ |lane a i - lane b i| [ZMOD 2 ^ t.bits] ∧
      (t.Has |lane a i - lane b i| → r = |lane a i - lane b i|) ∧ (t.sgn = false → r = |lane a i - lane b i|)) := by
  refine Runs.lanes (run_abs_diff h hN (Is.refl ha) (Is.refl hb)) hN fun i hi _ => ⟨modEq_wrap t _, fun hh => wrap_has' h hh, fun hs => ?_⟩
  refine wrap_has' h ?_
  have h1 : t.lo ≤ lane a i ∧ lane a i ≤ t.hi := ha.lane_has (i := i) (by omega)
  have h2 : t.lo ≤ lane b i ∧ lane b i ≤ t.hi := hb.lane_has (i := i) (by omega)
  have h3 := ((sgn_bounds h).2.1 hs).1
  show t.lo ≤ _ ∧ _ ≤ t.hi
  rcases abs_cases (lane a i - lane b i) with ⟨e, _⟩ | ⟨e, _⟩ <;> rw [e] <;> omega

end

end Emu
end Hwy
