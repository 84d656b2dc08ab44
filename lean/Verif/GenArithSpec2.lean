import Verif.GenArithSpec

/-!
# C39: saturating and rounding operations on integer lanes
-/

namespace Hwy
namespace Emu
open CInt Finset

set_option linter.unusedSectionVars false

theorem bits_not {w : Nat} (x : Int) : ~~~ BitVec.ofInt w x = BitVec.ofInt w (-x - 1) := by
  have := BitVec.neg_eq_not_add (BitVec.ofInt w x)
  rw [sub_eq_add_neg, BitVec.ofInt_add, BitVec.ofInt_neg, this, BitVec.ofInt_neg]
  simp [BitVec.add_assoc]

section
variable {t : Ty} (h : t ∈ laneTys) {N : Nat} (hN : N ≤ cap t)
include h hN

/-- The saturated value: `lo` for negative `a`, `hi` otherwise. -/
theorem sat_value (hs : t.sgn = true) (a : Int) :
    t.ofBits (bitsOf t (if a < 0 then -1 else 0) ^^^ bitsOf t t.hi) = if a < 0 then t.lo else t.hi := by
  have key : ∀ t ∈ laneTys, t.sgn = true → t.ofBits (bitsOf t (-1) ^^^ bitsOf t t.hi) = t.lo ∧
      t.ofBits (bitsOf t 0 ^^^ bitsOf t t.hi) = t.hi := by decide +kernel
  split_ifs
  · exact (key t h hs).1
  · exact (key t h hs).2

/-- The wrapped sum or difference of two lanes. -/
theorem wrap_near (hs : t.sgn = true) {z : Int} (hz : - 2 ^ t.bits ≤ z ∧ z < 2 ^ t.bits) :
    t.wrap z = if z < t.lo then z + 2 ^ t.bits else if t.hi < z then z - 2 ^ t.bits else z := by
  obtain ⟨h1, -, h3, -⟩ := sgn_bounds h
  obtain ⟨hl, hh⟩ := h1 hs
  split_ifs with c1 c2
  · exact wrap_eq h (show t.lo ≤ _ ∧ _ ≤ t.hi by omega) (-1) (by ring)
  · exact wrap_eq h (show t.lo ≤ _ ∧ _ ≤ t.hi by omega) 1 (by ring)
  · exact wrap_eq h (show t.lo ≤ _ ∧ _ ≤ t.hi by omega) 0 (by ring)

theorem run_sat_add (ar : Bool) {a b : List Int} {F G : Nat → Int} (ha : Is t N a F) (hb : Is t N b G) :
    Runs t N (SatAdd ar t N a b) (fun i => clamp t (F i + G i)) := by
  obtain ⟨h1, h2, h3, h4⟩ := sgn_bounds h
  have hlh : t.lo ≤ t.hi := by
    have hp : (0 : Int) < 2 ^ (t.bits - 1) := by positivity
    cases hs : t.sgn
    · have := h2 hs; omega
    · have := h1 hs; omega
  unfold SatAdd
  split_ifs with hw
  · have : t ∈ satTys := by
      have : ∀ t ∈ laneTys, t.bits ≤ 16 → t ∈ satTys := by decide
      exact this t h hw
    exact xsatadd this hN ha hb
  · unfold SatAddWide
    split_ifs with hs
    · obtain ⟨hl, hh⟩ := h1 hs
      have hset : t.Has t.hi := ⟨hlh, le_rfl⟩
      refine Runs.congr (Runs.bind (xadd h hN ha hb) fun s hs' => Runs.bind (xxor h hN ha hb) fun x hx =>
        Runs.bind (xxor h hN ha hs') fun y hy => Runs.bind (xandnot h hN hx hy) fun m hm =>
        Runs.bind (xbsb h hN ar hs ha) fun z hz => Runs.bind (xset h hN hset) fun w hw => Runs.bind (xxor h hN hz hw) fun o ho =>
        xneg_ite h hN hm ho hs') fun i hi => ?_
      have fa : t.lo ≤ F i ∧ F i ≤ t.hi := ha.has hN hi
      have fb : t.lo ≤ G i ∧ G i ≤ t.hi := hb.has hN hi
      have fs : t.Has (t.wrap (F i + G i)) := has_wrap' h _
      beta_reduce
      rw [bits_ofBits h, bits_ofBits h, bits_ofBits h, BitVec.msb_and, BitVec.msb_not, BitVec.msb_xor, BitVec.msb_xor,
        msb_lane h hs fa, msb_lane h hs fb, msb_lane h hs fs, sat_value h hN hs, clamp_cases t _ hlh]
      rw [wrap_near h hN hs (by omega)]
      have h0 : 0 < t.bits := by omega
      generalize (2 : Int) ^ (t.bits - 1) = P at *
      generalize F i = x at *
      generalize G i = y at *
      rcases lt_or_ge x 0 with c1 | c1 <;> rcases lt_or_ge y 0 with c2 | c2
      all_goals simp only [h0, c1, c2, decide_true, decide_false, not_lt.2, Bool.true_and, Bool.xor_self, Bool.not_false, if_true]
      all_goals (split_ifs <;> simp_all <;> omega)
    · have hs' : t.sgn = false := by simpa using hs
      obtain ⟨hl, hh⟩ := h2 hs'
      refine Runs.congr (Runs.bind (xnot h hN ha) fun n hn => Runs.bind (xmin h hN hb hn) fun m hm => xadd h hN ha hm) fun i hi => ?_
      have fa : t.lo ≤ F i ∧ F i ≤ t.hi := ha.has hN hi
      have fb : t.lo ≤ G i ∧ G i ≤ t.hi := hb.has hN hi
      beta_reduce
      have en : t.ofBits (~~~ bitsOf t (F i)) = t.hi - F i := by
        rw [ofBits_eq_iff h hN (show t.lo ≤ _ ∧ _ ≤ t.hi by omega), hh]
        unfold bitsOf
        rw [← BitVec.toNat_inj, BitVec.toNat_not, BitVec.toNat_ofInt, BitVec.toNat_ofInt]
        rw [Int.emod_eq_of_lt (by omega) (by push_cast; omega), Int.emod_eq_of_lt (by omega) (by push_cast; omega)]
        have : ((2 ^ t.bits : Nat) : Int) = 2 ^ t.bits := by push_cast; rfl
        omega
      rw [en, clamp_cases t _ hlh]
      rw [wrap_has' h (show t.lo ≤ _ ∧ _ ≤ t.hi by omega)]
      split_ifs <;> omega

theorem run_sat_sub (ar : Bool) {a b : List Int} {F G : Nat → Int} (ha : Is t N a F) (hb : Is t N b G) :
    Runs t N (SatSub ar t N a b) (fun i => clamp t (F i - G i)) := by
  obtain ⟨h1, h2, h3, h4⟩ := sgn_bounds h
  have hlh : t.lo ≤ t.hi := by
    have hp : (0 : Int) < 2 ^ (t.bits - 1) := by positivity
    cases hs : t.sgn
    · have := h2 hs; omega
    · have := h1 hs; omega
  unfold SatSub
  split_ifs with hw
  · have : t ∈ satTys := by
      have : ∀ t ∈ laneTys, t.bits ≤ 16 → t ∈ satTys := by decide
      exact this t h hw
    exact xsatsub this hN ha hb
  · unfold SatSubWide
    split_ifs with hs
    · obtain ⟨hl, hh⟩ := h1 hs
      have hset : t.Has t.hi := ⟨hlh, le_rfl⟩
      refine Runs.congr (Runs.bind (xsub h hN ha hb) fun s hs' => Runs.bind (xxor h hN ha hb) fun x hx =>
        Runs.bind (xxor h hN ha hs') fun y hy => Runs.bind (xand h hN hx hy) fun m hm =>
        Runs.bind (xbsb h hN ar hs ha) fun z hz => Runs.bind (xset h hN hset) fun w hw => Runs.bind (xxor h hN hz hw) fun o ho =>
        xneg_ite h hN hm ho hs') fun i hi => ?_
      have fa : t.lo ≤ F i ∧ F i ≤ t.hi := ha.has hN hi
      have fb : t.lo ≤ G i ∧ G i ≤ t.hi := hb.has hN hi
      have fs : t.Has (t.wrap (F i - G i)) := has_wrap' h _
      beta_reduce
      rw [bits_ofBits h, bits_ofBits h, bits_ofBits h, BitVec.msb_and, BitVec.msb_xor, BitVec.msb_xor,
        msb_lane h hs fa, msb_lane h hs fb, msb_lane h hs fs, sat_value h hN hs, clamp_cases t _ hlh]
      rw [wrap_near h hN hs (by omega)]
      generalize (2 : Int) ^ (t.bits - 1) = P at *
      generalize F i = x at *
      generalize G i = y at *
      rcases lt_or_ge x 0 with c1 | c1 <;> rcases lt_or_ge y 0 with c2 | c2
      all_goals simp only [c1, c2, decide_true, decide_false, not_lt.2, Bool.true_and, Bool.xor_self, Bool.not_false, if_true]
      all_goals (split_ifs <;> simp_all <;> omega)
    · have hs' : t.sgn = false := by simpa using hs
      obtain ⟨hl, hh⟩ := h2 hs'
      refine Runs.congr (Runs.bind (xmin h hN ha hb) fun m hm => xsub h hN ha hm) fun i hi => ?_
      have fa : t.lo ≤ F i ∧ F i ≤ t.hi := ha.has hN hi
      have fb : t.lo ≤ G i ∧ G i ≤ t.hi := hb.has hN hi
      beta_reduce
      rw [clamp_cases t _ hlh, wrap_has' h (show t.lo ≤ _ ∧ _ ≤ t.hi by omega)]
      split_ifs <;> omega

/-- `SaturatedAdd`, `SaturatedSub` of every lane type: the exact sum or difference, limited to the lane range. -/
theorem C39_saturated_add (ar : Bool) {a b : List Int} (ha : Reg t a) (hb : Reg t b) :
    Lanes t N (SatAdd ar t N a b) (fun i r => r = clamp t (lane a i + lane b i)) :=
  (run_sat_add h hN ar (Is.refl ha) (Is.refl hb)).lanes hN fun _ _ _ => rfl
theorem C39_saturated_sub (ar : Bool) {a b : List Int} (ha : Reg t a) (hb : Reg t b) :
    Lanes t N (SatSub ar t N a b) (fun i r => r = clamp t (lane a i - lane b i)) :=
  (run_sat_sub h hN ar (Is.refl ha) (Is.refl hb)).lanes hN fun _ _ _ => rfl

theorem run_sat_neg (ar : Bool) (hs : t.sgn = true) {a : List Int} {F : Nat → Int} (ha : Is t N a F) :
    Runs t N (SaturatedNeg ar t N a) (fun i => clamp t (- F i)) := by
  obtain ⟨h1, h2, h3, h4⟩ := sgn_bounds h
  obtain ⟨hl, hh⟩ := h1 hs
  have hp : (0 : Int) < 2 ^ (t.bits - 1) := by positivity
  have hlh : t.lo ≤ t.hi := by omega
  unfold SaturatedNeg
  split_ifs with hw hw2
  · have : t ∈ satTys := by
      have : ∀ t ∈ laneTys, t.bits ≤ 16 → t ∈ satTys := by decide
      exact this t h hw
    exact Runs.congr (xsatsub this hN (is_zero h N) ha) fun i _ => by rw [zero_sub]
  · refine Runs.congr (Runs.bind (xnot h hN ha) fun n hn => Runs.bind (xset h hN (show t.Has t.lo from ⟨le_rfl, hlh⟩)) fun l hl' =>
      RunsM.bind (xgt h hN ha hl') fun m hm => xsub h hN hn (is_vecFromMask h hm)) fun i hi => ?_
    have fa : t.lo ≤ F i ∧ F i ≤ t.hi := ha.has hN hi
    beta_reduce
    have en : t.ofBits (~~~ bitsOf t (F i)) = - F i - 1 := by
      rw [ofBits_eq_iff h hN (show t.lo ≤ _ ∧ _ ≤ t.hi by omega)]
      exact bits_not _
    rw [en, clamp_cases t _ hlh]
    have hm1 : t.wrap (-1) = -1 := wrap_has' h (show t.lo ≤ _ ∧ _ ≤ t.hi by omega)
    rw [hm1]
    by_cases c : F i = t.lo
    · rw [if_neg (by simp [c]), wrap_has' h (show t.lo ≤ _ ∧ _ ≤ t.hi by omega)]
      split_ifs <;> omega
    · rw [if_pos (by simp; omega), wrap_has' h (show t.lo ≤ _ ∧ _ ≤ t.hi by omega)]
      split_ifs <;> omega
  · refine Runs.congr (Runs.bind (xneg h hN ha) fun n hn => Runs.bind (xand h hN ha hn) fun x hx =>
      Runs.bind (xbsb h hN ar hs hx) fun z hz => xadd h hN hn hz) fun i hi => ?_
    have fa : t.lo ≤ F i ∧ F i ≤ t.hi := ha.has hN hi
    beta_reduce
    have hx := has_ofBits t (by omega) (bitsOf t (F i) &&& bitsOf t (t.wrap (- F i)))
    have e := msb_lane h hs hx
    rw [bits_ofBits h, BitVec.msb_and, msb_lane h hs fa, msb_lane h hs (has_wrap' h _)] at e
    rw [clamp_cases t _ hlh]
    have hw := wrap_near h hN hs (z := - F i) (by omega)
    by_cases c : F i = t.lo
    · have e1 : t.wrap (- F i) = t.lo := by
        rw [hw]
        split_ifs <;> omega
      rw [e1] at e ⊢
      rw [e1] at hx
      have : decide (t.ofBits (bitsOf t (F i) &&& bitsOf t t.lo) < 0) = true := by
        rw [← e, c]; simp; omega
      rw [if_pos (by simpa using this), wrap_near h hN hs (by omega)]
      split_ifs <;> omega
    · have e1 : t.wrap (- F i) = - F i := wrap_has' h (show t.lo ≤ _ ∧ _ ≤ t.hi by omega)
      rw [e1] at e ⊢
      have : ¬ (t.ofBits (bitsOf t (F i) &&& bitsOf t (- F i)) < 0) := by
        intro hc
        rw [decide_eq_true hc] at e
        simp at e
        omega
      rw [if_neg this, add_zero, e1]
      split_ifs <;> omega

/-- `SaturatedNeg`: the negation limited to the lane range. -/
theorem C39_saturated_neg (ar : Bool) (hs : t.sgn = true) {a : List Int} (ha : Reg t a) :
    Lanes t N (SaturatedNeg ar t N a) (fun i r => r = clamp t (- lane a i)) :=
  (run_sat_neg h hN ar hs (Is.refl ha)).lanes hN fun _ _ _ => rfl

/-- `SaturatedAbs`: the magnitude limited to the lane range. -/
theorem C39_saturated_abs (ar : Bool) (hs : t.sgn = true) {a : List Int} (ha : Reg t a) :
    Lanes t N (SaturatedAbs ar t N a) (fun i r => r = clamp t |lane a i|) := by
  obtain ⟨h1, -, -, -⟩ := sgn_bounds h
  obtain ⟨hl, hh⟩ := h1 hs
  have hp : (0 : Int) < 2 ^ (t.bits - 1) := by positivity
  refine Runs.lanes (Runs.bind (run_sat_neg h hN ar hs (Is.refl ha)) fun n hn => xmax h hN (Is.refl ha) hn) hN fun i hi _ => ?_
  have fa : t.lo ≤ lane a i ∧ lane a i ≤ t.hi := ha.lane_has (by omega)
  rw [clamp_cases t _ (by omega), clamp_cases t _ (by omega)]
  rcases abs_cases (lane a i) with ⟨e, _⟩ | ⟨e, _⟩ <;> rw [e] <;> split_ifs <;> omega

/-! ### Rounding shifts -/

theorem round_div (v : Int) {k : Nat} (hk : 0 < k) : (v / 2 ^ (k - 1) + 0 + 1) / 2 = (v + 2 ^ (k - 1)) / 2 ^ k := by
  obtain ⟨m, rfl⟩ : ∃ m, k = m + 1 := ⟨k - 1, by omega⟩
  have hp : (0 : Int) < 2 ^ m := by positivity
  rw [Nat.add_sub_cancel, add_zero, pow_succ, ← Int.ediv_ediv_of_nonneg hp.le, Int.add_ediv_of_dvd_right (dvd_refl _), Int.ediv_self hp.ne']

/-- `RoundingShiftRight<k>`: `v / 2^k` rounded to nearest, ties upward; nothing overflows. -/
theorem C39_rounding_shift_right (ar : Bool) {k : Nat} (hk : k < t.bits) {v : List Int} (hv : Reg t v) :
    Lanes t N (RoundingShiftRight ar t N k v) (fun i r =>
      r = if k = 0 then lane v i else (lane v i + 2 ^ (k - 1)) / 2 ^ k) := by
  have hs : Runs t N (if k - 1 > 0 then ShiftRight ar t N ((k - 1 : Nat) : Int) v else pure v) (fun i => lane v i / 2 ^ (k - 1)) := by
    split_ifs with c
    · exact Runs.congr (xshr h hN ar (by omega) (by omega) (Is.refl hv)) fun i _ => by rw [Int.toNat_natCast]
    · rw [show k - 1 = 0 by omega]
      exact Runs.congr (Runs.ret (Is.refl hv)) fun i _ => by simp
  by_cases c : k = 0
  · subst c
    exact (Runs.bind hs fun s hs => by rw [if_pos rfl]; exact Runs.ret hs).lanes hN fun i _ _ => by simp
  · refine (Runs.bind hs fun s hs => by rw [if_neg c]; exact xavg h hN ar hs (is_zero h N)).lanes hN fun i _ _ => ?_
    rw [if_neg c, round_div h hN _ (by omega)]

/-- `RoundingShiftRightSame(v, k)`. -/
theorem C39_rounding_shift_right_same (ar : Bool) {k : Nat} (hk : k < t.bits) {v : List Int} (hv : Reg t v) :
    Lanes t N (RoundingShiftRightSame ar t N v k) (fun i r =>
      r = if k = 0 then lane v i else (lane v i + 2 ^ (k - 1)) / 2 ^ k) := by
  have hb : t.bits ≤ 64 := bits_le h
  have hand0 : t.ofBits (bitsOf t 0) = 0 := ofBits_bits h (has_zero h)
  by_cases c : k = 0
  · subst c
    unfold RoundingShiftRightSame
    dsimp only
    rw [show i32.wrap (u32.wrap (u32.wrap ((0 : Nat) : Int) + u32.wrap (-1 - if ((0 : Nat) : Int) = 0 then -1 else 0))) = 0 by decide +kernel]
    refine Runs.lanes (Runs.bind (xshr h hN ar le_rfl (by omega) (Is.refl hv)) fun s hs =>
      Runs.bind (xset h hN (has_wrap' h _)) fun z hz => Runs.bind (xand h hN hs hz) fun w hw => xavg h hN ar hs hw) hN fun i hi _ => ?_
    have ha := hv.lane_has (i := i) (by omega)
    have e1 : bitsOf t (t.wrap (if ((0 : Nat) : Int) = 0 then -1 else 0)) = BitVec.allOnes t.bits := by
      rw [bitsOf_wrap t (by omega), if_pos (by simp)]; unfold bitsOf
      rw [show (-1 : Int) = -0 - 1 by norm_num, ← bits_not]; simp
    rw [e1, BitVec.and_allOnes, if_pos rfl]
    rw [show lane v i / 2 ^ (Int.toNat 0) = lane v i by simp, ofBits_bits h ha]
    omega
  · unfold RoundingShiftRightSame
    dsimp only
    have e1 : i32.wrap (u32.wrap (u32.wrap (k : Int) + u32.wrap (-1 - if (k : Int) = 0 then -1 else 0))) = ((k - 1 : Nat) : Int) := by
      rw [if_neg (by omega)]
      have l3 : i32 ∈ laneTys := by decide
      have l4 : u32 ∈ laneTys := by decide
      have e2 : u32.wrap (-1 - 0) = 4294967295 := by decide +kernel
      have b1 : ∀ x : Int, 0 ≤ x → x ≤ 64 → u32.Has x ∧ i32.Has x := by
        intro x x0 x1
        have q1 : u32.lo = 0 := by decide
        have q2 : u32.hi = 4294967295 := by decide
        have q3 : i32.lo = -2147483648 := by decide
        have q4 : i32.hi = 2147483647 := by decide
        exact ⟨⟨by omega, by omega⟩, ⟨by omega, by omega⟩⟩
      have q5 : (2 : Int) ^ u32.bits = 4294967296 := by decide +kernel
      rw [e2, wrap_has' l4 (b1 k (by omega) (by omega)).1,
        wrap_eq l4 (y := ((k - 1 : Nat) : Int)) (b1 _ (by omega) (by omega)).1 1 (by rw [q5]; omega)]
      exact wrap_has' l3 (b1 _ (by omega) (by omega)).2
    rw [e1]
    refine Runs.lanes (Runs.bind (xshr h hN ar (by omega) (by omega) (Is.refl hv)) fun s hs =>
      Runs.bind (xset h hN (has_wrap' h _)) fun z hz => Runs.bind (xand h hN hs hz) fun w hw => xavg h hN ar hs hw) hN fun i hi _ => ?_
    have e3 : bitsOf t (t.wrap (if (k : Int) = 0 then -1 else 0)) = 0#t.bits := by
      rw [if_neg (by omega), wrap_zero h]; unfold bitsOf; simp
    rw [e3, BitVec.and_zero, if_neg c, Int.toNat_natCast]
    rw [show t.ofBits 0#t.bits = 0 by rw [← hand0]; unfold bitsOf; simp]
    exact round_div h hN _ (by omega)

/-- `RoundingShr(v, amt)`: per-lane amounts in `[0, bits)`. -/
theorem C39_rounding_shr (ar : Bool) {v amt : List Int} (hv : Reg t v) (ha : Reg t amt)
    (hk : ∀ i, i < N → 0 ≤ lane amt i ∧ lane amt i < t.bits) :
    Lanes t N (RoundingShr ar t N v amt) (fun i r =>
      r = if lane amt i = 0 then lane v i else (lane v i + 2 ^ ((lane amt i).toNat - 1)) / 2 ^ (lane amt i).toNat) := by
  obtain ⟨hum, hu, hub, huc⟩ := unsigned_facts h
  have hone : t.unsigned.Has 1 := by
    have : ∀ t ∈ laneTys, t.unsigned.Has 1 := by decide
    exact this t h
  have hbig : ∀ x : Int, 0 ≤ x → x < t.bits → t.Has x ∧ t.unsigned.Has x := by
    have : ∀ t ∈ laneTys, t.lo ≤ 0 ∧ (t.bits : Int) ≤ t.hi ∧ t.unsigned.lo = 0 ∧ (t.bits : Int) ≤ t.unsigned.hi := by decide +kernel
    obtain ⟨q1, q2, q3, q4⟩ := this t h
    exact fun x h0 h1 => ⟨⟨by omega, by omega⟩, ⟨by omega, by omega⟩⟩
  have hamt : Is t N (BitCast t.unsigned t (BitCast t t.unsigned amt)) (lane amt) := by
    have := is_bc_same (is_bc_same (Is.refl (N := N) ha) hum hub (by omega)) h hub.symm hN
    refine ⟨this.1, fun i hi => (this.2 i hi).trans ?_⟩
    obtain ⟨q1, q2⟩ := hbig _ (hk i hi).1 (hk i hi).2
    beta_reduce
    rw [wrap_has' hum q2, wrap_has' h q1]
  unfold RoundingShr
  have hlh : t.unsigned.lo ≤ t.unsigned.hi := le_trans hone.1 hone.2
  have ul : t.unsigned.lo = 0 := ((sgn_bounds hum).2.1 hu).1
  refine Runs.lanes (Runs.bind (xset hum (by omega) hone) fun o ho =>
    Runs.bind (run_sat_sub hum (by omega) ar (is_bc_same (Is.refl (N := N) ha) hum hub (by omega)) ho) fun d hd =>
    Runs.bind (xshrv (F := lane v) (G := fun i => if lane amt i = 0 then 0 else lane amt i - 1) h hN ar (Is.refl hv) ?_ ?_) fun s hs =>
    RunsM.bind (xeq h hN (Is.refl ha) (is_zero h N)) fun m hm => Runs.bind (xitez h hN hm hs) fun z hz => xavg h hN ar hs hz) hN
    fun i hi _ => ?_
  · have := is_bc_same hd h hub.symm hN
    refine ⟨this.1, fun i hi => (this.2 i hi).trans ?_⟩
    obtain ⟨q1, q2⟩ := hbig _ (hk i hi).1 (hk i hi).2
    have q3 : t.unsigned.lo ≤ lane amt i ∧ lane amt i ≤ t.unsigned.hi := q2
    have q4 : t.lo ≤ lane amt i ∧ lane amt i ≤ t.hi := q1
    have q5 : t.lo ≤ 0 ∧ 0 ≤ t.hi := has_zero h
    beta_reduce
    rw [wrap_has' hum q2, clamp_cases _ _ hlh, ul]
    by_cases c : lane amt i = 0
    · rw [c]; simpa using wrap_zero h
    · rw [if_neg c, if_neg (by omega), if_neg (by omega)]
      exact wrap_has' h ⟨by omega, by omega⟩
  · intro i hi
    obtain ⟨q1, q2⟩ := hk i hi
    beta_reduce
    split_ifs <;> omega
  · obtain ⟨q1, q2⟩ := hk i hi
    by_cases c : lane amt i = 0
    · simp only [c, if_true, decide_true]
      simp
      omega
    · simp only [c, if_false, decide_false, Bool.false_eq_true]
      obtain ⟨n, hn⟩ := Int.eq_ofNat_of_zero_le q1
      rw [hn] at c ⊢
      rw [show ((n : Int) - 1).toNat = n - 1 by omega, Int.toNat_natCast]
      exact round_div h hN _ (by omega)

end
end Emu
end Hwy
