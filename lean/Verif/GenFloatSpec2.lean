import Verif.GenFloatSpec

/-!
# C57, continued: classification, `CeilInt`/`FloorInt`, `MulByFloorPow2`, magnitudes, alternating sums
-/

namespace Hwy
namespace Emu
open CInt Flt

section
variable {F : Fmt} (hF : F = f32 ∨ F = f64) {N : Nat} (hN : N ≤ cap F.ut)
include hF

/-! ### Constants -/

theorem inf_double : 2 * F.inf + 2 ^ (F.p + 1) = 2 ^ (F.w + 1) := by
  rcases hF with rfl | rfl <;> decide +kernel

theorem met2 : F.ut.wrap (maxExponentTimes2 F) = ((2 * F.inf : Nat) : Int) := by
  have h := inf_double hF
  have hu : F.ut.Has ((2 * F.inf : Nat) : Int) := (has_nat hF).2 (by
    have := Nat.two_pow_pos (F.p + 1); omega)
  rw [← wrap_has' (ut_lane hF) hu]
  apply wrap_congr
  show maxExponentTimes2 F % 2 ^ (F.w + 1) = ((2 * F.inf : Nat) : Int) % 2 ^ (F.w + 1)
  unfold maxExponentTimes2
  have : ((2 * F.inf : Nat) : Int) = -(2 ^ (F.p + 1)) + 2 ^ (F.w + 1) := by
    have : ((2 * F.inf : Nat) : Int) + 2 ^ (F.p + 1) = 2 ^ (F.w + 1) := by exact_mod_cast h
    omega
  rw [this, Int.add_emod_right]

/-- Doubling drops the sign. -/
theorem wrap_double {x : Nat} (hx : x < 2 ^ (F.w + 1)) : F.ut.wrap ((x : Int) + (x : Int)) = ((2 * F.mag x : Nat) : Int) := by
  have hm := mag_lt (F := F) x
  have hu : F.ut.Has ((2 * F.mag x : Nat) : Int) := (has_nat hF).2 (by rw [Nat.pow_succ]; omega)
  rw [← wrap_has' (ut_lane hF) hu]
  apply wrap_congr
  show ((x : Int) + (x : Int)) % 2 ^ (F.w + 1) = ((2 * F.mag x : Nat) : Int) % 2 ^ (F.w + 1)
  have hd := Nat.div_add_mod x (2 ^ F.w)
  have e : ((x : Int) + (x : Int)) = ((2 * F.mag x : Nat) : Int) + 2 ^ (F.w + 1) * ((x / 2 ^ F.w : Nat) : Int) := by
    unfold Fmt.mag Fmt.signMask
    have : (x : Int) = 2 ^ F.w * ((x / 2 ^ F.w : Nat) : Int) + ((x % 2 ^ F.w : Nat) : Int) := by exact_mod_cast hd.symm
    rw [pow_succ]
    push_cast at this ⊢
    linarith
  rw [e, Int.add_mul_emod_self_left]

include hN

/-! ### Lane functions of the float operations -/

theorem run_fneg {v : List Int} {x : Nat → Nat} (hv : Is F.ut N v (fun i => ((x i : Nat) : Int))) :
    Runs F.ut N (FNeg F N v) (fun i => ((fneg F (x i) : Nat) : Int)) :=
  (C48_neg hF hN hv.1).runs hN (fun i y hi hy e => by
    have hp : pat v i = x i := by unfold pat; rw [hv.2 i hi]; simp
    rw [hp] at e
    have h0 := (has_ut hF).1 hy
    have hl := has_toNat hF hy
    have : y = ((y.toNat : Nat) : Int) := by omega
    rw [this]
    congr 1
    rw [← pack_eta hl, e.1, e.2]; rfl)

theorem run_fmap2 {f : Nat → Nat → Nat} (hf : ∀ x y, x < 2 ^ (F.w + 1) → y < 2 ^ (F.w + 1) → f x y < 2 ^ (F.w + 1))
    {a b : List Int} {x y : Nat → Nat} (ha : Is F.ut N a (fun i => ((x i : Nat) : Int)))
    (hb : Is F.ut N b (fun i => ((y i : Nat) : Int))) :
    Runs F.ut N (fmap2 F N f a b) (fun i => ((f (x i) (y i) : Nat) : Int)) := by
  unfold fmap2
  refine Runs.of ((map2_lanes ha.1 hb.1 hN (fun x y => ((f x.toNat y.toNat : Nat) : Int)) (fun i _ => rfl) ?_).mono ?_)
  · intro i hi
    exact (has_nat hF).2 (hf _ _ (has_toNat hF (ha.1.lane_has (by omega))) (has_toNat hF (hb.1.lane_has (by omega))))
  · intro i z hi e
    rw [e, ha.2 i hi, hb.2 i hi, Int.toNat_natCast, Int.toNat_natCast]

theorem run_fmask2 (f : Nat → Nat → Bool) {a b : List Int} {x y : Nat → Nat} (ha : Is F.ut N a (fun i => ((x i : Nat) : Int)))
    (hb : Is F.ut N b (fun i => ((y i : Nat) : Int))) :
    RunsM F.ut N (fmask2 F N f a b) (fun i => f (x i) (y i)) := by
  obtain ⟨m, e, h⟩ := fmask2_lanes hF hN ha.1 hb.1 f
  refine ⟨m, e, h.len, h.has, fun i hi => ?_⟩
  rw [h.lanes i hi]
  have h1 : pat a i = x i := by unfold pat; rw [ha.2 i hi]; simp
  have h2 : pat b i = y i := by unfold pat; rw [hb.2 i hi]; simp
  rw [h1, h2]

theorem run_fnan {v : List Int} {x : Nat → Nat} (hv : Is F.ut N v (fun i => ((x i : Nat) : Int))) :
    RunsM F.ut N (FIsNaN F N v) (fun i => F.nan (x i)) := by
  obtain ⟨m, e, h⟩ := C48_is_nan hF hN hv.1 hv.1
  refine ⟨m, e, h.len, h.has, fun i hi => ?_⟩
  rw [h.lanes i hi]
  have h1 : pat v i = x i := by unfold pat; rw [hv.2 i hi]; simp
  rw [h1]

theorem run_isinf {v : List Int} {x : Nat → Nat} (hv : Is F.ut N v (fun i => ((x i : Nat) : Int))) :
    RunsM F.ut N (IsInf F N v) (fun i => decide (F.mag (x i) = F.inf)) := by
  unfold IsInf
  refine Runs.bindM (xadd (ut_lane hF) hN hv hv) fun s hs => ?_
  refine Runs.bindM (xset (ut_lane hF) hN (x := F.ut.wrap (maxExponentTimes2 F)) (has_wrap' (ut_lane hF) _)) fun c hc => ?_
  obtain ⟨m, e, hm⟩ := xeq (ut_lane hF) hN hs hc
  refine ⟨m, e, hm.len, hm.has, fun i hi => ?_⟩
  rw [hm.lanes i hi]
  beta_reduce
  rw [wrap_double hF (is_pat_lt hF hN hv hi), met2 hF]
  congr 2
  exact decide_eq_decide.2 (by omega)

theorem run_isneg (ar : Bool) {v : List Int} {x : Nat → Nat} (hv : Is F.ut N v (fun i => ((x i : Nat) : Int))) :
    RunsM F.ut N (IsNegative ar F.ut N v) (fun i => F.neg (x i)) := by
  have hi' := it_lane hF
  have hc := it_cap hF
  unfold IsNegative
  rw [show F.ut.signed = F.it from rfl]
  refine Runs.bindM (xbsb hi' (by omega) ar rfl (is_bc_same hv hi' rfl (by omega))) fun w hw => RunsM.ret ?_
  refine is_mask (ut_lane hF) hN (is_bc_same hw (ut_lane hF) rfl hN) fun i hi => ?_
  have hl := is_pat_lt hF hN hv hi
  have hlo := it_lo hF
  have hhi := it_hi (F := F)
  have hp : (2 : Int) ^ (F.w + 1) = 2 * 2 ^ F.w := by rw [pow_succ]; ring
  have hl' : (x i : Int) < 2 * 2 ^ F.w := by rw [← hp]; exact_mod_cast hl
  by_cases c : F.neg (x i) = true
  · have h2 : (2 : Int) ^ F.w ≤ x i := by
      unfold Fmt.neg Fmt.signMask at c
      have : 2 ^ F.w ≤ x i := by simpa using c
      exact_mod_cast this
    have e : F.it.wrap (x i) = (x i : Int) - 2 ^ (F.w + 1) := by
      rw [← wrap_has' hi' (x := (x i : Int) - 2 ^ (F.w + 1)) ⟨by omega, by omega⟩]
      apply wrap_congr
      show (x i : Int) % 2 ^ (F.w + 1) = ((x i : Int) - 2 ^ (F.w + 1)) % 2 ^ (F.w + 1)
      rw [Int.sub_emod_right]
    rw [if_pos c, if_pos (by rw [e]; omega)]
  · have h2 : (x i : Int) < 2 ^ F.w := by
      unfold Fmt.neg Fmt.signMask at c
      have : x i < 2 ^ F.w := by simpa using c
      exact_mod_cast this
    rw [if_neg c, if_neg (by rw [wrap_has' hi' ⟨by omega, by omega⟩]; omega), wrap_zero (ut_lane hF)]

/-! ### Classification -/

/-- `IsEitherNaN`, `IsInf`, `IsFinite`. -/
theorem C57_classify (ar : Bool) {a b : List Int} (ha : Reg F.ut a) (hb : Reg F.ut b) :
    (∃ m, IsEitherNaN F N a b = .ok m ∧ IsMask F.ut N m (fun i => F.nan (pat a i) || F.nan (pat b i))) ∧
    (∃ m p, IsInf F N a = .ok m ∧ IsMask F.ut N m p ∧ ∀ i, i < N → (p i = true ↔ F.IsInf (pat a i))) ∧
    (∃ m p, IsFinite ar F N a = .ok m ∧ IsMask F.it N m p ∧ ∀ i, i < N → (p i = true ↔ F.Fin (pat a i))) := by
  have S := std_of hF
  refine ⟨?_, ?_, ?_⟩
  · unfold IsEitherNaN
    exact RunsM.bindM (run_fnan hF hN (is_pat hF hN ha)) fun x hx => RunsM.bindM (run_fnan hF hN (is_pat hF hN hb)) fun y hy =>
      xmor (ut_lane hF) hN hx hy
  · obtain ⟨m, e, h⟩ := run_isinf hF hN (is_pat hF hN ha)
    exact ⟨m, _, e, h, fun i _ => by simp [Fmt.IsInf]⟩
  · have hi' := it_lane hF
    have hc := it_cap hF
    have R : RunsM F.it N (IsFinite ar F N a) (fun i => decide (F.mag (pat a i) < F.inf)) := by
      unfold IsFinite
      refine Runs.bindM (xadd (ut_lane hF) hN (is_pat hF hN ha) (is_pat hF hN ha)) fun s hs => ?_
      refine Runs.bindM (xshr (ut_lane hF) hN ar (by omega) (by
        show ((F.p + 1 : Nat) : Int) < ((F.w + 1 : Nat) : Int)
        have := S.e2
        unfold Fmt.w; omega) hs) fun t ht => ?_
      have hb' := p4_bias hF
      refine Runs.bindM (xset hi' (by omega) (x := (maxExponentField F : Int)) (by
        rw [max_exp hF]; exact it_has hF (by omega) (by omega))) fun c hc' => ?_
      obtain ⟨m, e, hm⟩ := xlt hi' (by omega) (is_bc_same ht hi' rfl (by omega)) hc'
      refine ⟨m, e, hm.len, hm.has, fun i hi => ?_⟩
      rw [hm.lanes i hi]
      beta_reduce
      rw [wrap_double hF (is_pat_lt hF hN (is_pat hF hN ha) hi), Int.toNat_natCast, max_exp hF]
      have e2 : (((2 * F.mag (pat a i) : Nat) : Int) / 2 ^ (F.p + 1)) = ((F.mag (pat a i) / 2 ^ F.p : Nat) : Int) := by
        have : 2 * F.mag (pat a i) / 2 ^ (F.p + 1) = F.mag (pat a i) / 2 ^ F.p := by
          rw [pow_succ, Nat.mul_comm (2 ^ F.p) 2, Nat.mul_div_mul_left _ _ (by decide)]
        rw [← this]; push_cast; rfl
      rw [e2]
      have hle := biased_le hF hN (pat a i)
      have hdl : F.mag (pat a i) / 2 ^ F.p < 2 * F.bias + 1 ↔ F.mag (pat a i) < F.inf := by
        rw [Nat.div_lt_iff_lt_mul (Nat.two_pow_pos _), ← S.inf_eq]
      generalize F.mag (pat a i) / 2 ^ F.p = E at hle hdl ⊢
      rw [it_wrap hF (by omega) (by omega)]
      congr 2
      refine decide_eq_decide.2 ?_
      rw [← hdl]
      omega
    obtain ⟨m, e, h⟩ := R
    exact ⟨m, _, e, h, fun i _ => by simp [Fmt.Fin]⟩

/-! ### Integer parts -/

omit hN in
theorem it_conv : F.it ∈ convTys := by rcases hF with rfl | rfl <;> decide

omit hN hF in
theorem truncQ_int (k : ℤ) : truncQ (k : ℚ) = k := by unfold truncQ; split_ifs <;> simp

/-- `CeilInt`, `FloorInt`: the rounded value clamped to the integer type; infinities and NaN by their sign. -/
theorem C57_ceil_int {v : List Int} (hv : Reg F.ut v) : Lanes F.it N (CeilInt F N v) (fun i r =>
    (F.Fin (pat v i) → r = satOf F.it ⌈F.real (pat v i)⌉) ∧
    (¬ F.Fin (pat v i) → r = if F.neg (pat v i) then F.it.lo else F.it.hi)) := by
  have hc := it_cap hF
  unfold CeilInt
  refine (C48_ceil hF hN hv).bind fun u hu hl => (C49_float_to_int hF (it_conv hF) hN (by omega) hu).mono fun i r hi h => ?_
  obtain ⟨h1, h2, _⟩ := hl i hi
  refine ⟨fun hf => ?_, fun hf => ?_⟩
  · obtain ⟨g1, g2⟩ := h2 hf
    have g3 := h.1 g1
    rw [show F.real (pat u i) = _ from g2, truncQ_int] at g3
    exact g3
  · have e : pat u i = pat v i := h1 hf
    rw [← e] at hf ⊢
    exact h.2 hf

theorem C57_floor_int {v : List Int} (hv : Reg F.ut v) : Lanes F.it N (FloorInt F N v) (fun i r =>
    (F.Fin (pat v i) → r = satOf F.it ⌊F.real (pat v i)⌋) ∧
    (¬ F.Fin (pat v i) → r = if F.neg (pat v i) then F.it.lo else F.it.hi)) := by
  have hc := it_cap hF
  unfold FloorInt
  refine (C48_floor hF hN hv).bind fun u hu hl => (C49_float_to_int hF (it_conv hF) hN (by omega) hu).mono fun i r hi h => ?_
  obtain ⟨h1, h2, _⟩ := hl i hi
  refine ⟨fun hf => ?_, fun hf => ?_⟩
  · obtain ⟨g1, g2⟩ := h2 hf
    have g3 := h.1 g1
    rw [show F.real (pat u i) = _ from g2, truncQ_int] at g3
    exact g3
  · have e : pat u i = pat v i := h1 hf
    rw [← e] at hf ⊢
    exact h.2 hf

/-! ### `MulByFloorPow2` -/

/-- The exponent that `FloorInt` yields for one lane. -/
def floorK (F : Fmt) (e : Nat) : Int :=
  if F.mag e < F.inf then satOf F.it ⌊F.real e⌋ else if F.neg e then F.it.lo else F.it.hi

/-- One lane of `MulByFloorPow2`. -/
def mulFloorPow2Lane (F : Fmt) (x e : Nat) : Nat :=
  if F.nan e || (feq F (F.mag x) (if F.neg e then F.inf else 0) && decide (F.mag e = F.inf)) then 2 ^ F.w - 1
  else mulPow2Lane F x (floorK F e)

theorem run_mul_by_floor_pow2 (ar : Bool) {v exp : List Int} (hv : Reg F.ut v) (he : Reg F.ut exp) :
    Runs F.ut N (MulByFloorPow2 ar F N v exp) (fun i => ((mulFloorPow2Lane F (pat v i) (pat exp i) : Nat) : Int)) := by
  have S := std_of hF
  have hi' := it_lane hF
  have hc := it_cap hF
  have iv := is_pat hF hN hv
  have ie := is_pat hF hN he
  unfold MulByFloorPow2
  refine RunsM.bind (run_fnan hF hN ie) fun m1 hm1 => ?_
  refine Runs.bind (run_fabs hF hN iv) fun av hav => ?_
  have hinf : F.ut.wrap (maxExponentTimes2 F) / 2 = ((F.inf : Nat) : Int) := by rw [met2 hF]; push_cast; omega
  refine Runs.bind (Runs.congr (xset (ut_lane hF) hN (x := F.ut.wrap (maxExponentTimes2 F) / 2) (by
    rw [hinf, has_nat hF]; have := S.inf_lt; rw [Nat.pow_succ]; omega)) (G := fun _ => ((F.inf : Nat) : Int))
      fun i hi => hinf) fun f hf => ?_
  refine Runs.bind (t := F.ut) (N := N)
    (F := fun i => (((if F.neg (pat exp i) then F.inf else 0 : Nat)) : Int)) ?_ fun sel hsel => ?_
  · unfold IfNegativeThenElseZero
    refine RunsM.bind (run_isneg hF hN ar ie) fun m hm => ?_
    refine Runs.congr (xitez (ut_lane hF) hN hm hf) fun i hi => ?_
    beta_reduce
    split_ifs <;> rfl
  refine RunsM.bind (run_fmask2 hF hN (feq F) hav hsel) fun m2 hm2 => ?_
  refine RunsM.bind (run_isinf hF hN ie) fun m3 hm3 => ?_
  refine RunsM.bind (xmand (ut_lane hF) hN hm2 hm3) fun m4 hm4 => ?_
  refine RunsM.bind (xmor (ut_lane hF) hN hm1 hm4) fun m5 hm5 => ?_
  have hhi := it_hi (F := F)
  have hnan : Runs F.ut N (NaNVec F N) (fun _ => ((2 ^ F.w - 1 : Nat) : Int)) := by
    unfold NaNVec
    have hlo := (it_has hF (x := 0) (by omega) (by omega))
    refine Runs.bind (xset hi' (by omega) (x := F.it.hi) ⟨hlo.1.trans hlo.2, le_refl _⟩) fun w hw => Runs.ret ?_
    have := is_bc_same hw (ut_lane hF) rfl hN
    refine ⟨this.1, fun i hi => (this.2 i hi).trans ?_⟩
    beta_reduce
    have e : F.it.hi = ((2 ^ F.w - 1 : Nat) : Int) := by
      rw [hhi]; have := Nat.two_pow_pos F.w; push_cast [Nat.cast_sub this]; rfl
    rw [e]
    exact wrap_has' (ut_lane hF) ((has_nat hF).2 (by have := Nat.two_pow_pos F.w; rw [Nat.pow_succ]; omega))
  refine Runs.bind hnan fun nv hnv => ?_
  refine Runs.bind ((C57_floor_int hF hN he).runs (by omega) (F := fun i => floorK F (pat exp i)) fun i x hi hx e => ?_)
    fun k hk => ?_
  · unfold floorK
    split_ifs with h1 h2
    · exact e.1 h1
    · rw [e.2 h1, if_pos h2]
    · rw [e.2 h1, if_neg h2]
  refine Runs.bind (run_mul_by_pow2 hF hN ar iv hk) fun r hr => ?_
  refine Runs.congr (xite (ut_lane hF) hN hm5 hnv hr) fun i hi => ?_
  unfold mulFloorPow2Lane
  beta_reduce
  split_ifs <;> rfl

/-- **Specification.** `r` is `x` times two to the power of `e` rounded down: scaling for finite `e`; for infinite `e`
the IEEE product with infinity (`e = inf`) or zero (`e = -inf`). -/
structure FloorScaleRule (F : Fmt) (x e r : Nat) : Prop where
  nanE : F.nan e = true → F.nan r = true
  nanX : F.nan x = true → F.nan r = true
  fin : F.Fin e → ScaleRule F x ⌊F.real e⌋ r
  pinf : F.IsInf e → F.neg e = false → ProdRule F x e r
  ninf : F.IsInf e → F.neg e = true → ProdRule F x 0 r

omit hN in
theorem ones_nan : F.nan (2 ^ F.w - 1) = true := by
  rcases hF with rfl | rfl <;> decide +kernel

omit hN in
theorem large_inf {x r : Nat} {k : Int} (hk : 3 * (F.bias : Int) ≤ k) (h0 : F.mag x ≠ 0)
    (hr : IsRoundedF F (F.real x * 2 ^ k) r) : F.IsInf r := by
  have S := std_of hF
  have h1 := abs_real_ge S h0
  have hb := S.pb
  have hu := S.unit_eq
  refine (hr.2 ?_).1
  rw [abs_mul_zpow S]
  refine (over_lt S).le.trans ((zpow_mono S (b := -(F.unit : Int) + k) (by omega)).trans ?_)
  rw [zpow_add₀ (by norm_num)]
  exact mul_le_mul_of_nonneg_right h1 (zpow_nonneg (by norm_num) _)

omit hN in
theorem small_tiny {x : Nat} (hx : F.Fin x) {k : Int} (hk : k ≤ -(4 * (F.bias : Int) + 4)) :
    |F.real x| * 2 ^ k * 2 ^ (F.unit + 1) < 1 := by
  have S := std_of hF
  have hb := S.pb
  have hu := S.unit_eq
  have h1 := fin_lt S hx
  have e : (2 : ℚ) ^ (F.unit + 1) = 2 ^ ((F.unit : Int) + 1) := by
    rw [← zpow_natCast]; push_cast; rfl
  have h2 : |F.real x| * 2 ^ k < 2 ^ ((F.bias : Int) + 1) * 2 ^ k := mul_lt_mul_of_pos_right h1 (zpow_pos (by norm_num) _)
  rw [e]
  refine lt_of_lt_of_le (mul_lt_mul_of_pos_right h2 (zpow_pos (by norm_num) _)) ?_
  rw [← zpow_add₀ (by norm_num), ← zpow_add₀ (by norm_num)]
  exact (zpow_mono S (b := 0) (by omega)).trans (by rw [zpow_zero])

omit hN in
theorem it_wide : F.it.lo ≤ -(4 * (F.bias : Int) + 4) ∧ 3 * (F.bias : Int) ≤ F.it.hi := by
  rcases hF with rfl | rfl <;> decide

omit hN in
/-- Clamping the exponent to the integer type does not change the result. -/
theorem scale_sat {x r : Nat} {k : Int} (h : ScaleRule F x (satOf F.it k) r) : ScaleRule F x k r := by
  have S := std_of hF
  obtain ⟨w1, w2⟩ := it_wide hF
  refine ⟨h.nan, fun hx => ?_, h.sign, h.inf⟩
  have hr := h.fin hx
  by_cases h1 : k < F.it.lo
  · have e : satOf F.it k = F.it.lo := by unfold satOf; omega
    rw [e] at hr
    exact rounded_small S (by omega) (small_tiny hF hx w1) hr
  · by_cases h2 : F.it.hi < k
    · have e : satOf F.it k = F.it.hi := by unfold satOf; omega
      rw [e] at hr
      exact rounded_large S w2 (by omega) hr
    · have e : satOf F.it k = k := by unfold satOf; omega
      rwa [e] at hr

omit hN in
theorem feq_mag_inf (x : Nat) : feq F (F.mag x) F.inf = decide (F.mag x = F.inf) := by
  have S := std_of hF
  have hm := mag_lt (F := F) x
  have hi := S.inf_lt
  unfold feq Fmt.nan Fmt.sval
  rw [mag_of_lt hm, mag_of_lt hi, neg_of_lt hm, neg_of_lt hi]
  simp only [Bool.false_eq_true, if_false]
  by_cases h : F.mag x = F.inf
  · rw [h]; simp
  · have : F.val (F.mag x) ≠ F.val F.inf := fun hc => h (val_inj F hc)
    have : ((F.val (F.mag x) : Nat) : Int) ≠ F.val F.inf := by exact_mod_cast this
    simp [h, this]

omit hN in
theorem floor_scale_rule (x e : Nat) : FloorScaleRule F x e (mulFloorPow2Lane F x e) := by
  have S := std_of hF
  obtain ⟨w1, w2⟩ := it_wide hF
  have hn := ones_nan hF
  have hi0 := S.inf_pos
  unfold mulFloorPow2Lane
  refine ⟨fun h => ?_, fun h => ?_, fun h => ?_, fun h hs => ?_, fun h hs => ?_⟩
  · rw [h]; simpa using hn
  · by_cases hc : (F.nan e || (feq F (F.mag x) (if F.neg e then F.inf else 0) && decide (F.mag e = F.inf))) = true
    · rw [if_pos hc]; exact hn
    · rw [if_neg hc]; exact mulPow2Lane_nan S h _
  · have h1 : F.nan e = false := nan_fin h
    have h2 : F.mag e ≠ F.inf := by unfold Fmt.Fin at h; omega
    rw [h1]
    simp only [h2, decide_false, Bool.and_false, Bool.or_self, Bool.false_eq_true, if_false]
    have : floorK F e = satOf F.it ⌊F.real e⌋ := by unfold floorK; rw [if_pos (show F.mag e < F.inf from h)]
    rw [this]
    exact scale_sat hF (scale_rule hF _ _)
  · have h1 : F.nan e = false := nan_inf S h
    have h2 : F.mag e = F.inf := h
    have h3 : ¬ F.Fin e := by unfold Fmt.Fin; omega
    have hk : floorK F e = F.it.hi := by unfold floorK; rw [if_neg (show ¬ F.mag e < F.inf from h3), hs]; rfl
    rw [h1, hs, hk]
    simp only [Bool.false_eq_true, if_false, Bool.false_or, h2, decide_true, Bool.and_true]
    rw [feq_zero_iff S, mag_of_lt (mag_lt x)]
    have hR := scale_rule hF x F.it.hi
    by_cases hz : F.mag x = 0
    · simp only [hz, decide_true, if_true]
      have hfx : F.Fin x := by unfold Fmt.Fin; omega
      refine ⟨fun _ => hn, fun _ h' => absurd h' h3, fun h' => ?_, fun _ => hn⟩
      rcases h' with ⟨g1, _⟩ | ⟨_, _, g3⟩
      · unfold Fmt.IsInf at g1; omega
      · exact absurd hz g3
    · simp only [hz, decide_false, Bool.false_eq_true, if_false]
      refine ⟨fun h' => ?_, fun _ h' => absurd h' h3, fun h' => ?_, fun h' => ?_⟩
      · rcases h' with h' | h'
        · exact hR.nan h'
        · rw [h1] at h'; cases h'
      · have hnx : F.nan x = false := by
          rcases h' with ⟨g1, _⟩ | ⟨_, g2, _⟩
          · exact nan_inf S g1
          · exact g2
        refine ⟨?_, by rw [hR.sign hnx, hs]; cases F.neg x <;> rfl⟩
        by_cases hfx : F.Fin x
        · exact large_inf hF w2 hz (hR.fin hfx)
        · refine hR.inf ?_
          unfold Fmt.nan at hnx
          have : ¬ F.inf < F.mag x := by simpa using hnx
          unfold Fmt.Fin at hfx; unfold Fmt.IsInf; omega
      · rcases h' with ⟨_, g2⟩ | ⟨_, g2⟩
        · omega
        · exact absurd g2 hz
  · have h1 : F.nan e = false := nan_inf S h
    have h2 : F.mag e = F.inf := h
    have h3 : ¬ F.Fin e := by unfold Fmt.Fin; omega
    have hk : floorK F e = F.it.lo := by unfold floorK; rw [if_neg (show ¬ F.mag e < F.inf from h3), hs]; rfl
    rw [h1, hs, hk]
    simp only [if_true, Bool.false_or, h2, decide_true, Bool.and_true]
    rw [feq_mag_inf hF]
    have hR := scale_rule hF x F.it.lo
    have m0 : F.mag 0 = 0 := mag_zero S
    have r0 : F.real 0 = 0 := real_zero S m0
    have n0 : F.neg 0 = false := neg_of_lt (Nat.two_pow_pos _)
    by_cases hz : F.mag x = F.inf
    · simp only [hz, decide_true, if_true]
      refine ⟨fun _ => hn, fun h' => absurd h' (by unfold Fmt.Fin; omega), fun h' => ?_, fun _ => hn⟩
      rcases h' with ⟨_, _, g3⟩ | ⟨g1, _⟩
      · exact absurd m0 g3
      · unfold Fmt.IsInf at g1; omega
    · simp only [hz, decide_false, Bool.false_eq_true, if_false]
      refine ⟨fun h' => ?_, fun hfx _ => ?_, fun h' => ?_, fun h' => ?_⟩
      · rcases h' with h' | h'
        · exact hR.nan h'
        · rw [nan_zero S] at h'; cases h'
      · have hr := hR.fin hfx
        rw [tiny_iff S (by rw [abs_mul_zpow S]; exact small_tiny hF hfx w1)] at hr
        refine ⟨?_, by rw [hR.sign (nan_fin hfx), n0]; cases F.neg x <;> rfl⟩
        rw [r0, mul_zero, tiny_iff S (by simp)]
        exact hr
      · rcases h' with ⟨_, _, g3⟩ | ⟨g1, _⟩
        · exact absurd m0 g3
        · unfold Fmt.IsInf at g1; omega
      · rcases h' with ⟨g1, _⟩ | ⟨g1, _⟩
        · exact absurd g1 hz
        · unfold Fmt.IsInf at g1; omega

/-- `MulByFloorPow2(v, exp)`. -/
theorem C57_mul_by_floor_pow2 (ar : Bool) {v exp : List Int} (hv : Reg F.ut v) (he : Reg F.ut exp) :
    Lanes F.ut N (MulByFloorPow2 ar F N v exp) (fun i r => FloorScaleRule F (pat v i) (pat exp i) r.toNat) :=
  (run_mul_by_floor_pow2 hF hN ar hv he).lanes hN fun i _ _ => by
    rw [Int.toNat_natCast]; exact floor_scale_rule hF _ _

end
end Emu
end Hwy
