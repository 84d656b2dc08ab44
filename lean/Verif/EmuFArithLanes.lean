import Verif.EmuFArithSpec
import Verif.EmuFloatSpec

/-!
# C54: floating-point arithmetic of the reference target

Specification: the IEEE rules, per lane, with exact rational results rounded by `IsRoundedF`.
-/

namespace Hwy
namespace Flt
open CInt

/-- Infinite? -/
def Fmt.IsInf (F : Fmt) (x : Nat) : Prop := F.mag x = F.inf

/-- **Specification.** `r` is `x` plus a second addend with pattern `y` taken with sign `ny`; `v` is the exact sum. -/
structure SumRule (F : Fmt) (x : Nat) (ny : Bool) (y : Nat) (v : ℚ) (r : Nat) : Prop where
  nan : F.nan x = true ∨ F.nan y = true → F.nan r = true
  fin : F.Fin x → F.Fin y → IsRoundedF F v r
  zero : F.Fin x → F.Fin y → v = 0 → F.neg r = (F.neg x && ny)
  infx : F.IsInf x → F.nan y = false → (F.IsInf y → F.neg x = ny) → F.IsInf r ∧ F.neg r = F.neg x
  infy : F.Fin x → F.IsInf y → F.IsInf r ∧ F.neg r = ny
  opp : F.IsInf x → F.IsInf y → F.neg x ≠ ny → F.nan r = true

/-- **Specification.** `r` is the product of `x` and `y`. -/
structure ProdRule (F : Fmt) (x y r : Nat) : Prop where
  nan : F.nan x = true ∨ F.nan y = true → F.nan r = true
  fin : F.Fin x → F.Fin y → IsRoundedF F (F.real x * F.real y) r ∧ F.neg r = (F.neg x != F.neg y)
  inf : F.IsInf x ∧ F.nan y = false ∧ F.mag y ≠ 0 ∨ F.IsInf y ∧ F.nan x = false ∧ F.mag x ≠ 0 →
    F.IsInf r ∧ F.neg r = (F.neg x != F.neg y)
  infZero : F.IsInf x ∧ F.mag y = 0 ∨ F.IsInf y ∧ F.mag x = 0 → F.nan r = true

/-- **Specification.** `r` is `x` divided by `y`, which is not zero. -/
structure QuotRule (F : Fmt) (x y r : Nat) : Prop where
  nan : F.nan x = true ∨ F.nan y = true → F.nan r = true
  fin : F.Fin x → F.Fin y → IsRoundedF F (F.real x / F.real y) r ∧ F.neg r = (F.neg x != F.neg y)
  infx : F.IsInf x → F.Fin y → F.IsInf r ∧ F.neg r = (F.neg x != F.neg y)
  infy : F.Fin x → F.IsInf y → F.mag r = 0 ∧ F.neg r = (F.neg x != F.neg y)
  inf : F.IsInf x → F.IsInf y → F.nan r = true

section
variable {F : Fmt} (S : Std F)
include S

theorem nan_inf {x : Nat} (h : F.IsInf x) : F.nan x = false := by
  unfold Fmt.nan; rw [h]; simp

theorem neg_fneg {y : Nat} : F.neg (fneg F y) = !F.neg y := neg_pack (mag_lt y)

theorem nan_fneg (y : Nat) : F.nan (fneg F y) = F.nan y := by unfold Fmt.nan; rw [mag_fneg]

theorem fadd_lt' {a b : Nat} (ha : a < 2 ^ (F.w + 1)) (hb : b < 2 ^ (F.w + 1)) : fadd F a b < 2 ^ (F.w + 1) := by
  have hq : F.qnan < 2 ^ (F.w + 1) := Nat.lt_trans S.qnan_lt (Nat.pow_lt_pow_right (by decide) (by omega))
  unfold fadd
  split_ifs
  · exact hq
  · exact hq
  · exact ha
  · exact hb
  · dsimp only
    split_ifs
    · exact pack_lt (Nat.two_pow_pos _)
    · exact pack_lt (encs_lt S _ _)

theorem sum_rule {x y : Nat} : SumRule F x (F.neg y) y (F.real x + F.real y) (fadd F x y) := by
  have fnn : ∀ {z : Nat}, F.Fin z → F.nan z = false ∧ F.mag z ≠ F.inf := fun h => ⟨nan_fin h, by unfold Fmt.Fin at h; omega⟩
  refine ⟨fun h => ?_, fun hx hy => fadd_spec S hx hy, fun hx hy hv => ?_, fun hx hy h => ?_, fun hx hy => ?_, fun hx hy h => ?_⟩
  · have : fadd F x y = F.qnan := by
      unfold fadd
      rw [if_pos (by simpa using h)]
    rw [this]; exact S.qnan_nan
  · obtain ⟨n1, i1⟩ := fnn hx
    obtain ⟨n2, i2⟩ := fnn hy
    have hz : F.sval x + F.sval y = 0 := by
      have hu : (2 : ℚ) ^ F.unit ≠ 0 := by positivity
      unfold Fmt.real at hv
      rw [← add_div, div_eq_zero_iff] at hv
      rcases hv with hv | hv
      · exact_mod_cast hv
      · exact absurd hv hu
    unfold fadd
    rw [if_neg (by rw [n1, n2]; simp), if_neg i1, if_neg i2]
    simp only [hz, if_true]
    exact neg_pack (Nat.two_pow_pos _)
  · have hxi : F.mag x = F.inf := hx
    have : fadd F x y = x := by
      unfold fadd
      rw [if_neg (by rw [nan_inf S hx, hy]; simp), if_pos hxi, if_neg (fun hc => hc.2 (h hc.1))]
    rw [this]; exact ⟨hx, rfl⟩
  · obtain ⟨n1, i1⟩ := fnn hx
    have hyi : F.mag y = F.inf := hy
    have : fadd F x y = y := by
      unfold fadd
      rw [if_neg (by rw [n1, nan_inf S hy]; simp), if_neg i1, if_pos hyi]
    rw [this]; exact ⟨hy, rfl⟩
  · have hxi : F.mag x = F.inf := hx
    have hyi : F.mag y = F.inf := hy
    have : fadd F x y = F.qnan := by
      unfold fadd
      rw [if_neg (by rw [nan_inf S hx, nan_inf S hy]; simp), if_pos hxi, if_pos ⟨hyi, h⟩]
    rw [this]; exact S.qnan_nan

theorem diff_rule {x y : Nat} : SumRule F x (!F.neg y) y (F.real x - F.real y) (fsub F x y) := by
  have h := sum_rule S (x := x) (y := fneg F y)
  have e : F.real (fneg F y) = - F.real y := by unfold Fmt.real; rw [sval_fneg]; push_cast; ring
  have ef : F.Fin (fneg F y) ↔ F.Fin y := by unfold Fmt.Fin; rw [mag_fneg]
  have ei : F.IsInf (fneg F y) ↔ F.IsInf y := by unfold Fmt.IsInf; rw [mag_fneg]
  rw [neg_fneg S, e, ← sub_eq_add_neg] at h
  exact ⟨fun h' => h.nan (by rwa [nan_fneg S]), fun hx hy => h.fin hx (ef.2 hy), fun hx hy => h.zero hx (ef.2 hy),
    fun hx hy hs => h.infx hx (by rwa [nan_fneg S]) (fun hi => hs (ei.1 hi)), fun hx hy => h.infy hx (ei.2 hy),
    fun hx hy => h.opp hx (ei.2 hy)⟩

theorem prod_rule {x y : Nat} : ProdRule F x y (fmul F x y) := by
  have hil := S.inf_lt
  refine ⟨fun h => ?_, fun hx hy => ⟨(fmul_spec S hx hy).2, (fmul_spec S hx hy).1⟩, fun h => ?_, fun h => ?_⟩
  · have : fmul F x y = F.qnan := by
      unfold fmul
      rw [if_pos (by simpa using h)]
    rw [this]; exact S.qnan_nan
  · have hn : F.nan x = false ∧ F.nan y = false ∧ (F.mag x = F.inf ∨ F.mag y = F.inf) ∧ ¬ (F.mag x = 0 ∨ F.mag y = 0) := by
      have hi0 : F.inf ≠ 0 := by
        have h1 := S.val_inf
        intro h0
        rw [h0, val_zero] at h1
        have := Nat.two_pow_pos (F.unit + F.bias + 1)
        omega
      rcases h with ⟨h1, h2, h3⟩ | ⟨h1, h2, h3⟩
      · have h1' : F.mag x = F.inf := h1
        exact ⟨nan_inf S h1, h2, .inl h1, by omega⟩
      · have h1' : F.mag y = F.inf := h1
        exact ⟨h2, nan_inf S h1, .inr h1, by omega⟩
    have : fmul F x y = F.pack (F.neg x != F.neg y) F.inf := by
      unfold fmul
      simp only []
      rw [if_neg (by rw [hn.1, hn.2.1]; simp), if_pos hn.2.2.1, if_neg hn.2.2.2]
    rw [this]
    exact ⟨mag_pack hil, neg_pack hil⟩
  · have hn : F.nan x = false ∧ F.nan y = false ∧ (F.mag x = F.inf ∨ F.mag y = F.inf) ∧ (F.mag x = 0 ∨ F.mag y = 0) := by
      rcases h with ⟨h1, h2⟩ | ⟨h1, h2⟩
      · exact ⟨nan_inf S h1, by unfold Fmt.nan; rw [h2]; simp, .inl h1, .inr h2⟩
      · exact ⟨by unfold Fmt.nan; rw [h2]; simp, nan_inf S h1, .inr h1, .inl h2⟩
    have : fmul F x y = F.qnan := by
      unfold fmul
      simp only []
      rw [if_neg (by rw [hn.1, hn.2.1]; simp), if_pos hn.2.2.1, if_pos hn.2.2.2]
    rw [this]; exact S.qnan_nan

theorem real_ne {y : Nat} (hy : F.mag y ≠ 0) : F.real y ≠ 0 := by
  intro h
  have hv : F.val (F.mag y) ≠ 0 := by
    intro h0
    have : F.val 0 < F.val (F.mag y) := (val_lt_iff F).2 (Nat.pos_of_ne_zero hy)
    omega
  unfold Fmt.real at h
  have hu : (2 : ℚ) ^ F.unit ≠ 0 := by positivity
  rw [div_eq_zero_iff] at h
  rcases h with h | h
  · have : F.sval y = 0 := by exact_mod_cast h
    unfold Fmt.sval at this
    split_ifs at this <;> omega
  · exact hu h

theorem quot_rule {x y : Nat} (h0 : F.mag y ≠ 0) : QuotRule F x y (fdiv F x y) := by
  have hil := S.inf_lt
  refine ⟨fun h => ?_, fun hx hy => ⟨(fdiv_spec S hx hy (real_ne S h0)).2, (fdiv_spec S hx hy (real_ne S h0)).1⟩, fun hx hy => ?_,
    fun hx hy => ?_, fun hx hy => ?_⟩
  · have : fdiv F x y = F.qnan := by
      unfold fdiv
      rw [if_pos (by simpa using h)]
    rw [this]; exact S.qnan_nan
  · have hx' : F.mag x = F.inf := hx
    have hy' : F.mag y ≠ F.inf := by unfold Fmt.Fin at hy; omega
    have : fdiv F x y = F.pack (F.neg x != F.neg y) F.inf := by
      unfold fdiv
      simp only []
      rw [if_neg (by rw [nan_inf S hx, nan_fin hy]; simp), if_pos hx', if_neg hy']
    rw [this]
    exact ⟨mag_pack hil, neg_pack hil⟩
  · have hy' : F.mag y = F.inf := hy
    have hx' : F.mag x ≠ F.inf := by unfold Fmt.Fin at hx; omega
    have : fdiv F x y = F.pack (F.neg x != F.neg y) 0 := by
      unfold fdiv
      simp only []
      rw [if_neg (by rw [nan_inf S hy, nan_fin hx]; simp), if_neg hx', if_pos hy']
    rw [this]
    exact ⟨mag_pack (Nat.two_pow_pos _), neg_pack (Nat.two_pow_pos _)⟩
  · have hx' : F.mag x = F.inf := hx
    have hy' : F.mag y = F.inf := hy
    have : fdiv F x y = F.qnan := by
      unfold fdiv
      simp only []
      rw [if_neg (by rw [nan_inf S hx, nan_inf S hy]; simp), if_pos hx', if_pos hy']
    rw [this]; exact S.qnan_nan

theorem enc_zero' : ofInt F 0 = 0 := by
  unfold ofInt Fmt.pack
  simp [enc_zero S]

/-- `y == 0`. -/
theorem feq_zero_iff (y : Nat) : feq F y 0 = decide (F.mag y = 0) := by
  have h0 : F.nan 0 = false := by unfold Fmt.nan Fmt.mag; simp
  have s0 : F.sval 0 = 0 := by
    unfold Fmt.sval
    rw [mag_of_lt (Nat.two_pow_pos _), val_zero]; simp
  unfold feq
  rw [h0, s0]
  by_cases h : F.mag y = 0
  · have hn : F.nan y = false := by unfold Fmt.nan; rw [h]; simp
    have hs : F.sval y = 0 := by unfold Fmt.sval; rw [h, val_zero]; simp
    simp [h, hn, hs]
  · have hv : F.val 0 < F.val (F.mag y) := (val_lt_iff F).2 (Nat.pos_of_ne_zero h)
    have hs : F.sval y ≠ 0 := by unfold Fmt.sval; split_ifs <;> omega
    simp [h, hs]

end
end Flt

namespace Emu
open CInt Flt

section
variable {F : Fmt} (hF : F = f32 ∨ F = f64) {N : Nat} (hN : N ≤ cap F.ut) {a b c : List Int} (ha : Reg F.ut a) (hb : Reg F.ut b)
include hF hN ha hb

/-- `operator+`, `Add`. -/
theorem C54_add : Lanes F.ut N (FAdd F N a b) (fun i r =>
    SumRule F (pat a i) (F.neg (pat b i)) (pat b i) (F.real (pat a i) + F.real (pat b i)) r.toNat) :=
  fmap2_lanes hF hN ha hb (P := fun x y r => SumRule F x (F.neg y) y (F.real x + F.real y) r)
    (fun _ _ hx hy => ⟨fadd_lt' (std_of hF) hx hy, sum_rule (std_of hF)⟩)

theorem fsub_lt' {x y : Nat} (hx : x < 2 ^ (F.w + 1)) : fsub F x y < 2 ^ (F.w + 1) :=
  fadd_lt' (std_of hF) hx (pack_lt (mag_lt _))

/-- `operator-`, `Sub`. -/
theorem C54_sub : Lanes F.ut N (FSub F N a b) (fun i r =>
    SumRule F (pat a i) (!F.neg (pat b i)) (pat b i) (F.real (pat a i) - F.real (pat b i)) r.toNat) :=
  fmap2_lanes hF hN ha hb (P := fun x y r => SumRule F x (!F.neg y) y (F.real x - F.real y) r)
    (fun _ _ hx _ => ⟨fsub_lt' hF hN ha hb hx, diff_rule (std_of hF)⟩)

/-- `operator*`, `Mul`. -/
theorem C54_mul : Lanes F.ut N (FMul F N a b) (fun i r => ProdRule F (pat a i) (pat b i) r.toNat) :=
  fmap2_lanes hF hN ha hb (P := fun x y r => ProdRule F x y r)
    (fun _ _ _ _ => ⟨fmul_lt (std_of hF) _ _, prod_rule (std_of hF)⟩)

/-- `operator/`, `Div`: the IEEE quotient unless the divisor is a zero; then positive zero (`C54_finding_div_zero`). -/
theorem C54_div : Lanes F.ut N (FDiv F N a b) (fun i r =>
    (F.mag (pat b i) ≠ 0 → QuotRule F (pat a i) (pat b i) r.toNat) ∧ (F.mag (pat b i) = 0 → r.toNat = 0)) := by
  have S := std_of hF
  refine fmap2_lanes hF hN ha hb (P := fun x y r => (F.mag y ≠ 0 → QuotRule F x y r) ∧ (F.mag y = 0 → r = 0)) (fun x y _ _ => ?_)
  rw [enc_zero' S, feq_zero_iff S]
  by_cases h : F.mag y = 0
  · simp [h]
  · simp only [h, decide_false, Bool.false_eq_true, if_false]
    exact ⟨fdiv_lt S _ _, fun _ => quot_rule S h, fun h' => h'.elim⟩

/-- `AbsDiff`: the rounded difference with its sign bit cleared. -/
theorem C54_abs_diff : Lanes F.ut N (FAbsDiff F N a b) (fun i r => ∃ d,
    SumRule F (pat a i) (!F.neg (pat b i)) (pat b i) (F.real (pat a i) - F.real (pat b i)) d ∧
    F.neg r.toNat = false ∧ F.mag r.toNat = F.mag d) :=
  (C54_sub hF hN ha hb).bind fun v hv hl => (C48_abs hF hN hv).mono fun i x hi hx => ⟨_, hl i hi, hx.1, hx.2⟩

variable (hc : Reg F.ut c)
include hc

/-- `MulAdd(mul, x, add)` (not fused): the rounded product plus `add`, rounded again. -/
theorem C54_mul_add : Lanes F.ut N (FMulAdd F N a b c) (fun i r => ∃ m, ProdRule F (pat a i) (pat b i) m ∧
    SumRule F m (F.neg (pat c i)) (pat c i) (F.real m + F.real (pat c i)) r.toNat) :=
  (C54_mul hF hN ha hb).bind fun v hv hl => (C54_add hF hN hv hc).mono fun i _ hi hx => ⟨_, hl i hi, hx⟩

/-- `MulSub(mul, x, sub)`. -/
theorem C54_mul_sub : Lanes F.ut N (FMulSub F N a b c) (fun i r => ∃ m, ProdRule F (pat a i) (pat b i) m ∧
    SumRule F m (!F.neg (pat c i)) (pat c i) (F.real m - F.real (pat c i)) r.toNat) :=
  (C54_mul hF hN ha hb).bind fun v hv hl => (C54_sub hF hN hv hc).mono fun i _ hi hx => ⟨_, hl i hi, hx⟩

/-- `NegMulAdd(mul, x, add)`: `add` minus the rounded product. -/
theorem C54_neg_mul_add : Lanes F.ut N (FNegMulAdd F N a b c) (fun i r => ∃ m, ProdRule F (pat a i) (pat b i) m ∧
    SumRule F (pat c i) (!F.neg m) m (F.real (pat c i) - F.real m) r.toNat) :=
  (C54_mul hF hN ha hb).bind fun v hv hl => (C54_sub hF hN hc hv).mono fun i _ hi hx => ⟨_, hl i hi, hx⟩

/-- `NegMulSub(mul, x, sub)`: the rounded product of `-mul` and `x`, minus `sub`. -/
theorem C54_neg_mul_sub : Lanes F.ut N (FNegMulSub F N a b c) (fun i r => ∃ n m,
    F.neg n = !F.neg (pat a i) ∧ F.mag n = F.mag (pat a i) ∧ ProdRule F n (pat b i) m ∧
    SumRule F m (!F.neg (pat c i)) (pat c i) (F.real m - F.real (pat c i)) r.toNat) :=
  (C48_neg hF hN ha).bind fun u hu hlu => (C54_mul hF hN hu hb).bind fun v hv hl =>
    (C54_sub hF hN hv hc).mono fun i _ hi hx => ⟨_, _, (hlu i hi).1, (hlu i hi).2, hl i hi, hx⟩

end

/-- `ApproximateReciprocal`: here the correctly rounded reciprocal; zero gives zero. -/
theorem C54_approximate_reciprocal {N : Nat} (hN : N ≤ cap f32.ut) {a : List Int} (ha : Reg f32.ut a) :
    Lanes f32.ut N (ApproximateReciprocal N a) (fun i r =>
      (f32.mag (pat a i) ≠ 0 → QuotRule f32 f32.one (pat a i) r.toNat) ∧ (f32.mag (pat a i) = 0 → r.toNat = 0)) := by
  refine fmap1_lanes (.inl rfl) hN ha (P := fun x r => (f32.mag x ≠ 0 → QuotRule f32 f32.one x r) ∧ (f32.mag x = 0 → r = 0))
    (fun x _ => ⟨_, rfl, ?_⟩)
  rw [scalarAbs_eq, feq_zero_iff std32, mag_of_lt (mag_lt x)]
  by_cases h : f32.mag x = 0
  · simp [h]
  · simp only [h, decide_false, Bool.false_eq_true, if_false]
    exact ⟨fdiv_lt std32 _ _, fun _ => quot_rule std32 h, fun h' => h'.elim⟩

/-- **Finding.** Dividing by a zero does not follow IEEE (infinity, or NaN for `0 / 0` and NaN dividends): every such lane
is positive zero. -/
theorem C54_finding_div_zero {F : Fmt} (hF : F = f32 ∨ F = f64) {N : Nat} (hN : N ≤ cap F.ut) {a b : List Int} (ha : Reg F.ut a)
    (hb : Reg F.ut b) (h0 : ∀ i, i < N → F.mag (pat b i) = 0) :
    Lanes F.ut N (FDiv F N a b) (fun _ r => r.toNat = 0) ∧ F.nan F.qnan = true ∧ F.mag 0 ≠ F.inf := by
  refine ⟨(C54_div hF hN ha hb).mono fun i x hi hx => hx.2 (h0 i hi), (std_of hF).qnan_nan, ?_⟩
  rcases hF with rfl | rfl <;> decide +kernel

/-- Non-vacuity: `1 / 3` in single precision, and `1 + 2^-24` (a tie) rounds to even. -/
example : fdiv f32 0x3F800000 0x40400000 = 0x3EAAAAAB ∧ fadd f32 0x3F800000 0x33800000 = 0x3F800000 ∧
    fmul f32 0x3F800001 0x3F800001 = 0x3F800002 := by decide +kernel

end Emu
end Hwy
