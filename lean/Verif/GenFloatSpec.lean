import Verif.GenFloatReal
import Verif.GenDivSpec2
import Verif.GenArithSpec2
import Verif.GenArithSpec3

/-!
# C57: float classification, exponents and scaling by powers of two on the reference target

Specification: `F.real` is the value of a finite pattern, `F.Fin`/`F.IsInf`/`F.nan` its class, `IsRoundedF` rounding
to nearest even (`Verif/EmuFArithSpec.lean`).
-/

namespace Hwy
namespace Emu
open CInt Flt

section
variable {F : Fmt} (hF : F = f32 ∨ F = f64) {N : Nat} (hN : N ≤ cap F.ut)
include hF

theorem it_lane : F.it ∈ laneTys := by rcases hF with rfl | rfl <;> decide
theorem it_cap : cap F.it = cap F.ut := by rcases hF with rfl | rfl <;> decide
theorem it_bits : F.it.bits = F.ut.bits := rfl
theorem half_exp : maxExponentField F / 2 = F.bias := by rcases hF with rfl | rfl <;> decide
theorem max_exp : maxExponentField F = 2 * F.bias + 1 := by rcases hF with rfl | rfl <;> decide
theorem p4_bias : F.p + 4 ≤ F.bias := by rcases hF with rfl | rfl <;> decide
theorem it_has {x : Int} (h1 : -(4 * (F.bias : Int) + 4) ≤ x) (h2 : x ≤ 4 * (F.bias : Int) + 4) : F.it.Has x := by
  have : F.it.lo ≤ -(4 * (F.bias : Int) + 4) ∧ 4 * (F.bias : Int) + 4 ≤ F.it.hi := by
    rcases hF with rfl | rfl <;> decide
  exact ⟨by omega, by omega⟩
theorem ut_has {x : Int} (h1 : 0 ≤ x) (h2 : x ≤ 4 * (F.bias : Int) + 4) : F.ut.Has x := by
  have : F.ut.lo ≤ 0 ∧ 4 * (F.bias : Int) + 4 ≤ F.ut.hi := by
    rcases hF with rfl | rfl <;> decide
  exact ⟨by omega, by omega⟩
theorem it_wrap {x : Int} (h1 : -(4 * (F.bias : Int) + 4) ≤ x) (h2 : x ≤ 4 * (F.bias : Int) + 4) : F.it.wrap x = x :=
  wrap_has' (it_lane hF) (it_has hF h1 h2)

include hN

theorem is_pat {v : List Int} (hv : Reg F.ut v) : Is F.ut N v (fun i => ((pat v i : Nat) : Int)) :=
  ⟨hv, fun _ hi => ((pat_lt hF hN hv hi).2).symm⟩

theorem is_pat_lt {v : List Int} {x : Nat → Nat} (hv : Is F.ut N v (fun i => ((x i : Nat) : Int))) {i : Nat} (hi : i < N) :
    x i < 2 ^ (F.w + 1) := by
  have := hv.1.lane_has (i := i) (by omega)
  rw [hv.2 i hi] at this
  exact (has_nat hF).1 this

theorem run_fabs {v : List Int} {x : Nat → Nat} (hv : Is F.ut N v (fun i => ((x i : Nat) : Int))) :
    Runs F.ut N (FAbs F N v) (fun i => ((F.mag (x i) : Nat) : Int)) :=
  (C48_abs hF hN hv.1).runs hN (fun i y hi hy e => by
    have hp : pat v i = x i := by unfold pat; rw [hv.2 i hi]; simp
    rw [hp] at e
    have h0 := (has_ut hF).1 hy
    have hlt : y.toNat < 2 ^ F.w := by
      have := e.1
      unfold Fmt.neg Fmt.signMask at this
      simpa using this
    have : y = ((y.toNat : Nat) : Int) := by omega
    rw [this, ← e.2, mag_of_lt hlt])

theorem run_biased (ar : Bool) {v : List Int} {x : Nat → Nat} (hv : Is F.ut N v (fun i => ((x i : Nat) : Int))) :
    Runs F.ut N (GetBiasedExponent ar F N v) (fun i => ((F.mag (x i) / 2 ^ F.p : Nat) : Int)) := by
  unfold GetBiasedExponent
  refine Runs.bind (run_fabs hF hN hv) fun w hw => ?_
  refine Runs.congr (xshr (ut_lane hF) hN ar (by omega) ?_ hw) fun i hi => ?_
  · show (F.p : Int) < ((F.w + 1 : Nat) : Int)
    unfold Fmt.w; omega
  · rw [Int.toNat_natCast]; push_cast; rfl

theorem biased_le (x : Nat) : F.mag x / 2 ^ F.p ≤ 2 * F.bias + 1 := by
  have h1 := mag_lt (F := F) x
  have h2 : 2 ^ F.w = 2 ^ F.p * (2 * F.bias + 2) := by
    rw [← (std_of hF).pow_e, ← Nat.pow_add]; rfl
  have := (Nat.div_lt_iff_lt_mul (Nat.two_pow_pos F.p) (x := F.mag x) (y := 2 * F.bias + 2)).2 (by rw [Nat.mul_comm, ← h2]; exact h1)
  omega

theorem run_minExp (ar : Bool) {v : List Int} {x : Nat → Nat} (hv : Is F.ut N v (fun i => ((x i : Nat) : Int))) :
    Runs F.it N (minExp12 ar F N v) (fun i => minE F ((F.mag (x i) / 2 ^ F.p : Nat) : Int)) := by
  have hi' := it_lane hF
  have hc := it_cap hF
  have hb2 := (std_of hF).pb
  unfold minExp12
  dsimp only
  rw [half_exp hF]
  refine Runs.bind (run_fabs hF hN hv) fun w hw => ?_
  refine Runs.bind (Runs.congr (xshr (ut_lane hF) hN ar (by omega) (by
    show (F.p : Int) < ((F.w + 1 : Nat) : Int)
    unfold Fmt.w; omega) hw) (G := fun i => ((F.mag (x i) / 2 ^ F.p : Nat) : Int)) fun i hi => by
      rw [Int.toNat_natCast]; push_cast; rfl) fun e he => ?_
  refine Runs.bind (xset (ut_lane hF) hN (x := 1) (ut_has hF (by omega) (by omega))) fun o ho => ?_
  refine Runs.bind (Runs.congr (run_sat_sub (ut_lane hF) hN ar he ho)
    (G := fun i => max (((F.mag (x i) / 2 ^ F.p : Nat) : Int) - 1) 0) fun i hi => ?_) fun d hd => ?_
  · have hb := biased_le hF hN (x i)
    have hhi := (ut_has hF (x := 4 * (F.bias : Int) + 4) (by omega) (by omega)).2
    have hlo : F.ut.lo = 0 := rfl
    unfold clamp
    rw [hlo]
    omega
  · refine Runs.bind (xneg hi' (by omega) (is_bc_same hd hi' rfl (by omega))) fun n hn => ?_
    refine Runs.bind (xset hi' (by omega) (x := 2 - (F.bias : Int) - F.bias) (it_has hF (by omega) (by omega))) fun c hc' => ?_
    refine Runs.congr (xmax hi' (by omega) hn hc') fun i hi => ?_
    have hb := biased_le hF hN (x i)
    rw [it_wrap hF (x := max (((F.mag (x i) / 2 ^ F.p : Nat) : Int) - 1) 0) (by omega) (by omega),
      it_wrap hF (by omega) (by omega)]
    rfl

theorem run_factor {k : List Int} {G : Nat → Int} (hk : Is F.it N k G)
    (hr : ∀ i, i < N → 1 - (F.bias : Int) ≤ G i ∧ G i ≤ F.bias) :
    Runs F.ut N (pow2Factor F N k) (fun i => ((pow2c F (G i) : Nat) : Int)) := by
  have hi' := it_lane hF
  have hc := it_cap hF
  have hb2 := (std_of hF).pb
  unfold pow2Factor
  rw [half_exp hF]
  refine Runs.bind (xset hi' (by omega) (x := (F.bias : Int)) (it_has hF (by omega) (by omega))) fun b hb => ?_
  refine Runs.bind (xadd hi' (by omega) hk hb) fun s hs => ?_
  refine Runs.bind (xshl hi' (by omega) (k := (F.p : Int)) (by omega) (by
    show (F.p : Int) < ((F.w + 1 : Nat) : Int)
    unfold Fmt.w; omega) hs) fun x hx => Runs.ret ?_
  have := is_bc_same hx (ut_lane hF) rfl hN
  refine ⟨this.1, fun i hi => (this.2 i hi).trans ?_⟩
  obtain ⟨h1, h2⟩ := hr i hi
  beta_reduce
  rw [it_wrap hF (x := G i + F.bias) (by omega) (by omega), Int.toNat_natCast]
  have e : (G i + F.bias) * 2 ^ F.p = ((pow2c F (G i) : Nat) : Int) := by
    unfold pow2c; push_cast; rw [Int.toNat_of_nonneg (by omega)]
  have hl := (pow2c_facts (std_of hF) h1 h2).2.2.2.2
  rw [e]
  have hit : F.it.Has ((pow2c F (G i) : Nat) : Int) := by
    have hlo : F.it.lo ≤ 0 := (it_has hF (x := 0) (by omega) (by omega)).1
    refine ⟨by omega, ?_⟩
    rw [it_hi]
    have : ((pow2c F (G i) : Nat) : Int) < 2 ^ F.w := by exact_mod_cast hl
    omega
  rw [wrap_has' hi' hit]
  exact wrap_has' (ut_lane hF) ((has_nat hF).2 (by rw [Nat.pow_succ]; omega))

theorem run_mul_by_pow2 (ar : Bool) {v exp : List Int} {x : Nat → Nat} {K : Nat → Int}
    (hv : Is F.ut N v (fun i => ((x i : Nat) : Int))) (he : Is F.it N exp K) :
    Runs F.ut N (MulByPow2 ar F N v exp) (fun i => ((mulPow2Lane F (x i) (K i) : Nat) : Int)) := by
  have hi' := it_lane hF
  have hc := it_cap hF
  have hb2 := (std_of hF).pb
  have hN' : N ≤ cap F.it := by omega
  have hbits : (2 : Int) < F.it.bits := by rcases hF with rfl | rfl <;> decide
  have hmE : ∀ i, 2 - 2 * (F.bias : Int) ≤ minE F ((F.mag (x i) / 2 ^ F.p : Nat) : Int) ∧
      minE F ((F.mag (x i) / 2 ^ F.p : Nat) : Int) ≤ 0 := fun i => by
    have := (std_of hF).p2
    unfold minE; omega
  have hcE : ∀ i, 3 - 3 * (F.bias : Int) ≤ clampE F ((F.mag (x i) / 2 ^ F.p : Nat) : Int) (K i) ∧
      clampE F ((F.mag (x i) / 2 ^ F.p : Nat) : Int) (K i) ≤ 3 * F.bias := fun i => by
    have := hmE i
    have := (std_of hF).p2
    unfold clampE; omega
  unfold MulByPow2
  dsimp only
  rw [half_exp hF]
  refine Runs.bind (run_minExp hF hN ar hv) fun m hm => ?_
  refine Runs.bind (xset hi' hN' (x := (F.bias : Int) * 3) (it_has hF (by omega) (by omega))) fun c3 hc3 => ?_
  refine Runs.bind (xmin hi' hN' he hc3) fun u hu => ?_
  refine Runs.bind (xset hi' hN' (x := 1 - (F.bias : Int)) (it_has hF (by omega) (by omega))) fun c1 hc1 => ?_
  refine Runs.bind (xadd hi' hN' hm hc1) fun y hy => ?_
  refine Runs.bind (Runs.congr (xmax hi' hN' hu hy)
    (G := fun i => clampE F ((F.mag (x i) / 2 ^ F.p : Nat) : Int) (K i)) fun i hi => ?_) fun C hC => ?_
  · have := hmE i
    rw [it_wrap hF (by omega) (by omega)]; rfl
  refine Runs.bind (xshr hi' hN' ar (k := 2) (by omega) hbits hC) fun q hq => ?_
  refine Runs.bind (xsub hi' hN' hC hq) fun d hd => ?_
  refine Runs.bind (xset hi' hN' (x := (F.bias : Int) + F.bias) (it_has hF (by omega) (by omega))) fun c2 hc2 => ?_
  refine Runs.bind (xmin hi' hN' hd hc2) fun mm hmm => ?_
  refine Runs.bind (Runs.congr (xmax hi' hN' hmm hm)
    (G := fun i => e12 F ((F.mag (x i) / 2 ^ F.p : Nat) : Int) (K i)) fun i hi => ?_) fun E hE => ?_
  · have := hcE i
    show max (min (F.it.wrap (clampE F _ (K i) - clampE F _ (K i) / 4)) _) _ = _
    rw [it_wrap hF (by omega) (by omega)]; rfl
  have hrg := fun i => expo_ranges (std_of hF) (F := F) ((F.mag (x i) / 2 ^ F.p : Nat) : Int) (K i)
  dsimp only at hrg
  refine Runs.bind (Runs.congr (xshr hi' hN' ar (k := 1) (by omega) (by omega) hE)
    (G := fun i => e12 F ((F.mag (x i) / 2 ^ F.p : Nat) : Int) (K i) / 2) fun i hi => rfl) fun e1 he1 => ?_
  refine Runs.bind (Runs.congr (xsub hi' hN' hE he1)
    (G := fun i => e12 F ((F.mag (x i) / 2 ^ F.p : Nat) : Int) (K i) - e12 F ((F.mag (x i) / 2 ^ F.p : Nat) : Int) (K i) / 2)
    fun i hi => ?_) fun e2 he2 => ?_
  · have := (hrg i).2.1
    exact it_wrap hF (by omega) (by omega)
  refine Runs.bind (Runs.congr (xsub hi' hN' hC hE)
    (G := fun i => clampE F ((F.mag (x i) / 2 ^ F.p : Nat) : Int) (K i) - e12 F ((F.mag (x i) / 2 ^ F.p : Nat) : Int) (K i))
    fun i hi => ?_) fun e3 he3 => ?_
  · have := (hrg i).2.2.1
    exact it_wrap hF (by omega) (by omega)
  refine Runs.bind (run_factor hF hN he1 fun i _ => (hrg i).1) fun f1 hf1 => ?_
  refine Runs.bind (run_factor hF hN he2 fun i _ => (hrg i).2.1) fun f2 hf2 => ?_
  refine Runs.bind (run_factor hF hN he3 fun i _ => (hrg i).2.2.1) fun f3 hf3 => ?_
  refine Runs.bind (zmul hF hv hf1 hN) fun r1 hr1 => ?_
  refine Runs.bind (zmul hF hr1 hf2 hN) fun r2 hr2 => ?_
  exact zmul hF hr2 hf3 hN

/-- **Specification.** `r` is `x * 2^k`, rounded once to nearest even (infinity on overflow, gradual underflow); the
sign, infinities and NaN are kept. -/
structure ScaleRule (F : Fmt) (x : Nat) (k : Int) (r : Nat) : Prop where
  nan : F.nan x = true → F.nan r = true
  fin : F.Fin x → IsRoundedF F (F.real x * 2 ^ k) r
  sign : F.nan x = false → F.neg r = F.neg x
  inf : F.IsInf x → F.IsInf r

omit hN in
theorem scale_rule (x : Nat) (k : Int) : ScaleRule F x k (mulPow2Lane F x k) := by
  have S := std_of hF
  refine ⟨fun h => mulPow2Lane_nan S h k, fun h => (mulPow2Lane_fin S (p4_bias hF) h k).1, fun h => ?_,
    fun h => (mulPow2Lane_inf S h k).1⟩
  by_cases hf : F.Fin x
  · exact (mulPow2Lane_fin S (p4_bias hF) hf k).2
  · refine (mulPow2Lane_inf S ?_ k).2
    unfold Fmt.nan at h
    unfold Fmt.Fin at hf
    unfold Fmt.IsInf
    have : ¬ F.inf < F.mag x := by simpa using h
    omega

/-- `MulByPow2(v, exp)`: `v * 2^exp` for every exponent of the integer type, with a single rounding. -/
theorem C57_mul_by_pow2 (ar : Bool) {v exp : List Int} (hv : Reg F.ut v) (he : Reg F.it exp) :
    Lanes F.ut N (MulByPow2 ar F N v exp) (fun i r => ScaleRule F (pat v i) (lane exp i) r.toNat) :=
  (run_mul_by_pow2 hF hN ar (is_pat hF hN hv) (Is.refl he)).lanes hN fun i _ _ => by
    rw [Int.toNat_natCast]; exact scale_rule hF _ _

/-- `GetBiasedExponent`: the exponent field. -/
theorem C57_get_biased_exponent (ar : Bool) {v : List Int} (hv : Reg F.ut v) :
    Lanes F.ut N (GetBiasedExponent ar F N v) (fun i r =>
      ∃ frac : Nat, frac < 2 ^ F.p ∧ F.mag (pat v i) = r.toNat * 2 ^ F.p + frac) :=
  (run_biased hF hN ar (is_pat hF hN hv)).lanes hN fun i _ _ => by
    rw [Int.toNat_natCast]
    exact ⟨_, Nat.mod_lt _ (Nat.two_pow_pos _), by rw [Nat.mul_comm]; exact (Nat.div_add_mod _ _).symm⟩

/-- `GetExponent`: the binary logarithm rounded down, as a float, of normal lanes; the constant `-bias` for zeros and
subnormals, `bias + 1` for infinities and NaN. -/
theorem C57_get_exponent (ar : Bool) {v : List Int} (hv : Reg F.ut v) :
    Lanes F.ut N (GetExponent ar F N v) (fun i r => F.Fin r.toNat ∧
      (F.Fin (pat v i) → (2 : ℚ) ^ (1 - (F.bias : Int)) ≤ |F.real (pat v i)| →
        ∃ k : Int, 2 ^ k ≤ |F.real (pat v i)| ∧ |F.real (pat v i)| < 2 ^ (k + 1) ∧ F.real r.toNat = k) ∧
      (F.Fin (pat v i) → |F.real (pat v i)| < (2 : ℚ) ^ (1 - (F.bias : Int)) → F.real r.toNat = -(F.bias : ℚ)) ∧
      (¬ F.Fin (pat v i) → F.real r.toNat = F.bias + 1)) := by
  have S := std_of hF
  have hi' := it_lane hF
  have hc := it_cap hF
  have hN' : N ≤ cap F.it := by omega
  have run : Runs F.ut N (GetExponent ar F N v)
      (fun i => ((ofInt F (((F.mag (pat v i) / 2 ^ F.p : Nat) : Int) - F.bias) : Nat) : Int)) := by
    unfold GetExponent
    rw [half_exp hF]
    refine Runs.bind (xset hi' hN' (x := (F.bias : Int)) (it_has hF (by omega) (by omega))) fun o ho => ?_
    refine Runs.bind (run_biased hF hN ar (is_pat hF hN hv)) fun e he => ?_
    refine Runs.bind (xsub hi' hN' (is_bc_same he hi' rfl hN') ho) fun k hk => ?_
    refine Runs.congr (yi2f hF hk hN hN') fun i hi => ?_
    have hb := biased_le hF hN (pat v i)
    beta_reduce
    generalize F.mag (pat v i) / 2 ^ F.p = E at hb ⊢
    rw [it_wrap hF (x := (E : Int)) (by omega) (by omega), it_wrap hF (by omega) (by omega)]
  refine run.lanes hN fun i hi _ => ?_
  rw [Int.toNat_natCast]
  have hb := biased_le hF hN (pat v i)
  have hsm : (((F.mag (pat v i) / 2 ^ F.p : Nat) : Int) - F.bias).natAbs ≤ 2 ^ F.p := by
    have : F.bias + 1 ≤ 2 ^ F.p := by rcases hF with rfl | rfl <;> decide
    generalize F.mag (pat v i) / 2 ^ F.p = E at hb ⊢
    omega
  rw [real_ofInt S hsm]
  refine ⟨mag_ofInt S hsm, fun hf hge => ?_, fun hf hlt => ?_, fun hf => ?_⟩
  · obtain ⟨b1, b2, _⟩ := binade S hf rfl
    have hE : 1 ≤ F.mag (pat v i) / 2 ^ F.p := by
      by_contra h0
      have h0 : F.mag (pat v i) / 2 ^ F.p = 0 := Nat.lt_one_iff.1 (Nat.lt_of_not_le h0)
      have hm : F.mag (pat v i) < 2 ^ F.p := (Nat.div_eq_zero_iff_lt (Nat.two_pow_pos _)).1 h0
      have hv' : F.val (F.mag (pat v i)) < 2 ^ F.p := by
        have := (val_lt_iff F).2 (show F.mag (pat v i) < (0 + 1) * 2 ^ F.p by omega)
        rwa [S.val_pow] at this
      rw [abs_real' S, le_div_iff₀ (by positivity)] at hge
      have e : (2 : ℚ) ^ (1 - (F.bias : Int)) * 2 ^ F.unit = 2 ^ F.p := by
        have := S.unit_eq
        rw [← zpow_natCast, ← zpow_natCast, ← zpow_add₀ (by norm_num)]
        congr 1; omega
      rw [e] at hge
      have : 2 ^ F.p ≤ F.val (F.mag (pat v i)) := by exact_mod_cast hge
      omega
    refine ⟨_, b1 hE, ?_, rfl⟩
    rw [max_eq_left (by exact_mod_cast hE)] at b2
    rw [show ((F.mag (pat v i) / 2 ^ F.p : Nat) : Int) - F.bias + 1 = ((F.mag (pat v i) / 2 ^ F.p : Nat) : Int) + 1 - F.bias by ring]
    exact b2
  · obtain ⟨b1, _, _⟩ := binade S hf rfl
    have hE : F.mag (pat v i) / 2 ^ F.p = 0 := by
      by_contra h0
      have h1 : 1 ≤ F.mag (pat v i) / 2 ^ F.p := Nat.pos_of_ne_zero h0
      have := (zpow_mono S (a := 1 - (F.bias : Int)) (b := ((F.mag (pat v i) / 2 ^ F.p : Nat) : Int) - F.bias) (by
        generalize F.mag (pat v i) / 2 ^ F.p = E at h1 ⊢; omega)).trans (b1 h1)
      linarith
    rw [hE]; push_cast; ring
  · have hE : F.mag (pat v i) / 2 ^ F.p = 2 * F.bias + 1 := by
      refine Nat.le_antisymm hb ((Nat.le_div_iff_mul_le (Nat.two_pow_pos _)).2 ?_)
      rw [← S.inf_eq]
      exact Nat.le_of_not_lt hf
    rw [hE]; push_cast; ring

end
end Emu
end Hwy
