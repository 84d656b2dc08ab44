import Verif.GenDivSpec

/-!
# Integer `Div` and `Mod` of 64-bit lanes, and the theorems for all lane types
-/

namespace Hwy
namespace Emu
open CInt Flt

section
variable {F : Fmt} (hF : F = f32 ∨ F = f64)
include hF

theorem zmul {a b : List Int} {N : Nat} {x y : Nat → Nat} (ha : Is F.ut N a (fun i => (x i : Int)))
    (hb : Is F.ut N b (fun i => (y i : Int))) (hN : N ≤ cap F.ut) :
    Runs F.ut N (FMul F N a b) (fun i => ((fmul F (x i) (y i) : Nat) : Int)) :=
  Runs.congr (ymul hF ha hb hN) fun i _ => by rw [Int.toNat_natCast, Int.toNat_natCast]

theorem zdiv {a b : List Int} {N : Nat} {x y : Nat → Nat} (ha : Is F.ut N a (fun i => (x i : Int)))
    (hb : Is F.ut N b (fun i => (y i : Int))) (hN : N ≤ cap F.ut) :
    Runs F.ut N (FDiv F N a b) (fun i => ((fdivLane F (x i) (y i) : Nat) : Int)) :=
  Runs.congr (ydiv hF ha hb hN) fun i _ => by rw [Int.toNat_natCast, Int.toNat_natCast]

theorem zf2i {t : Ty} (ht : t ∈ convTys) {v : List Int} {N : Nat} {x : Nat → Nat} (hv : Is F.ut N v (fun i => (x i : Int)))
    (hN : N ≤ cap F.ut) (hNt : N ≤ cap t) : Runs t N (ConvertInRangeF2I F t N v) (fun i => inr F t (x i)) :=
  Runs.congr (yf2i hF ht hv hN hNt) fun i _ => by rw [Int.toNat_natCast]

end

theorem ut64 : f64.ut = u64 := by decide

theorem zone {N : Nat} (hN : N ≤ 2) : Runs f64.ut N (Set u64 N f64.one) (fun _ => ((f64.one : Nat) : Int)) := by
  rw [ut64]
  exact xset (by decide) (by rw [show cap u64 = 2 by decide]; exact hN) (by decide +kernel)

theorem ynma {t : Ty} (h : t ∈ laneTys) {N : Nat} (hN : N ≤ cap t) {a b c : List Int} {F G H : Nat → Int} (ha : Is t N a F)
    (hb : Is t N b G) (hc : Is t N c H) : Runs t N (NegMulAdd t N a b c) (fun i => t.wrap (H i - t.wrap (F i * G i))) :=
  Runs.bind (xmul h hN ha hb) fun _ hm => xsub h hN hc hm

theorem yabs {t : Ty} (h : t ∈ laneTys) {N : Nat} (hN : N ≤ cap t) {a : List Int} {F : Nat → Int} (ha : Is t N a F) :
    Runs t N (Abs t N a) (fun i => t.wrap |F i|) :=
  (C38_abs h hN ha.1).runs hN (fun i x hi hx e => by
    rw [ha.2 i hi] at e; exact mod_unique h hx e.1)

/-! ### Signed -/

/-- One lane of the signed program. -/
def sdivLane (a b : Int) : Int :=
  let q0 := inr f64 i64 (est64 a b)
  let r0 := i64.wrap (i64.wrap (a - i64.wrap (q0 * b)))
  let q1 := inr f64 i64 (est64 r0 b)
  let r1 := i64.wrap (r0 - i64.wrap (q1 * i64.wrap b))
  let r4 := if (bitsOf i64 (i64.wrap a)).msb then i64.wrap (-r1) else r1
  let absB := u64.wrap (i64.wrap |i64.wrap b|)
  let q4 := i64.wrap (if decide (u64.wrap r4 ≥ absB) then u64.wrap (-1) else 0)
  let q5 := if (bitsOf i64 (i64.ofBits (bitsOf i64 r1 ^^^ bitsOf i64 (i64.wrap b)))).msb then i64.wrap (-q4) else q4
  i64.wrap (i64.wrap (q0 + i64.wrap q1) - i64.wrap q5)

theorem run_sdiv {N : Nat} (hN : N ≤ 2) {a b : List Int} {G H : Nat → Int} (ha : Is i64 N a G) (hb : Is i64 N b H) :
    Runs i64 N (IntDivUsingFloatDiv64 i64 N a b) (fun i => sdivLane (G i) (H i)) := by
  have hc : cap i64 = 2 := by decide
  have hcu : cap u64 = 2 := by decide
  have hcf : cap f64.ut = 2 := by decide
  have hi : i64 ∈ laneTys := by decide
  have hu : u64 ∈ laneTys := by decide
  have hm : i64 ∈ convTys := by decide
  have hF : f64 = f32 ∨ f64 = f64 := .inr rfl
  unfold IntDivUsingFloatDiv64
  simp only [show i64.sgn = true from rfl, if_true, pure_bind]
  have bc : ∀ {v : List Int} {K : Nat → Int}, Is i64 N v K → Is i64 N (BitCast i64 i64 v) (fun i => i64.wrap (K i)) :=
    fun h => is_bc_same h hi rfl (by omega)
  have bcu : ∀ {v : List Int} {K : Nat → Int}, Is i64 N v K → Is u64 N (BitCast i64 u64 v) (fun i => u64.wrap (K i)) :=
    fun h => is_bc_same h hu rfl (by omega)
  have bci : ∀ {v : List Int} {K : Nat → Int}, Is u64 N v K → Is i64 N (BitCast u64 i64 v) (fun i => i64.wrap (K i)) :=
    fun h => is_bc_same h hi rfl (by omega)
  refine Runs.congr (Runs.bind (yi2f hF hb (by omega) (by omega)) fun fb hfb =>
    Runs.bind (zone hN) fun one hone =>
    Runs.bind (zdiv hF hone hfb (by omega)) fun rb hrb =>
    Runs.bind (yi2f hF ha (by omega) (by omega)) fun fa hfa =>
    Runs.bind (zmul hF hfa hrb (by omega)) fun p0 hp0 =>
    Runs.bind (zf2i hF hm hp0 (by omega) (by omega)) fun q0 hq0 =>
    Runs.bind (ynma hi (by omega) hq0 hb ha) fun r0 hr0 =>
    Runs.bind (yi2f hF (bc hr0) (by omega) (by omega)) fun fr0 hfr0 =>
    Runs.bind (zmul hF hfr0 hrb (by omega)) fun p1 hp1 =>
    Runs.bind (zf2i hF hm hp1 (by omega) (by omega)) fun q1 hq1 =>
    Runs.bind (ynma hi (by omega) hq1 (bc hb) (bc hr0)) fun r1 hr1 =>
    Runs.bind (Runs.bind (xneg hi (by omega) hr1) fun nr1 hnr1 => xneg_ite hi (by omega) (bc ha) hnr1 hr1) fun r4 hr4 =>
    Runs.bind (Runs.bind (yabs hi (by omega) (bc hb)) fun ab hab => Runs.ret (bcu hab)) fun absB habsB =>
    RunsM.bind (xge hu (by omega) (bcu hr4) habsB) fun m hmask =>
    Runs.bind (xxor hi (by omega) hr1 (bc hb)) fun nm hnm =>
    Runs.bind (xneg hi (by omega) (bci (is_vecFromMask hu hmask))) fun nq hnq =>
    Runs.bind (xneg_ite hi (by omega) hnm hnq (bci (is_vecFromMask hu hmask))) fun q5 hq5 =>
    Runs.bind (xadd hi (by omega) hq0 (bc hq1)) fun s hs =>
    xsub hi (by omega) hs (bc hq5)) fun i hi' => ?_
  rfl

theorem sdivLane_ok {a b : Int} (ha : i64.Has a) (hb : i64.Has b) : QuotOk i64 a b (sdivLane a b) := by
  intro h0 hr
  have hi : i64 ∈ laneTys := by decide
  have hb63 := abs_of_i64 hb
  have ha63 := abs_of_i64 ha
  have ha64 : |a| ≤ 2 ^ 64 := le_trans ha63 (by norm_num)
  obtain ⟨hfin, E⟩ := est64_ok h0 hb63 ha64
  have hc0 := est64_close h0 hb63 ha64
  have hq0 := inr_mod_i64 hfin (E.le h0 (by norm_num) ha63)
  have hR0 := hc0.fits h0 ha
  unfold sdivLane
  rw [wrap_has' hi hb, wrap_has' hi ha]
  extract_lets q0 r0 q1 r1 r4 absB q4 q5
  generalize hQ0 : truncQ (f64.real (est64 a b)) = Q0 at *
  change q0 ≡ Q0 [ZMOD 2 ^ 64] at hq0
  have er0 : r0 = a - Q0 * b := by
    have h1 : r0 = i64.wrap (a - Q0 * b) := by
      refine (wrap_congr i64 (modEq_wrap i64 _)).trans (wrap_congr i64 ?_)
      apply Int.ModEq.sub_left
      exact (modEq_wrap i64 _).trans (hq0.mul_right b)
    rw [h1, wrap_has' hi hR0]
  obtain ⟨Q1, hq1, er1, hl, hu, hdiv⟩ := div64_tail h0 hb63 ha64 hc0 hR0 er0 (q1 := q1) (r1 := r1) rfl rfl
  have hr1 : i64.Has r1 := has_wrap' hi _
  have hβ : 0 < |b| := abs_pos.2 h0
  have hs : sg2 a = 1 ∨ sg2 a = -1 := by rcases sg2_cases a with h | h <;> simp [h.1]
  have e4 : r4 = i64.wrap (sg2 a * r1) := by
    show (if (bitsOf i64 a).msb then i64.wrap (-r1) else r1) = _
    rw [msb_i64 ha]
    unfold sg2
    by_cases hc : a < 0
    · simp [hc]
    · simp [hc, wrap_has' hi hr1]
  have eB : absB = |b| := by
    show u64.wrap (i64.wrap |b|) = |b|
    have : u64.wrap (i64.wrap |b|) = u64.wrap |b| := wrap_congr u64 (modEq_wrap i64 _)
    rw [this]
    refine wrap_has' (t := u64) (by decide) ?_
    show 0 ≤ |b| ∧ |b| ≤ 18446744073709551615
    norm_num at hb63
    exact ⟨hβ.le, le_trans hb63 (by norm_num)⟩
  have e5 : q4 = if u64.wrap (i64.wrap (sg2 a * r1)) ≥ |b| then (-1 : Int) else 0 := by
    show i64.wrap (if decide (u64.wrap r4 ≥ absB) then u64.wrap (-1) else 0) = _
    rw [e4, eB]
    simp only [decide_eq_true_eq]
    split_ifs <;> decide +kernel
  have e6 := corr64 (n := (decide (r1 < 0) != decide (b < 0))) hs hr1 hβ hb63 hl e5 (q5 := q5) (by
    show (if (bitsOf i64 (i64.ofBits (bitsOf i64 r1 ^^^ bitsOf i64 b))).msb then i64.wrap (-q4) else q4) = _
    rw [msb_xor_i64 hr1 hb])
  have e7 : a.tdiv b = Q0 + Q1 - q5 := by rw [hdiv, e6]; ring
  rw [e7] at hr ⊢
  rw [← wrap_has' hi hr]
  refine wrap_congr i64 (Int.ModEq.sub ?_ (modEq_wrap i64 _))
  exact (modEq_wrap i64 _).trans (Int.ModEq.add hq0 ((modEq_wrap i64 _).trans hq1))

/-! ### Unsigned -/

/-- The operands after the large divisors are replaced. -/
def uA (a b : Int) : Int := u64.wrap (if (bitsOf i64 (i64.wrap b)).msb then (if decide (a ≥ b) then 1 else 0) else i64.wrap a)
def uB (b : Int) : Int := u64.wrap (if (bitsOf i64 (i64.wrap b)).msb then 1 else i64.wrap b)

/-- One lane of the unsigned program after that. -/
def udivLane (a b : Int) : Int :=
  let q0 := inr f64 u64 (est64 a b)
  let r0 := i64.wrap (u64.wrap (a - u64.wrap (q0 * b)))
  let q1 := inr f64 i64 (est64 r0 b)
  let r1 := i64.wrap (r0 - i64.wrap (q1 * i64.wrap b))
  let absB := u64.wrap b
  let q4 := i64.wrap (if decide (u64.wrap r1 ≥ absB) then u64.wrap (-1) else 0)
  let q5 := if (bitsOf i64 r1).msb then i64.wrap (-q4) else q4
  u64.wrap (u64.wrap (q0 + u64.wrap q1) - u64.wrap q5)

theorem mask_signed {N : Nat} {m : List Int} {p : Nat → Bool} (h : IsMask u64 N m p) : IsMask i64 N m p := ⟨h.len, h.has, h.lanes⟩

theorem run_udiv {N : Nat} (hN : N ≤ 2) {a b : List Int} {G H : Nat → Int} (ha : Is u64 N a G) (hb : Is u64 N b H) :
    Runs u64 N (IntDivUsingFloatDiv64 u64 N a b) (fun i => udivLane (uA (G i) (H i)) (uB (H i))) := by
  have hc : cap i64 = 2 := by decide
  have hcu : cap u64 = 2 := by decide
  have hcf : cap f64.ut = 2 := by decide
  have hi : i64 ∈ laneTys := by decide
  have hu : u64 ∈ laneTys := by decide
  have hm : i64 ∈ convTys := by decide
  have hmu : u64 ∈ convTys := by decide
  have hF : f64 = f32 ∨ f64 = f64 := .inr rfl
  unfold IntDivUsingFloatDiv64
  simp only [show u64.sgn = false from rfl, Bool.false_eq_true, if_false, pure_bind, bind_assoc]
  have bci : ∀ {v : List Int} {K : Nat → Int}, Is u64 N v K → Is i64 N (BitCast u64 i64 v) (fun i => i64.wrap (K i)) :=
    fun h => is_bc_same h hi rfl (by omega)
  have bcu : ∀ {v : List Int} {K : Nat → Int}, Is i64 N v K → Is u64 N (BitCast i64 u64 v) (fun i => u64.wrap (K i)) :=
    fun h => is_bc_same h hu rfl (by omega)
  have bcuu : ∀ {v : List Int} {K : Nat → Int}, Is u64 N v K → Is u64 N (BitCast u64 u64 v) (fun i => u64.wrap (K i)) :=
    fun h => is_bc_same h hu rfl (by omega)
  refine Runs.congr (Runs.bind (xset hi (by omega) (x := 1) (by decide +kernel)) fun one1 hone1 =>
    RunsM.bind (xge hu (by omega) ha hb) fun m0 hm0 =>
    Runs.bind (xitez hi (by omega) (mask_signed hm0) hone1) fun z hz =>
    Runs.bind (xneg_ite hi (by omega) (bci hb) hz (bci ha)) fun a' ha' =>
    Runs.bind (xneg_ite hi (by omega) (bci hb) hone1 (bci hb)) fun b' hb' =>
    Runs.bind (yi2f hF (bcu hb') (by omega) (by omega)) fun fb hfb =>
    Runs.bind (zone hN) fun one hone =>
    Runs.bind (zdiv hF hone hfb (by omega)) fun rb hrb =>
    Runs.bind (yi2f hF (bcu ha') (by omega) (by omega)) fun fa hfa =>
    Runs.bind (zmul hF hfa hrb (by omega)) fun p0 hp0 =>
    Runs.bind (zf2i hF hmu hp0 (by omega) (by omega)) fun q0 hq0 =>
    Runs.bind (ynma hu (by omega) hq0 (bcu hb') (bcu ha')) fun r0 hr0 =>
    Runs.bind (yi2f hF (bci hr0) (by omega) (by omega)) fun fr0 hfr0 =>
    Runs.bind (zmul hF hfr0 hrb (by omega)) fun p1 hp1 =>
    Runs.bind (zf2i hF hm hp1 (by omega) (by omega)) fun q1 hq1 =>
    Runs.bind (ynma hi (by omega) hq1 (bci (bcu hb')) (bci hr0)) fun r1 hr1 =>
    RunsM.bind (xge hu (by omega) (bcu hr1) (bcuu (bcu hb'))) fun m hmask =>
    Runs.bind (xneg hi (by omega) (bci (is_vecFromMask hu hmask))) fun nq hnq =>
    Runs.bind (xneg_ite hi (by omega) hr1 hnq (bci (is_vecFromMask hu hmask))) fun q5 hq5 =>
    Runs.bind (xadd hu (by omega) hq0 (bcu hq1)) fun s hs =>
    xsub hu (by omega) hs (bcu hq5)) fun i hi' => ?_
  rfl

theorem udivLane_ok {a b : Int} (ha : u64.Has a) (h0 : 0 < b) (hb : b < 2 ^ 63) : udivLane a b = a.tdiv b := by
  have hi : i64 ∈ laneTys := by decide
  have hu : u64 ∈ laneTys := by decide
  have ha' : 0 ≤ a ∧ a ≤ 18446744073709551615 := ha
  have hbne : b ≠ 0 := by omega
  have hbi : i64.Has b := by
    show -9223372036854775808 ≤ b ∧ b ≤ 9223372036854775807
    norm_num at hb; omega
  have hbu : u64.Has b := by
    show 0 ≤ b ∧ b ≤ 18446744073709551615
    norm_num at hb; omega
  have hb63 := abs_of_i64 hbi
  have ha64 : |a| ≤ 2 ^ 64 := by rw [abs_of_nonneg ha'.1]; norm_num; omega
  obtain ⟨hfin, E⟩ := est64_ok hbne hb63 ha64
  have hc0 := est64_close hbne hb63 ha64
  have hP0 : 0 ≤ f64.real (est64 a b) := by
    have h := E.bound hbne hb63 ha64
    have haq : (0 : ℚ) ≤ a := by exact_mod_cast ha'.1
    have hbq : (0 : ℚ) < b := by exact_mod_cast h0
    rw [abs_of_nonneg haq, abs_le] at h
    have h1 : 0 ≤ f64.real (est64 a b) * b := by
      have := h.1
      norm_num at this
      linarith
    exact nonneg_of_mul_nonneg_left h1 hbq
  have hq0 := inr_mod_u64 hfin hP0 (E.le hbne (by norm_num) ha64)
  have hR0 := E.fits_u h0 hb ha'.1 (by norm_num; omega) hc0 hP0
  have hs1 : sg2 a = 1 := by unfold sg2; rw [if_neg (by omega)]
  unfold udivLane
  rw [wrap_has' hi hbi, wrap_has' hu hbu]
  extract_lets q0 r0 q1 r1 absB q4 q5
  generalize hQ0 : truncQ (f64.real (est64 a b)) = Q0 at *
  change q0 ≡ Q0 [ZMOD 2 ^ 64] at hq0
  have er0 : r0 = a - Q0 * b := by
    have h1 : r0 = i64.wrap (a - Q0 * b) := by
      refine (wrap_congr i64 (modEq_wrap u64 _)).trans (wrap_congr i64 ?_)
      apply Int.ModEq.sub_left
      exact (modEq_wrap u64 _).trans (hq0.mul_right b)
    rw [h1, wrap_has' hi hR0]
  obtain ⟨Q1, hq1, er1, hl, hu', hdiv⟩ := div64_tail hbne hb63 ha64 hc0 hR0 er0 (q1 := q1) (r1 := r1) rfl rfl
  have hr1 : i64.Has r1 := has_wrap' hi _
  have hβ : 0 < |b| := abs_pos.2 hbne
  have hab : |b| = b := abs_of_pos h0
  have e5 : q4 = if u64.wrap (i64.wrap (sg2 a * r1)) ≥ |b| then (-1 : Int) else 0 := by
    show i64.wrap (if decide (u64.wrap r1 ≥ b) then u64.wrap (-1) else 0) = _
    rw [hs1, one_mul, wrap_has' hi hr1, hab]
    simp only [decide_eq_true_eq]
    split_ifs <;> decide +kernel
  have e6 := corr64 (n := (decide (r1 < 0) != decide (b < 0))) (.inl hs1) hr1 hβ hb63 hl e5 (q5 := q5) (by
    show (if (bitsOf i64 r1).msb then i64.wrap (-q4) else q4) = _
    rw [msb_i64 hr1, show decide (b < 0) = false by simp; omega]
    simp)
  have e7 : a.tdiv b = Q0 + Q1 - q5 := by rw [hdiv, e6]; ring
  have hr : u64.Has (a.tdiv b) := by
    have h1 := tdiv_natAbs_le a b
    have h2 := Int.tdiv_nonneg ha'.1 h0.le
    show 0 ≤ a.tdiv b ∧ a.tdiv b ≤ 18446744073709551615
    omega
  rw [e7] at hr ⊢
  rw [← wrap_has' hu hr]
  refine wrap_congr u64 (Int.ModEq.sub ?_ (modEq_wrap u64 _))
  exact (modEq_wrap u64 _).trans (Int.ModEq.add hq0 ((modEq_wrap u64 _).trans hq1))

theorem udiv_ok {a b : Int} (ha : u64.Has a) (hb : u64.Has b) : QuotOk u64 a b (udivLane (uA a b) (uB b)) := by
  intro h0 _
  have hi : i64 ∈ laneTys := by decide
  have hu : u64 ∈ laneTys := by decide
  have ha' : 0 ≤ a ∧ a ≤ 18446744073709551615 := ha
  have hb' : 0 ≤ b ∧ b ≤ 18446744073709551615 := hb
  have hm : (bitsOf i64 (i64.wrap b)).msb = decide (9223372036854775808 ≤ b) := by
    rw [msb_i64 (has_wrap' hi _)]
    have : i64.wrap b = if 9223372036854775808 ≤ b then b - 18446744073709551616 else b := by
      split_ifs with hc
      · rw [← wrap_has' (t := i64) hi (x := b - 18446744073709551616) (by
          show -9223372036854775808 ≤ b - 18446744073709551616 ∧ b - 18446744073709551616 ≤ 9223372036854775807; omega)]
        apply wrap_congr
        show b % (2 ^ 64) = (b - 18446744073709551616) % (2 ^ 64)
        omega
      · exact wrap_has' (t := i64) hi (by show -9223372036854775808 ≤ b ∧ b ≤ 9223372036854775807; omega)
    rw [this]
    split_ifs with hc
    · simp [hc]; omega
    · simp only [hc, decide_false, decide_eq_false_iff_not]; omega
  unfold uA uB
  rw [hm]
  by_cases hc : 9223372036854775808 ≤ b
  · simp only [hc, decide_true, if_true]
    have w1 : u64.wrap 1 = 1 := by decide
    have w0 : u64.wrap 0 = 0 := by decide
    have h1 : (u64.wrap (if decide (a ≥ b) = true then 1 else 0)) = if b ≤ a then 1 else 0 := by
      simp only [decide_eq_true_eq, ge_iff_le]; split_ifs <;> [exact w1; exact w0]
    rw [h1, w1, udivLane_ok (b := 1) (by split_ifs <;> decide +kernel) (by norm_num) (by norm_num), Int.tdiv_one]
    split_ifs with hab
    · refine (tdiv_of_rem (s := 1) (by rw [if_neg (by omega)]) h0 ?_ ?_).symm
      · omega
      · rw [abs_of_pos (by omega)]; omega
    · refine (tdiv_of_rem (s := 1) (by rw [if_neg (by omega)]) h0 ?_ ?_).symm
      · omega
      · rw [abs_of_pos (by omega)]; omega
  · simp only [hc, decide_false, Bool.false_eq_true, if_false]
    have e : ∀ x, u64.Has x → u64.wrap (i64.wrap x) = x := fun x hx => by
      rw [← wrap_has' hu hx]
      conv_rhs => rw [wrap_has' hu hx, ← wrap_has' hu hx]
      exact wrap_congr u64 ((modEq_wrap i64 _).trans (modEq_wrap u64 _))
    rw [e a ha, e b hb]
    exact udivLane_ok ha (by omega) (by norm_num; omega)

/-! ### The theorems -/

/-- Every lane type: the program runs, and its lanes are quotients. -/
theorem run_div {t : Ty} (h : t ∈ laneTys) {N : Nat} (hN : VecLanes t N) {a b : List Int} {G H : Nat → Int}
    (ha : Is t N a G) (hb : Is t N b H) :
    ∃ K : Int → Int → Int, (∀ x y, t.Has x → t.Has y → QuotOk t x y (K x y)) ∧
      Runs t N (IntDiv t N a b) (fun i => K (G i) (H i)) := by
  obtain ⟨hN1, hN2⟩ := hN
  have hN' : N = 1 ∨ N = 2 ∨ N = 4 ∨ N = 8 ∨ N = 16 := by simpa using hN1
  have h' : t = u8 ∨ t = i8 ∨ t = u16 ∨ t = i16 ∨ t = u32 ∨ t = i32 ∨ t = u64 ∨ t = i64 := by
    simpa [laneTys] using h
  have k8 : t = i8 ∨ t = u8 → ∃ K : Int → Int → Int, (∀ x y, t.Has x → t.Has y → QuotOk t x y (K x y)) ∧
      Runs t N (IntDiv t N a b) (fun i => K (G i) (H i)) := fun ht => by
    unfold IntDiv
    rw [if_pos (w8facts ht).2.2.2.2.2.2.2.2]
    exact ydiv8 ht hN1 ha hb
  have k16 : t = i16 ∨ t = u16 → ∃ K : Int → Int → Int, (∀ x y, t.Has x → t.Has y → QuotOk t x y (K x y)) ∧
      Runs t N (IntDiv t N a b) (fun i => K (G i) (H i)) := fun ht => by
    have hb16 : t.bits = 16 := by rcases ht with rfl | rfl <;> rfl
    have hc : cap t = 8 := (w16facts ht).2.2.2.2.2.1
    unfold IntDiv
    rw [if_neg (by omega), if_pos hb16]
    exact ⟨q16lane t, fun x y hx hy => q16lane_ok ht hx hy, ydiv16 ht (by simp; omega) ha hb⟩
  have k32 : t = i32 ∨ t = u32 → ∃ K : Int → Int → Int, (∀ x y, t.Has x → t.Has y → QuotOk t x y (K x y)) ∧
      Runs t N (IntDiv t N a b) (fun i => K (G i) (H i)) := fun ht => by
    have hb32 : t.bits = 32 := by rcases ht with rfl | rfl <;> rfl
    have hc : cap t = 4 := by rcases ht with rfl | rfl <;> decide
    unfold IntDiv
    rw [if_neg (by omega), if_neg (by omega), if_pos hb32]
    exact ⟨qlane f64 t, fun x y hx hy => q32lane_ok ht hx hy, ydiv32full ht (by simp; omega) ha hb⟩
  rcases h' with e | e | e | e | e | e | e | e
  · exact k8 (.inr e)
  · exact k8 (.inl e)
  · exact k16 (.inr e)
  · exact k16 (.inl e)
  · exact k32 (.inr e)
  · exact k32 (.inl e)
  · subst e
    have hc : cap u64 = 2 := by decide
    exact ⟨fun x y => udivLane (uA x y) (uB y), fun x y hx hy => udiv_ok hx hy, run_udiv (by omega) ha hb⟩
  · subst e
    have hc : cap i64 = 2 := by decide
    exact ⟨sdivLane, fun x y hx hy => sdivLane_ok hx hy, run_sdiv (by omega) ha hb⟩

/-- The quotient overflows only for the smallest value divided by `-1`. -/
theorem tdiv_has {t : Ty} (h : t ∈ laneTys) {a b : Int} (ha : t.Has a) (hb : t.Has b)
    (hov : ¬ (t.sgn = true ∧ a = t.lo ∧ b = -1)) : t.Has (a.tdiv b) := by
  have key : ∀ t ∈ laneTys, t.sgn = true ∧ t.hi = -t.lo - 1 ∧ t.lo ≤ -128 ∨ t.sgn = false ∧ t.lo = 0 := by decide
  have h1 := tdiv_natAbs_le a b
  obtain ⟨al, ah⟩ := ha
  obtain ⟨bl, bh⟩ := hb
  rcases key t h with ⟨hs, e1, e2⟩ | ⟨hs, e1⟩
  · have hne : a = t.lo → b ≠ -1 := fun h2 h3 => hov ⟨hs, h2, h3⟩
    have h3 : a = t.lo → a.tdiv b ≠ -a := by
      intro h4 h5
      have hb1 := hne h4
      have hn : (a.tdiv b).natAbs = a.natAbs / b.natAbs := Int.natAbs_tdiv a b
      have hlt : 2 ≤ b.natAbs ∨ b = 0 ∨ b = 1 := by omega
      rcases hlt with h6 | h6 | h6
      · have : a.natAbs / b.natAbs < a.natAbs := Nat.div_lt_self (by omega) h6
        omega
      · subst h6; rw [Int.tdiv_zero] at h5; omega
      · subst h6; rw [Int.tdiv_one] at h5; omega
    unfold Ty.Has
    by_cases h4 : a = t.lo
    · have := h3 h4
      omega
    · omega
  · have h2 := Int.tdiv_nonneg (a := a) (b := b) (by omega) (by omega)
    unfold Ty.Has
    omega

/-- **Integer `Div`**: never undefined; a lane is the quotient truncated toward zero unless its divisor is zero or the
quotient is not representable (the smallest value divided by `-1`). -/
theorem C53_div {t : Ty} (h : t ∈ laneTys) {N : Nat} (hN : VecLanes t N) {a b : List Int} (ha : Reg t a) (hb : Reg t b) :
    Lanes t N (IntDiv t N a b) (fun i r => lane b i ≠ 0 → ¬ (t.sgn = true ∧ lane a i = t.lo ∧ lane b i = -1) →
      r = (lane a i).tdiv (lane b i)) := by
  obtain ⟨K, hK, hr⟩ := run_div h hN (Is.refl ha) (Is.refl hb)
  have hN2 := hN.2
  refine hr.lanes hN2 fun i hi _ h0 hov => ?_
  have h1 := ha.lane_has (i := i) (by omega)
  have h2 := hb.lane_has (i := i) (by omega)
  exact hK _ _ h1 h2 h0 (tdiv_has h h1 h2 hov)

/-- **Integer `Mod`**: the remainder with the sign of the dividend, under the same conditions. -/
theorem C53_mod {t : Ty} (h : t ∈ laneTys) {N : Nat} (hN : VecLanes t N) {a b : List Int} (ha : Reg t a) (hb : Reg t b) :
    Lanes t N (IntMod t N a b) (fun i r => lane b i ≠ 0 → ¬ (t.sgn = true ∧ lane a i = t.lo ∧ lane b i = -1) →
      r = (lane a i).tmod (lane b i)) := by
  obtain ⟨K, hK, hr⟩ := run_div h hN (Is.refl ha) (Is.refl hb)
  have hN2 := hN.2
  refine Runs.lanes (Runs.bind hr fun q hq => ynma h hN2 hq (Is.refl hb) (Is.refl ha)) hN2 fun i hi _ h0 hov => ?_
  have h1 := ha.lane_has (i := i) (by omega)
  have h2 := hb.lane_has (i := i) (by omega)
  have e := hK _ _ h1 h2 h0 (tdiv_has h h1 h2 hov)
  rw [e]
  have hm : (lane a i).tmod (lane b i) = lane a i - (lane a i).tdiv (lane b i) * lane b i := by
    have := Int.tmod_add_mul_tdiv (lane a i) (lane b i)
    rw [mul_comm] at this; omega
  have hh : t.Has ((lane a i).tmod (lane b i)) := by
    have key : ∀ t ∈ laneTys, t.lo ≤ 0 ∧ 0 ≤ t.hi := by decide
    have hk := key t h
    obtain ⟨al, ah⟩ := h1
    have hn : ((lane a i).tmod (lane b i)).natAbs ≤ (lane a i).natAbs := by
      rw [Int.natAbs_tmod]; exact Nat.mod_le _ _
    unfold Ty.Has
    rcases le_total 0 (lane a i) with hc | hc
    · have := Int.tmod_nonneg (lane b i) hc
      omega
    · have h5 := Int.tmod_nonneg (lane b i) (a := -lane a i) (by omega)
      rw [Int.neg_tmod] at h5
      omega
  rw [← wrap_has' h hh, hm]
  apply wrap_congr
  apply Int.ModEq.sub_left
  exact modEq_wrap t _

/-- Non-vacuity: the largest `uint64_t` divided by a divisor near `2^63`, and a signed quotient toward zero. -/
example : (18446744073709551615 : Int).tdiv 9223372036854775807 = 2 ∧ (-7 : Int).tdiv 2 = -3 ∧ (-7 : Int).tmod 2 = -1 := by decide

end Emu
end Hwy
