import Verif.EmuFloatRound3
import Verif.EmuArithSpec
import Verif.EmuMaskSpec
import Mathlib.Order.WithBot

/-!
# C48: floating-point lanes of the reference target

For both formats, every lane count that fits a 128-bit vector and every register of bit patterns (including
NaN, infinities, subnormals and signed zeros).  `pat a i` is the bit pattern of lane `i`.  A finite pattern
stands for the rational `F.real`; `F.ext` extends it with `±∞`.
-/

namespace Hwy
namespace Emu
open CInt Flt
set_option linter.unusedSectionVars false

/-! ### Specification -/

/-- Bit pattern in lane `i`. -/
def pat (a : List Int) (i : Nat) : Nat := (lane a i).toNat

/-- Value of a pattern that is not NaN: a rational, `+∞` or `-∞` (both zeros are `0`). -/
def extOf (F : Fmt) (a : Nat) : WithBot (WithTop ℚ) :=
  if F.mag a < F.inf then ((F.real a : ℚ) : WithTop ℚ)
  else if F.neg a then ⊥ else ((⊤ : WithTop ℚ) : WithBot (WithTop ℚ))

/-! ### Lemmas -/

section
variable {F : Fmt} (hF : F = f32 ∨ F = f64)
include hF

theorem fut_mem : F.ut ∈ laneTys := by rcases hF with h | h <;> subst h <;> decide
theorem fit_mem : F.it ∈ laneTys := by rcases hF with h | h <;> subst h <;> decide

theorem has_ut {x : Int} : F.ut.Has x ↔ 0 ≤ x ∧ x < 2 ^ (F.w + 1) := by
  rcases hF with h | h <;> subst h
  · show (CInt.Ty.lo _ ≤ x ∧ x ≤ CInt.Ty.hi _) ↔ _
    rw [show Fmt.w f32 = 31 by decide, show (Fmt.ut f32).lo = 0 by decide, show (Fmt.ut f32).hi = 2 ^ 32 - 1 by decide]
    omega
  · show (CInt.Ty.lo _ ≤ x ∧ x ≤ CInt.Ty.hi _) ↔ _
    rw [show Fmt.w f64 = 63 by decide, show (Fmt.ut f64).lo = 0 by decide, show (Fmt.ut f64).hi = 2 ^ 64 - 1 by decide]
    omega

theorem has_nat {n : Nat} : F.ut.Has (n : Int) ↔ n < 2 ^ (F.w + 1) := by
  rw [has_ut hF]
  constructor
  · rintro ⟨_, h⟩; exact_mod_cast h
  · intro h; exact ⟨by omega, by exact_mod_cast h⟩

theorem has_toNat {x : Int} (hx : F.ut.Has x) : x.toNat < 2 ^ (F.w + 1) := by
  rw [← has_nat hF, Int.toNat_of_nonneg ((has_ut hF).1 hx).1]; exact hx

variable {N : Nat} (hN : N ≤ cap F.ut) {a : List Int} (ha : Reg F.ut a)

include ha hN in
theorem pat_lt {i : Nat} (hi : i < N) : pat a i < 2 ^ (F.w + 1) ∧ ((pat a i : Nat) : Int) = lane a i := by
  have h := (has_ut hF).1 (ha.lane_has (i := i) (by omega))
  have e : ((pat a i : Nat) : Int) = lane a i := Int.toNat_of_nonneg h.1
  refine ⟨?_, e⟩
  have h2 := h.2
  rw [← e] at h2
  exact_mod_cast h2

include ha hN in
theorem fmap1_lanes {f : Nat → M Nat} {P : Nat → Nat → Prop}
    (hf : ∀ x, x < 2 ^ (F.w + 1) → ∃ r, f x = .ok r ∧ r < 2 ^ (F.w + 1) ∧ P x r) :
    Lanes F.ut N (fmap1 F N f a) (fun i r => P (pat a i) r.toNat) := by
  choose! g h1 h2 h3 using hf
  refine (map1_lanes ha hN (fun x => ((g x.toNat : Nat) : Int)) ?_ ?_).mono ?_
  · intro i hi
    show (do Except.ok (⟨F.ut, ((← f (pat a i) : Nat) : Int)⟩ : Val)) = _
    rw [h1 _ (pat_lt hF hN ha hi).1]; rfl
  · intro i hi
    exact (has_nat hF).2 (h2 _ (pat_lt hF hN ha hi).1)
  · intro i x hi e
    rw [e]
    exact h3 _ (pat_lt hF hN ha hi).1

include ha hN in
theorem fmap2_lanes {b : List Int} (hb : Reg F.ut b) {f : Nat → Nat → Nat} {P : Nat → Nat → Nat → Prop}
    (hf : ∀ x y, x < 2 ^ (F.w + 1) → y < 2 ^ (F.w + 1) → f x y < 2 ^ (F.w + 1) ∧ P x y (f x y)) :
    Lanes F.ut N (fmap2 F N f a b) (fun i r => P (pat a i) (pat b i) r.toNat) := by
  refine (map2_lanes ha hb hN (fun x y => ((f x.toNat y.toNat : Nat) : Int)) (fun i _ => rfl) ?_).mono ?_
  · intro i hi
    exact (has_nat hF).2 (hf _ _ (pat_lt hF hN ha hi).1 (pat_lt hF hN hb hi).1).1
  · intro i x hi e
    rw [e]
    exact (hf _ _ (pat_lt hF hN ha hi).1 (pat_lt hF hN hb hi).1).2

include ha hN in
theorem fconv_lanes {t : Ty} (ht : t ∈ laneTys) (hNt : N ≤ cap t) {f : Nat → M Int} {P : Nat → Int → Prop}
    (hf : ∀ i, i < N → ∃ r, f (pat a i) = .ok r ∧ t.Has r ∧ P (pat a i) r) :
    Lanes t N (fconv t N f a) (fun i r => P (pat a i) r) := by
  choose! g h1 h2 h3 using hf
  refine (lanes_of_loop (reg_zero ht) hNt g h2 ?_).mono (fun i x hi e => by rw [e]; exact h3 i hi)
  intro i hi r _ _ _
  rw [readAt_some (lane_some (a := a) (i := i) (by rw [ha.len]; omega)), ok_bind']
  show (f (pat a i) >>= _) = _
  rw [h1 i hi, ok_bind']

include ha hN in
theorem fmask1_lanes (f : Nat → Bool) :
    ∃ m, fmask1 F N f a = .ok m ∧ IsMask F.ut N m (fun i => f (pat a i)) := by
  refine mask_of_loop (fut_mem hF) hN (fun i hi r => ?_)
  rw [readAt_some (lane_some (a := a) (i := i) (by rw [ha.len]; omega)), ok_bind']; rfl

include ha hN in
theorem fmask2_lanes {b : List Int} (hb : Reg F.ut b) (f : Nat → Nat → Bool) :
    ∃ m, fmask2 F N f a b = .ok m ∧ IsMask F.ut N m (fun i => f (pat a i) (pat b i)) := by
  refine mask_of_loop (fut_mem hF) hN (fun i hi r => ?_)
  rw [readAt_some (lane_some (a := a) (i := i) (by rw [ha.len]; omega)), ok_bind',
    readAt_some (lane_some (a := b) (i := i) (by rw [hb.len]; omega)), ok_bind']; rfl

/-! ### Rounding -/

include hN ha

/-- **C48**, `Round`: never undefined; NaN and infinities unchanged; a finite lane becomes the nearest integer,
the even one of two equally near. -/
theorem C48_round : Lanes F.ut N (FRound F N a) (fun i r =>
    (¬ F.Fin (pat a i) → r.toNat = pat a i) ∧
    (F.Fin (pat a i) → F.Fin r.toNat ∧ ∃ n : ℤ, F.real r.toNat = n ∧ IsRne (F.real (pat a i)) n)) :=
  fmap1_lanes hF hN ha (P := fun x r => (¬ F.Fin x → r = x) ∧
    (F.Fin x → F.Fin r ∧ ∃ n : ℤ, F.real r = n ∧ IsRne (F.real x) n)) (fun _ hx => roundLane_spec hF hx)

/-- **C48**, `Trunc`: toward zero; a result of magnitude zero keeps the sign of a nonzero input. -/
theorem C48_trunc : Lanes F.ut N (FTrunc F N a) (fun i r =>
    (¬ F.Fin (pat a i) → r.toNat = pat a i) ∧
    (F.Fin (pat a i) → F.Fin r.toNat ∧ F.real r.toNat = truncQ (F.real (pat a i))) ∧
    (|F.real (pat a i)| < 1 → r.toNat = if F.real (pat a i) < 0 then F.signMask else 0)) :=
  fmap1_lanes hF hN ha (P := fun x r => (¬ F.Fin x → r = x) ∧
    (F.Fin x → F.Fin r ∧ F.real r = truncQ (F.real x)) ∧
    (|F.real x| < 1 → r = if F.real x < 0 then F.signMask else 0)) (fun _ hx => truncLane_spec hF hx)

/-- **C48**, `Ceil`: the least integer not below the lane; results in `(-1, 0]` are `-0.0`, and in `(0, 1)` exactly
`1.0`. -/
theorem C48_ceil : Lanes F.ut N (FCeil F N a) (fun i r =>
    (¬ F.Fin (pat a i) → r.toNat = pat a i) ∧
    (F.Fin (pat a i) → F.Fin r.toNat ∧ F.real r.toNat = ⌈F.real (pat a i)⌉) ∧
    (|F.real (pat a i)| < 1 → r.toNat = if 0 < F.real (pat a i) then F.one else F.signMask)) :=
  fmap1_lanes hF hN ha (P := fun x r => (¬ F.Fin x → r = x) ∧
    (F.Fin x → F.Fin r ∧ F.real r = ⌈F.real x⌉) ∧
    (|F.real x| < 1 → r = if 0 < F.real x then F.one else F.signMask))
    (fun _ hx => have h := ceilLane_spec (std_of hF) hx; ⟨_, rfl, h.1.lt, h.1.same, h.1.fin, h.2⟩)

/-- **C48**, `Floor`: the greatest integer not above the lane. -/
theorem C48_floor : Lanes F.ut N (FFloor F N a) (fun i r =>
    (¬ F.Fin (pat a i) → r.toNat = pat a i) ∧
    (F.Fin (pat a i) → F.Fin r.toNat ∧ F.real r.toNat = ⌊F.real (pat a i)⌋) ∧
    (|F.real (pat a i)| < 1 → r.toNat = if F.real (pat a i) < 0 then F.mone else 0)) :=
  fmap1_lanes hF hN ha (P := fun x r => (¬ F.Fin x → r = x) ∧
    (F.Fin x → F.Fin r ∧ F.real r = ⌊F.real x⌋) ∧
    (|F.real x| < 1 → r = if F.real x < 0 then F.mone else 0))
    (fun _ hx => have h := floorLane_spec (std_of hF) hx; ⟨_, rfl, h.1.lt, h.1.same, h.1.fin, h.2⟩)

/-- **C48**, `NearestInt`: the nearest integer (ties to even), saturated to the signed type of the same size;
NaN and infinities saturate by sign.  Needs that no lane is exactly `2^31` (`float`) or `2^63` (`double`), see
`C48_finding_nearest_int`. -/
theorem C48_nearest_int (hne : ∀ i, i < N → F.real (pat a i) = 2 ^ F.w → ¬ F.Fin (pat a i)) :
    Lanes F.it N (NearestInt F N a) (fun i r =>
      (F.Fin (pat a i) → ∃ k : ℤ, IsRne (F.real (pat a i)) k ∧ r = satOf F.it k) ∧
      (¬ F.Fin (pat a i) → r = if F.neg (pat a i) then F.it.lo else F.it.hi)) := by
  refine fconv_lanes hF hN ha (t := F.it) (P := fun x r => (F.Fin x → ∃ k : ℤ, IsRne (F.real x) k ∧ r = satOf F.it k) ∧
      (¬ F.Fin x → r = if F.neg x then F.it.lo else F.it.hi)) (fit_mem hF)
    (by rw [show cap F.it = cap F.ut by rcases hF with h | h <;> subst h <;> decide]; exact hN) (fun i hi => ?_)
  refine nearestIntLane_spec hF (pat_lt hF hN ha hi).1 (fun e => ?_)
  have S := std_of hF
  have hwb := w_le_bias hF
  have hcl : (F.bias + F.w) * 2 ^ F.p < F.inf := code_lt_inf S (by omega)
  have hw := Nat.lt_trans hcl S.inf_lt
  refine hne i hi ?_ ?_
  · have hq := real_pack S (n := false) (q := 2 ^ F.w) hcl (by rw [val_two_pow_w hF, Nat.pow_add])
    rw [show F.pack false ((F.bias + F.w) * 2 ^ F.p) = (F.bias + F.w) * 2 ^ F.p by simp [Fmt.pack]] at hq
    rw [e, hq]; simp
  · unfold Fmt.Fin
    rw [e, mag_of_lt hw]; exact hcl

/-! ### Signs -/

/-- **C48**, `Abs`: clears the sign bit, nothing else. -/
theorem C48_abs : Lanes F.ut N (FAbs F N a) (fun i r =>
    F.neg r.toNat = false ∧ F.mag r.toNat = F.mag (pat a i)) :=
  fmap1_lanes hF hN ha (P := fun x r => F.neg r = false ∧ F.mag r = F.mag x) (fun x _ => by
    have h := mag_lt (F := F) x
    refine ⟨_, rfl, ?_, ?_⟩ <;> rw [scalarAbs_eq]
    · rw [Nat.pow_succ]; omega
    · exact ⟨neg_of_lt h, mag_of_lt h⟩)

theorem set_sign : Lanes F.ut N (FSignBit F N) (fun _ x => x = (F.signMask : Int)) := by
  unfold FSignBit Set
  refine lanes_of_loop (reg_zero (fut_mem hF)) hN (fun _ => (F.signMask : Int)) (fun i hi => ?_) (fun i hi r _ _ _ => rfl)
  rw [has_nat hF]
  exact Nat.pow_lt_pow_right (by decide) (by omega)

omit hN ha in
theorem bitsOf_toNat {x : Int} (hx : F.ut.Has x) : (bitsOf F.ut x).toNat = x.toNat := by
  have h := (has_ut hF).1 hx
  unfold bitsOf
  rw [BitVec.toNat_ofInt]
  show (x % ((2 ^ (F.w + 1) : Nat) : Int)).toNat = _
  rw [Int.emod_eq_of_lt h.1 (by push_cast; exact h.2)]

omit hN ha hF in
theorem neg_testBit {x : Nat} (hx : x < 2 ^ (F.w + 1)) : F.neg x = x.testBit F.w := by
  unfold Fmt.neg Fmt.signMask
  rcases Nat.lt_or_ge x (2 ^ F.w) with h | h
  · rw [Nat.testBit_lt_two_pow h]; simp; exact h
  · have hd : x / 2 ^ F.w = 1 := by
      apply Nat.div_eq_of_lt_le <;> rw [Nat.pow_succ] at * <;> omega
    rw [Nat.testBit_eq_decide_div_mod_eq, hd]; simp; exact h

omit hN ha hF in
theorem mag_testBit (x k : Nat) : (F.mag x).testBit k = (decide (k < F.w) && x.testBit k) := by
  unfold Fmt.mag Fmt.signMask; rw [Nat.testBit_mod_two_pow]

/-- Two patterns with the same bits below the sign have the same code. -/
theorem mag_ext {x y : Nat} (h : ∀ k, k < F.w → x.testBit k = y.testBit k) : F.mag x = F.mag y := by
  apply Nat.eq_of_testBit_eq
  intro k
  rw [mag_testBit, mag_testBit]
  by_cases hk : k < F.w
  · rw [h k hk]
  · simp [hk]

/-- **C48**, `Neg`: flips the sign bit, nothing else (also of zeros and NaN). -/
theorem C48_neg : Lanes F.ut N (FNeg F N a) (fun i r =>
    F.neg r.toNat = !F.neg (pat a i) ∧ F.mag r.toNat = F.mag (pat a i)) := by
  refine (set_sign hF hN ha).bind (fun s hs hl => lanes_has hN (C38_xor (fut_mem hF) hN ha hs) (fun i x hi hx e => ?_))
  have hp := pat_lt hF hN ha hi
  have hr : x.toNat = pat a i ^^^ 2 ^ F.w := by
    rw [← bitsOf_toNat hF hx, e, BitVec.toNat_xor, bitsOf_toNat hF (ha.lane_has (by omega)), hl i hi,
      bitsOf_toNat hF (by rw [has_nat hF]; exact Nat.pow_lt_pow_right (by decide) (by omega))]
    rfl
  have hxl : x.toNat < 2 ^ (F.w + 1) := has_toNat hF hx
  rw [neg_testBit hxl, neg_testBit hp.1, hr]
  refine ⟨?_, mag_ext hF hN ha (fun k hk => ?_)⟩
  · rw [Nat.testBit_xor, Nat.testBit_two_pow_self, Bool.xor_true]
  · rw [Nat.testBit_xor, Nat.testBit_two_pow_of_ne (by omega), Bool.xor_false]

variable {b : List Int} (hb : Reg F.ut b)
include hb

/-- **C48**, `CopySign(magn, sign)`: code of `magn`, sign bit of `sign`. -/
theorem C48_copy_sign : Lanes F.ut N (FCopySign F N a b) (fun i r =>
    F.neg r.toNat = F.neg (pat b i) ∧ F.mag r.toNat = F.mag (pat a i)) := by
  refine (set_sign hF hN ha).bind (fun s hs hl => (C38_and (fut_mem hF) hN hs hb).bind (fun u hu hul =>
    (set_sign hF hN ha).bind (fun s' hs' hl' => (C38_and_not (fut_mem hF) hN hs' ha).bind (fun w hw hwl =>
      lanes_has hN (C38_or (fut_mem hF) hN hu hw) (fun i x hi hx e => ?_)))))
  have hp := pat_lt hF hN ha hi
  have hq := pat_lt hF hN hb hi
  have hsm : F.ut.Has (F.signMask : Int) := by
    rw [has_nat hF]; exact Nat.pow_lt_pow_right (by decide) (by omega)
  have hsl : ∀ k, (bitsOf F.ut (F.signMask : Int)).getLsbD k = decide (F.w = k) := by
    intro k
    show (bitsOf F.ut (F.signMask : Int)).toNat.testBit k = _
    rw [bitsOf_toNat hF hsm]
    show (2 ^ F.w).testBit k = _
    rw [Nat.testBit_two_pow]
  have ht : ∀ {y : Int}, F.ut.Has y → ∀ k, (bitsOf F.ut y).getLsbD k = y.toNat.testBit k := by
    intro y hy k
    show (bitsOf F.ut y).toNat.testBit k = _
    rw [bitsOf_toNat hF hy]
  have hxl : x.toNat < 2 ^ (F.w + 1) := has_toNat hF hx
  have hbit : ∀ k, k < F.w + 1 → x.toNat.testBit k = if F.w = k then (pat b i).testBit k else (pat a i).testBit k := by
    intro k hk
    rw [← ht hx, e, BitVec.getLsbD_or, hul i hi, hwl i hi, BitVec.getLsbD_and, BitVec.getLsbD_and, BitVec.getLsbD_not,
      hl i hi, hl' i hi, hsl, ht (ha.lane_has (by omega)), ht (hb.lane_has (by omega))]
    show (decide (F.w = k) && (pat b i).testBit k || ((decide (k < F.w + 1) && !decide (F.w = k)) && (pat a i).testBit k)) = _
    by_cases h : F.w = k <;> simp [h, hk]
  rw [neg_testBit hxl, neg_testBit hq.1]
  refine ⟨?_, mag_ext hF hN ha (fun k hk => ?_)⟩
  · rw [hbit _ (by omega), if_pos rfl]
  · rw [hbit _ (by omega), if_neg (by omega)]

/-- **C48**, `CopySignToAbs(abs, sign)`: the same provided `abs` is not negative. -/
theorem C48_copy_sign_to_abs (hpos : ∀ i, i < N → F.neg (pat a i) = false) :
    Lanes F.ut N (FCopySignToAbs F N a b) (fun i r =>
      F.neg r.toNat = F.neg (pat b i) ∧ F.mag r.toNat = F.mag (pat a i)) := by
  refine (set_sign hF hN ha).bind (fun s hs hl =>
      lanes_has hN (C38_or_and (fut_mem hF) hN ha hs hb) (fun i x hi hx e => ?_))
  have hp := pat_lt hF hN ha hi
  have hq := pat_lt hF hN hb hi
  have hsm : F.ut.Has (F.signMask : Int) := by
    rw [has_nat hF]; exact Nat.pow_lt_pow_right (by decide) (by omega)
  have hr : x.toNat = pat a i ||| (2 ^ F.w &&& pat b i) := by
    rw [← bitsOf_toNat hF hx, e, BitVec.toNat_or, BitVec.toNat_and, bitsOf_toNat hF (ha.lane_has (by omega)), hl i hi,
      bitsOf_toNat hF hsm, bitsOf_toNat hF (hb.lane_has (by omega))]
    rfl
  have hxl : x.toNat < 2 ^ (F.w + 1) := has_toNat hF hx
  have hna := hpos i hi
  rw [neg_testBit hp.1] at hna
  rw [neg_testBit hxl, neg_testBit hq.1, hr]
  refine ⟨?_, mag_ext hF hN ha (fun k hk => ?_)⟩
  · rw [Nat.testBit_or, Nat.testBit_and, Nat.testBit_two_pow_self, hna]; simp
  · rw [Nat.testBit_or, Nat.testBit_and, Nat.testBit_two_pow_of_ne (by omega)]; simp

/-! ### Order -/

omit hN ha hb in
theorem sval_le_iff (x y : Nat) : F.sval x ≤ F.sval y ↔ F.real x ≤ F.real y := by
  have hU : (0 : ℚ) < 2 ^ F.unit := by positivity
  unfold Fmt.real
  rw [div_le_div_iff_of_pos_right hU]
  exact_mod_cast Iff.rfl

omit hN ha hb in
theorem sval_fin_lt (x : Nat) (h : F.mag x < F.inf) : (F.sval x).natAbs < F.val F.inf := by
  rw [natAbs_sval]; exact (val_lt_iff F).2 h

omit hN ha hb in
theorem sval_inf {x : Nat} (h : F.mag x = F.inf) :
    F.sval x = if F.neg x then -(F.val F.inf : Int) else F.val F.inf := by
  unfold Fmt.sval; rw [h]

omit hN ha hb in
/-- The model's order on patterns that are not NaN is the order of the extended rationals. -/
theorem sval_ext {x y : Nat} (hx : F.nan x = false) (hy : F.nan y = false) :
    F.sval x ≤ F.sval y ↔ extOf F x ≤ extOf F y := by
  have hx' : F.mag x ≤ F.inf := by simpa [Fmt.nan] using hx
  have hy' : F.mag y ≤ F.inf := by simpa [Fmt.nan] using hy
  have hI : 0 < F.val F.inf := by
    have := (val_lt_iff F).2 (std_of hF).inf_pos
    omega
  unfold extOf
  rcases Nat.lt_or_eq_of_le hx' with h | h <;> rcases Nat.lt_or_eq_of_le hy' with k | k
  · rw [if_pos h, if_pos k, sval_le_iff hF, WithBot.coe_le_coe, WithTop.coe_le_coe]
  · have h1 := sval_fin_lt hF x h
    rw [if_pos h, if_neg (by omega), sval_inf hF k]
    cases F.neg y
    · simp only [Bool.false_eq_true, if_false, WithBot.coe_le_coe, le_top, iff_true]; omega
    · simp only [if_true, le_bot_iff, WithBot.coe_ne_bot, iff_false]; omega
  · have h1 := sval_fin_lt hF y k
    rw [if_neg (by omega), if_pos k, sval_inf hF h]
    cases F.neg x
    · simp only [Bool.false_eq_true, if_false, WithBot.coe_le_coe, top_le_iff, WithTop.coe_ne_top, iff_false]; omega
    · simp only [if_true, bot_le, iff_true]; omega
  · rw [if_neg (show ¬ F.mag x < F.inf by omega), if_neg (show ¬ F.mag y < F.inf by omega), sval_inf hF h, sval_inf hF k]
    cases F.neg x <;> cases F.neg y <;> simp only [Bool.false_eq_true, if_false, if_true, le_refl, bot_le, iff_true]
    · simp only [le_bot_iff, WithBot.coe_ne_bot, iff_false]; omega
    · omega

omit hN ha hb in
theorem fle_ext (x y : Nat) : fle F x y = true ↔ F.nan x = false ∧ F.nan y = false ∧ extOf F x ≤ extOf F y := by
  unfold fle
  cases hx : F.nan x <;> cases hy : F.nan y <;> simp
  exact sval_ext hF hx hy

omit hN ha hb in
theorem flt_ext (x y : Nat) : flt F x y = true ↔ F.nan x = false ∧ F.nan y = false ∧ extOf F x < extOf F y := by
  unfold flt
  cases hx : F.nan x <;> cases hy : F.nan y <;> simp
  rw [lt_iff_not_ge (a := extOf F x), ← sval_ext hF hy hx]; omega

omit hN ha hb in
theorem feq_ext (x y : Nat) : feq F x y = true ↔ F.nan x = false ∧ F.nan y = false ∧ extOf F x = extOf F y := by
  unfold feq
  cases hx : F.nan x <;> cases hy : F.nan y <;> simp
  rw [le_antisymm_iff (a := extOf F x), ← sval_ext hF hx hy, ← sval_ext hF hy hx]; omega

/-- **C48**, `IsNaN`. -/
theorem C48_is_nan : ∃ m, FIsNaN F N a = .ok m ∧ IsMask F.ut N m (fun i => F.nan (pat a i)) := by
  obtain ⟨m, e, h⟩ := fmask1_lanes hF hN ha (Flt.scalarIsNaN F)
  exact ⟨m, e, h.len, h.has, fun i hi => by rw [h.lanes i hi, scalarIsNaN_eq (std_of hF)]⟩

/-- **C48**, comparisons: false if a lane is NaN (`!=`: true), otherwise the order of the extended reals; both
zeros are equal. -/
theorem C48_compare :
    (∃ m p, FEq F N a b = .ok m ∧ IsMask F.ut N m p ∧
      ∀ i, i < N → (p i = true ↔ F.nan (pat a i) = false ∧ F.nan (pat b i) = false ∧ extOf F (pat a i) = extOf F (pat b i))) ∧
    (∃ m p, FNe F N a b = .ok m ∧ IsMask F.ut N m p ∧
      ∀ i, i < N → (p i = true ↔ F.nan (pat a i) = true ∨ F.nan (pat b i) = true ∨ extOf F (pat a i) ≠ extOf F (pat b i))) ∧
    (∃ m p, FLt F N a b = .ok m ∧ IsMask F.ut N m p ∧
      ∀ i, i < N → (p i = true ↔ F.nan (pat a i) = false ∧ F.nan (pat b i) = false ∧ extOf F (pat a i) < extOf F (pat b i))) ∧
    (∃ m p, FGt F N a b = .ok m ∧ IsMask F.ut N m p ∧
      ∀ i, i < N → (p i = true ↔ F.nan (pat a i) = false ∧ F.nan (pat b i) = false ∧ extOf F (pat b i) < extOf F (pat a i))) ∧
    (∃ m p, FLe F N a b = .ok m ∧ IsMask F.ut N m p ∧
      ∀ i, i < N → (p i = true ↔ F.nan (pat a i) = false ∧ F.nan (pat b i) = false ∧ extOf F (pat a i) ≤ extOf F (pat b i))) ∧
    (∃ m p, FGe F N a b = .ok m ∧ IsMask F.ut N m p ∧
      ∀ i, i < N → (p i = true ↔ F.nan (pat a i) = false ∧ F.nan (pat b i) = false ∧ extOf F (pat b i) ≤ extOf F (pat a i))) := by
  refine ⟨?_, ?_, ?_, ?_, ?_, ?_⟩
  · obtain ⟨m, e, h⟩ := fmask2_lanes hF hN ha hb (feq F)
    exact ⟨m, _, e, h, fun i _ => feq_ext hF _ _⟩
  · obtain ⟨m, e, h⟩ := fmask2_lanes hF hN ha hb (fun x y => !feq F x y)
    refine ⟨m, _, e, h, fun i _ => ?_⟩
    have h1 := feq_ext hF (pat a i) (pat b i)
    rw [Bool.not_eq_true', ← Bool.not_eq_true, h1]
    cases F.nan (pat a i) <;> cases F.nan (pat b i) <;> simp
  · obtain ⟨m, e, h⟩ := fmask2_lanes hF hN ha hb (flt F)
    exact ⟨m, _, e, h, fun i _ => flt_ext hF _ _⟩
  · obtain ⟨m, e, h⟩ := fmask2_lanes hF hN ha hb (fun x y => flt F y x)
    exact ⟨m, _, e, h, fun i _ => by rw [flt_ext hF]; tauto⟩
  · obtain ⟨m, e, h⟩ := fmask2_lanes hF hN ha hb (fle F)
    exact ⟨m, _, e, h, fun i _ => fle_ext hF _ _⟩
  · obtain ⟨m, e, h⟩ := fmask2_lanes hF hN ha hb (fun x y => fle F y x)
    exact ⟨m, _, e, h, fun i _ => by rw [fle_ext hF]; tauto⟩

/-- **C48**, `Min`: one of the two lanes; if exactly one is NaN, the other; otherwise not above either. -/
theorem C48_min : Lanes F.ut N (FMin F N a b) (fun i r =>
    (r.toNat = pat a i ∨ r.toNat = pat b i) ∧
    (F.nan (pat a i) = true → r.toNat = pat b i) ∧
    (F.nan (pat a i) = false → F.nan (pat b i) = true → r.toNat = pat a i) ∧
    (F.nan (pat a i) = false → F.nan (pat b i) = false →
      extOf F r.toNat ≤ extOf F (pat a i) ∧ extOf F r.toNat ≤ extOf F (pat b i))) :=
  fmap2_lanes hF hN ha hb (P := fun x y r => (r = x ∨ r = y) ∧ (F.nan x = true → r = y) ∧
    (F.nan x = false → F.nan y = true → r = x) ∧
    (F.nan x = false → F.nan y = false → extOf F r ≤ extOf F x ∧ extOf F r ≤ extOf F y)) (fun x y hx hy => by
    unfold minLane hwyMin
    rw [scalarIsNaN_eq (std_of hF), scalarIsNaN_eq (std_of hF)]
    cases h1 : F.nan x <;> cases h2 : F.nan y <;> simp [hx, hy]
    have h3 := flt_ext hF x y
    simp only [h1, h2, true_and] at h3
    cases h : flt F x y
    · rw [h] at h3
      have h4 : extOf F y ≤ extOf F x := not_lt.1 (fun h' => by cases h3.2 h')
      simp [hy, h4]
    · simp [hx, (h3.1 h).le])

/-- **C48**, `Max`. -/
theorem C48_max : Lanes F.ut N (FMax F N a b) (fun i r =>
    (r.toNat = pat a i ∨ r.toNat = pat b i) ∧
    (F.nan (pat a i) = true → r.toNat = pat b i) ∧
    (F.nan (pat a i) = false → F.nan (pat b i) = true → r.toNat = pat a i) ∧
    (F.nan (pat a i) = false → F.nan (pat b i) = false →
      extOf F (pat a i) ≤ extOf F r.toNat ∧ extOf F (pat b i) ≤ extOf F r.toNat)) :=
  fmap2_lanes hF hN ha hb (P := fun x y r => (r = x ∨ r = y) ∧ (F.nan x = true → r = y) ∧
    (F.nan x = false → F.nan y = true → r = x) ∧
    (F.nan x = false → F.nan y = false → extOf F x ≤ extOf F r ∧ extOf F y ≤ extOf F r)) (fun x y hx hy => by
    unfold maxLane hwyMax
    rw [scalarIsNaN_eq (std_of hF), scalarIsNaN_eq (std_of hF)]
    cases h1 : F.nan x <;> cases h2 : F.nan y <;> simp [hx, hy]
    have h3 := flt_ext hF y x
    simp only [h1, h2, true_and] at h3
    cases h : flt F y x
    · rw [h] at h3
      have h4 : extOf F x ≤ extOf F y := not_lt.1 (fun h' => by cases h3.2 h')
      simp [hy, h4]
    · simp [hx, (h3.1 h).le])

end

/-- **C48**, `DemoteToNearestInt` (`double` to `int32_t`): the nearest integer (ties to even), saturated.  Needs
that no lane lies strictly between `-2147483647.5` and `-2147483647`, see `C48_finding_demote_to_nearest_int`. -/
theorem C48_demote_to_nearest_int {N : Nat} (hN : N ≤ cap f64.ut) {a : List Int} (ha : Reg f64.ut a)
    (hne : ∀ i, i < N → ¬ (-2147483647.5 < f64.real (pat a i) ∧ f64.real (pat a i) < -2147483647)) :
    Lanes i32 N (DemoteToNearestInt N a) (fun i r =>
      (f64.Fin (pat a i) → ∃ k : ℤ, IsRne (f64.real (pat a i)) k ∧ r = satOf i32 k) ∧
      (¬ f64.Fin (pat a i) → r = if f64.neg (pat a i) then i32.lo else i32.hi)) := by
  refine fconv_lanes (F := f64) (Or.inr rfl) hN ha (t := i32)
    (P := fun x r => (f64.Fin x → ∃ k : ℤ, IsRne (f64.real x) k ∧ r = satOf i32 k) ∧
      (¬ f64.Fin x → r = if f64.neg x then i32.lo else i32.hi)) (by decide)
    (Nat.le_trans hN (by decide)) (fun i hi => ?_)
  exact demoteToNearestIntLane_spec std64 (by decide) (pat_lt (Or.inr rfl) hN ha hi).1 (hne i hi)

/-! ### Findings -/

/-- **C48**, finding: `Round` returns `+0.0` for every lane in `[-0.5, -0.0]`: the code writes `-0` as an integer
before converting it.  (`Trunc` of the same inputs keeps the sign, `C48_trunc`.) -/
theorem C48_finding_round_sign {F : Fmt} (hF : F = f32 ∨ F = f64) {N : Nat} (hN : N ≤ cap F.ut) {a : List Int}
    (ha : Reg F.ut a) (h : ∀ i, i < N → |F.real (pat a i)| ≤ 1 / 2) :
    Lanes F.ut N (FRound F N a) (fun _ r => r = 0) := by
  unfold FRound fmap1
  refine map1_lanes ha hN (fun _ => 0) (fun i hi => ?_) (fun i _ => ?_)
  · show (do Except.ok (⟨F.ut, ((← roundLane F (pat a i) : Nat) : Int)⟩ : Val)) = _
    rw [roundLane_zero hF (h i hi)]; rfl
  · rw [show (0 : Int) = ((0 : Nat) : Int) from rfl, has_nat hF]; exact Nat.two_pow_pos _

/-- **C48**, finding: `NearestInt` of a lane equal to `2^31` (`float`) or `2^63` (`double`) is undefined. -/
theorem C48_finding_nearest_int :
    NearestInt f32 4 [0x3F800000, 0x4F000000, 0, 0] = .error .ub ∧
    NearestInt f64 2 [0x3FF0000000000000, 0x43E0000000000000] = .error .ub := by
  constructor <;> decide +kernel

/-- **C48**, finding: `-2147483647.25` is nearest to the `int32_t` `-2147483647`, but becomes `-2147483648`. -/
theorem C48_finding_demote_to_nearest_int :
    f64.real 0xC1DFFFFFFFD00000 = -2147483647.25 ∧ IsRne (-2147483647.25) (-2147483647) ∧
      DemoteToNearestInt 2 [0xC1DFFFFFFFD00000, 0] = .ok [-2147483648, 0, 0, 0] :=
  ⟨demoteToNearestIntLane_finding.1, demoteToNearestIntLane_finding.2.1, by decide +kernel⟩

/-- **C48**, finding: signed zeros.  `Trunc(-0.0)` and `Floor(-0.0)` are `+0.0`, `Ceil(+0.0)` is `-0.0`. -/
theorem C48_finding_zeros :
    FTrunc f32 1 [0x80000000, 0, 0, 0] = .ok [0, 0, 0, 0] ∧
    FFloor f32 1 [0x80000000, 0, 0, 0] = .ok [0, 0, 0, 0] ∧
    FCeil f32 1 [0, 0, 0, 0] = .ok [0x80000000, 0, 0, 0] := by
  refine ⟨?_, ?_, ?_⟩ <;> decide +kernel

/-! ### The hypotheses are met by non-trivial vectors -/

/-- `2.5, -3.5, NaN, -inf`: rounding to even, and the rest unchanged. -/
example : Reg f32.ut [0x40200000, 0xC0600000, 0x7FC00000, 0xFF800000] ∧
    FRound f32 4 [0x40200000, 0xC0600000, 0x7FC00000, 0xFF800000] = .ok [0x40000000, 0xC0800000, 0x7FC00000, 0xFF800000] ∧
    FTrunc f32 4 [0x40200000, 0xC0600000, 0x7FC00000, 0xFF800000] = .ok [0x40000000, 0xC0400000, 0x7FC00000, 0xFF800000] ∧
    FCeil f32 4 [0x40200000, 0xC0600000, 0x7FC00000, 0xFF800000] = .ok [0x40400000, 0xC0400000, 0x7FC00000, 0xFF800000] ∧
    FFloor f32 4 [0x40200000, 0xC0600000, 0x7FC00000, 0xFF800000] = .ok [0x40000000, 0xC0800000, 0x7FC00000, 0xFF800000] ∧
    NearestInt f32 4 [0x40200000, 0xC0600000, 0x7FC00000, 0xFF800000] = .ok [2, -4, 2147483647, -2147483648] := by
  refine ⟨⟨by decide, by decide⟩, ?_, ?_, ?_, ?_, ?_⟩ <;> decide +kernel

/-- The excluded value of `C48_nearest_int` is the only one: other lanes satisfy its hypothesis. -/
example : ∀ i, i < 1 → f32.real (pat [0x40200000, 0, 0, 0] i) = 2 ^ f32.w → ¬ f32.Fin (pat [0x40200000, 0, 0, 0] i) := by
  intro i hi
  obtain rfl : i = 0 := by omega
  intro h
  exfalso
  unfold Fmt.real at h
  rw [div_eq_iff (by positivity)] at h
  have h2 : f32.sval (pat [0x40200000, 0, 0, 0] 0) = 2 ^ f32.w * 2 ^ f32.unit := by exact_mod_cast h
  revert h2
  decide +kernel

end Emu
end Hwy
