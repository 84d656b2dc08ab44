import Verif.EmuConvSpec2
import Verif.EmuArithSpec4

/-!
# C49 (bit casts and widening of every other lane)
-/

namespace Hwy
namespace Emu
open CInt Flt

set_option linter.unusedSectionVars false

/-! ### Bytes as one number -/

theorem total_cons (t : Ty) (x : Int) (v : List Int) : total t (x :: v) = x % 2 ^ t.bits + 2 ^ t.bits * total t v := rfl

theorem pow_pos' (n : Nat) : (0 : Int) < 2 ^ n := by positivity

theorem total_nonneg (t : Ty) (v : List Int) : 0 ≤ total t v := by
  induction v with
  | nil => exact le_rfl
  | cons x v ih =>
    rw [total_cons]
    have h := Int.emod_nonneg x (pow_pos' t.bits).ne'
    have := mul_nonneg (pow_pos' t.bits).le ih
    omega

theorem total_lt (t : Ty) (v : List Int) : total t v < 2 ^ (t.bits * v.length) := by
  induction v with
  | nil => simp [total]
  | cons x v ih =>
    rw [total_cons, List.length_cons, Nat.mul_succ, pow_add, mul_comm ((2:Int) ^ (t.bits * v.length))]
    have h := Int.emod_lt_of_pos x (pow_pos' t.bits)
    have : 2 ^ t.bits * (total t v + 1) ≤ (2 : Int) ^ t.bits * 2 ^ (t.bits * v.length) :=
      mul_le_mul_of_nonneg_left ih (pow_pos' t.bits).le
    rw [mul_add, mul_one] at this
    omega

theorem total_shift (t : Ty) (v : List Int) (k : Nat) : total t v / 2 ^ (t.bits * k) = total t (v.drop k) := by
  induction k generalizing v with
  | zero => simp
  | succ k ih =>
    cases v with
    | nil => simp [total]
    | cons x v =>
      rw [List.drop_succ_cons, ← ih v, Nat.mul_succ, pow_add, mul_comm ((2:Int) ^ (t.bits * k)),
        ← Int.ediv_ediv_of_nonneg (pow_pos' _).le, total_cons]
      congr 1
      rw [Int.add_mul_ediv_left _ _ (pow_pos' _).ne',
        Int.ediv_eq_zero_of_lt (Int.emod_nonneg x (pow_pos' t.bits).ne') (Int.emod_lt_of_pos x (pow_pos' t.bits)), zero_add]

theorem drop_lane {v : List Int} {k : Nat} (h : k < v.length) : v.drop k = lane v k :: v.drop (k + 1) := by
  rw [List.drop_eq_getElem_cons h]
  congr 1
  have := lane_some h
  rw [List.getElem?_eq_getElem h] at this
  exact Option.some.inj this

theorem bitcast_reg {tF tT : Ty} (hT : tT ∈ laneTys) (v : List Int) : Reg tT (BitCast tF tT v) := by
  refine ⟨by simp [BitCast], fun x hx => ?_⟩
  obtain ⟨j, -, rfl⟩ := List.mem_map.1 hx
  exact has_wrap' hT _

theorem bitcast_lane {tF tT : Ty} (v : List Int) {j : Nat} (hj : j < cap tT) :
    lane (BitCast tF tT v) j = tT.wrap (total tF v / 2 ^ (tT.bits * j)) := by
  simp [lane, BitCast, List.getD, hj]

theorem emod_mul' (Y : Int) {a b : Int} (ha : 0 < a) (hb : 0 < b) : Y % a + a * (Y / a % b) = Y % (a * b) := by
  have h1 := Int.emod_add_mul_ediv Y a
  have h2 := Int.emod_add_mul_ediv (Y / a) b
  have e : Y = (Y % a + a * (Y / a % b)) + (a * b) * (Y / a / b) := by
    rw [mul_assoc, add_assoc, ← mul_add, h2, h1]
  have p1 := Int.emod_nonneg Y ha.ne'
  have p2 := Int.emod_lt_of_pos Y ha
  have p3 := Int.emod_nonneg (Y / a) hb.ne'
  have p4 := Int.emod_lt_of_pos (Y / a) hb
  have p5 : a * (Y / a % b + 1) ≤ a * b := mul_le_mul_of_nonneg_left (by omega) ha.le
  have p6 := mul_nonneg ha.le p3
  rw [mul_add, mul_one] at p5
  have h := Int.add_mul_emod_self_left (Y % a + a * (Y / a % b)) (a * b) (Y / a / b)
  rw [← e, Int.emod_eq_of_lt (a := Y % a + a * (Y / a % b)) (by omega) (by omega)] at h
  exact h.symm

theorem digits_sum (M : Nat) (X : Int) : ∀ k : Nat,
    ((List.range k).map (fun j => X / 2 ^ (M * j))).foldr (fun x acc => x % 2 ^ M + 2 ^ M * acc) 0 = X % 2 ^ (M * k) := by
  have gen : ∀ k s : Nat, ((List.range' s k).map (fun j => X / 2 ^ (M * j))).foldr (fun x acc => x % 2 ^ M + 2 ^ M * acc) 0
      = X / 2 ^ (M * s) % 2 ^ (M * k) := by
    intro k
    induction k with
    | zero => intro s; simp [Int.emod_one]
    | succ k ih =>
      intro s
      rw [List.range'_succ, List.map_cons, List.foldr_cons, ih (s + 1)]
      rw [Nat.mul_succ M s, pow_add (2:Int) (M * s), ← Int.ediv_ediv_of_nonneg (pow_pos' _).le]
      generalize X / 2 ^ (M * s) = Y
      rw [Nat.mul_succ, Nat.add_comm, pow_add, emod_mul' _ (pow_pos' _) (pow_pos' _)]
  intro k
  rw [List.range_eq_range', gen k 0]; simp

/-- `BitCast` keeps all the bytes of the register. -/
theorem C49_bit_cast {tF tT : Ty} (hF : tF ∈ laneTys) (hT : tT ∈ laneTys) {v : List Int} (hv : v.length = cap tF) :
    Reg tT (BitCast tF tT v) ∧ total tT (BitCast tF tT v) = total tF v := by
  refine ⟨bitcast_reg hT v, ?_⟩
  have e : total tT (BitCast tF tT v) = ((List.range (cap tT)).map (fun j => total tF v / 2 ^ (tT.bits * j))).foldr
      (fun x acc => x % 2 ^ tT.bits + 2 ^ tT.bits * acc) 0 := by
    generalize hX : total tF v = X
    unfold BitCast
    rw [hX]
    unfold total
    rw [List.foldr_map, List.foldr_map]
    simp only [wrap_emod]
  have hb : ∀ t ∈ laneTys, t.bits * cap t = 128 := by decide
  have h1 := total_lt tF v
  rw [hv, hb tF hF] at h1
  rw [e, digits_sum, hb tT hT, Int.emod_eq_of_lt (total_nonneg _ _) h1]

theorem eq_of_mod {t : Ty} (h : t ∈ laneTys) {x y : Int} (hx : t.Has x) (hy : t.Has y) (e : x ≡ y [ZMOD 2 ^ t.bits]) :
    x = y := by
  rw [← wrap_has' h hx, ← wrap_has' h hy]
  exact wrap_congr t e

/-- Bit cast to lanes of twice the size: even lane in the low half, odd lane in the high half. -/
theorem bitcast_wide {tF tT : Ty} (hb : tT.bits = 2 * tF.bits) {v : List Int} {j : Nat} (hj : j < cap tT)
    (hl : 2 * j + 1 < v.length) :
    lane (BitCast tF tT v) j ≡ lane v (2 * j) % 2 ^ tF.bits + 2 ^ tF.bits * lane v (2 * j + 1) [ZMOD 2 ^ tT.bits] := by
  rw [bitcast_lane v hj, show tT.bits * j = tF.bits * (2 * j) by rw [hb]; ring, total_shift, drop_lane (by omega),
    drop_lane (by omega), total_cons, total_cons]
  refine (modEq_wrap tT _).trans ?_
  have e : (2 : Int) ^ tT.bits = 2 ^ tF.bits * 2 ^ tF.bits := by rw [hb, two_mul, pow_add]
  rw [e]
  refine Int.ModEq.add_left _ (Int.ModEq.mul_left' ?_)
  unfold Int.ModEq
  rw [Int.add_mul_emod_self_left, Int.emod_emod_of_dvd _ (dvd_refl _)]

/-- Bit cast to lanes of half the size: low half, high half. -/
theorem bitcast_narrow {tF tT : Ty} (hb : tF.bits = 2 * tT.bits) {v : List Int} {j : Nat} (hj : 2 * j + 1 < cap tT)
    (hl : j < v.length) :
    lane (BitCast tF tT v) (2 * j) ≡ lane v j [ZMOD 2 ^ tT.bits] ∧
    lane (BitCast tF tT v) (2 * j + 1) ≡ lane v j / 2 ^ tT.bits [ZMOD 2 ^ tT.bits] := by
  have e : (2 : Int) ^ tF.bits = 2 ^ tT.bits * 2 ^ tT.bits := by rw [hb, two_mul, pow_add]
  have h0 : total tF v / 2 ^ (tT.bits * (2 * j)) = lane v j % 2 ^ tF.bits + 2 ^ tF.bits * total tF (v.drop (j + 1)) := by
    rw [show tT.bits * (2 * j) = tF.bits * j by rw [hb]; ring, total_shift, drop_lane hl, total_cons]
  have hmod : lane v j % 2 ^ tF.bits + 2 ^ tF.bits * total tF (v.drop (j + 1)) ≡ lane v j [ZMOD 2 ^ tT.bits * 2 ^ tT.bits] := by
    rw [← e]
    unfold Int.ModEq
    rw [Int.add_mul_emod_self_left, Int.emod_emod_of_dvd _ (dvd_refl _)]
  constructor
  · rw [bitcast_lane v (by omega), h0]
    exact (modEq_wrap tT _).trans (hmod.of_mul_left _)
  · rw [bitcast_lane v hj, show tT.bits * (2 * j + 1) = tT.bits * (2 * j) + tT.bits by ring, pow_add,
      ← Int.ediv_ediv_of_nonneg (pow_pos' _).le, h0]
    refine (modEq_wrap tT _).trans ?_
    obtain ⟨k, hk⟩ := hmod.symm.dvd
    rw [show lane v j % 2 ^ tF.bits + 2 ^ tF.bits * total tF (v.drop (j + 1)) =
      lane v j + 2 ^ tT.bits * (2 ^ tT.bits * k) by rw [← mul_assoc]; omega, Int.add_mul_ediv_left _ _ (pow_pos' _).ne']
    unfold Int.ModEq
    rw [Int.add_mul_emod_self_left]

/-- Bit cast between types of the same size. -/
theorem bitcast_same {tF tT : Ty} (hb : tT.bits = tF.bits) {v : List Int} {j : Nat} (hj : j < cap tT)
    (hl : j < v.length) : lane (BitCast tF tT v) j ≡ lane v j [ZMOD 2 ^ tT.bits] := by
  rw [bitcast_lane v hj, show tT.bits * j = tF.bits * j by rw [hb], total_shift, drop_lane hl, total_cons, ← hb]
  refine (modEq_wrap tT _).trans ?_
  unfold Int.ModEq
  rw [Int.add_mul_emod_self_left, Int.emod_emod_of_dvd _ (dvd_refl _)]

/-! ### Every other lane, widened -/

/-- Signed type of twice the size: the value divided by `2^n` fits the narrow type. -/
theorem has_high {tF tT : Ty} (hF : tF ∈ laneTys) (hb : tT.bits = 2 * tF.bits) (hs : tT.sgn = tF.sgn) {x : Int}
    (hx : tT.Has x) : tF.Has (x / 2 ^ tF.bits) := by
  have hp := bits_pos hF
  have hM := pow_pos' tF.bits
  unfold Ty.Has Ty.lo Ty.hi at hx ⊢
  rw [hs, hb] at hx
  have e : (2 : Int) ^ (2 * tF.bits) = 2 ^ tF.bits * 2 ^ tF.bits := by rw [two_mul, pow_add]
  have e' : (2 : Int) ^ (2 * tF.bits - 1) = 2 ^ tF.bits * 2 ^ (tF.bits - 1) := by
    rw [← pow_add]; congr 1; omega
  rw [e, e'] at hx
  have d1 := Int.emod_add_mul_ediv x (2 ^ tF.bits)
  have d2 := Int.emod_nonneg x hM.ne'
  have d3 := Int.emod_lt_of_pos x hM
  generalize x / 2 ^ tF.bits = q at *
  generalize (2 : Int) ^ tF.bits = M at *
  generalize (2 : Int) ^ (tF.bits - 1) = H at *
  split_ifs at hx ⊢
  · constructor
    · by_contra hc
      have : M * (q + 1) ≤ M * (-H) := mul_le_mul_of_nonneg_left (by omega) hM.le
      rw [mul_add, mul_one, mul_neg] at this
      omega
    · by_contra hc
      have : M * H ≤ M * q := mul_le_mul_of_nonneg_left (by omega) hM.le
      omega
  · constructor
    · by_contra hc
      have : M * (q + 1) ≤ M * 0 := mul_le_mul_of_nonneg_left (by omega) hM.le
      rw [mul_add, mul_one, mul_zero] at this
      omega
    · by_contra hc
      have : M * M ≤ M * q := mul_le_mul_of_nonneg_left (by omega) hM.le
      omega

/-- Masking with `2^n - 1`. -/
theorem and_low_mask {t : Ty} (ht : t ∈ laneTys) {n : Nat} (hn : n ≤ t.bits) {x w : Int} (hx : t.Has x) (hu : t.sgn = false)
    (e : bitsOf t x = bitsOf t w &&& bitsOf t (2 ^ n - 1)) : x = w % 2 ^ n := by
  have hx0 : 0 ≤ x ∧ x < 2 ^ t.bits := by
    unfold Ty.Has Ty.lo Ty.hi at hx
    rw [hu] at hx
    simp only [Bool.false_eq_true, if_false] at hx
    omega
  have e1 := congrArg BitVec.toNat e
  unfold bitsOf at e1
  rw [BitVec.toNat_and, BitVec.toNat_ofInt, BitVec.toNat_ofInt, BitVec.toNat_ofInt] at e1
  push_cast at e1
  rw [Int.emod_eq_of_lt hx0.1 hx0.2] at e1
  have hle : (2 : Int) ^ n ≤ 2 ^ t.bits := by exact_mod_cast Nat.pow_le_pow_right (by decide) hn
  have hp := pow_pos' n
  rw [Int.emod_eq_of_lt (by omega : (0:Int) ≤ 2 ^ n - 1) (by omega)] at e1
  have e2 : ((2 : Int) ^ n - 1).toNat = 2 ^ n - 1 := by
    have : ((2 ^ n : Nat) : Int) = (2 : Int) ^ n := by push_cast; rfl
    omega
  rw [e2, Nat.and_two_pow_sub_one_eq_mod] at e1
  have e3 := congrArg (fun k : Nat => (k : Int)) e1
  simp only [Int.natCast_mod] at e3
  rw [Int.toNat_of_nonneg hx0.1, Int.toNat_of_nonneg (Int.emod_nonneg _ (pow_pos' _).ne')] at e3
  push_cast at e3
  rw [e3, Int.emod_emod_of_dvd]
  exact pow_dvd_pow 2 hn

section
variable {tF tT : Ty} (hF : tF ∈ laneTys) (hT : tT ∈ laneTys) (hb : tT.bits = 2 * tF.bits)
  (hs : tF.sgn = true → tT.sgn = true) {N : Nat} (hN : N ≤ cap tT) {v : List Int} (hv : Reg tF v) (ar : Bool)
include hF hT hb hs hN hv

theorem half_lt : tF.bits < tT.bits := by have := bits_pos hF; omega

theorem cap_two {i : Nat} (hi : i < cap tT) : 2 * i + 1 < cap tF := by
  have := cap_double hT hF hb; omega

theorem has_wideT {x : Int} (hx : tF.Has x) : tT.Has x := by
  have hC : ∀ s ∈ laneTys, ∀ t ∈ laneTys, s.bits < t.bits → (s.sgn = true → t.sgn = true) →
      t.lo ≤ s.lo ∧ s.hi ≤ t.hi := by decide
  exact has_sub (hC tF hF tT hT (half_lt hF hT hb hs hN hv) hs) hx

/-- `PromoteOddTo`: lane `i` is lane `2 i + 1`, same value. -/
theorem C49_promote_odd : Lanes tT N (PromoteOddTo ar tF tT N v) (fun i r => r = lane v (2 * i + 1)) := by
  have hlt := half_lt hF hT hb hs hN hv
  have hpow : ∀ t : Ty, t.bits = tT.bits → (2 : Int) ^ t.bits = 2 ^ tF.bits * 2 ^ tF.bits := fun t e => by
    rw [e, hb, two_mul, pow_add]
  have key : ∀ t : Ty, t ∈ laneTys → t.bits = tT.bits → t.sgn = tF.sgn → ∀ i, i < N →
      lane (BitCast tF t v) i / 2 ^ tF.bits = lane v (2 * i + 1) := by
    intro t ht hbt hst i hi
    have hct : cap t = cap tT := by unfold cap; rw [hbt]
    have h2 := cap_two hF hT hb hs hN hv (i := i) (by omega)
    have hw := bitcast_wide (tF := tF) (tT := t) (by omega) (v := v) (j := i) (by omega) (by rw [hv.len]; exact h2)
    have hreg := (bitcast_reg (tF := tF) ht v).lane_has (i := i) (by omega)
    refine eq_of_mod hF (has_high hF (by omega) hst hreg) (hv.lane_has h2) ?_
    obtain ⟨k, hk⟩ := hw.symm.dvd
    rw [hpow t hbt, mul_assoc] at hk
    rw [show lane (BitCast tF t v) i = lane v (2 * i) % 2 ^ tF.bits + 2 ^ tF.bits * (lane v (2 * i + 1) + 2 ^ tF.bits * k) by
      rw [mul_add]; omega, Int.add_mul_ediv_left _ _ (pow_pos' _).ne',
      Int.ediv_eq_zero_of_lt (Int.emod_nonneg _ (pow_pos' _).ne') (Int.emod_lt_of_pos _ (pow_pos' _)), zero_add]
    unfold Int.ModEq
    rw [Int.add_mul_emod_self_left]
  unfold PromoteOddTo
  cases hsg : tF.sgn
  · simp only [Bool.false_eq_true, if_false]
    have hU := unsigned_mem hT
    obtain ⟨w, e, hw, hl⟩ := C38_shift_right ar hU (N := N) (show N ≤ cap tT.unsigned from hN)
      (bitcast_reg (tF := tF) hU v) (k := tF.bits) hlt
    rw [e, ok_bind']
    refine ⟨_, rfl, bitcast_reg hT w, fun i hi => ?_⟩
    have h1 := hl i hi
    beta_reduce at h1
    rw [key _ hU rfl (by rw [hsg]; rfl) i hi] at h1
    have h2 := cap_two hF hT hb hs hN hv (i := i) (by omega)
    have h3 := bitcast_same (tF := tT.unsigned) (tT := tT) rfl (v := w) (j := i) (by omega)
      (by rw [hw.len]; exact lt_of_lt_of_le hi hN)
    rw [h1] at h3
    exact eq_of_mod hT ((bitcast_reg hT w).lane_has (by omega)) (has_wideT hF hT hb hs hN hv (hv.lane_has h2)) h3
  · simp only [if_true]
    exact (C38_shift_right ar hT hN (bitcast_reg (tF := tF) hT v) (k := tF.bits) hlt).mono
      (fun i x hi e => by rw [e]; exact key tT hT rfl (by rw [hsg, hs hsg]) i hi)

/-- `PromoteEvenTo`: lane `i` is lane `2 i`, same value. -/
theorem C49_promote_even : Lanes tT N (PromoteEvenTo ar tF tT N v) (fun i r => r = lane v (2 * i)) := by
  have hlt := half_lt hF hT hb hs hN hv
  have hM := pow_pos' tF.bits
  unfold PromoteEvenTo
  cases hsg : tF.sgn
  · simp only [Bool.false_eq_true, if_false]
    have hU := unsigned_mem hT
    have hC : ∀ s ∈ laneTys, ∀ t ∈ laneTys, t.bits = 2 * s.bits → s.sgn = false →
        (CInt.cast t.unsigned ⟨s, s.hi⟩).v = 2 ^ s.bits - 1 ∧ t.unsigned.Has (2 ^ s.bits - 1) := by decide
    obtain ⟨c1, c2⟩ := hC tF hF tT hT hb hsg
    rw [c1]
    obtain ⟨m, em, hm, hml⟩ := C38_set hU (N := N) (show N ≤ cap tT.unsigned from hN) c2
    rw [em, ok_bind']
    obtain ⟨w, e, hw, hl⟩ := C38_and hU (N := N) (show N ≤ cap tT.unsigned from hN) (bitcast_reg (tF := tF) hU v) hm
    rw [e, ok_bind']
    refine ⟨_, rfl, bitcast_reg hT w, fun i hi => ?_⟩
    have h2 := cap_two hF hT hb hs hN hv (i := i) (by omega)
    have h1 := hl i hi
    beta_reduce at h1
    rw [hml i hi] at h1
    have h4 := and_low_mask hU (n := tF.bits) hlt.le (hw.lane_has (i := i) (show i < cap tT by omega)) rfl h1
    have h5 := bitcast_wide (tF := tF) (tT := tT.unsigned) hb (v := v) (j := i) (show i < cap tT by omega)
      (by rw [hv.len]; exact h2)
    have hvl := hv.lane_has (i := 2 * i) (by omega)
    have h6 : lane w i = lane v (2 * i) := by
      rw [h4]
      have h7 : (2:Int) ^ tF.bits ∣ 2 ^ tT.unsigned.bits := pow_dvd_pow 2 hlt.le
      have h8 := h5.of_dvd h7
      unfold Int.ModEq at h8
      rw [Int.add_mul_emod_self_left, Int.emod_emod_of_dvd _ (dvd_refl _)] at h8
      rw [h8]
      have h9 := wrap_has' hF hvl
      unfold Ty.wrap at h9
      rwa [if_neg (by rw [hsg]; simp)] at h9
    have h3 := bitcast_same (tF := tT.unsigned) (tT := tT) rfl (v := w) (j := i) (by omega)
      (by rw [hw.len]; exact lt_of_lt_of_le hi hN)
    rw [h6] at h3
    exact eq_of_mod hT ((bitcast_reg hT w).lane_has (by omega)) (has_wideT hF hT hb hs hN hv hvl) h3
  · simp only [if_true]
    obtain ⟨w, e, hw, hl⟩ := C38_shift_left hT hN (bitcast_reg (tF := tF) hT v) (k := tF.bits) hlt
    rw [e, ok_bind']
    refine (C38_shift_right ar hT hN hw (k := tF.bits) hlt).mono (fun i x hi e => ?_)
    rw [e]
    have h2 := cap_two hF hT hb hs hN hv (i := i) (by omega)
    have hwl := hw.lane_has (i := i) (by omega)
    refine eq_of_mod hF (has_high hF hb (by rw [hsg, hs hsg]) hwl) (hv.lane_has (by omega)) ?_
    have h5 := bitcast_wide (tF := tF) (tT := tT) hb (v := v) (j := i) (by omega) (by rw [hv.len]; exact h2)
    have h6 := (hl i hi).trans (h5.mul_right _)
    obtain ⟨k, hk⟩ := h6.symm.dvd
    have e2 : (2 : Int) ^ tT.bits = 2 ^ tF.bits * 2 ^ tF.bits := by rw [hb, two_mul, pow_add]
    rw [e2] at hk
    have h7 : lane w i = 2 ^ tF.bits * (lane v (2 * i) % 2 ^ tF.bits + 2 ^ tF.bits * (lane v (2 * i + 1) + k)) := by
      linear_combination hk
    rw [h7, Int.mul_ediv_cancel_left _ hM.ne']
    unfold Int.ModEq
    rw [Int.add_mul_emod_self_left, Int.emod_emod_of_dvd _ (dvd_refl _)]

end

end Emu
end Hwy
