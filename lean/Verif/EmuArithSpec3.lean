import Verif.EmuArithSpec2

/-! # C38, continued: products, rotation, comparisons, reductions -/

namespace Hwy
namespace Emu
open CInt

/-! ### MulHigh, MulEven, MulOdd, MulFixedPoint15 -/

/-- The lane types with a wider type. -/
def narrowTys : List Ty := [u8, i8, u16, i16, u32, i32]

theorem narrowTys_mem {t : Ty} (h : t ∈ narrowTys) : t ∈ laneTys := by
  simp only [narrowTys, List.mem_cons, List.not_mem_nil, or_false] at h
  rcases h with h | h | h | h | h | h <;> subst h <;> decide

theorem wide_mem {t : Ty} (h : t ∈ narrowTys) : t.wide ∈ laneTys := by
  simp only [narrowTys, List.mem_cons, List.not_mem_nil, or_false] at h
  rcases h with h | h | h | h | h | h <;> subst h <;> decide

theorem wide_common {t : Ty} (h : t ∈ narrowTys) : t.wide.common t = t.wide.promote ∧ 2 * t.bits = t.wide.bits := by
  simp only [narrowTys, List.mem_cons, List.not_mem_nil, or_false] at h
  rcases h with h | h | h | h | h | h <;> subst h <;> decide

theorem wide_has {t : Ty} (h : t ∈ narrowTys) {x : Int} (hx : t.Has x) : t.wide.Has x := by
  simp only [narrowTys, List.mem_cons, List.not_mem_nil, or_false] at h
  rcases h with h | h | h | h | h | h <;> subst h <;>
    (obtain ⟨h1, h2⟩ := hx
     norm_num [Ty.lo, Ty.hi, Ty.Has, Ty.wide, u8, i8, u16, i16, u32, i32] at h1 h2 ⊢
     omega)

/-- The product of two lanes is a value of the double-width type. -/
theorem wide_mul {t : Ty} (h : t ∈ narrowTys) {x y : Int} (hx : t.Has x) (hy : t.Has y) :
    t.wide.Has (x * y) := by
  have e : (2 : Int) ^ (2 * t.bits) = 2 ^ t.bits * 2 ^ t.bits := by rw [two_mul, pow_add]
  have hb : 0 < t.bits := bits_pos (narrowTys_mem h)
  have e3 := two_pow_split hb
  have e2 : (2 : Int) ^ (2 * t.bits - 1) = 2 * (2 ^ (t.bits - 1) * 2 ^ (t.bits - 1)) := by
    have : (2 : Int) ^ (2 * t.bits) = 2 * 2 ^ (2 * t.bits - 1) := two_pow_split (by omega)
    rw [e, e3] at this
    linarith
  have p : (0 : Int) < 2 ^ (t.bits - 1) := by positivity
  obtain ⟨h1, h2⟩ := hx
  obtain ⟨h3, h4⟩ := hy
  unfold Ty.lo at h1 h3
  unfold Ty.hi at h2 h4
  unfold Ty.Has Ty.lo Ty.hi
  cases hs : t.sgn
  · have hw : t.wide.sgn = false := hs
    rw [hw]
    simp only [hs, Bool.false_eq_true, if_false] at h1 h2 h3 h4 ⊢
    show 0 ≤ x * y ∧ x * y ≤ 2 ^ (2 * t.bits) - 1
    rw [e]
    generalize (2 : Int) ^ t.bits = q at *
    constructor <;> nlinarith
  · have hw : t.wide.sgn = true := hs
    rw [hw]
    simp only [hs, if_true] at h1 h2 h3 h4 ⊢
    show -2 ^ (2 * t.bits - 1) ≤ x * y ∧ x * y ≤ 2 ^ (2 * t.bits - 1) - 1
    rw [e2]
    generalize (2 : Int) ^ (t.bits - 1) = q at *
    constructor
    · rcases le_total 0 x with hx0 | hx0 <;> rcases le_total 0 y with hy0 | hy0 <;> nlinarith
    · rcases le_total 0 x with hx0 | hx0 <;> rcases le_total 0 y with hy0 | hy0 <;> nlinarith

theorem cast_exact {t : Ty} (h : t ∈ laneTys) {s : Ty} {x : Int} (hx : t.Has x) :
    CInt.cast t ⟨s, x⟩ = ⟨t, x⟩ := by
  show (⟨t, t.wrap x⟩ : Val) = _
  rw [wrap_has' h hx]

theorem has_mulHigh {t : Ty} (h : t ∈ narrowTys) {x y : Int} (hx : t.Has x) (hy : t.Has y) :
    t.Has (x * y / 2 ^ t.bits) := by
  have hw := wide_mul h hx hy
  have hb : 0 < t.bits := bits_pos (narrowTys_mem h)
  have e3 := two_pow_split hb
  have p : (0 : Int) < 2 ^ t.bits := by positivity
  obtain ⟨h1, h2⟩ := hw
  have e : (2 : Int) ^ (2 * t.bits) = 2 ^ t.bits * 2 ^ t.bits := by rw [two_mul, pow_add]
  have e2 : (2 : Int) ^ (2 * t.bits - 1) = 2 ^ t.bits * 2 ^ (t.bits - 1) := by
    rw [← pow_add]; congr 1; omega
  unfold Ty.lo at h1
  unfold Ty.hi at h2
  unfold Ty.Has Ty.lo Ty.hi
  have hws : t.wide.sgn = t.sgn := rfl
  have hwb : t.wide.bits = 2 * t.bits := rfl
  rw [hws, hwb] at h1 h2
  cases hs : t.sgn
  · simp only [hs, Bool.false_eq_true, if_false] at h1 h2 ⊢
    rw [e] at h2
    refine ⟨Int.ediv_nonneg h1 (le_of_lt p), ?_⟩
    have := Int.ediv_lt_of_lt_mul p (a := x * y) (b := 2 ^ t.bits) (by omega)
    omega
  · simp only [hs, if_true] at h1 h2 ⊢
    rw [e2] at h1 h2
    constructor
    · rw [Int.le_ediv_iff_mul_le p]; nlinarith
    · have := Int.ediv_lt_of_lt_mul p (a := x * y) (b := 2 ^ (t.bits - 1)) (by nlinarith)
      omega

theorem mulHighLane_eq {t : Ty} (h : t ∈ narrowTys) {x y : Int} (hx : t.Has x) (hy : t.Has y) :
    mulHighLane t ⟨t, x⟩ ⟨t, y⟩ = .ok ⟨t, x * y / 2 ^ t.bits⟩ := by
  have hm := wide_mem h
  have hP := promote_mem hm
  unfold mulHighLane
  rw [cast_exact hm (wide_has h hx), cast_exact hm (wide_has h hy)]
  have e1 : mul ⟨t.wide, x⟩ ⟨t.wide, y⟩ = .ok ⟨t.wide.promote, x * y⟩ :=
    mul_exact (a := ⟨t.wide, x⟩) (b := ⟨t.wide, y⟩) (common_self hm) (bits_pos hP)
      (has_promote hm (wide_has h hx)) (has_promote hm (wide_has h hy)) (has_promote hm (wide_mul h hx hy))
  rw [e1, ok_bind']
  have hlt : t.bits < t.wide.promote.bits := by
    have h' := h
    simp only [narrowTys, List.mem_cons, List.not_mem_nil, or_false] at h'
    rcases h' with h | h | h | h | h | h <;> subst h <;> decide
  have e2 : shr ⟨t.wide.promote, x * y⟩ t.bits = .ok ⟨t.wide.promote, x * y / 2 ^ t.bits⟩ :=
    shr_exact (a := ⟨t.wide.promote, x * y⟩) (promote_promote hm) (bits_pos hP)
      (has_promote hm (wide_mul h hx hy)) hlt
  rw [e2, ok_bind', cast_exact (narrowTys_mem h) (has_mulHigh h hx hy)]
  rfl

/-- `MulHigh`, 8/16/32-bit lanes: the upper half of the double-width product. -/
theorem C38_mul_high {t : Ty} (h : t ∈ narrowTys) {N : Nat} (hN : N ≤ cap t) {a b : List Int}
    (ha : Reg t a) (hb : Reg t b) :
    Lanes t N (MulHigh t N a b) (fun i x => x = lane a i * lane b i / 2 ^ t.bits) :=
  map2_lanes ha hb hN (fun x y => x * y / 2 ^ t.bits)
    (fun i hi => mulHighLane_eq h (ha.lane_has (by omega)) (hb.lane_has (by omega)))
    (fun i hi => has_mulHigh h (ha.lane_has (by omega)) (hb.lane_has (by omega)))

/-- `MulEven` / `MulOdd`, 8/16/32-bit lanes: lane `j` of the result is the exact double-width product
of lanes `2j` (even) or `2j + 1` (odd). -/
theorem mulWiden_lanes {t : Ty} (h : t ∈ narrowTys) {N odd : Nat} (hodd : odd ≤ 1)
    (hN : N ≤ cap t) (h2 : 2 * ((N + 1) / 2) ≤ cap t) {a b : List Int} (ha : Reg t a) (hb : Reg t b) :
    Lanes t.wide ((N + 1) / 2) (mulWiden t odd N a b)
      (fun j x => x = lane a (2 * j + odd) * lane b (2 * j + odd)) := by
  have hm := wide_mem h
  have hP := promote_mem hm
  have hcap : cap t = 2 * cap t.wide := by
    simp only [narrowTys, List.mem_cons, List.not_mem_nil, or_false] at h
    rcases h with h | h | h | h | h | h <;> subst h <;> decide
  unfold mulWiden
  apply lanes_of_loop (reg_zero hm) (by omega)
  · intro j hj
    exact wide_mul h (ha.lane_has (by omega)) (hb.lane_has (by omega))
  · intro j hj r hl h1 h2'
    have hxa := ha.lane_has (i := 2 * j + odd) (by omega)
    have hxb := hb.lane_has (i := 2 * j + odd) (by omega)
    simp only
    rw [readAt_some (lane_some (a := a) (i := 2 * j + odd) (by rw [ha.len]; omega)),
      readAt_some (lane_some (a := b) (i := 2 * j + odd) (by rw [hb.len]; omega)), ok_bind', ok_bind',
      wrap_has' hm (wide_has h hxa)]
    have e1 : mul ⟨t.wide, lane a (2 * j + odd)⟩ ⟨t, lane b (2 * j + odd)⟩
        = .ok ⟨t.wide.promote, lane a (2 * j + odd) * lane b (2 * j + odd)⟩ :=
      mul_exact (a := ⟨t.wide, _⟩) (b := ⟨t, _⟩) (wide_common h).1 (bits_pos hP)
        (has_promote hm (wide_has h hxa)) (has_promote hm (wide_has h hxb))
        (has_promote hm (wide_mul h hxa hxb))
    rw [e1, ok_bind', cast_exact hm (wide_mul h hxa hxb), show 2 * j / 2 = j by omega]

theorem C38_mul_even {t : Ty} (h : t ∈ narrowTys) {N : Nat} (hN : N ≤ cap t) {a b : List Int}
    (ha : Reg t a) (hb : Reg t b) :
    Lanes t.wide ((N + 1) / 2) (MulEven t N a b) (fun j x => x = lane a (2 * j) * lane b (2 * j)) := by
  have hev : cap t % 2 = 0 := by
    have h' := h
    simp only [narrowTys, List.mem_cons, List.not_mem_nil, or_false] at h'
    rcases h' with h | h | h | h | h | h <;> subst h <;> decide
  exact mulWiden_lanes h (odd := 0) (by omega) hN (by omega) ha hb

theorem C38_mul_odd {t : Ty} (h : t ∈ narrowTys) {N : Nat} (hN : N ≤ cap t) {a b : List Int}
    (ha : Reg t a) (hb : Reg t b) :
    Lanes t.wide ((N + 1) / 2) (MulOdd t N a b)
      (fun j x => x = lane a (2 * j + 1) * lane b (2 * j + 1)) := by
  have hev : cap t % 2 = 0 := by
    have h' := h
    simp only [narrowTys, List.mem_cons, List.not_mem_nil, or_false] at h'
    rcases h' with h | h | h | h | h | h <;> subst h <;> decide
  exact mulWiden_lanes h (odd := 1) (by omega) hN (by omega) ha hb

theorem mul128_spec {t : Ty} (h : t ∈ [u64, i64]) {x y : Int} (hx : t.Has x) (hy : t.Has y) :
    t.Has (mul128 t x y).1 ∧ t.Has (mul128 t x y).2 ∧
    (mul128 t x y).1 % 2 ^ 64 + 2 ^ 64 * (mul128 t x y).2 = x * y := by
  simp only [List.mem_cons, List.not_mem_nil, or_false] at h
  rcases h with h | h <;> subst h
  · have hu := C05_mul128_unsigned (BitVec.ofInt 64 x) (BitVec.ofInt 64 y)
    have ex : ((BitVec.ofInt 64 x).toNat : Int) = x := ofBits_bv u64 (by decide) hx
    have ey : ((BitVec.ofInt 64 y).toNat : Int) = y := ofBits_bv u64 (by decide) hy
    have h1 := (Hwy.mul128 (BitVec.ofInt 64 x) (BitVec.ofInt 64 y)).1.isLt
    have h2 := (Hwy.mul128 (BitVec.ofInt 64 x) (BitVec.ofInt 64 y)).2.isLt
    have hH : u64.hi = 2 ^ 64 - 1 := rfl
    have hL : u64.lo = 0 := rfl
    refine ⟨⟨?_, ?_⟩, ⟨?_, ?_⟩, ?_⟩
    · rw [hL]; exact Int.natCast_nonneg _
    · rw [hH]; show ((_ : Nat) : Int) ≤ _; omega
    · rw [hL]; exact Int.natCast_nonneg _
    · rw [hH]; show ((_ : Nat) : Int) ≤ _; omega
    · zify at hu
      rw [ex, ey] at hu
      rw [← hu]
      show ((Hwy.mul128 (BitVec.ofInt 64 x) (BitVec.ofInt 64 y)).1.toNat : Int) % 2 ^ 64 + _ = _
      rw [Int.emod_eq_of_lt (by omega) (by omega)]
      rfl
  · have hu := C05_mul128_signed (BitVec.ofInt 64 x) (BitVec.ofInt 64 y)
    have ex : (BitVec.ofInt 64 x).toInt = x := ofBits_bv i64 (by decide) hx
    have ey : (BitVec.ofInt 64 y).toInt = y := ofBits_bv i64 (by decide) hy
    rw [ex, ey] at hu
    refine ⟨has_ofBits i64 (by decide) _, has_ofBits i64 (by decide) _, ?_⟩
    rw [← hu]
    show (Hwy.mul128Signed (BitVec.ofInt 64 x) (BitVec.ofInt 64 y)).1.toInt % 2 ^ 64 + _ = _
    congr 1
    generalize (Hwy.mul128Signed (BitVec.ofInt 64 x) (BitVec.ofInt 64 y)).1 = z
    rw [BitVec.toInt_eq_msb_cond]
    have := z.isLt
    split_ifs
    · push_cast; omega
    · push_cast; omega

theorem div_of_split {l u p : Int} (hp : p = l % 2 ^ 64 + 2 ^ 64 * u) : u = p / 2 ^ 64 := by
  rw [hp]
  have := Int.emod_nonneg l (show (2 : Int) ^ 64 ≠ 0 by norm_num)
  have := Int.emod_lt_of_pos l (show (0 : Int) < 2 ^ 64 by norm_num)
  omega

/-- `MulHigh`, 64-bit lanes: the upper half of the 128-bit product. -/
theorem C38_mul_high64 {t : Ty} (h : t ∈ [u64, i64]) {a b : List Int} (ha : Reg t a) (hb : Reg t b) :
    Lanes t 1 (MulHigh64x1 t a b) (fun i x => x = lane a i * lane b i / 2 ^ 64) ∧
    Lanes t 2 (MulHigh64x2 t a b) (fun i x => x = lane a i * lane b i / 2 ^ 64) := by
  have hl : t ∈ laneTys := by
    simp only [List.mem_cons, List.not_mem_nil, or_false] at h
    rcases h with h | h <;> subst h <;> decide
  have hc : cap t = 2 := by
    simp only [List.mem_cons, List.not_mem_nil, or_false] at h
    rcases h with h | h <;> subst h <;> decide
  have ra : ∀ i, i < 2 → readAt a i = .ok (lane a i) := fun i hi =>
    readAt_some (lane_some (by rw [ha.len]; omega))
  have rb : ∀ i, i < 2 → readAt b i = .ok (lane b i) := fun i hi =>
    readAt_some (lane_some (by rw [hb.len]; omega))
  have sp : ∀ i, i < 2 → _ := fun i hi => mul128_spec h (ha.lane_has (i := i) (by omega)) (hb.lane_has (i := i) (by omega))
  have s0 := sp 0 (by omega)
  have s1 := sp 1 (by omega)
  constructor
  · refine ⟨[(mul128 t (lane a 0) (lane b 0)).2, 0], ?_, ⟨by simp [hc], ?_⟩, ?_⟩
    · unfold MulHigh64x1
      rw [ra 0 (by omega), rb 0 (by omega)]
      rfl
    · intro x hx
      simp only [List.mem_cons, List.not_mem_nil, or_false] at hx
      rcases hx with hx | hx <;> subst hx
      · exact s0.2.1
      · exact has_zero hl
    · intro i hi
      have : i = 0 := by omega
      subst this
      exact div_of_split s0.2.2.symm
  · refine ⟨[(mul128 t (lane a 0) (lane b 0)).2, (mul128 t (lane a 1) (lane b 1)).2], ?_, ⟨by simp [hc], ?_⟩, ?_⟩
    · unfold MulHigh64x2
      rw [ra 0 (by omega), rb 0 (by omega), ra 1 (by omega), rb 1 (by omega)]
      rfl
    · intro x hx
      simp only [List.mem_cons, List.not_mem_nil, or_false] at hx
      rcases hx with hx | hx <;> subst hx
      · exact s0.2.1
      · exact s1.2.1
    · intro i hi
      have : i = 0 ∨ i = 1 := by omega
      rcases this with e | e <;> subst e
      · exact div_of_split s0.2.2.symm
      · exact div_of_split s1.2.2.symm

/-- `MulEven` (`odd = 0`) / `MulOdd` (`odd = 1`), 64-bit lanes: lanes 0 and 1 of the result are the
lower and upper half of the exact product of lane 0 or 1. -/
theorem C38_mul_widen64 {t : Ty} (h : t ∈ [u64, i64]) {odd : Nat} (ho : odd ≤ 1) {a b : List Int}
    (ha : Reg t a) (hb : Reg t b) :
    ∃ lo hi, mulWiden64 t odd a b = .ok [lo, hi] ∧ Reg t [lo, hi] ∧
      lo % 2 ^ 64 + 2 ^ 64 * hi = lane a odd * lane b odd := by
  have hc : cap t = 2 := by
    simp only [List.mem_cons, List.not_mem_nil, or_false] at h
    rcases h with h | h <;> subst h <;> decide
  have sp := mul128_spec h (ha.lane_has (i := odd) (by omega)) (hb.lane_has (i := odd) (by omega))
  refine ⟨_, _, ?_, ⟨by simp [hc], ?_⟩, sp.2.2⟩
  · unfold mulWiden64
    rw [readAt_some (lane_some (a := a) (i := odd) (by rw [ha.len]; omega)),
      readAt_some (lane_some (a := b) (i := odd) (by rw [hb.len]; omega))]
    rfl
  · intro x hx
    simp only [List.mem_cons, List.not_mem_nil, or_false] at hx
    rcases hx with hx | hx <;> subst hx
    · exact sp.1
    · exact sp.2.1

/-- `MulFixedPoint15`: the Q1.15 product rounded to nearest, `⌊(a b + 2^14) / 2^15⌋`, unless both
inputs are -32768 (documented as implementation-defined; then the result is -32768). -/
theorem C38_mul_fixed_point15 {N : Nat} (hN : N ≤ 8) {a b : List Int} (ha : Reg i16 a) (hb : Reg i16 b) :
    Lanes i16 N (MulFixedPoint15 N a b) (fun i x =>
      (¬ (lane a i = -32768 ∧ lane b i = -32768) → x = (lane a i * lane b i + 16384) / 32768) ∧
      (lane a i = -32768 ∧ lane b i = -32768 → x = -32768)) := by
  have hl : i16 ∈ laneTys := by decide
  refine (map2_lanes ha hb hN (fun x y => i16.wrap ((x * y + 16384) / 32768)) (fun i hi => ?_)
    (fun i _ => has_wrap' hl _)).mono (fun i x hi e => ?_)
  · have hx := ha.lane_has (i := i) (show i < 8 by omega)
    have hy := hb.lane_has (i := i) (show i < 8 by omega)
    have hp := wide_mul (t := i16) (by decide) hx hy
    have hp1 : -2147483648 ≤ lane a i * lane b i := hp.1
    have hx1 : -32768 ≤ lane a i := hx.1
    have hx2 : lane a i ≤ 32767 := hx.2
    have hy1 : -32768 ≤ lane b i := hy.1
    have hy2 : lane b i ≤ 32767 := hy.2
    have hp2 : lane a i * lane b i ≤ 1073741824 := by nlinarith
    unfold mulFixedPoint15Lane
    have e1 : mul ⟨i16, lane a i⟩ ⟨i16, lane b i⟩ = .ok ⟨i32, lane a i * lane b i⟩ :=
      mul_exact (a := ⟨i16, _⟩) (b := ⟨i16, _⟩) rfl (by decide)
        (i32_has (by simp only; omega) (by simp only; omega))
        (i32_has (by simp only; omega) (by simp only; omega)) hp
    have e2 : add ⟨i32, lane a i * lane b i⟩ ⟨i32, 16384⟩ = .ok ⟨i32, lane a i * lane b i + 16384⟩ :=
      add_exact (a := ⟨i32, _⟩) (b := ⟨i32, _⟩) rfl (by decide) hp (by decide)
        (i32_has (by simp only; omega) (by simp only; omega))
    have e3 : shr ⟨i32, lane a i * lane b i + 16384⟩ 15 = .ok ⟨i32, (lane a i * lane b i + 16384) / 2 ^ 15⟩ :=
      shr_exact (a := ⟨i32, _⟩) (T := i32) (n := 15) rfl (by decide)
        (i32_has (by simp only; omega) (by simp only; omega)) (by decide)
    rw [e1, ok_bind', e2, ok_bind', e3, ok_bind']
    rfl
  · have hx := ha.lane_has (i := i) (show i < 8 by omega)
    have hy := hb.lane_has (i := i) (show i < 8 by omega)
    have hx1 : -32768 ≤ lane a i := hx.1
    have hx2 : lane a i ≤ 32767 := hx.2
    have hy1 : -32768 ≤ lane b i := hy.1
    have hy2 : lane b i ≤ 32767 := hy.2
    subst e
    constructor
    · intro hne
      apply wrap_has' hl
      have hb : -1073741824 ≤ lane a i * lane b i ∧ lane a i * lane b i ≤ 1073709056 := by
        constructor
        · nlinarith
        · rcases lt_or_ge (lane a i) (-32767) with h | h
          · have : lane a i = -32768 := by omega
            have hyb : -32767 ≤ lane b i := by
              by_contra hc; exact hne ⟨this, by omega⟩
            rw [this]; omega
          · nlinarith
      show -32768 ≤ _ ∧ _ ≤ 32767
      omega
    · rintro ⟨e1, e2⟩
      rw [e1, e2]; decide

/-! ### RotateRight -/

theorem ofInt_div {n : Nat} {x : Int} (h0 : 0 ≤ x) (h1 : x < 2 ^ n) (k : Nat) :
    BitVec.ofInt n (x / 2 ^ k) = BitVec.ofInt n x >>> k := by
  apply BitVec.eq_of_toNat_eq
  rw [BitVec.toNat_ushiftRight, BitVec.toNat_ofInt, BitVec.toNat_ofInt, Nat.shiftRight_eq_div_pow]
  have hd : x / 2 ^ k ≤ x := Int.ediv_le_self _ h0
  have hd0 : 0 ≤ x / 2 ^ k := Int.ediv_nonneg h0 (by positivity)
  push_cast
  rw [Int.emod_eq_of_lt hd0 (by omega), Int.emod_eq_of_lt h0 h1]
  zify
  rw [Int.toNat_of_nonneg hd0, Int.toNat_of_nonneg h0]

theorem ofInt_mul_pow (n k : Nat) (x : Int) :
    BitVec.ofInt n (x * 2 ^ k) = BitVec.ofInt n x <<< k := by
  have e := ofInt_eq_iff (n := n) (x := x * 2 ^ k) (y := ((BitVec.ofInt n x).toNat : Int) * 2 ^ k)
  rw [e.2 (by
    rw [BitVec.toNat_ofInt]
    have p : (0 : Int) < ((2 ^ n : Nat) : Int) := by positivity
    rw [Int.toNat_of_nonneg (Int.emod_nonneg _ (ne_of_gt p))]
    push_cast
    exact ((Int.mod_modEq x (2 ^ n)).symm.mul_right _))]
  apply BitVec.eq_of_toNat_eq
  rw [BitVec.toNat_shiftLeft, Nat.shiftLeft_eq]
  generalize (BitVec.ofInt n x).toNat = m
  rw [show ((m : Int) * 2 ^ k) = ((m * 2 ^ k : Nat) : Int) by push_cast; rfl, BitVec.ofInt_natCast,
    BitVec.toNat_ofNat]

/-- `RotateRight<k>`: the bits rotated right by `k`. -/
theorem C38_rotate_right (ar : Bool) {t : Ty} (h : t ∈ laneTys) {N : Nat} (hN : N ≤ cap t) {a : List Int}
    (ha : Reg t a) {k : Nat} (hk : k < t.bits) :
    Lanes t N (RotateRight ar t N k a)
      (fun i x => bitsOf t x = (bitsOf t (lane a i)).rotateRight k) := by
  unfold RotateRight
  have hu := unsigned_mem h
  by_cases h0 : (k : Int) = 0
  · rw [if_pos h0]
    have : k = 0 := by omega
    subst this
    exact ⟨a, rfl, ha, fun i _ => by simp [BitVec.rotateRight_def]⟩
  · rw [if_neg h0]
    have hav : Reg t.unsigned (a.map t.unsigned.wrap) := by
      have : 0 < t.unsigned.bits := bits_pos hu
      exact reg_map this rfl ha.len
    have hsh : min ((t.bits : Int) - 1) (t.bits - k) = ((t.bits - k : Nat) : Int) := by omega
    rw [hsh]
    refine (C38_shift_right ar hu (N := N) hN hav (k := k) hk).bind (fun v hv hlv => ?_)
    refine (C38_shift_left h hN ha (k := t.bits - k) (by omega)).bind (fun w hw hlw => ?_)
    refine (C38_or h hN (reg_map (bits_pos h) rfl hv.len) hw).mono (fun i x hi e => ?_)
    rw [e, BitVec.rotateRight_def, Nat.mod_eq_of_lt hk]
    congr 1
    · unfold bitsOf
      rw [lane_map (wrap_zero h), ofInt_wrap, hlv i hi, lane_map (wrap_zero' t h)]
      have hh := has_wrap' hu (lane a i)
      have hh1 : 0 ≤ t.unsigned.wrap (lane a i) := hh.1
      have hh2 : t.unsigned.wrap (lane a i) ≤ 2 ^ t.bits - 1 := hh.2
      rw [ofInt_div hh1 (by omega)]
      congr 1
      exact ofInt_wrap t.unsigned _
    · unfold bitsOf
      have := hlw i hi
      rw [← ofInt_mul_pow]
      exact ofInt_eq_iff.2 this

end Emu
end Hwy
