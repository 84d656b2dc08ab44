import Verif.EmuArithSpec
import Mathlib.Algebra.BigOperators.Intervals
import Mathlib.Algebra.Order.BigOperators.Group.Finset

/-! # C38, continued: rotation, saturation, averages, products, comparisons, reductions -/

namespace Hwy
namespace Emu
open CInt

/-! ### Exact evaluation when nothing overflows -/

theorem arith_exact {T : Ty} (hT : 0 < T.bits) {x : Int} (h : T.Has x) : arith T x = .ok ⟨T, x⟩ := by
  unfold arith
  split_ifs
  · rfl
  · rw [wrap_of_has hT h]

theorem add_exact {a b : Val} {T : Ty} (e : a.ty.common b.ty = T) (hT : 0 < T.bits) (ha : T.Has a.v)
    (hb : T.Has b.v) (h : T.Has (a.v + b.v)) : add a b = .ok ⟨T, a.v + b.v⟩ := by
  unfold add
  simp only [e]
  rw [wrap_of_has hT ha, wrap_of_has hT hb, arith_exact hT h]

theorem sub_exact {a b : Val} {T : Ty} (e : a.ty.common b.ty = T) (hT : 0 < T.bits) (ha : T.Has a.v)
    (hb : T.Has b.v) (h : T.Has (a.v - b.v)) : sub a b = .ok ⟨T, a.v - b.v⟩ := by
  unfold sub
  simp only [e]
  rw [wrap_of_has hT ha, wrap_of_has hT hb, arith_exact hT h]

theorem mul_exact {a b : Val} {T : Ty} (e : a.ty.common b.ty = T) (hT : 0 < T.bits) (ha : T.Has a.v)
    (hb : T.Has b.v) (h : T.Has (a.v * b.v)) : mul a b = .ok ⟨T, a.v * b.v⟩ := by
  unfold mul
  simp only [e]
  rw [wrap_of_has hT ha, wrap_of_has hT hb, arith_exact hT h]

theorem lt_exact {a b : Val} {T : Ty} (e : a.ty.common b.ty = T) (hT : 0 < T.bits) (ha : T.Has a.v)
    (hb : T.Has b.v) : lt a b = decide (a.v < b.v) := by
  unfold lt
  simp only [e]
  rw [wrap_of_has hT ha, wrap_of_has hT hb]

theorem eq_exact {a b : Val} {T : Ty} (e : a.ty.common b.ty = T) (hT : 0 < T.bits) (ha : T.Has a.v)
    (hb : T.Has b.v) : eq a b = decide (a.v = b.v) := by
  unfold eq
  simp only [e]
  rw [wrap_of_has hT ha, wrap_of_has hT hb]

theorem commonP_comm (a b : Ty) : Ty.commonP a b = Ty.commonP b a := by
  unfold Ty.commonP
  rcases a with ⟨a, s⟩; rcases b with ⟨b, s'⟩
  simp only
  rcases Nat.lt_trichotomy a b with h | h | h
  · rw [if_neg (by omega), if_pos h, if_neg (by omega), if_neg (by omega)]
  · subst h; simp [Bool.and_comm]
  · rw [if_neg (by omega), if_neg (by omega), if_neg (by omega), if_pos h]

theorem common_comm (a b : Ty) : a.common b = b.common a := commonP_comm _ _

theorem cmin_exact {a b : Val} {T : Ty} (e : a.ty.common b.ty = T) (hT : 0 < T.bits) (ha : T.Has a.v)
    (hb : T.Has b.v) : cmin a b = ⟨T, min a.v b.v⟩ := by
  unfold cmin
  rw [lt_exact e hT ha hb, e]
  simp only [decide_eq_true_eq]
  split_ifs with h
  · show (⟨T, T.wrap a.v⟩ : Val) = _
    rw [wrap_of_has hT ha, min_eq_left (le_of_lt h)]
  · show (⟨T, T.wrap b.v⟩ : Val) = _
    rw [wrap_of_has hT hb, min_eq_right (not_lt.1 h)]

theorem cmax_exact {a b : Val} {T : Ty} (e : a.ty.common b.ty = T) (hT : 0 < T.bits) (ha : T.Has a.v)
    (hb : T.Has b.v) : cmax a b = ⟨T, max a.v b.v⟩ := by
  unfold cmax
  rw [lt_exact (T := T) (by rw [common_comm]; exact e) hT hb ha, e]
  simp only [decide_eq_true_eq]
  split_ifs with h
  · show (⟨T, T.wrap a.v⟩ : Val) = _
    rw [wrap_of_has hT ha, max_eq_left (le_of_lt h)]
  · show (⟨T, T.wrap b.v⟩ : Val) = _
    rw [wrap_of_has hT hb, max_eq_right (not_lt.1 h)]

theorem shr_exact {a : Val} {T : Ty} (e : a.ty.promote = T) (hT : 0 < T.bits) (ha : T.Has a.v) {n : Nat}
    (hn : n < T.bits) : shr a n = .ok ⟨T, a.v / 2 ^ n⟩ := by
  unfold shr
  simp only [e]
  rw [if_neg (by omega), wrap_of_has hT ha, Int.toNat_natCast]

/-- The 8/16-bit lane types, for which saturating operations are documented. -/
def satTys : List Ty := [u8, i8, u16, i16]

theorem satTys_mem {t : Ty} (h : t ∈ satTys) : t ∈ laneTys := by
  simp only [satTys, List.mem_cons, List.not_mem_nil, or_false] at h
  rcases h with h | h | h | h <;> subst h <;> decide

theorem sat_facts {t : Ty} (h : t ∈ satTys) :
    t.wide.signed.common t = i32 ∧ t.common i32 = i32 ∧ i32.common t = i32 ∧ -32768 ≤ t.lo ∧ t.hi ≤ 65535 ∧
    t.lo ≤ t.hi ∧ t.lo ≤ 0 ∧ 0 ≤ t.hi ∧ t.wide.signed.bits ≥ 16 ∧ (t.hi ≤ 127 ∨ t.hi ≤ 255 ∨ t.wide.signed = i32) := by
  simp only [satTys, List.mem_cons, List.not_mem_nil, or_false] at h
  rcases h with h | h | h | h <;> subst h <;> decide

theorem sat_wrap {t : Ty} (h : t ∈ satTys) {x : Int} (hx : t.Has x) : t.wide.signed.wrap x = x := by
  apply wrap_of_has
  · have := sat_facts h; omega
  · simp only [satTys, List.mem_cons, List.not_mem_nil, or_false] at h
    rcases h with h | h | h | h <;> subst h <;>
    (obtain ⟨h1, h2⟩ := hx
     norm_num [Ty.lo, Ty.hi, Ty.Has, Ty.wide, Ty.signed, u8, i8, u16, i16] at h1 h2 ⊢
     omega)

theorem i32_has {x : Int} (h1 : -2147483648 ≤ x) (h2 : x ≤ 2147483647) : i32.Has x := by
  have hL : i32.lo = -2147483648 := by decide
  have hH : i32.hi = 2147483647 := by decide
  exact ⟨by omega, by omega⟩

theorem clamp_has {t : Ty} (h : t.lo ≤ t.hi) (x : Int) : t.Has (clamp t x) := by
  unfold clamp Ty.Has; omega

theorem satAddLane_eq {t : Ty} (h : t ∈ satTys) {x y : Int} (hx : t.Has x) (hy : t.Has y) :
    satAddLane t ⟨t, x⟩ ⟨t, y⟩ = .ok ⟨t, clamp t (x + y)⟩ := by
  obtain ⟨c1, c2, c3, l1, l2, l3, l4, l5, _, _⟩ := sat_facts h
  have h1 := hx.1; have h2 := hx.2; have h3 := hy.1; have h4 := hy.2
  have e : CInt.cast t.wide.signed ⟨t, x⟩ = ⟨t.wide.signed, x⟩ := by
    show (⟨_, t.wide.signed.wrap x⟩ : Val) = _
    rw [sat_wrap h hx]
  unfold satAddLane
  simp only
  rw [e, add_exact c1 (by decide) (i32_has (by simp only; omega) (by simp only; omega))
    (i32_has (by simp only; omega) (by simp only; omega))
    (i32_has (by simp only; omega) (by simp only; omega)), ok_bind']
  simp only
  rw [cmax_exact c2 (by decide) (i32_has (by simp only; omega) (by simp only; omega))
    (i32_has (by simp only; omega) (by simp only; omega)),
    cmin_exact c3 (by decide) (i32_has (by simp only; omega) (by simp only; omega))
    (i32_has (by simp only; omega) (by simp only; omega))]
  show (Except.ok (⟨t, t.wrap (min (max t.lo (x + y)) t.hi)⟩ : Val) : M Val) = _
  have e2 : min (max t.lo (x + y)) t.hi = clamp t (x + y) := by unfold clamp; omega
  rw [e2, wrap_has' (satTys_mem h) (clamp_has l3 _)]

theorem satSubLane_eq {t : Ty} (h : t ∈ satTys) {x y : Int} (hx : t.Has x) (hy : t.Has y) :
    satSubLane t ⟨t, x⟩ ⟨t, y⟩ = .ok ⟨t, clamp t (x - y)⟩ := by
  obtain ⟨c1, c2, c3, l1, l2, l3, l4, l5, _, _⟩ := sat_facts h
  have h1 := hx.1; have h2 := hx.2; have h3 := hy.1; have h4 := hy.2
  have e : CInt.cast t.wide.signed ⟨t, x⟩ = ⟨t.wide.signed, x⟩ := by
    show (⟨_, t.wide.signed.wrap x⟩ : Val) = _
    rw [sat_wrap h hx]
  unfold satSubLane
  simp only
  rw [e, sub_exact c1 (by decide) (i32_has (by simp only; omega) (by simp only; omega))
    (i32_has (by simp only; omega) (by simp only; omega))
    (i32_has (by simp only; omega) (by simp only; omega)), ok_bind']
  simp only
  rw [cmax_exact c2 (by decide) (i32_has (by simp only; omega) (by simp only; omega))
    (i32_has (by simp only; omega) (by simp only; omega)),
    cmin_exact c3 (by decide) (i32_has (by simp only; omega) (by simp only; omega))
    (i32_has (by simp only; omega) (by simp only; omega))]
  show (Except.ok (⟨t, t.wrap (min (max t.lo (x - y)) t.hi)⟩ : Val) : M Val) = _
  have e2 : min (max t.lo (x - y)) t.hi = clamp t (x - y) := by unfold clamp; omega
  rw [e2, wrap_has' (satTys_mem h) (clamp_has l3 _)]

/-- `SaturatedAdd`: `a[i] + b[i]` saturated to the representable range. -/
theorem C38_saturated_add {t : Ty} (h : t ∈ satTys) {N : Nat} (hN : N ≤ cap t) {a b : List Int}
    (ha : Reg t a) (hb : Reg t b) :
    Lanes t N (SaturatedAdd t N a b) (fun i x => x = clamp t (lane a i + lane b i)) :=
  map2_lanes ha hb hN (fun x y => clamp t (x + y))
    (fun i hi => satAddLane_eq h (ha.lane_has (by omega)) (hb.lane_has (by omega)))
    (fun i _ => clamp_has (sat_facts h).2.2.2.2.2.1 _)

/-- `SaturatedSub`: `a[i] - b[i]` saturated to the representable range. -/
theorem C38_saturated_sub {t : Ty} (h : t ∈ satTys) {N : Nat} (hN : N ≤ cap t) {a b : List Int}
    (ha : Reg t a) (hb : Reg t b) :
    Lanes t N (SaturatedSub t N a b) (fun i x => x = clamp t (lane a i - lane b i)) :=
  map2_lanes ha hb hN (fun x y => clamp t (x - y))
    (fun i hi => satSubLane_eq h (ha.lane_has (by omega)) (hb.lane_has (by omega)))
    (fun i _ => clamp_has (sat_facts h).2.2.2.2.2.1 _)

/-! ### AverageRound -/

theorem nat_or_xor (x : Nat) : ∀ y : Nat, x + y + (x ^^^ y) = 2 * (x ||| y) := by
  induction x using Nat.strongRecOn with
  | _ x ih =>
    intro y
    by_cases hx : x = 0
    · subst hx; simp; omega
    · have h := ih (x / 2) (by omega) (y / 2)
      have h1 : (x ^^^ y) / 2 = x / 2 ^^^ y / 2 := Nat.xor_div_two
      have h2 : (x ||| y) / 2 = x / 2 ||| y / 2 := Nat.or_div_two
      have h3 : (x ^^^ y) % 2 = (x % 2 + y % 2) % 2 := by
        rcases Nat.mod_two_eq_zero_or_one x with a | a <;> rcases Nat.mod_two_eq_zero_or_one y with b | b <;>
        rcases Nat.mod_two_eq_zero_or_one (x ^^^ y) with c | c <;>
        have := @Nat.xor_mod_two_eq_one x y <;> rw [a, b, c] <;> simp_all
      have h4 : (x ||| y) % 2 = max (x % 2) (y % 2) := by
        rcases Nat.mod_two_eq_zero_or_one x with a | a <;> rcases Nat.mod_two_eq_zero_or_one y with b | b <;>
        rcases Nat.mod_two_eq_zero_or_one (x ||| y) with c | c <;>
        have := @Nat.or_mod_two_eq_one x y <;> rw [a, b, c] <;> simp_all
      omega

theorem ofBits_or_xor (T : Ty) (X Y : BitVec T.bits) :
    T.ofBits X + T.ofBits Y + T.ofBits (X ^^^ Y) = 2 * T.ofBits (X ||| Y) := by
  have h := nat_or_xor X.toNat Y.toNat
  unfold Ty.ofBits
  split_ifs
  · rw [BitVec.toInt_eq_msb_cond, BitVec.toInt_eq_msb_cond, BitVec.toInt_eq_msb_cond,
      BitVec.toInt_eq_msb_cond, BitVec.msb_or, BitVec.msb_xor, BitVec.toNat_or, BitVec.toNat_xor]
    generalize ((2 ^ T.bits : Nat) : Int) = p
    cases X.msb <;> cases Y.msb <;> simp <;> omega
  · rw [BitVec.toNat_or, BitVec.toNat_xor]; exact_mod_cast h

theorem ofBits_bv (T : Ty) (hT : 0 < T.bits) {x : Int} (h : T.Has x) :
    T.ofBits (BitVec.ofInt T.bits x) = x := by
  rw [ofBits_ofInt T hT, wrap_of_has hT h]

theorem common_self {t : Ty} (h : t ∈ laneTys) : t.common t = t.promote := by
  simp only [laneTys, List.mem_cons, List.not_mem_nil, or_false] at h
  rcases h with h | h | h | h | h | h | h | h <;> subst h <;> decide

theorem promote_promote {t : Ty} (h : t ∈ laneTys) : t.promote.promote = t.promote := by
  simp only [laneTys, List.mem_cons, List.not_mem_nil, or_false] at h
  rcases h with h | h | h | h | h | h | h | h <;> subst h <;> decide

theorem has_avg {t : Ty} {x y : Int} (hx : t.Has x) (hy : t.Has y) : t.Has ((x + y + 1) / 2) := by
  obtain ⟨h1, h2⟩ := hx
  obtain ⟨h3, h4⟩ := hy
  exact ⟨by omega, by omega⟩

theorem averageLane_eq (ar : Bool) {t : Ty} (h : t ∈ laneTys) {x y : Int} (hx : t.Has x) (hy : t.Has y) :
    averageLane ar t ⟨t, x⟩ ⟨t, y⟩ = .ok ⟨t, (x + y + 1) / 2⟩ := by
  have hP := promote_mem h
  have hpos := bits_pos hP
  have hx' := has_promote h hx
  have hy' := has_promote h hy
  have ho := ofBits_or_xor t.promote (BitVec.ofInt _ x) (BitVec.ofInt _ y)
  rw [ofBits_bv _ hpos hx', ofBits_bv _ hpos hy'] at ho
  have hex : t.promote.Has (t.promote.ofBits (BitVec.ofInt t.promote.bits x ^^^ BitVec.ofInt _ y)) :=
    has_ofBits _ hpos _
  have heo : t.promote.Has (t.promote.ofBits (BitVec.ofInt t.promote.bits x ||| BitVec.ofInt _ y)) :=
    has_ofBits _ hpos _
  have e1 : bxor ⟨t, x⟩ ⟨t, y⟩
      = ⟨t.promote, t.promote.ofBits (BitVec.ofInt t.promote.bits x ^^^ BitVec.ofInt _ y)⟩ := by
    have hc : ∀ T, t.common t = T → bxor ⟨t, x⟩ ⟨t, y⟩
        = ⟨T, T.ofBits (BitVec.ofInt T.bits x ^^^ BitVec.ofInt _ y)⟩ := by rintro T rfl; rfl
    exact hc _ (common_self h)
  have e2 : bor ⟨t, x⟩ ⟨t, y⟩
      = ⟨t.promote, t.promote.ofBits (BitVec.ofInt t.promote.bits x ||| BitVec.ofInt _ y)⟩ := by
    have hc : ∀ T, t.common t = T → bor ⟨t, x⟩ ⟨t, y⟩
        = ⟨T, T.ofBits (BitVec.ofInt T.bits x ||| BitVec.ofInt _ y)⟩ := by rintro T rfl; rfl
    exact hc _ (common_self h)
  unfold averageLane
  have h1b : (1 : Int) < t.promote.bits := by
    have := h
    simp only [laneTys, List.mem_cons, List.not_mem_nil, or_false] at this
    rcases this with h | h | h | h | h | h | h | h <;> subst h <;> decide
  rw [e1, e2, scalarShr_eq ar hP hex (by omega) h1b, ok_bind']
  generalize t.promote.ofBits (BitVec.ofInt t.promote.bits x ^^^ BitVec.ofInt _ y) = ex at *
  generalize t.promote.ofBits (BitVec.ofInt t.promote.bits x ||| BitVec.ofInt _ y) = eo at *
  have hT : (1 : Int).toNat = 1 := rfl
  rw [hT, pow_one]
  have hval : eo - ex / 2 = (x + y + 1) / 2 := by omega
  have hres : t.promote.Has (eo - ex / 2) := by
    rw [hval]; exact has_promote h (has_avg hx hy)
  rw [sub_exact (T := t.promote) (by rw [common_self hP, promote_promote h]) hpos heo
    (has_div hex 2 (by norm_num)) hres, ok_bind']
  show (Except.ok (⟨t, t.wrap (eo - ex / 2)⟩ : Val) : M Val) = _
  rw [hval, wrap_has' h (has_avg hx hy)]

/-- `AverageRound`: `(a[i] + b[i] + 1) >> 1`, computed without overflow. -/
theorem C38_average_round (ar : Bool) {t : Ty} (h : t ∈ laneTys) {N : Nat} (hN : N ≤ cap t)
    {a b : List Int} (ha : Reg t a) (hb : Reg t b) :
    Lanes t N (AverageRound ar t N a b) (fun i x => x = (lane a i + lane b i + 1) / 2) :=
  map2_lanes ha hb hN (fun x y => (x + y + 1) / 2)
    (fun i hi => averageLane_eq ar h (ha.lane_has (by omega)) (hb.lane_has (by omega)))
    (fun i hi => has_avg (ha.lane_has (by omega)) (hb.lane_has (by omega)))

/-! ### Abs, Min, Max -/

theorem lt_same {t : Ty} (h : t ∈ laneTys) {x y : Int} (hx : t.Has x) (hy : t.Has y) :
    lt ⟨t, x⟩ ⟨t, y⟩ = decide (x < y) :=
  lt_exact (a := ⟨t, x⟩) (b := ⟨t, y⟩) (common_self h) (bits_pos (promote_mem h)) (has_promote h hx)
    (has_promote h hy)

theorem eq_same {t : Ty} (h : t ∈ laneTys) {x y : Int} (hx : t.Has x) (hy : t.Has y) :
    eq ⟨t, x⟩ ⟨t, y⟩ = decide (x = y) :=
  eq_exact (a := ⟨t, x⟩) (b := ⟨t, y⟩) (common_self h) (bits_pos (promote_mem h)) (has_promote h hx)
    (has_promote h hy)

theorem cmin_same {t : Ty} (h : t ∈ laneTys) {x y : Int} (hx : t.Has x) (hy : t.Has y) :
    cmin ⟨t, x⟩ ⟨t, y⟩ = ⟨t.promote, min x y⟩ :=
  cmin_exact (a := ⟨t, x⟩) (b := ⟨t, y⟩) (common_self h) (bits_pos (promote_mem h)) (has_promote h hx)
    (has_promote h hy)

theorem cmax_same {t : Ty} (h : t ∈ laneTys) {x y : Int} (hx : t.Has x) (hy : t.Has y) :
    cmax ⟨t, x⟩ ⟨t, y⟩ = ⟨t.promote, max x y⟩ :=
  cmax_exact (a := ⟨t, x⟩) (b := ⟨t, y⟩) (common_self h) (bits_pos (promote_mem h)) (has_promote h hx)
    (has_promote h hy)

theorem unsigned_common {t : Ty} (h : t ∈ laneTys) :
    t.bits ≤ (t.unsigned.common t.unsigned).bits ∧
    (t.bits < 32 → t.unsigned.common t.unsigned = i32) ∧
    (¬ t.bits < 32 → t.unsigned.common t.unsigned = t.unsigned) ∧ (t.bits < 32 → t.bits ≤ 16) := by
  simp only [laneTys, List.mem_cons, List.not_mem_nil, or_false] at h
  rcases h with h | h | h | h | h | h | h | h <;> subst h <;> decide

theorem has_zero {t : Ty} (h : t ∈ laneTys) : t.Has 0 := by
  simp only [laneTys, List.mem_cons, List.not_mem_nil, or_false] at h
  rcases h with h | h | h | h | h | h | h | h <;> subst h <;> decide

theorem absLane_eq {t : Ty} (h : t ∈ laneTys) {x : Int} (hx : t.Has x) :
    absLane t ⟨t, x⟩ = .ok ⟨t, t.wrap |x|⟩ := by
  have hP := promote_mem h
  unfold absLane
  split_ifs with hs hl
  · rw [lt_same h hx (has_zero h)] at hl
    simp only [decide_eq_true_eq] at hl
    rw [abs_of_neg hl]
    obtain ⟨_, c2, c3, c4⟩ := unsigned_common h
    have hu := unsigned_mem h
    have hux : t.unsigned.Has (t.unsigned.wrap x) := has_wrap' hu x
    have key : ∀ y : Int, y % 2 ^ t.bits = (0 - t.unsigned.wrap x) % 2 ^ t.bits → t.wrap y = t.wrap (-x) := by
      intro y hy
      apply wrap_congr
      rw [hy, Int.sub_emod, show t.unsigned.wrap x % 2 ^ t.bits = x % 2 ^ t.bits from wrap_emod t.unsigned x,
        ← Int.sub_emod, zero_sub]
    by_cases hb : t.bits < 32
    · have g1 := hux.1
      have g2 := hux.2
      have e1 : t.unsigned.lo = 0 := rfl
      have e2 : t.unsigned.hi = 2 ^ t.bits - 1 := rfl
      have e3 : (2 : Int) ^ t.bits ≤ 2 ^ 16 := pow_le_pow_right₀ (by norm_num) (c4 hb)
      norm_num at e3
      have hs : sub ⟨t.unsigned, 0⟩ (CInt.cast t.unsigned ⟨t, x⟩) = .ok ⟨i32, 0 - t.unsigned.wrap x⟩ :=
        sub_exact (c2 hb) (by decide) (i32_has (by simp) (by simp))
          (i32_has (by show _ ≤ t.unsigned.wrap x; omega) (by show t.unsigned.wrap x ≤ _; omega))
          (i32_has (by show _ ≤ 0 - t.unsigned.wrap x; omega) (by show 0 - t.unsigned.wrap x ≤ _; omega))
      rw [hs, ok_bind']
      show (Except.ok (⟨t, t.wrap (0 - t.unsigned.wrap x)⟩ : Val) : M Val) = _
      rw [key _ rfl]
    · have hs : sub ⟨t.unsigned, 0⟩ (CInt.cast t.unsigned ⟨t, x⟩)
          = .ok ⟨t.unsigned, t.unsigned.wrap (0 - t.unsigned.wrap x)⟩ := by
        unfold sub
        show arith (t.unsigned.common t.unsigned) _ = _
        simp only [c3 hb, CInt.cast]
        rw [wrap_has' hu hux, wrap_has' hu (has_zero hu)]
        rfl
      rw [hs, ok_bind']
      show (Except.ok (⟨t, t.wrap (t.unsigned.wrap (0 - t.unsigned.wrap x))⟩ : Val) : M Val) = _
      rw [key _ (wrap_emod t.unsigned _)]
  · rw [lt_same h hx (has_zero h)] at hl
    simp only [decide_eq_true_eq] at hl
    rw [abs_of_nonneg (by omega), wrap_has' h hx]
  · have h1 := hx.1
    unfold Ty.lo at h1
    rw [if_neg hs] at h1
    rw [abs_of_nonneg h1, wrap_has' h hx]

/-- `Abs`: `|a[i]|`, where the minimum of a signed type maps to `LimitsMax() + 1` (mod 2^bits), i.e. to
itself. -/
theorem C38_abs {t : Ty} (h : t ∈ laneTys) {N : Nat} (hN : N ≤ cap t) {a : List Int} (ha : Reg t a) :
    Lanes t N (Abs t N a) (fun i x => x ≡ |lane a i| [ZMOD 2 ^ t.bits] ∧
      (lane a i ≠ t.lo → x = |lane a i|)) := by
  refine (map1_lanes ha hN (fun x => t.wrap |x|) (fun i hi => absLane_eq h (ha.lane_has (by omega)))
    (fun i _ => has_wrap' h _)).mono (fun i x hi e => ?_)
  refine ⟨by rw [e]; exact modEq_wrap t _, fun hne => ?_⟩
  rw [e]
  apply wrap_has' h
  obtain ⟨h1, h2⟩ := ha.lane_has (i := i) (by omega)
  have hs : t.lo = -t.hi - 1 ∨ t.lo = 0 := by
    unfold Ty.lo Ty.hi; split_ifs
    · left; ring
    · right; rfl
  have hz := has_zero h
  have hz1 := hz.1
  have hz2 := hz.2
  constructor
  · have := abs_nonneg (lane a i); omega
  · rcases abs_cases (lane a i) with ⟨e, _⟩ | ⟨e, _⟩ <;> omega

/-- `Min`, `Max` of integers. -/
theorem C38_min {t : Ty} (h : t ∈ laneTys) {N : Nat} (hN : N ≤ cap t) {a b : List Int} (ha : Reg t a)
    (hb : Reg t b) : Lanes t N (Min t N a b) (fun i x => x = min (lane a i) (lane b i)) := by
  have hP := promote_mem h
  have hm : ∀ i, i < N → t.Has (min (lane a i) (lane b i)) := fun i hi => by
    rcases min_choice (lane a i) (lane b i) with e | e <;> rw [e]
    · exact ha.lane_has (by omega)
    · exact hb.lane_has (by omega)
  refine map2_lanes ha hb hN (fun x y => min x y) (fun i hi => ?_) hm
  rw [cmin_same h (ha.lane_has (by omega)) (hb.lane_has (by omega))]
  show (Except.ok (⟨t, t.wrap (min (lane a i) (lane b i))⟩ : Val) : M Val) = _
  rw [wrap_has' h (hm i hi)]

theorem C38_max {t : Ty} (h : t ∈ laneTys) {N : Nat} (hN : N ≤ cap t) {a b : List Int} (ha : Reg t a)
    (hb : Reg t b) : Lanes t N (Max t N a b) (fun i x => x = max (lane a i) (lane b i)) := by
  have hP := promote_mem h
  have hm : ∀ i, i < N → t.Has (max (lane a i) (lane b i)) := fun i hi => by
    rcases max_choice (lane a i) (lane b i) with e | e <;> rw [e]
    · exact ha.lane_has (by omega)
    · exact hb.lane_has (by omega)
  refine map2_lanes ha hb hN (fun x y => max x y) (fun i hi => ?_) hm
  rw [cmax_same h (ha.lane_has (by omega)) (hb.lane_has (by omega))]
  show (Except.ok (⟨t, t.wrap (max (lane a i) (lane b i))⟩ : Val) : M Val) = _
  rw [wrap_has' h (hm i hi)]

end Emu
end Hwy
