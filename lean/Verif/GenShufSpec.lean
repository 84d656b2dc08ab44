import Verif.GenShuf
import Verif.GenRotSpec3
import Verif.GenDotSpec2

/-!
# Shuffles of four-lane groups (C59)

`Per4LaneBlockShuffle<i3, i2, i1, i0>` gives, in lane `k` of each group of four lanes, lane `ik` of the same group.
-/

namespace Hwy
namespace Emu
open CInt Finset

/-- Specification: which of the four template arguments selects the source of lane `k` of a group. -/
def sel4 (i3 i2 i1 i0 : Nat) (k : Nat) : Nat := if k = 0 then i0 else if k = 1 then i1 else if k = 2 then i2 else i3

theorem wideOf_mem {t : Ty} (h : t ∈ laneTys) (hb : t.bits ≤ 32) : wideOf t ∈ laneTys ∧ (wideOf t).bits = 2 * t.bits := by
  have : ∀ t ∈ laneTys, t.bits ≤ 32 → wideOf t ∈ laneTys ∧ (wideOf t).bits = 2 * t.bits := by decide
  exact this t h hb

/-- The halves of a double-width lane. -/
theorem halves {t s : Ty} (h : t ∈ laneTys) (hb : s.bits = 2 * t.bits) {A B : Int} (hA : t.Has A) (hB : t.Has B) {p : Nat}
    (hp : p < 2) :
    t.wrap (s.wrap (A % 2 ^ t.bits + 2 ^ t.bits * B) / 2 ^ (t.bits * p)) = if p = 0 then A else B := by
  obtain ⟨k, hk⟩ : ∃ k, s.wrap (A % 2 ^ t.bits + 2 ^ t.bits * B) = A % 2 ^ t.bits + 2 ^ t.bits * (B + 2 ^ t.bits * k) := by
    have e := modEq_wrap s (A % 2 ^ t.bits + 2 ^ t.bits * B)
    obtain ⟨k, hk⟩ := e.symm.dvd
    refine ⟨k, ?_⟩
    rw [hb, two_mul, pow_add] at hk
    linear_combination hk
  rw [hk]
  have hpos : (0 : Int) < 2 ^ t.bits := by positivity
  have h0 := Int.emod_nonneg A hpos.ne'
  have h1 := Int.emod_lt_of_pos A hpos
  obtain rfl | rfl : p = 0 ∨ p = 1 := by omega
  · rw [if_pos rfl, Nat.mul_zero, pow_zero, Int.ediv_one]
    refine (mod_unique h hA ?_).symm
    exact ((Int.ModEq.symm (Int.mod_modEq A _)).trans (by rw [Int.modEq_iff_dvd]; exact ⟨B + 2 ^ t.bits * k, by ring⟩))
  · rw [if_neg (by decide), Nat.mul_one, Int.add_mul_ediv_left _ _ hpos.ne', Int.ediv_eq_zero_of_lt h0 h1, zero_add]
    refine (mod_unique h hB ?_).symm
    rw [Int.modEq_iff_dvd]
    exact ⟨k, by ring⟩

section
variable {t : Ty} (h : t ∈ laneTys) {N : Nat} (hN : N ≤ cap t) {v : List Int} {F : Nat → Int} (hv : Is t N v F)
include h hN hv

/-- Moving pairs of lanes as single double-width lanes. -/
theorem run_wide_move (hb : t.bits ≤ 32) (h2 : N % 2 = 0) {op : List Int → M (List Int)} {g : Nat → Nat}
    (hop : ∀ w W, Is (wideOf t) (N / 2) w W → Runs (wideOf t) (N / 2) (op w) (fun j => W (g j))) (hg : ∀ j, j < N / 2 → g j < N / 2) :
    Runs t N (do let r ← op (BitCast t (wideOf t) v); return BitCast (wideOf t) t r) (fun i => F (2 * g (i / 2) + i % 2)) := by
  obtain ⟨hw, hwb⟩ := wideOf_mem h hb
  have hc : cap t = 2 * cap (wideOf t) := (cap_double hw h hwb).symm
  have hN2 : 2 * (N / 2) = N := by omega
  have hv' := hv
  rw [← hN2] at hv'
  refine Runs.bind (hop _ _ (is_bc_wide hv' h hw hwb (by omega))) fun r hr => ?_
  have := is_bc_narrow hr hw h hwb (by omega)
  rw [hN2] at this
  refine Runs.ret (is_congr this fun i hi => ?_)
  beta_reduce
  have hgi := hg (i / 2) (by omega)
  rw [halves h hwb (hv.has hN (by omega)) (hv.has hN (by omega)) (by omega)]
  split_ifs with hp
  · rw [hp]; rfl
  · rw [show i % 2 = 1 by omega]

end

/-- Lanes from their bytes. -/
theorem lanes_of_bytes {t : Ty} (h : t ∈ laneTys) {m : Nat} (hm : t.bits = 8 * m) {N : Nat} (hN : N ≤ cap t) {w : List Int}
    {G H : Nat → Int} (hw : Is u8 (m * N) w G) (hH : ∀ i, i < N → t.Has (H i))
    (e : ∀ i, i < N → ∀ k, k < m → G (m * i + k) = byteAt (H i) k) : Is t N (BitCast u8 t w) H := by
  refine ⟨bitcast_reg h w, fun i hi => ?_⟩
  have hx : t.Has (lane (BitCast u8 t w) i) := (bitcast_reg h w).lane_has (by omega)
  rw [← wrap_has' h (hH i hi)]
  refine mod_unique h hx ?_
  rw [hm, pow_256]
  exact byte_ext fun k hk => by rw [bytes_lane h hm hN hw hi hk, e i hi k hk]

theorem byteAt_zero (k : Nat) : byteAt 0 k = 0 := by unfold byteAt; simp

/-- `ResizeBitCast` copies the common bytes and zeroes the others. -/
theorem resize_bytes {tF tT : Ty} {bF bT : Nat} (hb : min bF bT ≤ 16) {v : List Int} {F : Nat → Int}
    (hv : Is u8 (min bF bT) (BitCast tF u8 v) F) :
    ∃ w, ResizeBitCast tF tT bF bT v = .ok (BitCast u8 tT w) ∧ Is u8 16 w (fun j => if j < min bF bT then F j else 0) := by
  obtain ⟨r, e, hl, hr⟩ := copyLanes_eq (src := BitCast tF u8 v) (so := 0) (dst := fresh (0 : Int) 16) (d0 := 0) (n := min bF bT)
    (by rw [hv.1.len]; show 0 + min bF bT ≤ 16; omega) (by rw [fresh_length]; omega)
  refine ⟨r, ?_, ⟨by rw [hl, fresh_length]; rfl, copyLanes_all e hv.1.has (fresh_all (by decide))⟩, fun j hj => ?_⟩
  · unfold ResizeBitCast
    rw [e]
    rfl
  · have h1 := hr j
    unfold lane
    rw [List.getD_eq_getElem?_getD, h1]
    beta_reduce
    by_cases h : j < min bF bT
    · rw [if_pos (by omega), if_pos h, show 0 + (j - 0) = j by omega, hv.some (show min bF bT ≤ cap u8 from hb) h]
      rfl
    · rw [if_neg (by omega), if_neg h]
      unfold fresh
      rw [List.getElem?_replicate, if_pos hj]
      rfl

theorem bytes_cap {t : Ty} (h : t ∈ laneTys) {m : Nat} (hm : t.bits = 8 * m) : m * cap t = 16 := by
  have hb : ∀ t ∈ laneTys, t.bits * cap t = 128 := by decide
  have h128 := hb t h
  rw [hm] at h128
  have e : 8 * m * cap t = 8 * (m * cap t) := by ring
  omega

/-- `ResizeBitCast` between vectors of the same lane type. -/
theorem run_resize_same {t : Ty} (h : t ∈ laneTys) {m : Nat} (hm : t.bits = 8 * m) {a b : Nat} (hab : min a b ≤ cap t)
    {v : List Int} {F : Nat → Int} (hv : Is t (min a b) v F) :
    Runs t (cap t) (ResizeBitCast t t (m * a) (m * b) v) (fun i => if i < min a b then F i else 0) := by
  have h16 := bytes_cap h hm
  have hp : 0 < m := by have := bits_pos h; omega
  have emin : min (m * a) (m * b) = m * min a b := (Nat.mul_min_mul_left _ _ _)
  have hle : m * min a b ≤ 16 := by rw [← h16]; exact Nat.mul_le_mul_left _ hab
  have hbytes := is_bytes h hm hab hv
  rw [← emin] at hbytes hle
  obtain ⟨w, e, hw⟩ := resize_bytes (tT := t) hle hbytes
  refine ⟨_, e, ?_⟩
  rw [← h16] at hw
  refine lanes_of_bytes h hm le_rfl hw (fun i hi => ?_) (fun i hi k hk => ?_)
  · beta_reduce
    split_ifs with hlt
    · exact hv.has hab hlt
    · exact has_zero h
  · beta_reduce
    have hd : (m * i + k) / m = i := by rw [Nat.mul_add_div hp, Nat.div_eq_of_lt hk, Nat.add_zero]
    have hr : (m * i + k) % m = k := by rw [Nat.mul_add_mod, Nat.mod_eq_of_lt hk]
    by_cases hlt : i < min a b
    · rw [if_pos, if_pos hlt, hd, hr]
      rw [emin]
      calc m * i + k < m * i + m := by omega
        _ = m * (i + 1) := by ring
        _ ≤ _ := Nat.mul_le_mul_left _ hlt
    · rw [if_neg, if_neg hlt, byteAt_zero]
      rw [emin]
      have := Nat.mul_le_mul_left m (not_lt.1 hlt)
      omega

/-- The source of each lane, relative to its group. -/
theorem run_idxInBlk {t : Ty} (h : t ∈ laneTys) {N : Nat} (hN : N ≤ cap t) (h4 : N = 4 ∨ N = 8 ∨ N = 16) {i3 i2 i1 i0 : Nat}
    (h3 : i3 < 4) (h2 : i2 < 4) (h1 : i1 < 4) (h0 : i0 < 4) :
    Runs t.unsigned N (idxInBlk t N i3 i2 i1 i0) (fun i => (sel4 i3 i2 i1 i0 (i % 4) : Int)) := by
  have hb : ∀ t ∈ laneTys, 4 ≤ cap t → (t.bits = 8 ∧ t.unsigned = u8 ∧ cap t = 16) ∨ (t.bits = 16 ∧ t.unsigned = u16 ∧ cap t = 8) ∨
    (t.bits = 32 ∧ t.unsigned = u32 ∧ cap t = 4) := by decide
  unfold idxInBlk
  rcases hb t h (by omega) with ⟨e, eu, ec⟩ | ⟨e, eu, ec⟩ | ⟨e, eu, ec⟩
  · rw [if_pos e, eu]
    have hr : ∀ i3 < 4, ∀ i2 < 4, ∀ i1 < 4, ∀ i0 < 4, u32.Has (u8x4 i3 i2 i1 i0) ∧ ∀ k < 4,
      byteAt (u8x4 i3 i2 i1 i0) k = sel4 i3 i2 i1 i0 k := by decide +kernel
    obtain ⟨r1, r2⟩ := hr i3 h3 i2 h2 i1 h1 i0 h0
    have hu32 : u32 ∈ laneTys := by decide
    refine Runs.bind (xset hu32 (show N / 4 ≤ 4 by omega) r1) fun w hw => ?_
    have hbytes := is_bytes hu32 (m := 4) rfl (show N / 4 ≤ 4 by omega) hw
    have en : 4 * (N / 4) = min N N := by omega
    rw [en] at hbytes
    obtain ⟨w', e', hw'⟩ := resize_bytes (tT := u8) (bF := N) (bT := N) (by omega) hbytes
    rw [e']
    refine Runs.ret ?_
    have hs := is_bc_same hw' (tT := u8) (by decide) rfl (by decide)
    refine is_congr (hs.mono (by omega)) fun i hi => ?_
    beta_reduce
    rw [if_pos (by omega), r2 _ (by omega)]
    refine wrap_has' (by decide) ?_
    have : sel4 i3 i2 i1 i0 (i % 4) < 4 := by unfold sel4; split_ifs <;> assumption
    revert this
    generalize sel4 i3 i2 i1 i0 (i % 4) = x
    revert x; decide
  · rw [if_neg (by omega), if_pos e, eu]
    have hl : Is u16 (min 8 N) [(i0 : Int), i1, i2, i3, i0, i1, i2, i3] (fun i => (sel4 i3 i2 i1 i0 (i % 4) : Int)) := by
      have key : ∀ n : Nat, n < 4 → u16.Has (n : Int) := by decide
      refine ⟨⟨by simp [cap, u16, u32], fun y hy => ?_⟩, fun i hi => ?_⟩
      · simp only [List.mem_cons, List.not_mem_nil, or_false] at hy
        rcases hy with rfl | rfl | rfl | rfl | rfl | rfl | rfl | rfl <;> exact key _ (by assumption)
      · have : i < 8 := by omega
        interval_cases i <;> rfl
    have := run_resize_same (t := u16) (by decide) (m := 2) rfl (a := 8) (b := N) (show min 8 N ≤ 8 by omega) hl
    obtain ⟨w, ew, hw⟩ := this
    refine ⟨w, ew, is_congr (hw.mono (show N ≤ 8 by omega)) fun i hi => if_pos (by omega)⟩
  · rw [if_neg (by omega), if_neg (by omega), eu]
    have hl : Is u32 (min 4 N) [(i0 : Int), i1, i2, i3] (fun i => (sel4 i3 i2 i1 i0 (i % 4) : Int)) := by
      have key : ∀ n : Nat, n < 4 → u32.Has (n : Int) := by decide
      refine ⟨⟨by simp [cap, u16, u32], fun y hy => ?_⟩, fun i hi => ?_⟩
      · simp only [List.mem_cons, List.not_mem_nil, or_false] at hy
        rcases hy with rfl | rfl | rfl | rfl <;> exact key _ (by assumption)
      · have : i < 4 := by omega
        interval_cases i <;> rfl
    have := run_resize_same (t := u32) (by decide) (m := 4) rfl (a := 4) (b := N) (show min 4 N ≤ 4 by omega) hl
    obtain ⟨w, ew, hw⟩ := this
    refine ⟨w, ew, is_congr (hw.mono (show N ≤ 4 by omega)) fun i hi => if_pos (by omega)⟩

/-- The indices the table lookup of `Per4LaneBlockShuffle` uses. -/
theorem tblIdx_eq {t : Ty} (h : t ∈ laneTys) {N : Nat} (hN : N ≤ cap t) (h4 : N = 4 ∨ N = 8 ∨ N = 16) {i3 i2 i1 i0 : Nat}
    (h3 : i3 < 4) (h2 : i2 < 4) (h1 : i1 < 4) (h0 : i0 < 4) :
    ∃ idx, tblIdx t N i3 i2 i1 i0 = .ok idx ∧ idx.length = N ∧
      ∀ i, i < N → idx[i]? = some ((4 * (i / 4) + sel4 i3 i2 i1 i0 (i % 4) : Nat) : Int) := by
  have hs : ∀ k, sel4 i3 i2 i1 i0 k < 4 := fun k => by unfold sel4; split_ifs <;> assumption
  obtain ⟨hum, -, hub, huc⟩ := unsigned_facts h
  have hNu : N ≤ cap t.unsigned := by omega
  have hsmall : ∀ t ∈ laneTys, ∀ n : Nat, n < 17 → t.Has (n : Int) := by decide
  have hN16 : N ≤ 16 := by omega
  obtain ⟨w, ew, hw⟩ := run_idxInBlk h hN h4 h3 h2 h1 h0
  obtain ⟨io, eio, hio⟩ : Runs t.unsigned N (Iota t.unsigned N 0) (fun i => (i : Int)) :=
    (C38_iota hum hNu 0).runs hNu fun i x hi hx e => by
      rw [mod_unique hum hx e, zero_add]
      exact wrap_has' hum (hsmall _ hum _ (by omega))
  obtain ⟨m, em, hm⟩ := xset hum hNu (has_wrap' hum (-4))
  obtain ⟨bl, ebl, hbl⟩ : Runs t.unsigned N (And t.unsigned N io m) (fun i => ((4 * (i / 4) : Nat) : Int)) := by
    refine Runs.congr (xand hum hNu hio hm) fun i hi => ?_
    have key : ∀ t ∈ laneTys, ∀ i : Nat, i < 16 → t.unsigned.ofBits (bitsOf t.unsigned (i : Int) &&& bitsOf t.unsigned (t.unsigned.wrap (-4))) =
      ((4 * (i / 4) : Nat) : Int) := by decide +kernel
    exact key t h i (by omega)
  obtain ⟨su, esu, hsu⟩ : Runs t.unsigned N (Add t.unsigned N w bl) (fun i => ((4 * (i / 4) + sel4 i3 i2 i1 i0 (i % 4) : Nat) : Int)) := by
    refine Runs.congr (xadd hum hNu hw hbl) fun i hi => ?_
    have := hs (i % 4)
    rw [show ((sel4 i3 i2 i1 i0 (i % 4) : Nat) : Int) + ((4 * (i / 4) : Nat) : Int) =
      ((4 * (i / 4) + sel4 i3 i2 i1 i0 (i % 4) : Nat) : Int) by push_cast; ring]
    exact wrap_has' hum (hsmall _ hum _ (by omega))
  unfold tblIdx
  dsimp only
  rw [ew, okb, if_neg (by omega)]
  show ∃ idx, (Iota t.unsigned N 0 >>= _) = _ ∧ _
  rw [eio, okb, em, okb, ebl, okb, esu, okb]
  obtain ⟨idx, e1, e2, e3⟩ := C47_indices_from_vec (t := t) (N := N) (vec := su) (by rw [hsu.1.len]; omega) (fun i hi x ex => by
    have := hsu.some hNu hi
    rw [this] at ex
    cases ex
    have := hs (i % 4)
    exact wrap_has' (signed_facts h).1 (hsmall _ (signed_facts h).1 _ (by omega)))
  exact ⟨idx, e1, e2, fun i hi => by rw [e3 i hi]; exact hsu.some hNu hi⟩

section
variable {t : Ty} (h : t ∈ laneTys) {N : Nat} (hN : N ≤ cap t) {v : List Int} {F : Nat → Int} (hv : Is t N v F)
include h hN hv

theorem run_tblShuf (h4 : N = 4 ∨ N = 8 ∨ N = 16) {i3 i2 i1 i0 : Nat} (h3 : i3 < 4) (h2 : i2 < 4) (h1 : i1 < 4) (h0 : i0 < 4) :
    Runs t N (tblShuf t N ((i3 <<< 6) ||| (i2 <<< 4) ||| (i1 <<< 2) ||| i0) v)
      (fun i => F (4 * (i / 4) + sel4 i3 i2 i1 i0 (i % 4))) := by
  have key : ∀ i3 < 4, ∀ i2 < 4, ∀ i1 < 4, ∀ i0 < 4,
      ((((i3 <<< 6) ||| (i2 <<< 4) ||| (i1 <<< 2) ||| i0) >>> 6) &&& 3 = i3) ∧
      ((((i3 <<< 6) ||| (i2 <<< 4) ||| (i1 <<< 2) ||| i0) >>> 4) &&& 3 = i2) ∧
      ((((i3 <<< 6) ||| (i2 <<< 4) ||| (i1 <<< 2) ||| i0) >>> 2) &&& 3 = i1) ∧
      (((i3 <<< 6) ||| (i2 <<< 4) ||| (i1 <<< 2) ||| i0) &&& 3 = i0) := by decide +kernel
  obtain ⟨e3, e2, e1, e0⟩ := key i3 h3 i2 h2 i1 h1 i0 h0
  have hs : ∀ k, sel4 i3 i2 i1 i0 k < 4 := fun k => by unfold sel4; split_ifs <;> assumption
  unfold tblShuf
  obtain ⟨idx, ei, hl, hidx⟩ := tblIdx_eq h hN h4 h3 h2 h1 h0
  rw [e3, e2, e1, e0, ei, okb]
  have hf : ∀ i, i < N → 4 * (i / 4) + sel4 i3 i2 i1 i0 (i % 4) < N := fun i hi => by
    have := hs (i % 4)
    omega
  refine (C47_table_lookup_lanes (α := Int) 0 hN hv.1.len hl
    (f := fun i => 4 * (i / 4) + sel4 i3 i2 i1 i0 (i % 4)) fun i hi => ⟨hidx i hi, hf i hi⟩).runs (fun r e => ?_)
    (fun i hi => hv.some hN (hf i hi))
  refine forN_all (P := t.Has) (fun j s s' e hs => ?_) e (fresh_all (has_zero h))
  obtain ⟨x, _, e2⟩ := bind_ok e
  obtain ⟨y, e3, e4⟩ := bind_ok e2
  unfold readIdx at e3
  split_ifs at e3
  exact writeAt_all e4 hs (readAt_all e3 hv.1.has)

omit h hN hv in
theorem runs_ite {c : Prop} [Decidable c] {a b : M (List Int)} {G : Nat → Int} (ha : c → Runs t N a G) (hb : Runs t N b G) :
    Runs t N (if c then a else b) G := by
  by_cases hc : c
  · rw [if_pos hc]; exact ha hc
  · rw [if_neg hc]; exact hb

theorem run_detailPer4 (h4 : N = 4 ∨ N = 8 ∨ N = 16) {i3 i2 i1 i0 : Nat} (h3 : i3 < 4) (h2 : i2 < 4) (h1 : i1 < 4) (h0 : i0 < 4) :
    Runs t N (detailPer4 t N ((i3 <<< 6) ||| (i2 <<< 4) ||| (i1 <<< 2) ||| i0) v)
      (fun i => F (4 * (i / 4) + sel4 i3 i2 i1 i0 (i % 4))) := by
  have tag : ∀ j3 < 4, ∀ j2 < 4, ∀ j1 < 4, ∀ j0 < 4,
      (i3 <<< 6) ||| (i2 <<< 4) ||| (i1 <<< 2) ||| i0 = (j3 <<< 6) ||| (j2 <<< 4) ||| (j1 <<< 2) ||| j0 →
      sel4 i3 i2 i1 i0 = sel4 j3 j2 j1 j0 := by
    intro j3 k3 j2 k2 j1 k1 j0 k0 e
    have key : ∀ i3 < 4, ∀ i2 < 4, ∀ i1 < 4, ∀ i0 < 4,
      ((((i3 <<< 6) ||| (i2 <<< 4) ||| (i1 <<< 2) ||| i0) >>> 6) &&& 3 = i3) ∧
      ((((i3 <<< 6) ||| (i2 <<< 4) ||| (i1 <<< 2) ||| i0) >>> 4) &&& 3 = i2) ∧
      ((((i3 <<< 6) ||| (i2 <<< 4) ||| (i1 <<< 2) ||| i0) >>> 2) &&& 3 = i1) ∧
      (((i3 <<< 6) ||| (i2 <<< 4) ||| (i1 <<< 2) ||| i0) &&& 3 = i0) := by decide +kernel
    obtain ⟨e3, e2, e1, e0⟩ := key i3 h3 i2 h2 i1 h1 i0 h0
    obtain ⟨f3, f2, f1, f0⟩ := key j3 k3 j2 k2 j1 k1 j0 k0
    rw [e] at e3 e2 e1 e0
    rw [← e3, ← e2, ← e1, ← e0, f3, f2, f1, f0]
  have hN16 : N ≤ 16 := by omega
  have hb32 : t.bits ≤ 32 := by
    have : ∀ t ∈ laneTys, 4 ≤ cap t → t.bits ≤ 32 := by decide
    exact this t h (by omega)
  have hw := (wideOf_mem h hb32).1
  have hwc : N / 2 ≤ cap (wideOf t) := by
    have := cap_double hw h (wideOf_mem h hb32).2
    omega
  have hlast := run_tblShuf h hN hv h4 h3 h2 h1 h0
  unfold detailPer4
  generalize (i3 <<< 6) ||| (i2 <<< 4) ||| (i1 <<< 2) ||| i0 = T at hlast tag ⊢
  refine runs_ite (fun c1 => ?_) ?_
  · rw [tag 0 (by decide) 1 (by decide) 2 (by decide) 3 (by decide) c1]
    refine Runs.congr (xreverse4 hv h hN (by omega)) fun i hi => ?_
    have : ∀ i < 16, i ^^^ 3 = 4 * (i / 4) + sel4 0 1 2 3 (i % 4) := by decide
    rw [this i (by omega)]
  refine runs_ite (fun c2 => ?_) ?_
  · rw [tag 1 (by decide) 0 (by decide) 1 (by decide) 0 (by decide) c2.1]
    refine Runs.congr (run_wide_move h hN hv hb32 (by omega) (g := fun j => 2 * (j / 2)) (fun w W hW => xdupeven hw hwc hW)
      (fun j hj => by omega)) fun i hi => ?_
    have : ∀ i < 16, 2 * (2 * (i / 2 / 2)) + i % 2 = 4 * (i / 4) + sel4 1 0 1 0 (i % 4) := by decide
    rw [this i (by omega)]
  refine runs_ite (fun c3 => ?_) ?_
  · rw [tag 1 (by decide) 0 (by decide) 3 (by decide) 2 (by decide) c3.1]
    refine Runs.congr (run_wide_move h hN hv hb32 (by omega) (g := fun j => j ^^^ 1) (fun w W hW => xreverse2 hW hw hwc (by omega))
      (fun j hj => xor_lt_group (N := N / 2) (Is.refl (N := N / 2) (bitcast_reg hw v) : Is _ _ (BitCast t (wideOf t) v) _) hw hwc 1 rfl (by omega) hj))
      fun i hi => ?_
    have : ∀ i < 16, 2 * ((i / 2) ^^^ 1) + i % 2 = 4 * (i / 4) + sel4 1 0 3 2 (i % 4) := by decide
    rw [this i (by omega)]
  refine runs_ite (fun c4 => ?_) ?_
  · rw [tag 1 (by decide) 1 (by decide) 0 (by decide) 0 (by decide) c4.1]
    have e4 : N = 4 := by
      rcases c4.2 with c | c
      · exact c.1
      · have : ∀ t ∈ laneTys, t.bits = 32 → cap t = 4 := by decide
        have := this t h c
        omega
    refine Runs.congr (xilower h hN hv hv (by omega)) fun i hi => ?_
    have : ∀ i < 4, i / 2 = 4 * (i / 4) + sel4 1 1 0 0 (i % 4) := by decide
    rw [← this i (by omega), ite_self]
  refine runs_ite (fun c5 => ?_) ?_
  · rw [tag 2 (by decide) 0 (by decide) 2 (by decide) 0 (by decide) c5.1]
    have e2 : N = 2 * (N / 2) := by omega
    have hv' : Is t (2 * (N / 2)) v F := by rw [← e2]; exact hv
    have := xconcateven h (by omega) hv' hv'
    rw [← e2] at this
    refine Runs.congr this fun i hi => ?_
    have e4 := c5.2
    subst e4
    have : i < 4 := hi
    interval_cases i <;> rfl
  refine runs_ite (fun c6 => ?_) ?_
  · rw [tag 2 (by decide) 2 (by decide) 0 (by decide) 0 (by decide) c6]
    refine Runs.congr (xdupeven h hN hv) fun i hi => ?_
    have : ∀ i < 16, 2 * (i / 2) = 4 * (i / 4) + sel4 2 2 0 0 (i % 4) := by decide
    rw [this i (by omega)]
  refine runs_ite (fun c7 => ?_) ?_
  · rw [tag 2 (by decide) 3 (by decide) 0 (by decide) 1 (by decide) c7]
    refine Runs.congr (xreverse2 hv h hN (by omega)) fun i hi => ?_
    have : ∀ i < 16, i ^^^ 1 = 4 * (i / 4) + sel4 2 3 0 1 (i % 4) := by decide
    rw [this i (by omega)]
  refine runs_ite (fun c8 => ?_) ?_
  · rw [tag 3 (by decide) 1 (by decide) 3 (by decide) 1 (by decide) c8.1]
    have e2 : N = 2 * (N / 2) := by omega
    have hv' : Is t (2 * (N / 2)) v F := by rw [← e2]; exact hv
    have := xconcatodd h (by omega) hv' hv'
    rw [← e2] at this
    refine Runs.congr this fun i hi => ?_
    have e4 := c8.2
    subst e4
    have : i < 4 := hi
    interval_cases i <;> rfl
  refine runs_ite (fun c9 => ?_) ?_
  · rw [tag 3 (by decide) 2 (by decide) 1 (by decide) 0 (by decide) c9]
    refine Runs.ret (is_congr hv fun i hi => ?_)
    have : ∀ i < 16, i = 4 * (i / 4) + sel4 3 2 1 0 (i % 4) := by decide
    rw [← this i (by omega)]
  refine runs_ite (fun c10 => ?_) ?_
  · rw [tag 3 (by decide) 2 (by decide) 3 (by decide) 2 (by decide) c10.1]
    refine Runs.congr (run_wide_move h hN hv hb32 (by omega) (g := fun j => 2 * (j / 2) + 1)
      (fun w W hW => xdupodd hw hwc hW (by omega)) (fun j hj => by omega)) fun i hi => ?_
    have : ∀ i < 16, 2 * (2 * (i / 2 / 2) + 1) + i % 2 = 4 * (i / 4) + sel4 3 2 3 2 (i % 4) := by decide
    rw [this i (by omega)]
  refine runs_ite (fun c11 => ?_) ?_
  · rw [tag 3 (by decide) 3 (by decide) 1 (by decide) 1 (by decide) c11]
    refine Runs.congr (xdupodd h hN hv (by omega)) fun i hi => ?_
    have : ∀ i < 16, 2 * (i / 2) + 1 = 4 * (i / 4) + sel4 3 3 1 1 (i % 4) := by decide
    rw [this i (by omega)]
  refine runs_ite (fun c12 => ?_) ?_
  · rw [tag 3 (by decide) 3 (by decide) 2 (by decide) 2 (by decide) c12.1]
    have e4 : N = 4 := by
      have : ∀ t ∈ laneTys, t.bits = 32 → cap t = 4 := by decide
      have := this t h c12.2
      omega
    refine Runs.congr (xilupper h hN hv hv (H := N / 2) (by omega)) fun i hi => ?_
    subst e4
    have : ∀ i < 4, 4 / 2 + i / 2 = 4 * (i / 4) + sel4 3 3 2 2 (i % 4) := by decide
    rw [← this i (by omega), ite_self]
  exact hlast

theorem run_per4 (h4 : N = 4 ∨ N = 8 ∨ N = 16) {i3 i2 i1 i0 : Nat} (h3 : i3 < 4) (h2 : i2 < 4) (h1 : i1 < 4) (h0 : i0 < 4) :
    Runs t N (Per4LaneBlockShuffle t N i3 i2 i1 i0 v) (fun i => F (4 * (i / 4) + sel4 i3 i2 i1 i0 (i % 4))) := by
  unfold Per4LaneBlockShuffle
  rw [if_neg (by omega), if_neg (by omega)]
  exact run_detailPer4 h hN hv h4 h3 h2 h1 h0

end

/-- `Per4LaneBlockShuffle<i3, i2, i1, i0>`: lane `k` of each group of four is lane `ik` of that group, where the vector has such a
lane. -/
theorem C59_per4_lane_block_shuffle {t : Ty} (h : t ∈ laneTys) {N : Nat} (hN : N ≤ cap t) (hp : N ∈ [1, 2, 4, 8, 16])
    {i3 i2 i1 i0 : Nat} (h3 : i3 < 4) (h2 : i2 < 4) (h1 : i1 < 4) (h0 : i0 < 4) {v : List Int} (hv : Reg t v) :
    Lanes t N (Per4LaneBlockShuffle t N i3 i2 i1 i0 v)
      (fun i r => 4 * (i / 4) + sel4 i3 i2 i1 i0 (i % 4) < N → r = lane v (4 * (i / 4) + sel4 i3 i2 i1 i0 (i % 4))) := by
  have hI : Is t N v (lane v) := Is.refl hv
  simp only [List.mem_cons, List.not_mem_nil, or_false] at hp
  rcases hp with rfl | rfl | h4
  · refine ⟨v, by unfold Per4LaneBlockShuffle; rfl, hv, fun i hi hlt => ?_⟩
    congr 1; omega
  · unfold Per4LaneBlockShuffle
    rw [if_neg (by decide), if_pos rfl]
    dsimp only
    have d0 : Runs t 2 (detailPer2 t 0 v) (fun _ => lane v 0) := by
      refine Runs.congr (xdupeven h hN hI) fun i hi => ?_
      rw [show 2 * (i / 2) = 0 by omega]
    have d1 : Runs t 2 (detailPer2 t 1 v) (fun i => lane v (1 - i)) := by
      refine Runs.congr (xreverse2 hI h hN (by decide)) fun i hi => ?_
      interval_cases i <;> rfl
    have d2 : Runs t 2 (detailPer2 t 2 v) (fun i => lane v i) := Runs.ret hI
    have d3 : Runs t 2 (detailPer2 t 3 v) (fun _ => lane v 1) := by
      refine Runs.congr (xdupodd h hN hI (by decide)) fun i hi => ?_
      rw [show 2 * (i / 2) + 1 = 1 by omega]
    interval_cases i0 <;> interval_cases i1 <;>
      first
      | exact Runs.lanes d0 hN fun i hi _ hlt => by interval_cases i <;> simp [sel4] at hlt ⊢
      | exact Runs.lanes d1 hN fun i hi _ hlt => by interval_cases i <;> simp [sel4] at hlt ⊢
      | exact Runs.lanes d2 hN fun i hi _ hlt => by interval_cases i <;> simp [sel4] at hlt ⊢
      | exact Runs.lanes d3 hN fun i hi _ hlt => by interval_cases i <;> simp [sel4] at hlt ⊢
  · exact Runs.lanes (run_per4 h hN hI h4 h3 h2 h1 h0) hN fun i hi _ _ => rfl

end Emu
end Hwy
