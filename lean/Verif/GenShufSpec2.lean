import Verif.GenShufSpec

/-!
# C59: slides, byte shifts and pairwise sums
-/

namespace Hwy
namespace Emu
open CInt Finset

theorem zeroBytes_all {P : Int → Prop} {dst r : List Int} {d0 n : Nat} (e : zeroBytes 0 dst d0 n = .ok r) (hz : P 0)
    (hd : ∀ y ∈ dst, P y) : ∀ y ∈ r, P y :=
  forN_all (fun _ _ _ e h => writeAt_all e h hz) e hd

section
variable {B k : Nat} (hB : B ≤ 16) (hk : k ≤ B) {v w : List Int} {F G : Nat → Int} (hv : Is u8 B v F)
include hB hk hv

theorem xshlbytes : Runs u8 B (ShiftLeftBytes 0 B k v) (fun i => if i < k then 0 else F (i - k)) := by
  refine (C47_shift_left_bytes (α := Int) 0 hB hk hv.1.len).runs (t := u8) (fun r e => ?_) (fun i hi => ?_)
  · obtain ⟨s, e1, e2⟩ := bind_ok e
    exact copyLanes_all e2 hv.1.has (zeroBytes_all e1 (by decide) (fresh_all (by decide)))
  · split_ifs
    · rfl
    · exact hv.some hB (by omega)

theorem xshrbytes : Runs u8 B (ShiftRightBytes 0 B k v) (fun i => if i + k < B then F (i + k) else 0) := by
  refine (C47_shift_right_bytes (α := Int) 0 hB hk hv.1.len).runs (t := u8) (fun r e => ?_) (fun i hi => ?_)
  · obtain ⟨s, e1, e2⟩ := bind_ok e
    exact zeroBytes_all e2 (by decide) (copyLanes_all e1 hv.1.has (fresh_all (by decide)))
  · split_ifs
    · exact hv.some hB (by omega)
    · rfl

theorem xcsrbytes (hw : Is u8 B w G) : Runs u8 B (CombineShiftRightBytes 0 B k w v)
    (fun i => if i + k < B then F (i + k) else G (i + k - B)) := by
  refine (C47_combine_shift_right_bytes (α := Int) 0 hB hk hw.1.len hv.1.len).runs (t := u8) (fun r e => ?_) (fun i hi => ?_)
  · obtain ⟨s, e1, e2⟩ := bind_ok e
    exact copyLanes_all e2 hw.1.has (copyLanes_all e1 hv.1.has (fresh_all (by decide)))
  · split_ifs
    · exact hv.some hB (by omega)
    · exact hw.some hB (by omega)

end

theorem bytes_div {t : Ty} (h : t ∈ laneTys) : t.bits = 8 * (t.bits / 8) ∧ 0 < t.bits / 8 := by
  have : ∀ t ∈ laneTys, t.bits = 8 * (t.bits / 8) ∧ 0 < t.bits / 8 := by decide
  exact this t h

section
variable {t : Ty} (h : t ∈ laneTys) {N : Nat} (hN : N ≤ cap t) {a b : List Int} {F G : Nat → Int} (ha : Is t N a F)
include h hN ha

theorem run_shlLanes {k : Nat} (hk : k ≤ N) : Runs t N (ShlLanes t N k a) (fun i => if i < k then 0 else F (i - k)) := by
  obtain ⟨hm, hp⟩ := bytes_div h
  have h16 := bytes_cap h hm
  unfold ShlLanes
  generalize t.bits / 8 = m at *
  have hB : m * N ≤ 16 := by rw [← h16]; exact Nat.mul_le_mul_left _ hN
  refine Runs.bind (xshlbytes hB (by rw [mul_comm]; exact Nat.mul_le_mul_left _ hk) (is_bytes h hm hN ha)) fun r hr => Runs.ret ?_
  refine lanes_of_bytes h hm hN hr (fun i hi => ?_) (fun i hi j hj => ?_)
  · beta_reduce
    split_ifs
    · exact has_zero h
    · exact ha.has hN (by omega)
  · beta_reduce
    by_cases c : i < k
    · rw [if_pos, if_pos c, byteAt_zero]
      calc m * i + j < m * i + m := by omega
        _ = m * (i + 1) := by ring
        _ ≤ m * k := Nat.mul_le_mul_left _ c
        _ = k * m := mul_comm _ _
    · have hle : m * k ≤ m * i := Nat.mul_le_mul_left _ (by omega)
      have e : m * i + j - k * m = m * (i - k) + j := by rw [Nat.mul_sub, mul_comm k m]; omega
      rw [if_neg (by rw [mul_comm k m]; omega), if_neg c, e, Nat.mul_add_div hp, Nat.div_eq_of_lt hj, Nat.add_zero,
        Nat.mul_add_mod, Nat.mod_eq_of_lt hj]

theorem run_shrLanes {k : Nat} (hk : k ≤ N) : Runs t N (ShrLanes t N k a) (fun i => if i + k < N then F (i + k) else 0) := by
  obtain ⟨hm, hp⟩ := bytes_div h
  have h16 := bytes_cap h hm
  unfold ShrLanes
  generalize t.bits / 8 = m at *
  have hB : m * N ≤ 16 := by rw [← h16]; exact Nat.mul_le_mul_left _ hN
  refine Runs.bind (xshrbytes hB (by rw [mul_comm]; exact Nat.mul_le_mul_left _ hk) (is_bytes h hm hN ha)) fun r hr => Runs.ret ?_
  refine lanes_of_bytes h hm hN hr (fun i hi => ?_) (fun i hi j hj => ?_)
  · beta_reduce
    split_ifs
    · exact ha.has hN (by omega)
    · exact has_zero h
  · beta_reduce
    have e : m * i + j + k * m = m * (i + k) + j := by ring
    by_cases c : i + k < N
    · have : m * (i + k) + m ≤ m * N := by
        calc m * (i + k) + m = m * (i + k + 1) := by ring
          _ ≤ m * N := Nat.mul_le_mul_left _ c
      rw [if_pos (by omega), if_pos c, e, Nat.mul_add_div hp, Nat.div_eq_of_lt hj, Nat.add_zero,
        Nat.mul_add_mod, Nat.mod_eq_of_lt hj]
    · have := Nat.mul_le_mul_left m (not_lt.1 c)
      rw [if_neg (by omega), if_neg c, byteAt_zero]

theorem run_csrLanes (hb : Is t N b G) {k : Nat} (hk : k ≤ N) : Runs t N (CombineShrLanes t N k b a)
    (fun i => if i + k < N then F (i + k) else G (i + k - N)) := by
  obtain ⟨hm, hp⟩ := bytes_div h
  have h16 := bytes_cap h hm
  unfold CombineShrLanes
  generalize t.bits / 8 = m at *
  have hB : m * N ≤ 16 := by rw [← h16]; exact Nat.mul_le_mul_left _ hN
  refine Runs.bind (xcsrbytes hB (by rw [mul_comm]; exact Nat.mul_le_mul_left _ hk) (is_bytes h hm hN ha) (is_bytes h hm hN hb))
    fun r hr => Runs.ret ?_
  refine lanes_of_bytes h hm hN hr (fun i hi => ?_) (fun i hi j hj => ?_)
  · beta_reduce
    split_ifs
    · exact ha.has hN (by omega)
    · exact hb.has hN (by omega)
  · beta_reduce
    have e : m * i + j + k * m = m * (i + k) + j := by ring
    by_cases c : i + k < N
    · have : m * (i + k) + m ≤ m * N := by
        calc m * (i + k) + m = m * (i + k + 1) := by ring
          _ ≤ m * N := Nat.mul_le_mul_left _ c
      rw [if_pos (by omega), if_pos c, e, Nat.mul_add_div hp, Nat.div_eq_of_lt hj, Nat.add_zero,
        Nat.mul_add_mod, Nat.mod_eq_of_lt hj]
    · have hle := Nat.mul_le_mul_left m (not_lt.1 c)
      have e2 : m * (i + k) + j - m * N = m * (i + k - N) + j := by rw [Nat.mul_sub]; omega
      rw [if_neg (by omega), if_neg c, e, e2, Nat.mul_add_div hp, Nat.div_eq_of_lt hj, Nat.add_zero,
        Nat.mul_add_mod, Nat.mod_eq_of_lt hj]

theorem run_slide1Up (hp : 0 < N) : Runs t N (Slide1Up t N a) (fun i => if i < 1 then 0 else F (i - 1)) := by
  unfold Slide1Up
  by_cases c : N = 1
  · rw [if_pos c]
    refine Runs.ret (is_congr (is_zero h N) fun i hi => by rw [if_pos (by omega)])
  · rw [if_neg c]
    exact run_shlLanes h hN ha (by omega)

theorem run_slide1Down (hp : 0 < N) : Runs t N (Slide1Down t N a) (fun i => if i + 1 < N then F (i + 1) else 0) := by
  unfold Slide1Down
  by_cases c : N = 1
  · rw [if_pos c]
    refine Runs.ret (is_congr (is_zero h N) fun i hi => by rw [if_neg (by omega)])
  · rw [if_neg c]
    exact run_shrLanes h hN ha (by omega)

theorem xslideup (k : Nat) : Runs t N (SlideUpLanes 0 (cap t) N a k) (fun i => if i < k then 0 else F (i - k)) := by
  refine (C47_slide_up (α := Int) 0 hN ha.1.len k).runs (fun r e => ?_) (fun i hi => ?_)
  · exact copyLanes_all e ha.1.has (fresh_all (has_zero h))
  · split_ifs
    · rfl
    · exact ha.some hN (by omega)

theorem xslidedown (k : Nat) : Runs t N (SlideDownLanes 0 (cap t) N a k) (fun i => if i + k < N then F (i + k) else 0) := by
  refine (C47_slide_down (α := Int) 0 hN ha.1.len k).runs (fun r e => ?_) (fun i hi => ?_)
  · exact copyLanes_all e ha.1.has (fresh_all (has_zero h))
  · split_ifs
    · exact ha.some hN (by omega)
    · rfl

end

section
variable {t : Ty} (h : t ∈ laneTys) {N : Nat} (hN : N ≤ cap t)
include h hN

/-- `ShiftLeftLanes`, `ShiftRightLanes`, `CombineShiftRightLanes`: lanes move by `k` places, zeros or the lanes of the other vector
coming in. -/
theorem C59_shift_lanes {k : Nat} (hk : k ≤ N) {a b : List Int} (ha : Reg t a) (hb : Reg t b) :
    Lanes t N (ShlLanes t N k a) (fun i r => (i < k → r = 0) ∧ (k ≤ i → r = lane a (i - k))) ∧
    Lanes t N (ShrLanes t N k a) (fun i r => (i + k < N → r = lane a (i + k)) ∧ (N ≤ i + k → r = 0)) ∧
    Lanes t N (CombineShrLanes t N k b a) (fun i r => (i + k < N → r = lane a (i + k)) ∧ (N ≤ i + k → r = lane b (i + k - N))) := by
  refine ⟨Runs.lanes (run_shlLanes h hN (Is.refl ha) hk) hN fun i hi _ => ⟨fun c => if_pos c, fun c => if_neg (by omega)⟩,
    Runs.lanes (run_shrLanes h hN (Is.refl ha) hk) hN fun i hi _ => ⟨fun c => if_pos c, fun c => if_neg (by omega)⟩,
    Runs.lanes (run_csrLanes h hN (Is.refl ha) (Is.refl hb) hk) hN fun i hi _ => ⟨fun c => if_pos c, fun c => if_neg (by omega)⟩⟩

/-- `Slide1Up`, `Slide1Down`. -/
theorem C59_slide1 (hp : 0 < N) {a : List Int} (ha : Reg t a) :
    Lanes t N (Slide1Up t N a) (fun i r => (i = 0 → r = 0) ∧ (0 < i → r = lane a (i - 1))) ∧
    Lanes t N (Slide1Down t N a) (fun i r => (i + 1 < N → r = lane a (i + 1)) ∧ (i + 1 = N → r = 0)) := by
  refine ⟨Runs.lanes (run_slide1Up h hN (Is.refl ha) hp) hN fun i hi _ => ⟨fun c => if_pos (by omega), fun c => if_neg (by omega)⟩,
    Runs.lanes (run_slide1Down h hN (Is.refl ha) hp) hN fun i hi _ => ⟨fun c => if_pos c, fun c => if_neg (by omega)⟩⟩

/-- Sliding a mask: `SlideMask1Up`, `SlideMask1Down`, `SlideMaskUpLanes`, `SlideMaskDownLanes`; false comes in. -/
theorem C59_slide_mask (hp : 0 < N) (k : Nat) {m : List Int} {b : Nat → Bool} (hm : IsMask t N m b) :
    RunsM t N (SlideMask1Up t N m) (fun i => decide (1 ≤ i) && b (i - 1)) ∧
    RunsM t N (SlideMask1Down t N m) (fun i => decide (i + 1 < N) && b (i + 1)) ∧
    RunsM t N (SlideMaskUpLanes t N m k) (fun i => decide (k ≤ i) && b (i - k)) ∧
    RunsM t N (SlideMaskDownLanes t N m k) (fun i => decide (i + k < N) && b (i + k)) := by
  have hv := is_vecFromMask h hm
  refine ⟨?_, ?_, ?_, ?_⟩
  · refine Runs.bindM (run_slide1Up h hN hv hp) fun r hr => RunsM.ret (is_mask h hN hr fun i hi => ?_)
    beta_reduce
    by_cases c : i < 1
    · rw [if_pos c, decide_eq_false (by omega)]; rfl
    · rw [if_neg c, decide_eq_true (by omega)]; simp
  · refine Runs.bindM (run_slide1Down h hN hv hp) fun r hr => RunsM.ret (is_mask h hN hr fun i hi => ?_)
    beta_reduce
    by_cases c : i + 1 < N
    · rw [if_pos c, decide_eq_true c]; simp
    · rw [if_neg c, decide_eq_false c]; rfl
  · refine Runs.bindM (xslideup h hN hv k) fun r hr => RunsM.ret (is_mask h hN hr fun i hi => ?_)
    beta_reduce
    by_cases c : i < k
    · rw [if_pos c, decide_eq_false (by omega)]; rfl
    · rw [if_neg c, decide_eq_true (by omega)]; simp
  · refine Runs.bindM (xslidedown h hN hv k) fun r hr => RunsM.ret (is_mask h hN hr fun i hi => ?_)
    beta_reduce
    by_cases c : i + k < N
    · rw [if_pos c, decide_eq_true c]; simp
    · rw [if_neg c, decide_eq_false c]; rfl

/-- `BroadcastLane<k>`. -/
theorem C59_broadcast_lane {k : Nat} (hk : k < N) {a : List Int} (ha : Reg t a) :
    Lanes t N (BroadcastLane N k a) (fun _ r => r = lane a k) :=
  Runs.lanes (xbroadcast h hN (Is.refl ha) hk) hN fun _ _ _ => rfl

/-- `MaskedSetOr`, `MaskedSet`, `MaskedOr`. -/
theorem C59_masked_set {m : List Int} {p : Nat → Bool} (hm : IsMask t N m p) {x : Int} (hx : t.Has x) {no a b : List Int}
    (hn : Reg t no) (ha : Reg t a) (hb : Reg t b) :
    Lanes t N (MaskedSetOr t N no m x) (fun i r => r = if p i then x else lane no i) ∧
    Lanes t N (MaskedSet t N m x) (fun i r => r = if p i then x else 0) ∧
    Lanes t N (MaskedOr t N m a b) (fun i r => if p i then bitsOf t r = bitsOf t (lane a i) ||| bitsOf t (lane b i) else r = 0) := by
  refine ⟨Runs.lanes (Runs.bind (xset h hN hx) fun s hs => xite h hN hm hs (Is.refl hn)) hN fun i _ _ => rfl,
    Runs.lanes (Runs.bind (xset h hN hx) fun s hs => xitez h hN hm hs) hN fun i _ _ => rfl,
    Runs.lanes (Runs.bind (xor' h hN (Is.refl ha) (Is.refl hb)) fun s hs => xitez h hN hm hs) hN fun i _ _ => ?_⟩
  beta_reduce
  split_ifs
  · exact bits_ofBits h _
  · rfl

/-- `SignBit`: only the most significant bit is set. -/
theorem C59_sign_bit : Lanes t N (SignBit t N) (fun _ r => bitsOf t r = BitVec.ofNat t.bits (2 ^ (t.bits - 1))) := by
  obtain ⟨hum, -, hub, huc⟩ := unsigned_facts h
  have key : ∀ t ∈ laneTys, t.unsigned.Has (2 ^ (t.bits - 1)) ∧
    bitsOf t (t.wrap (2 ^ (t.bits - 1))) = BitVec.ofNat t.bits (2 ^ (t.bits - 1)) := by decide +kernel
  refine Runs.lanes (Runs.bind (xset hum (by omega) (key t h).1) fun s hs => Runs.ret (is_bc_same hs h hub.symm hN)) hN fun i hi _ => ?_
  exact (key t h).2

/-- `AllBits1`, `AllBits0`: every bit of every lane. -/
theorem C59_all_bits {a : List Int} (ha : Reg t a) :
    (∃ r, AllBits1 t N a = .ok r ∧ (r = true ↔ ∀ i, i < N → ∀ k, k < t.bits → (bitsOf t (lane a i)).getLsbD k = true)) ∧
    (∃ r, AllBits0 t N a = .ok r ∧ (r = true ↔ ∀ i, i < N → ∀ k, k < t.bits → (bitsOf t (lane a i)).getLsbD k = false)) := by
  obtain ⟨hum, -, hub, huc⟩ := unsigned_facts h
  constructor
  · have hh : t.unsigned.Has t.unsigned.hi := by
      have : ∀ t ∈ laneTys, t.unsigned.Has t.unsigned.hi := by decide +kernel
      exact this t h
    have ones : ∀ t ∈ laneTys, ∀ k, k < t.bits → (bitsOf t.unsigned t.unsigned.hi).getLsbD k = true := by decide +kernel
    obtain ⟨s, e1, hs⟩ := xset hum (N := N) (by omega) hh
    obtain ⟨m, e2, hm⟩ := xeq hum (N := N) (by omega) (is_bc_same (Is.refl ha : Is t N a _) hum hub (by omega)) hs
    obtain ⟨r, e3, hr⟩ := C46_all_true hum (by omega) hm
    refine ⟨r, by unfold AllBits1; rw [e1, okb, e2, okb, e3], hr.trans ⟨fun H i hi k hk => ?_, fun H i hi => ?_⟩⟩
    · have e := congrArg (bitsOf t.unsigned) (of_decide_eq_true (H i hi))
      rw [bitsOf_wrap _ (bits_pos hum)] at e
      have : (bitsOf t.unsigned (lane a i)).getLsbD k = true := by rw [e]; exact ones t h k hk
      exact this
    · refine decide_eq_true (ofBits_inj t.unsigned (bits_pos hum) (has_wrap' hum _) hh ?_)
      show bitsOf t.unsigned _ = bitsOf t.unsigned _
      rw [bitsOf_wrap _ (bits_pos hum)]
      refine BitVec.eq_of_getLsbD_eq fun k hk => ?_
      rw [ones t h k hk]
      exact H i hi k hk
  · obtain ⟨m, e2, hm⟩ := xeq h hN (Is.refl ha) (is_zero h N)
    obtain ⟨r, e3, hr⟩ := C46_all_true h hN hm
    refine ⟨r, by unfold AllBits0; rw [e2, okb, e3], hr.trans ⟨fun H i hi k hk => ?_, fun H i hi => ?_⟩⟩
    · rw [of_decide_eq_true (H i hi)]
      show (BitVec.ofInt t.bits 0).getLsbD k = false
      simp
    · refine decide_eq_true (ofBits_inj t (bits_pos h) (ha.lane_has (by omega)) (has_zero h) ?_)
      refine BitVec.eq_of_getLsbD_eq fun k hk => ?_
      rw [show (BitVec.ofInt t.bits (0 : Int)).getLsbD k = false by simp]
      exact H i hi k hk

end

/-! ### Pairwise sums -/

section
variable {t : Ty} (h : t ∈ laneTys) {a b : List Int} {F : Nat → Int}
include h

theorem run_oddeven_concat (ha : Is t (cap t) a F) : Runs t (cap t) (BlockwiseConcatOddEven t a)
    (fun i => if i < cap t / 2 then F (2 * i) else F (2 * (i - cap t / 2) + 1)) := by
  have hb : ∀ t ∈ laneTys, (t.bits = 8 ∧ cap t = 16) ∨ (t.bits = 16 ∧ cap t = 8) ∨ (t.bits = 32 ∧ cap t = 4) ∨
    (t.bits = 64 ∧ cap t = 2) := by decide
  have tab : ∀ {m : Nat} (hm : t.bits = 8 * m) (hm0 : 0 < m) (L : List Int) (hL : Is u8 16 L (lane L)) (hs : ∀ i, i < 16 → lane L i < 16)
      (hl : ∀ i, i < cap t → ∀ k, k < m → (lane L (m * i + k)).toNat =
        m * (if i < cap t / 2 then 2 * i else 2 * (i - cap t / 2) + 1) + k),
      Runs t (cap t) (do let r ← TableBytes 16 (BitCast t u8 a) L; return BitCast u8 t r)
        (fun i => if i < cap t / 2 then F (2 * i) else F (2 * (i - cap t / 2) + 1)) := by
    intro m hm hm0 L hL hs hl
    have h16 := bytes_cap h hm
    have hby := is_bytes h hm le_rfl ha
    rw [h16] at hby
    refine Runs.bind (xtable le_rfl hby hL hs) fun r hr => Runs.ret ?_
    rw [← h16] at hr
    have hlt : ∀ i, i < cap t → (if i < cap t / 2 then 2 * i else 2 * (i - cap t / 2) + 1) < cap t := by
      have : ∀ t ∈ laneTys, cap t % 2 = 0 := by decide
      have := this t h
      intro i hi
      split_ifs <;> omega
    have e : ∀ i, (if i < cap t / 2 then F (2 * i) else F (2 * (i - cap t / 2) + 1)) =
        F (if i < cap t / 2 then 2 * i else 2 * (i - cap t / 2) + 1) := fun i => by split_ifs <;> rfl
    refine lanes_of_bytes h hm le_rfl hr (fun i hi => ?_) (fun i hi k hk => ?_)
    · rw [e]; exact ha.has le_rfl (hlt i hi)
    · beta_reduce
      rw [hl i hi k hk, Nat.mul_add_div hm0, Nat.div_eq_of_lt hk, Nat.add_zero, Nat.mul_add_mod, Nat.mod_eq_of_lt hk, e]
  unfold BlockwiseConcatOddEven
  rcases hb t h with ⟨e, ec⟩ | ⟨e, ec⟩ | ⟨e, ec⟩ | ⟨e, ec⟩
  · rw [if_pos e]
    refine tab (m := 1) e (by decide) _ ⟨⟨by decide, by decide⟩, fun _ _ => rfl⟩ (by decide) ?_
    rw [ec]; decide
  · rw [if_neg (by omega), if_pos e]
    refine tab (m := 2) e (by decide) _ ⟨⟨by decide, by decide⟩, fun _ _ => rfl⟩ (by decide) ?_
    rw [ec]; decide
  · rw [if_neg (by omega), if_neg (by omega), if_pos e]
    rw [ec] at ha ⊢
    refine Runs.congr (run_per4 h (by omega) ha (Or.inl rfl) (i3 := 3) (i2 := 1) (i1 := 2) (i0 := 0) (by decide) (by decide)
      (by decide) (by decide)) fun i hi => ?_
    interval_cases i <;> rfl
  · rw [if_neg (by omega), if_neg (by omega), if_neg (by omega)]
    rw [ec] at ha ⊢
    refine Runs.ret (is_congr ha fun i hi => ?_)
    interval_cases i <;> rfl

/-- `PairwiseAdd128`, `PairwiseSub128`: the sums (differences) of the pairs of `a` in the lower half, those of `b` in the upper. -/
theorem C59_pairwise_128 (ha : Reg t a) (hb : Reg t b) :
    Lanes t (cap t) (PairwiseAdd128 t a b) (fun i r =>
      (i < cap t / 2 → r ≡ lane a (2 * i) + lane a (2 * i + 1) [ZMOD 2 ^ t.bits]) ∧
      (cap t / 2 ≤ i → r ≡ lane b (2 * (i - cap t / 2)) + lane b (2 * (i - cap t / 2) + 1) [ZMOD 2 ^ t.bits])) ∧
    Lanes t (cap t) (PairwiseSub128 t a b) (fun i r =>
      (i < cap t / 2 → r ≡ lane a (2 * i + 1) - lane a (2 * i) [ZMOD 2 ^ t.bits]) ∧
      (cap t / 2 ≤ i → r ≡ lane b (2 * (i - cap t / 2) + 1) - lane b (2 * (i - cap t / 2)) [ZMOD 2 ^ t.bits])) := by
  have h2 : cap t % 2 = 0 := by
    have : ∀ t ∈ laneTys, cap t % 2 = 0 := by decide
    exact this t h
  obtain ⟨r, e1, hr, hl⟩ := C39_pairwise_add h le_rfl h2 ha hb
  obtain ⟨s, e2, hs, hl'⟩ := C39_pairwise_sub h le_rfl h2 ha hb
  unfold PairwiseAdd128 PairwiseSub128
  rw [e1, e2, okb, okb]
  refine ⟨Runs.lanes (run_oddeven_concat h (Is.refl hr)) le_rfl fun i hi _ => ⟨fun c => ?_, fun c => ?_⟩,
    Runs.lanes (run_oddeven_concat h (Is.refl hs)) le_rfl fun i hi _ => ⟨fun c => ?_, fun c => ?_⟩⟩
  · rw [if_pos c]; exact (hl _ (by omega)).1 (by omega)
  · rw [if_neg (by omega)]; exact (hl _ (by omega)).2 (by omega)
  · rw [if_pos c]; exact (hl' _ (by omega)).1 (by omega)
  · rw [if_neg (by omega)]; exact (hl' _ (by omega)).2 (by omega)

/-- `InsertIntoUpper`: the lower half of `a` below the lanes in memory. -/
theorem C59_insert_into_upper {H : Nat} (hH : 2 * H ≤ cap t) {p : List Int} (hp : H ≤ p.length) (hpt : ∀ x ∈ p, t.Has x)
    (ha : Reg t a) :
    Lanes t (2 * H) (InsertIntoUpper t H p a) (fun i r => (i < H → r = lane a i) ∧ (H ≤ i → r = lane p (i - H))) := by
  obtain ⟨b, eb, hb, hlb⟩ : Runs t H (Load 0 (cap t) H p) (fun i => lane p i) := by
    refine (C47_load (α := Int) 0 (by omega) hp).runs (fun r e => copyLanes_all e hpt (fresh_all (has_zero h))) fun i hi => ?_
    unfold lane
    rw [List.getD_eq_getElem?_getD, List.getElem?_eq_getElem (by omega)]
    rfl
  obtain ⟨l, el, hl, hll⟩ := xlower (Is.refl ha : Is t H a _) h (by omega) le_rfl
  have : Runs t (2 * H) (Combine 0 (cap t) H b l) (fun i => if i < H then lane a i else lane p (i - H)) := by
    refine (C47_combine (α := Int) 0 hH hb.len hl.len).runs (fun r e => ?_) fun i hi => ?_
    · obtain ⟨s, e1, e2⟩ := bind_ok e
      exact copyLanes_all e2 hb.has (copyLanes_all e1 hl.has (fresh_all (has_zero h)))
    · split_ifs with c
      · exact Is.some (⟨hl, hll⟩ : Is t H l _) (by omega) c
      · exact Is.some (⟨hb, hlb⟩ : Is t H b _) (by omega) (by omega)
  unfold InsertIntoUpper
  rw [eb, okb, el, okb]
  exact Runs.lanes this hH fun i hi _ => ⟨fun c => if_pos c, fun c => if_neg (by omega)⟩

end

end Emu
end Hwy
