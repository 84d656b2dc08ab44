import Verif.GenRotSpec2

/-!
# C58: `MultiRotateRight`
-/

namespace Hwy
namespace Emu
open CInt

theorem okb {α β : Type} (a : α) (f : α → M β) : (Except.ok a >>= f) = f a := rfl

/-- Two adjacent bytes of `x` (cyclically), shifted right, hold the low byte of the rotated `x`. -/
theorem rot_byte (x : Int) {c : Nat} (hc : c < 64) :
    (byteAt x (c / 8) + 256 * byteAt x ((c / 8 + 1) % 8)) / 2 ^ (c % 8) % 256 =
      ((((BitVec.ofInt 64 x).rotateRight c).toNat % 256 : Nat) : Int) := by
  obtain ⟨a0, a1⟩ := byteAt_range x (c / 8)
  obtain ⟨b0, b1⟩ := byteAt_range x ((c / 8 + 1) % 8)
  set A := byteAt x (c / 8) with hA
  set B := byteAt x ((c / 8 + 1) % 8) with hB
  have key : BitVec.ofInt 8 ((A + 256 * B) / 2 ^ (c % 8)) = ((BitVec.ofInt 64 x).rotateRight c).setWidth 8 := by
    apply BitVec.eq_of_getLsbD_eq
    intro j hj
    rw [getLsbD_ofInt _ hj, BitVec.getLsbD_setWidth, BitVec.getLsbD_rotateRight, Nat.mod_eq_of_lt hc,
      Int.ediv_ediv_of_nonneg (by positivity), ← pow_add]
    simp only [hj, decide_true, Bool.true_and]
    have hbit : (bif decide (j < 64 - c) then (BitVec.ofInt 64 x).getLsbD (c + j) else
        decide (j < 64) && (BitVec.ofInt 64 x).getLsbD (j - (64 - c))) = (BitVec.ofInt 64 x).getLsbD ((c + j) % 64) := by
      by_cases h : j < 64 - c
      · simp only [h, decide_true, cond_true]
        congr 1
        omega
      · simp only [h, decide_false, cond_false, show j < 64 by omega, decide_true, Bool.true_and]
        congr 1
        omega
    rw [hbit, getLsbD_byte x (show (c + j) % 64 < 64 by omega)]
    by_cases h8 : c % 8 + j < 8
    · rw [show (c + j) % 64 / 8 = c / 8 by omega, show (c + j) % 64 % 8 = c % 8 + j by omega, ← hA]
      congr 1
      generalize c % 8 + j = e at h8
      have : (A + 256 * B) / 2 ^ e % 2 = A / 2 ^ e % 2 := by
        interval_cases e <;> norm_num <;> omega
      rw [this]
    · rw [show (c + j) % 64 / 8 = (c / 8 + 1) % 8 by omega, show (c + j) % 64 % 8 = c % 8 + j - 8 by omega, ← hB]
      congr 1
      have h16 : c % 8 + j < 16 := by omega
      generalize c % 8 + j = e at h8 h16
      have : (A + 256 * B) / 2 ^ e % 2 = B / 2 ^ (e - 8) % 2 := by
        interval_cases e <;> norm_num <;> omega
      rw [this]
  have k2 := congrArg BitVec.toNat key
  rw [BitVec.toNat_setWidth, BitVec.toNat_ofInt] at k2
  rw [show 256 = 2 ^ 8 by norm_num, ← k2, Int.toNat_of_nonneg (Int.emod_nonneg _ (by norm_num))]
  norm_num

/-- The byte selected by the index `c`. -/
def rotByte (x c : Int) : Int := ((((BitVec.ofInt 64 x).rotateRight (c % 64).toNat).toNat % 256 : Nat) : Int)

/-- `ResizeBitCast` from 8 to 16 bytes. -/
theorem run_resize {tF tT : Ty} {v : List Int} {F : Nat → Int} (hv : Is u8 8 (BitCast tF u8 v) F) :
    ∃ w, ResizeBitCast tF tT 8 16 v = .ok (BitCast u8 tT w) ∧ Is u8 16 w (fun j => if j < 8 then F j else 0) := by
  obtain ⟨r, e, hl, hr⟩ := copyLanes_eq (src := BitCast tF u8 v) (so := 0) (dst := fresh (0 : Int) 16) (d0 := 0) (n := 8)
    (by rw [hv.1.len]; decide) (by decide)
  refine ⟨r, ?_, ⟨by rw [hl]; rfl, copyLanes_all e hv.1.has (fresh_all (by decide))⟩, fun j hj => ?_⟩
  · unfold ResizeBitCast
    show (copyLanes _ 0 (fresh 0 16) 0 8 >>= _) = _
    rw [e]
    rfl
  · have h1 := hr j
    unfold lane
    rw [List.getD_eq_getElem?_getD, h1]
    beta_reduce
    by_cases h : j < 8
    · rw [if_pos (by omega), if_pos h, show 0 + (j - 0) = j by omega, hv.some (show 8 ≤ cap u8 by decide) h]
      rfl
    · rw [if_neg (by omega), if_neg h]
      have hj' : j < 16 := hj
      unfold fresh
      rw [List.getElem?_replicate, if_pos hj']
      rfl

/-- Eight bytes of rotated lanes from the bytes of one lane repeated. -/
theorem run_rot_half (ar : Bool) {X : Int} {src idx sh : List Int} {C : Nat → Int} (hC : ∀ k, 0 ≤ C k ∧ C k < 64)
    (hsrc : Is u8 16 src (fun j => byteAt X (j % 8)))
    (hidx : Is u8 16 idx (fun j => if j % 2 = 0 then C (j / 2) / 8 else C (j / 2) / 8 + 1))
    (hsh : Is u16 8 sh (fun k => C k % 8)) :
    Runs u8 16 (do
      let seg ← TableBytes 16 src idx
      let e ← Shr ar u16 8 (BitCast u8 u16 seg) sh
      ConcatEven 0 16 8 (zero u8) (BitCast u16 u8 e)) (fun j => if j < 8 then rotByte X (C j) else 0) := by
  have m8 : u8 ∈ laneTys := by decide
  have m16 : u16 ∈ laneTys := by decide
  refine Runs.bind (xtable (by decide) hsrc hidx fun j hj => ?_) fun seg hseg => ?_
  · have := hC (j / 2)
    beta_reduce
    split_ifs <;> push_cast <;> omega
  have hw := is_bc_wide (N := 8) hseg m8 m16 rfl (by decide)
  refine Runs.bind (xshrv m16 (by decide) ar hw hsh fun k hk => ?_) fun e he => ?_
  · have := hC k
    show 0 ≤ C k % 8 ∧ C k % 8 < 16
    omega
  have hb := is_bytes m16 (m := 2) rfl (by decide) he
  refine Runs.congr (xconcateven m8 (H := 8) (by decide) (is_zero m8 16) hb) fun j hj => ?_
  beta_reduce
  by_cases h : j < 8
  · rw [if_pos h, if_pos h, show 2 * j / 2 = j by omega, show 2 * j % 2 = 0 by omega, show (2 * j + 1) / 2 = j by omega,
      if_pos rfl, if_neg (by omega), show 2 * j / 2 = j by omega]
    have hc := hC j
    have hr1 := byteAt_range X ((C j / 8).toNat % 8)
    have hr2 := byteAt_range X ((C j / 8 + 1).toNat % 8)
    have e1 : (C j / 8).toNat % 8 = (C j).toNat / 8 := by omega
    have e2 : (C j / 8 + 1).toNat % 8 = ((C j).toNat / 8 + 1) % 8 := by omega
    have e3 : (C j % 8).toNat = (C j).toNat % 8 := by omega
    have hw' : u16.wrap (byteAt X ((C j / 8).toNat % 8) % 2 ^ u8.bits + 2 ^ u8.bits * byteAt X ((C j / 8 + 1).toNat % 8)) =
        byteAt X ((C j / 8).toNat % 8) + 256 * byteAt X ((C j / 8 + 1).toNat % 8) := by
      show u16.wrap (_ % 256 + 256 * _) = _
      rw [Int.emod_eq_of_lt hr1.1 (by omega)]
      exact wrap_has' m16 ⟨by show (0 : Int) ≤ _; omega, by show _ ≤ (65535 : Int); omega⟩
    rw [hw', e1, e2, e3]
    show _ / 256 ^ 0 % 256 = _
    rw [pow_zero, Int.ediv_one, rot_byte X (show (C j).toNat < 64 by omega)]
    unfold rotByte
    rw [show (C j % 64).toNat = (C j).toNat by omega]
  · rw [if_neg h, if_neg h]

/-- The masked indices. -/
theorem idx63 : ∀ c : Fin 256, u8.ofBits (bitsOf u8 63 &&& bitsOf u8 (c : Int)) = (c : Int) % 64 := by decide +kernel
theorem idx7 : ∀ c : Fin 64, u8.ofBits (bitsOf u8 7 &&& bitsOf u8 (c : Int)) = (c : Int) % 8 := by decide +kernel

/-- The four index vectors, common to both sizes. -/
theorem run_idx (ar : Bool) {tI : Ty} (htI : tI = u8 ∨ tI = i8) {n : Nat} (hn : n ≤ 16) {idx : List Int} {I : Nat → Int}
    (hi : Is tI n idx I) :
    ∃ k7 k63 m b o hb s, Set u8 n 0x07 = .ok k7 ∧ Set u8 n 0x3F = .ok k63 ∧ And u8 n k63 (BitCast tI u8 idx) = .ok m ∧
      ShiftRight ar u8 n 3 m = .ok b ∧ Set u8 n 1 = .ok o ∧ Add u8 n b o = .ok hb ∧ And u8 n k7 m = .ok s ∧
      Is u8 n b (fun j => I j % 64 / 8) ∧ Is u8 n hb (fun j => I j % 64 / 8 + 1) ∧ Is u8 n s (fun j => I j % 64 % 8) := by
  have m8 : u8 ∈ laneTys := by decide
  have hn8 : n ≤ cap u8 := hn
  have hIb : u8.bits = tI.bits := by rcases htI with rfl | rfl <;> rfl
  have hc := is_bc_same hi m8 hIb hn8
  obtain ⟨k7, e1, h1⟩ := xset m8 hn8 (by decide : u8.Has 7)
  obtain ⟨k63, e2, h2⟩ := xset m8 hn8 (by decide : u8.Has 63)
  obtain ⟨m, e3, h3⟩ := xand m8 hn8 h2 hc
  have h3' : Is u8 n m (fun j => I j % 64) := is_congr h3 fun j _ => by
    have hr : 0 ≤ u8.wrap (I j) ∧ u8.wrap (I j) ≤ 255 := has_wrap' m8 _
    have em : u8.wrap (I j) % 64 = I j % 64 := (modEq_wrap u8 (I j)).of_dvd (by decide)
    obtain ⟨c, hc⟩ := Int.eq_ofNat_of_zero_le hr.1
    beta_reduce
    rw [← em]
    rw [hc] at hr ⊢
    exact idx63 ⟨c, by omega⟩
  obtain ⟨b, e4, h4⟩ := xshr m8 hn8 ar (show (0 : Int) ≤ 3 by decide) (by decide) h3'
  obtain ⟨o, e5, h5⟩ := xset m8 hn8 (by decide : u8.Has 1)
  obtain ⟨hb, e6, h6⟩ := xadd m8 hn8 h4 h5
  obtain ⟨s, e7, h7⟩ := xand m8 hn8 h1 h3'
  refine ⟨k7, k63, m, b, o, hb, s, e1, e2, e3, e4, e5, e6, e7, is_congr h4 fun j _ => rfl, is_congr h6 fun j _ => ?_,
    is_congr h7 fun j _ => ?_⟩
  · have : 0 ≤ I j % 64 ∧ I j % 64 < 64 := by omega
    exact wrap_has' m8 ⟨by show (0 : Int) ≤ I j % 64 / 8 + 1; omega, by show I j % 64 / 8 + 1 ≤ (255 : Int); omega⟩
  · have hr : 0 ≤ I j % 64 ∧ I j % 64 < 64 := by omega
    obtain ⟨c, hc⟩ := Int.eq_ofNat_of_zero_le hr.1
    beta_reduce
    rw [hc] at hr ⊢
    exact idx7 ⟨c, by omega⟩

/-- The bytes of a register all of whose lanes are `X`. -/
theorem dup_bytes {t : Ty} (ht : t = u64 ∨ t = i64) {w : List Int} {X : Int} (hw : Is t 2 w (fun _ => X)) :
    Is u8 16 (BitCast t u8 w) (fun j => byteAt X (j % 8)) := by
  rcases ht with rfl | rfl
  · exact is_bytes (by decide) (m := 8) rfl (by decide) hw
  · exact is_bytes (by decide) (m := 8) rfl (by decide) hw

/-- Interleaving the index bytes. -/
theorem ilower_idx {lo hi : List Int} {A B : Nat → Int} (hlo : Is u8 16 lo A) (hhi : Is u8 16 hi B) :
    Runs u8 16 (InterleaveLower 0 16 16 lo hi) (fun j => if j % 2 = 0 then A (j / 2) else B (j / 2)) :=
  xilower (by decide) (by decide) hlo hhi (by decide)

theorem iupper_idx {lo hi : List Int} {A B : Nat → Int} (hlo : Is u8 16 lo A) (hhi : Is u8 16 hi B) :
    Runs u8 16 (InterleaveUpper 0 16 8 lo hi) (fun j => if j % 2 = 0 then A (8 + j / 2) else B (8 + j / 2)) :=
  xilupper (by decide) (by decide) hlo hhi (by decide)

/-- The result: lane `i` has the bytes `R i`. -/
def RotLanes (t : Ty) (N : Nat) (r : M (List Int)) (R : Nat → Nat → Int) : Prop :=
  ∃ v, r = .ok v ∧ Reg t v ∧ ∀ i, i < N → ∀ k, k < 8 → byteAt (lane v i) k = R i k

theorem run_mrr1 (ar : Bool) {t tI : Ty} (ht : t = u64 ∨ t = i64) (htI : tI = u8 ∨ tI = i8)
    {v idx : List Int} {F I : Nat → Int} (hv : Is t 1 v F) (hi : Is tI 8 idx I) :
    RotLanes t 1 (MultiRotateRight1 ar t tI v idx) (fun i k => rotByte (F i) (I (8 * i + k))) := by
  have h : t ∈ laneTys := by rcases ht with rfl | rfl <;> decide
  have h8 : t.bits = 8 * 8 := by rcases ht with rfl | rfl <;> rfl
  have hc : cap t = 2 := by rcases ht with rfl | rfl <;> rfl
  have m8 : u8 ∈ laneTys := by decide
  obtain ⟨k7, k63, m, b, o, hb, s, e1, e2, e3, e4, e5, e6, e7, i1, i2, i3⟩ := run_idx ar htI (by decide) hi
  obtain ⟨w, ew, iw⟩ := run_resize (tT := t) (is_bytes h h8 (by omega) hv)
  obtain ⟨lo, elo, ilo⟩ := run_resize (tT := u8) (is_bytes m8 (m := 1) rfl (by decide) i1)
  obtain ⟨hi', ehi, ihi⟩ := run_resize (tT := u8) (is_bytes m8 (m := 1) rfl (by decide) i2)
  have b1 : ∀ {z : List Int} {G : Nat → Int}, Is u8 16 z G → Is u8 16 (BitCast u8 u8 z) G := fun hz =>
    is_congr (is_bc_same hz m8 rfl (by decide)) fun j hj => wrap_has' m8 (hz.has (by decide) hj)
  have hwl : Is t 2 (BitCast u8 t w) (fun i => lane (BitCast u8 t w) i) := Is.refl (bitcast_reg h w)
  obtain ⟨ev, eev, iev⟩ := xdupeven h (by omega) hwl
  obtain ⟨ei, eei, iei⟩ := ilower_idx (b1 ilo) (b1 ihi)
  obtain ⟨ps, eps, ips⟩ := xpromote (tT := u16) i3 m8 (by decide) (by decide) (by decide) (by decide)
  have hX : ∀ k, k < 8 → byteAt (lane (BitCast u8 t w) 0) k = byteAt (F 0) k := fun k hk => by
    rw [bytes_lane h h8 (N := 2) (by omega) iw (by decide) hk]
    beta_reduce
    rw [if_pos (by omega), show (8 * 0 + k) / 8 = 0 by omega, show (8 * 0 + k) % 8 = k by omega]
  have hsrc : Is u8 16 (BitCast t u8 ev) (fun j => byteAt (F 0) (j % 8)) :=
    is_congr (dup_bytes ht (X := lane (BitCast u8 t w) 0) (is_congr iev fun i hi => by
      rw [show 2 * (i / 2) = 0 by omega])) fun j _ => hX _ (by omega)
  obtain ⟨cc, ecc, icc⟩ := run_rot_half ar (C := fun k => I k % 64) (fun k => by omega) hsrc
    (is_congr iei fun j hj => by
      have : j / 2 < 8 := by omega
      beta_reduce
      have e : ∀ y : Int, 0 ≤ y → y < 256 → byteAt y 0 = y := fun y h0 h1 => by unfold byteAt; rw [pow_zero, Int.ediv_one]; omega
      rw [if_pos this, if_pos this, Nat.div_one, Nat.mod_one, e _ (by omega) (by omega), e _ (by omega) (by omega)]) ips
  obtain ⟨r, er, ir⟩ := xlower (Is.refl (bitcast_reg h cc) : Is t 2 (BitCast u8 t cc) _) h (by omega) (H := 1) (by decide)
  refine ⟨r, ?_, ir.1, fun i hi k hk => ?_⟩
  · obtain ⟨sg, esg, q⟩ := bind_ok ecc
    obtain ⟨ex, eex, q⟩ := bind_ok q
    unfold MultiRotateRight1
    rw [e1, okb, e2, okb, e3, okb, e4, okb, e5, okb, e6, okb, e7, okb, ew, okb, eev, okb, elo, okb, ehi, okb, eei, okb, esg, okb,
      eps, okb, eex, okb, q, okb]
    rw [hc] at er
    exact er
  · have hi0 : i = 0 := by omega
    subst hi0
    rw [ir.2 0 (by decide), bytes_lane h h8 (N := 2) (by omega) icc (by decide) hk]
    beta_reduce
    rw [if_pos (by omega)]
    show rotByte (F 0) (I (8 * 0 + k) % 64) = _
    unfold rotByte
    rw [Int.emod_emod_of_dvd _ dvd_rfl]

theorem run_mrr2 (ar : Bool) {t tI : Ty} (ht : t = u64 ∨ t = i64) (htI : tI = u8 ∨ tI = i8)
    {v idx : List Int} {F I : Nat → Int} (hv : Is t 2 v F) (hi : Is tI 16 idx I) :
    RotLanes t 2 (MultiRotateRight2 ar t tI v idx) (fun i k => rotByte (F i) (I (8 * i + k))) := by
  have h : t ∈ laneTys := by rcases ht with rfl | rfl <;> decide
  have h8 : t.bits = 8 * 8 := by rcases ht with rfl | rfl <;> rfl
  have hc : cap t = 2 := by rcases ht with rfl | rfl <;> rfl
  have m8 : u8 ∈ laneTys := by decide
  have m16 : u16 ∈ laneTys := by decide
  obtain ⟨k7, k63, m, b, o, hb, s, e1, e2, e3, e4, e5, e6, e7, i1, i2, i3⟩ := run_idx ar htI (by decide) hi
  have zsh : ∀ {z : List Int} {G : Nat → Int}, Is u8 16 z (fun j => if j % 2 = 0 then G (j / 2) % 64 % 8 else 0) →
      Is u16 8 (BitCast u8 u16 z) (fun k => G k % 64 % 8) := fun {z G} hz =>
    is_congr (is_bc_wide (N := 8) hz m8 m16 rfl (by decide)) fun k hk => by
      rw [if_pos (by omega), if_neg (by omega), show 2 * k / 2 = k by omega]
      show u16.wrap (G k % 64 % 8 % 256 + 256 * 0) = _
      rw [mul_zero, add_zero, Int.emod_eq_of_lt (by omega) (by omega)]
      exact wrap_has' m16 ⟨by show (0 : Int) ≤ G k % 64 % 8; omega, by show G k % 64 % 8 ≤ (65535 : Int); omega⟩
  obtain ⟨ev, eev, iev⟩ := xdupeven h (by omega) hv
  obtain ⟨od, eod, iod⟩ := xdupodd h (by omega) hv (by decide)
  obtain ⟨ei, eei, iei⟩ := ilower_idx i1 i2
  obtain ⟨oi, eoi, ioi⟩ := iupper_idx i1 i2
  obtain ⟨zl, ezl, izl⟩ := ilower_idx i3 (is_zero m8 16)
  obtain ⟨zu, ezu, izu⟩ := iupper_idx i3 (is_zero m8 16)
  have hs0 : Is u8 16 (BitCast t u8 ev) (fun j => byteAt (F 0) (j % 8)) :=
    dup_bytes ht (is_congr iev fun i hi => by rw [show 2 * (i / 2) = 0 by omega])
  have hs1 : Is u8 16 (BitCast t u8 od) (fun j => byteAt (F 1) (j % 8)) :=
    dup_bytes ht (is_congr iod fun i hi => by rw [show 2 * (i / 2) + 1 = 1 by omega])
  obtain ⟨c0, ec0, ic0⟩ := run_rot_half ar (C := fun k => I k % 64) (fun k => by omega) hs0 iei (zsh izl)
  obtain ⟨c1, ec1, ic1⟩ := run_rot_half ar (C := fun k => I (8 + k) % 64) (fun k => by omega) hs1 ioi (zsh (G := fun k => I (8 + k)) izu)
  obtain ⟨r, er, ir⟩ := xilower h (N := 2) (by omega) (Is.refl (bitcast_reg h c0) : Is t 2 (BitCast u8 t c0) _)
    (Is.refl (bitcast_reg h c1) : Is t 2 (BitCast u8 t c1) _) (by decide)
  refine ⟨r, ?_, ir.1, fun i hi k hk => ?_⟩
  · obtain ⟨sg, esg, q⟩ := bind_ok ec0
    obtain ⟨ex, eex, q⟩ := bind_ok q
    obtain ⟨sg1, esg1, q1⟩ := bind_ok ec1
    obtain ⟨ex1, eex1, q1⟩ := bind_ok q1
    unfold MultiRotateRight2 ZipLower8 ZipUpper8
    rw [e1, okb, e2, okb, e3, okb, e4, okb, e5, okb, e6, okb, e7, okb, eev, okb, eei, okb, esg, okb]
    rw [ezl, okb]
    change (Shr ar u16 8 (BitCast u8 u16 sg) (BitCast u8 u16 zl) >>= _) = _
    rw [eex, okb, eod, okb, eoi, okb, esg1, okb, ezu, okb]
    change (Shr ar u16 8 (BitCast u8 u16 sg1) (BitCast u8 u16 zu) >>= _) = _
    rw [eex1, okb, q, okb, q1, okb]
    rw [hc] at er
    exact er
  · have key : ∀ (X : Int) (J : Nat → Int) (cc : List Int), Is u8 16 cc (fun j => if j < 8 then rotByte X (J j % 64) else 0) →
        byteAt (lane (BitCast u8 t cc) 0) k = rotByte X (J k) := fun X J cc hcc => by
      rw [bytes_lane h h8 (N := 2) (by omega) hcc (by decide) hk]
      beta_reduce
      rw [if_pos (by omega), show 8 * 0 + k = k by omega]
      unfold rotByte
      rw [Int.emod_emod_of_dvd _ dvd_rfl]
    rw [ir.2 i hi]
    have h01 : i = 0 ∨ i = 1 := by omega
    rcases h01 with rfl | rfl
    · show byteAt (lane (BitCast u8 t c0) 0) k = _
      rw [key (F 0) I c0 ic0]
      beta_reduce
      rw [show 8 * 0 + k = k by omega]
    · show byteAt (lane (BitCast u8 t c1) 0) k = _
      rw [key (F 1) (fun k => I (8 + k)) c1 ic1]

/-- `MultiRotateRight(v, idx)`: byte `k` of lane `i` of the result is the low byte of `v[i]` rotated right by `idx[8 * i + k]`
(modulo 64). -/
theorem C58_multi_rotate_right (ar : Bool) {t tI : Ty} (ht : t = u64 ∨ t = i64) (htI : tI = u8 ∨ tI = i8) {N : Nat} (hN : N = 1 ∨ N = 2)
    {v idx : List Int} (hv : Reg t v) (hi : Reg tI idx) :
    ∃ r, MultiRotateRight ar t tI N v idx = .ok r ∧ Reg t r ∧ ∀ i, i < N → ∀ k, k < 8 →
      (bitsOf t (lane r i)).extractLsb' (8 * k) 8 =
        ((bitsOf t (lane v i)).rotateRight (lane idx (8 * i + k) % 64).toNat).extractLsb' 0 8 := by
  have key : RotLanes t N (MultiRotateRight ar t tI N v idx) (fun i k => rotByte (lane v i) (lane idx (8 * i + k))) := by
    unfold MultiRotateRight
    rcases hN with rfl | rfl
    · exact run_mrr1 ar ht htI (Is.refl hv) (Is.refl hi)
    · exact run_mrr2 ar ht htI (Is.refl hv) (Is.refl hi)
  obtain ⟨r, e, hr, hb⟩ := key
  refine ⟨r, e, hr, fun i hi k hk => ?_⟩
  have h1 := hb i hi k hk
  apply BitVec.eq_of_toNat_eq
  rw [BitVec.extractLsb'_toNat, BitVec.extractLsb'_toNat, Nat.shiftRight_zero, Nat.shiftRight_eq_div_pow]
  have h2 : ((bitsOf t (lane r i)).toNat / 2 ^ (8 * k) % 2 ^ 8 : Nat) = byteAt (lane r i) k := by
    have hw : t.bits = 64 := by rcases ht with rfl | rfl <;> rfl
    have e1 : byteAt (lane r i) k = byteAt (lane r i % 2 ^ t.bits) k :=
      byteAt_congr (m := 8) hw (Int.mod_modEq _ _).symm hk
    rw [e1]
    unfold bitsOf byteAt
    rw [BitVec.toNat_ofInt]
    push_cast
    rw [Int.toNat_of_nonneg (Int.emod_nonneg _ (by positivity)), pow_256]
  have h3 : (((bitsOf t (lane v i)).rotateRight (lane idx (8 * i + k) % 64).toNat).toNat % 2 ^ 8 : Nat) =
      rotByte (lane v i) (lane idx (8 * i + k)) := by
    rcases ht with rfl | rfl <;> rfl
  have h4 : (((bitsOf t (lane r i)).toNat / 2 ^ (8 * k) % 2 ^ 8 : Nat) : Int) =
      (((bitsOf t (lane v i)).rotateRight (lane idx (8 * i + k) % 64).toNat).toNat % 2 ^ 8 : Nat) := by
    rw [h2, h1, h3]
  exact_mod_cast h4

end Emu
end Hwy
