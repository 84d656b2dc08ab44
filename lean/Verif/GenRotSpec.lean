import Verif.GenBytes
import Verif.GenLzcntSpec

/-!
# C58: rotations rotate by the count modulo the lane size, for every count
-/

namespace Hwy
namespace Emu
open CInt

theorem is_congr {t : Ty} {N : Nat} {v : List Int} {F G : Nat → Int} (h : Is t N v F) (e : ∀ i, i < N → F i = G i) :
    Is t N v G := ⟨h.1, fun i hi => by rw [h.2 i hi, e i hi]⟩

/-- `x & (w - 1)` is the remainder modulo the width `w`. -/
theorem and_mask {t : Ty} (h : t ∈ laneTys) (x : Int) :
    t.unsigned.ofBits (bitsOf t.unsigned x &&& bitsOf t.unsigned ((t.bits : Int) - 1)) = x % t.bits := by
  have key : ∀ (w k : Nat), w = 2 ^ k → w ≤ 2 ^ w - 1 →
      (((BitVec.ofInt w x &&& BitVec.ofInt w ((w : Int) - 1)).toNat : Nat) : Int) = x % w := by
    intro w k hw hle
    have hp : 0 < w := by rw [hw]; positivity
    have h1 : ((w : Int) - 1) = ((w - 1 : Nat) : Int) := by omega
    have hlt : w - 1 < 2 ^ w := by omega
    have hx : (0 : Int) ≤ x % ((2 ^ w : Nat) : Int) := Int.emod_nonneg _ (by positivity)
    rw [BitVec.toNat_and, h1, BitVec.toNat_ofInt, BitVec.toNat_ofInt,
      show (((w - 1 : Nat) : Int) % ((2 ^ w : Nat) : Int)).toNat = 2 ^ k - 1 by
        rw [Int.emod_eq_of_lt (by omega) (by exact_mod_cast hlt), Int.toNat_natCast, ← hw],
      Nat.and_two_pow_sub_one_eq_mod, ← hw]
    push_cast
    rw [Int.toNat_of_nonneg (by exact_mod_cast hx)]
    refine Int.emod_emod_of_dvd _ ?_
    have : (w : Int) ∣ 2 ^ w := by
      conv_lhs => rw [hw]
      push_cast
      exact pow_dvd_pow _ (by rw [hw]; exact Nat.lt_two_pow_self.le)
    exact this
  have hb : t.bits = 8 ∨ t.bits = 16 ∨ t.bits = 32 ∨ t.bits = 64 := by revert h; revert t; decide
  show (((BitVec.ofInt t.bits x &&& BitVec.ofInt t.bits ((t.bits : Int) - 1)).toNat : Nat) : Int) = x % t.bits
  rcases hb with hb | hb | hb | hb <;> rw [hb]
  · exact key 8 3 rfl (by norm_num)
  · exact key 16 4 rfl (by norm_num)
  · exact key 32 5 rfl (by norm_num)
  · exact key 64 6 rfl (by norm_num)

theorem rotl_core {w : Nat} (x : BitVec w) {s r : Nat} (hs : s < w) (hr : r = (w - s) % w) :
    x <<< s ||| x >>> r = x.rotateLeft s := by
  rw [BitVec.rotateLeft_def, Nat.mod_eq_of_lt hs]
  by_cases h0 : s = 0
  · subst h0
    rw [hr, Nat.sub_zero, Nat.mod_self]
    simp [BitVec.ushiftRight_eq_zero]
  · rw [hr, Nat.mod_eq_of_lt (by omega)]

theorem rotr_core {w : Nat} (x : BitVec w) {s r : Nat} (hs : s < w) (hr : r = (w - s) % w) :
    x <<< r ||| x >>> s = x.rotateRight s := by
  rw [BitVec.rotateRight_def, Nat.mod_eq_of_lt hs]
  by_cases h0 : s = 0
  · subst h0
    rw [hr, Nat.sub_zero, Nat.mod_self]
    simp [BitVec.shiftLeft_eq_zero]
  · rw [hr, Nat.mod_eq_of_lt (by omega), BitVec.or_comm]

theorem bits_dvd {t : Ty} (h : t ∈ laneTys) : (t.bits : Int) ∣ 2 ^ t.bits := by
  revert h; revert t; decide +kernel

theorem neg_mod {t : Ty} (h : t ∈ laneTys) (g : Int) :
    ((-g) % t.bits).toNat = (t.bits - (g % t.bits).toNat) % t.bits ∧ (g % t.bits).toNat < t.bits ∧
    (g % t.bits).toNat = (t.bits - ((-g) % t.bits).toNat) % t.bits := by
  have hb : t.bits = 8 ∨ t.bits = 16 ∨ t.bits = 32 ∨ t.bits = 64 := by revert h; revert t; decide
  rcases hb with hb | hb | hb | hb <;> rw [hb] <;> omega

theorem bits_shl {t : Ty} (x : Int) (k : Nat) : bitsOf t (x * 2 ^ k) = bitsOf t x <<< k := ofInt_mul_pow _ _ _

theorem bits_shr {t : Ty} (hu : t.sgn = false) {x : Int} (hx : t.Has x) (k : Nat) : bitsOf t (x / 2 ^ k) = bitsOf t x >>> k :=
  ofInt_div (has_u hu hx).1 (has_u hu hx).2 k

section
variable {t : Ty} (h : t ∈ laneTys) {N : Nat} (hN : N ≤ cap t) {a b : List Int} {F G : Nat → Int} (ha : Is t N a F)
include h hN ha

/-- Both shifts and their union. -/
theorem run_rot (ar : Bool) {x y : List Int} {S R : Nat → Nat}
    (hx : Is t.unsigned N x (fun i => ((S i : Nat) : Int))) (hy : Is t.unsigned N y (fun i => ((R i : Nat) : Int)))
    (hS : ∀ i, i < N → S i < t.bits) (hR : ∀ i, i < N → R i < t.bits) :
    Runs t N (do
      let p ← Shl t.unsigned N (BitCast t t.unsigned a) x
      let q ← Shr ar t.unsigned N (BitCast t t.unsigned a) y
      let r ← Or t.unsigned N p q
      return BitCast t.unsigned t r) (fun i => t.ofBits (bitsOf t (F i) <<< S i ||| bitsOf t (F i) >>> R i)) := by
  obtain ⟨hu, hus, hub, huc⟩ := unsigned_facts h
  have hN' : N ≤ cap t.unsigned := by omega
  have hv := is_bc_same ha hu hub hN'
  refine Runs.bind (xshlv hu hN' hv hx fun i hi => ⟨by positivity, by rw [hub]; exact_mod_cast hS i hi⟩) fun p hp => ?_
  refine Runs.bind (xshrv hu hN' ar hv hy fun i hi => ⟨by positivity, by rw [hub]; exact_mod_cast hR i hi⟩) fun q hq => ?_
  refine Runs.bind (xor' hu hN' hp hq) fun r hr => ?_
  refine Runs.congr (Runs.ret (is_bc_same hr h hub.symm hN)) fun i hi => ?_
  refine bits_unique h (has_wrap' h _) ?_
  rw [bitsOf_wrap t (bits_pos h)]
  show bitsOf t.unsigned _ = _
  rw [bits_ofBits hu, bitsOf_wrap _ (bits_pos hu), Int.toNat_natCast, Int.toNat_natCast, bits_shl,
    bits_shr hus (has_wrap' hu _), bitsOf_wrap _ (bits_pos hu)]
  rfl

variable (hb : Is t N b G)
include hb

omit ha in
theorem run_amts : ∃ m, Set t.unsigned N ((t.bits : Int) - 1) = .ok m ∧
    Runs t.unsigned N (And t.unsigned N (BitCast t t.unsigned b) m) (fun i => (((G i % t.bits).toNat : Nat) : Int)) ∧
    Runs t.unsigned N (do
      let n ← Neg t.signed N (BitCast t t.signed b)
      And t.unsigned N (BitCast t.signed t.unsigned n) m) (fun i => ((((-G i) % t.bits).toNat : Nat) : Int)) := by
  obtain ⟨hu, hus, hub, huc⟩ := unsigned_facts h
  have hN' : N ≤ cap t.unsigned := by omega
  have hs' : ∀ t ∈ laneTys, t.signed ∈ laneTys ∧ t.signed.bits = t.bits ∧ cap t.signed = cap t := by decide
  have hs := hs' t h
  have hm' : ∀ t ∈ laneTys, t.unsigned.Has ((t.bits : Int) - 1) := by decide +kernel
  have hm := hm' t h
  have hbp : (0 : Int) < t.bits := by have := bits_pos h; omega
  obtain ⟨m, em, im⟩ := xset hu hN' hm
  refine ⟨m, em, ?_, ?_⟩
  · refine Runs.congr (xand hu hN' (is_bc_same hb hu hub hN') im) fun i hi => ?_
    beta_reduce
    rw [bitsOf_wrap _ (bits_pos hu), and_mask h, Int.toNat_of_nonneg (Int.emod_nonneg _ hbp.ne')]
  · refine Runs.bind (xneg hs.1 (by omega) (is_bc_same hb hs.1 hs.2.1 (by omega))) fun n hn => ?_
    refine Runs.congr (xand hu hN' (is_bc_same hn hu (by rw [hub, hs.2.1]) hN') im) fun i hi => ?_
    beta_reduce
    rw [bitsOf_wrap _ (bits_pos hu), and_mask h, Int.toNat_of_nonneg (Int.emod_nonneg _ hbp.ne')]
    have e1 := (modEq_wrap t.signed (-(t.signed.wrap (G i)))).trans (modEq_wrap t.signed (G i)).neg
    rw [hs.2.1] at e1
    exact e1.of_dvd (bits_dvd h)

theorem run_rol (ar : Bool) :
    Runs t N (Rol ar t N a b) (fun i => t.ofBits ((bitsOf t (F i)).rotateLeft (G i % t.bits).toNat)) := by
  obtain ⟨m, em, h1, h2⟩ := run_amts h hN hb
  unfold Rol
  dsimp only
  rw [em]
  change Runs t N (And t.unsigned N (BitCast t t.unsigned b) m >>= _) _
  refine Runs.bind h1 fun x hx => ?_
  rw [← bind_assoc]
  refine Runs.bind h2 fun y hy => ?_
  refine Runs.congr (run_rot h hN ha ar hx hy (fun i _ => (neg_mod h (G i)).2.1)
    (fun i _ => by have := (neg_mod h (-(G i))).2.1; exact this)) fun i _ => ?_
  beta_reduce
  rw [rotl_core _ (neg_mod h (G i)).2.1 (neg_mod h (G i)).1]

theorem run_ror (ar : Bool) :
    Runs t N (Ror ar t N a b) (fun i => t.ofBits ((bitsOf t (F i)).rotateRight (G i % t.bits).toNat)) := by
  obtain ⟨m, em, h1, h2⟩ := run_amts h hN hb
  unfold Ror
  dsimp only
  rw [em]
  change Runs t N (And t.unsigned N (BitCast t t.unsigned b) m >>= _) _
  refine Runs.bind h1 fun x hx => ?_
  rw [← bind_assoc]
  refine Runs.bind h2 fun y hy => ?_
  refine Runs.congr (run_rot h hN ha ar hy hx
    (fun i _ => by have := (neg_mod h (-(G i))).2.1; exact this) (fun i _ => (neg_mod h (G i)).2.1)) fun i _ => ?_
  beta_reduce
  rw [rotr_core _ (neg_mod h (G i)).2.1 (neg_mod h (G i)).1]

end

section
variable {t : Ty} (h : t ∈ laneTys) {N : Nat} (hN : N ≤ cap t)
include h hN

/-- `Rol(a, b)`: the bits of `a[i]` rotated left by `b[i]` modulo the lane size (negative counts rotate right). -/
theorem C58_rol (ar : Bool) {a b : List Int} (ha : Reg t a) (hb : Reg t b) :
    Lanes t N (Rol ar t N a b) (fun i r => bitsOf t r = (bitsOf t (lane a i)).rotateLeft (lane b i % t.bits).toNat) :=
  (run_rol h hN (Is.refl ha) (Is.refl hb) ar).lanes hN fun i _ _ => bits_ofBits h _

/-- `Ror(a, b)`. -/
theorem C58_ror (ar : Bool) {a b : List Int} (ha : Reg t a) (hb : Reg t b) :
    Lanes t N (Ror ar t N a b) (fun i r => bitsOf t r = (bitsOf t (lane a i)).rotateRight (lane b i % t.bits).toNat) :=
  (run_ror h hN (Is.refl ha) (Is.refl hb) ar).lanes hN fun i _ _ => bits_ofBits h _

end

/-! ### The same count for all lanes -/

theorem rotAmt_eq {t : Ty} (h : t ∈ laneTys) {k : Int} (hk : i32.Has k) : rotAmt t.bits k = k % t.bits := by
  have hb : t.bits = 8 ∨ t.bits = 16 ∨ t.bits = 32 ∨ t.bits = 64 := by revert h; revert t; decide
  unfold rotAmt band bitOp Val.bv
  show i32.ofBits (BitVec.ofInt 32 k &&& BitVec.ofInt 32 ((t.bits : Int) - 1)) = _
  have key : ∀ (w j : Nat), w = 2 ^ j → w ≤ 64 → 0 < w → (w : Int) ∣ 4294967296 →
      i32.ofBits (BitVec.ofInt 32 k &&& BitVec.ofInt 32 ((w : Int) - 1)) = k % w := by
    intro w j hw hle hp hd
    have e : (BitVec.ofInt 32 k &&& BitVec.ofInt 32 ((w : Int) - 1)).toNat = (k % w).toNat := by
      have h1 : ((w : Int) - 1) = ((w - 1 : Nat) : Int) := by omega
      rw [BitVec.toNat_and, h1, BitVec.toNat_ofInt, BitVec.toNat_ofInt,
        show (((w - 1 : Nat) : Int) % ((2 ^ 32 : Nat) : Int)).toNat = 2 ^ j - 1 by
          rw [Int.emod_eq_of_lt (by omega) (by push_cast; omega), Int.toNat_natCast, ← hw],
        Nat.and_two_pow_sub_one_eq_mod, ← hw]
      have hx : (0 : Int) ≤ k % 4294967296 := by omega
      zify
      rw [show (2 : Int) ^ 32 = 4294967296 by norm_num, Int.toNat_of_nonneg hx,
        Int.toNat_of_nonneg (Int.emod_nonneg _ (by omega)), Int.emod_emod_of_dvd _ hd]
    have hlt : (k % w).toNat < 64 := by have := Int.emod_lt_of_pos k (show (0 : Int) < w by omega); omega
    refine (BitVec.toInt_eq_toNat_of_lt (x := BitVec.ofInt 32 k &&& BitVec.ofInt 32 ((w : Int) - 1)) (by rw [e]; omega)).trans ?_
    rw [e, Int.toNat_of_nonneg (Int.emod_nonneg _ (by omega))]
  rcases hb with hb | hb | hb | hb <;> rw [hb]
  · exact key 8 3 rfl (by norm_num) (by norm_num) (by norm_num)
  · exact key 16 4 rfl (by norm_num) (by norm_num) (by norm_num)
  · exact key 32 5 rfl (by norm_num) (by norm_num) (by norm_num)
  · exact key 64 6 rfl (by norm_num) (by norm_num) (by norm_num)

theorem negRotAmt_eq {t : Ty} (h : t ∈ laneTys) {k : Int} (hk : i32.Has k) : negRotAmt t.bits k = .ok ((-k) % t.bits) := by
  have hb : t.bits = 8 ∨ t.bits = 16 ∨ t.bits = 32 ∨ t.bits = 64 := by revert h; revert t; decide
  have hu : sub ⟨u32, 0⟩ (CInt.cast u32 ⟨i32, k⟩) = .ok ⟨u32, u32.wrap (u32.wrap 0 - u32.wrap (u32.wrap k))⟩ := rfl
  have hw : u32.wrap (u32.wrap 0 - u32.wrap (u32.wrap k)) ≡ -k [ZMOD 4294967296] := by
    have e1 := modEq_wrap u32 (u32.wrap 0 - u32.wrap (u32.wrap k))
    have e2 := (modEq_wrap u32 0).sub ((modEq_wrap u32 (u32.wrap k)).trans (modEq_wrap u32 k))
    rw [zero_sub] at e2
    exact e1.trans e2
  unfold negRotAmt
  rw [hu]
  generalize u32.wrap (u32.wrap 0 - u32.wrap (u32.wrap k)) = y at hw
  have hcast : (CInt.cast i32 (band ⟨u32, y⟩ ⟨u32, (t.bits : Int) - 1⟩)).v =
    i32.wrap (u32.ofBits (BitVec.ofInt 32 y &&& BitVec.ofInt 32 ((t.bits : Int) - 1))) := rfl
  have hb2 : ∀ (a : Val) (f : Val → M Int), (Except.ok a >>= f) = f a := fun _ _ => rfl
  rw [hb2, hcast]
  refine congrArg Except.ok ?_
  have key : ∀ (w j : Nat), w = 2 ^ j → w ≤ 64 → 0 < w → (w : Int) ∣ 4294967296 →
      i32.wrap (u32.ofBits (BitVec.ofInt 32 y &&& BitVec.ofInt 32 ((w : Int) - 1))) = (-k) % w := by
    intro w j hw' hle hp hd
    have e : (BitVec.ofInt 32 y &&& BitVec.ofInt 32 ((w : Int) - 1)).toNat = ((-k) % w).toNat := by
      have h1 : ((w : Int) - 1) = ((w - 1 : Nat) : Int) := by omega
      rw [BitVec.toNat_and, h1, BitVec.toNat_ofInt, BitVec.toNat_ofInt,
        show (((w - 1 : Nat) : Int) % ((2 ^ 32 : Nat) : Int)).toNat = 2 ^ j - 1 by
          rw [Int.emod_eq_of_lt (by omega) (by push_cast; omega), Int.toNat_natCast, ← hw'],
        Nat.and_two_pow_sub_one_eq_mod, ← hw']
      have hx : (0 : Int) ≤ y % 4294967296 := by omega
      zify
      rw [show (2 : Int) ^ 32 = 4294967296 by norm_num, Int.toNat_of_nonneg hx,
        Int.toNat_of_nonneg (Int.emod_nonneg _ (by omega)), Int.emod_emod_of_dvd _ hd]
      exact hw.of_dvd hd
    have hlt : ((-k) % w).toNat < 64 := by have := Int.emod_lt_of_pos (-k) (show (0 : Int) < w by omega); omega
    show i32.wrap (((BitVec.ofInt 32 y &&& BitVec.ofInt 32 ((w : Int) - 1) : BitVec 32).toNat : Nat) : Int) = _
    rw [e, Int.toNat_of_nonneg (Int.emod_nonneg _ (by omega))]
    have h0 := Int.emod_nonneg (-k) (show (w : Int) ≠ 0 by omega)
    exact wrap_has' (by decide) ⟨by show (-2147483648 : Int) ≤ _; omega, by show _ ≤ (2147483647 : Int); omega⟩
  rcases hb with hb | hb | hb | hb <;> rw [hb]
  · exact key 8 3 rfl (by norm_num) (by norm_num) (by norm_num)
  · exact key 16 4 rfl (by norm_num) (by norm_num) (by norm_num)
  · exact key 32 5 rfl (by norm_num) (by norm_num) (by norm_num)
  · exact key 64 6 rfl (by norm_num) (by norm_num) (by norm_num)

section
variable {t : Ty} (h : t ∈ laneTys) {N : Nat} (hN : N ≤ cap t) {a : List Int} {F : Nat → Int} (ha : Is t N a F)
include h hN ha

theorem run_rot_same (ar : Bool) {s r : Int} (hs0 : 0 ≤ s) (hs : s < t.bits) (hr0 : 0 ≤ r) (hr : r < t.bits) :
    Runs t N (do
      let p ← ShiftLeft t.unsigned N s (BitCast t t.unsigned a)
      let q ← ShiftRight ar t.unsigned N r (BitCast t t.unsigned a)
      let r ← Or t.unsigned N p q
      return BitCast t.unsigned t r) (fun i => t.ofBits (bitsOf t (F i) <<< s.toNat ||| bitsOf t (F i) >>> r.toNat)) := by
  obtain ⟨hu, hus, hub, huc⟩ := unsigned_facts h
  have hN' : N ≤ cap t.unsigned := by omega
  have hv := is_bc_same ha hu hub hN'
  refine Runs.bind (xshl hu hN' hs0 (by rw [hub]; exact hs) hv) fun p hp => ?_
  refine Runs.bind (xshr hu hN' ar hr0 (by rw [hub]; exact hr) hv) fun q hq => ?_
  refine Runs.bind (xor' hu hN' hp hq) fun r hr => ?_
  refine Runs.congr (Runs.ret (is_bc_same hr h hub.symm hN)) fun i hi => ?_
  refine bits_unique h (has_wrap' h _) ?_
  rw [bitsOf_wrap t (bits_pos h)]
  show bitsOf t.unsigned _ = _
  rw [bits_ofBits hu, bitsOf_wrap _ (bits_pos hu), bits_shl,
    bits_shr hus (has_wrap' hu _), bitsOf_wrap _ (bits_pos hu)]
  rfl

end

section
variable {t : Ty} (h : t ∈ laneTys) {N : Nat} (hN : N ≤ cap t)
include h hN

/-- `RotateLeftSame(v, bits)`: every lane rotated left by `bits` modulo the lane size, for any `int`. -/
theorem C58_rotate_left_same (ar : Bool) {v : List Int} (hv : Reg t v) {k : Int} (hk : i32.Has k) :
    Lanes t N (RotateLeftSame ar t N v k) (fun i r => bitsOf t r = (bitsOf t (lane v i)).rotateLeft (k % t.bits).toNat) := by
  have hbp : (0 : Int) < t.bits := by have := bits_pos h; omega
  unfold RotateLeftSame
  dsimp only
  rw [rotAmt_eq h hk, negRotAmt_eq h hk]
  refine Runs.lanes (run_rot_same h hN (Is.refl hv) ar (Int.emod_nonneg _ hbp.ne') (Int.emod_lt_of_pos _ hbp)
    (Int.emod_nonneg _ hbp.ne') (Int.emod_lt_of_pos _ hbp)) hN fun i _ _ => ?_
  rw [bits_ofBits h, rotl_core _ (neg_mod h k).2.1 (neg_mod h k).1]

/-- `RotateRightSame(v, bits)`. -/
theorem C58_rotate_right_same (ar : Bool) {v : List Int} (hv : Reg t v) {k : Int} (hk : i32.Has k) :
    Lanes t N (RotateRightSame ar t N v k) (fun i r => bitsOf t r = (bitsOf t (lane v i)).rotateRight (k % t.bits).toNat) := by
  have hbp : (0 : Int) < t.bits := by have := bits_pos h; omega
  unfold RotateRightSame
  dsimp only
  rw [rotAmt_eq h hk, negRotAmt_eq h hk]
  refine Runs.lanes (run_rot_same h hN (Is.refl hv) ar (Int.emod_nonneg _ hbp.ne') (Int.emod_lt_of_pos _ hbp)
    (Int.emod_nonneg _ hbp.ne') (Int.emod_lt_of_pos _ hbp)) hN fun i _ _ => ?_
  rw [bits_ofBits h, rotr_core _ (neg_mod h k).2.1 (neg_mod h k).1]

end

end Emu
end Hwy
