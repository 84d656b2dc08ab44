import Verif.EmuArith
import Mathlib.Data.Int.ModEq

/-! # Lemmas for the model of `emu128-inl.h` integer operations -/

namespace Hwy
namespace CInt

theorem two_pow_split {n : Nat} (h : 0 < n) : (2 : Int) ^ n = 2 * 2 ^ (n - 1) := by
  rw [← pow_succ']; congr 1; omega

theorem wrap_emod (t : Ty) (x : Int) : t.wrap x % 2 ^ t.bits = x % 2 ^ t.bits := by
  unfold Ty.wrap
  split_ifs
  · have := Int.emod_add_mul_ediv (x + 2 ^ (t.bits - 1)) (2 ^ t.bits)
    have e : (x + 2 ^ (t.bits - 1)) % 2 ^ t.bits - 2 ^ (t.bits - 1)
      = x - 2 ^ t.bits * ((x + 2 ^ (t.bits - 1)) / 2 ^ t.bits) := by linarith
    rw [e, Int.sub_mul_emod_self_left]
  · exact Int.emod_emod_of_dvd _ (dvd_refl _)

theorem wrap_congr (t : Ty) {x y : Int} (h : x % 2 ^ t.bits = y % 2 ^ t.bits) :
    t.wrap x = t.wrap y := by
  unfold Ty.wrap
  split_ifs
  · rw [Int.add_emod, h, ← Int.add_emod]
  · exact h

theorem wrap_wrap_of_le (t s : Ty) (h : t.bits ≤ s.bits) (x : Int) : t.wrap (s.wrap x) = t.wrap x := by
  apply wrap_congr
  have hd : (2 : Int) ^ t.bits ∣ 2 ^ s.bits := pow_dvd_pow _ h
  rw [← Int.emod_emod_of_dvd (s.wrap x) hd, wrap_emod, Int.emod_emod_of_dvd _ hd]

theorem wrap_wrap_add (t s : Ty) (h : t.bits ≤ s.bits) (x y : Int) :
    t.wrap (s.wrap x + s.wrap y) = t.wrap (x + y) := by
  apply wrap_congr
  have hd : (2 : Int) ^ t.bits ∣ 2 ^ s.bits := pow_dvd_pow _ h
  have e : ∀ z, s.wrap z % 2 ^ t.bits = z % 2 ^ t.bits := fun z => by
    rw [← Int.emod_emod_of_dvd (s.wrap z) hd, wrap_emod, Int.emod_emod_of_dvd _ hd]
  rw [Int.add_emod, e, e, ← Int.add_emod]

theorem wrap_wrap_sub (t s : Ty) (h : t.bits ≤ s.bits) (x y : Int) :
    t.wrap (s.wrap x - s.wrap y) = t.wrap (x - y) := by
  apply wrap_congr
  have hd : (2 : Int) ^ t.bits ∣ 2 ^ s.bits := pow_dvd_pow _ h
  have e : ∀ z, s.wrap z % 2 ^ t.bits = z % 2 ^ t.bits := fun z => by
    rw [← Int.emod_emod_of_dvd (s.wrap z) hd, wrap_emod, Int.emod_emod_of_dvd _ hd]
  rw [Int.sub_emod, e, e, ← Int.sub_emod]

theorem wrap_wrap_mul (t s : Ty) (h : t.bits ≤ s.bits) (x y : Int) :
    t.wrap (s.wrap x * s.wrap y) = t.wrap (x * y) := by
  apply wrap_congr
  have hd : (2 : Int) ^ t.bits ∣ 2 ^ s.bits := pow_dvd_pow _ h
  have e : ∀ z, s.wrap z % 2 ^ t.bits = z % 2 ^ t.bits := fun z => by
    rw [← Int.emod_emod_of_dvd (s.wrap z) hd, wrap_emod, Int.emod_emod_of_dvd _ hd]
  rw [Int.mul_emod, e, e, ← Int.mul_emod]

theorem ofInt_eq_iff {n : Nat} {x y : Int} :
    BitVec.ofInt n x = BitVec.ofInt n y ↔ x % 2 ^ n = y % 2 ^ n := by
  constructor
  · intro h
    have := congrArg (fun b => (b.toNat : Int)) h
    simp only [BitVec.toNat_ofInt] at this
    have p : (0 : Int) < ((2 ^ n : Nat) : Int) := by positivity
    have h1 := Int.emod_nonneg x (ne_of_gt p)
    have h2 := Int.emod_nonneg y (ne_of_gt p)
    push_cast at this h1 h2 ⊢
    omega
  · intro h
    apply BitVec.eq_of_toNat_eq
    simp only [BitVec.toNat_ofInt]
    push_cast
    rw [h]

theorem ofInt_wrap (t : Ty) (x : Int) : BitVec.ofInt t.bits (t.wrap x) = BitVec.ofInt t.bits x :=
  ofInt_eq_iff.2 (wrap_emod t x)

theorem ofInt_wrap' (t : Ty) (x : Int) {n : Nat} (h : n ≤ t.bits) :
    BitVec.ofInt n (t.wrap x) = BitVec.ofInt n x := by
  rw [ofInt_eq_iff]
  have hd : (2 : Int) ^ n ∣ 2 ^ t.bits := pow_dvd_pow _ h
  rw [← Int.emod_emod_of_dvd (t.wrap x) hd, wrap_emod, Int.emod_emod_of_dvd _ hd]

theorem ofBits_ofInt (t : Ty) (hb : 0 < t.bits) (x : Int) :
    t.ofBits (BitVec.ofInt t.bits x) = t.wrap x := by
  unfold Ty.ofBits Ty.wrap
  have p : (0 : Int) < 2 ^ t.bits := by positivity
  have e := two_pow_split hb
  split_ifs
  · rw [BitVec.toInt_ofInt]
    have h1 := Int.emod_nonneg (x + 2 ^ (t.bits - 1)) (ne_of_gt p)
    have h2 := Int.emod_lt_of_pos (x + 2 ^ (t.bits - 1)) p
    have key : x.bmod (2 ^ t.bits)
        = ((x + 2 ^ (t.bits - 1)) % 2 ^ t.bits - 2 ^ (t.bits - 1)).bmod (2 ^ t.bits) := by
      have := Int.emod_add_mul_ediv (x + 2 ^ (t.bits - 1)) (2 ^ t.bits)
      have e2 : (x + 2 ^ (t.bits - 1)) % 2 ^ t.bits - 2 ^ (t.bits - 1)
        = x - ((2 ^ t.bits : Nat) : Int) * ((x + 2 ^ (t.bits - 1)) / 2 ^ t.bits) := by push_cast; linarith
      rw [e2, Int.sub_mul_bmod_self_left]
    rw [key, Int.bmod_eq_of_le_mul_two]
    · push_cast; omega
    · push_cast; omega
  · rw [BitVec.toNat_ofInt]
    have h1 := Int.emod_nonneg x (ne_of_gt p)
    push_cast
    omega

theorem ofInt_ofBits (t : Ty) (b : BitVec t.bits) : BitVec.ofInt t.bits (t.ofBits b) = b := by
  unfold Ty.ofBits
  split_ifs
  · exact BitVec.ofInt_toInt
  · simp

theorem ofBits_inj (t : Ty) (hb : 0 < t.bits) {x y : Int} (hx : t.Has x) (hy : t.Has y)
    (h : BitVec.ofInt t.bits x = BitVec.ofInt t.bits y) : x = y := by
  rw [← wrap_of_has hb hx, ← wrap_of_has hb hy]
  exact wrap_congr t (ofInt_eq_iff.1 h)

theorem bits_pos {t : Ty} (h : t ∈ laneTys) : 0 < t.bits := by
  simp only [laneTys, List.mem_cons, List.not_mem_nil, or_false] at h
  rcases h with h | h | h | h | h | h | h | h <;> subst h <;> decide

theorem bits_le {t : Ty} (h : t ∈ laneTys) : t.bits ≤ 64 := by
  simp only [laneTys, List.mem_cons, List.not_mem_nil, or_false] at h
  rcases h with h | h | h | h | h | h | h | h <;> subst h <;> decide

theorem has_wrap' {t : Ty} (h : t ∈ laneTys) (x : Int) : t.Has (t.wrap x) := has_wrap t (bits_pos h) x

theorem wrap_has' {t : Ty} (h : t ∈ laneTys) {x : Int} (hx : t.Has x) : t.wrap x = x :=
  wrap_of_has (bits_pos h) hx

theorem ofInt_setWidth {n m : Nat} (h : n ≤ m) (z : Int) :
    (BitVec.ofInt m z).setWidth n = BitVec.ofInt n z := by
  apply BitVec.eq_of_toNat_eq
  simp only [BitVec.toNat_setWidth, BitVec.toNat_ofInt]
  have p : (0 : Int) < ((2 ^ m : Nat) : Int) := by positivity
  have p2 : (0 : Int) < ((2 ^ n : Nat) : Int) := by positivity
  have h1 := Int.emod_nonneg z (ne_of_gt p)
  have h2 := Int.emod_nonneg z (ne_of_gt p2)
  zify
  push_cast at h1 h2 ⊢
  rw [Int.toNat_of_nonneg h1, Int.toNat_of_nonneg h2]
  exact Int.emod_emod_of_dvd _ (pow_dvd_pow _ h)

theorem has_ofBits (t : Ty) (hb : 0 < t.bits) (b : BitVec t.bits) : t.Has (t.ofBits b) := by
  have := ofBits_ofInt t hb (t.ofBits b)
  rw [ofInt_ofBits] at this
  rw [this]; exact has_wrap t hb _

theorem wrap_eq_ofBits (t : Ty) (hb : 0 < t.bits) (x : Int) : t.wrap x = t.ofBits (BitVec.ofInt t.bits x) :=
  (ofBits_ofInt t hb x).symm

theorem ofInt_ofBits_le (t : Ty) {n : Nat} (h : n ≤ t.bits) (b : BitVec t.bits) :
    BitVec.ofInt n (t.ofBits b) = b.setWidth n := by
  conv_rhs => rw [← ofInt_ofBits t b]
  rw [ofInt_setWidth h]

theorem bitOp_low (f : ∀ n, BitVec n → BitVec n → BitVec n) {n : Nat} (a b : Val)
    (hf : ∀ m, n ≤ m → ∀ x y, (f m x y).setWidth n = f n (x.setWidth n) (y.setWidth n))
    (h : n ≤ (a.ty.common b.ty).bits) :
    BitVec.ofInt n (bitOp f a b).v = f n (BitVec.ofInt n a.v) (BitVec.ofInt n b.v) := by
  unfold bitOp
  simp only
  rw [ofInt_ofBits_le _ h, hf _ h]
  simp only [Val.bv]
  rw [ofInt_setWidth h, ofInt_setWidth h]

theorem band_low {n : Nat} (a b : Val) (h : n ≤ (a.ty.common b.ty).bits) :
    BitVec.ofInt n (band a b).v = BitVec.ofInt n a.v &&& BitVec.ofInt n b.v :=
  bitOp_low _ a b (fun _ _ _ _ => BitVec.setWidth_and) h

theorem bor_low {n : Nat} (a b : Val) (h : n ≤ (a.ty.common b.ty).bits) :
    BitVec.ofInt n (bor a b).v = BitVec.ofInt n a.v ||| BitVec.ofInt n b.v :=
  bitOp_low _ a b (fun _ _ _ _ => BitVec.setWidth_or) h

theorem bxor_low {n : Nat} (a b : Val) (h : n ≤ (a.ty.common b.ty).bits) :
    BitVec.ofInt n (bxor a b).v = BitVec.ofInt n a.v ^^^ BitVec.ofInt n b.v :=
  bitOp_low _ a b (fun _ _ _ _ => BitVec.setWidth_xor) h

theorem ofInt_not (n : Nat) (x : Int) : BitVec.ofInt n (-x - 1) = ~~~ BitVec.ofInt n x := by
  rw [BitVec.not_eq_neg_add, sub_eq_add_neg, BitVec.ofInt_add, BitVec.ofInt_neg, BitVec.sub_eq_add_neg]
  congr 1
  rw [BitVec.ofInt_neg]
  rfl

theorem bnot_low {n : Nat} (a : Val) (h : n ≤ a.ty.promote.bits) :
    BitVec.ofInt n (bnot a).v = ~~~ BitVec.ofInt n a.v := by
  unfold bnot
  simp only
  rw [ofInt_wrap' _ _ h, ofInt_not, ofInt_wrap' _ _ h]

theorem common_bits {t : Ty} (h : t ∈ laneTys) : t.bits ≤ (t.unsigned.common t.unsigned).bits := by
  simp only [laneTys, List.mem_cons, List.not_mem_nil, or_false] at h
  rcases h with h | h | h | h | h | h | h | h <;> subst h <;> decide

theorem common_bits' {t : Ty} (h : t ∈ laneTys) : t.bits ≤ (t.common t).bits := by
  simp only [laneTys, List.mem_cons, List.not_mem_nil, or_false] at h
  rcases h with h | h | h | h | h | h | h | h <;> subst h <;> decide

theorem promote_bits {t : Ty} (h : t ∈ laneTys) : t.bits ≤ t.unsigned.promote.bits := by
  simp only [laneTys, List.mem_cons, List.not_mem_nil, or_false] at h
  rcases h with h | h | h | h | h | h | h | h <;> subst h <;> decide

theorem cast_cast_unsigned {t : Ty} (h : t ∈ laneTys) (v : Val) :
    cast t (cast t.unsigned v) = ⟨t, t.ofBits (BitVec.ofInt t.bits v.v)⟩ := by
  show (⟨t, t.wrap (t.unsigned.wrap v.v)⟩ : Val) = _
  rw [wrap_wrap_of_le t t.unsigned (le_refl t.bits), wrap_eq_ofBits t (bits_pos h)]

/-- Masking with the 64-bit conversion of `~T(0)` does not change the low bits. -/
theorem cast_mask (t : Ty) (h : t ∈ laneTys) (x : Int) :
    cast t (band ⟨u64, x⟩ (cast u64 (bnot ⟨t, 0⟩))) = ⟨t, t.wrap x⟩ := by
  simp only [laneTys, List.mem_cons, List.not_mem_nil, or_false] at h
  have key : ∀ m : Int, ∀ n, n ≤ 64 → m % 2 ^ n = -1 % 2 ^ n →
      (((BitVec.ofInt 64 x).and (BitVec.ofInt 64 m)).toNat : Int) % 2 ^ n = x % 2 ^ n := by
    intro m n hn hm
    have h1 : ((BitVec.ofInt 64 x).and (BitVec.ofInt 64 m)).setWidth n = BitVec.ofInt n x := by
      have e : ∀ z, (BitVec.ofInt 64 z).setWidth n = BitVec.ofInt n z := by
        intro z
        apply BitVec.eq_of_toNat_eq
        simp only [BitVec.toNat_setWidth, BitVec.toNat_ofInt]
        have p : (0 : Int) < ((2 ^ 64 : Nat) : Int) := by positivity
        have p2 : (0 : Int) < ((2 ^ n : Nat) : Int) := by positivity
        have h1 := Int.emod_nonneg z (ne_of_gt p)
        have h2 := Int.emod_nonneg z (ne_of_gt p2)
        zify
        push_cast at h1 h2 ⊢
        rw [Int.toNat_of_nonneg h1, Int.toNat_of_nonneg h2]
        exact Int.emod_emod_of_dvd _ (pow_dvd_pow _ hn)
      show ((BitVec.ofInt 64 x) &&& (BitVec.ofInt 64 m)).setWidth n = _
      rw [BitVec.setWidth_and, e, e, ofInt_eq_iff.2 hm]
      have : BitVec.ofInt n (-1) = BitVec.allOnes n := by
        apply BitVec.eq_of_toNat_eq
        have p2 : (0 : Int) < 2 ^ n := by positivity
        have e1 : (-1 : Int) % 2 ^ n = 2 ^ n - 1 := by
          rw [← Int.add_emod_right, Int.emod_eq_of_lt (by omega) (by omega)]; ring
        rw [BitVec.toNat_ofInt, BitVec.toNat_allOnes]
        push_cast
        rw [e1]
        have := Nat.two_pow_pos n
        zify
        rw [Int.toNat_of_nonneg (by omega), Nat.cast_sub this]
        push_cast
        ring
      rw [this, BitVec.and_allOnes]
    have h2 := congrArg (fun b => (b.toNat : Int)) h1
    simp only [BitVec.toNat_setWidth, BitVec.toNat_ofInt] at h2
    have p2 : (0 : Int) < ((2 ^ n : Nat) : Int) := by positivity
    have h3 := Int.emod_nonneg x (ne_of_gt p2)
    push_cast at h2 h3 ⊢
    omega
  rcases h with h | h | h | h | h | h | h | h <;> subst h <;>
    (simp only [cast, band, bitOp, Val.mk.injEq, true_and]
     apply wrap_congr
     first
     | exact key _ 8 (by decide) (by decide)
     | exact key _ 16 (by decide) (by decide)
     | exact key _ 32 (by decide) (by decide)
     | exact key _ 64 (by decide) (by decide))

end CInt

namespace Emu
open CInt

/-! ### Loops -/

theorem forN_succ {σ : Type} (n : Nat) (body : Nat → σ → M σ) (s : σ) :
    forN (n + 1) body s = (forN n body s >>= body n) := by
  unfold forN
  rw [List.range_succ, List.foldlM_append]
  simp

theorem forN_zero {σ : Type} (body : Nat → σ → M σ) (s : σ) : forN 0 body s = .ok s := rfl

/-- Loop invariant rule. -/
theorem forN_inv {σ : Type} (n : Nat) (body : Nat → σ → M σ) (s : σ) (P : Nat → σ → Prop)
    (h0 : P 0 s) (hs : ∀ i, i < n → ∀ s, P i s → ∃ s', body i s = .ok s' ∧ P (i + 1) s') :
    ∃ s', forN n body s = .ok s' ∧ P n s' := by
  induction n with
  | zero => exact ⟨s, rfl, h0⟩
  | succ n ih =>
    obtain ⟨s1, e1, p1⟩ := ih (fun i hi => hs i (by omega))
    obtain ⟨s2, e2, p2⟩ := hs n (by omega) s1 p1
    exact ⟨s2, by rw [forN_succ, e1]; exact e2, p2⟩

/-- A loop that writes lane `i` in iteration `i`. -/
theorem forN_lanes {α : Type} (n : Nat) (body : Nat → List α → M (List α)) (r0 : List α) (g : Nat → α)
    (hn : n ≤ r0.length)
    (hb : ∀ i, i < n → ∀ r : List α, r.length = r0.length → (∀ j, j < i → r[j]? = some (g j)) →
      (∀ j, i ≤ j → r[j]? = r0[j]?) → body i r = writeAt r i (g i)) :
    ∃ r, forN n body r0 = .ok r ∧ r.length = r0.length ∧ (∀ j, j < n → r[j]? = some (g j)) ∧
      (∀ j, n ≤ j → r[j]? = r0[j]?) := by
  apply forN_inv n body r0
    (fun i r => r.length = r0.length ∧ (∀ j, j < i → r[j]? = some (g j)) ∧ (∀ j, i ≤ j → r[j]? = r0[j]?))
  · exact ⟨rfl, fun j hj => absurd hj (Nat.not_lt_zero j), fun _ _ => rfl⟩
  · rintro i hi r ⟨hl, h1, h2⟩
    refine ⟨r.set i (g i), ?_, ?_, ?_, ?_⟩
    · rw [hb i hi r hl h1 h2, writeAt_of_lt _ (by omega)]
    · simp [hl]
    · intro j hj
      rw [List.getElem?_set]
      split_ifs with hij hlt
      · rw [hij]
      · omega
      · exact h1 j (by omega)
    · intro j hj
      rw [List.getElem?_set]
      have : i ≠ j := by omega
      rw [if_neg this]
      exact h2 j (by omega)

theorem readAt_some {α : Type} {a : List α} {i : Nat} {x : α} (h : a[i]? = some x) :
    readAt a i = .ok x := by simp [readAt, h]

theorem ok_bind' {α β : Type} (a : α) (f : α → M β) : ((Except.ok a : M α) >>= f) = f a := rfl

end Emu
end Hwy
