import Verif.SortTraits

/-!
# VQSort for the supported key types

Floating-point keys (traits-inl.h:66-138), the vector sizes of `SortTag`, and C17, C18, C24 in terms of key values.
-/

namespace Hwy
namespace VQ

variable {α : Type}

open Net

/-! ### Floating point -/

/-- A binary interchange format with `e` exponent and `m` mantissa bits: f16 (5, 10), f32 (8, 23), f64 (11, 52). -/
structure FloatFmt where
  e : Nat
  m : Nat

/-- Bits per lane. -/
def FloatFmt.w (f : FloatFmt) : Nat := f.e + f.m + 1

/-- Bits of infinity: all exponent bits set. -/
def FloatFmt.inf (f : FloatFmt) : Nat := (2 ^ f.e - 1) * 2 ^ f.m

/-- `BitCast(du, Abs(v))`: all but the sign bit. -/
def absBits (f : FloatFmt) (x : BitVec f.w) : BitVec f.w := BitVec.ofNat f.w (x.toNat % 2 ^ (f.e + f.m))

/-- Position in the order of numbers: magnitude bits with the sign. Both zeros are 0. IEEE 754 numbers of one format
compare as these. -/
def fval (f : FloatFmt) (x : BitVec f.w) : Int := if x.msb then - ((absBits f x).toNat : Int) else (absBits f x).toNat

/-- `IsNaN`. -/
def isNaNBits (f : FloatFmt) (x : BitVec f.w) : Bool := decide (f.inf < (absBits f x).toNat)

/-- `IsFinite`. -/
def isFiniteBits (f : FloatFmt) (x : BitVec f.w) : Bool := decide ((absBits f x).toNat < f.inf)

/-- `Neg`: flips the sign bit. -/
def negBits (f : FloatFmt) (x : BitVec f.w) : BitVec f.w := x ^^^ BitVec.ofNat f.w (2 ^ (f.e + f.m))

/-- `SmallerSortValue` (traits-inl.h:112-138). -/
def smallerSortValue (f : FloatFmt) (v : BitVec f.w) : BitVec f.w :=
  let vu := absBits f v
  let wasPos := decide (0 < fval f v)
  let v := vu + (if wasPos then BitVec.allOnes f.w else 1#f.w)
  let v := if isFiniteBits f v then v else if wasPos then BitVec.ofNat f.w (f.inf - 1) else BitVec.ofNat f.w f.inf
  if wasPos then v else negBits f v

/-- `LargerSortValue` (traits-inl.h:83-109). -/
def largerSortValue (f : FloatFmt) (v : BitVec f.w) : BitVec f.w :=
  let vu := absBits f v
  let wasPos := decide (v.toNat ≤ 2 ^ (f.e + f.m))
  let v := vu + (if wasPos then 1#f.w else BitVec.allOnes f.w)
  let v := if isFiniteBits f v then v else if wasPos then BitVec.ofNat f.w f.inf else BitVec.ofNat f.w (f.inf - 1)
  if wasPos then v else negBits f v

/-- Numbers other than NaN, up to the sign of zero: positions from -inf to inf. -/
abbrev FNum (f : FloatFmt) := { x : Int // - (f.inf : Int) ≤ x ∧ x ≤ f.inf }

/-- Previous, next number unless already infinite; by `smaller_val`, `larger_val` what the code computes on the bits. -/
def fpred (f : FloatFmt) (x : FNum f) : FNum f := ⟨max (x.val - 1) (- f.inf), by have := x.2; omega⟩
def fsucc (f : FloatFmt) (x : FNum f) : FNum f := ⟨min (x.val + 1) f.inf, by have := x.2; omega⟩

/-- `TraitsLane<OrderAscending<T>>` for floating point (traits-inl.h:293-344). Keys are `FNum`: the sign of zero is not
represented, see `C20_signed_zero_loss` for what happens to it. -/
def floatAsc (f : FloatFmt) (cmp : Bool) : Traits (FNum f) where
  lt a b := decide (a.val < b.val)
  ltNet a b := decide (a.val < b.val)
  isKV := false
  isFloat := true
  firstValue := ⟨- f.inf, by omega⟩
  lastValue := ⟨f.inf, by omega⟩
  prev := fpred f
  first := minOf (fun x => x.val)
  last := maxOf (fun x => x.val)
  median := medianLane cmp (fun a b => decide (a.val < b.val)) (minOf (fun x => x.val)) (maxOf (fun x => x.val))

/-- `TraitsLane<OrderDescending<T>>` for floating point (traits-inl.h:346-397). -/
def floatDesc (f : FloatFmt) (cmp : Bool) : Traits (FNum f) where
  lt a b := decide (b.val < a.val)
  ltNet a b := decide (b.val < a.val)
  isKV := false
  isFloat := true
  firstValue := ⟨f.inf, by omega⟩
  lastValue := ⟨- f.inf, by omega⟩
  prev := fsucc f
  first := maxOf (fun x => x.val)
  last := minOf (fun x => x.val)
  median := medianLane cmp (fun a b => decide (b.val < a.val)) (maxOf (fun x => x.val)) (minOf (fun x => x.val))

theorem floatAsc_valid (f : FloatFmt) (cmp : Bool) : (floatAsc f cmp).Valid :=
  valid_of_rank _ (fun x => x.val) (fun x => x.val) (fun _ _ => rfl) (fun _ _ => rfl) (fun _ _ h => Subtype.ext h) (fun _ _ h => h)
    (fun _ _ _ h => Subtype.ext h) (fun x => x.2.2) (fun x => x.2.1)
    (fun v u h => by have := u.2; have := v.2; show max _ _ = _; omega)
    (minOf_mem _) (minOf_le (fun x : FNum f => x.val)) (maxOf_mem _) (maxOf_ge (fun x : FNum f => x.val)) (fun a b c => by
      rcases medianLane_mem cmp (floatAsc f cmp).lt (minOf_mem (fun x : FNum f => x.val)) (maxOf_mem (fun x : FNum f => x.val)) a b c with h | h | h
      · exact Or.inl (congrArg (fun x : FNum f => x.val) h)
      · exact Or.inr (Or.inl (congrArg (fun x : FNum f => x.val) h))
      · exact Or.inr (Or.inr (congrArg (fun x : FNum f => x.val) h)))

theorem floatDesc_valid (f : FloatFmt) (cmp : Bool) : (floatDesc f cmp).Valid :=
  valid_of_rank _ (fun x => - x.val) (fun x => - x.val)
    (fun a b => by show decide (_ < _) = _; rw [decide_eq_decide]; omega)
    (fun a b => by show decide (_ < _) = _; rw [decide_eq_decide]; omega)
    (fun _ _ h => Subtype.ext (by simpa using h)) (fun _ _ h => h)
    (fun _ _ _ h => Subtype.ext (by simpa using h)) (fun x => by have := x.2; simp only [floatDesc]; omega)
    (fun x => by have := x.2; simp only [floatDesc]; omega)
    (fun v u h => by have := u.2; have := v.2; show - min _ _ = _; omega)
    (maxOf_mem _) (fun a b => by have := maxOf_ge (fun x : FNum f => x.val) a b; simp only [floatDesc]; omega)
    (minOf_mem _) (fun a b => by have := minOf_le (fun x : FNum f => x.val) a b; simp only [floatDesc]; omega) (fun a b c => by
      rcases medianLane_mem cmp (floatDesc f cmp).lt (maxOf_mem (fun x : FNum f => x.val)) (minOf_mem (fun x : FNum f => x.val)) a b c with h | h | h
      · exact Or.inl (congrArg (fun x : FNum f => - x.val) h)
      · exact Or.inr (Or.inl (congrArg (fun x : FNum f => - x.val) h))
      · exact Or.inr (Or.inr (congrArg (fun x : FNum f => - x.val) h)))

/-! The bit tricks compute the neighbouring number. -/

theorem FloatFmt.inf_lt (f : FloatFmt) (hm : 1 ≤ f.m) : f.inf + 1 < 2 ^ (f.e + f.m) := by
  unfold FloatFmt.inf
  rw [Nat.sub_mul, Nat.pow_add, Nat.one_mul]
  have h1 : 2 ^ 1 ≤ 2 ^ f.m := Nat.pow_le_pow_right (by decide) hm
  have h2 : 2 ^ f.m ≤ 2 ^ f.e * 2 ^ f.m := Nat.le_mul_of_pos_left _ (Nat.two_pow_pos _)
  omega

theorem FloatFmt.inf_pos (f : FloatFmt) (he : 1 ≤ f.e) : 1 ≤ f.inf := by
  unfold FloatFmt.inf
  have h1 : 2 ^ 1 ≤ 2 ^ f.e := Nat.pow_le_pow_right (by decide) he
  exact Nat.mul_pos (by omega) (Nat.two_pow_pos _)

theorem pow_w (f : FloatFmt) : 2 ^ f.w = 2 * 2 ^ (f.e + f.m) := by
  unfold FloatFmt.w; rw [Nat.pow_succ]; omega

theorem absBits_toNat (f : FloatFmt) (x : BitVec f.w) : (absBits f x).toNat = x.toNat % 2 ^ (f.e + f.m) := by
  unfold absBits
  have := Nat.mod_lt x.toNat (Nat.two_pow_pos (f.e + f.m))
  rw [BitVec.toNat_ofNat, Nat.mod_eq_of_lt]
  rw [pow_w]; omega

theorem msb_iff (f : FloatFmt) (x : BitVec f.w) : x.msb = decide (2 ^ (f.e + f.m) ≤ x.toNat) := by
  rw [BitVec.msb_eq_decide]
  rfl

theorem fval_eq (f : FloatFmt) (x : BitVec f.w) :
    fval f x = if 2 ^ (f.e + f.m) ≤ x.toNat then - ((x.toNat - 2 ^ (f.e + f.m) : Nat) : Int) else (x.toNat : Int) := by
  unfold fval
  have hx := x.isLt
  rw [pow_w] at hx
  rw [msb_iff, absBits_toNat]
  generalize 2 ^ (f.e + f.m) = P at *
  by_cases h : P ≤ x.toNat
  · rw [if_pos (by simpa using h), if_pos h, show x.toNat = P + (x.toNat - P) by omega, Nat.add_mod_left, Nat.mod_eq_of_lt (by omega)]
    omega
  · rw [if_neg (by simpa using h), if_neg h, Nat.mod_eq_of_lt (by omega)]

theorem fval_small (f : FloatFmt) (x : BitVec f.w) (h : x.toNat < 2 ^ (f.e + f.m)) : fval f x = x.toNat := by
  rw [fval_eq, if_neg (by omega)]

theorem fval_neg (f : FloatFmt) (x : BitVec f.w) (h : x.toNat < 2 ^ (f.e + f.m)) : fval f (negBits f x) = - x.toNat := by
  have e1 : (BitVec.ofNat f.w (2 ^ (f.e + f.m))).toNat = 2 ^ (f.e + f.m) := by
    rw [BitVec.toNat_ofNat, Nat.mod_eq_of_lt]
    rw [pow_w]
    have := Nat.two_pow_pos (f.e + f.m)
    omega
  have e2 : (negBits f x).toNat = 2 ^ (f.e + f.m) + x.toNat := by
    unfold negBits
    rw [BitVec.toNat_xor, e1, Nat.xor_comm]
    have := Nat.two_pow_add_eq_or_of_lt h 1
    rw [Nat.mul_one] at this
    rw [this]
    apply Nat.eq_of_testBit_eq
    intro i
    rw [Nat.testBit_xor, Nat.testBit_or, Nat.testBit_two_pow]
    by_cases hi : f.e + f.m = i
    · subst hi
      rw [Nat.testBit_lt_two_pow h]; simp
    · simp [hi]
  rw [fval_eq, e2, if_pos (by omega)]
  omega

theorem abs_le (f : FloatFmt) (v : BitVec f.w) (h : isNaNBits f v = false) : (absBits f v).toNat ≤ f.inf := by
  unfold isNaNBits at h
  simpa using h

theorem fval_abs (f : FloatFmt) (v : BitVec f.w) : fval f v = (absBits f v).toNat ∨ fval f v = - (absBits f v).toNat := by
  unfold fval; split <;> simp

theorem isFinite_of_lt (f : FloatFmt) (x : BitVec f.w) (h : x.toNat < 2 ^ (f.e + f.m)) : isFiniteBits f x = decide (x.toNat < f.inf) := by
  unfold isFiniteBits
  rw [absBits_toNat, Nat.mod_eq_of_lt h]

theorem toNat_ofNat_lt (f : FloatFmt) (n : Nat) (h : n < 2 ^ (f.e + f.m)) : (BitVec.ofNat f.w n).toNat = n := by
  rw [BitVec.toNat_ofNat, Nat.mod_eq_of_lt]
  rw [pow_w]; omega

theorem add_one_toNat (f : FloatFmt) (he : 1 ≤ f.e) (x : BitVec f.w) (h : x.toNat + 1 < 2 ^ (f.e + f.m)) : (x + 1#f.w).toNat = x.toNat + 1 := by
  have e1 : (1#f.w).toNat = 1 := by
    rw [BitVec.toNat_ofNat, Nat.mod_eq_of_lt]
    exact Nat.one_lt_two_pow (by unfold FloatFmt.w; omega)
  rw [BitVec.toNat_add, e1, Nat.mod_eq_of_lt]
  rw [pow_w]; omega

theorem add_ones_toNat (f : FloatFmt) (x : BitVec f.w) (h : 1 ≤ x.toNat) : (x + BitVec.allOnes f.w).toNat = x.toNat - 1 := by
  have hx := x.isLt
  rw [BitVec.toNat_add, BitVec.toNat_allOnes, show x.toNat + (2 ^ f.w - 1) = (x.toNat - 1) + 2 ^ f.w by omega, Nat.add_mod_right,
    Nat.mod_eq_of_lt (by omega)]

/-- `SmallerSortValue` yields the next smaller number, or -inf. -/
theorem smaller_val (f : FloatFmt) (he : 1 ≤ f.e) (hm : 1 ≤ f.m) (v : BitVec f.w) (hv : isNaNBits f v = false) :
    fval f (smallerSortValue f v) = max (fval f v - 1) (- f.inf) := by
  have hi := f.inf_lt hm
  have hp := f.inf_pos he
  have ha := abs_le f v hv
  have hf := fval_abs f v
  unfold smallerSortValue
  simp only []
  by_cases hpos : 0 < fval f v
  · rw [decide_eq_true hpos]
    simp only [if_true]
    have hn : (absBits f v + BitVec.allOnes f.w).toNat = (absBits f v).toNat - 1 := add_ones_toNat f _ (by omega)
    rw [isFinite_of_lt f _ (by omega), hn, decide_eq_true (by omega), if_pos rfl, fval_small f _ (by omega), hn]
    omega
  · rw [decide_eq_false hpos]
    simp only [Bool.false_eq_true, if_false]
    have hn : (absBits f v + 1#f.w).toNat = (absBits f v).toNat + 1 := add_one_toNat f he _ (by omega)
    have hfv : fval f v = - (absBits f v).toNat := by omega
    rw [isFinite_of_lt f _ (by omega), hn]
    by_cases hfin : (absBits f v).toNat + 1 < f.inf
    · rw [decide_eq_true hfin, if_pos rfl, fval_neg f _ (by omega), hn]
      omega
    · rw [decide_eq_false hfin, if_neg (by simp), fval_neg f _ (by rw [toNat_ofNat_lt f _ (by omega)]; omega), toNat_ofNat_lt f _ (by omega)]
      omega

/-- `LargerSortValue` yields the next larger number, or inf. -/
theorem larger_val (f : FloatFmt) (he : 1 ≤ f.e) (hm : 1 ≤ f.m) (v : BitVec f.w) (hv : isNaNBits f v = false) :
    fval f (largerSortValue f v) = min (fval f v + 1) f.inf := by
  have hi := f.inf_lt hm
  have hp := f.inf_pos he
  have ha := abs_le f v hv
  have hx := v.isLt
  have hfe := fval_eq f v
  have hab := absBits_toNat f v
  rw [pow_w] at hx
  unfold largerSortValue
  simp only []
  by_cases hpos : v.toNat ≤ 2 ^ (f.e + f.m)
  · rw [decide_eq_true hpos]
    simp only [if_true]
    have hfv : fval f v = (absBits f v).toNat := by
      rw [hfe, hab]
      by_cases h : 2 ^ (f.e + f.m) ≤ v.toNat
      · rw [if_pos h, show v.toNat = 2 ^ (f.e + f.m) by omega, Nat.mod_self]; omega
      · rw [if_neg h, Nat.mod_eq_of_lt (by omega)]
    have hn : (absBits f v + 1#f.w).toNat = (absBits f v).toNat + 1 := add_one_toNat f he _ (by omega)
    rw [isFinite_of_lt f _ (by omega), hn]
    by_cases hfin : (absBits f v).toNat + 1 < f.inf
    · rw [decide_eq_true hfin, if_pos rfl, fval_small f _ (by omega), hn]
      omega
    · rw [decide_eq_false hfin, if_neg (by simp), fval_small f _ (by rw [toNat_ofNat_lt f _ (by omega)]; omega), toNat_ofNat_lt f _ (by omega)]
      omega
  · rw [decide_eq_false hpos]
    simp only [Bool.false_eq_true, if_false]
    have hmod : v.toNat % 2 ^ (f.e + f.m) = v.toNat - 2 ^ (f.e + f.m) := by
      rw [Nat.mod_eq_sub_mod (by omega), Nat.mod_eq_of_lt (by omega)]
    rw [hmod] at hab
    rw [if_pos (by omega), ← hab] at hfe
    have hn : (absBits f v + BitVec.allOnes f.w).toNat = (absBits f v).toNat - 1 := add_ones_toNat f _ (by omega)
    rw [isFinite_of_lt f _ (by omega), hn, decide_eq_true (by omega), if_pos rfl, fval_neg f _ (by omega), hn]
    omega

/-- A lane: NaN with its bits, or a number. -/
def decodeLane (f : FloatFmt) (x : BitVec f.w) : FKey (FNum f) (BitVec f.w) :=
  if h : isNaNBits f x = true then .nan x
  else .num ⟨fval f x, by
    have h : isNaNBits f x = false := by simpa using h
    have := abs_le f x h
    rcases fval_abs f x with h | h <;> omega⟩

/-! ### Vectors and buffers -/

/-- `SortTag` with vectors of `vb` bytes and keys of `kb` bytes. `kmax`: `MaxLanes(d) / LanesPerKey()`, larger than the actual
number of keys per vector only for scalable vectors. -/
def stdEnv (kb vb kmax : Nat) (mightFault big isPartition rmw huge debug : Bool) (junk : List α → List Bool → List α) (zero : α) :
    Env α where
  c := { N := vb / kb, isPartition := isPartition, rmw := rmw, junk := junk, zero := zero }
  mightFault := mightFault
  big := big
  lpk := if kb = 16 then 2 else 1
  Kmax := kmax
  chunk := 64 / kb
  potentiallyHuge := huge
  partial128 := false
  debug := debug

/-- 16, 32, 64-byte vectors of 2, 4, 8, 16-byte keys are valid. -/
theorem stdEnv_valid (kb vb kmax : Nat) (hkb : kb = 2 ∨ kb = 4 ∨ kb = 8 ∨ kb = 16) (hvb : vb = 16 ∨ vb = 32 ∨ vb = 64)
    (hk : vb / kb ≤ kmax) (mightFault big isPartition rmw huge debug : Bool) (hst : isPartition = true ∨ rmw = false)
    (junk : List α → List Bool → List α) (zero : α) : (stdEnv kb vb kmax mightFault big isPartition rmw huge debug junk zero).Valid := by
  refine ⟨?_, ?_, hk, ?_, ?_, ?_, hst⟩
  · show ∃ n, vb / kb = 2 ^ n
    rcases hkb with rfl | rfl | rfl | rfl <;> rcases hvb with rfl | rfl | rfl
    all_goals first | exact ⟨0, rfl⟩ | exact ⟨1, rfl⟩ | exact ⟨2, rfl⟩ | exact ⟨3, rfl⟩ | exact ⟨4, rfl⟩ | exact ⟨5, rfl⟩
  · show (if kb = 16 then 2 else 1) = 1 ∨ _
    by_cases h : kb = 16
    · exact Or.inr (if_pos h)
    · exact Or.inl (if_neg h)
  · show vb / kb ∣ 64 / kb
    rcases hkb with rfl | rfl | rfl | rfl <;> rcases hvb with rfl | rfl | rfl <;> decide
  · show 0 < 64 / kb
    rcases hkb with rfl | rfl | rfl | rfl <;> decide
  · show 2 * (64 / kb) ≤ baseCaseNum big (if kb = 16 then 2 else 1) (vb / kb)
    rcases hkb with rfl | rfl | rfl | rfl <;> rcases hvb with rfl | rfl | rfl <;> cases big <;> decide

/-! ### C17, C18 for the key types -/

theorem sorted_val_le {lt : α → α → Bool} {l : List α} {val : α → Int} (h : ∀ a b, lt a b = false → val b ≤ val a) (hs : Sorted lt l) :
    l.Pairwise (fun x y => val x ≤ val y) := List.Pairwise.imp (fun hab => h _ _ hab) hs

theorem sorted_val_ge {lt : α → α → Bool} {l : List α} {val : α → Int} (h : ∀ a b, lt a b = false → val a ≤ val b) (hs : Sorted lt l) :
    l.Pairwise (fun x y => val y ≤ val x) := List.Pairwise.imp (fun hab => h _ _ hab) hs

/-- **C17, C18 for integer keys**: `VQSort` with ascending order leaves a permutation in which values do not decrease. -/
theorem C17_C18_int_ascending {e : Env (BitVec w)} (he : e.Valid) (signed cmp enabled : Bool) (addr : Nat) (keys buf : List (BitVec w))
    (rng : Rng) (h64 : keys.length + e.c.N ≤ 2 ^ 64) (hb : e.bufNum ≤ buf.length) (hn : enabled = false → keys ≠ []) :
    ∃ s, sortKeys enabled e (intAsc signed w cmp) addr ⟨keys, buf, rng⟩ = .ok s ∧ s.keys.Perm keys ∧
      s.keys.Pairwise (fun x y => intVal signed x ≤ intVal signed y) := by
  obtain ⟨s, h1, h2, h3, h4⟩ := sortKeys_spec he (intAsc_valid signed w cmp) enabled addr ⟨keys, buf, rng⟩ h64 hb hn
  exact ⟨s, h1, h2, sorted_val_le (fun a b h => by simpa [intAsc] using h) h4⟩

/-- **C17, C18 for integer keys**, descending. -/
theorem C17_C18_int_descending {e : Env (BitVec w)} (he : e.Valid) (signed cmp enabled : Bool) (addr : Nat) (keys buf : List (BitVec w))
    (rng : Rng) (h64 : keys.length + e.c.N ≤ 2 ^ 64) (hb : e.bufNum ≤ buf.length) (hn : enabled = false → keys ≠ []) :
    ∃ s, sortKeys enabled e (intDesc signed w cmp) addr ⟨keys, buf, rng⟩ = .ok s ∧ s.keys.Perm keys ∧
      s.keys.Pairwise (fun x y => intVal signed y ≤ intVal signed x) := by
  obtain ⟨s, h1, h2, h3, h4⟩ := sortKeys_spec he (intDesc_valid signed w cmp) enabled addr ⟨keys, buf, rng⟩ h64 hb hn
  exact ⟨s, h1, h2, sorted_val_ge (fun a b h => by simpa [intDesc] using h) h4⟩

/-- **C17, C18 for `K32V32`**: keys (upper halves) in order, and every key keeps its value. -/
theorem C17_C18_kv64 {e : Env (BitVec 64)} (he : e.Valid) (desc cmp enabled : Bool) (addr : Nat) (keys buf : List (BitVec 64))
    (rng : Rng) (h64 : keys.length + e.c.N ≤ 2 ^ 64) (hb : e.bufNum ≤ buf.length) (hn : enabled = false → keys ≠ []) :
    ∃ s, sortKeys enabled e (if desc then kv64Desc cmp else kv64Asc cmp) addr ⟨keys, buf, rng⟩ = .ok s ∧ s.keys.Perm keys ∧
      s.keys.Pairwise (fun x y => if desc then y.toNat / 2 ^ 32 ≤ x.toNat / 2 ^ 32 else x.toNat / 2 ^ 32 ≤ y.toNat / 2 ^ 32) := by
  cases desc with
  | false =>
    obtain ⟨s, h1, h2, h3, h4⟩ := sortKeys_spec he (kv64Asc_valid cmp) enabled addr ⟨keys, buf, rng⟩ h64 hb hn
    refine ⟨s, h1, h2, List.Pairwise.imp (fun hab => ?_) h4⟩
    simp only [kv64Asc, key32_eq, decide_eq_false_iff_not] at hab
    simp only [Bool.false_eq_true, if_false]; omega
  | true =>
    obtain ⟨s, h1, h2, h3, h4⟩ := sortKeys_spec he (kv64Desc_valid cmp) enabled addr ⟨keys, buf, rng⟩ h64 hb hn
    refine ⟨s, h1, h2, List.Pairwise.imp (fun hab => ?_) h4⟩
    simp only [kv64Desc, key32_eq, decide_eq_false_iff_not] at hab
    simp only [if_true]; omega

/-- **C17, C18 for `uint128_t`**. -/
theorem C17_C18_u128 {e : Env K128} (he : e.Valid) (desc enabled : Bool) (addr : Nat) (keys buf : List K128)
    (rng : Rng) (h64 : keys.length + e.c.N ≤ 2 ^ 64) (hb : e.bufNum ≤ buf.length) (hn : enabled = false → keys ≠ []) :
    ∃ s, sortKeys enabled e (if desc then u128Desc else u128Asc) addr ⟨keys, buf, rng⟩ = .ok s ∧ s.keys.Perm keys ∧
      s.keys.Pairwise (fun x y => if desc then val128 y ≤ val128 x else val128 x ≤ val128 y) := by
  cases desc with
  | false =>
    obtain ⟨s, h1, h2, h3, h4⟩ := sortKeys_spec he u128Asc_valid enabled addr ⟨keys, buf, rng⟩ h64 hb hn
    refine ⟨s, h1, h2, List.Pairwise.imp (fun hab => ?_) h4⟩
    simp only [u128Asc, lt128_eq, decide_eq_false_iff_not] at hab
    simp only [Bool.false_eq_true, if_false]; omega
  | true =>
    obtain ⟨s, h1, h2, h3, h4⟩ := sortKeys_spec he u128Desc_valid enabled addr ⟨keys, buf, rng⟩ h64 hb hn
    refine ⟨s, h1, h2, List.Pairwise.imp (fun hab => ?_) h4⟩
    simp only [u128Desc, lt128_eq, decide_eq_false_iff_not] at hab
    simp only [if_true]; omega

/-- **C17, C18 for `K64V64`**. -/
theorem C17_C18_kv128 {e : Env K128} (he : e.Valid) (desc enabled : Bool) (addr : Nat) (keys buf : List K128)
    (rng : Rng) (h64 : keys.length + e.c.N ≤ 2 ^ 64) (hb : e.bufNum ≤ buf.length) (hn : enabled = false → keys ≠ []) :
    ∃ s, sortKeys enabled e (if desc then kv128Desc else kv128Asc) addr ⟨keys, buf, rng⟩ = .ok s ∧ s.keys.Perm keys ∧
      s.keys.Pairwise (fun x y => if desc then y.hi.toNat ≤ x.hi.toNat else x.hi.toNat ≤ y.hi.toNat) := by
  cases desc with
  | false =>
    obtain ⟨s, h1, h2, h3, h4⟩ := sortKeys_spec he kv128Asc_valid enabled addr ⟨keys, buf, rng⟩ h64 hb hn
    refine ⟨s, h1, h2, List.Pairwise.imp (fun hab => ?_) h4⟩
    simp only [kv128Asc, lt128Upper, decide_eq_false_iff_not] at hab
    simp only [Bool.false_eq_true, if_false]; omega
  | true =>
    obtain ⟨s, h1, h2, h3, h4⟩ := sortKeys_spec he kv128Desc_valid enabled addr ⟨keys, buf, rng⟩ h64 hb hn
    refine ⟨s, h1, h2, List.Pairwise.imp (fun hab => ?_) h4⟩
    simp only [kv128Desc, lt128Upper, decide_eq_false_iff_not] at hab
    simp only [if_true]; omega

theorem filterMap_decode (f : FloatFmt) (lanes : List (BitVec f.w)) :
    ((lanes.map (decodeLane f)).filterMap FKey.num?).map (fun x => x.val) = (lanes.filter (fun x => !isNaNBits f x)).map (fval f) := by
  induction lanes with
  | nil => rfl
  | cons x l ih =>
    rw [List.map_cons]
    by_cases h : isNaNBits f x = true
    · rw [List.filterMap_cons_none (by unfold decodeLane; rw [dif_pos h]; rfl), List.filter_cons_of_neg (by simp [h]), ih]
    · have hd : ∃ y : FNum f, decodeLane f x = .num y ∧ y.val = fval f x := by
        unfold decodeLane; rw [dif_neg h]; exact ⟨_, rfl, rfl⟩
      obtain ⟨y, e1, e2⟩ := hd
      rw [e1, List.filterMap_cons_some (f := FKey.num?) (a := .num y) (b := y) rfl, List.filter_cons_of_pos (by simp [h]), List.map_cons,
        List.map_cons, ih, e2]

/-- **C24 for floating-point keys given as bit patterns**: the result is the numbers, in order of value, then one canonical NaN
per input NaN; the numbers are those of the input (up to the sign of zeros). -/
theorem C24_float {f : FloatFmt} {e : Env (FNum f)} (he : e.Valid) (desc cmp enabled : Bool) (addr : Nat) (canon : BitVec f.w)
    (lanes : List (BitVec f.w)) (buf : List (FNum f)) (rng : Rng) (h64 : lanes.length + e.c.N ≤ 2 ^ 64)
    (hb : e.bufNum ≤ buf.length) (hn : enabled = false → lanes ≠ []) :
    ∃ L : List (FNum f), withNaN e (if desc then floatDesc f cmp else floatAsc f cmp) canon
        (sortKeys enabled e (if desc then floatDesc f cmp else floatAsc f cmp) addr) (lanes.map (decodeLane f)) buf rng =
        .ok (L.map .num ++ List.replicate (lanes.countP (isNaNBits f)) (.nan canon)) ∧
      (L.map (fun x => x.val)).Perm ((lanes.filter (fun x => !isNaNBits f x)).map (fval f)) ∧
      L.Pairwise (fun x y => if desc then y.val ≤ x.val else x.val ≤ y.val) := by
  have hc : (lanes.map (decodeLane f)).countP FKey.isNaN = lanes.countP (isNaNBits f) := by
    rw [List.countP_map]
    congr 1
    funext x
    show (decodeLane f x).isNaN = _
    unfold decodeLane
    split
    · rename_i h; rw [h]; rfl
    · rename_i h; simp [FKey.isNaN, h]
  have hf := filterMap_decode f lanes
  have hv : (if desc then floatDesc f cmp else floatAsc f cmp).Valid := by
    cases desc
    · exact floatAsc_valid f cmp
    · exact floatDesc_valid f cmp
  obtain ⟨L, h1, h2, h3⟩ := C24_sort he hv (by cases desc <;> rfl) enabled addr canon (lanes.map (decodeLane f)) buf rng
    (by rw [List.length_map]; exact h64) hb (fun h hh => hn h (by simpa using hh))
  refine ⟨L, ?_, ?_, ?_⟩
  · rw [h1, hc]
  · rw [← hf]; exact h2.map _
  · refine List.Pairwise.imp (fun hab => ?_) h3
    cases desc with
    | false =>
      simp only [floatAsc, Bool.false_eq_true, if_false, decide_eq_false_iff_not] at hab ⊢
      omega
    | true =>
      simp only [floatDesc, if_true, decide_eq_false_iff_not] at hab ⊢
      omega

end VQ
end Hwy
