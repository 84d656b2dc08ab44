import Verif.SortTop
import Mathlib.Tactic.IntervalCases

/-!
# Key types of VQSort (hwy/contrib/sort/traits-inl.h, traits128-inl.h)

`Traits` for every supported key type and both orders, and the proof that they meet `Traits.Valid`; the vectors and buffers of
`SortTag` meet `Env.Valid`. Then C17, C18, C24 for these types in terms of the values of the keys.
-/

namespace Hwy
namespace VQ

variable {α : Type}

open Net

/-! ### Models -/

/-- `Sort2` (traits-inl.h:533-553): compare and blend (64-bit keys before AVX3), or `First` and `Last`. -/
def sort2Lane (cmp : Bool) (lt : α → α → Bool) (first last : α → α → α) (a b : α) : α × α :=
  if cmp then (if lt a b then (a, b) else (b, a)) else (first a b, last a b)

/-- `MedianOf3` if not `Is128` (vqsort-inl.h:1196-1199). -/
def medianLane (cmp : Bool) (lt : α → α → Bool) (first last : α → α → α) (v0 v1 v2 : α) : α :=
  let (v0, v2) := sort2Lane cmp lt first last v0 v2
  first (last v0 v1) v2

/-- Integer value of a lane. -/
def intVal (signed : Bool) {w : Nat} (x : BitVec w) : Int := if signed then x.toInt else x.toNat

/-- `Min`, `Max` of integers. -/
def minOf (val : α → Int) (a b : α) : α := if val a < val b then a else b
def maxOf (val : α → Int) (a b : α) : α := if val b < val a then a else b

/-- `LowestValue`, `HighestValue` of an integer type. -/
def lowest (signed : Bool) (w : Nat) : BitVec w := if signed then BitVec.intMin w else 0#w
def highest (signed : Bool) (w : Nat) : BitVec w := if signed then BitVec.intMax w else BitVec.allOnes w

/-- `TraitsLane<OrderAscending<T>>` for integers (traits-inl.h:293-344). -/
def intAsc (signed : Bool) (w : Nat) (cmp : Bool) : Traits (BitVec w) where
  lt a b := decide (intVal signed a < intVal signed b)
  ltNet a b := decide (intVal signed a < intVal signed b)
  isKV := false
  isFloat := false
  firstValue := lowest signed w
  lastValue := highest signed w
  prev v := v - 1#w
  first := minOf (intVal signed)
  last := maxOf (intVal signed)
  median := medianLane cmp (fun a b => decide (intVal signed a < intVal signed b)) (minOf (intVal signed)) (maxOf (intVal signed))

/-- `TraitsLane<OrderDescending<T>>` for integers (traits-inl.h:346-397). -/
def intDesc (signed : Bool) (w : Nat) (cmp : Bool) : Traits (BitVec w) where
  lt a b := decide (intVal signed b < intVal signed a)
  ltNet a b := decide (intVal signed b < intVal signed a)
  isKV := false
  isFloat := false
  firstValue := highest signed w
  lastValue := lowest signed w
  prev v := v + 1#w
  first := maxOf (intVal signed)
  last := minOf (intVal signed)
  median := medianLane cmp (fun a b => decide (intVal signed b < intVal signed a)) (maxOf (intVal signed)) (minOf (intVal signed))

/-- Key of a `K32V32`, as compared by `KeyValue64` (traits-inl.h:399-427). -/
def key32 (x : BitVec 64) : Int := (x >>> 32).toNat

/-- `TraitsLane<OrderAscendingKV64>` (traits-inl.h:429-482); the sorting network uses `OrderAscending<uint64_t>`. -/
def kv64Asc (cmp : Bool) : Traits (BitVec 64) where
  lt a b := decide (key32 a < key32 b)
  ltNet a b := decide (intVal false a < intVal false b)
  isKV := true
  isFloat := false
  firstValue := lowest false 64
  lastValue := highest false 64
  prev v := v - (1#64 <<< 32)
  first := minOf (intVal false)
  last := maxOf (intVal false)
  median := medianLane cmp (fun a b => decide (key32 a < key32 b)) (minOf (intVal false)) (maxOf (intVal false))

/-- `TraitsLane<OrderDescendingKV64>` (traits-inl.h:484-537). -/
def kv64Desc (cmp : Bool) : Traits (BitVec 64) where
  lt a b := decide (key32 b < key32 a)
  ltNet a b := decide (intVal false b < intVal false a)
  isKV := true
  isFloat := false
  firstValue := highest false 64
  lastValue := lowest false 64
  prev v := v + (1#64 <<< 32)
  first := maxOf (intVal false)
  last := minOf (intVal false)
  median := medianLane cmp (fun a b => decide (key32 b < key32 a)) (maxOf (intVal false)) (minOf (intVal false))

/-- A 128-bit key: two `uint64_t` lanes, the upper one more significant. -/
structure K128 where
  hi : BitVec 64
  lo : BitVec 64
  deriving DecidableEq, Repr

/-- `Xor` of both lanes. -/
def K128.xor (a b : K128) : K128 := ⟨a.hi ^^^ b.hi, a.lo ^^^ b.lo⟩

/-- `Lt128`, `Compare1` (traits128-inl.h:188-195, emu128-inl.h:1299-1305). -/
def lt128 (a b : K128) : Bool := if a.hi = b.hi then decide (a.lo.toNat < b.lo.toNat) else decide (a.hi.toNat < b.hi.toNat)

/-- `Lt128Upper`, `Compare1` (traits128-inl.h:337-344, emu128-inl.h:1308-1312). -/
def lt128Upper (a b : K128) : Bool := decide (a.hi.toNat < b.hi.toNat)

/-- `Min128`, `Max128`, `Min128Upper`, `Max128Upper` (emu128-inl.h:1357-1374). -/
def min128 (lt : K128 → K128 → Bool) (a b : K128) : K128 := if lt a b then a else b
def max128 (lt : K128 → K128 → Bool) (a b : K128) : K128 := if lt b a then a else b

/-- `MedianOf3` if `Is128` (vqsort-inl.h:1189-1195). -/
def median128 (first last : K128 → K128 → K128) (v0 v1 v2 : K128) : K128 :=
  let sum := (v0.xor v1).xor v2
  let f := first (first v0 v1) v2
  let l := last (last v0 v1) v2
  (sum.xor f).xor l

/-- `OrderAscending128::PrevValue` (traits128-inl.h:222-230). -/
def prev128Asc (v : K128) : K128 :=
  let borrow := if v.lo = 0#64 then 1#64 else 0#64
  ⟨v.hi - 0#64 - borrow, v.lo - 1#64 - 0#64⟩

/-- `OrderDescending128::PrevValue` (traits128-inl.h:278-286). -/
def prev128Desc (v : K128) : K128 :=
  let added := v.lo + 1#64
  let overflowed := if added.toNat < v.lo.toNat then 1#64 else 0#64
  ⟨v.hi + 0#64 + overflowed, added + 0#64⟩

/-- All lanes 0, all lanes `LimitsMax`. -/
def zero128 : K128 := ⟨0#64, 0#64⟩
def ones128 : K128 := ⟨BitVec.allOnes 64, BitVec.allOnes 64⟩

/-- `Traits128<OrderAscending128>` (traits128-inl.h:184-237). -/
def u128Asc : Traits K128 where
  lt := lt128
  ltNet := lt128
  isKV := false
  isFloat := false
  firstValue := zero128
  lastValue := ones128
  prev := prev128Asc
  first := min128 lt128
  last := max128 lt128
  median := median128 (min128 lt128) (max128 lt128)

/-- `Traits128<OrderDescending128>` (traits128-inl.h:239-293). -/
def u128Desc : Traits K128 where
  lt a b := lt128 b a
  ltNet a b := lt128 b a
  isKV := false
  isFloat := false
  firstValue := ones128
  lastValue := zero128
  prev := prev128Desc
  first := max128 lt128
  last := min128 lt128
  median := median128 (max128 lt128) (min128 lt128)

/-- `Traits128<OrderAscendingKV128>` (traits128-inl.h:333-382). -/
def kv128Asc : Traits K128 where
  lt := lt128Upper
  ltNet := lt128
  isKV := true
  isFloat := false
  firstValue := zero128
  lastValue := ones128
  prev v := ⟨v.hi - 1#64, v.lo - 0#64⟩
  first := min128 lt128Upper
  last := max128 lt128Upper
  median := median128 (min128 lt128Upper) (max128 lt128Upper)

/-- `Traits128<OrderDescendingKV128>` (traits128-inl.h:384-433). -/
def kv128Desc : Traits K128 where
  lt a b := lt128Upper b a
  ltNet a b := lt128 b a
  isKV := true
  isFloat := false
  firstValue := ones128
  lastValue := zero128
  prev v := ⟨v.hi + 1#64, v.lo + 0#64⟩
  first := max128 lt128Upper
  last := min128 lt128Upper
  median := median128 (max128 lt128Upper) (min128 lt128Upper)

/-! ### Validity -/

/-- Sufficient condition in terms of integer ranks. -/
theorem valid_of_rank (t : Traits α) (key net : α → Int)
    (hlt : ∀ a b, t.lt a b = decide (key a < key b)) (hnet : ∀ a b, t.ltNet a b = decide (net a < net b))
    (hinj : ∀ a b, net a = net b → a = b) (href : ∀ a b, key a < key b → net a < net b)
    (hanti : t.isKV = false → ∀ a b, key a = key b → a = b)
    (hlast : ∀ x, net x ≤ net t.lastValue) (hfirst : ∀ x, key t.firstValue ≤ key x)
    (hprev : ∀ v u, key u < key v → key (t.prev v) = key v - 1)
    (fm : ∀ a b, t.first a b = a ∨ t.first a b = b) (fl : ∀ a b, key (t.first a b) ≤ key a ∧ key (t.first a b) ≤ key b)
    (lm : ∀ a b, t.last a b = a ∨ t.last a b = b) (ll : ∀ a b, key a ≤ key (t.last a b) ∧ key b ≤ key (t.last a b))
    (hmed : ∀ a b c, key (t.median a b c) = key a ∨ key (t.median a b c) = key b ∨ key (t.median a b c) = key c) : t.Valid where
  order := ⟨fun a => by simp [hlt], fun a b c => by simp only [hlt, decide_eq_true_eq]; omega,
    fun a b c => by simp only [hlt, decide_eq_true_eq]; omega⟩
  orderNet := ⟨fun a => by simp [hnet], fun a b c => by simp only [hnet, decide_eq_true_eq]; omega,
    fun a b c => by simp only [hnet, decide_eq_true_eq]; omega⟩
  antisymmNet := fun a b h1 h2 => hinj a b (by simp only [hnet, decide_eq_false_iff_not] at h1 h2; omega)
  refines := fun a b => by simp only [hlt, hnet, decide_eq_true_eq]; exact href a b
  antisymm := fun hk a b h1 h2 => hanti hk a b (by simp only [hlt, decide_eq_false_iff_not] at h1 h2; omega)
  lastNet := fun x => by simp only [hnet, decide_eq_false_iff_not]; have := hlast x; omega
  firstLe := fun x => by simp only [hlt, decide_eq_false_iff_not]; have := hfirst x; omega
  prev_lt := fun v u h => by
    simp only [hlt, decide_eq_true_eq] at *; have := hprev v u h; omega
  prev_adj := fun v u x h h2 => by
    simp only [hlt, decide_eq_true_eq, decide_eq_false_iff_not] at *; have := hprev v u h; omega
  first_mem := fm
  first_le := fun a b => by
    simp only [hlt, decide_eq_false_iff_not]; have := fl a b; omega
  last_mem := lm
  last_ge := fun a b => by
    simp only [hlt, decide_eq_false_iff_not]; have := ll a b; omega
  median_mem := fun a b c => by
    simp only [eqk, hlt, Bool.and_eq_true, Bool.not_eq_true', decide_eq_false_iff_not]
    rcases hmed a b c with h | h | h <;> omega

theorem minOf_mem (val : α → Int) (a b : α) : minOf val a b = a ∨ minOf val a b = b := by
  unfold minOf; split <;> simp

theorem maxOf_mem (val : α → Int) (a b : α) : maxOf val a b = a ∨ maxOf val a b = b := by
  unfold maxOf; split <;> simp

theorem minOf_le (val : α → Int) (a b : α) : val (minOf val a b) ≤ val a ∧ val (minOf val a b) ≤ val b := by
  unfold minOf; split <;> omega

theorem maxOf_ge (val : α → Int) (a b : α) : val a ≤ val (maxOf val a b) ∧ val b ≤ val (maxOf val a b) := by
  unfold maxOf; split <;> omega

theorem medianLane_mem (cmp : Bool) (lt : α → α → Bool) {first last : α → α → α} (fm : ∀ a b, first a b = a ∨ first a b = b)
    (lm : ∀ a b, last a b = a ∨ last a b = b) (a b c : α) :
    medianLane cmp lt first last a b c = a ∨ medianLane cmp lt first last a b c = b ∨ medianLane cmp lt first last a b c = c := by
  have h2 : ∀ x y, ((sort2Lane cmp lt first last x y).1 = x ∨ (sort2Lane cmp lt first last x y).1 = y) ∧
      ((sort2Lane cmp lt first last x y).2 = x ∨ (sort2Lane cmp lt first last x y).2 = y) := by
    intro x y
    unfold sort2Lane
    split
    · split <;> simp
    · exact ⟨fm x y, lm x y⟩
  obtain ⟨h3, h4⟩ := h2 a c
  unfold medianLane
  simp only []
  rcases fm (last (sort2Lane cmp lt first last a c).1 b) (sort2Lane cmp lt first last a c).2 with h | h <;> rw [h]
  · rcases lm (sort2Lane cmp lt first last a c).1 b with h | h <;> rw [h]
    · rcases h3 with h | h <;> simp [h]
    · simp
  · rcases h4 with h | h <;> simp [h]

/-! Integers -/

theorem intVal_inj (signed : Bool) {w : Nat} (a b : BitVec w) (h : intVal signed a = intVal signed b) : a = b := by
  unfold intVal at h
  cases signed with
  | true => exact BitVec.eq_of_toInt_eq (by simpa using h)
  | false => exact BitVec.eq_of_toNat_eq (by simpa using h)

theorem intVal_lowest (signed : Bool) {w : Nat} (x : BitVec w) : intVal signed (lowest signed w) ≤ intVal signed x := by
  cases signed with
  | true =>
    simp only [intVal, lowest, if_true]
    exact BitVec.toInt_intMin_le x
  | false => simp [intVal, lowest]

theorem intVal_highest (signed : Bool) {w : Nat} (x : BitVec w) : intVal signed x ≤ intVal signed (highest signed w) := by
  cases signed with
  | true =>
    simp only [intVal, highest, if_true]
    have h1 := BitVec.toInt_lt (x := x)
    have h2 := BitVec.toInt_intMax (w := w)
    have h3 := BitVec.two_mul_toInt_lt (x := x)
    rcases Nat.eq_zero_or_pos w with h | h
    · subst h
      have : x = BitVec.intMax 0 := by
        apply BitVec.eq_of_toNat_eq
        have := x.isLt
        have := (BitVec.intMax 0).isLt
        omega
      rw [this]
    · rw [h2]
      omega
  | false =>
    have := x.isLt
    have e : (BitVec.allOnes w).toNat = 2 ^ w - 1 := BitVec.toNat_allOnes
    simp only [intVal, highest, Bool.false_eq_true, if_false, e]
    omega

theorem intVal_sub_one (signed : Bool) {w : Nat} (v u : BitVec w) (h : intVal signed u < intVal signed v) :
    intVal signed (v - 1#w) = intVal signed v - 1 := by
  rcases Nat.eq_zero_or_pos w with h0 | h0
  · subst h0
    have : u = v := by
      apply BitVec.eq_of_toNat_eq
      have := u.isLt
      have := v.isLt
      omega
    subst this; omega
  · have hp : (1 : Nat) < 2 ^ w := Nat.one_lt_two_pow (by omega)
    cases signed with
    | true =>
      simp only [intVal, if_true] at *
      have b1 := BitVec.two_mul_toInt_lt (x := v)
      have b2 := BitVec.le_two_mul_toInt (x := u)
      have e1 : (2 : Int) ^ w = 2 * 2 ^ (w - 1) := by
        rw [show w = (w - 1) + 1 by omega, Int.pow_succ]; simp; omega
      have hone : (1#w).toInt = 1 ∨ w = 1 := by
        by_cases hw : w = 1
        · exact Or.inr hw
        · left
          exact BitVec.toInt_one (by omega)
      rcases hone with hone | hw
      · rw [BitVec.toInt_sub, hone]
        have e2 : ((2 ^ w : Nat) : Int) = 2 ^ w := by push_cast; rfl
        rw [Int.bmod_eq_of_le_mul_two]
        · omega
        · omega
      · subst hw
        have : ∀ u v : BitVec 1, u.toInt < v.toInt → (v - 1#1).toInt = v.toInt - 1 := by decide
        exact this u v h
    | false =>
      simp only [intVal, Bool.false_eq_true, if_false] at *
      have := v.isLt
      have h1 : (1#w).toNat = 1 := by simp; omega
      rw [BitVec.toNat_sub, h1]
      have : 2 ^ w - 1 + v.toNat = (v.toNat - 1) + 2 ^ w := by omega
      rw [this, Nat.add_mod_right, Nat.mod_eq_of_lt (by omega)]
      omega

theorem intVal_add_one (signed : Bool) {w : Nat} (v u : BitVec w) (h : intVal signed v < intVal signed u) :
    intVal signed (v + 1#w) = intVal signed v + 1 := by
  rcases Nat.eq_zero_or_pos w with h0 | h0
  · subst h0
    have : u = v := by
      apply BitVec.eq_of_toNat_eq
      have := u.isLt
      have := v.isLt
      omega
    subst this; omega
  · have hp : (1 : Nat) < 2 ^ w := Nat.one_lt_two_pow (by omega)
    cases signed with
    | true =>
      simp only [intVal, if_true] at *
      have b1 := BitVec.two_mul_toInt_lt (x := u)
      have b2 := BitVec.le_two_mul_toInt (x := v)
      have hone : (1#w).toInt = 1 ∨ w = 1 := by
        by_cases hw : w = 1
        · exact Or.inr hw
        · left
          exact BitVec.toInt_one (by omega)
      rcases hone with hone | hw
      · rw [BitVec.toInt_add, hone]
        have e2 : ((2 ^ w : Nat) : Int) = 2 ^ w := by push_cast; rfl
        rw [Int.bmod_eq_of_le_mul_two]
        · omega
        · omega
      · subst hw
        have : ∀ u v : BitVec 1, v.toInt < u.toInt → (v + 1#1).toInt = v.toInt + 1 := by decide
        exact this u v h
    | false =>
      simp only [intVal, Bool.false_eq_true, if_false] at *
      have := u.isLt
      have h1 : (1#w).toNat = 1 := by simp; omega
      rw [BitVec.toNat_add, h1, Nat.mod_eq_of_lt (by omega)]
      omega

theorem intAsc_valid (signed : Bool) (w : Nat) (cmp : Bool) : (intAsc signed w cmp).Valid :=
  valid_of_rank _ (intVal signed) (intVal signed) (fun _ _ => rfl) (fun _ _ => rfl) (intVal_inj signed) (fun _ _ h => h)
    (fun _ => intVal_inj signed) (intVal_highest signed) (intVal_lowest signed) (fun v u h => intVal_sub_one signed v u h)
    (minOf_mem _) (minOf_le _) (maxOf_mem _) (maxOf_ge _) (fun a b c => by
      rcases medianLane_mem cmp (intAsc signed w cmp).lt (minOf_mem (intVal signed)) (maxOf_mem (intVal signed)) a b c with h | h | h
      · exact Or.inl (congrArg _ h)
      · exact Or.inr (Or.inl (congrArg _ h))
      · exact Or.inr (Or.inr (congrArg _ h)))

theorem intDesc_valid (signed : Bool) (w : Nat) (cmp : Bool) : (intDesc signed w cmp).Valid :=
  valid_of_rank _ (fun x => - intVal signed x) (fun x => - intVal signed x)
    (fun a b => by show decide (_ < _) = _; rw [decide_eq_decide]; omega)
    (fun a b => by show decide (_ < _) = _; rw [decide_eq_decide]; omega)
    (fun a b h => intVal_inj signed a b (by simpa using h)) (fun _ _ h => h)
    (fun _ a b h => intVal_inj signed a b (by simpa using h))
    (fun x => by have := intVal_lowest signed x; simpa [intDesc] using this)
    (fun x => by have := intVal_highest signed x; simpa [intDesc] using this)
    (fun v u h => by
      have := intVal_add_one signed v u (by simpa using h)
      show - intVal signed (v + 1#w) = _
      rw [this]; omega)
    (maxOf_mem _) (fun a b => by have := maxOf_ge (intVal signed) a b; simp only [intDesc]; omega)
    (minOf_mem _) (fun a b => by have := minOf_le (intVal signed) a b; simp only [intDesc]; omega)
    (fun a b c => by
      rcases medianLane_mem cmp (intDesc signed w cmp).lt (maxOf_mem (intVal signed)) (minOf_mem (intVal signed)) a b c with h | h | h
      · exact Or.inl (congrArg (fun x => - intVal signed x) h)
      · exact Or.inr (Or.inl (congrArg (fun x => - intVal signed x) h))
      · exact Or.inr (Or.inr (congrArg (fun x => - intVal signed x) h)))

/-! K32V32 -/

theorem key32_eq (x : BitVec 64) : key32 x = (x.toNat / 2 ^ 32 : Nat) := by
  unfold key32; rw [BitVec.toNat_ushiftRight, Nat.shiftRight_eq_div_pow]

theorem kv64_minle (a b : BitVec 64) : key32 (minOf (intVal false) a b) ≤ key32 a ∧ key32 (minOf (intVal false) a b) ≤ key32 b := by
  have := minOf_le (intVal false) a b
  simp only [intVal, Bool.false_eq_true, if_false] at this
  simp only [key32_eq]
  have h1 : (minOf (intVal false) a b).toNat ≤ a.toNat := by omega
  have h2 : (minOf (intVal false) a b).toNat ≤ b.toNat := by omega
  omega

theorem kv64_maxge (a b : BitVec 64) : key32 a ≤ key32 (maxOf (intVal false) a b) ∧ key32 b ≤ key32 (maxOf (intVal false) a b) := by
  have := maxOf_ge (intVal false) a b
  simp only [intVal, Bool.false_eq_true, if_false] at this
  simp only [key32_eq]
  have h1 : a.toNat ≤ (maxOf (intVal false) a b).toNat := by omega
  have h2 : b.toNat ≤ (maxOf (intVal false) a b).toNat := by omega
  omega

theorem kv64Asc_valid (cmp : Bool) : (kv64Asc cmp).Valid :=
  valid_of_rank _ key32 (intVal false) (fun _ _ => rfl) (fun _ _ => rfl) (intVal_inj false)
    (fun a b h => by simp only [key32_eq] at h; simp only [intVal, Bool.false_eq_true, if_false]; omega)
    (fun h => by cases h) (intVal_highest false)
    (fun x => by simp only [key32_eq, kv64Asc, lowest]; simp; omega)
    (fun v u h => by
      show key32 (v - (1#64 <<< 32)) = _
      simp only [key32_eq] at *
      have e : (1#64 <<< 32).toNat = 2 ^ 32 := by decide
      have := v.isLt
      rw [BitVec.toNat_sub, e]
      omega)
    (minOf_mem _) kv64_minle (maxOf_mem _) kv64_maxge
    (fun a b c => by
      rcases medianLane_mem cmp (kv64Asc cmp).lt (minOf_mem (intVal false)) (maxOf_mem (intVal false)) a b c with h | h | h
      · exact Or.inl (congrArg _ h)
      · exact Or.inr (Or.inl (congrArg _ h))
      · exact Or.inr (Or.inr (congrArg _ h)))

theorem kv64Desc_valid (cmp : Bool) : (kv64Desc cmp).Valid :=
  valid_of_rank _ (fun x => - key32 x) (fun x => - intVal false x)
    (fun a b => by show decide (_ < _) = _; rw [decide_eq_decide]; omega)
    (fun a b => by show decide (_ < _) = _; rw [decide_eq_decide]; omega)
    (fun a b h => intVal_inj false a b (by simpa using h))
    (fun a b h => by simp only [key32_eq] at h; simp only [intVal, Bool.false_eq_true, if_false]; omega)
    (fun h => by cases h)
    (fun x => by have := intVal_lowest false x; simpa [kv64Desc] using this)
    (fun x => by
      have e : (highest false 64).toNat = 2 ^ 64 - 1 := by decide
      simp only [key32_eq, kv64Desc, e]
      have := x.isLt
      omega)
    (fun v u h => by
      show - key32 (v + (1#64 <<< 32)) = _
      simp only [key32_eq] at *
      have e : (1#64 <<< 32).toNat = 2 ^ 32 := by decide
      have := u.isLt
      rw [BitVec.toNat_add, e]
      omega)
    (maxOf_mem _) (fun a b => by have := kv64_maxge a b; simp only [kv64Desc]; omega)
    (minOf_mem _) (fun a b => by have := kv64_minle a b; simp only [kv64Desc]; omega)
    (fun a b c => by
      rcases medianLane_mem cmp (kv64Desc cmp).lt (maxOf_mem (intVal false)) (minOf_mem (intVal false)) a b c with h | h | h
      · exact Or.inl (congrArg (fun x => - key32 x) h)
      · exact Or.inr (Or.inl (congrArg (fun x => - key32 x) h))
      · exact Or.inr (Or.inr (congrArg (fun x => - key32 x) h)))

/-! 128-bit keys -/

/-- Value of a 128-bit key. -/
def val128 (x : K128) : Int := (x.hi.toNat * 2 ^ 64 + x.lo.toNat : Nat)

/-- Key of a `K64V64`. -/
def key64 (x : K128) : Int := x.hi.toNat

theorem val128_inj (a b : K128) (h : val128 a = val128 b) : a = b := by
  unfold val128 at h
  have h1 := a.lo.isLt
  have h2 := b.lo.isLt
  have e1 : a.hi = b.hi := BitVec.eq_of_toNat_eq (by omega)
  have e2 : a.lo = b.lo := BitVec.eq_of_toNat_eq (by omega)
  cases a; cases b; simp_all

theorem lt128_eq (a b : K128) : lt128 a b = decide (val128 a < val128 b) := by
  unfold lt128 val128
  have h1 := a.lo.isLt
  have h2 := b.lo.isLt
  split
  · rename_i h
    rw [decide_eq_decide, h]; omega
  · rename_i h
    have : a.hi.toNat ≠ b.hi.toNat := fun hh => h (BitVec.eq_of_toNat_eq hh)
    rw [decide_eq_decide]; omega

theorem lt128Upper_eq (a b : K128) : lt128Upper a b = decide (key64 a < key64 b) := by
  unfold lt128Upper key64; rw [decide_eq_decide]; omega

theorem min128_mem (lt : K128 → K128 → Bool) (a b : K128) : min128 lt a b = a ∨ min128 lt a b = b := by
  unfold min128; split <;> simp

theorem max128_mem (lt : K128 → K128 → Bool) (a b : K128) : max128 lt a b = a ∨ max128 lt a b = b := by
  unfold max128; split <;> simp

theorem min128_le {lt : K128 → K128 → Bool} {val : K128 → Int} (h : ∀ a b, lt a b = decide (val a < val b)) (a b : K128) :
    val (min128 lt a b) ≤ val a ∧ val (min128 lt a b) ≤ val b := by
  unfold min128; rw [h]; split <;> simp at * <;> omega

theorem max128_ge {lt : K128 → K128 → Bool} {val : K128 → Int} (h : ∀ a b, lt a b = decide (val a < val b)) (a b : K128) :
    val a ≤ val (max128 lt a b) ∧ val b ≤ val (max128 lt a b) := by
  unfold max128; rw [h]; split <;> simp at * <;> omega

theorem bv_xor_cancel {w : Nat} (x y z : BitVec w) :
    x ^^^ y ^^^ z ^^^ x ^^^ y = z ∧ x ^^^ y ^^^ z ^^^ y ^^^ x = z ∧ x ^^^ y ^^^ z ^^^ x ^^^ z = y ∧ x ^^^ y ^^^ z ^^^ z ^^^ x = y ∧
      x ^^^ y ^^^ z ^^^ y ^^^ z = x ∧ x ^^^ y ^^^ z ^^^ z ^^^ y = x ∧ x ^^^ x ^^^ x ^^^ x ^^^ x = x := by
  refine ⟨?_, ?_, ?_, ?_, ?_, ?_, ?_⟩ <;>
  · apply BitVec.eq_of_getLsbD_eq
    intro i hi
    simp only [BitVec.getLsbD_xor]
    cases x.getLsbD i <;> cases y.getLsbD i <;> cases z.getLsbD i <;> rfl

/-- The xor trick yields one of the three if the two removed are the extremes. -/
theorem xor_median {w : Nat} (x y z m l : BitVec w) (hm : m = x ∨ m = y ∨ m = z) (hl : l = x ∨ l = y ∨ l = z)
    (heq : m = l → x = y ∧ y = z) :
    x ^^^ y ^^^ z ^^^ m ^^^ l = x ∨ x ^^^ y ^^^ z ^^^ m ^^^ l = y ∨ x ^^^ y ^^^ z ^^^ m ^^^ l = z := by
  obtain ⟨h1, h2, h3, h4, h5, h6, h7⟩ := bv_xor_cancel x y z
  rcases hm with rfl | rfl | rfl <;> rcases hl with rfl | rfl | rfl <;>
    first
      | (obtain ⟨e1, e2⟩ := heq rfl; subst e1; subst e2; left; exact h7)
      | simp only [h1, h2, h3, h4, h5, h6, true_or, or_true]

theorem median128_hi {first last : K128 → K128 → K128} (v0 v1 v2 : K128) :
    (median128 first last v0 v1 v2).hi = v0.hi ^^^ v1.hi ^^^ v2.hi ^^^ (first (first v0 v1) v2).hi ^^^ (last (last v0 v1) v2).hi := rfl

theorem median128_lo {first last : K128 → K128 → K128} (v0 v1 v2 : K128) :
    (median128 first last v0 v1 v2).lo = v0.lo ^^^ v1.lo ^^^ v2.lo ^^^ (first (first v0 v1) v2).lo ^^^ (last (last v0 v1) v2).lo := rfl

theorem chain_mem {f : K128 → K128 → K128} (fm : ∀ a b, f a b = a ∨ f a b = b) (a b c : K128) :
    f (f a b) c = a ∨ f (f a b) c = b ∨ f (f a b) c = c := by
  rcases fm (f a b) c with h | h <;> rw [h]
  · rcases fm a b with h | h <;> simp [h]
  · simp

/-- Three keys, xor of all with two members. -/
theorem K128.xor_median (x y z m l : K128) (hm : m = x ∨ m = y ∨ m = z) (hl : l = x ∨ l = y ∨ l = z)
    (heq : m = l → x = y ∧ y = z) : (((x.xor y).xor z).xor m).xor l = x ∨ (((x.xor y).xor z).xor m).xor l = y ∨
      (((x.xor y).xor z).xor m).xor l = z := by
  obtain ⟨a1, a2, a3, a4, a5, a6, a7⟩ := bv_xor_cancel x.hi y.hi z.hi
  obtain ⟨b1, b2, b3, b4, b5, b6, b7⟩ := bv_xor_cancel x.lo y.lo z.lo
  rcases hm with rfl | rfl | rfl <;> rcases hl with rfl | rfl | rfl <;>
    first
      | (obtain ⟨e1, e2⟩ := heq rfl; subst e1; subst e2; left; simp only [K128.xor, a7, b7])
      | simp only [K128.xor, a1, a2, a3, a4, a5, a6, b1, b2, b3, b4, b5, b6, true_or, or_true]

/-- `MedianOf3` of full 128-bit keys. -/
theorem median128_full (val : K128 → Int) (hinj : ∀ a b, val a = val b → a = b) {first last : K128 → K128 → K128}
    (fm : ∀ a b, first a b = a ∨ first a b = b) (fl : ∀ a b, val (first a b) ≤ val a ∧ val (first a b) ≤ val b)
    (lm : ∀ a b, last a b = a ∨ last a b = b) (ll : ∀ a b, val a ≤ val (last a b) ∧ val b ≤ val (last a b)) (a b c : K128) :
    median128 first last a b c = a ∨ median128 first last a b c = b ∨ median128 first last a b c = c := by
  refine K128.xor_median a b c _ _ (chain_mem fm a b c) (chain_mem lm a b c) ?_
  intro he
  have h1 := fl (first a b) c
  have h2 := fl a b
  have h3 := ll (last a b) c
  have h4 := ll a b
  rw [he] at h1
  exact ⟨hinj _ _ (by omega), hinj _ _ (by omega)⟩

/-- `MedianOf3` of key-value pairs: the key is that of one of the three; the value may be none of theirs. -/
theorem median128_upper {first last : K128 → K128 → K128} (sgn : Int) (hs : sgn = 1 ∨ sgn = -1)
    (fm : ∀ a b, first a b = a ∨ first a b = b)
    (fl : ∀ a b, sgn * key64 (first a b) ≤ sgn * key64 a ∧ sgn * key64 (first a b) ≤ sgn * key64 b)
    (lm : ∀ a b, last a b = a ∨ last a b = b)
    (ll : ∀ a b, sgn * key64 a ≤ sgn * key64 (last a b) ∧ sgn * key64 b ≤ sgn * key64 (last a b)) (a b c : K128) :
    key64 (median128 first last a b c) = key64 a ∨ key64 (median128 first last a b c) = key64 b ∨
      key64 (median128 first last a b c) = key64 c := by
  unfold key64
  rw [median128_hi]
  have := VQ.xor_median a.hi b.hi c.hi (first (first a b) c).hi (last (last a b) c).hi
    (by rcases chain_mem fm a b c with h | h | h <;> simp [h]) (by rcases chain_mem lm a b c with h | h | h <;> simp [h])
    (by
      intro he
      have h1 := fl (first a b) c
      have h2 := fl a b
      have h3 := ll (last a b) c
      have h4 := ll a b
      have he : key64 (first (first a b) c) = key64 (last (last a b) c) := by unfold key64; rw [he]
      have hh : ∀ x y : K128, key64 x = key64 y → x.hi = y.hi := fun x y h => BitVec.eq_of_toNat_eq (by unfold key64 at h; omega)
      rw [he] at h1
      rcases hs with rfl | rfl
      · exact ⟨hh _ _ (by omega), hh _ _ (by omega)⟩
      · exact ⟨hh _ _ (by omega), hh _ _ (by omega)⟩)
  rcases this with h | h | h <;> simp [h]

theorem val128_zero (x : K128) : val128 zero128 ≤ val128 x := by
  unfold val128 zero128; simp; omega

theorem val128_ones (x : K128) : val128 x ≤ val128 ones128 := by
  have h1 := x.hi.isLt
  have h2 := x.lo.isLt
  unfold val128 ones128; simp; omega

theorem prev128Asc_val (v u : K128) (h : val128 u < val128 v) : val128 (prev128Asc v) = val128 v - 1 := by
  have h1 := v.hi.isLt
  have h2 := v.lo.isLt
  unfold val128 at h
  unfold val128 prev128Asc
  simp only [BitVec.sub_zero]
  by_cases hz : v.lo = 0#64
  · rw [if_pos hz, hz]
    rw [hz] at h
    have e1 : (1#64).toNat = 1 := by decide
    have e2 : (0#64).toNat = 0 := by decide
    have e3 : (0#64 - 1#64).toNat = 2 ^ 64 - 1 := by decide
    rw [BitVec.toNat_sub, e1, e2, e3]
    rw [e2] at h
    omega
  · rw [if_neg hz]
    have hz : v.lo.toNat ≠ 0 := fun hh => hz (BitVec.eq_of_toNat_eq (by simpa using hh))
    have e1 : (1#64).toNat = 1 := by decide
    rw [BitVec.sub_zero, BitVec.toNat_sub, e1]
    omega

theorem prev128Desc_val (v u : K128) (h : val128 v < val128 u) : val128 (prev128Desc v) = val128 v + 1 := by
  have h1 := v.hi.isLt
  have h2 := v.lo.isLt
  have h3 := u.hi.isLt
  have h4 := u.lo.isLt
  unfold val128 at h
  unfold val128 prev128Desc
  have e1 : (1#64).toNat = 1 := by decide
  simp only [BitVec.add_zero]
  by_cases hz : (v.lo + 1#64).toNat < v.lo.toNat
  · rw [if_pos hz]
    rw [BitVec.toNat_add, e1] at hz
    rw [BitVec.toNat_add, BitVec.toNat_add, e1]
    omega
  · rw [if_neg hz, BitVec.add_zero]
    rw [BitVec.toNat_add, e1] at hz
    rw [BitVec.toNat_add, e1]
    omega

theorem u128Asc_valid : u128Asc.Valid :=
  valid_of_rank _ val128 val128 lt128_eq lt128_eq val128_inj (fun _ _ h => h) (fun _ => val128_inj) val128_ones val128_zero
    prev128Asc_val (min128_mem _) (min128_le lt128_eq) (max128_mem _) (max128_ge lt128_eq) (fun a b c => by
      rcases median128_full val128 val128_inj (min128_mem lt128) (min128_le lt128_eq) (max128_mem lt128) (max128_ge lt128_eq) a b c with h | h | h
      · exact Or.inl (congrArg _ h)
      · exact Or.inr (Or.inl (congrArg _ h))
      · exact Or.inr (Or.inr (congrArg _ h)))

theorem u128Desc_valid : u128Desc.Valid :=
  valid_of_rank _ (fun x => - val128 x) (fun x => - val128 x)
    (fun a b => by show lt128 b a = _; rw [lt128_eq, decide_eq_decide]; omega)
    (fun a b => by show lt128 b a = _; rw [lt128_eq, decide_eq_decide]; omega)
    (fun a b h => val128_inj a b (by simpa using h)) (fun _ _ h => h) (fun _ a b h => val128_inj a b (by simpa using h))
    (fun x => by have := val128_zero x; simpa [u128Desc] using this) (fun x => by have := val128_ones x; simpa [u128Desc] using this)
    (fun v u h => by
      have := prev128Desc_val v u (by simpa using h)
      show - val128 (prev128Desc v) = _
      rw [this]; omega)
    (max128_mem _) (fun a b => by have := max128_ge lt128_eq a b; simp only [u128Desc]; omega)
    (min128_mem _) (fun a b => by have := min128_le lt128_eq a b; simp only [u128Desc]; omega)
    (fun a b c => by
      rcases median128_full (fun x => - val128 x) (fun a b h => val128_inj a b (by simpa using h)) (max128_mem lt128)
        (fun a b => by have := max128_ge lt128_eq a b; omega) (min128_mem lt128)
        (fun a b => by have := min128_le lt128_eq a b; omega) a b c with h | h | h
      · exact Or.inl (congrArg (fun x => - val128 x) h)
      · exact Or.inr (Or.inl (congrArg (fun x => - val128 x) h))
      · exact Or.inr (Or.inr (congrArg (fun x => - val128 x) h)))

theorem kv128Asc_valid : kv128Asc.Valid :=
  valid_of_rank _ key64 val128 lt128Upper_eq lt128_eq val128_inj
    (fun a b h => by have h1 := a.lo.isLt; have h2 := b.lo.isLt; unfold key64 at h; unfold val128; omega)
    (fun h => by cases h) val128_ones (fun x => by unfold key64; simp [kv128Asc, zero128])
    (fun v u h => by
      have h1 := v.hi.isLt
      have e1 : (1#64).toNat = 1 := by decide
      unfold key64 at *
      show ((v.hi - 1#64).toNat : Int) = _
      rw [BitVec.toNat_sub, e1]; omega)
    (min128_mem _) (min128_le lt128Upper_eq) (max128_mem _) (max128_ge lt128Upper_eq)
    (median128_upper 1 (Or.inl rfl) (min128_mem _) (fun a b => by have := min128_le lt128Upper_eq a b; omega) (max128_mem _)
      (fun a b => by have := max128_ge lt128Upper_eq a b; omega))

theorem kv128Desc_valid : kv128Desc.Valid :=
  valid_of_rank _ (fun x => - key64 x) (fun x => - val128 x)
    (fun a b => by show lt128Upper b a = _; rw [lt128Upper_eq, decide_eq_decide]; omega)
    (fun a b => by show lt128 b a = _; rw [lt128_eq, decide_eq_decide]; omega)
    (fun a b h => val128_inj a b (by simpa using h))
    (fun a b h => by have h1 := a.lo.isLt; have h2 := b.lo.isLt; unfold key64 at h; unfold val128; omega)
    (fun h => by cases h) (fun x => by have := val128_zero x; simpa [kv128Desc] using this)
    (fun x => by
      have h1 := x.hi.isLt
      have e : ones128.hi.toNat = 2 ^ 64 - 1 := by decide
      unfold key64; simp only [kv128Desc, e]; omega)
    (fun v u h => by
      have h1 := u.hi.isLt
      have e1 : (1#64).toNat = 1 := by decide
      unfold key64 at *
      show - ((v.hi + 1#64).toNat : Int) = _
      rw [BitVec.toNat_add, e1]; omega)
    (max128_mem _) (fun a b => by have := max128_ge lt128Upper_eq a b; simp only [kv128Desc]; omega)
    (min128_mem _) (fun a b => by have := min128_le lt128Upper_eq a b; simp only [kv128Desc]; omega)
    (fun a b c => by
      rcases median128_upper (-1) (Or.inr rfl) (max128_mem lt128Upper) (fun a b => by have := max128_ge lt128Upper_eq a b; omega)
        (min128_mem lt128Upper) (fun a b => by have := min128_le lt128Upper_eq a b; omega) a b c with h | h | h
      · exact Or.inl (congrArg (fun x => - x) h)
      · exact Or.inr (Or.inl (congrArg (fun x => - x) h))
      · exact Or.inr (Or.inr (congrArg (fun x => - x) h)))

end VQ
end Hwy
