import Verif.SortKeys

/-! # NaN in `Select` and `PartialSort`; examples -/

namespace Hwy
namespace VQ

variable {α π : Type}

open Net

theorem exists_sorted {lt : α → α → Bool} (ho : IsOrder lt) (l : List α) (h : l.length < 2 ^ 64) : ∃ S : List α, S.Perm l ∧ Sorted lt S := by
  by_cases h0 : l = []
  · subst h0; exact ⟨[], List.Perm.refl _, List.Pairwise.nil⟩
  · obtain ⟨a, h1, h2, h3, h4⟩ := C21_heapSort ho l l.length (List.length_pos_iff.mpr h0) (Nat.le_refl _) h
    obtain ⟨q1, q2⟩ := take_of_drop_nil h4 rfl
    rw [q1] at h2 h3
    rw [q2] at h2
    exact ⟨a, h2, h3⟩

theorem take_eq_of_prefix {S : List α} {n k : Nat} {x : α} {L rest : List α} (h : L ++ rest = S ++ List.replicate n x) (hk : L.length = k)
    (hS : k ≤ S.length) : L = S.take k := by
  have := congrArg (List.take k) h
  rwa [List.take_left' hk, List.take_append_of_le_length hS] at this

theorem lastValue_ge {t : Traits α} (hv : t.Valid) (x : α) : t.lt t.lastValue x = false := by
  cases hx : t.lt t.lastValue x with
  | false => rfl
  | true =>
    have := hv.refines _ _ hx
    rw [hv.lastNet] at this; cases this

/-- **C24 for PartialSort, as far as it holds**: if there are at least `k` numbers, the first `k` keys are the first `k` numbers
of the sorted input. (But other numbers may be lost, see `C24_partialSort_loses_key`.) -/
theorem C24_partialSort_prefix {e : Env α} (he : e.Valid) {t : Traits α} (hv : t.Valid) (hkv : t.isKV = false) (enabled : Bool)
    (addr k : Nat) (canon : π) (keys : List (FKey α π)) (buf : List α) (rng : Rng)
    (hk : k ≤ (keys.filterMap FKey.num?).length) (hk1 : enabled = false → 0 < k ∧ k < keys.length) (hk2 : e.debug = true → 0 < k)
    (h64 : keys.length + e.c.N ≤ 2 ^ 64) (hb : e.bufNum ≤ buf.length) :
    ∃ out S, withNaN e t canon (partialSortKeys enabled e t addr k) keys buf rng = .ok out ∧ S.Perm (keys.filterMap FKey.num?) ∧
      Sorted t.lt S ∧ out.take k = (S.take k).map .num := by
  have hNp := he.N_pos
  unfold withNaN
  rw [countAndReplaceNaN_spec _ hNp, ok_bind]
  simp only []
  rw [toNums_replace, ok_bind]
  have hlen : (numsWith t.lastValue keys).length = keys.length := by simp [numsWith]
  have hperm := numsWith_perm t.lastValue keys
  have hnl : keys.length = (keys.filterMap FKey.num?).length + keys.countP FKey.isNaN := by
    rw [← hlen, hperm.length_eq]; simp
  obtain ⟨s, q1, q2, q3⟩ := C23_partialSort he hv enabled addr k (numsWith t.lastValue keys) buf rng (by omega)
    (fun h => by rw [hlen]; exact hk1 h) hk2 (by omega) hb
  rw [q1, ok_bind]
  have hsl : s.keys.length = keys.length := by rw [q2.length_eq, hlen]
  rw [fillNaN_spec _ hNp _ _ _ (by rw [List.length_map, hsl]; exact List.countP_le_length), List.length_map, hsl]
  -- the whole array, sorted
  obtain ⟨R, r1, r2⟩ := exists_sorted hv.order (s.keys.drop k) (by rw [List.length_drop]; omega)
  have hsort : Sorted t.lt (s.keys.take k ++ R) :=
    sorted_append q3.1 r2 (fun x hx y hy => q3.2 x hx y (r1.mem_iff.mp hy))
  have hp2 : (s.keys.take k ++ R).Perm (keys.filterMap FKey.num? ++ List.replicate (keys.countP FKey.isNaN) t.lastValue) := by
    refine List.Perm.trans (List.Perm.append_left _ r1) ?_
    rw [List.take_append_drop]
    exact q2.trans hperm
  obtain ⟨S, w1, w2⟩ := sorted_last (hv.antisymm hkv) (lastValue_ge hv) hp2 hsort
  have hSl := w2.length_eq
  have hS : Sorted t.lt S := by
    have : Sorted t.lt (S ++ List.replicate (keys.countP FKey.isNaN) t.lastValue) := by rw [← w1]; exact hsort
    exact (List.pairwise_append.mp this).1
  refine ⟨_, S, rfl, w2, hS, ?_⟩
  have htl : (s.keys.take k).length = k := by rw [List.length_take]; omega
  rw [← take_eq_of_prefix w1 htl (by omega), List.take_append_of_le_length (by rw [List.length_take, List.length_map]; omega),
    List.take_take, Nat.min_eq_left (by omega), List.map_take]

/-- **C24 for Select, as far as it holds**: if there are more than `k` numbers, `keys[k]` is the one that sorting would put there. -/
theorem C24_select_kth {e : Env α} (he : e.Valid) {t : Traits α} (hv : t.Valid) (hkv : t.isKV = false) (enabled : Bool)
    (addr k : Nat) (canon : π) (keys : List (FKey α π)) (buf : List α) (rng : Rng)
    (hk : k < (keys.filterMap FKey.num?).length) (h64 : keys.length + e.c.N ≤ 2 ^ 64) (hb : e.bufNum ≤ buf.length) :
    ∃ out S x, withNaN e t canon (selectKeys enabled e t addr k) keys buf rng = .ok out ∧ S.Perm (keys.filterMap FKey.num?) ∧
      Sorted t.lt S ∧ S[k]? = some x ∧ out[k]? = some (.num x) := by
  have hNp := he.N_pos
  unfold withNaN
  rw [countAndReplaceNaN_spec _ hNp, ok_bind]
  simp only []
  rw [toNums_replace, ok_bind]
  have hlen : (numsWith t.lastValue keys).length = keys.length := by simp [numsWith]
  have hperm := numsWith_perm t.lastValue keys
  have hnl : keys.length = (keys.filterMap FKey.num?).length + keys.countP FKey.isNaN := by
    rw [← hlen, hperm.length_eq]; simp
  obtain ⟨s, q1, q2, q3⟩ := C22_select he hv enabled addr k (numsWith t.lastValue keys) buf rng (by omega) (by omega) hb
  rw [q1, ok_bind]
  have hsl : s.keys.length = keys.length := by rw [q2.length_eq, hlen]
  rw [fillNaN_spec _ hNp _ _ _ (by rw [List.length_map, hsl]; exact List.countP_le_length), List.length_map, hsl]
  obtain ⟨x, e1, h1, h2⟩ := q3
  have hkk := (List.getElem?_eq_some_iff.mp e1).1
  have hx := (List.getElem?_eq_some_iff.mp e1).2
  obtain ⟨A, a1, a2⟩ := exists_sorted hv.order (s.keys.take k) (by rw [List.length_take]; omega)
  obtain ⟨B, b1, b2⟩ := exists_sorted hv.order (s.keys.drop (k + 1)) (by rw [List.length_drop]; omega)
  have hsort : Sorted t.lt (A ++ x :: B) := by
    refine sorted_append a2 (List.Pairwise.cons (fun y hy => h2 y (b1.mem_iff.mp hy)) b2) ?_
    intro a ha y hy
    have ha := h1 a (a1.mem_iff.mp ha)
    rcases List.mem_cons.mp hy with rfl | hy
    · exact ha
    · exact hv.order.le_trans ha (h2 y (b1.mem_iff.mp hy))
  have hp2 : (A ++ x :: B).Perm (keys.filterMap FKey.num? ++ List.replicate (keys.countP FKey.isNaN) t.lastValue) := by
    refine List.Perm.trans (List.Perm.append a1 (List.Perm.cons x b1)) ?_
    rw [← hx, List.cons_getElem_drop_succ, List.take_append_drop]
    exact q2.trans hperm
  obtain ⟨S, w1, w2⟩ := sorted_last (hv.antisymm hkv) (lastValue_ge hv) hp2 hsort
  have hSl := w2.length_eq
  have hS : Sorted t.lt S := by
    have : Sorted t.lt (S ++ List.replicate (keys.countP FKey.isNaN) t.lastValue) := by rw [← w1]; exact hsort
    exact (List.pairwise_append.mp this).1
  have hAl : A.length = k := by rw [a1.length_eq, List.length_take]; omega
  refine ⟨_, S, x, rfl, w2, hS, ?_, ?_⟩
  · have := congrArg (fun l => l[k]?) w1
    rw [List.getElem?_append_right (by omega), hAl, Nat.sub_self, List.getElem?_cons_zero, List.getElem?_append_left (by omega)] at this
    exact this.symm
  · rw [List.getElem?_append_left (by rw [List.length_take, List.length_map]; omega), List.getElem?_take_of_lt (by omega),
      List.getElem?_map, e1]
    rfl

/-! ### Where it does not hold -/

/-- Double precision. -/
def f64 : FloatFmt := ⟨11, 52⟩

/-- The number whose bits are `x`. -/
def tiny (x : Nat) (h : x < 1000 := by decide) : FNum f64 := ⟨x, by simp [FloatFmt.inf, f64]; omega⟩

/-- 128-bit vectors of doubles. -/
def envF64 : Env (FNum f64) := stdEnv 8 16 2 false true true false false true (fun v _ => v) (tiny 0)

theorem envF64_valid : envF64.Valid :=
  stdEnv_valid 8 16 2 (by decide) (by decide) (by decide) false true true false false true (Or.inl rfl) _ _

/-- 22 keys, one of them NaN. -/
def keysNaN : List (FKey (FNum f64) Unit) :=
  [.num (tiny 5), .nan (), .num (tiny 9), .num (tiny 3), .num (tiny 17), .num (tiny 12), .num (tiny 8), .num (tiny 1), .num (tiny 30),
    .num (tiny 22), .num (tiny 41), .num (tiny 2), .num (tiny 6), .num (tiny 33), .num (tiny 27), .num (tiny 19), .num (tiny 14),
    .num (tiny 11), .num (tiny 50), .num (tiny 51), .num (tiny 40), .num (tiny 7)]

/-- Whether `out` lacks the number 11 and contains infinity instead. -/
def lost11 (out : M (List (FKey (FNum f64) Unit))) : Bool :=
  match out with
  | .ok l => !(l.filterMap FKey.num?).any (fun y => decide (y.val = 11)) && (l.filterMap FKey.num?).any (fun y => decide (y.val = f64.inf))
  | .error _ => false

theorem lost11_spec {out : M (List (FKey (FNum f64) Unit))} (h : lost11 out = true) :
    ∃ l, out = .ok l ∧ ¬ (l.filterMap FKey.num?).Perm (keysNaN.filterMap FKey.num?) := by
  cases out with
  | error _ => cases h
  | ok l =>
    refine ⟨l, rfl, fun hp => ?_⟩
    simp only [lost11, Bool.and_eq_true, Bool.not_eq_true'] at h
    have h11 : tiny 11 ∈ l.filterMap FKey.num? := hp.mem_iff.mpr (by decide +kernel)
    have := List.any_eq_false.mp h.1 _ h11
    exact this (by decide)

/-- **C24, code defect**: `Select` (`k = 2`) of 22 doubles with one NaN loses the number 11 and leaves an infinity that was not
in the input: the NaN was replaced by infinity, which need not end up last. -/
theorem C24_select_loses_key : ∃ l, withNaN envF64 (floatAsc f64 true) () (selectKeys true envF64 (floatAsc f64 true) 0 2) keysNaN
      (List.replicate envF64.bufNum (tiny 0)) ⟨1, 2, 3⟩ = .ok l ∧ ¬ (l.filterMap FKey.num?).Perm (keysNaN.filterMap FKey.num?) :=
  lost11_spec (by decide +kernel)

/-- **C24, code defect**: the same for `PartialSort`. -/
theorem C24_partialSort_loses_key : ∃ l, withNaN envF64 (floatAsc f64 true) () (partialSortKeys true envF64 (floatAsc f64 true) 0 2) keysNaN
      (List.replicate envF64.bufNum (tiny 0)) ⟨1, 2, 3⟩ = .ok l ∧ ¬ (l.filterMap FKey.num?).Perm (keysNaN.filterMap FKey.num?) :=
  lost11_spec (by decide +kernel)

/-! ### Examples: the hypotheses can be met -/

example (rng : Rng) : ∃ L, withNaN envF64 (floatAsc f64 true) () (sortKeys true envF64 (floatAsc f64 true) 3) keysNaN
      (List.replicate envF64.bufNum (tiny 0)) rng = .ok (L.map .num ++ [.nan ()]) ∧ L.Perm (keysNaN.filterMap FKey.num?) ∧
      Sorted (floatAsc f64 true).lt L :=
  C24_sort envF64_valid (floatAsc_valid f64 true) rfl true 3 () keysNaN _ rng (by decide) (by simp) (fun h => by cases h)

example (rng : Rng) : ∃ out S x, withNaN envF64 (floatAsc f64 true) () (selectKeys true envF64 (floatAsc f64 true) 3 2) keysNaN
      (List.replicate envF64.bufNum (tiny 0)) rng = .ok out ∧ S.Perm (keysNaN.filterMap FKey.num?) ∧ Sorted (floatAsc f64 true).lt S ∧
      S[2]? = some x ∧ out[2]? = some (.num x) :=
  C24_select_kth envF64_valid (floatAsc_valid f64 true) rfl true 3 2 () keysNaN _ rng (by decide +kernel) (by decide) (by simp)

/-- 256-bit vectors of `K64V64`, 500 pairs with few distinct keys. -/
def envKV128 : Env K128 := stdEnv 16 32 2 false true true false false true (fun v _ => v) zero128

def pairs500 : List K128 := (List.range 500).map (fun i => ⟨BitVec.ofNat 64 (i * i % 7), BitVec.ofNat 64 i⟩)

example (rng : Rng) (addr : Nat) : ∃ s, sortKeys true envKV128 (if true then kv128Desc else kv128Asc) addr
      ⟨pairs500, List.replicate envKV128.bufNum zero128, rng⟩ = .ok s ∧ s.keys.Perm pairs500 ∧
      s.keys.Pairwise (fun x y => if true then y.hi.toNat ≤ x.hi.toNat else x.hi.toNat ≤ y.hi.toNat) :=
  C17_C18_kv128 (stdEnv_valid 16 32 2 (by decide) (by decide) (by decide) _ _ _ _ _ _ (Or.inl rfl) _ _) true true addr pairs500 _ rng
    (by simp [pairs500, stdEnv]) (by rw [List.length_replicate]; exact Nat.le_refl _) (fun h => by cases h)

/-- 512-bit vectors of `int16_t`, 1000 keys. -/
def envI16 : Env (BitVec 16) := stdEnv 2 64 32 false true true false false true (fun v _ => v) 0

example (keys : List (BitVec 16)) (hk : keys.length = 1000) (rng : Rng) (addr : Nat) :
    ∃ s, sortKeys true envI16 (intAsc true 16 false) addr ⟨keys, List.replicate envI16.bufNum 0, rng⟩ = .ok s ∧ s.keys.Perm keys ∧
      s.keys.Pairwise (fun x y => intVal true x ≤ intVal true y) :=
  C17_C18_int_ascending (stdEnv_valid 2 64 32 (by decide) (by decide) (by decide) _ _ _ _ _ _ (Or.inl rfl) _ _) true false true addr
    keys _ rng (by simp [hk, stdEnv]) (by rw [List.length_replicate]; exact Nat.le_refl _) (fun h => by cases h)

/-- 256-bit vectors of `int16_t`, the same keys: `PartialSort` with `k = num`, `Select`. -/
example (keys : List (BitVec 16)) (hk : keys.length = 1000) (rng : Rng) (addr : Nat) :
    ∃ s, partialSortKeys true envI16 (intDesc true 16 false) addr 1000 ⟨keys, List.replicate envI16.bufNum 0, rng⟩ = .ok s ∧
      s.keys.Perm keys ∧ PartiallySorted (intDesc true 16 false).lt s.keys 1000 :=
  C23_partialSort (stdEnv_valid 2 64 32 (by decide) (by decide) (by decide) _ _ _ _ _ _ (Or.inl rfl) _ _) (intDesc_valid true 16 false) true addr
    1000 keys _ rng (by omega) (fun h => by cases h) (fun _ => by decide) (by simp [hk, stdEnv]) (by rw [List.length_replicate]; exact Nat.le_refl _)

/-- `PartialSort` with `k = 0` in a debug build. -/
example (keys : List (BitVec 16)) (hk : keys.length = 1000) (rng : Rng) (addr : Nat) :
    partialSortKeys true envI16 (intDesc true 16 false) addr 0 ⟨keys, List.replicate envI16.bufNum 0, rng⟩ = .error .abort :=
  C23_partialSort_zero_debug (stdEnv_valid 2 64 32 (by decide) (by decide) (by decide) _ _ _ _ _ _ (Or.inl rfl) _ _) (intDesc_valid true 16 false)
    addr keys _ rng rfl (by rw [hk]; decide) rfl rfl (by simp [hk, stdEnv]) (by rw [List.length_replicate]; exact Nat.le_refl _)

end VQ
end Hwy
