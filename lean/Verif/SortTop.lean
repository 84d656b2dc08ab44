import Verif.RecurseProof
import Verif.AlgoSpec

/-!
# `Sort`, `PartialSort`, `Select` (hwy/contrib/sort/vqsort-inl.h:1920-2085)

First the part that is common to all key types (`sortKeys` etc. of Recurse.lean), then the handling of NaN.
-/

namespace Hwy
namespace VQ

variable {α π : Type}

open Net

/-! ### Model of the NaN handling -/

/-- A floating-point number in memory: an ordered value (including infinities), or a NaN with a payload. -/
inductive FKey (α π : Type)
  | num (a : α)
  | nan (p : π)

/-- `IsNaN`. -/
def FKey.isNaN : FKey α π → Bool
  | .num _ => false
  | .nan _ => true

/-- The value, if it is not a NaN. -/
def FKey.num? : FKey α π → Option α
  | .num a => some a
  | .nan _ => none

/-- Body of the main loop of `CountAndReplaceNaN` (vqsort-inl.h:1933-1935). -/
def nanBlock (N : Nat) (sentinel : α) (i : Nat) (s : List (FKey α π) × Nat) : M (List (FKey α π) × Nat) := do
  let v ← Vec.loadU N s.1 i
  let keys ← blendedStore (List.replicate N (.num sentinel)) (v.map FKey.isNaN) s.1 i
  pure (keys, s.2 + (v.map FKey.isNaN).countP id)

/-- `IfThenElse(is_nan, sentinel, v)` (vqsort-inl.h:1943). -/
def replaceNaN (sentinel : α) (x : FKey α π) : FKey α π := if x.isNaN then .num sentinel else x

/-- `CountAndReplaceNaN` (vqsort-inl.h:1922-1946). -/
def countAndReplaceNaN (N : Nat) (sentinel zero : α) (keys : List (FKey α π)) : M (List (FKey α π) × Nat) := do
  let (i, keys, n) ← Vec.blocks N keys.length (nanBlock N sentinel) (keys.length + 1) 0 (keys, 0)
  let remaining := keys.length - i
  if N ≤ remaining then .error .ub
  else do
    let v ← Vec.loadN N (.num zero) keys i remaining
    let keys ← Vec.storeN (v.map (replaceNaN sentinel)) keys i remaining
    pure (keys, n + (v.map FKey.isNaN).countP id)

/-- The keys as seen by the sorting code, whose behaviour for NaN is not modelled: reaching it with a NaN is an error. -/
def toNums : List (FKey α π) → M (List α)
  | [] => .ok []
  | .nan _ :: _ => .error .ub
  | .num a :: l => do
    let r ← toNums l
    pure (a :: r)

/-- `if (num_nan != 0) Fill(d, GetLane(NaN(d)), num_nan, keys + num - num_nan)` (vqsort-inl.h:1993-1995, 2038-2040,
2079-2081). `canon` is the payload of `NaN(d)`. -/
def fillNaN (N : Nat) (canon : π) (n : Nat) (keys : List (FKey α π)) : M (List (FKey α π)) :=
  if n ≠ 0 then
    if keys.length < n then .error .ub
    else do
      let r ← Algo.fill N (.nan canon) n (keys.drop (keys.length - n))
      pure (keys.take (keys.length - n) ++ r)
  else .ok keys

/-- `Sort`, `PartialSort`, `Select` for floating-point keys; `f` is the part in the middle, which sees only numbers. The
scratch buffer is given as numbers. -/
def withNaN (e : Env α) (t : Traits α) (canon : π) (f : St α → M (St α)) (keys : List (FKey α π)) (buf : List α) (rng : Rng) :
    M (List (FKey α π)) := do
  let (keys, n) ← countAndReplaceNaN e.c.N t.lastValue e.c.zero keys
  let nums ← toNums keys
  let s ← f ⟨nums, buf, rng⟩
  fillNaN e.c.N canon n (s.keys.map .num)

/-! ### All key types: proofs -/

theorem handleSpecialCases_spec {e : Env α} (he : e.Valid) {t : Traits α} (hv : t.Valid) (mode : Mode) (s : St α)
    (h64 : s.keys.length + e.c.N ≤ 2 ^ 64) (hb : e.bufNum ≤ s.buf.length) :
    (∃ s', handleSpecialCases e t s = .ok (true, s') ∧ s'.keys.Perm s.keys ∧ s'.buf.length = s.buf.length ∧ Sorted t.lt s'.keys) ∨
      (handleSpecialCases e t s = .ok (false, s) ∧ e.bcNum < s.keys.length) := by
  have hNp := he.N_pos
  unfold handleSpecialCases
  by_cases hc : s.keys.length ≤ e.bcNum
  · rw [if_pos hc]
    obtain ⟨out, b, h1, h2, h3, h4⟩ := baseCase_spec he hv s.keys s.buf hc (by unfold Env.bufNum at hb; omega)
    rw [h1, ok_bind]
    exact Or.inl ⟨_, rfl, h4, h2, h3⟩
  · rw [if_neg hc]
    split
    · obtain ⟨s', q1, q2, q3, q4⟩ := heapAll_spec hv .sort s (by omega) (by omega)
      rw [q1, ok_bind]
      exact Or.inl ⟨s', rfl, q2, q3, q4⟩
    · exact Or.inr ⟨rfl, by omega⟩

/-- `Sort`, both configurations. -/
theorem sortKeys_spec {e : Env α} (he : e.Valid) {t : Traits α} (hv : t.Valid) (enabled : Bool) (addr : Nat) (s : St α)
    (h64 : s.keys.length + e.c.N ≤ 2 ^ 64) (hb : e.bufNum ≤ s.buf.length) (hn : enabled = false → s.keys ≠ []) :
    CallPost t.lt .sort s (sortKeys enabled e t addr s) := by
  have hNp := he.N_pos
  unfold sortKeys
  cases enabled with
  | false =>
    have := List.length_pos_iff.mpr (hn rfl)
    exact heapAll_spec hv .sort s this (by omega)
  | true =>
    rw [if_pos rfl]
    rcases handleSpecialCases_spec he hv .sort s h64 hb with ⟨s', h1, h2, h3, h4⟩ | ⟨h1, h2⟩
    · rw [h1, ok_bind]
      exact ⟨s', rfl, h2, h3, h4⟩
    · rw [h1, ok_bind]
      exact recurse_spec he hv 50 .sort addr s h64 hb (fun _ h => by rw [h] at h2; simp at h2)

/-- **C17.** `Sort` succeeds and puts the keys in order: for every length, contents, address, vector length and state of the
random generator; also without vqsort (heapsort), but then only for a nonempty array, see `C21_heapSort_empty`. -/
theorem C17_sort {e : Env α} (he : e.Valid) {t : Traits α} (hv : t.Valid) (enabled : Bool) (addr : Nat) (keys buf : List α) (rng : Rng)
    (h64 : keys.length + e.c.N ≤ 2 ^ 64) (hb : e.bufNum ≤ buf.length) (hn : enabled = false → keys ≠ []) :
    ∃ s, sortKeys enabled e t addr ⟨keys, buf, rng⟩ = .ok s ∧ Sorted t.lt s.keys := by
  obtain ⟨s, h1, h2, h3, h4⟩ := sortKeys_spec he hv enabled addr ⟨keys, buf, rng⟩ h64 hb hn
  exact ⟨s, h1, h4⟩

/-- **C18.** ...and the result is a permutation of the input: no key (with its value) is lost or duplicated. -/
theorem C18_sort {e : Env α} (he : e.Valid) {t : Traits α} (hv : t.Valid) (enabled : Bool) (addr : Nat) (keys buf : List α) (rng : Rng)
    (h64 : keys.length + e.c.N ≤ 2 ^ 64) (hb : e.bufNum ≤ buf.length) (hn : enabled = false → keys ≠ []) :
    ∃ s, sortKeys enabled e t addr ⟨keys, buf, rng⟩ = .ok s ∧ s.keys.Perm keys := by
  obtain ⟨s, h1, h2, h3, h4⟩ := sortKeys_spec he hv enabled addr ⟨keys, buf, rng⟩ h64 hb hn
  exact ⟨s, h1, h2⟩

theorem take_of_drop_nil {a b : List α} {n : Nat} (h : a.drop n = b.drop n) (hb : b.length = n) : a.take n = a ∧ b.take n = b := by
  rw [← hb, List.drop_length] at h
  have : a.length ≤ b.length := by
    have := congrArg List.length h
    simp at this; omega
  rw [← hb]
  exact ⟨List.take_of_length_le this, List.take_length⟩

/-- **C22.** `Select` with `k < num`: a permutation of the input in which `keys[k]` is the key that sorting would put there,
nothing before it comes after it and nothing after it comes before it. -/
theorem C22_select {e : Env α} (he : e.Valid) {t : Traits α} (hv : t.Valid) (enabled : Bool) (addr k : Nat) (keys buf : List α)
    (rng : Rng) (hk : k < keys.length) (h64 : keys.length + e.c.N ≤ 2 ^ 64) (hb : e.bufNum ≤ buf.length) :
    ∃ s, selectKeys enabled e t addr k ⟨keys, buf, rng⟩ = .ok s ∧ s.keys.Perm keys ∧ Selected t.lt s.keys k := by
  unfold selectKeys
  cases enabled with
  | false =>
    obtain ⟨a', h1, h2, h3, h4⟩ := C22_heapSelect hv.order keys keys.length k hk (Nat.le_refl _)
    rw [if_neg (by simp)]
    simp only []
    rw [h1, ok_bind]
    obtain ⟨q1, q2⟩ := take_of_drop_nil h4 rfl
    rw [q1] at h2 h3
    rw [q2] at h2
    exact ⟨_, rfl, h2, h3⟩
  | true =>
    rw [if_pos rfl]
    rcases handleSpecialCases_spec he hv .sort ⟨keys, buf, rng⟩ h64 hb with ⟨s', h1, h2, h3, h4⟩ | ⟨h1, h2⟩
    · rw [h1, ok_bind]
      exact ⟨s', rfl, h2, sorted_selected h4 (by rw [h2.length_eq]; exact hk)⟩
    · rw [h1, ok_bind]
      obtain ⟨s', q1, q2, q3, q4⟩ := recurse_spec he hv 50 (.select k) addr ⟨keys, buf, rng⟩ h64 hb (fun _ h => by
        have h : keys = [] := h
        rw [h] at hk; simp at hk)
      exact ⟨s', q1, q2, q4 (by rw [q2.length_eq]; exact hk)⟩

theorem selected_before {lt : α → α → Bool} (ho : IsOrder lt) {l : List α} {k : Nat} (h : Selected lt l k) :
    Before lt (l.take k) (l.drop k) := by
  obtain ⟨x, e, h1, h2⟩ := h
  have hk := (List.getElem?_eq_some_iff.mp e).1
  have hx := (List.getElem?_eq_some_iff.mp e).2
  intro a ha y hy
  rw [← List.cons_getElem_drop_succ (h := hk), hx] at hy
  rcases List.mem_cons.mp hy with rfl | hy
  · exact h1 a ha
  · exact ho.le_trans (h1 a ha) (h2 y hy)

/-- **C23.** `PartialSort`: a permutation of the input whose first `k` keys are sorted and not after any of the others.
`k <= num`, but without vqsort `0 < k < num` (see `C23_heapPartialSort_zero`, `_all`), and in debug builds `0 < k` if the
array is not handled as a special case (see `C23_partialSort_zero_debug`). -/
theorem C23_partialSort {e : Env α} (he : e.Valid) {t : Traits α} (hv : t.Valid) (enabled : Bool) (addr k : Nat) (keys buf : List α)
    (rng : Rng) (hk : k ≤ keys.length) (hk1 : enabled = false → 0 < k ∧ k < keys.length) (hk2 : e.debug = true → 0 < k)
    (h64 : keys.length + e.c.N ≤ 2 ^ 64) (hb : e.bufNum ≤ buf.length) :
    ∃ s, partialSortKeys enabled e t addr k ⟨keys, buf, rng⟩ = .ok s ∧ s.keys.Perm keys ∧ PartiallySorted t.lt s.keys k := by
  have hNp := he.N_pos
  unfold partialSortKeys
  cases enabled with
  | false =>
    obtain ⟨k1, k2⟩ := hk1 rfl
    obtain ⟨a', h1, h2, h3, h4⟩ := C23_heapPartialSort hv.order keys keys.length k k1 k2 (Nat.le_refl _) (by omega)
    rw [if_neg (by simp)]
    simp only []
    rw [h1, ok_bind]
    obtain ⟨q1, q2⟩ := take_of_drop_nil h4 rfl
    rw [q1] at h2 h3
    rw [q2] at h2
    exact ⟨_, rfl, h2, h3⟩
  | true =>
    rw [if_pos rfl]
    rcases handleSpecialCases_spec he hv .sort ⟨keys, buf, rng⟩ h64 hb with ⟨s', h1, h2, h3, h4⟩ | ⟨h1, h2⟩
    · rw [h1, ok_bind]
      have h4 : Sorted t.lt s'.keys := h4
      refine ⟨s', rfl, h2, ?_, ?_⟩
      · exact h4.sublist (List.take_sublist _ _)
      · rw [← List.take_append_drop k s'.keys] at h4
        exact (List.pairwise_append.mp h4).2.2
    · rw [h1, ok_bind]
      simp only [Bool.false_eq_true, if_false]
      obtain ⟨s1, q1, q2, q3, q4⟩ := recurse_spec he hv 50 (.select k) addr ⟨keys, buf, rng⟩ h64 hb (fun _ h => by
        have h : keys = [] := h
        have h2 : e.bcNum < keys.length := h2
        rw [h] at h2; simp at h2)
      have q2 : s1.keys.Perm keys := q2
      have q3 : s1.buf.length = buf.length := q3
      rw [q1, ok_bind]
      have hl := q2.length_eq
      obtain ⟨L, b, g, w1, w2, w3, w4⟩ := onLeft_spec (mode := .sort) (lt := t.lt) (recurse e t 50 .sort addr) k s1
        (recurse_spec he hv 50 .sort addr _ (by show (s1.keys.take k).length + _ ≤ _; rw [List.length_take]; omega)
          (by show _ ≤ s1.buf.length; omega) (fun hd h => by
            have h : s1.keys.take k = [] := h
            have := congrArg List.length h
            rw [List.length_take, List.length_nil] at this
            have := hk2 hd
            have h2 : e.bcNum < keys.length := h2
            omega))
      rw [w1]
      have hLl : L.length = k := by rw [w2.length_eq, List.length_take]; omega
      refine ⟨_, rfl, ?_, ?_⟩
      · refine List.Perm.trans (l₂ := s1.keys) ?_ q2
        conv_rhs => rw [← List.take_append_drop k s1.keys]
        exact List.Perm.append_right _ w2
      · have hbef : Before t.lt (s1.keys.take k) (s1.keys.drop k) := by
          by_cases hkn : k < s1.keys.length
          · exact selected_before hv.order (q4 hkn)
          · intro x _ y hy
            rw [List.drop_of_length_le (by omega)] at hy; cases hy
        refine ⟨?_, ?_⟩
        · show Sorted t.lt ((L ++ s1.keys.drop k).take k)
          rw [List.take_left' hLl]; exact w4
        · show Before t.lt ((L ++ s1.keys.drop k).take k) ((L ++ s1.keys.drop k).drop k)
          rw [List.take_left' hLl, List.drop_left' hLl]
          exact before_perm hbef w2 (List.Perm.refl _)

/-- **C23, code defect**: `PartialSort` with `k = 0`, although `k <= num` is all it asserts, aborts in debug builds with every
array that is not a special case: it calls `Recurse` with `num = 0`. -/
theorem C23_partialSort_zero_debug {e : Env α} (he : e.Valid) {t : Traits α} (hv : t.Valid) (addr : Nat) (keys buf : List α) (rng : Rng)
    (hd : e.debug = true) (hlen : e.bcNum < keys.length) (h1 : e.partial128 = false) (h2 : e.potentiallyHuge = false)
    (h64 : keys.length + e.c.N ≤ 2 ^ 64) (hb : e.bufNum ≤ buf.length) :
    partialSortKeys true e t addr 0 ⟨keys, buf, rng⟩ = .error .abort := by
  unfold partialSortKeys handleSpecialCases
  rw [if_pos rfl, if_neg (by show ¬ keys.length ≤ _; omega)]
  simp only [h1, h2, Bool.false_and, Bool.or_false, Bool.false_eq_true, if_false, pure_bind]
  obtain ⟨s1, q1, q2, q3, q4⟩ := recurse_spec he hv 50 (.select 0) addr ⟨keys, buf, rng⟩ h64 hb (fun _ h => by
        have h : keys = [] := h
        rw [h] at hlen; simp at hlen)
  rw [q1, ok_bind]
  unfold onLeft recurse
  rw [if_pos ⟨hd, by simp⟩]
  rfl

/-! ### NaN: proofs -/

theorem blendedStore_nan (s : α) (A V B : List (FKey α π)) (i : Nat) (hi : i = A.length) :
    blendedStore (List.replicate V.length (.num s)) (V.map FKey.isNaN) (A ++ V ++ B) i = .ok (A ++ V.map (replaceNaN s) ++ B) := by
  subst hi
  unfold blendedStore
  rw [if_pos (by simp; intro x hx; right; omega)]
  congr 1
  apply List.ext_getElem
  · simp
  · intro p hp1 hp2
    simp only [List.length_mapIdx, List.length_append] at hp1
    simp only [List.getElem_mapIdx, List.length_replicate, List.append_assoc]
    by_cases h1 : p < A.length
    · rw [if_neg (by omega), List.getElem_append_left h1, List.getElem_append_left h1]
    · rw [List.getElem_append_right (as := A) (bs := V ++ B) (by omega), List.getElem_append_right (as := A) (by omega)]
      by_cases h2 : p - A.length < V.length
      · rw [List.getElem_append_left h2, List.getElem_append_left (by simpa using h2), List.getElem_map]
        simp only [List.getD_eq_getElem?_getD, List.getElem?_map, List.getElem?_eq_getElem h2, Option.map_some, Option.getD_some,
          List.getElem?_replicate, if_pos h2]
        unfold replaceNaN
        by_cases h3 : (V[p - A.length]).isNaN = true
        · rw [if_pos ⟨by omega, by omega, h3⟩, if_pos h3]
        · rw [if_neg (by rintro ⟨_, _, h⟩; exact h3 h), if_neg h3]
      · rw [if_neg (by omega), List.getElem_append_right (by omega), List.getElem_append_right (by rw [List.length_map]; omega)]
        simp

theorem countP_isNaN (v : List (FKey α π)) : (v.map FKey.isNaN).countP id = v.countP FKey.isNaN := by
  rw [List.countP_map]; rfl

theorem countAndReplaceNaN_spec (N : Nat) (hN : 0 < N) (s zero : α) (keys : List (FKey α π)) :
    countAndReplaceNaN N s zero keys = .ok (keys.map (replaceNaN s), keys.countP FKey.isNaN) := by
  obtain ⟨j, st, e, -, hj, hjN, rfl⟩ := Vec.blocks_spec N keys.length hN (nanBlock N s)
    (fun i st => st = ((keys.take i).map (replaceNaN s) ++ keys.drop i, (keys.take i).countP FKey.isNaN))
    (by
      rintro i _ - hi rfl
      refine ⟨_, ?_, rfl⟩
      have hl : ((keys.take i).map (replaceNaN s)).length = i := by simp; omega
      have hV : ((keys.drop i).take N).length = N := by simp; omega
      have hsplit : (keys.take i).map (replaceNaN s) ++ keys.drop i =
          (keys.take i).map (replaceNaN s) ++ (keys.drop i).take N ++ keys.drop (i + N) := by
        rw [List.append_assoc]; congr 1
        conv_lhs => rw [← List.take_append_drop N (keys.drop i)]
        rw [List.drop_drop]
      have hld : Vec.loadU N ((keys.take i).map (replaceNaN s) ++ keys.drop i) i = .ok ((keys.drop i).take N) := by
        rw [Vec.loadU_ok _ _ _ (by rw [List.length_append, hl, List.length_drop]; omega), List.drop_left' hl]
      unfold nanBlock
      simp only []
      rw [hld, ok_bind, hsplit]
      have hb := blendedStore_nan s ((keys.take i).map (replaceNaN s)) ((keys.drop i).take N) (keys.drop (i + N)) i hl.symm
      rw [hV] at hb
      rw [hb, ok_bind, countP_isNaN, ← List.countP_append, ← Algo.take_add', ← List.map_append, ← Algo.take_add']
      rfl)
    (keys.length + 1) 0 (keys, 0) (by simp) (by omega) (by omega) (by simp)
  unfold countAndReplaceNaN
  rw [e, ok_bind]
  simp only []
  have hl : ((keys.take j).map (replaceNaN s)).length = j := by simp; omega
  have hlen : ((keys.take j).map (replaceNaN s) ++ keys.drop j).length = keys.length := by
    rw [List.length_append, hl, List.length_drop]; omega
  rw [hlen, if_neg (by omega)]
  have hld : Vec.loadN N (.num zero) ((keys.take j).map (replaceNaN s) ++ keys.drop j) j (keys.length - j) =
      .ok (keys.drop j ++ List.replicate (N - (keys.length - j)) (.num zero)) := by
    unfold Vec.loadN
    rw [Nat.min_eq_left (by omega), if_pos (by omega), List.drop_left' hl, List.take_of_length_le (by simp)]
  rw [hld, ok_bind]
  unfold Vec.storeN
  rw [List.map_append, List.take_left' (by simp), Vec.storeU_ok _ _ _ (by simp; omega), ok_bind]
  rw [List.take_left' hl, List.drop_of_length_le (i := j + _) (by simp), List.append_nil, ← List.map_append, List.take_append_drop,
    countP_isNaN, List.countP_append]
  have hz : (List.replicate (N - (keys.length - j)) (FKey.num zero : FKey α π)).countP FKey.isNaN = 0 := by
    rw [List.countP_eq_zero]; intro x hx; rw [List.eq_of_mem_replicate hx]; simp [FKey.isNaN]
  rw [hz, Nat.add_zero, ← List.countP_append, List.take_append_drop]
  rfl

/-- The numbers with every NaN replaced. -/
def numsWith (s : α) (keys : List (FKey α π)) : List α := keys.map (fun x => (x.num?).getD s)

theorem toNums_replace (s : α) (keys : List (FKey α π)) : toNums (keys.map (replaceNaN s)) = .ok (numsWith s keys) := by
  induction keys with
  | nil => rfl
  | cons x l ih =>
    cases x with
    | num a =>
      show toNums (.num a :: l.map (replaceNaN s)) = _
      rw [toNums, ih, ok_bind]; rfl
    | nan p =>
      show toNums (.num s :: l.map (replaceNaN s)) = _
      rw [toNums, ih, ok_bind]; rfl

theorem numsWith_perm (s : α) (keys : List (FKey α π)) :
    (numsWith s keys).Perm (keys.filterMap FKey.num? ++ List.replicate (keys.countP FKey.isNaN) s) := by
  induction keys with
  | nil => exact List.Perm.refl _
  | cons x l ih =>
    cases x with
    | num a =>
      rw [List.filterMap_cons_some (f := FKey.num?) (a := FKey.num a) (b := a) rfl, List.countP_cons_of_neg (by simp [FKey.isNaN])]
      exact List.Perm.cons a ih
    | nan p =>
      rw [List.filterMap_cons_none (f := FKey.num?) (a := FKey.nan p) rfl, List.countP_cons_of_pos (by rfl), List.replicate_succ]
      exact (List.Perm.cons s ih).trans (List.perm_middle.symm)

/-- A sorted permutation of `A` and `n` copies of the last value ends with these. -/
theorem sorted_last {lt : α → α → Bool} (ha : Antisymm lt) {s : α} (hs : ∀ x, lt s x = false) {l A : List α} {n : Nat}
    (hp : l.Perm (A ++ List.replicate n s)) (h : Sorted lt l) : ∃ L, l = L ++ List.replicate n s ∧ L.Perm A := by
  classical
  have hl : l.length = A.length + n := by rw [hp.length_eq]; simp
  have hd : l.drop A.length = List.replicate n s := by
    rw [List.eq_replicate_iff]
    refine ⟨by rw [List.length_drop]; omega, ?_⟩
    intro b hb
    obtain ⟨j, hj, rfl⟩ := List.getElem_of_mem hb
    rw [List.length_drop] at hj
    rw [List.getElem_drop]
    by_contra hne
    -- then nothing up to here is `s`
    have hall : ∀ x ∈ l.take (A.length + j + 1), x ≠ s := by
      intro x hx hxs
      obtain ⟨i, hi, rfl⟩ := List.getElem_of_mem hx
      rw [List.length_take] at hi
      rw [List.getElem_take] at hxs
      by_cases hij : i = A.length + j
      · subst hij; exact hne hxs
      · have := (List.pairwise_iff_getElem.mp h) i (A.length + j) (by omega) (by omega) (by omega)
        rw [hxs] at this
        exact hne (ha _ _ this (hs _))
    have c1 : (l.take (A.length + j + 1)).countP (fun x => decide (x ≠ s)) = (l.take (A.length + j + 1)).length := by
      rw [List.countP_eq_length]; intro x hx; simpa using hall x hx
    have c2 : (l.take (A.length + j + 1)).countP (fun x => decide (x ≠ s)) ≤ l.countP (fun x => decide (x ≠ s)) :=
      (List.take_sublist _ _).countP_le
    have c3 : l.countP (fun x => decide (x ≠ s)) ≤ A.length := by
      rw [hp.countP_eq, List.countP_append]
      have : (List.replicate n s).countP (fun x => decide (x ≠ s)) = 0 := by
        rw [List.countP_eq_zero]; intro x hx; rw [List.eq_of_mem_replicate hx]; simp
      rw [this]; exact List.countP_le_length
    rw [List.length_take] at c1
    omega
  refine ⟨l.take A.length, ?_, ?_⟩
  · rw [← hd, List.take_append_drop]
  · have hp2 : (l.take A.length ++ List.replicate n s).Perm (A ++ List.replicate n s) := by
      rw [← hd, List.take_append_drop, hd]; exact hp
    exact (List.perm_append_right_iff _).mp hp2

theorem fillNaN_spec (N : Nat) (hN : 0 < N) (canon : π) (n : Nat) (keys : List (FKey α π)) (h : n ≤ keys.length) :
    fillNaN N canon n keys = .ok (keys.take (keys.length - n) ++ List.replicate n (.nan canon)) := by
  unfold fillNaN
  by_cases h0 : n = 0
  · subst h0; simp
  · rw [if_pos h0, if_neg (by omega), Algo.C29_fill N hN _ _ _ (by rw [List.length_drop]; omega), ok_bind]
    rw [List.drop_of_length_le (l := List.drop _ _) (by rw [List.length_drop]; omega), List.append_nil]
    rfl

/-- **C24.** `Sort` of floating-point keys: the result is the numbers in order, followed by as many canonical NaN as there were
NaN; the numbers are a permutation of the input's. No NaN ever reaches the sorting code. -/
theorem C24_sort {e : Env α} (he : e.Valid) {t : Traits α} (hv : t.Valid) (hkv : t.isKV = false) (enabled : Bool) (addr : Nat)
    (canon : π) (keys : List (FKey α π)) (buf : List α) (rng : Rng)
    (h64 : keys.length + e.c.N ≤ 2 ^ 64) (hb : e.bufNum ≤ buf.length) (hn : enabled = false → keys ≠ []) :
    ∃ L : List α, withNaN e t canon (sortKeys enabled e t addr) keys buf rng =
        .ok (L.map .num ++ List.replicate (keys.countP FKey.isNaN) (.nan canon)) ∧
      L.Perm (keys.filterMap FKey.num?) ∧ Sorted t.lt L := by
  have hNp := he.N_pos
  unfold withNaN
  rw [countAndReplaceNaN_spec _ hNp, ok_bind]
  simp only []
  rw [toNums_replace, ok_bind]
  have hlen : (numsWith t.lastValue keys).length = keys.length := by simp [numsWith]
  obtain ⟨s, q1, q2, q3, q4⟩ := sortKeys_spec he hv enabled addr ⟨numsWith t.lastValue keys, buf, rng⟩
    (by show (numsWith t.lastValue keys).length + _ ≤ _; omega) hb (fun h hh => hn h (by
      have hh : numsWith t.lastValue keys = [] := hh
      rw [hh] at hlen; exact List.length_eq_zero_iff.mp hlen.symm))
  rw [q1, ok_bind]
  have q2 : s.keys.Perm (numsWith t.lastValue keys) := q2
  obtain ⟨L, w1, w2⟩ := sorted_last (hv.antisymm hkv) (s := t.lastValue) (fun x => by
    cases hx : t.lt t.lastValue x with
    | false => rfl
    | true =>
      have := hv.refines _ _ hx
      rw [hv.lastNet] at this; cases this) (q2.trans (numsWith_perm _ keys)) q4
  have hsl : s.keys.length = keys.length := by rw [q2.length_eq, hlen]
  have hLl : L.length = keys.length - keys.countP FKey.isNaN := by
    have := congrArg List.length w1
    simp at this; omega
  refine ⟨L, ?_, w2, ?_⟩
  · rw [fillNaN_spec _ hNp _ _ _ (by rw [List.length_map, hsl]; exact List.countP_le_length), List.length_map, hsl, w1,
      List.map_append, List.take_left' (by rw [List.length_map]; exact hLl)]
  · have q4 : Sorted t.lt s.keys := q4
    rw [w1] at q4
    exact (List.pairwise_append.mp q4).1

end VQ
end Hwy
