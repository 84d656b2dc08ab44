import Verif.Basic
import Mathlib.Data.List.Sort
import Mathlib.Data.List.Perm.Basic
import Mathlib.Tactic.Linarith

/-!
# Model of `hwy/robust_statistics.h`, and C33

`T` is an unsigned integer type of `w` bits (the documented use: "assumes T is an unsigned integer
type"); its values are `Nat` below `2^w`.  For `w < 32` arithmetic is promoted to `int` and exact,
otherwise it wraps modulo `2^w`.  `std::sort` is `List.mergeSort`.
-/

namespace Hwy.Robust

/-- `std::sort` of integers. -/
def sortNat (l : List Nat) : List Nat := l.mergeSort (fun a b => decide (a ≤ b))

/-- `operator<=` of `std::pair<T, int>` (lexicographic). -/
def pairLe (a b : Nat × Nat) : Bool := decide (a.1 < b.1) || (decide (a.1 = b.1) && decide (a.2 ≤ b.2))

/-- Find `value` in `unique` and increment its count (an `int`: overflow is undefined behaviour),
or append it (robust_statistics.h:36-46). -/
def bump (v : Nat) : List (Nat × Nat) → M (List (Nat × Nat))
  | [] => .ok [(v, 1)]
  | (a, c) :: u =>
    if a = v then (if c + 1 < 2147483648 then .ok ((a, c + 1) :: u) else .error .ub)
    else do
      let u' ← bump v u
      .ok ((a, c) :: u')

/-- The counting loop (robust_statistics.h:34-46). -/
def countUnique (values : List Nat) (u : List (Nat × Nat)) : M (List (Nat × Nat)) :=
  match values with
  | [] => .ok u
  | v :: vs => do
    let u ← bump v u
    countUnique vs u

/-- The output loop (robust_statistics.h:52-56): fill `count` copies at `p`. -/
def writeRuns : List (Nat × Nat) → List Nat → Nat → M (List Nat × Nat)
  | [], values, p => .ok (values, p)
  | (a, c) :: u, values, p =>
    if p + c ≤ values.length then
      writeRuns u (values.take p ++ List.replicate c a ++ values.drop (p + c)) (p + c)
    else .error .ub

/-- `CountingSort` (robust_statistics.h:31-58). -/
def countingSort (values : List Nat) : M (List Nat) := do
  let u ← countUnique values []
  let u := u.mergeSort pairLe
  let (r, p) ← writeRuns u values 0
  if p = values.length then .ok r else .error .abort

/-- `sorted[i + h] - sorted[i]` in type `T` (robust_statistics.h:70). -/
def rangeT (w a b : Nat) : Nat := (2 ^ w + a - b) % 2 ^ w

/-- The loop of `MinRange` (robust_statistics.h:68-75), from `idx` with `fuel` iterations left. -/
def minRangeLoop (w : Nat) (s : List Nat) (h : Nat) : Nat → Nat → Nat → Nat → M Nat
  | _, _, minIdx, 0 => .ok minIdx
  | idx, minR, minIdx, fuel + 1 => do
    let a ← readAt s idx
    let b ← readAt s (idx + h)
    if ¬ a ≤ b then .error .abort else
    let r := rangeT w b a
    if r < minR then minRangeLoop w s h (idx + 1) r idx fuel
    else minRangeLoop w s h (idx + 1) minR minIdx fuel

/-- `MinRange` (robust_statistics.h:62-78). -/
def minRange (w : Nat) (s : List Nat) (begin h : Nat) : M Nat :=
  minRangeLoop w s h begin (2 ^ w - 1) 0 h

/-- `(x + y + 1) / 2` in type `T` (robust_statistics.h:99, 130). -/
def avgT (w x y : Nat) : Nat :=
  if w < 32 then (x + y + 1) / 2 % 2 ^ w else (x + y + 1) % 2 ^ w / 2

/-- The loop and result of `ModeOfSorted` (robust_statistics.h:90-100). -/
def modeLoop (w : Nat) (s : List Nat) (begin h : Nat) : M Nat :=
  if 1 < h then do
    let b ← minRange w s begin h
    modeLoop w s b (h / 2)
  else do
    let x ← readAt s begin
    if h = 0 then .ok x else do
    let y ← readAt s (begin + 1)
    .ok (avgT w x y)
termination_by h
decreasing_by omega

/-- `ModeOfSorted` (robust_statistics.h:86-101). -/
def modeOfSorted (w : Nat) (s : List Nat) : M Nat := modeLoop w s 0 (s.length / 2)

/-- `Mode` (robust_statistics.h:105-108): result and sorted values. -/
def mode (w : Nat) (values : List Nat) : M (Nat × List Nat) := do
  let s ← countingSort values
  let m ← modeOfSorted w s
  .ok (m, s)

/-- `Median` (robust_statistics.h:117-128): result and sorted values. -/
def median (w : Nat) (values : List Nat) : M (Nat × List Nat) :=
  if values.length = 0 then .error .abort else do
  let s := sortNat values
  let half := values.length / 2
  if values.length % 2 = 1 then do
    let x ← readAt s half
    .ok (x, s)
  else do
    let x ← readAt s half
    let y ← readAt s (half - 1)
    .ok (avgT w x y, s)

/-- `static_cast<int64_t>` of a value of type `T`. -/
def toI64 (x : Nat) : Int := (BitVec.ofNat 64 x).toInt

/-- One absolute deviation (robust_statistics.h:139-142): `int64_t` difference (overflow is
undefined), absolute value, cast back. -/
def absDev (w : Nat) (x med : Nat) : M Nat :=
  let d := toI64 x - toI64 med
  if -9223372036854775808 ≤ d ∧ d < 9223372036854775808 then
    .ok ((BitVec.ofInt 64 (if d < 0 then -d else d)).toNat % 2 ^ w)
  else .error .ub

/-- `MedianAbsoluteDeviation` (robust_statistics.h:132-145). -/
def mad (w : Nat) (values : List Nat) (med : Nat) : M Nat :=
  if values.length = 0 then .error .abort else do
  let devs ← values.mapM fun x => absDev w x med
  let r ← median w devs
  .ok r.1

/-! ## CountingSort sorts -/

/-- Specification: `r` is `l` in ascending order. -/
def SortedPerm (r l : List Nat) : Prop := r.Perm l ∧ r.Pairwise (· ≤ ·)

def expand (u : List (Nat × Nat)) : List Nat := u.flatMap fun p => List.replicate p.2 p.1

theorem ok_bind {α β : Type} (a : α) (f : α → M β) : ((Except.ok a : M α) >>= f) = f a := rfl

theorem bump_spec (v : Nat) : ∀ u : List (Nat × Nat), (expand u).length + 1 < 2147483648 →
    ∃ u', bump v u = .ok u' ∧ (expand u').Perm (v :: expand u) := by
  intro u
  induction u with
  | nil => intro _; exact ⟨_, rfl, by simp [expand]⟩
  | cons p u ih =>
    obtain ⟨a, c⟩ := p
    intro h
    have hlen : (expand ((a, c) :: u)).length = c + (expand u).length := by simp [expand]
    simp only [bump]
    split
    · rename_i hav
      subst hav
      rw [if_pos (by omega)]
      exact ⟨_, rfl, by simp [expand, List.replicate_succ]⟩
    · obtain ⟨u', e, hp⟩ := ih (by omega)
      rw [e, ok_bind]
      refine ⟨_, rfl, ?_⟩
      have e1 : expand ((a, c) :: u') = List.replicate c a ++ expand u' := by simp [expand]
      have e2 : expand ((a, c) :: u) = List.replicate c a ++ expand u := by simp [expand]
      rw [e1, e2]
      exact (List.Perm.append_left _ hp).trans List.perm_middle

theorem countUnique_spec : ∀ (vs : List Nat) (u : List (Nat × Nat)), (expand u).length + vs.length < 2147483648 →
    ∃ u', countUnique vs u = .ok u' ∧ (expand u').Perm (vs ++ expand u) := by
  intro vs
  induction vs with
  | nil => intro u _; exact ⟨u, rfl, by simp⟩
  | cons v vs ih =>
    intro u h
    simp only [List.length_cons] at h
    obtain ⟨u1, e1, p1⟩ := bump_spec v u (by omega)
    have hl := p1.length_eq
    simp only [List.length_cons] at hl
    obtain ⟨u2, e2, p2⟩ := ih u1 (by omega)
    refine ⟨u2, by simp only [countUnique]; rw [e1, ok_bind, e2], ?_⟩
    exact p2.trans ((List.Perm.append_left _ p1).trans List.perm_middle)

theorem writeRuns_spec : ∀ (u : List (Nat × Nat)) (values : List Nat) (p : Nat), p + (expand u).length ≤ values.length →
    writeRuns u values p = .ok (values.take p ++ expand u ++ values.drop (p + (expand u).length), p + (expand u).length) := by
  intro u
  induction u with
  | nil => intro values p _; simp [writeRuns, expand]
  | cons q u ih =>
    obtain ⟨a, c⟩ := q
    intro values p h
    have hlen : (expand ((a, c) :: u)).length = c + (expand u).length := by simp [expand]
    have e1 : expand ((a, c) :: u) = List.replicate c a ++ expand u := by simp [expand]
    simp only [writeRuns]
    rw [if_pos (by omega)]
    have hlp : (List.take p values ++ List.replicate c a).length = p + c := by simp; omega
    rw [ih _ _ (by simp; omega)]
    have ht : (List.take p values ++ List.replicate c a ++ List.drop (p + c) values).take (p + c) = List.take p values ++ List.replicate c a := by
      rw [List.take_append_of_le_length (by omega), List.take_of_length_le (by omega)]
    have hd : (List.take p values ++ List.replicate c a ++ List.drop (p + c) values).drop (p + c + (expand u).length) = values.drop (p + (c + (expand u).length)) := by
      rw [List.drop_append, List.drop_of_length_le (by omega), hlp, List.drop_drop]
      simp; congr 1; omega
    rw [ht, hd, hlen, e1]
    simp [Nat.add_assoc]

theorem expand_sorted (u : List (Nat × Nat)) (h : u.Pairwise fun a b => a.1 ≤ b.1) : (expand u).Pairwise (· ≤ ·) := by
  induction u with
  | nil => simp [expand]
  | cons p u ih =>
    rw [List.pairwise_cons] at h
    have e1 : expand (p :: u) = List.replicate p.2 p.1 ++ expand u := by simp [expand]
    rw [e1, List.pairwise_append]
    refine ⟨by rw [List.pairwise_replicate]; right; exact le_refl _, ih h.2, ?_⟩
    intro a ha b hb
    rw [List.mem_replicate] at ha
    obtain ⟨q, hq, hb⟩ := List.mem_flatMap.mp hb
    rw [List.mem_replicate] at hb
    rw [ha.2, hb.2]; exact h.1 q hq

theorem pairLe_sorted (u : List (Nat × Nat)) : (u.mergeSort pairLe).Pairwise fun a b => a.1 ≤ b.1 := by
  have h := List.pairwise_mergeSort (le := pairLe)
    (fun a b c h1 h2 => by simp only [pairLe, Bool.or_eq_true, Bool.and_eq_true, decide_eq_true_eq] at *; omega)
    (fun a b => by simp only [pairLe, Bool.or_eq_true, Bool.and_eq_true, decide_eq_true_eq]; omega) u
  refine h.imp ?_
  intro a b hab
  simp only [pairLe, Bool.or_eq_true, Bool.and_eq_true, decide_eq_true_eq] at hab; omega

/-- **C33** (CountingSort).  Every array of fewer than 2^31 values is sorted in place: the result is
the ascending permutation of the input, all writes are in bounds and the final assertion holds. -/
theorem C33_countingSort (values : List Nat) (h : values.length < 2147483648) :
    ∃ r, countingSort values = .ok r ∧ SortedPerm r values := by
  obtain ⟨u, e, p⟩ := countUnique_spec values [] (by simpa [expand] using h)
  have p : (expand u).Perm values := by simpa [expand] using p
  have hs : (expand (u.mergeSort pairLe)).Perm (expand u) := (List.mergeSort_perm u pairLe).flatMap_right _
  have hl := (hs.trans p).length_eq
  unfold countingSort
  rw [e, ok_bind]
  simp only []
  rw [writeRuns_spec _ values 0 (by omega), ok_bind]
  simp only []
  rw [if_pos (by omega)]
  refine ⟨_, rfl, ?_⟩
  have : values.drop (0 + (expand (u.mergeSort pairLe)).length) = [] := List.drop_eq_nil_of_le (by omega)
  rw [this]
  simp only [List.take_zero, List.nil_append, List.append_nil]
  exact ⟨hs.trans p, expand_sorted _ (pairLe_sorted u)⟩

/-! ## Median -/

theorem sortNat_spec (l : List Nat) : SortedPerm (sortNat l) l := by
  refine ⟨List.mergeSort_perm l _, ?_⟩
  have h := List.pairwise_mergeSort (le := fun a b : Nat => decide (a ≤ b))
    (fun a b c h1 h2 => by simp at *; omega) (fun a b => by simp; omega) l
  exact h.imp fun h => by simpa using h

theorem SortedPerm.unique {r r' l : List Nat} (h : SortedPerm r l) (h' : SortedPerm r' l) : r = r' :=
  (h.1.trans h'.1.symm).eq_of_pairwise (fun _ _ _ _ h1 h2 => Nat.le_antisymm h1 h2) h.2 h'.2

/-- At most half of the values are smaller than `v`, and at most half are larger. -/
def IsMedian (l : List Nat) (v : Nat) : Prop :=
  2 * (l.filter (· < v)).length ≤ l.length ∧ 2 * (l.filter (v < ·)).length ≤ l.length

theorem sorted_get {s : List Nat} (hs : s.Pairwise (· ≤ ·)) {i j : Nat} (hij : i ≤ j) (hj : j < s.length) :
    s[i]'(by omega) ≤ s[j] := by
  rcases Nat.eq_or_lt_of_le hij with rfl | hlt
  · exact le_refl _
  · exact List.pairwise_iff_getElem.mp hs i j (by omega) hj hlt

theorem filter_lt_len {s : List Nat} (hs : s.Pairwise (· ≤ ·)) (v k : Nat) (hk : k < s.length) (hv : v ≤ s[k]) :
    (s.filter (· < v)).length ≤ k := by
  have hsplit : s = s.take k ++ s.drop k := (List.take_append_drop k s).symm
  rw [hsplit, List.filter_append, List.length_append]
  have h2 : (s.drop k).filter (· < v) = [] := by
    rw [List.filter_eq_nil_iff]
    intro x hx
    obtain ⟨i, hi, rfl⟩ := List.mem_iff_getElem.mp hx
    rw [List.getElem_drop]
    have := sorted_get hs (show k ≤ k + i by omega) (by simp at hi; omega)
    simp; omega
  rw [h2]
  have := List.length_filter_le (· < v) (s.take k)
  simp at this ⊢; omega

theorem filter_gt_len {s : List Nat} (hs : s.Pairwise (· ≤ ·)) (v k : Nat) (hk : k < s.length) (hv : s[k] ≤ v) :
    (s.filter (v < ·)).length ≤ s.length - (k + 1) := by
  have hsplit : s = s.take (k + 1) ++ s.drop (k + 1) := (List.take_append_drop (k + 1) s).symm
  have h2 : (s.take (k + 1)).filter (v < ·) = [] := by
    rw [List.filter_eq_nil_iff]
    intro x hx
    obtain ⟨i, hi, rfl⟩ := List.mem_iff_getElem.mp hx
    rw [List.getElem_take]
    have := sorted_get hs (show i ≤ k by simp at hi; omega) hk
    simp; omega
  have h3 := List.length_filter_le (v < ·) (s.drop (k + 1))
  have : (s.filter (v < ·)).length = ((s.drop (k + 1)).filter (v < ·)).length := by
    conv_lhs => rw [hsplit, List.filter_append, h2]
    simp
  simp at h3 ⊢; omega

/-- The type is narrow (promoted arithmetic) or the values leave one bit of headroom. -/
def Headroom (w : Nat) (l : List Nat) : Prop := (∀ x ∈ l, x < 2 ^ w) ∧ (w < 32 ∨ ∀ x ∈ l, 2 * x < 2 ^ w)

theorem avgT_eq {w x y : Nat} {l : List Nat} (h : Headroom w l) (hx : x ∈ l) (hy : y ∈ l) : avgT w x y = (x + y + 1) / 2 := by
  unfold avgT
  have h1 := h.1 x hx
  have h2 := h.1 y hy
  split
  · exact Nat.mod_eq_of_lt (by omega)
  · rename_i hw
    rcases h.2 with h' | h'
    · exact absurd h' hw
    · have := h' x hx
      have := h' y hy
      rcases Nat.lt_or_ge (x + y + 1) (2 ^ w) with hlt | hge
      · rw [Nat.mod_eq_of_lt hlt]
      · exfalso
        have hw' : 2 ∣ 2 ^ w := dvd_pow_self 2 (by omega)
        omega

/-- **C33** (Median).  For every non-empty array (with headroom for the average, see
`C33_median_overflow`), the array ends up sorted, and the returned value is the middle one for odd
counts, or the average of the two middle ones rounded up for even counts; in both cases at most half
of the values are smaller and at most half are larger. -/
theorem C33_median (w : Nat) (values : List Nat) (h0 : values ≠ []) (hh : Headroom w values) :
    ∃ v s, median w values = .ok (v, s) ∧ SortedPerm s values ∧ IsMedian values v ∧
      (values.length % 2 = 1 → s[values.length / 2]? = some v) ∧
      (values.length % 2 = 0 → ∃ a b, s[values.length / 2 - 1]? = some a ∧ s[values.length / 2]? = some b ∧ v = (b + a + 1) / 2) := by
  have hn : values.length ≠ 0 := fun hc => h0 (List.length_eq_zero_iff.mp hc)
  have hsp := sortNat_spec values
  have hl := hsp.1.length_eq
  unfold median
  rw [if_neg hn]
  simp only []
  have hmed : ∀ v, IsMedian (sortNat values) v → IsMedian values v := by
    intro v hv
    unfold IsMedian at *
    rw [(hsp.1.filter _).length_eq, (hsp.1.filter _).length_eq, hl] at hv
    exact hv
  split
  · rename_i hodd
    rw [readAt_of_lt (by omega), ok_bind]
    refine ⟨_, _, rfl, hsp, hmed _ ?_, fun _ => List.getElem?_eq_getElem (by omega), fun h => by omega⟩
    have a := filter_lt_len hsp.2 _ (values.length / 2) (by omega) (le_refl _)
    have b := filter_gt_len hsp.2 _ (values.length / 2) (by omega) (le_refl _)
    unfold IsMedian
    constructor <;> omega
  · rename_i hev
    rw [readAt_of_lt (show values.length / 2 < (sortNat values).length by omega), ok_bind,
      readAt_of_lt (show values.length / 2 - 1 < (sortNat values).length by omega), ok_bind]
    have hle := sorted_get hsp.2 (show values.length / 2 - 1 ≤ values.length / 2 by omega) (by omega)
    have m1 : (sortNat values)[values.length / 2] ∈ values := hsp.1.mem_iff.mp (List.getElem_mem _)
    have m2 : (sortNat values)[values.length / 2 - 1] ∈ values := hsp.1.mem_iff.mp (List.getElem_mem _)
    rw [avgT_eq hh m1 m2]
    refine ⟨_, _, rfl, hsp, hmed _ ?_, fun h => by omega, fun _ => ⟨_, _, List.getElem?_eq_getElem (by omega), List.getElem?_eq_getElem (by omega), rfl⟩⟩
    have a := filter_lt_len hsp.2 (((sortNat values)[values.length / 2] + (sortNat values)[values.length / 2 - 1] + 1) / 2)
      (values.length / 2) (by omega) (by omega)
    have b := filter_gt_len hsp.2 (((sortNat values)[values.length / 2] + (sortNat values)[values.length / 2 - 1] + 1) / 2)
      (values.length / 2 - 1) (by omega) (by omega)
    unfold IsMedian
    constructor <;> omega

/-- Code defect: without headroom the sum wraps around; for the two largest 64-bit values the
"median" is `2^63 - 1`, smaller than both. -/
theorem C33_median_overflow :
    median 64 [2 ^ 64 - 1, 2 ^ 64 - 1] = .ok (2 ^ 63 - 1, [2 ^ 64 - 1, 2 ^ 64 - 1]) := by
  have hs : sortNat [2 ^ 64 - 1, 2 ^ 64 - 1] = [2 ^ 64 - 1, 2 ^ 64 - 1] :=
    (sortNat_spec _).unique ⟨List.Perm.refl _, by simp⟩
  unfold median
  rw [hs]
  rfl

theorem mapM_ok {α β : Type} (f : α → M β) (g : α → β) : ∀ l : List α, (∀ x ∈ l, f x = .ok (g x)) → l.mapM f = .ok (l.map g) := by
  intro l
  induction l with
  | nil => intro _; rfl
  | cons a l ih =>
    intro h
    rw [List.mapM_cons, h a List.mem_cons_self, ih fun x hx => h x (List.mem_cons_of_mem _ hx)]
    rfl

/-- **C33** (MedianAbsoluteDeviation).  For values below `2^(w-1)`, `w ≤ 64`, it is the median (as
above) of the absolute deviations. -/
theorem C33_mad (w : Nat) (hw0 : 0 < w) (hw : w ≤ 64) (values : List Nat) (med : Nat) (h0 : values ≠ [])
    (hv : ∀ x ∈ values, 2 * x < 2 ^ w) (hm : 2 * med < 2 ^ w) :
    ∃ v s, median w (values.map fun x : Nat => ((x : Int) - med).natAbs) = .ok (v, s) ∧ mad w values med = .ok v ∧
      IsMedian (values.map fun x : Nat => ((x : Int) - med).natAbs) v := by
  have hp : 2 ^ w ≤ 2 ^ 64 := Nat.pow_le_pow_right (by omega) hw
  have hdev : ∀ x ∈ values, absDev w x med = .ok (((x : Int) - med).natAbs) := by
    intro x hx
    have h1 := hv x hx
    have e : ∀ y, 2 * y < 2 ^ w → toI64 y = y := by
      intro y hy
      unfold toI64
      rw [BitVec.toInt_eq_toNat_cond, BitVec.toNat_ofNat, Nat.mod_eq_of_lt (by omega), if_pos (by omega)]
    unfold absDev
    simp only [e x h1, e med hm]
    rw [if_pos (by omega)]
    congr 1
    have e2 : (if (x : Int) - med < 0 then -((x : Int) - med) else (x : Int) - med) = (((x : Int) - med).natAbs : Int) := by
      split <;> omega
    rw [e2, BitVec.ofInt_natCast, BitVec.toNat_ofNat]
    have : ((x : Int) - med).natAbs < 2 ^ w := by omega
    rw [Nat.mod_eq_of_lt (b := 2 ^ 64) (by omega), Nat.mod_eq_of_lt this]
  have hmem : ∀ y ∈ values.map (fun x : Nat => ((x : Int) - med).natAbs), 2 * y < 2 ^ w := by
    intro y hy
    obtain ⟨x, hx, rfl⟩ := List.mem_map.mp hy
    have := hv x hx
    omega
  obtain ⟨v, s, e, _, hmd, _⟩ := C33_median w (values.map fun x : Nat => ((x : Int) - med).natAbs) (by simpa using h0)
    ⟨fun y hy => by have := hmem y hy; omega, .inr hmem⟩
  refine ⟨v, s, e, ?_, hmd⟩
  unfold mad
  rw [if_neg (by simpa using h0), mapM_ok _ _ _ hdev, ok_bind, e, ok_bind]

/-! ## MinRange -/

/-- `r` minimises `s[r + h] - s[r]` over `[begin, begin + h)`, and is the first such. -/
def IsMinRange (s : List Nat) (begin h r : Nat) : Prop :=
  begin ≤ r ∧ r < begin + h ∧ ∀ i, begin ≤ i → i < begin + h →
    s.getD (r + h) 0 - s.getD r 0 ≤ s.getD (i + h) 0 - s.getD i 0 ∧
    (i < r → s.getD (r + h) 0 - s.getD r 0 < s.getD (i + h) 0 - s.getD i 0)

theorem getD_lt {s : List Nat} {i : Nat} (h : i < s.length) : s.getD i 0 = s[i] := by
  simp [List.getD_eq_getElem?_getD, h]

theorem rangeT_eq {w a b : Nat} (ha : a < 2 ^ w) (hba : b ≤ a) : rangeT w a b = a - b := by
  unfold rangeT
  have : 2 ^ w + a - b = (a - b) + 2 ^ w := by omega
  rw [this, Nat.add_mod_right]
  exact Nat.mod_eq_of_lt (by omega)

theorem minRangeLoop_spec (w : Nat) (s : List Nat) (hs : s.Pairwise (· ≤ ·)) (hw : ∀ x ∈ s, x < 2 ^ w) (h : Nat) :
    ∀ fuel idx minR minIdx, idx + fuel + h ≤ s.length →
      ∃ r, minRangeLoop w s h idx minR minIdx fuel = .ok r ∧
        ((r = minIdx ∧ ∀ i, idx ≤ i → i < idx + fuel → minR ≤ s.getD (i + h) 0 - s.getD i 0) ∨
         (idx ≤ r ∧ r < idx + fuel ∧ s.getD (r + h) 0 - s.getD r 0 < minR ∧
           ∀ i, idx ≤ i → i < idx + fuel → s.getD (r + h) 0 - s.getD r 0 ≤ s.getD (i + h) 0 - s.getD i 0 ∧
            (i < r → s.getD (r + h) 0 - s.getD r 0 < s.getD (i + h) 0 - s.getD i 0))) := by
  intro fuel
  induction fuel with
  | zero => intro idx minR minIdx _; exact ⟨minIdx, rfl, .inl ⟨rfl, fun i h1 h2 => by omega⟩⟩
  | succ fuel ih =>
    intro idx minR minIdx hb
    have hi : idx < s.length := by omega
    have hih : idx + h < s.length := by omega
    have hle := sorted_get hs (show idx ≤ idx + h by omega) hih
    simp only [minRangeLoop]
    rw [readAt_of_lt hi, ok_bind, readAt_of_lt hih, ok_bind, if_neg (by omega), rangeT_eq (hw _ (List.getElem_mem _)) hle]
    have hr0 : s[idx + h] - s[idx] = s.getD (idx + h) 0 - s.getD idx 0 := by rw [getD_lt hi, getD_lt hih]
    rw [hr0]
    split
    · rename_i hlt
      obtain ⟨r, e, hr⟩ := ih (idx + 1) (s.getD (idx + h) 0 - s.getD idx 0) idx (by omega)
      refine ⟨r, e, .inr ?_⟩
      rcases hr with ⟨rfl, hr⟩ | ⟨h1, h2, h3, h4⟩
      · refine ⟨le_refl _, by omega, hlt, fun i hi1 hi2 => ?_⟩
        rcases Nat.eq_or_lt_of_le hi1 with rfl | hi1
        · exact ⟨le_refl _, fun h => by omega⟩
        · exact ⟨hr i hi1 (by omega), fun h => by omega⟩
      · refine ⟨by omega, by omega, lt_trans h3 hlt, fun i hi1 hi2 => ?_⟩
        rcases Nat.eq_or_lt_of_le hi1 with rfl | hi1
        · exact ⟨h3.le, fun _ => h3⟩
        · exact h4 i hi1 (by omega)
    · rename_i hge
      obtain ⟨r, e, hr⟩ := ih (idx + 1) minR minIdx (by omega)
      refine ⟨r, e, ?_⟩
      rcases hr with ⟨rfl, hr⟩ | ⟨h1, h2, h3, h4⟩
      · refine .inl ⟨rfl, fun i hi1 hi2 => ?_⟩
        rcases Nat.eq_or_lt_of_le hi1 with rfl | hi1
        · omega
        · exact hr i hi1 (by omega)
      · refine .inr ⟨by omega, by omega, h3, fun i hi1 hi2 => ?_⟩
        rcases Nat.eq_or_lt_of_le hi1 with rfl | hi1
        · constructor <;> omega
        · exact h4 i hi1 (by omega)

/-- **C33** (MinRange).  For ascending values, if some window in range is narrower than the largest
value of `T` (or the search starts at 0), the result is the first index in
`[idx_begin, idx_begin + half_count)` that minimises `sorted[i + half_count] - sorted[i]`; all reads
are below `idx_begin + 2 * half_count`. -/
theorem C33_minRange (w : Nat) (s : List Nat) (hs : s.Pairwise (· ≤ ·)) (hw : ∀ x ∈ s, x < 2 ^ w) (begin h : Nat)
    (h0 : 0 < h) (hb : begin + 2 * h ≤ s.length)
    (hsome : begin = 0 ∨ ∃ i, begin ≤ i ∧ i < begin + h ∧ s.getD (i + h) 0 - s.getD i 0 < 2 ^ w - 1) :
    ∃ r, minRange w s begin h = .ok r ∧ IsMinRange s begin h r := by
  obtain ⟨r, e, hr⟩ := minRangeLoop_spec w s hs hw h h begin (2 ^ w - 1) 0 (by omega)
  refine ⟨r, e, ?_⟩
  rcases hr with ⟨rfl, hr⟩ | ⟨h1, h2, h3, h4⟩
  · rcases hsome with rfl | ⟨i, hi1, hi2, hi3⟩
    · refine ⟨le_refl _, by omega, fun i hi1 hi2 => ⟨?_, fun h => by omega⟩⟩
      have := hr i hi1 hi2
      have hx : s.getD (0 + h) 0 < 2 ^ w := by rw [getD_lt (by omega)]; exact hw _ (List.getElem_mem _)
      omega
    · have := hr i hi1 hi2; omega
  · exact ⟨h1, h2, h4⟩

/-- Code defect: otherwise the result is 0, outside of the documented range. -/
theorem C33_minRange_outside : minRange 8 [0, 0, 255] 1 1 = .ok 0 := by rfl

/-! ## Mode -/

/-- The documented half-sample mode estimate (unsigned values, without the overflow of `avgT`): the
interval is repeatedly replaced by its half of smallest range. -/
inductive HalfSampleMode (s : List Nat) : Nat → Nat → Nat → Prop
  | one (b v : Nat) : s[b]? = some v → HalfSampleMode s b 0 v
  | two (b x y : Nat) : s[b]? = some x → s[b + 1]? = some y → HalfSampleMode s b 1 ((x + y + 1) / 2)
  | half (b h r v : Nat) : 1 < h → IsMinRange s b h r → HalfSampleMode s r (h / 2) v → HalfSampleMode s b h v

theorem modeLoop_spec (w : Nat) (s : List Nat) (hs : s.Pairwise (· ≤ ·)) (hh : Headroom w s) :
    ∀ h begin, begin + 2 * h ≤ s.length → begin < s.length →
      (begin = 0 ∨ s.getD (begin + 2 * h - 1) 0 - s.getD begin 0 < 2 ^ w - 1 ∨
        h ≤ 1 ∨ ∀ i, begin ≤ i → i < begin + h → s.getD (i + h) 0 - s.getD i 0 < 2 ^ w - 1) →
      ∃ v, modeLoop w s begin h = .ok v ∧ HalfSampleMode s begin h v := by
  intro h
  induction h using Nat.strong_induction_on with
  | _ h ih =>
    intro begin hb hb' hr
    rw [modeLoop]
    split
    · rename_i h1
      have hmono : ∀ i j, i ≤ j → j < s.length → s.getD i 0 ≤ s.getD j 0 := by
        intro i j hij hj
        rw [getD_lt (by omega), getD_lt hj]; exact sorted_get hs hij hj
      obtain ⟨r, e, hmr⟩ := C33_minRange w s hs hh.1 begin h (by omega) hb (by
        rcases hr with h' | h' | h' | h'
        · exact .inl h'
        · right
          refine ⟨begin, le_refl _, by omega, ?_⟩
          have := hmono (begin + h) (begin + 2 * h - 1) (by omega) (by omega)
          omega
        · omega
        · exact .inr ⟨begin, le_refl _, by omega, h' begin (le_refl _) (by omega)⟩)
      rw [e, ok_bind]
      have hr1 := hmr.1
      have hr2 := hmr.2.1
      obtain ⟨v, e2, h2⟩ := ih (h / 2) (by omega) r (by omega) (by omega) (by
        -- the chosen window has a range below the maximum, unless it starts at 0
        by_cases hlt : s.getD (r + h) 0 - s.getD r 0 < 2 ^ w - 1
        · right; left
          have := hmono (r + 2 * (h / 2) - 1) (r + h) (by omega) (by omega)
          omega
        · left
          -- then every window is maximal, and the first one is chosen
          have hx : ∀ i, i < s.length → s.getD i 0 < 2 ^ w := by
            intro i hi; rw [getD_lt hi]; exact hh.1 _ (List.getElem_mem _)
          have hbr : r = begin := by
            by_contra hne
            have := (hmr.2.2 begin (le_refl _) (by omega)).2 (by omega)
            have := hx (begin + h) (by omega)
            omega
          rcases hr with h' | h' | h' | h'
          · omega
          · exfalso
            have := hmono (begin + h) (begin + 2 * h - 1) (by omega) (by omega)
            rw [hbr] at hlt
            omega
          · omega
          · exfalso
            have := h' begin (le_refl _) (by omega)
            rw [hbr] at hlt; omega)
      exact ⟨v, e2, .half begin h r v h1 hmr h2⟩
    · rename_i h1
      rw [readAt_of_lt hb', ok_bind]
      split
      · rename_i h0
        subst h0
        exact ⟨_, rfl, .one begin _ (List.getElem?_eq_getElem hb')⟩
      · have : h = 1 := by omega
        subst this
        rw [readAt_of_lt (show begin + 1 < s.length by omega), ok_bind,
          avgT_eq hh (List.getElem_mem _) (List.getElem_mem _)]
        exact ⟨_, rfl, .two begin _ _ (List.getElem?_eq_getElem hb') (List.getElem?_eq_getElem (by omega))⟩

/-- **C33** (Mode).  For every non-empty array of fewer than 2^31 values with headroom, `Mode`
returns the half-sample mode of the sorted values, and all accesses are in bounds. -/
theorem C33_mode (w : Nat) (values : List Nat) (h0 : values ≠ []) (hl : values.length < 2147483648) (hh : Headroom w values) :
    ∃ v s, mode w values = .ok (v, s) ∧ SortedPerm s values ∧ HalfSampleMode s 0 (s.length / 2) v := by
  obtain ⟨s, e, hs⟩ := C33_countingSort values hl
  have hh' : Headroom w s := by
    refine ⟨fun x hx => hh.1 x (hs.1.mem_iff.mp hx), ?_⟩
    rcases hh.2 with h | h
    · exact .inl h
    · exact .inr fun x hx => h x (hs.1.mem_iff.mp hx)
  have hn : s.length ≠ 0 := by
    rw [hs.1.length_eq]; intro hc; exact h0 (List.length_eq_zero_iff.mp hc)
  obtain ⟨v, e2, h2⟩ := modeLoop_spec w s hs.2 hh' (s.length / 2) 0 (by omega) (by omega) (.inl rfl)
  refine ⟨v, s, ?_, hs, h2⟩
  unfold mode modeOfSorted
  rw [e, ok_bind, e2, ok_bind]

/-- Within a run of equal values the estimate is that value. -/
theorem hsm_run {s : List Nat} {b h v x : Nat} (hm : HalfSampleMode s b h v) :
    (∀ i, b ≤ i → i ≤ b + h → s.getD i 0 = x) → b + 2 * h ≤ s.length → b < s.length → s.Pairwise (· ≤ ·) → v = x := by
  induction hm with
  | one b v hv =>
    intro hx _ hb _
    have := hx b (le_refl _) (le_refl _)
    rw [List.getD_eq_getElem?_getD, hv] at this
    exact this
  | two b x' y hx' hy =>
    intro hx _ _ _
    have h1 := hx b (by omega) (by omega)
    have h2 := hx (b + 1) (by omega) (by omega)
    rw [List.getD_eq_getElem?_getD, hx'] at h1
    rw [List.getD_eq_getElem?_getD, hy] at h2
    simp at h1 h2
    omega
  | half b h r v h1 hmr hm ih =>
    intro hx hb hb' hs
    obtain ⟨m1, m2, m3⟩ := hmr
    have hr : r = b := by
      by_contra hne
      have := (m3 b (le_refl _) (by omega)).2 (by omega)
      rw [hx b (by omega) (by omega), hx (b + h) (by omega) (by omega)] at this
      omega
    subst hr
    exact ih (fun i hi1 hi2 => hx i hi1 (by omega)) (by omega) hb' hs

/-- **C33** (a majority value is the mode).  If more than half of the values (one more if their
number is odd) are equal to `x`, then `Mode` returns `x`. -/
theorem C33_mode_majority (w : Nat) (values : List Nat) (hl : values.length < 2147483648) (hh : Headroom w values)
    (x : Nat) (hx : values.length / 2 + values.length % 2 + 1 ≤ values.count x) :
    ∃ s, mode w values = .ok (x, s) := by
  have h0 : values ≠ [] := by rintro rfl; simp at hx
  obtain ⟨v, s, e, hs, hm⟩ := C33_mode w values h0 hl hh
  refine ⟨s, ?_⟩
  have hcnt : values.length / 2 + values.length % 2 + 1 ≤ s.count x := by rw [hs.1.count_eq]; exact hx
  have hlen := hs.1.length_eq
  -- the copies of x are contiguous: positions [p, p + count)
  have hmono : ∀ i j, i ≤ j → j < s.length → s.getD i 0 ≤ s.getD j 0 := by
    intro i j hij hj
    rw [getD_lt (by omega), getD_lt hj]; exact sorted_get hs.2 hij hj
  have hrun : ∃ p, p + s.count x ≤ s.length ∧ ∀ i, p ≤ i → i < p + s.count x → s.getD i 0 = x := by
    clear hm e hcnt hx hlen hmono
    have hsort := hs.2
    clear hs
    induction s with
    | nil => exact ⟨0, by simp, fun i h1 h2 => by simp at h2⟩
    | cons a s ih =>
      rw [List.pairwise_cons] at hsort
      obtain ⟨p, hp, hall⟩ := ih hsort.2
      by_cases hax : a = x
      · subst hax
        rw [List.count_cons_self]
        refine ⟨0, by have := List.count_le_length (a := a) (l := s); simp; omega, fun i _ hi => ?_⟩
        rcases i with _ | i
        · simp
        · simp only [List.getD_cons_succ]
          -- a ≤ s[i] ≤ a
          by_cases hc0 : s.count a = 0
          · omega
          · have hilt : i < s.length := by omega
            rw [getD_lt hilt]
            apply Nat.le_antisymm
            · have h1 := hall (p + s.count a - 1) (by omega) (by omega)
              rw [getD_lt (by omega)] at h1
              rw [← h1]
              exact sorted_get hsort.2 (by omega) (by omega)
            · exact hsort.1 _ (List.getElem_mem _)
      · have hc : (a :: s).count x = s.count x := List.count_cons_of_ne (fun h => hax h)
        rw [hc]
        refine ⟨p + 1, by simp; omega, fun i h1 h2 => ?_⟩
        rcases i with _ | i
        · omega
        · simp only [List.getD_cons_succ]; exact hall i (by omega) (by omega)
  obtain ⟨p, hp, hall⟩ := hrun
  have hvx : v = x := by
    have hmid : ∀ k, s.length - s.count x ≤ k → k < s.count x → s.getD k 0 = x := by
      intro k h1 h2
      exact hall k (by omega) (by omega)
    have key : ∀ b h v, HalfSampleMode s b h v → b = 0 → h = s.length / 2 → v = x := by
      intro b h v hm hb0 hh0
      cases hm with
      | one b v hv =>
        subst hb0
        have := hmid 0 (by omega) (by omega)
        rw [List.getD_eq_getElem?_getD, hv] at this
        exact this
      | two b x' y hx' hy =>
        subst hb0
        have h1 := hmid 0 (by omega) (by omega)
        have h2 := hmid 1 (by omega) (by omega)
        rw [List.getD_eq_getElem?_getD, hx'] at h1
        rw [List.getD_eq_getElem?_getD, hy] at h2
        simp at h1 h2
        omega
      | half b h r v h1 hmr hm' =>
        subst hb0; subst hh0
        obtain ⟨m1, m2, m3⟩ := hmr
        have hq : p < 0 + s.length / 2 := by omega
        have hzero : s.getD (p + s.length / 2) 0 - s.getD p 0 = 0 := by
          rw [hall p (le_refl _) (by omega), hall (p + s.length / 2) (by omega) (by omega)]; omega
        have hr0 := (m3 p (by omega) hq).1
        rw [hzero] at hr0
        -- the window [r, r + h] is constant and contains the middle position
        have hk : s.getD (s.length / 2) 0 = x := by
          apply hall <;> omega
        have hconst : ∀ i, r ≤ i → i ≤ r + s.length / 2 → s.getD i 0 = x := by
          intro i hi1 hi2
          have a1 := hmono r i hi1 (by omega)
          have a2 := hmono i (r + s.length / 2) hi2 (by omega)
          have a3 := hmono r (s.length / 2) (by omega) (by omega)
          have a4 := hmono (s.length / 2) (r + s.length / 2) (by omega) (by omega)
          omega
        exact hsm_run hm' (fun i hi1 hi2 => hconst i hi1 (by omega)) (by omega) (by omega) hs.2
    exact key 0 _ v hm rfl rfl
  rw [← hvx]; exact e

/-- The extra copy needed for odd counts cannot be dropped: two of three values are 5, but the
estimate is 3. -/
theorem C33_mode_odd : modeOfSorted 64 [1, 5, 5] = .ok 3 := by
  unfold modeOfSorted; rw [modeLoop]; rfl

/-- Code defect: without headroom, the mode of two equal large values is neither of them. -/
theorem C33_mode_overflow : modeOfSorted 64 [2 ^ 63, 2 ^ 63] = .ok 0 := by
  unfold modeOfSorted; rw [modeLoop]; rfl

example : Headroom 64 [7, 1, 7, 3, 7, 7] ∧ [7, 1, 7, 3, 7, 7].length / 2 + [7, 1, 7, 3, 7, 7].length % 2 + 1 ≤ [7, 1, 7, 3, 7, 7].count 7 := by
  refine ⟨⟨by decide, .inr (by decide)⟩, by decide⟩

end Hwy.Robust
