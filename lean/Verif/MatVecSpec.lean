import Verif.MatVec
import Verif.DotSpec
import Mathlib.Algebra.BigOperators.Group.Finset.Basic
import Mathlib.Data.List.Count

/-!
# C36: MatVec and MatVecAdd
-/

namespace Hwy
namespace MatVecP

open Vec DotP

/-! ## Specification -/

/-- `mat` holds the matrix `A` in row-major order. -/
def IsMatrix {α : Type} (mat : List α) (rows cols : Nat) (A : Nat → Nat → α) : Prop :=
  mat.length = rows * cols ∧ ∀ r < rows, ∀ c < cols, mat[r * cols + c]? = some (A r c)

/-- `vec` holds the vector `x`. -/
def IsVector {α : Type} (vec : List α) (n : Nat) (x : Nat → α) : Prop :=
  vec.length = n ∧ ∀ c < n, vec[c]? = some (x c)

/-- Component `r` of the product. -/
def product {α β R : Type} [NonUnitalNonAssocSemiring R] (p : α → R) (q : β → R) (A : Nat → Nat → α) (x : Nat → β)
    (cols r : Nat) : R := ∑ c ∈ Finset.range cols, p (A r c) * q (x c)

/-- Every worker performs its stores some time: the order of all stores is a permutation of the stores of all tasks. -/
def Complete {R : Type} (sched : List (List (Store R)) → List (Store R)) : Prop :=
  ∀ tasks, (sched tasks).Perm tasks.flatten

/-- `res` has the rows `y`, and is unchanged from `out` elsewhere. -/
def RowsAre {R : Type} (out res : List R) (rows : Nat) (y : Nat → R) : Prop :=
  res.length = out.length ∧ (∀ r < rows, res[r]? = some (y r)) ∧ ∀ r, rows ≤ r → res[r]? = out[r]?

/-! ## Rows -/

section
variable {α R : Type} [NonUnitalNonAssocSemiring R]

theorem loadU_row {γ : Type} (k : Nat) (mat : List γ) (row i : Nat) (h : row + i + k ≤ mat.length) :
    loadU k mat (row + i) = .ok (((mat.drop row).drop i).take k) := by
  rw [loadU_ok k mat (row + i) h, List.drop_drop]

theorem loadN_row {γ : Type} (N : Nat) (z : γ) (mat : List γ) (row i rem : Nat) (hr : rem ≤ N)
    (h : row + i + rem ≤ mat.length) :
    loadN N z mat (row + i) rem = .ok (((mat.drop row).drop i).take rem ++ List.replicate (N - rem) z) := by
  unfold loadN
  rw [min_eq_left hr, if_pos h, List.drop_drop]

theorem loadN_vec {γ : Type} (N : Nat) (z : γ) (vec : List γ) (i rem : Nat) (hr : rem ≤ N) (h : i + rem ≤ vec.length) :
    loadN N z vec i rem = .ok ((vec.drop i).take rem ++ List.replicate (N - rem) z) := by
  unfold loadN
  rw [min_eq_left hr, if_pos h]

/-- Last vectors: the accumulator gains the products of the elements passed over. -/
theorem whole_spec (p : α → R) (N : Nat) (hN : 0 < N) (mat : List α) (row : Nat) (vec : List R) (k : Nat)
    (hm : row + k ≤ mat.length) (hv : k ≤ vec.length) :
    ∀ fuel i s, i ≤ k → k < i + fuel → s.length = N →
      ∃ j s' x, whole p N mat row vec k fuel i s = .ok (j, s') ∧ j ≤ k ∧ k < j + N ∧ s'.length = N ∧
        s'.sum = s.sum + x ∧ dot p id (mat.drop row) vec j = dot p id (mat.drop row) vec i + x := by
  intro fuel
  induction fuel with
  | zero => intro i s h1 h2; omega
  | succ fuel ih =>
    intro i s hle hf hs
    unfold whole
    by_cases h : i + N ≤ k
    · rw [if_pos h, loadU_row N mat row i (by omega), ok_bind', loadU_ok N vec i (by omega), ok_bind']
      have l1 : ((((mat.drop row).drop i).take N).map p).length = N := by simp; omega
      have l2 : ((vec.drop i).take N).length = N := by simp; omega
      obtain ⟨j, s', x, e, h1, h2, h3, h4, h5⟩ := ih (i + N)
        (mulAdd ((((mat.drop row).drop i).take N).map p) ((vec.drop i).take N) s) h (by omega)
        (by rw [mulAdd_length _ _ _ (by rw [l1, l2]) (by rw [l1, hs]), l1])
      refine ⟨j, s', prod p id (((mat.drop row).drop i).take N) ((vec.drop i).take N) + x, e, h1, h2, h3, ?_, ?_⟩
      · rw [h4, sum_mulAdd _ _ _ (by rw [l1, l2]) (by rw [l1, hs]), ← prod_map p id, List.map_id, add_assoc]
      · rw [h5, dot_add p id _ _ i N (by simp; omega) (by omega), add_assoc]
    · rw [if_neg h]
      exact ⟨i, s, 0, rfl, hle, by omega, hs, by simp, by simp⟩

theorem rest_spec (p : α → R) (zero : α) (hz : p zero = 0) (N : Nat) (mat : List α) (row : Nat) (vec : List R)
    (k i : Nat) (s : List R) (hm : row + k ≤ mat.length) (hv : k ≤ vec.length) (h1 : i ≤ k) (h2 : k < i + N)
    (hs : s.length = N) :
    ∃ s' x, rest p zero N mat row vec k i s = .ok s' ∧ s'.length = N ∧ s'.sum = s.sum + x ∧
      dot p id (mat.drop row) vec k = dot p id (mat.drop row) vec i + x := by
  unfold rest
  simp only
  by_cases h : k - i ≠ 0
  · rw [if_pos h, loadN_row N zero mat row i (k - i) (by omega) (by omega), ok_bind',
      loadN_vec N 0 vec i (k - i) (by omega) (by omega), ok_bind']
    have l1 : ((((mat.drop row).drop i).take (k - i) ++ List.replicate (N - (k - i)) zero).map p).length = N := by
      simp; omega
    have l2 : ((vec.drop i).take (k - i) ++ List.replicate (N - (k - i)) (0 : R)).length = N := by simp; omega
    refine ⟨_, prod p id (((mat.drop row).drop i).take (k - i)) ((vec.drop i).take (k - i)), rfl, ?_, ?_, ?_⟩
    · rw [mulAdd_length _ _ _ (by rw [l1, l2]) (by rw [l1, hs]), l1]
    · rw [sum_mulAdd _ _ _ (by rw [l1, l2]) (by rw [l1, hs])]
      congr 1
      have := prod_map p id (((mat.drop row).drop i).take (k - i) ++ List.replicate (N - (k - i)) zero)
        ((vec.drop i).take (k - i) ++ List.replicate (N - (k - i)) (0 : R))
      rw [List.map_id] at this
      rw [this, prod_append p id _ _ _ _ (by simp; omega), prod_zero p id zero 0 hz, add_zero]
    · rw [← dot_add p id _ _ i (k - i) (by simp; omega) (by omega)]
      exact congrArg _ (by omega)
  · rw [if_neg h]
    have : i = k := by omega
    subst this
    exact ⟨s, 0, rfl, hs, by simp, by simp⟩

theorem finish_spec (p : α → R) (zero : α) (hz : p zero = 0) (N : Nat) (hN : 0 < N) (mat : List α) (row : Nat)
    (vec : List R) (k i : Nat) (s : Sums R) (hm : row + k ≤ mat.length) (hv : k ≤ vec.length) (h1 : i ≤ k)
    (hs : Inv N s (dot p id (mat.drop row) vec i)) :
    finish p zero N mat row vec k i s = .ok (dot p id (mat.drop row) vec k) := by
  unfold finish
  obtain ⟨j, s0, x, e, g1, g2, g3, g4, g5⟩ := whole_spec p N hN mat row vec k hm hv (k + 1) i s.s0 h1 (by omega) hs.l0
  obtain ⟨s1, y, e', k1, k2, k3⟩ := rest_spec p zero hz N mat row vec k j s.s1 hm hv g1 g2 hs.l1
  rw [e, ok_bind']
  simp only
  rw [e', ok_bind']
  have := reduce_eq (L := N) (s := ⟨s0, s1, s.s2, s.s3⟩) (x := dot p id (mat.drop row) vec k)
    ⟨g3, k1, hs.l2, hs.l3, by simp only; rw [g4, k2, k3, g5, ← hs.total]; abel⟩
  rw [← this]
  rfl

theorem same4_spec (N : Nat) (mat : List R) (row : Nat) (vec : List R) (k : Nat)
    (hm : row + k ≤ mat.length) (hv : k ≤ vec.length) (hN : 0 < N) :
    ∀ fuel i s, i ≤ k → k < i + fuel → Inv N s (dot id id (mat.drop row) vec i) →
      ∃ j s', same4 N mat row vec k fuel i s = .ok (j, s') ∧ j ≤ k ∧ Inv N s' (dot id id (mat.drop row) vec j) := by
  intro fuel
  induction fuel with
  | zero => intro i s h1 h2; omega
  | succ fuel ih =>
    intro i s hle hf hs
    unfold same4
    by_cases h : i + 4 * N ≤ k
    · have e0 : ∀ t, row + i + t = row + (i + t) := fun t => by omega
      rw [if_pos h]
      simp only [e0]
      rw [loadU_row N mat row (i + 0 * N) (by omega), ok_bind', loadU_ok N vec (i + 0 * N) (by omega), ok_bind',
        loadU_row N mat row (i + 1 * N) (by omega), ok_bind', loadU_ok N vec (i + 1 * N) (by omega), ok_bind',
        loadU_row N mat row (i + 2 * N) (by omega), ok_bind', loadU_ok N vec (i + 2 * N) (by omega), ok_bind',
        loadU_row N mat row (i + 3 * N) (by omega), ok_bind', loadU_ok N vec (i + 3 * N) (by omega), ok_bind']
      apply ih _ _ (by omega) (by omega)
      have l1 : ∀ t, t + N ≤ k → (((mat.drop row).drop t).take N).length = N := fun t ht => by simp; omega
      have l2 : ∀ t, t + N ≤ k → ((vec.drop t).take N).length = N := fun t ht => by simp; omega
      have i0 := inv_s0 hs _ _ (l1 i (by omega)) (l2 i (by omega))
      rw [← dot_add id id _ vec i N (by simp; omega) (by omega)] at i0
      have i1 := inv_s1 i0 _ _ (l1 (i + N) (by omega)) (l2 (i + N) (by omega))
      rw [← dot_add id id _ vec (i + N) N (by simp; omega) (by omega)] at i1
      have i2 := inv_s2 i1 _ _ (l1 (i + N + N) (by omega)) (l2 (i + N + N) (by omega))
      rw [← dot_add id id _ vec (i + N + N) N (by simp; omega) (by omega)] at i2
      have i3 := inv_s3 i2 _ _ (l1 (i + N + N + N) (by omega)) (l2 (i + N + N + N) (by omega))
      rw [← dot_add id id _ vec (i + N + N + N) N (by simp; omega) (by omega)] at i3
      have f0 : i + 0 * N = i := by omega
      have f1 : i + 1 * N = i + N := by omega
      have f2 : i + 2 * N = i + N + N := by omega
      have f3 : i + 3 * N = i + N + N + N := by omega
      have f4 : i + 4 * N = i + N + N + N + N := by omega
      rw [f0, f1, f2, f3, f4]
      exact i3
    · rw [if_neg h]
      exact ⟨i, s, rfl, hle, hs⟩

theorem promote_block (p : α → R) (N : Nat) (v : List α) (t : Nat) (h : t + 2 * N ≤ v.length) :
    promoteLower p ((v.drop t).take (2 * N)) = ((v.drop t).take N).map p ∧
    promoteUpper p ((v.drop t).take (2 * N)) = ((v.drop (t + N)).take N).map p := by
  have hl : ((v.drop t).take (2 * N)).length / 2 = N := by simp; omega
  unfold promoteLower promoteUpper
  rw [hl]
  constructor
  · rw [List.take_take, min_eq_left (by omega)]
  · rw [List.drop_take, List.drop_drop]
    congr 2
    omega

theorem mixed4_spec (p : α → R) (N : Nat) (mat : List α) (row : Nat) (vec : List R) (k : Nat)
    (hm : row + k ≤ mat.length) (hv : k ≤ vec.length) (hN : 0 < N) :
    ∀ fuel i s, i ≤ k → k < i + fuel → Inv N s (dot p id (mat.drop row) vec i) →
      ∃ j s', MatVecP.mixed4 p N mat row vec k fuel i s = .ok (j, s') ∧ j ≤ k ∧
        Inv N s' (dot p id (mat.drop row) vec j) := by
  intro fuel
  induction fuel with
  | zero => intro i s h1 h2; omega
  | succ fuel ih =>
    intro i s hle hf hs
    unfold MatVecP.mixed4
    by_cases h : i + 4 * N ≤ k
    · have e0 : ∀ t, row + i + t = row + (i + t) := fun t => by omega
      rw [if_pos h]
      simp only [e0]
      rw [loadU_row (2 * N) mat row (i + 0 * N) (by omega), ok_bind',
        loadU_row (2 * N) mat row (i + 2 * N) (by omega), ok_bind', loadU_ok N vec (i + 0 * N) (by omega), ok_bind',
        loadU_ok N vec (i + 1 * N) (by omega), ok_bind', loadU_ok N vec (i + 2 * N) (by omega), ok_bind',
        loadU_ok N vec (i + 3 * N) (by omega), ok_bind']
      apply ih _ _ (by omega) (by omega)
      have l1 : ∀ t, t + N ≤ k → ((((mat.drop row).drop t).take N).map p).length = N := fun t ht => by simp; omega
      have l2 : ∀ t, t + N ≤ k → ((vec.drop t).take N).length = N := fun t ht => by simp; omega
      have pm : ∀ t, prod id id ((((mat.drop row).drop t).take N).map p) ((vec.drop t).take N) =
          prod p id (((mat.drop row).drop t).take N) ((vec.drop t).take N) := by
        intro t
        have := prod_map p id (((mat.drop row).drop t).take N) ((vec.drop t).take N)
        rw [List.map_id] at this
        exact this
      have i0 := inv_s0 hs _ _ (l1 i (by omega)) (l2 i (by omega))
      rw [pm, ← dot_add p id _ vec i N (by simp; omega) (by omega)] at i0
      have i1 := inv_s1 i0 _ _ (l1 (i + N) (by omega)) (l2 (i + N) (by omega))
      rw [pm, ← dot_add p id _ vec (i + N) N (by simp; omega) (by omega)] at i1
      have i2 := inv_s2 i1 _ _ (l1 (i + N + N) (by omega)) (l2 (i + N + N) (by omega))
      rw [pm, ← dot_add p id _ vec (i + N + N) N (by simp; omega) (by omega)] at i2
      have i3 := inv_s3 i2 _ _ (l1 (i + N + N + N) (by omega)) (l2 (i + N + N + N) (by omega))
      rw [pm, ← dot_add p id _ vec (i + N + N + N) N (by simp; omega) (by omega)] at i3
      have f0 : i + 0 * N = i := by omega
      have f1 : i + 1 * N = i + N := by omega
      have f2 : i + 2 * N = i + N + N := by omega
      have f3 : i + 3 * N = i + N + N + N := by omega
      have f4 : i + 4 * N = i + N + N + N + N := by omega
      rw [f0, f1, f2, f3, f4]
      have b0 := promote_block p N (mat.drop row) i (by simp; omega)
      have b1 := promote_block p N (mat.drop row) (i + N + N) (by simp; omega)
      rw [b0.1, b0.2, b1.1, b1.2]
      exact i3
    · rw [if_neg h]
      exact ⟨i, s, rfl, hle, hs⟩

theorem rowSame_spec (N : Nat) (hN : 0 < N) (mat : List R) (row : Nat) (vec : List R) (k : Nat)
    (hm : row + k ≤ mat.length) (hv : k ≤ vec.length) :
    rowSame N mat row vec k = .ok (dot id id (mat.drop row) vec k) := by
  unfold rowSame
  obtain ⟨i, s, e, h1, h2⟩ := same4_spec N mat row vec k hm hv hN (k + 1) 0 ⟨vzero N, vzero N, vzero N, vzero N⟩
    (by omega) (by omega) (by rw [dot_zero]; exact inv_zero N)
  rw [e, ok_bind']
  exact finish_spec id 0 rfl N hN mat row vec k i s hm hv h1 h2

theorem rowMixed_spec (p : α → R) (zero : α) (hz : p zero = 0) (N : Nat) (hN : 0 < N) (mat : List α) (row : Nat)
    (vec : List R) (k : Nat) (hm : row + k ≤ mat.length) (hv : k ≤ vec.length) :
    rowMixed p zero N mat row vec k = .ok (dot p id (mat.drop row) vec k) := by
  unfold rowMixed
  obtain ⟨i, s, e, h1, h2⟩ := mixed4_spec p N mat row vec k hm hv hN (k + 1) 0 ⟨vzero N, vzero N, vzero N, vzero N⟩
    (by omega) (by omega) (by rw [dot_zero]; exact inv_zero N)
  rw [e, ok_bind']
  exact finish_spec p zero hz N hN mat row vec k i s hm hv h1 h2

theorem rowTail_spec (p : α → R) (zero : α) (hz : p zero = 0) (N : Nat) (hN : 0 < N) (mat : List α) (row : Nat)
    (vec : List R) (k : Nat) (hm : row + k ≤ mat.length) (hv : k ≤ vec.length) :
    rowTail p zero N mat row vec k = .ok (dot p id (mat.drop row) vec k) := by
  unfold rowTail
  obtain ⟨j, s0, x, e, g1, g2, g3, g4, g5⟩ := whole_spec p N hN mat row vec k hm hv (k + 1) 0 (vzero N) (by omega)
    (by omega) (by simp [vzero])
  obtain ⟨s1, y, e', k1, k2, k3⟩ := rest_spec p zero hz N mat row vec k j s0 hm hv g1 g2 g3
  rw [e, ok_bind']
  simp only
  rw [e', ok_bind', reduceSum_eq, k2, g4, k3, g5, dot_zero, vzero_sum]
  rfl

theorem wide2_spec (p : α → R) (rwma : Rwma α R) (N L : Nat) (hN : 0 < N) (hr : RwmaOk p N L rwma) (mat : List α)
    (row : Nat) (vec : List α) (k : Nat) (hm : row + k ≤ mat.length) (hv : k ≤ vec.length) :
    ∀ fuel i s, i ≤ k → k < i + fuel → Inv L s (dot p p (mat.drop row) vec i) →
      ∃ j s', MatVecP.wide2 rwma N mat row vec k fuel i s = .ok (j, s') ∧ j ≤ k ∧
        Inv L s' (dot p p (mat.drop row) vec j) := by
  intro fuel
  induction fuel with
  | zero => intro i s h1 h2; omega
  | succ fuel ih =>
    intro i s hle hf hs
    unfold MatVecP.wide2
    by_cases h : i + 2 * N ≤ k
    · have e0 : ∀ t, row + i + t = row + (i + t) := fun t => by omega
      rw [if_pos h]
      simp only [e0]
      rw [loadU_row N mat row (i + 0 * N) (by omega), ok_bind', loadU_row N mat row (i + 1 * N) (by omega), ok_bind',
        loadU_ok N vec (i + 0 * N) (by omega), ok_bind', loadU_ok N vec (i + 1 * N) (by omega), ok_bind']
      apply ih _ _ (by omega) (by omega)
      have l1 : ∀ t, t + N ≤ k → (((mat.drop row).drop t).take N).length = N := fun t ht => by simp; omega
      have l2 : ∀ t, t + N ≤ k → ((vec.drop t).take N).length = N := fun t ht => by simp; omega
      have i0 := inv_01 hr hs _ _ (l1 i (by omega)) (l2 i (by omega))
      rw [← dot_add p p _ vec i N (by simp; omega) (by omega)] at i0
      have i1 := inv_23 hr i0 _ _ (l1 (i + N) (by omega)) (l2 (i + N) (by omega))
      rw [← dot_add p p _ vec (i + N) N (by simp; omega) (by omega)] at i1
      have f0 : i + 0 * N = i := by omega
      have f1 : i + 1 * N = i + N := by omega
      have f2 : i + 2 * N = i + N + N := by omega
      rw [f0, f1, f2]
      exact i1
    · rw [if_neg h]
      exact ⟨i, s, rfl, hle, hs⟩

theorem wide1_spec (p : α → R) (rwma : Rwma α R) (N L : Nat) (hN : 0 < N) (hr : RwmaOk p N L rwma) (mat : List α)
    (row : Nat) (vec : List α) (k : Nat) (hm : row + k ≤ mat.length) (hv : k ≤ vec.length) :
    ∀ fuel i s, i ≤ k → k < i + fuel → s.1.length = L → s.2.length = L →
      ∃ j s' x, MatVecP.wide1 rwma N mat row vec k fuel i s = .ok (j, s') ∧ j ≤ k ∧ k < j + N ∧
        s'.1.length = L ∧ s'.2.length = L ∧ s'.1.sum + s'.2.sum = s.1.sum + s.2.sum + x ∧
        dot p p (mat.drop row) vec j = dot p p (mat.drop row) vec i + x := by
  intro fuel
  induction fuel with
  | zero => intro i s h1 h2; omega
  | succ fuel ih =>
    intro i s hle hf hs1 hs2
    unfold MatVecP.wide1
    by_cases h : i + N ≤ k
    · rw [if_pos h, loadU_row N mat row i (by omega), ok_bind', loadU_ok N vec i (by omega), ok_bind']
      obtain ⟨r1, r2, r3⟩ := hr (((mat.drop row).drop i).take N) ((vec.drop i).take N) s.1 s.2 (by simp; omega)
        (by simp; omega) hs1 hs2
      obtain ⟨j, s', x, e, h1, h2, h3, h3', h4, h5⟩ := ih (i + N) _ h (by omega) r1 r2
      refine ⟨j, s', prod p p (((mat.drop row).drop i).take N) ((vec.drop i).take N) + x, e, h1, h2, h3, h3', ?_, ?_⟩
      · rw [h4, r3, add_assoc]; rfl
      · rw [h5, dot_add p p _ _ i N (by simp; omega) (by omega), add_assoc]
    · rw [if_neg h]
      exact ⟨i, s, 0, rfl, hle, by omega, hs1, hs2, by simp, by simp⟩

theorem wideRest_spec (p : α → R) (zero : α) (hz : p zero = 0) (rwma : Rwma α R) (N L : Nat) (hr : RwmaOk p N L rwma)
    (mat : List α) (row : Nat) (vec : List α) (k i : Nat) (s : List R × List R) (hm : row + k ≤ mat.length)
    (hv : k ≤ vec.length) (h1 : i ≤ k) (h2 : k < i + N) (hs1 : s.1.length = L) (hs2 : s.2.length = L) :
    ∃ s' x, MatVecP.wideRest zero rwma N mat row vec k i s = .ok s' ∧ s'.1.length = L ∧ s'.2.length = L ∧
      s'.1.sum + s'.2.sum = s.1.sum + s.2.sum + x ∧
      dot p p (mat.drop row) vec k = dot p p (mat.drop row) vec i + x := by
  unfold MatVecP.wideRest
  simp only
  by_cases h : k - i ≠ 0
  · rw [if_pos h, loadN_row N zero mat row i (k - i) (by omega) (by omega), ok_bind',
      loadN_vec N zero vec i (k - i) (by omega) (by omega), ok_bind']
    obtain ⟨r1, r2, r3⟩ := hr (((mat.drop row).drop i).take (k - i) ++ List.replicate (N - (k - i)) zero)
      ((vec.drop i).take (k - i) ++ List.replicate (N - (k - i)) zero) s.1 s.2 (by simp; omega)
        (by simp; omega) hs1 hs2
    refine ⟨_, prod p p (((mat.drop row).drop i).take (k - i)) ((vec.drop i).take (k - i)), rfl, r1, r2, ?_, ?_⟩
    · rw [r3]
      congr 1
      have := prod_append p p (((mat.drop row).drop i).take (k - i)) (List.replicate (N - (k - i)) zero)
        ((vec.drop i).take (k - i)) (List.replicate (N - (k - i)) zero) (by simp; omega)
      rw [prod_zero p p zero zero hz, add_zero] at this
      exact this
    · rw [← dot_add p p _ _ i (k - i) (by simp; omega) (by omega)]
      exact congrArg _ (by omega)
  · rw [if_neg h]
    have : i = k := by omega
    subst this
    exact ⟨s, 0, rfl, hs1, hs2, by simp, by simp⟩

theorem rowWide_spec (p : α → R) (zero : α) (hz : p zero = 0) (rwma : Rwma α R) (N L : Nat) (hN : 0 < N)
    (hr : RwmaOk p N L rwma) (mat : List α) (row : Nat) (vec : List α) (k : Nat) (hm : row + k ≤ mat.length)
    (hv : k ≤ vec.length) : rowWide zero rwma N L mat row vec k = .ok (dot p p (mat.drop row) vec k) := by
  unfold rowWide
  obtain ⟨i, s, e, h1, hs⟩ := wide2_spec p rwma N L hN hr mat row vec k hm hv (k + 1) 0
    ⟨vzero L, vzero L, vzero L, vzero L⟩ (by omega) (by omega) (by rw [dot_zero]; exact inv_zero L)
  obtain ⟨j, s', x, e', g1, g2, g3, g3', g4, g5⟩ := wide1_spec p rwma N L hN hr mat row vec k hm hv (k + 1) i (s.s0, s.s1)
    h1 (by omega) hs.l0 hs.l1
  obtain ⟨s'', y, e'', k1, k1', k2, k3⟩ := wideRest_spec p zero hz rwma N L hr mat row vec k j (s.s2, s.s3) hm hv g1 g2
    hs.l2 hs.l3
  rw [e, ok_bind']
  simp only
  rw [e', ok_bind']
  simp only
  rw [e'', ok_bind']
  have := reduce_eq (L := L) (s := ⟨s'.1, s'.2, s''.1, s''.2⟩) (x := dot p p (mat.drop row) vec k)
    ⟨g3, g3', k1, k1', by simp only; rw [g4, add_assoc, k2, k3, g5, ← hs.total]; abel⟩
  rw [← this]
  rfl

theorem rowWideTail_spec (p : α → R) (zero : α) (hz : p zero = 0) (rwma : Rwma α R) (N L : Nat) (hN : 0 < N)
    (hr : RwmaOk p N L rwma) (mat : List α) (row : Nat) (vec : List α) (k : Nat) (hm : row + k ≤ mat.length)
    (hv : k ≤ vec.length) : rowWideTail zero rwma N L mat row vec k = .ok (dot p p (mat.drop row) vec k) := by
  unfold rowWideTail
  obtain ⟨j, s', x, e', g1, g2, g3, g3', g4, g5⟩ := wide1_spec p rwma N L hN hr mat row vec k hm hv (k + 1) 0
    (vzero L, vzero L) (by omega) (by omega) (by simp [vzero]) (by simp [vzero])
  obtain ⟨s'', y, e'', k1, k1', k2, k3⟩ := wideRest_spec p zero hz rwma N L hr mat row vec k j s' hm hv g1 g2 g3 g3'
  rw [e', ok_bind']
  simp only
  rw [e'', ok_bind', reduceSum_eq]
  unfold vadd
  rw [sum_zipAdd _ _ (by rw [k1, k1']), k2, g4, k3, g5, dot_zero, vzero_sum]
  simp
  rfl

end

/-! ## Chunks and stores -/

section
variable {α γ R : Type} [NonUnitalNonAssocSemiring R]

/-- The store number `m` of all stores: rows `m * L` to `m * L + L - 1`. -/
def storeOf (val : Nat → R) (L m : Nat) : Store R := ⟨m * L, (List.range L).map (fun t => val (m * L + t))⟩

theorem writeAt_map (f : Nat → R) (k n : Nat) (buf : List R) (hk : k < n) (hl : buf.length = n)
    (h : ∀ i < k, buf[i]? = some (f i)) :
    ∃ buf', writeAt buf k (f k) = .ok buf' ∧ buf'.length = n ∧ ∀ i < k + 1, buf'[i]? = some (f i) := by
  refine ⟨buf.set k (f k), writeAt_of_lt _ (by omega), by simp [hl], ?_⟩
  intro i hi
  by_cases e : i = k
  · subst e; simp [hl, hk]
  · rw [List.getElem?_set_ne (by omega)]; exact h i (by omega)

theorem fillBuf_spec (kernel : Nat → M R) (toF : R → R) (q : γ → R) (add : Option (List γ)) (kInner begin n : Nat)
    (val0 val : Nat → R) (hk : ∀ i < n, kernel ((begin + i) * kInner) = .ok (val0 (begin + i)))
    (ha : ∀ i < n, applyAdd toF q add (begin + i) (val0 (begin + i)) = .ok (val (begin + i))) :
    ∀ todo idx buf, idx + todo = n → buf.length = n → (∀ i < idx, buf[i]? = some (val (begin + i))) →
      fillBuf kernel toF q add kInner begin todo idx buf = .ok ((List.range n).map (fun i => val (begin + i))) := by
  intro todo
  induction todo with
  | zero =>
    intro idx buf h1 h2 h3
    unfold fillBuf
    congr 1
    apply List.ext_getElem?
    intro i
    by_cases hi : i < n
    · rw [h3 i (by omega)]; simp [hi]
    · rw [List.getElem?_eq_none (by omega), List.getElem?_eq_none (by simp; omega)]
  | succ todo ih =>
    intro idx buf h1 h2 h3
    unfold fillBuf
    rw [hk idx (by omega), ok_bind', ha idx (by omega), ok_bind']
    obtain ⟨buf', e, g1, g2⟩ := writeAt_map (fun i => val (begin + i)) idx n buf (by omega) h2 h3
    rw [e, ok_bind']
    exact ih (idx + 1) buf' (by omega) g1 g2

theorem drop_take_map_range (f : Nat → R) (n i L : Nat) (h : i + L ≤ n) :
    (((List.range n).map f).drop i).take L = (List.range L).map (fun t => f (i + t)) := by
  apply List.ext_getElem?
  intro t
  by_cases ht : t < L
  · rw [List.getElem?_take_of_lt ht, List.getElem?_drop]
    simp [ht, show i + t < n by omega]
  · rw [List.getElem?_eq_none (by simp; omega), List.getElem?_eq_none (by simp; omega)]

theorem streams_spec (L c b : Nat) (hL : 0 < L) (val : Nat → R) :
    ∀ fuel m, m ≤ c → c - m < fuel →
      streams L (c * L) (b * L) ((List.range (c * L)).map (fun i => val (b * L + i))) fuel (m * L) =
        .ok ((List.range (c - m)).map (fun k => storeOf val L (b + m + k))) := by
  intro fuel
  induction fuel with
  | zero => intro m h1 h2; omega
  | succ fuel ih =>
    intro m h1 h2
    unfold streams
    by_cases h : m = c
    · subst h
      simp
    · have hlt : m < c := by omega
      have hle : m * L + L ≤ c * L := by
        have := Nat.mul_le_mul_right L hlt
        rw [Nat.succ_mul] at this
        exact this
      have hne : m * L ≠ c * L := by omega
      have e1 : m * L + L = (m + 1) * L := by rw [Nat.succ_mul]
      rw [if_pos hne, loadU_ok L _ _ (by simp; exact hle), ok_bind', e1, ih (m + 1) (by omega) (by omega), ok_bind']
      have e2 : c - m = (c - (m + 1)) + 1 := by omega
      rw [e2, List.range_succ_eq_map, List.map_cons, List.map_map, drop_take_map_range _ _ _ _ hle]
      have e3 : (b + m + 0) * L = b * L + m * L := by ring
      have e4 : (List.range (c - (m + 1))).map (fun k => storeOf val L (b + (m + 1) + k)) =
          (List.range (c - (m + 1))).map ((fun k => storeOf val L (b + m + k)) ∘ Nat.succ) := by
        apply List.map_congr_left
        intro k _
        simp only [Function.comp]
        congr 1
        omega
      rw [e4]
      simp only [storeOf, e3]
      simp only [Nat.add_assoc]
      rfl

/-- The hypotheses on the row computations: row `r` yields `val r`. -/
structure KernelOk (kernel : Nat → M R) (toF : R → R) (q : γ → R) (add : Option (List γ)) (kInner rows : Nat)
    (val0 val : Nat → R) : Prop where
  row : ∀ r < rows, kernel (r * kInner) = .ok (val0 r)
  add : ∀ r < rows, applyAdd toF q add r (val0 r) = .ok (val r)

theorem chunkTask_spec {kernel : Nat → M R} {toF : R → R} {q : γ → R} {add : Option (List γ)} {kInner rows : Nat}
    {val0 val : Nat → R} (K : KernelOk kernel toF q add kInner rows val0 val) (L c chunk : Nat) (hL : 0 < L)
    (h : chunk * (c * L) + c * L ≤ rows) :
    chunkTask kernel toF q add kInner L (c * L) chunk =
      .ok ((List.range c).map (fun k => storeOf val L (chunk * c + k))) := by
  unfold chunkTask
  simp only
  rw [fillBuf_spec kernel toF q add kInner (chunk * (c * L)) (c * L) val0 val (fun i hi => K.row _ (by omega))
    (fun i hi => K.add _ (by omega)) (c * L) 0 _ (by omega) (by simp) (by omega), ok_bind']
  have e : chunk * (c * L) = (chunk * c) * L := by ring
  rw [e]
  have hf : c - 0 < c * L + 1 := by
    have := Nat.mul_le_mul_left c hL
    omega
  have := streams_spec L c (chunk * c) hL val (c * L + 1) 0 (by omega) hf
  rw [Nat.zero_mul, Nat.sub_zero] at this
  rw [this]
  rfl

theorem allTasks_spec {task : Nat → M (List (Store R))} (f : Nat → List (Store R)) (n : Nat)
    (h : ∀ i < n, task i = .ok (f i)) :
    ∀ todo i, i + todo = n → allTasks task todo i = .ok ((List.range todo).map (fun k => f (i + k))) := by
  intro todo
  induction todo with
  | zero => intro i _; rfl
  | succ todo ih =>
    intro i hi
    unfold allTasks
    rw [h i (by omega), ok_bind', ih (i + 1) (by omega), ok_bind', List.range_succ_eq_map, List.map_cons, List.map_map]
    have : (List.range todo).map (fun k => f (i + 1 + k)) = (List.range todo).map ((fun k => f (i + k)) ∘ Nat.succ) := by
      apply List.map_congr_left
      intro k _
      simp only [Function.comp]
      congr 1
      omega
    rw [this]
    rfl

theorem flatten_range {δ : Type} (f : Nat → δ) (c : Nat) : ∀ n,
    ((List.range n).map (fun i => (List.range c).map (fun k => f (i * c + k)))).flatten = (List.range (n * c)).map f
  | 0 => by simp
  | n + 1 => by
    rw [List.range_succ, List.map_append, List.flatten_append, flatten_range f c n, Nat.succ_mul, List.range_add,
      List.map_append]
    simp

/-- All tasks: their stores are the stores `0 .. n * c - 1`. -/
theorem tasks_spec {kernel : Nat → M R} {toF : R → R} {q : γ → R} {add : Option (List γ)} {kInner rows : Nat}
    {val0 val : Nat → R} (K : KernelOk kernel toF q add kInner rows val0 val) (L c n : Nat) (hL : 0 < L)
    (h : n * (c * L) ≤ rows) :
    allTasks (chunkTask kernel toF q add kInner L (c * L)) n 0 =
      .ok ((List.range n).map (fun i => (List.range c).map (fun k => storeOf val L (i * c + k)))) := by
  have := allTasks_spec (task := chunkTask kernel toF q add kInner L (c * L))
    (fun i => (List.range c).map (fun k => storeOf val L (i * c + k))) n (by
      intro i hi
      apply chunkTask_spec K L c i hL
      have := Nat.mul_le_mul_right (c * L) (show i + 1 ≤ n by omega)
      rw [Nat.succ_mul] at this
      omega) n 0 (by omega)
  rw [this]
  simp

theorem storeU_get {δ : Type} (v a : List δ) (i : Nat) (h : i + v.length ≤ a.length) :
    ∃ a', storeU v a i = .ok a' ∧ a'.length = a.length ∧
      ∀ j, a'[j]? = if i ≤ j ∧ j < i + v.length then v[j - i]? else a[j]? := by
  refine ⟨_, storeU_ok v a i h, by simp; omega, ?_⟩
  intro j
  by_cases h1 : j < i
  · rw [if_neg (by omega), List.append_assoc, List.getElem?_append_left (by simp; omega), List.getElem?_take_of_lt h1]
  · by_cases h2 : j < i + v.length
    · rw [if_pos ⟨by omega, h2⟩, List.append_assoc, List.getElem?_append_right (by simp; omega),
        List.getElem?_append_left (by simp; omega)]
      congr 1
      simp; omega
    · rw [if_neg (by omega), List.getElem?_append_right (by simp; omega), List.getElem?_drop]
      congr 1
      simp; omega

/-- Stores in any order, with repetitions or not. -/
theorem runStores_spec (L outAddr : Nat) (hL : 0 < L) (ha : L ∣ outAddr) (val : Nat → R) :
    ∀ (ks : List Nat) (out : List R), (∀ k ∈ ks, k * L + L ≤ out.length) →
      ∃ res, runStores L outAddr (ks.map (storeOf val L)) out = .ok res ∧ res.length = out.length ∧
        ∀ i, res[i]? = if i / L ∈ ks then some (val i) else out[i]?
  | [], out, _ => ⟨out, rfl, rfl, by simp⟩
  | k :: ks, out, h => by
    have hk := h k (by simp)
    have hlen : (storeOf val L k).v.length = L := by simp [storeOf]
    obtain ⟨out', e, g1, g2⟩ := storeU_get (storeOf val L k).v out (k * L) (by rw [hlen]; exact hk)
    obtain ⟨res, e', g3, g4⟩ := runStores_spec L outAddr hL ha val ks out' (by
      intro k' hk'
      rw [g1]
      exact h k' (by simp [hk']))
    refine ⟨res, ?_, by rw [g3, g1], ?_⟩
    · rw [List.map_cons]
      unfold runStores stream
      have hd : L ∣ outAddr + (storeOf val L k).pos := Nat.dvd_add ha ⟨k, by simp [storeOf, Nat.mul_comm]⟩
      rw [if_pos hd]
      have : (storeOf val L k).pos = k * L := rfl
      rw [this, e, ok_bind', e']
    · intro i
      rw [g4 i, g2 i, hlen]
      have hdiv : (k * L ≤ i ∧ i < k * L + L) ↔ i / L = k := by
        rw [Nat.div_eq_iff hL]
        have : L * k = k * L := Nat.mul_comm _ _
        omega
      by_cases h1 : i / L ∈ ks
      · rw [if_pos h1, if_pos (by simp [h1])]
      · rw [if_neg h1]
        by_cases h2 : i / L = k
        · have h3 := hdiv.mpr h2
          rw [if_pos h3, if_pos (by simp [h2])]
          have : i - k * L < L := by omega
          simp only [storeOf]
          rw [List.getElem?_map, List.getElem?_range this]
          simp only [Option.map_some]
          congr 2
          omega
        · rw [if_neg (fun h => h2 (hdiv.mp h)), if_neg (by simp [h1, h2])]

theorem tailRows_spec {kernel : Nat → M R} {toF : R → R} {q : γ → R} {add : Option (List γ)} {kInner rows : Nat}
    {val0 val : Nat → R} (K : KernelOk kernel toF q add kInner rows val0 val) :
    ∀ todo r out, r + todo = rows → rows ≤ out.length → (∀ i < r, out[i]? = some (val i)) →
      ∃ res, tailRows kernel toF q add kInner todo r out = .ok res ∧ RowsAre out res rows val := by
  intro todo
  induction todo with
  | zero =>
    intro r out h1 h2 h3
    exact ⟨out, rfl, rfl, fun i hi => h3 i (by omega), fun _ _ => rfl⟩
  | succ todo ih =>
    intro r out h1 h2 h3
    unfold tailRows
    rw [K.row r (by omega), ok_bind', K.add r (by omega), ok_bind', writeAt_of_lt _ (show r < out.length by omega), ok_bind']
    obtain ⟨res, e, g1, g2, g3⟩ := ih (r + 1) (out.set r (val r)) (by omega) (by simpa using h2) (by
      intro i hi
      by_cases hir : i = r
      · rw [hir, List.getElem?_set_self (by omega)]
      · rw [List.getElem?_set_ne (by omega)]; exact h3 i (by omega))
    refine ⟨res, e, by rw [g1]; simp, g2, ?_⟩
    intro i hi
    rw [g3 i hi, List.getElem?_set_ne (by omega)]

theorem matVecImpl_spec {kernel kernelTail : Nat → M R} {toF : R → R} {q : γ → R} {add : Option (List γ)} {kInner : Nat}
    {val0 val : Nat → R} (rows L c outAddr : Nat) (K : KernelOk kernel toF q add kInner rows val0 val)
    (K' : KernelOk kernelTail toF q add kInner rows val0 val) (hL : 0 < L)
    (sched : List (List (Store R)) → List (Store R)) (hs : Complete sched) (ha : L ∣ outAddr) (out : List R)
    (ho : rows ≤ out.length) :
    ∃ res, matVecImpl kernel kernelTail toF q add sched rows kInner L (c * L) outAddr out = .ok res ∧
      RowsAre out res rows val := by
  unfold matVecImpl
  simp only
  have hn : rows / (c * L) * (c * L) ≤ rows := Nat.div_mul_le_self _ _
  generalize rows / (c * L) = n at hn ⊢
  rw [tasks_spec K L c n hL hn, ok_bind']
  have hp := hs ((List.range n).map (fun i => (List.range c).map (fun k => storeOf val L (i * c + k))))
  rw [flatten_range (storeOf val L) c n] at hp
  generalize sched _ = ss at hp ⊢
  obtain ⟨ks, hk, rfl⟩ : ∃ ks : List Nat, ks.Perm (List.range (n * c)) ∧ ss = ks.map (storeOf val L) := by
    have hall : ∀ s ∈ ss, ∃ k, k ∈ List.range (n * c) ∧ s = storeOf val L k := by
      intro s hs
      have := (hp.mem_iff).mp hs
      rw [List.mem_map] at this
      obtain ⟨k, h1, h2⟩ := this
      exact ⟨k, h1, h2.symm⟩
    refine ⟨ss.map (fun s => s.pos / L), ?_, ?_⟩
    · have := hp.map (fun s => s.pos / L)
      rw [List.map_map] at this
      have e : (List.range (n * c)).map ((fun s : Store R => s.pos / L) ∘ storeOf val L) = List.range (n * c) := by
        have : ((fun s : Store R => s.pos / L) ∘ storeOf val L) = id := by
          funext k
          simp [storeOf, Nat.mul_div_cancel _ hL]
        rw [this, List.map_id]
      rw [e] at this
      exact this
    · rw [List.map_map]
      have : ss.map id = ss.map (storeOf val L ∘ fun s => s.pos / L) := by
        apply List.map_congr_left
        intro s hs
        obtain ⟨k, _, rfl⟩ := hall s hs
        simp [storeOf, Nat.mul_div_cancel _ hL]
      rw [List.map_id] at this
      exact this
  have hb : ∀ k ∈ ks, k * L + L ≤ out.length := by
    intro k hk'
    have h1 : k < n * c := by
      have := hk.mem_iff.mp hk'
      rwa [List.mem_range] at this
    have h2 := Nat.mul_le_mul_right L (show k + 1 ≤ n * c by omega)
    have h3 : n * c * L = n * (c * L) := by ring
    rw [Nat.succ_mul] at h2
    omega
  obtain ⟨o1, e1, g1, g2⟩ := runStores_spec L outAddr hL ha val ks out hb
  rw [e1, ok_bind']
  obtain ⟨res, e2, r1, r2, r3⟩ := tailRows_spec K' (rows - n * (c * L)) (n * (c * L)) o1 (by omega) (by omega) (by
    intro i hi
    rw [g2 i, if_pos]
    rw [hk.mem_iff, List.mem_range, Nat.div_lt_iff_lt_mul hL]
    have h3 : n * c * L = n * (c * L) := by ring
    omega)
  refine ⟨res, e2, by rw [r1, g1], r2, ?_⟩
  intro i hi
  rw [r3 i hi, g2 i, if_neg]
  rw [hk.mem_iff, List.mem_range, Nat.div_lt_iff_lt_mul hL]
  have h3 : n * c * L = n * (c * L) := by ring
  omega

end

/-! ## Theorems -/

section
variable {α β γ R : Type} [NonUnitalNonAssocSemiring R]

theorem dot_eq_sum (p : α → R) (q : β → R) (mat : List α) (vec : List β) (row k : Nat) (a : Nat → α) (x : Nat → β)
    (hm : ∀ c < k, mat[row + c]? = some (a c)) (hv : ∀ c < k, vec[c]? = some (x c)) :
    dot p q (mat.drop row) vec k = ∑ c ∈ Finset.range k, p (a c) * q (x c) := by
  induction k with
  | zero => simp [dot_zero]
  | succ k ih =>
    have h1 := hm k (by omega)
    have h2 := hv k (by omega)
    obtain ⟨b1, e1⟩ := List.getElem?_eq_some_iff.mp h1
    obtain ⟨b2, e2⟩ := List.getElem?_eq_some_iff.mp h2
    rw [Finset.sum_range_succ, ← ih (fun c hc => hm c (by omega)) (fun c hc => hv c (by omega)),
      dot_succ p q (mat.drop row) vec k (by simp; omega) b2, e2, List.getElem_drop, e1]

theorem dot_eq_product (p : α → R) (q : β → R) {mat : List α} {vec : List β} {rows cols : Nat} {A : Nat → Nat → α}
    {x : Nat → β} (hm : IsMatrix mat rows cols A) (hv : IsVector vec cols x) (r : Nat) (hr : r < rows) :
    dot p q (mat.drop (r * cols)) vec cols = product p q A x cols r :=
  dot_eq_sum p q mat vec (r * cols) cols (A r) x (fun c hc => hm.2 r hr c hc) hv.2

theorem row_bound {mat : List α} {rows cols : Nat} {A : Nat → Nat → α} (hm : IsMatrix mat rows cols A) (r : Nat)
    (hr : r < rows) : r * cols + cols ≤ mat.length := by
  have := Nat.mul_le_mul_right cols (show r + 1 ≤ rows by omega)
  rw [Nat.succ_mul] at this
  rw [hm.1]
  exact this

theorem applyAdd_none (toF : R → R) (q : γ → R) (r : Nat) (x : R) : applyAdd toF q none r x = .ok x := rfl

theorem applyAdd_some (toF : R → R) (q : γ → R) {add : List γ} {rows : Nat} {y : Nat → γ} (ha : IsVector add rows y)
    (r : Nat) (hr : r < rows) (x : R) : applyAdd toF q (some add) r x = .ok (toF (toF x + q (y r))) := by
  unfold applyAdd
  obtain ⟨h, e⟩ := List.getElem?_eq_some_iff.mp (ha.2 r hr)
  simp only
  rw [readAt_of_lt h, ok_bind', e]
  rfl

/-- C36: `MatVec` for equal types. The vectors are at most 64 bytes, `out` is aligned to the vector size. -/
theorem C36_same (toF : R → R) (sizeofT N : Nat) (hc : 0 < 64 / sizeofT) (hN : N ∣ 64 / sizeofT) (rows cols : Nat)
    (A : Nat → Nat → R) (x : Nat → R) (mat vec out : List R) (hm : IsMatrix mat rows cols A) (hv : IsVector vec cols x)
    (sched : List (List (Store R)) → List (Store R)) (hs : Complete sched) (outAddr : Nat) (ha : N ∣ outAddr)
    (ho : rows ≤ out.length) :
    ∃ res, matVecSame toF sizeofT N rows cols mat vec none sched outAddr out = .ok res ∧
      RowsAre out res rows (fun r => product id id A x cols r) := by
  obtain ⟨c, e⟩ := hN
  rw [Nat.mul_comm] at e
  have hN : 0 < N := by
    rcases Nat.eq_zero_or_pos N with h | h
    · subst h; omega
    · exact h
  unfold matVecSame chunkSize
  rw [e]
  exact matVecImpl_spec (val0 := fun r => product id id A x cols r) rows N c outAddr
    ⟨fun r hr => by rw [rowSame_spec N hN mat _ vec cols (row_bound hm r hr) (by rw [hv.1]), dot_eq_product id id hm hv r hr],
      fun r _ => rfl⟩
    ⟨fun r hr => by rw [rowTail_spec id 0 rfl N hN mat _ vec cols (row_bound hm r hr) (by rw [hv.1]),
        dot_eq_product id id hm hv r hr],
      fun r _ => rfl⟩ hN sched hs ha out ho

/-- C36: `MatVecAdd` for equal types, where the sum is computed in `float`: `toF` is the rounding to `float`. -/
theorem C36_same_add (toF : R → R) (sizeofT N : Nat) (hc : 0 < 64 / sizeofT) (hN : N ∣ 64 / sizeofT) (rows cols : Nat)
    (A : Nat → Nat → R) (x y : Nat → R) (mat vec add out : List R) (hm : IsMatrix mat rows cols A)
    (hv : IsVector vec cols x) (hy : IsVector add rows y) (sched : List (List (Store R)) → List (Store R))
    (hs : Complete sched) (outAddr : Nat) (ha : N ∣ outAddr) (ho : rows ≤ out.length) :
    ∃ res, matVecSame toF sizeofT N rows cols mat vec (some add) sched outAddr out = .ok res ∧
      RowsAre out res rows (fun r => toF (toF (product id id A x cols r) + toF (y r))) := by
  obtain ⟨c, e⟩ := hN
  rw [Nat.mul_comm] at e
  have hN : 0 < N := by
    rcases Nat.eq_zero_or_pos N with h | h
    · subst h; omega
    · exact h
  unfold matVecSame chunkSize
  rw [e]
  exact matVecImpl_spec (val0 := fun r => product id id A x cols r) rows N c outAddr
    ⟨fun r hr => by rw [rowSame_spec N hN mat _ vec cols (row_bound hm r hr) (by rw [hv.1]), dot_eq_product id id hm hv r hr],
      fun r hr => applyAdd_some toF toF hy r hr _⟩
    ⟨fun r hr => by rw [rowTail_spec id 0 rfl N hN mat _ vec cols (row_bound hm r hr) (by rw [hv.1]),
        dot_eq_product id id hm hv r hr],
      fun r hr => applyAdd_some toF toF hy r hr _⟩ hN sched hs ha out ho

/-- C36: `MatVecAdd` when the conversion to `float` is exact, as it is for `float` and for `float16_t`. -/
theorem C36_same_add_exact (sizeofT N : Nat) (hc : 0 < 64 / sizeofT) (hN : N ∣ 64 / sizeofT) (rows cols : Nat)
    (A : Nat → Nat → R) (x y : Nat → R) (mat vec add out : List R) (hm : IsMatrix mat rows cols A)
    (hv : IsVector vec cols x) (hy : IsVector add rows y) (sched : List (List (Store R)) → List (Store R))
    (hs : Complete sched) (outAddr : Nat) (ha : N ∣ outAddr) (ho : rows ≤ out.length) :
    ∃ res, matVecSame id sizeofT N rows cols mat vec (some add) sched outAddr out = .ok res ∧
      RowsAre out res rows (fun r => product id id A x cols r + y r) :=
  C36_same_add id sizeofT N hc hN rows cols A x y mat vec add out hm hv hy sched hs outAddr ha ho

/-- C36: bf16 matrix, float vector: `MatVec`. -/
theorem C36_mixed (p : α → R) (zero : α) (hz : p zero = 0) (N : Nat) (hN : N ∣ 16) (rows cols : Nat)
    (A : Nat → Nat → α) (x : Nat → R) (mat : List α) (vec out : List R) (hm : IsMatrix mat rows cols A)
    (hv : IsVector vec cols x) (sched : List (List (Store R)) → List (Store R)) (hs : Complete sched) (outAddr : Nat)
    (ha : N ∣ outAddr) (ho : rows ≤ out.length) :
    ∃ res, matVecMixed p zero N rows cols mat vec none sched outAddr out = .ok res ∧
      RowsAre out res rows (fun r => product p id A x cols r) := by
  have hN' : 0 < N := Nat.pos_of_dvd_of_pos hN (by omega)
  obtain ⟨c, e⟩ := hN
  rw [Nat.mul_comm] at e
  have e4 : chunkSize 4 = c * N := e
  unfold matVecMixed
  rw [e4]
  exact matVecImpl_spec (val0 := fun r => product p id A x cols r) rows N c outAddr
    ⟨fun r hr => by rw [rowMixed_spec p zero hz N hN' mat _ vec cols (row_bound hm r hr) (by rw [hv.1]),
        dot_eq_product p id hm hv r hr],
      fun r _ => rfl⟩
    ⟨fun r hr => by rw [rowTail_spec p zero hz N hN' mat _ vec cols (row_bound hm r hr) (by rw [hv.1]),
        dot_eq_product p id hm hv r hr],
      fun r _ => rfl⟩ hN' sched hs ha out ho

/-- C36: bf16 matrix, float vector: `MatVecAdd`. -/
theorem C36_mixed_add (p : α → R) (zero : α) (hz : p zero = 0) (N : Nat) (hN : N ∣ 16) (rows cols : Nat)
    (A : Nat → Nat → α) (x y : Nat → R) (mat : List α) (vec add out : List R) (hm : IsMatrix mat rows cols A)
    (hv : IsVector vec cols x) (hy : IsVector add rows y) (sched : List (List (Store R)) → List (Store R))
    (hs : Complete sched) (outAddr : Nat) (ha : N ∣ outAddr) (ho : rows ≤ out.length) :
    ∃ res, matVecMixed p zero N rows cols mat vec (some add) sched outAddr out = .ok res ∧
      RowsAre out res rows (fun r => product p id A x cols r + y r) := by
  have hN' : 0 < N := Nat.pos_of_dvd_of_pos hN (by omega)
  obtain ⟨c, e⟩ := hN
  rw [Nat.mul_comm] at e
  have e4 : chunkSize 4 = c * N := e
  unfold matVecMixed
  rw [e4]
  exact matVecImpl_spec (val0 := fun r => product p id A x cols r) rows N c outAddr
    ⟨fun r hr => by rw [rowMixed_spec p zero hz N hN' mat _ vec cols (row_bound hm r hr) (by rw [hv.1]),
        dot_eq_product p id hm hv r hr],
      fun r hr => applyAdd_some id id hy r hr _⟩
    ⟨fun r hr => by rw [rowTail_spec p zero hz N hN' mat _ vec cols (row_bound hm r hr) (by rw [hv.1]),
        dot_eq_product p id hm hv r hr],
      fun r hr => applyAdd_some id id hy r hr _⟩ hN' sched hs ha out ho

/-- C36: matrix and vector bf16: `MatVec`; `2 * L` bf16 lanes. -/
theorem C36_wide (p : α → R) (zero : α) (hz : p zero = 0) (L : Nat) (hL : L ∣ 32) (rwma : Rwma α R)
    (hr : RwmaOk p (2 * L) L rwma) (rows cols : Nat) (A : Nat → Nat → α) (x : Nat → α) (mat vec : List α) (out : List R)
    (hm : IsMatrix mat rows cols A) (hv : IsVector vec cols x) (sched : List (List (Store R)) → List (Store R))
    (hs : Complete sched) (outAddr : Nat) (ha : L ∣ outAddr) (ho : rows ≤ out.length) :
    ∃ res, matVecWide p zero rwma (2 * L) rows cols mat vec none sched outAddr out = .ok res ∧
      RowsAre out res rows (fun r => product p p A x cols r) := by
  have hL' : 0 < L := Nat.pos_of_dvd_of_pos hL (by omega)
  obtain ⟨c, e⟩ := hL
  rw [Nat.mul_comm] at e
  have e4 : chunkSize 2 = c * L := e
  unfold matVecWide
  rw [e4, Nat.mul_div_cancel_left L (by omega)]
  exact matVecImpl_spec (val0 := fun r => product p p A x cols r) rows L c outAddr
    ⟨fun r hr' => by rw [rowWide_spec p zero hz rwma (2 * L) L (by omega) hr mat _ vec cols (row_bound hm r hr') (by rw [hv.1]),
        dot_eq_product p p hm hv r hr'],
      fun r _ => rfl⟩
    ⟨fun r hr' => by rw [rowWideTail_spec p zero hz rwma (2 * L) L (by omega) hr mat _ vec cols (row_bound hm r hr') (by rw [hv.1]),
        dot_eq_product p p hm hv r hr'],
      fun r _ => rfl⟩ hL' sched hs ha out ho

/-- C36: matrix and vector bf16: `MatVecAdd`. -/
theorem C36_wide_add (p : α → R) (zero : α) (hz : p zero = 0) (L : Nat) (hL : L ∣ 32) (rwma : Rwma α R)
    (hr : RwmaOk p (2 * L) L rwma) (rows cols : Nat) (A : Nat → Nat → α) (x y : Nat → α) (mat vec add : List α)
    (out : List R) (hm : IsMatrix mat rows cols A) (hv : IsVector vec cols x) (hy : IsVector add rows y)
    (sched : List (List (Store R)) → List (Store R)) (hs : Complete sched) (outAddr : Nat) (ha : L ∣ outAddr)
    (ho : rows ≤ out.length) :
    ∃ res, matVecWide p zero rwma (2 * L) rows cols mat vec (some add) sched outAddr out = .ok res ∧
      RowsAre out res rows (fun r => product p p A x cols r + p (y r)) := by
  have hL' : 0 < L := Nat.pos_of_dvd_of_pos hL (by omega)
  obtain ⟨c, e⟩ := hL
  rw [Nat.mul_comm] at e
  have e4 : chunkSize 2 = c * L := e
  unfold matVecWide
  rw [e4, Nat.mul_div_cancel_left L (by omega)]
  exact matVecImpl_spec (val0 := fun r => product p p A x cols r) rows L c outAddr
    ⟨fun r hr' => by rw [rowWide_spec p zero hz rwma (2 * L) L (by omega) hr mat _ vec cols (row_bound hm r hr') (by rw [hv.1]),
        dot_eq_product p p hm hv r hr'],
      fun r hr' => applyAdd_some id p hy r hr' _⟩
    ⟨fun r hr' => by rw [rowWideTail_spec p zero hz rwma (2 * L) L (by omega) hr mat _ vec cols (row_bound hm r hr') (by rw [hv.1]),
        dot_eq_product p p hm hv r hr'],
      fun r hr' => applyAdd_some id p hy r hr' _⟩ hL' sched hs ha out ho

/-- The number of stores of the tasks that write row `r`. -/
def writesOf (tasks : List (List (Store R))) (r : Nat) : Nat :=
  tasks.flatten.countP (fun s => decide (s.pos ≤ r ∧ r < s.pos + s.v.length))

theorem countP_range_block (L r : Nat) (hL : 0 < L) : ∀ n,
    (List.range n).countP (fun k => decide (k * L ≤ r ∧ r < k * L + L)) = if r < n * L then 1 else 0
  | 0 => by simp
  | n + 1 => by
    rw [List.range_succ, List.countP_append, countP_range_block L r hL n, Nat.succ_mul]
    simp only [List.countP_cons, List.countP_nil, decide_eq_true_eq]
    split <;> split <;> split <;> omega

/-- C36: each row is written exactly once: rows of whole chunks by one store of one task, the others by no task (these are
written by the caller in the loop after `pool.Run`). -/
theorem C36_each_row_once (toF : R → R) (sizeofT N : Nat) (hc : 0 < 64 / sizeofT) (hN : N ∣ 64 / sizeofT) (rows cols : Nat)
    (A : Nat → Nat → R) (x : Nat → R) (mat vec : List R) (hm : IsMatrix mat rows cols A) (hv : IsVector vec cols x) :
    ∃ tasks, allTasks (chunkTask (fun row => rowSame N mat row vec cols) toF toF none cols N (64 / sizeofT))
        (rows / (64 / sizeofT)) 0 = .ok tasks ∧
      ∀ r, writesOf tasks r = if r < rows / (64 / sizeofT) * (64 / sizeofT) then 1 else 0 := by
  obtain ⟨c, e⟩ := hN
  rw [Nat.mul_comm] at e
  have hN : 0 < N := by
    rcases Nat.eq_zero_or_pos N with h | h
    · subst h; omega
    · exact h
  rw [e]
  have K : KernelOk (fun row => rowSame N mat row vec cols) toF toF none cols rows
      (fun r => product id id A x cols r) (fun r => product id id A x cols r) :=
    ⟨fun r hr => by rw [rowSame_spec N hN mat _ vec cols (row_bound hm r hr) (by rw [hv.1]), dot_eq_product id id hm hv r hr],
      fun r _ => rfl⟩
  refine ⟨_, tasks_spec K N c _ hN (Nat.div_mul_le_self _ _), ?_⟩
  intro r
  unfold writesOf
  generalize rows / (c * N) = n
  rw [flatten_range (storeOf (fun r => product id id A x cols r) N) c n, List.countP_map]
  have e2 : ((fun s : Store R => decide (s.pos ≤ r ∧ r < s.pos + s.v.length)) ∘
      storeOf (fun r => product id id A x cols r) N) = fun k => decide (k * N ≤ r ∧ r < k * N + N) := by
    funext k
    simp [storeOf, Function.comp]
  rw [e2, countP_range_block N r hN, Nat.mul_assoc]

/-- Finding: with vectors of more than 64 bytes, a release build reads past the end of the buffer. -/
theorem C36_finding_large_vectors (toF : R → R) (sizeofT N : Nat) (hc : 0 < 64 / sizeofT) (hN : 64 / sizeofT < N)
    (rows cols : Nat) (A : Nat → Nat → R) (x : Nat → R) (mat vec out : List R) (hm : IsMatrix mat rows cols A)
    (hv : IsVector vec cols x) (sched : List (List (Store R)) → List (Store R)) (outAddr : Nat)
    (hr : 64 / sizeofT ≤ rows) :
    matVecSame toF sizeofT N rows cols mat vec none sched outAddr out = .error .ub := by
  unfold matVecSame matVecImpl chunkSize
  simp only
  generalize 64 / sizeofT = k at hc hN hr ⊢
  obtain ⟨n, hn⟩ : ∃ n, rows / k = n + 1 := ⟨rows / k - 1, by have := Nat.div_pos hr hc; omega⟩
  rw [hn]
  unfold allTasks chunkTask
  simp only
  rw [fillBuf_spec (val0 := fun r => product id id A x cols r) (val := fun r => product id id A x cols r) (n := k)
    _ toF toF none cols (0 * k)
    (fun i hi => by
      rw [rowSame_spec N (by omega) mat _ vec cols (row_bound hm _ (by omega)) (by rw [hv.1]),
        dot_eq_product id id hm hv _ (by omega)])
    (fun i _ => rfl) k 0 _ (by omega) (by simp) (by omega), ok_bind']
  unfold streams
  rw [if_pos (by omega)]
  unfold loadU
  rw [if_neg (by simp; omega)]
  rfl

/-- Finding: `out` must be aligned to the vector size as soon as there is a whole chunk, which is not documented. -/
theorem C36_finding_out_alignment (toF : R → R) (sizeofT N : Nat) (hc : 0 < 64 / sizeofT) (hN : N ∣ 64 / sizeofT)
    (rows cols : Nat) (A : Nat → Nat → R) (x : Nat → R) (mat vec out : List R) (hm : IsMatrix mat rows cols A)
    (hv : IsVector vec cols x) (sched : List (List (Store R)) → List (Store R)) (hs : Complete sched) (outAddr : Nat)
    (ha : ¬ N ∣ outAddr) (hr : 64 / sizeofT ≤ rows) :
    matVecSame toF sizeofT N rows cols mat vec none sched outAddr out = .error .ub := by
  obtain ⟨c, e⟩ := hN
  rw [Nat.mul_comm] at e
  have hN : 0 < N := by
    rcases Nat.eq_zero_or_pos N with h | h
    · subst h; omega
    · exact h
  have K : KernelOk (fun row => rowSame N mat row vec cols) toF toF none cols rows
      (fun r => product id id A x cols r) (fun r => product id id A x cols r) :=
    ⟨fun r hr => by rw [rowSame_spec N hN mat _ vec cols (row_bound hm r hr) (by rw [hv.1]), dot_eq_product id id hm hv r hr],
      fun r _ => rfl⟩
  have h1 := Nat.div_pos hr hc
  have h2 : 0 < c := by
    rcases Nat.eq_zero_or_pos c with h | h
    · subst h; omega
    · exact h
  unfold matVecSame matVecImpl chunkSize
  simp only
  rw [e] at h1 ⊢
  have hle : rows / (c * N) * (c * N) ≤ rows := Nat.div_mul_le_self _ _
  generalize rows / (c * N) = n at h1 hle ⊢
  rw [tasks_spec K N c n hN hle, ok_bind']
  have hp := hs ((List.range n).map (fun i => (List.range c).map
    (fun k => storeOf (fun r => product id id A x cols r) N (i * c + k))))
  rw [flatten_range (storeOf _ N) c n] at hp
  generalize sched _ = ss at hp ⊢
  match ss, hp with
  | [], hp =>
    have := hp.length_eq
    have h3 := Nat.mul_pos h1 h2
    simp at this
    omega
  | s :: ss, hp =>
    have : s ∈ (List.range (n * c)).map (storeOf (fun r => product id id A x cols r) N) := hp.mem_iff.mp (by simp)
    rw [List.mem_map] at this
    obtain ⟨k, _, rfl⟩ := this
    unfold runStores stream
    rw [if_neg]
    · rfl
    · intro h
      apply ha
      exact (Nat.dvd_add_left ⟨k, by simp [storeOf, Nat.mul_comm]⟩).mp h

end

/-- Finding: `MatVecAdd` of `double` adds in `float`: 16777217 * 1 + 0 yields 16777216, for any rounding `toF` that maps
16777217 to its nearest float 16777216. -/
theorem C36_finding_double_add (toF : Int → Int) (h1 : toF 16777217 = 16777216) (h2 : toF 16777216 = 16777216)
    (h0 : toF 0 = 0) :
    matVecSame toF 8 2 1 1 [16777217] [1] (some [0]) List.flatten 0 [0] = .ok [16777216] := by
  have : matVecSame toF 8 2 1 1 [16777217] [1] (some [0]) List.flatten 0 [0] = .ok [toF (toF 16777217 + toF 0)] := rfl
  rw [this, h0, h1, Int.add_zero, h2]

/-- Non-vacuity: 5 rows of 3 columns of 32-byte elements (chunks of two rows, two lanes), the stores in reverse order. -/
theorem C36_nonvacuous :
    (∀ tasks : List (List (Store Int)), (tasks.flatten.reverse).Perm tasks.flatten) ∧
    IsMatrix (List.map Int.ofNat (List.range 15)) 5 3 (fun r c => ((r * 3 + c : Nat) : Int)) ∧
    matVecSame id 32 2 5 3 (List.map Int.ofNat (List.range 15)) [1, 10, 100] (some [1000, 2000, 3000, 4000, 5000])
      (fun t => t.flatten.reverse) 6 [0, 0, 0, 0, 0, 7] = .ok [1210, 2543, 3876, 5209, 6542, 7] := by
  refine ⟨fun t => List.reverse_perm _, ⟨by decide, ?_⟩, by decide⟩
  intro r hr c hc
  have : r * 3 + c < 15 := by omega
  simp [this]

end MatVecP
end Hwy
