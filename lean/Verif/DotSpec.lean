import Mathlib.Tactic.Linarith
import Verif.Dot
import Mathlib.Tactic.Ring
import Mathlib.Tactic.Abel
import Mathlib.Data.BitVec
import Mathlib.Algebra.Order.Group.Unbundled.Int
import Mathlib.Algebra.Order.Group.Abs

/-!
# C35: Dot::Compute multiplies each pair of elements exactly once and stays in bounds
-/

namespace Hwy
namespace DotP

open Vec

/-! ## Specification -/

/-- `Σ_{i < n} p(a[i]) * q(b[i])`. -/
def dot {α β R : Type} [NonUnitalNonAssocSemiring R] (p : α → R) (q : β → R) (a : List α) (b : List β) (n : Nat) : R :=
  (List.zipWith (fun x y => p x * q y) (a.take n) (b.take n)).sum

/-- What the caller promises with its assumption flags. -/
structure Promise (asm : Assume) (N num lenA lenB : Nat) : Prop where
  atLeastOne : asm.atLeastOne = true → N ≤ num
  multiple : asm.multiple = true → N ∣ num
  padded : asm.padded = true → (num + N - 1) / N * N ≤ lenA ∧ (num + N - 1) / N * N ≤ lenB
  boundsA : num ≤ lenA
  boundsB : num ≤ lenB

/-- `ReorderWidenMulAccumulate`, as documented: adds all products of corresponding lanes to the sums, in an unspecified
order and distribution. -/
def RwmaOk {β R : Type} [NonUnitalNonAssocSemiring R] (p : β → R) (N L : Nat) (rwma : Rwma β R) : Prop :=
  ∀ a b : List β, ∀ s0 s1 : List R, a.length = N → b.length = N → s0.length = L → s1.length = L →
    (rwma a b s0 s1).1.length = L ∧ (rwma a b s0 s1).2.length = L ∧
    (rwma a b s0 s1).1.sum + (rwma a b s0 s1).2.sum =
      s0.sum + s1.sum + (List.zipWith (fun x y => p x * p y) a b).sum

/-! ## Proofs -/

section
variable {α β R : Type} [NonUnitalNonAssocSemiring R]

theorem ok_bind' {α β : Type} (a : α) (f : α → M β) : ((Except.ok a : M α) >>= f) = f a := rfl

/-- Sum of products of two vectors. -/
def prod (p : α → R) (q : β → R) (v : List α) (w : List β) : R := (List.zipWith (fun x y => p x * q y) v w).sum

theorem sum_zipAdd : ∀ (a b : List R), a.length = b.length → (List.zipWith (· + ·) a b).sum = a.sum + b.sum
  | [], [], _ => by simp
  | x :: a, y :: b, h => by
    have ih := sum_zipAdd a b (by simpa using h)
    simp only [List.zipWith_cons_cons, List.sum_cons, ih]
    abel

theorem sum_mulAdd (a b s : List R) (hb : b.length = a.length) (hs : s.length = a.length) :
    (mulAdd a b s).sum = s.sum + prod id id a b := by
  unfold mulAdd prod
  rw [sum_zipAdd _ _ (by simp [hb, hs])]
  simp only [id]
  abel

theorem mulAdd_length (a b s : List R) (hb : b.length = a.length) (hs : s.length = a.length) :
    (mulAdd a b s).length = a.length := by
  unfold mulAdd; simp [hb, hs]

theorem reduceSum_eq (v : List R) : reduceSum v = v.sum := by
  unfold reduceSum
  rw [List.sum_eq_foldl]

theorem vzero_sum (N : Nat) : (vzero N : List R).sum = 0 := by
  unfold vzero; simp

/-- Invariant of the loops. -/
structure Inv (L : Nat) (s : Sums R) (x : R) : Prop where
  l0 : s.s0.length = L
  l1 : s.s1.length = L
  l2 : s.s2.length = L
  l3 : s.s3.length = L
  total : s.s0.sum + s.s1.sum + s.s2.sum + s.s3.sum = x

theorem reduce_eq {L : Nat} {s : Sums R} {x : R} (h : Inv L s x) : s.reduce = x := by
  unfold Sums.reduce vadd
  simp only
  rw [reduceSum_eq, sum_zipAdd _ _ (by simp [h.l0, h.l1, h.l2, h.l3]), sum_zipAdd _ _ (by rw [h.l0, h.l1]),
    sum_zipAdd _ _ (by rw [h.l2, h.l3]), ← h.total]
  abel

theorem inv_zero (L : Nat) : Inv (R := R) L ⟨vzero L, vzero L, vzero L, vzero L⟩ 0 := by
  constructor <;> simp [vzero]

theorem dot_zero (p : α → R) (q : β → R) (a : List α) (b : List β) : dot p q a b 0 = 0 := by simp [dot]

/-- Splitting off a block. -/
theorem dot_add (p : α → R) (q : β → R) (a : List α) (b : List β) (i k : Nat) (ha : i ≤ a.length) (hb : i ≤ b.length) :
    dot p q a b (i + k) = dot p q a b i + prod p q ((a.drop i).take k) ((b.drop i).take k) := by
  unfold dot prod
  rw [List.take_add, List.take_add, List.zipWith_append (by simp [ha, hb]), List.sum_append]

theorem prod_map (p : α → R) (q : β → R) (v : List α) (w : List β) :
    prod id id (v.map p) (w.map q) = prod p q v w := by
  unfold prod
  rw [List.zipWith_map]
  rfl

theorem prod_append (p : α → R) (q : β → R) (v v' : List α) (w w' : List β) (h : v.length = w.length) :
    prod p q (v ++ v') (w ++ w') = prod p q v w + prod p q v' w' := by
  unfold prod
  rw [List.zipWith_append h, List.sum_append]

theorem prod_zero (p : α → R) (q : β → R) (x : α) (y : β) (hx : p x = 0) (n : Nat) :
    prod p q (List.replicate n x) (List.replicate n y) = 0 := by
  unfold prod
  rw [List.zipWith_replicate]
  simp [hx]

theorem ifThenElseZero_eq (z : α) (N r : Nat) (v : List α) (hv : v.length = N) (hr : r ≤ N) :
    ifThenElseZero z (firstN N r) v = v.take r ++ List.replicate (N - r) z := by
  apply List.ext_getElem
  · simp [ifThenElseZero, firstN, hv, hr]
  · intro i h1 h2
    simp only [ifThenElseZero, firstN, List.getElem_zipWith, List.getElem_map, List.getElem_range]
    by_cases h : i < r
    · rw [List.getElem_append_left (by simp; omega)]
      simp [h]
    · rw [List.getElem_append_right (by simp; omega)]
      simp [h]

theorem ifThenZeroElse_eq (z : α) (N k : Nat) (v : List α) (hv : v.length = N) (hk : k ≤ N) :
    ifThenZeroElse z (firstN N k) v = List.replicate k z ++ v.drop k := by
  apply List.ext_getElem
  · simp [ifThenZeroElse, firstN, hv, hk]
  · intro i h1 h2
    simp only [ifThenZeroElse, firstN, List.getElem_zipWith, List.getElem_map, List.getElem_range]
    by_cases h : i < k
    · rw [List.getElem_append_left (by simp; omega)]
      simp [h]
    · rw [List.getElem_append_right (by simp; omega)]
      simp only [h, decide_false, List.length_replicate, List.getElem_drop]
      have : k + (i - k) = i := by omega
      simp [this]

theorem block_length {γ : Type} (a : List γ) (i N : Nat) (h : i + N ≤ a.length) : ((a.drop i).take N).length = N := by
  simp; omega

/-- The masked block equals the first `r` products. -/
theorem prod_masked (p : α → R) (q : β → R) (za : α) (zb : β) (hz : p za = 0) (a : List α) (b : List β) (i N r : Nat)
    (hr : r ≤ N) (ha : i + N ≤ a.length) (hb : i + N ≤ b.length) :
    prod p q (ifThenElseZero za (firstN N r) ((a.drop i).take N)) (ifThenElseZero zb (firstN N r) ((b.drop i).take N)) =
      prod p q ((a.drop i).take r) ((b.drop i).take r) := by
  rw [ifThenElseZero_eq _ _ _ _ (block_length a i N ha) hr, ifThenElseZero_eq _ _ _ _ (block_length b i N hb) hr,
    List.take_take, List.take_take, min_eq_left hr, prod_append _ _ _ _ _ _ (by simp; omega), prod_zero _ _ _ _ hz]
  simp

/-- Skipping the first `N - r` lanes of a block ending at `i + r`. -/
theorem prod_skipped (p : α → R) (q : β → R) (za : α) (zb : β) (hz : p za = 0) (a : List α) (b : List β) (i N r : Nat)
    (hr : r ≤ N) (hi : N ≤ i + r) (ha : i + r ≤ a.length) (hb : i + r ≤ b.length) :
    prod p q (ifThenZeroElse za (firstN N (N - r)) ((a.drop (i + r - N)).take N))
        (ifThenZeroElse zb (firstN N (N - r)) ((b.drop (i + r - N)).take N)) =
      prod p q ((a.drop i).take r) ((b.drop i).take r) := by
  rw [ifThenZeroElse_eq _ _ _ _ (block_length a _ N (by omega)) (by omega),
    ifThenZeroElse_eq _ _ _ _ (block_length b _ N (by omega)) (by omega),
    prod_append _ _ _ _ _ _ (by simp), prod_zero _ _ _ _ hz, zero_add]
  have e : ∀ {γ : Type} (c : List γ), ((c.drop (i + r - N)).take N).drop (N - r) = (c.drop i).take r := by
    intro γ c
    rw [List.drop_take, List.drop_drop]
    congr 1
    · omega
    · congr 1; omega
  rw [e, e]

/-! ### Scalar loop -/

theorem take_succ_get {γ : Type} (a : List γ) (i : Nat) (h : i < a.length) : (a.drop i).take 1 = [a[i]] := by
  rw [List.drop_eq_getElem_cons h]; rfl

theorem dot_succ (p : α → R) (q : β → R) (a : List α) (b : List β) (i : Nat) (ha : i < a.length) (hb : i < b.length) :
    dot p q a b (i + 1) = dot p q a b i + p a[i] * q b[i] := by
  rw [dot_add p q a b i 1 (by omega) (by omega), take_succ_get a i ha, take_succ_get b i hb]
  simp [prod]

theorem scalarLoop_spec (p : α → R) (q : β → R) (a : List α) (b : List β) (num : Nat) (mul : Nat → M R)
    (ha : num ≤ a.length) (hb : num ≤ b.length)
    (hmul : ∀ i (h1 : i < a.length) (h2 : i < b.length), mul i = .ok (p a[i] * q b[i])) :
    ∀ fuel i s0 s1, i ≤ num → num < i + fuel → s0 + s1 = dot p q a b i →
      scalarLoop mul num fuel i s0 s1 = .ok (dot p q a b num) := by
  intro fuel
  induction fuel with
  | zero => intro i s0 s1 h1 h2; omega
  | succ fuel ih =>
    intro i s0 s1 hle hf hs
    unfold scalarLoop
    by_cases h2 : i + 2 ≤ num
    · rw [if_pos h2, Nat.add_zero, hmul i (by omega) (by omega), ok_bind', hmul (i + 1) (by omega) (by omega), ok_bind']
      apply ih _ _ _ h2 (by omega)
      rw [dot_succ p q a b (i + 1) (by omega) (by omega), dot_succ p q a b i (by omega) (by omega), ← hs]
      abel
    · rw [if_neg h2]
      by_cases h1 : i < num
      · rw [if_pos h1, hmul i (by omega) (by omega), ok_bind']
        have : num = i + 1 := by omega
        subst this
        rw [dot_succ p q a b i (by omega) (by omega), ← hs, add_assoc]
        rfl
      · rw [if_neg h1]
        have : num = i := by omega
        subst this
        rw [hs]; rfl

theorem readMul (p : α → R) (q : β → R) (a : List α) (b : List β) (i : Nat) (h1 : i < a.length) (h2 : i < b.length) :
    (do return p (← readAt a i) * q (← readAt b i) : M R) = .ok (p a[i] * q b[i]) := by
  rw [readAt_of_lt h1, ok_bind', readAt_of_lt h2, ok_bind']; rfl

/-! ### Float overload -/

theorem inv_s0 {L : Nat} {s : Sums R} {x : R} (h : Inv L s x) (v w : List R) (hv : v.length = L) (hw : w.length = L) :
    Inv L { s with s0 := mulAdd v w s.s0 } (x + prod id id v w) := by
  refine ⟨?_, h.l1, h.l2, h.l3, ?_⟩
  · rw [mulAdd_length _ _ _ (by rw [hv, hw]) (by rw [hv, h.l0]), hv]
  · simp only
    rw [sum_mulAdd _ _ _ (by rw [hv, hw]) (by rw [hv, h.l0]), ← h.total]
    abel

theorem inv_s1 {L : Nat} {s : Sums R} {x : R} (h : Inv L s x) (v w : List R) (hv : v.length = L) (hw : w.length = L) :
    Inv L { s with s1 := mulAdd v w s.s1 } (x + prod id id v w) := by
  refine ⟨h.l0, ?_, h.l2, h.l3, ?_⟩
  · rw [mulAdd_length _ _ _ (by rw [hv, hw]) (by rw [hv, h.l1]), hv]
  · simp only
    rw [sum_mulAdd _ _ _ (by rw [hv, hw]) (by rw [hv, h.l1]), ← h.total]
    abel

theorem inv_s2 {L : Nat} {s : Sums R} {x : R} (h : Inv L s x) (v w : List R) (hv : v.length = L) (hw : w.length = L) :
    Inv L { s with s2 := mulAdd v w s.s2 } (x + prod id id v w) := by
  refine ⟨h.l0, h.l1, ?_, h.l3, ?_⟩
  · rw [mulAdd_length _ _ _ (by rw [hv, hw]) (by rw [hv, h.l2]), hv]
  · simp only
    rw [sum_mulAdd _ _ _ (by rw [hv, hw]) (by rw [hv, h.l2]), ← h.total]
    abel

theorem inv_s3 {L : Nat} {s : Sums R} {x : R} (h : Inv L s x) (v w : List R) (hv : v.length = L) (hw : w.length = L) :
    Inv L { s with s3 := mulAdd v w s.s3 } (x + prod id id v w) := by
  refine ⟨h.l0, h.l1, h.l2, ?_, ?_⟩
  · rw [mulAdd_length _ _ _ (by rw [hv, hw]) (by rw [hv, h.l3]), hv]
  · simp only
    rw [sum_mulAdd _ _ _ (by rw [hv, hw]) (by rw [hv, h.l3]), ← h.total]
    abel

theorem float4_spec (N : Nat) (hN : 0 < N) (a b : List R) (num : Nat) (ha : num ≤ a.length) (hb : num ≤ b.length) :
    ∀ fuel i s, i ≤ num → num < i + fuel → N ∣ i → Inv N s (dot id id a b i) →
      ∃ j s', float4 N a b num fuel i s = .ok (j, s') ∧ j ≤ num ∧ N ∣ j ∧ Inv N s' (dot id id a b j) := by
  intro fuel
  induction fuel with
  | zero => intro i s h1 h2; omega
  | succ fuel ih =>
    intro i s hle hf hd hs
    unfold float4
    by_cases h : i + 4 * N ≤ num
    · rw [if_pos h]
      simp only [loadU_ok N a i (by omega), loadU_ok N b i (by omega), loadU_ok N a (i + N) (by omega),
        loadU_ok N b (i + N) (by omega), loadU_ok N a (i + N + N) (by omega), loadU_ok N b (i + N + N) (by omega),
        loadU_ok N a (i + N + N + N) (by omega), loadU_ok N b (i + N + N + N) (by omega), ok_bind']
      apply ih _ _ (by omega) (by omega) (by simp [hd])
      have l : ∀ (c : List R) k, num ≤ c.length → k + N ≤ num → ((c.drop k).take N).length = N :=
        fun c k h1 h2 => block_length c k N (by omega)
      have i0 := inv_s0 hs _ _ (l a i ha (by omega)) (l b i hb (by omega))
      rw [← dot_add id id a b i N (by omega) (by omega)] at i0
      have i1 := inv_s1 i0 _ _ (l a (i + N) ha (by omega)) (l b (i + N) hb (by omega))
      rw [← dot_add id id a b (i + N) N (by omega) (by omega)] at i1
      have i2 := inv_s2 i1 _ _ (l a (i + N + N) ha (by omega)) (l b (i + N + N) hb (by omega))
      rw [← dot_add id id a b (i + N + N) N (by omega) (by omega)] at i2
      have i3 := inv_s3 i2 _ _ (l a (i + N + N + N) ha (by omega)) (l b (i + N + N + N) hb (by omega))
      rw [← dot_add id id a b (i + N + N + N) N (by omega) (by omega)] at i3
      exact i3
    · rw [if_neg h]
      exact ⟨i, s, rfl, hle, hd, hs⟩

theorem float1_spec (N : Nat) (hN : 0 < N) (a b : List R) (num : Nat) (ha : num ≤ a.length) (hb : num ≤ b.length) :
    ∀ fuel i s, i ≤ num → num < i + fuel → N ∣ i → Inv N s (dot id id a b i) →
      ∃ j s', float1 N a b num fuel i s = .ok (j, s') ∧ j ≤ num ∧ num < j + N ∧ N ∣ j ∧ Inv N s' (dot id id a b j) := by
  intro fuel
  induction fuel with
  | zero => intro i s h1 h2; omega
  | succ fuel ih =>
    intro i s hle hf hd hs
    unfold float1
    by_cases h : i + N ≤ num
    · rw [if_pos h]
      simp only [loadU_ok N a i (by omega), loadU_ok N b i (by omega), ok_bind']
      apply ih _ _ (by omega) (by omega) (by simp [hd])
      have i0 := inv_s0 hs _ _ (block_length a i N (by omega)) (block_length b i N (by omega))
      rw [← dot_add id id a b i N (by omega) (by omega)] at i0
      exact i0
    · rw [if_neg h]
      exact ⟨i, s, rfl, hle, by omega, hd, hs⟩

/-- With the padding promise, a whole vector at the last multiple of `N` is accessible. -/
theorem padded_le (N num j len : Nat) (hN : 0 < N) (hd : N ∣ j) (hj : j < num)
    (h : (num + N - 1) / N * N ≤ len) : j + N ≤ len := by
  obtain ⟨k, rfl⟩ := hd
  have : k + 1 ≤ (num + N - 1) / N := by
    rw [Nat.le_div_iff_mul_le hN]
    have : (k + 1) * N = N * k + N := by ring
    omega
  have := Nat.mul_le_mul_right N this
  have : (k + 1) * N = N * k + N := by ring
  omega

theorem le_of_not_multiple_padded (asm : Assume) (N num : Nat) {lenA lenB : Nat} (P : Promise asm N num lenA lenB)
    (h : (!asm.atLeastOne && !asm.multiple && !asm.padded && decide (num < N)) = false)
    (hm : asm.multiple = false) (hp : asm.padded = false) : N ≤ num := by
  have := P.atLeastOne
  cases h1 : asm.atLeastOne
  · simp [h1, hm, hp] at h; exact h
  · exact this h1

theorem eq_of_multiple (N num j : Nat) (hN : 0 < N) (h1 : j ≤ num) (h2 : num < j + N) (h3 : N ∣ j) (h4 : N ∣ num) :
    j = num := by
  obtain ⟨k, rfl⟩ := h3
  obtain ⟨k', hk'⟩ := h4
  have h4 : N * k ≤ N * k' := by omega
  have h5 : N * k' < N * (k + 1) := by rw [Nat.mul_add]; omega
  have h6 := Nat.le_of_mul_le_mul_left h4 hN
  have h7 := Nat.lt_of_mul_lt_mul_left h5
  have : k = k' := by omega
  rw [hk', this]

theorem ge_of_dvd (N num j : Nat) (h2 : num < j + N) (h3 : N ∣ j) (hN : N ≤ num) : ¬ j < N := by
  intro hlt
  obtain ⟨k, rfl⟩ := h3
  have : k = 0 := by
    by_contra hk
    have : N * 1 ≤ N * k := Nat.mul_le_mul_left N (by omega)
    omega
  subst this
  omega

theorem floatRest_spec (asm : Assume) (N : Nat) (hN : 0 < N) (a b : List R) (num : Nat)
    (P : Promise asm N num a.length b.length) (j : Nat) (s : Sums R)
    (hc : (!asm.atLeastOne && !asm.multiple && !asm.padded && decide (num < N)) = false)
    (h1 : j ≤ num) (h2 : num < j + N) (h3 : N ∣ j) (hs : Inv N s (dot id id a b j)) :
    ∃ s', floatRest asm N a b num j s = .ok s' ∧ Inv N s' (dot id id a b num) := by
  have hA := P.boundsA
  have hB := P.boundsB
  unfold floatRest
  by_cases hm : asm.multiple = true
  · have : j = num := eq_of_multiple N num j hN h1 h2 h3 (P.multiple hm)
    subst this
    exact ⟨s, by simp [hm], hs⟩
  · have hm : asm.multiple = false := by simpa using hm
    simp only [hm, Bool.false_eq_true, if_false]
    by_cases hr : num - j = 0
    · have : j = num := by omega
      subst this
      exact ⟨s, by simp, hs⟩
    · rw [if_neg hr]
      have e : dot id id a b (j + (num - j)) = dot id id a b num := congrArg _ (by omega)
      by_cases hp : asm.padded = true
      · obtain ⟨p1, p2⟩ := P.padded hp
        have q1 := padded_le N num j _ hN h3 (by omega) p1
        have q2 := padded_le N num j _ hN h3 (by omega) p2
        simp only [hp, if_true, loadU_ok N a j q1, loadU_ok N b j q2, ok_bind']
        refine ⟨_, rfl, ?_⟩
        have i1 := inv_s1 hs (ifThenElseZero 0 (firstN N (num - j)) ((a.drop j).take N))
          (ifThenElseZero 0 (firstN N (num - j)) ((b.drop j).take N))
          (by simp [ifThenElseZero, firstN]; omega) (by simp [ifThenElseZero, firstN]; omega)
        rw [prod_masked id id 0 0 rfl a b j N (num - j) (by omega) q1 q2,
          ← dot_add id id a b j (num - j) (by omega) (by omega), e] at i1
        exact i1
      · have hp : asm.padded = false := by simpa using hp
        have hNn := le_of_not_multiple_padded asm N num P hc hm hp
        have hjN := ge_of_dvd N num j h2 h3 hNn
        simp only [hp, Bool.false_eq_true, if_false, if_neg hjN]
        simp only [loadU_ok N a (j + (num - j) - N) (by omega), loadU_ok N b (j + (num - j) - N) (by omega), ok_bind']
        refine ⟨_, rfl, ?_⟩
        have i1 := inv_s1 hs (ifThenZeroElse 0 (firstN N (N - (num - j))) ((a.drop (j + (num - j) - N)).take N))
          (ifThenZeroElse 0 (firstN N (N - (num - j))) ((b.drop (j + (num - j) - N)).take N))
          (by simp [ifThenZeroElse, firstN]; omega) (by simp [ifThenZeroElse, firstN]; omega)
        rw [prod_skipped id id 0 0 rfl a b j N (num - j) (by omega) (by omega) (by omega) (by omega),
          ← dot_add id id a b j (num - j) (by omega) (by omega), e] at i1
        exact i1

/-- C35, floats: under the promises made, the result is the exact dot product and no access is out of bounds; elements past
`num` do not matter. -/
theorem C35_float (asm : Assume) (N : Nat) (hN : 0 < N) (a b : List R) (num : Nat)
    (P : Promise asm N num a.length b.length) : computeFloat asm N a b num = .ok (dot id id a b num) := by
  unfold computeFloat
  cases hc : (!asm.atLeastOne && !asm.multiple && !asm.padded && decide (num < N))
  · obtain ⟨i, s, e1, h1, h2, h3⟩ := float4_spec N hN a b num P.boundsA P.boundsB (num + 1) 0
      ⟨vzero N, vzero N, vzero N, vzero N⟩ (by omega) (by omega) (by simp) (by rw [dot_zero]; exact inv_zero N)
    obtain ⟨j, s', e2, g1, g2, g3, g4⟩ := float1_spec N hN a b num P.boundsA P.boundsB (num + 1) i s h1 (by omega) h2 h3
    obtain ⟨s'', e3, k1⟩ := floatRest_spec asm N hN a b num P j s' hc g1 g2 g3 g4
    simp only [Bool.false_eq_true, if_false]
    rw [e1, ok_bind']
    simp only
    rw [e2, ok_bind']
    simp only
    rw [e3, ok_bind', ← reduce_eq k1]
    rfl
  · simp only [if_true]
    exact scalarLoop_spec id id a b num _ P.boundsA P.boundsB (fun i h1 h2 => readMul id id a b i h1 h2) _ _ _ _
      (by omega) (by omega) (by simp [dot_zero])

/-! ### f32 * bf16 overload -/

theorem prod_map_r (p : β → R) (v : List R) (w : List β) : prod id id v (w.map p) = prod id p v w := by
  have := prod_map (id : R → R) p v w
  rwa [List.map_id] at this

theorem map_block (p : β → R) (b : List β) (i N : Nat) :
    ((b.drop i).take N).map p = (((b.map p).drop i).take N) := by
  rw [List.map_take, List.map_drop]

theorem prod_masked_map (p : β → R) (a : List R) (b : List β) (i N r : Nat) (hr : r ≤ N) (ha : i + N ≤ a.length)
    (hb : i + N ≤ b.length) :
    prod id id (ifThenElseZero 0 (firstN N r) ((a.drop i).take N))
        (ifThenElseZero 0 (firstN N r) (((b.drop i).take N).map p)) =
      prod id p ((a.drop i).take r) ((b.drop i).take r) := by
  rw [map_block, prod_masked id id 0 0 rfl a (b.map p) i N r hr ha (by simpa using hb), ← map_block, prod_map_r]

theorem prod_skipped_map (p : β → R) (a : List R) (b : List β) (i N r : Nat)
    (hr : r ≤ N) (hi : N ≤ i + r) (ha : i + r ≤ a.length) (hb : i + r ≤ b.length) :
    prod id id (ifThenZeroElse 0 (firstN N (N - r)) ((a.drop (i + r - N)).take N))
        (ifThenZeroElse 0 (firstN N (N - r)) (((b.drop (i + r - N)).take N).map p)) =
      prod id p ((a.drop i).take r) ((b.drop i).take r) := by
  rw [map_block, prod_skipped id id 0 0 rfl a (b.map p) i N r hr hi ha (by simpa using hb), ← map_block, prod_map_r]

theorem promoteLower_block (p : β → R) (b : List β) (i N : Nat) (h : i + 2 * N ≤ b.length) :
    promoteLower p ((b.drop i).take (2 * N)) = ((b.drop i).take N).map p := by
  unfold promoteLower
  rw [block_length b i (2 * N) h, Nat.mul_div_cancel_left N (by omega), List.take_take, min_eq_left (by omega)]

theorem promoteUpper_block (p : β → R) (b : List β) (i N : Nat) (h : i + 2 * N ≤ b.length) :
    promoteUpper p ((b.drop i).take (2 * N)) = ((b.drop (i + N)).take N).map p := by
  unfold promoteUpper
  rw [block_length b i (2 * N) h, Nat.mul_div_cancel_left N (by omega), List.drop_take, List.drop_drop]
  congr 2
  omega

theorem mixed4_spec (p : β → R) (N : Nat) (hN : 0 < N) (a : List R) (b : List β) (num : Nat) (ha : num ≤ a.length)
    (hb : num ≤ b.length) :
    ∀ fuel i s, i ≤ num → num < i + fuel → N ∣ i → Inv N s (dot id p a b i) →
      ∃ j s', mixed4 p N a b num fuel i s = .ok (j, s') ∧ j ≤ num ∧ N ∣ j ∧ Inv N s' (dot id p a b j) := by
  intro fuel
  induction fuel with
  | zero => intro i s h1 h2; omega
  | succ fuel ih =>
    intro i s hle hf hd hs
    unfold mixed4
    by_cases h : i + 4 * N ≤ num
    · rw [if_pos h]
      simp only [loadU_ok N a i (by omega), loadU_ok (2 * N) b i (by omega), loadU_ok N a (i + N) (by omega),
        loadU_ok N a (i + N + N) (by omega), loadU_ok (2 * N) b (i + N + N) (by omega),
        loadU_ok N a (i + N + N + N) (by omega), ok_bind',
        promoteLower_block p b i N (by omega), promoteUpper_block p b i N (by omega),
        promoteLower_block p b (i + N + N) N (by omega), promoteUpper_block p b (i + N + N) N (by omega)]
      apply ih _ _ (by omega) (by omega) (by simp [hd])
      have l : ∀ k, k + N ≤ num → ((a.drop k).take N).length = N :=
        fun k h2 => block_length a k N (by omega)
      have l' : ∀ k, k + N ≤ num → (((b.drop k).take N).map p).length = N :=
        fun k h2 => by rw [List.length_map]; exact block_length b k N (by omega)
      have i0 := inv_s0 hs _ _ (l i (by omega)) (l' i (by omega))
      rw [prod_map_r, ← dot_add id p a b i N (by omega) (by omega)] at i0
      have i1 := inv_s1 i0 _ _ (l (i + N) (by omega)) (l' (i + N) (by omega))
      rw [prod_map_r, ← dot_add id p a b (i + N) N (by omega) (by omega)] at i1
      have i2 := inv_s2 i1 _ _ (l (i + N + N) (by omega)) (l' (i + N + N) (by omega))
      rw [prod_map_r, ← dot_add id p a b (i + N + N) N (by omega) (by omega)] at i2
      have i3 := inv_s3 i2 _ _ (l (i + N + N + N) (by omega)) (l' (i + N + N + N) (by omega))
      rw [prod_map_r, ← dot_add id p a b (i + N + N + N) N (by omega) (by omega)] at i3
      exact i3
    · rw [if_neg h]
      exact ⟨i, s, rfl, hle, hd, hs⟩

theorem mixed1_spec (p : β → R) (N : Nat) (hN : 0 < N) (a : List R) (b : List β) (num : Nat) (ha : num ≤ a.length)
    (hb : num ≤ b.length) :
    ∀ fuel i s, i ≤ num → num < i + fuel → N ∣ i → Inv N s (dot id p a b i) →
      ∃ j s', mixed1 p N a b num fuel i s = .ok (j, s') ∧ j ≤ num ∧ num < j + N ∧ N ∣ j ∧
        Inv N s' (dot id p a b j) := by
  intro fuel
  induction fuel with
  | zero => intro i s h1 h2; omega
  | succ fuel ih =>
    intro i s hle hf hd hs
    unfold mixed1
    by_cases h : i + N ≤ num
    · rw [if_pos h]
      simp only [loadU_ok N a i (by omega), loadU_ok N b i (by omega), ok_bind']
      apply ih _ _ (by omega) (by omega) (by simp [hd])
      have i0 := inv_s0 hs _ (((b.drop i).take N).map p) (block_length a i N (by omega))
        (by rw [List.length_map]; exact block_length b i N (by omega))
      rw [prod_map_r, ← dot_add id p a b i N (by omega) (by omega)] at i0
      exact i0
    · rw [if_neg h]
      exact ⟨i, s, rfl, hle, by omega, hd, hs⟩

theorem mixedRest_spec (asm : Assume) (N : Nat) (hN : 0 < N) (p : β → R) (a : List R) (b : List β) (num : Nat)
    (P : Promise asm N num a.length b.length) (j : Nat) (s : Sums R)
    (hc : (!asm.atLeastOne && !asm.multiple && !asm.padded && decide (num < N)) = false)
    (h1 : j ≤ num) (h2 : num < j + N) (h3 : N ∣ j) (hs : Inv N s (dot id p a b j)) :
    ∃ s', mixedRest p asm N a b num j s = .ok s' ∧ Inv N s' (dot id p a b num) := by
  have hA := P.boundsA
  have hB := P.boundsB
  unfold mixedRest
  by_cases hm : asm.multiple = true
  · have : j = num := eq_of_multiple N num j hN h1 h2 h3 (P.multiple hm)
    subst this
    exact ⟨s, by simp [hm], hs⟩
  · have hm : asm.multiple = false := by simpa using hm
    simp only [hm, Bool.false_eq_true, if_false]
    by_cases hr : num - j = 0
    · have : j = num := by omega
      subst this
      exact ⟨s, by simp, hs⟩
    · rw [if_neg hr]
      have e : dot id p a b (j + (num - j)) = dot id p a b num := congrArg _ (by omega)
      by_cases hp : asm.padded = true
      · obtain ⟨p1, p2⟩ := P.padded hp
        have q1 := padded_le N num j _ hN h3 (by omega) p1
        have q2 := padded_le N num j _ hN h3 (by omega) p2
        simp only [hp, if_true, loadU_ok N a j q1, loadU_ok N b j q2, ok_bind']
        refine ⟨_, rfl, ?_⟩
        have i1 := inv_s1 hs (ifThenElseZero 0 (firstN N (num - j)) ((a.drop j).take N))
          (ifThenElseZero 0 (firstN N (num - j)) (((b.drop j).take N).map p))
          (by simp [ifThenElseZero, firstN]; omega) (by simp [ifThenElseZero, firstN]; omega)
        rw [prod_masked_map p a b j N (num - j) (by omega) q1 q2,
          ← dot_add id p a b j (num - j) (by omega) (by omega), e] at i1
        exact i1
      · have hp : asm.padded = false := by simpa using hp
        have hNn := le_of_not_multiple_padded asm N num P hc hm hp
        have hjN := ge_of_dvd N num j h2 h3 hNn
        simp only [hp, Bool.false_eq_true, if_false, if_neg hjN]
        simp only [loadU_ok N a (j + (num - j) - N) (by omega), loadU_ok N b (j + (num - j) - N) (by omega), ok_bind']
        refine ⟨_, rfl, ?_⟩
        have i1 := inv_s1 hs (ifThenZeroElse 0 (firstN N (N - (num - j))) ((a.drop (j + (num - j) - N)).take N))
          (ifThenZeroElse 0 (firstN N (N - (num - j))) (((b.drop (j + (num - j) - N)).take N).map p))
          (by simp [ifThenZeroElse, firstN]; omega) (by simp [ifThenZeroElse, firstN]; omega)
        rw [prod_skipped_map p a b j N (num - j) (by omega) (by omega) (by omega) (by omega),
          ← dot_add id p a b j (num - j) (by omega) (by omega), e] at i1
        exact i1

/-- C35, f32 * bf16 (with and without the main loop, which HWY_SCALAR omits). -/
theorem C35_mixed (p : β → R) (scalar : Bool) (asm : Assume) (N : Nat) (hN : 0 < N) (a : List R) (b : List β) (num : Nat)
    (P : Promise asm N num a.length b.length) : computeMixed p scalar asm N a b num = .ok (dot id p a b num) := by
  unfold computeMixed
  cases hc : (!asm.atLeastOne && !asm.multiple && !asm.padded && decide (num < N))
  · have e1 : ∃ i s, mixedMain p scalar N a b num ⟨vzero N, vzero N, vzero N, vzero N⟩ = .ok (i, s) ∧
        i ≤ num ∧ N ∣ i ∧ Inv N s (dot id p a b i) := by
      cases scalar
      · exact mixed4_spec p N hN a b num P.boundsA P.boundsB (num + 1) 0
          ⟨vzero N, vzero N, vzero N, vzero N⟩ (by omega) (by omega) (by simp) (by rw [dot_zero]; exact inv_zero N)
      · exact ⟨0, _, rfl, by omega, by simp, by rw [dot_zero]; exact inv_zero N⟩
    obtain ⟨i, s, e1, h1, h2, h3⟩ := e1
    obtain ⟨j, s', e2, g1, g2, g3, g4⟩ := mixed1_spec p N hN a b num P.boundsA P.boundsB (num + 1) i s h1 (by omega) h2 h3
    obtain ⟨s'', e3, k1⟩ := mixedRest_spec asm N hN p a b num P j s' hc g1 g2 g3 g4
    simp only [Bool.false_eq_true, if_false]
    rw [e1, ok_bind']
    simp only
    rw [e2, ok_bind']
    simp only
    rw [e3, ok_bind', ← reduce_eq k1]
    rfl
  · simp only [if_true]
    exact scalarLoop_spec id p a b num _ P.boundsA P.boundsB (fun i h1 h2 => readMul id p a b i h1 h2) _ _ _ _
      (by omega) (by omega) (by simp [dot_zero])

/-! ### bf16 and i16 overloads -/

theorem inv_01 {L N : Nat} {p : β → R} {rwma : Rwma β R} (hr : RwmaOk p N L rwma) {s : Sums R} {x : R} (h : Inv L s x)
    (v w : List β) (hv : v.length = N) (hw : w.length = N) :
    Inv L { s with s0 := (rwma v w s.s0 s.s1).1, s1 := (rwma v w s.s0 s.s1).2 } (x + prod p p v w) := by
  obtain ⟨r1, r2, r3⟩ := hr v w s.s0 s.s1 hv hw h.l0 h.l1
  refine ⟨r1, r2, h.l2, h.l3, ?_⟩
  simp only
  rw [r3, ← h.total]
  unfold prod
  abel

theorem inv_23 {L N : Nat} {p : β → R} {rwma : Rwma β R} (hr : RwmaOk p N L rwma) {s : Sums R} {x : R} (h : Inv L s x)
    (v w : List β) (hv : v.length = N) (hw : w.length = N) :
    Inv L { s with s2 := (rwma v w s.s2 s.s3).1, s3 := (rwma v w s.s2 s.s3).2 } (x + prod p p v w) := by
  obtain ⟨r1, r2, r3⟩ := hr v w s.s2 s.s3 hv hw h.l2 h.l3
  refine ⟨h.l0, h.l1, r1, r2, ?_⟩
  simp only
  have : s.s0.sum + s.s1.sum + (rwma v w s.s2 s.s3).1.sum + (rwma v w s.s2 s.s3).2.sum =
      s.s0.sum + s.s1.sum + ((rwma v w s.s2 s.s3).1.sum + (rwma v w s.s2 s.s3).2.sum) := by abel
  rw [this, r3, ← h.total]
  unfold prod
  abel

theorem wide2_spec (p : β → R) (rwma : Rwma β R) (N L : Nat) (hN : 0 < N) (hr : RwmaOk p N L rwma) (a b : List β)
    (num : Nat) (ha : num ≤ a.length) (hb : num ≤ b.length) :
    ∀ fuel i s, i ≤ num → num < i + fuel → N ∣ i → Inv L s (dot p p a b i) →
      ∃ j s', wide2 rwma N a b num fuel i s = .ok (j, s') ∧ j ≤ num ∧ num < j + 2 * N ∧ N ∣ j ∧
        Inv L s' (dot p p a b j) := by
  intro fuel
  induction fuel with
  | zero => intro i s h1 h2; omega
  | succ fuel ih =>
    intro i s hle hf hd hs
    unfold wide2
    by_cases h : i + 2 * N ≤ num
    · rw [if_pos h]
      simp only [loadU_ok N a i (by omega), loadU_ok N b i (by omega), loadU_ok N a (i + N) (by omega),
        loadU_ok N b (i + N) (by omega), ok_bind']
      apply ih _ _ (by omega) (by omega) (by simp [hd])
      have i0 := inv_01 hr hs _ _ (block_length a i N (by omega)) (block_length b i N (by omega))
      rw [← dot_add p p a b i N (by omega) (by omega)] at i0
      have i1 := inv_23 hr i0 _ _ (block_length a (i + N) N (by omega)) (block_length b (i + N) N (by omega))
      rw [← dot_add p p a b (i + N) N (by omega) (by omega)] at i1
      exact i1
    · rw [if_neg h]
      exact ⟨i, s, rfl, hle, by omega, hd, hs⟩

theorem wide1_spec (p : β → R) (rwma : Rwma β R) (N L : Nat) (hr : RwmaOk p N L rwma) (a b : List β)
    (num i : Nat) (s : Sums R) (ha : num ≤ a.length) (hb : num ≤ b.length) (h1 : i ≤ num) (h2 : num < i + 2 * N)
    (hd : N ∣ i) (hs : Inv L s (dot p p a b i)) :
    ∃ j s', wide1 rwma N a b num i s = .ok (j, s') ∧ j ≤ num ∧ num < j + N ∧ N ∣ j ∧ Inv L s' (dot p p a b j) := by
  unfold wide1
  by_cases h : i + N ≤ num
  · rw [if_pos h]
    simp only [loadU_ok N a i (by omega), loadU_ok N b i (by omega), ok_bind']
    refine ⟨i + N, _, rfl, h, by omega, by simp [hd], ?_⟩
    have i0 := inv_01 hr hs _ _ (block_length a i N (by omega)) (block_length b i N (by omega))
    rw [← dot_add p p a b i N (by omega) (by omega)] at i0
    exact i0
  · rw [if_neg h]
    exact ⟨i, s, rfl, h1, by omega, hd, hs⟩

theorem wideRest_spec (p : β → R) (zero : β) (hz : p zero = 0) (rwma : Rwma β R) (asm : Assume) (N L : Nat) (hN : 0 < N)
    (hrw : RwmaOk p N L rwma) (a b : List β) (num : Nat)
    (P : Promise asm N num a.length b.length) (j : Nat) (s : Sums R)
    (hc : (!asm.atLeastOne && !asm.multiple && !asm.padded && decide (num < N)) = false)
    (h1 : j ≤ num) (h2 : num < j + N) (h3 : N ∣ j) (hs : Inv L s (dot p p a b j)) :
    ∃ s', wideRest zero rwma asm N a b num j s = .ok s' ∧ Inv L s' (dot p p a b num) := by
  have hA := P.boundsA
  have hB := P.boundsB
  unfold wideRest
  by_cases hm : asm.multiple = true
  · have : j = num := eq_of_multiple N num j hN h1 h2 h3 (P.multiple hm)
    subst this
    exact ⟨s, by simp [hm], hs⟩
  · have hm : asm.multiple = false := by simpa using hm
    simp only [hm, Bool.false_eq_true, if_false]
    by_cases hr : num - j = 0
    · have : j = num := by omega
      subst this
      exact ⟨s, by simp, hs⟩
    · rw [if_neg hr]
      have e : dot p p a b (j + (num - j)) = dot p p a b num := congrArg _ (by omega)
      by_cases hp : asm.padded = true
      · obtain ⟨p1, p2⟩ := P.padded hp
        have q1 := padded_le N num j _ hN h3 (by omega) p1
        have q2 := padded_le N num j _ hN h3 (by omega) p2
        simp only [hp, if_true, loadU_ok N a j q1, loadU_ok N b j q2, ok_bind']
        refine ⟨_, rfl, ?_⟩
        have i1 := inv_23 hrw hs (ifThenElseZero zero (firstN N (num - j)) ((a.drop j).take N))
          (ifThenElseZero zero (firstN N (num - j)) ((b.drop j).take N))
          (by simp [ifThenElseZero, firstN]; omega) (by simp [ifThenElseZero, firstN]; omega)
        rw [prod_masked p p zero zero hz a b j N (num - j) (by omega) q1 q2,
          ← dot_add p p a b j (num - j) (by omega) (by omega), e] at i1
        exact i1
      · have hp : asm.padded = false := by simpa using hp
        have hNn := le_of_not_multiple_padded asm N num P hc hm hp
        have hjN := ge_of_dvd N num j h2 h3 hNn
        simp only [hp, Bool.false_eq_true, if_false, if_neg hjN]
        simp only [loadU_ok N a (j + (num - j) - N) (by omega), loadU_ok N b (j + (num - j) - N) (by omega), ok_bind']
        refine ⟨_, rfl, ?_⟩
        have i1 := inv_23 hrw hs (ifThenZeroElse zero (firstN N (N - (num - j))) ((a.drop (j + (num - j) - N)).take N))
          (ifThenZeroElse zero (firstN N (N - (num - j))) ((b.drop (j + (num - j) - N)).take N))
          (by simp [ifThenZeroElse, firstN]; omega) (by simp [ifThenZeroElse, firstN]; omega)
        rw [prod_skipped p p zero zero hz a b j N (num - j) (by omega) (by omega) (by omega) (by omega),
          ← dot_add p p a b j (num - j) (by omega) (by omega), e] at i1
        exact i1

theorem wideVec_spec (p : β → R) (zero : β) (hz : p zero = 0) (rwma : Rwma β R) (asm : Assume) (N L : Nat) (hN : 0 < N)
    (hr : RwmaOk p N L rwma) (a b : List β) (num : Nat) (P : Promise asm N num a.length b.length)
    (hc : (!asm.atLeastOne && !asm.multiple && !asm.padded && decide (num < N)) = false) :
    wideVec zero rwma asm N L a b num = .ok (dot p p a b num) := by
  unfold wideVec
  obtain ⟨i, s, e1, h1, h1', h2, h3⟩ := wide2_spec p rwma N L hN hr a b num P.boundsA P.boundsB (num + 1) 0
    ⟨vzero L, vzero L, vzero L, vzero L⟩ (by omega) (by omega) (by simp) (by rw [dot_zero]; exact inv_zero L)
  obtain ⟨j, s', e2, g1, g2, g3, g4⟩ := wide1_spec p rwma N L hr a b num i s P.boundsA P.boundsB h1 h1' h2 h3
  obtain ⟨s'', e3, k1⟩ := wideRest_spec p zero hz rwma asm N L hN hr a b num P j s' hc g1 g2 g3 g4
  rw [e1, ok_bind']
  simp only
  rw [e2, ok_bind']
  simp only
  rw [e3, ok_bind', ← reduce_eq k1]
  rfl

/-- C35, bf16. -/
theorem C35_bf16 (p : β → R) (zero : β) (hz : p zero = 0) (rwma : Rwma β R) (asm : Assume) (N L : Nat) (hN : 0 < N)
    (hr : RwmaOk p N L rwma) (a b : List β) (num : Nat) (P : Promise asm N num a.length b.length) :
    computeBF16 p zero rwma asm N L a b num = .ok (dot p p a b num) := by
  unfold computeBF16
  cases hc : (!asm.atLeastOne && !asm.multiple && !asm.padded && decide (num < N))
  · simp only [Bool.false_eq_true, if_false]
    exact wideVec_spec p zero hz rwma asm N L hN hr a b num P hc
  · simp only [if_true]
    exact scalarLoop_spec p p a b num _ P.boundsA P.boundsB (fun i h1 h2 => readMul p p a b i h1 h2) _ _ _ _
      (by omega) (by omega) (by simp [dot_zero])

theorem evens_length : ∀ (n : Nat) (l : List β), l.length = 2 * n → (evens l).length = n ∧ (odds l).length = n
  | 0, l, h => by
    have : l = [] := List.eq_nil_of_length_eq_zero (by omega)
    subst this; simp [evens, odds]
  | n + 1, x :: y :: l, h => by
    have ih := evens_length n l (by simp at h; omega)
    simp [evens, odds, ih]
  | n + 1, [x], h => by simp at h; omega
  | n + 1, [], h => by simp at h

theorem evens_odds_prod (p : β → R) : ∀ (n : Nat) (v w : List β), v.length = 2 * n → w.length = 2 * n →
    prod p p (evens v) (evens w) + prod p p (odds v) (odds w) = prod p p v w
  | 0, v, w, h1, h2 => by
    have : v = [] := List.eq_nil_of_length_eq_zero (by omega)
    subst this
    have : w = [] := List.eq_nil_of_length_eq_zero (by omega)
    subst this
    simp [evens, odds, prod]
  | n + 1, x :: y :: v, x' :: y' :: w, h1, h2 => by
    have ih := evens_odds_prod p n v w (by simp at h1; omega) (by simp at h2; omega)
    unfold prod at *
    simp only [evens, odds, List.zipWith_cons_cons, List.sum_cons]
    rw [← ih]
    abel
  | n + 1, [x], _, h, _ => by simp at h; omega
  | n + 1, [], _, h, _ => by simp at h
  | n + 1, _ :: _ :: _, [x], _, h => by simp at h; omega
  | n + 1, _ :: _ :: _, [], _, h => by simp at h

/-- The even/odd implementation used by EMU128 and the generic code is as documented. -/
theorem rwmaEvenOdd_ok (p : β → R) (L : Nat) : RwmaOk p (2 * L) L (rwmaEvenOdd p) := by
  intro a b s0 s1 ha hb h0 h1
  obtain ⟨a1, a2⟩ := evens_length L a ha
  obtain ⟨b1, b2⟩ := evens_length L b hb
  unfold rwmaEvenOdd
  simp only
  refine ⟨?_, ?_, ?_⟩
  · rw [mulAdd_length _ _ _ (by simp [a1, b1]) (by simp [a1, h0])]; simp [a1]
  · rw [mulAdd_length _ _ _ (by simp [a2, b2]) (by simp [a2, h1])]; simp [a2]
  · rw [sum_mulAdd _ _ _ (by simp [a1, b1]) (by simp [a1, h0]), sum_mulAdd _ _ _ (by simp [a2, b2]) (by simp [a2, h1]),
      prod_map, prod_map]
    have := evens_odds_prod p L a b ha hb
    unfold prod at *
    rw [← this]
    abel

end

/-! ### i16 -/

/-- The exact integer dot product. -/
def dotInt (a b : List (BitVec 16)) (n : Nat) : Int := dot BitVec.toInt BitVec.toInt a b n

/-- The sum of the magnitudes of the products. -/
def dotAbs (a b : List (BitVec 16)) (n : Nat) : Int :=
  (List.zipWith (fun x y => |x.toInt * y.toInt|) (a.take n) (b.take n)).sum

theorem signExtend_toInt (x : BitVec 16) : (x.signExtend 32).toInt = x.toInt :=
  BitVec.toInt_signExtend_of_le (by omega)

theorem toInt_sum_mul : ∀ (a b : List (BitVec 16)),
    ((List.zipWith (fun (x y : BitVec 16) => x.signExtend 32 * y.signExtend 32) a b).sum).toInt =
      ((List.zipWith (fun (x y : BitVec 16) => x.toInt * y.toInt) a b).sum).bmod (2 ^ 32)
  | [], b => by simp
  | _ :: _, [] => by simp
  | x :: a, y :: b => by
    have ih := toInt_sum_mul a b
    simp only [List.zipWith_cons_cons, List.sum_cons]
    rw [BitVec.toInt_add, ih, BitVec.toInt_mul, signExtend_toInt, signExtend_toInt]
    simp [Int.add_bmod]

theorem toInt_dot (a b : List (BitVec 16)) (n : Nat) :
    (dot (fun x : BitVec 16 => x.signExtend 32) (fun x : BitVec 16 => x.signExtend 32) a b n).toInt =
      (dotInt a b n).bmod (2 ^ 32) := toInt_sum_mul _ _

/-- Whether the scalar loop is used. -/
def usesScalar (asm : Assume) (N num : Nat) : Bool :=
  !asm.atLeastOne && !asm.multiple && !asm.padded && decide (num < N)

/-- C35, i16 with at least one whole vector (or a promise to that effect): the dot product modulo 2^32. -/
theorem C35_i16_vector (rwma : Rwma (BitVec 16) (BitVec 32)) (asm : Assume) (N L : Nat) (hN : 0 < N)
    (hr : RwmaOk (fun x : BitVec 16 => x.signExtend 32) N L rwma) (a b : List (BitVec 16)) (num : Nat)
    (P : Promise asm N num a.length b.length) (hv : usesScalar asm N num = false) :
    computeI16 rwma asm N L a b num = .ok ((dotInt a b num).bmod (2 ^ 32)) := by
  unfold computeI16
  unfold usesScalar at hv
  rw [hv]
  simp only [Bool.false_eq_true, if_false]
  rw [wideVec_spec (fun x : BitVec 16 => x.signExtend 32) 0#16 (by decide) rwma asm N L hN hr a b num P hv, ok_bind',
    ← toInt_dot]
  rfl

theorem dotAbs_succ (a b : List (BitVec 16)) (i : Nat) (ha : i < a.length) (hb : i < b.length) :
    dotAbs a b (i + 1) = dotAbs a b i + |a[i].toInt * b[i].toInt| := by
  unfold dotAbs
  rw [List.take_add, List.take_add, List.zipWith_append (by simp; omega), List.sum_append, take_succ_get a i ha,
    take_succ_get b i hb]
  simp

theorem dotAbs_mono (a b : List (BitVec 16)) (i j : Nat) (hij : i ≤ j) (ha : j ≤ a.length) (hb : j ≤ b.length) :
    dotAbs a b i ≤ dotAbs a b j := by
  induction j with
  | zero => have : i = 0 := by omega
            subst this; exact le_refl _
  | succ j ih =>
    by_cases h : i = j + 1
    · subst h; exact le_refl _
    · have := ih (by omega) (by omega) (by omega)
      rw [dotAbs_succ a b j (by omega) (by omega)]
      have := abs_nonneg (a[j].toInt * b[j].toInt)
      omega

theorem dotInt_succ (a b : List (BitVec 16)) (i : Nat) (ha : i < a.length) (hb : i < b.length) :
    dotInt a b (i + 1) = dotInt a b i + a[i].toInt * b[i].toInt := dot_succ _ _ a b i ha hb

theorem chk32_ok (x : Int) (h : |x| < 2 ^ 31) : chk32 x = .ok x := by
  unfold chk32
  rw [abs_lt] at h
  rw [if_pos ⟨by omega, h.2⟩]

theorem scalarLoop16_spec (a b : List (BitVec 16)) (num : Nat) (ha : num ≤ a.length) (hb : num ≤ b.length)
    (hs : dotAbs a b num < 2 ^ 31) :
    ∀ fuel i s0 s1, i ≤ num → num < i + fuel → s0 + s1 = dotInt a b i → |s0| + |s1| ≤ dotAbs a b i →
      scalarLoop16 a b num fuel i s0 s1 = .ok (dotInt a b num) := by
  intro fuel
  induction fuel with
  | zero => intro i s0 s1 h1 h2; omega
  | succ fuel ih =>
    intro i s0 s1 hle hf hsum habs
    have n0 := abs_nonneg s0
    have n1 := abs_nonneg s1
    unfold scalarLoop16
    by_cases h2 : i + 2 ≤ num
    · have l0 : i < a.length := by omega
      have l1 : i < b.length := by omega
      have l2 : i + 1 < a.length := by omega
      have l3 : i + 1 < b.length := by omega
      have m := dotAbs_mono a b (i + 2) num h2 ha hb
      have e2 : dotAbs a b (i + 2) = _ := dotAbs_succ a b (i + 1) l2 l3
      have e1 := dotAbs_succ a b i l0 l1
      have d2 : dotInt a b (i + 2) = _ := dotInt_succ a b (i + 1) l2 l3
      have d1 := dotInt_succ a b i l0 l1
      have t0 := abs_nonneg (a[i].toInt * b[i].toInt)
      have t1 := abs_nonneg (a[i + 1].toInt * b[i + 1].toInt)
      have a0 := abs_add_le s0 (a[i].toInt * b[i].toInt)
      have a1 := abs_add_le s1 (a[i + 1].toInt * b[i + 1].toInt)
      have hnn : 0 ≤ dotAbs a b i := le_trans (by omega) habs
      rw [if_pos h2]
      simp only [Nat.add_zero]
      rw [readAt_of_lt l0, ok_bind', readAt_of_lt l1, ok_bind', chk32_ok _ (by linarith), ok_bind',
        chk32_ok _ (by linarith), ok_bind', readAt_of_lt l2, ok_bind', readAt_of_lt l3, ok_bind',
        chk32_ok _ (by linarith), ok_bind', chk32_ok _ (by linarith), ok_bind']
      apply ih _ _ _ h2 (by omega)
      · rw [d2, d1, ← hsum]; ring
      · rw [e2, e1]; linarith
    · rw [if_neg h2]
      by_cases h1 : i < num
      · have l0 : i < a.length := by omega
        have l1 : i < b.length := by omega
        have : num = i + 1 := by omega
        subst this
        have e1 := dotAbs_succ a b i l0 l1
        have d1 := dotInt_succ a b i l0 l1
        have t0 := abs_nonneg (a[i].toInt * b[i].toInt)
        have a1 := abs_add_le s1 (a[i].toInt * b[i].toInt)
        have a2 := abs_add_le s0 (s1 + a[i].toInt * b[i].toInt)
        rw [if_pos h1, readAt_of_lt l0, ok_bind', readAt_of_lt l1, ok_bind', chk32_ok _ (by linarith), ok_bind',
          chk32_ok _ (by linarith), ok_bind', chk32_ok _ (by linarith), d1, ← hsum, add_assoc]
      · rw [if_neg h1]
        have : num = i := by omega
        subst this
        have a2 := abs_add_le s0 s1
        rw [chk32_ok _ (by linarith), hsum]

theorem abs_dot_le (a b : List (BitVec 16)) : ∀ n, n ≤ a.length → n ≤ b.length → |dotInt a b n| ≤ dotAbs a b n
  | 0, _, _ => by simp [dotInt, dotAbs, dot]
  | n + 1, ha, hb => by
    have ih := abs_dot_le a b n (by omega) (by omega)
    rw [dotInt_succ a b n (by omega) (by omega), dotAbs_succ a b n (by omega) (by omega)]
    have := abs_add_le (dotInt a b n) (a[n].toInt * b[n].toInt)
    omega

/-- C35, i16: if the magnitudes of the products sum to less than 2^31, the result is the exact dot product, on either path. -/
theorem C35_i16 (rwma : Rwma (BitVec 16) (BitVec 32)) (asm : Assume) (N L : Nat) (hN : 0 < N)
    (hr : RwmaOk (fun x : BitVec 16 => x.signExtend 32) N L rwma) (a b : List (BitVec 16)) (num : Nat)
    (P : Promise asm N num a.length b.length) (hs : dotAbs a b num < 2 ^ 31) :
    computeI16 rwma asm N L a b num = .ok (dotInt a b num) := by
  cases hv : usesScalar asm N num
  · rw [C35_i16_vector rwma asm N L hN hr a b num P hv]
    have := abs_dot_le a b num P.boundsA P.boundsB
    have h2 : |dotInt a b num| < 2 ^ 31 := by omega
    rw [abs_lt] at h2
    congr 1
    apply Int.bmod_eq_of_le <;> omega
  · unfold computeI16
    unfold usesScalar at hv
    rw [hv]
    simp only [if_true]
    exact scalarLoop16_spec a b num P.boundsA P.boundsB hs (num + 1) 0 0 0 (by omega) (by omega)
      (by simp [dotInt, dot_zero]) (by simp [dotAbs])

/-- Finding: two products of -32768 * -32768 overflow `int32_t` in the scalar loop (undefined behaviour), whereas the same
elements in a whole vector wrap to -2^31. -/
theorem C35_finding_i16_overflow :
    computeI16 (rwmaEvenOdd (fun x : BitVec 16 => x.signExtend 32)) ⟨false, false, false⟩ 8 4
      [0x8000#16, 0x8000#16] [0x8000#16, 0x8000#16] 2 = .error .ub ∧
    computeI16 (rwmaEvenOdd (fun x : BitVec 16 => x.signExtend 32)) ⟨false, false, false⟩ 2 1
      [0x8000#16, 0x8000#16] [0x8000#16, 0x8000#16] 2 = .ok (-2 ^ 31) := by
  constructor <;> decide

/-- Non-vacuity: 11 elements, 4 lanes, no promise; and 2 elements padded to 4 with garbage. -/
theorem C35_nonvacuous :
    Promise ⟨false, false, false⟩ 4 11 11 11 ∧ Promise ⟨false, false, true⟩ 4 2 4 4 ∧
    computeFloat (R := Int) ⟨false, false, false⟩ 4 [1, 2, 3, 4, 5, 6, 7, 8, 9, 10, 11] [1, 1, 1, 1, 1, 1, 1, 1, 1, 1, 2]
      11 = .ok 77 ∧
    computeFloat (R := Int) ⟨false, false, true⟩ 4 [1, 2, 99, 98] [3, 4, 97, 96] 2 = .ok 11 := by
  refine ⟨⟨?_, ?_, ?_, ?_, ?_⟩, ⟨?_, ?_, ?_, ?_, ?_⟩, ?_, ?_⟩ <;> decide

end DotP
end Hwy
