import Verif.Basic
import Mathlib.Algebra.Order.Field.Basic
import Mathlib.Algebra.Order.Ring.Rat
import Mathlib.Algebra.Field.Rat
import Mathlib.Tactic.Ring
import Mathlib.Tactic.Linarith
import Mathlib.Tactic.FieldSimp
import Mathlib.Tactic.NormNum

/-!
# Model of `hwy/stats.h` and `hwy/stats.cc`, and C32

`float` and `double` are modelled by an ordered field `K` (exact arithmetic; rounding, infinities
and NaN are not modelled); `std::log` is a parameter.  The counters are `int64_t` with overflow
checks (signed overflow is undefined behaviour).
-/

namespace Hwy.Stats

variable {K : Type} [Field K] [LinearOrder K] [IsStrictOrderedRing K]

/-- The members of `Stats` (stats.h:173-186). -/
structure St (K : Type) where
  n : Nat
  min : K
  max : K
  sumLog : K
  m1 : K
  m2 : K
  m3 : K
  m4 : K

/-- The result of an `int64_t` computation; overflow is undefined behaviour. -/
def i64 (x : Int) : M Int := if -9223372036854775808 ≤ x ∧ x < 9223372036854775808 then .ok x else .error .ub

/-- `Reset` (stats.h:163-175). `highest` and `lowest` are the extreme finite floats. -/
def reset (highest lowest : K) : St K := ⟨0, highest, lowest, 0, 0, 0, 0, 0⟩

/-- `Notify` (stats.h:76-94). -/
def notify (log : K → K) (s : St K) (x : K) : M (St K) := do
  let n ← i64 (s.n + 1)
  let nn ← i64 (n * n)
  let nPoly ← i64 (nn - 3 * n + 3)
  let d := x - s.m1
  let dDivN := d / (n : K)
  let d2n1DivN := d * ((n : K) - 1) * dDivN
  .ok { n := s.n + 1
        min := Min.min s.min x
        max := Max.max s.max x
        sumLog := s.sumLog + log x
        m1 := s.m1 + dDivN
        m4 := s.m4 + dDivN * (dDivN * (d2n1DivN * (nPoly : K) + 6 * s.m2) - 4 * s.m3)
        m3 := s.m3 + dDivN * (d2n1DivN * ((n : K) - 2) - 3 * s.m2)
        m2 := s.m2 + d2n1DivN }

/-- `Assimilate` (stats.cc:27-67). -/
def assimilate (s o : St K) : M (St K) := do
  let totalN ← i64 (s.n + o.n)
  if totalN = 0 then .ok s else do
  let productN ← i64 (s.n * o.n)
  let n2 ← i64 (s.n * s.n)
  let otherN2 ← i64 (o.n * o.n)
  let totalN2 ← i64 (totalN * totalN)
  let totalN3 : K := (totalN2 : K) * totalN
  let invTotalN : K := 1 / totalN
  let invTotalN2 : K := 1 / totalN2
  let delta := o.m1 - s.m1
  let delta2 := delta * delta
  let delta3 := delta * delta2
  let delta4 := delta2 * delta2
  .ok { n := s.n + o.n
        min := Min.min s.min o.min
        max := Max.max s.max o.max
        sumLog := s.sumLog + o.sumLog
        m1 := (s.n * s.m1 + o.n * o.m1) * invTotalN
        m2 := s.m2 + o.m2 + delta2 * productN * invTotalN
        m3 := s.m3 + o.m3 + delta3 * productN * (((s.n : Int) - o.n : Int) : K) * invTotalN2 +
          3 * delta * (s.n * o.m2 - o.n * s.m2) * invTotalN
        m4 := s.m4 + (o.m4 + delta4 * productN * ((n2 : K) - productN + otherN2) / totalN3 +
          6 * delta2 * ((n2 : K) * o.m2 + (otherN2 : K) * s.m2) * invTotalN2 +
          4 * delta * (s.n * o.m3 - o.n * s.m3) * invTotalN) }

/-- `static_cast<int>(n_)` (two's complement wrap-around). -/
def toInt32 (n : Nat) : Int := (BitVec.ofNat 32 n).toInt

/-- Queries: `Count` (stats.h:98), `Mean` (107), `SampleVariance` (109-111), `Variance` (113-117),
`Mu2`, `Mu3`, `Mu4` (145-147), `SampleKurtosis` (133-136), `Kurtosis` (138-143). -/
def count (s : St K) : Nat := s.n
def mean (s : St K) : K := s.m1
def sampleVariance (s : St K) : K := if s.n = 0 then 0 else s.m2 / toInt32 s.n
def variance (s : St K) : K := if s.n = 0 then 0 else if s.n = 1 then s.m2 else s.m2 / toInt32 (s.n - 1)
def mu2 (s : St K) : K := s.m2 / toInt32 s.n
def mu3 (s : St K) : K := s.m3 / toInt32 s.n
def mu4 (s : St K) : K := s.m4 / toInt32 s.n
def sampleKurtosis (s : St K) : K := if |s.m2| < 1 / 10 ^ 7 then 0 else s.m4 * s.n / (s.m2 * s.m2)
def kurtosis (s : St K) : K :=
  if s.n = 0 then 0 else
    let biased := sampleKurtosis s
    let r := ((s.n : K) - 1) / s.n
    biased * r * r

/-! ## Histories and their meaning -/

/-- How a `Stats` object came about: reset, `Notify`, or `Assimilate` of another such object. -/
inductive Hist (K : Type)
  | reset : Hist K
  | notify : Hist K → K → Hist K
  | assimilate : Hist K → Hist K → Hist K

/-- The values notified, in any order. -/
def Hist.values : Hist K → List K
  | .reset => []
  | .notify h x => h.values ++ [x]
  | .assimilate a b => a.values ++ b.values

/-- Running the code. -/
def Hist.run (log : K → K) (highest lowest : K) : Hist K → M (St K)
  | .reset => .ok (Stats.reset highest lowest)
  | .notify h x => do
    let s ← h.run log highest lowest
    Stats.notify log s x
  | .assimilate a b => do
    let s ← a.run log highest lowest
    let o ← b.run log highest lowest
    Stats.assimilate s o

/-- Arithmetic mean; 0 for no values. -/
def avg (l : List K) : K := l.sum / l.length
/-- Sum of `k`-th powers of deviations from the mean. -/
def dev (k : Nat) (l : List K) : K := (l.map fun x => (x - avg l) ^ k).sum

/-! ## Power sums -/

def pw (k : Nat) (l : List K) : K := (l.map fun x => x ^ k).sum

omit [LinearOrder K] [IsStrictOrderedRing K] in
theorem pw_append (k : Nat) (a b : List K) : pw k (a ++ b) = pw k a + pw k b := by simp [pw]
omit [LinearOrder K] [IsStrictOrderedRing K] in
theorem pw_single (k : Nat) (x : K) : pw k [x] = x ^ k := by simp [pw]
omit [LinearOrder K] [IsStrictOrderedRing K] in
theorem pw_one (l : List K) : pw 1 l = l.sum := by simp [pw]

omit [LinearOrder K] [IsStrictOrderedRing K] in
theorem expand (l : List K) (m : K) :
    (l.map fun x => (x - m) ^ 2).sum = pw 2 l - 2 * m * pw 1 l + l.length * m ^ 2 ∧
    (l.map fun x => (x - m) ^ 3).sum = pw 3 l - 3 * m * pw 2 l + 3 * m ^ 2 * pw 1 l - l.length * m ^ 3 ∧
    (l.map fun x => (x - m) ^ 4).sum = pw 4 l - 4 * m * pw 3 l + 6 * m ^ 2 * pw 2 l - 4 * m ^ 3 * pw 1 l + l.length * m ^ 4 := by
  induction l with
  | nil => simp [pw]
  | cons a l ih =>
    obtain ⟨h2, h3, h4⟩ := ih
    simp only [pw, List.map_cons, List.sum_cons, List.length_cons, Nat.cast_add, Nat.cast_one] at *
    refine ⟨?_, ?_, ?_⟩
    · rw [h2]; ring
    · rw [h3]; ring
    · rw [h4]; ring

/-- The moments of `s` are those of the values `l`, in terms of power sums. -/
structure Rep (log : K → K) (highest lowest : K) (s : St K) (l : List K) : Prop where
  n : s.n = l.length
  m1 : pw 1 l = l.length * s.m1
  z : l = [] → s.m1 = 0
  m2 : s.m2 = pw 2 l - 2 * s.m1 * pw 1 l + l.length * s.m1 ^ 2
  m3 : s.m3 = pw 3 l - 3 * s.m1 * pw 2 l + 3 * s.m1 ^ 2 * pw 1 l - l.length * s.m1 ^ 3
  m4 : s.m4 = pw 4 l - 4 * s.m1 * pw 3 l + 6 * s.m1 ^ 2 * pw 2 l - 4 * s.m1 ^ 3 * pw 1 l + l.length * s.m1 ^ 4
  min : s.min = l.foldr Min.min highest
  max : s.max = l.foldr Max.max lowest
  log : s.sumLog = (l.map log).sum

/-- Largest count for which all 64-bit products in the code fit: `floor(sqrt(2^63 - 1))`. -/
def maxCount : Nat := 3037000499

theorem sq_lt {x : Int} (h0 : 0 ≤ x) (h : x ≤ maxCount) : x < 2 ^ 32 ∧ x * x < 2 ^ 63 := by
  have h' : x ≤ 3037000499 := by simpa [maxCount] using h
  constructor
  · omega
  · nlinarith

theorem ok_bind {α β : Type} (a : α) (f : α → M β) : ((Except.ok a : M α) >>= f) = f a := rfl

theorem i64_ok (x : Int) (h1 : -(2 ^ 63) ≤ x) (h2 : x < 2 ^ 63) : i64 x = .ok x := by
  unfold i64; rw [if_pos (by constructor <;> omega)]

omit [Field K] [IsStrictOrderedRing K] in
theorem foldr_min_append (a b : List K) (h : K) :
    (a ++ b).foldr Min.min h = Min.min (a.foldr Min.min h) (b.foldr Min.min h) := by
  induction a with
  | nil =>
    induction b with
    | nil => simp
    | cons x b ih =>
      simp only [List.nil_append, List.foldr_cons, List.foldr_nil] at *
      rw [min_left_comm]; rw [← ih]
  | cons x a ih => simp only [List.cons_append, List.foldr_cons]; rw [ih, min_assoc]

omit [Field K] [IsStrictOrderedRing K] in
theorem foldr_max_append (a b : List K) (h : K) :
    (a ++ b).foldr Max.max h = Max.max (a.foldr Max.max h) (b.foldr Max.max h) := by
  induction a with
  | nil =>
    induction b with
    | nil => simp
    | cons x b ih =>
      simp only [List.nil_append, List.foldr_cons, List.foldr_nil] at *
      rw [max_left_comm]; rw [← ih]
  | cons x a ih => simp only [List.cons_append, List.foldr_cons]; rw [ih, max_assoc]

omit [Field K] [IsStrictOrderedRing K] in
theorem foldr_min_le (l : List K) (h : K) : l.foldr Min.min h ≤ h := by
  induction l with
  | nil => simp
  | cons a l ih => simp only [List.foldr_cons]; exact (min_le_right _ _).trans ih

omit [Field K] [IsStrictOrderedRing K] in
theorem le_foldr_max (l : List K) (h : K) : h ≤ l.foldr Max.max h := by
  induction l with
  | nil => simp
  | cons a l ih => simp only [List.foldr_cons]; exact ih.trans (le_max_right _ _)

theorem notify_rep (log : K → K) (highest lowest : K) (s : St K) (l : List K) (h : Rep log highest lowest s l) (x : K)
    (hb : l.length + 1 ≤ maxCount) :
    ∃ s', notify log s x = .ok s' ∧ Rep log highest lowest s' (l ++ [x]) := by
  have hn := h.n
  obtain ⟨hq1, hq2⟩ := sq_lt (x := (s.n : Int) + 1) (by omega) (by omega)
  have hq0 : 0 ≤ ((s.n : Int) + 1) * ((s.n : Int) + 1) := by positivity
  have hs0 : (0 : Int) ≤ s.n := by omega
  unfold notify
  rw [i64_ok ((s.n : Int) + 1) (by omega) (by omega), ok_bind]
  rw [i64_ok (((s.n : Int) + 1) * ((s.n : Int) + 1)) (by omega) hq2, ok_bind]
  rw [i64_ok (((s.n : Int) + 1) * ((s.n : Int) + 1) - 3 * ((s.n : Int) + 1) + 3) (by omega) (by omega), ok_bind]
  refine ⟨_, rfl, ?_⟩
  have hp : (0 : K) < (l.length : K) + 1 := by positivity
  have hne := hp.ne'
  have e1 := h.m1
  have e2 := h.m2
  have e3 := h.m3
  have e4 := h.m4
  have eN : ((((s.n : Int) + 1 : Int)) : K) = (l.length : K) + 1 := by push_cast; rw [hn]
  constructor
  · simp [hn]
  · simp only [eN]
    rw [pw_append, pw_single, e1]
    push_cast [List.length_append, List.length_singleton]
    field_simp; ring
  · intro hc; simp at hc
  · simp only [eN]
    rw [pw_append, pw_append, pw_single, pw_single, e2, e1]
    push_cast [List.length_append, List.length_singleton]
    field_simp; ring
  · simp only [eN]
    rw [pw_append, pw_append, pw_append, pw_single, pw_single, pw_single, e3, e2, e1]
    push_cast [List.length_append, List.length_singleton]
    field_simp; ring
  · push_cast
    rw [hn, pw_append, pw_append, pw_append, pw_append, pw_single, pw_single, pw_single, pw_single, e4, e3, e2, e1]
    push_cast [List.length_append, List.length_singleton]
    field_simp; ring
  · simp only []
    rw [foldr_min_append, h.min]
    simp only [List.foldr_cons, List.foldr_nil]
    rw [min_comm x, ← min_assoc, min_eq_left (foldr_min_le l highest)]
  · simp only []
    rw [foldr_max_append, h.max]
    simp only [List.foldr_cons, List.foldr_nil]
    rw [max_comm x, ← max_assoc, max_eq_left (le_foldr_max l lowest)]
  · simp [h.log]

theorem assimilate_rep (log : K → K) (highest lowest : K) (s o : St K) (a b : List K) (h : Rep log highest lowest s a)
    (h' : Rep log highest lowest o b) (hb : a.length + b.length ≤ maxCount) :
    ∃ s', assimilate s o = .ok s' ∧ Rep log highest lowest s' (a ++ b) := by
  have hn := h.n
  have hn' := h'.n
  obtain ⟨hq1, hq2⟩ := sq_lt (x := (s.n : Int) + o.n) (by omega) (by omega)
  have hs0 : (0 : Int) ≤ s.n := by omega
  have ho0 : (0 : Int) ≤ o.n := by omega
  have p1 : (0 : Int) ≤ s.n * o.n := mul_nonneg hs0 ho0
  have p2 : (0 : Int) ≤ s.n * s.n := mul_nonneg hs0 hs0
  have p3 : (0 : Int) ≤ o.n * o.n := mul_nonneg ho0 ho0
  have p4 : ((s.n : Int) + o.n) * (s.n + o.n) = s.n * s.n + 2 * (s.n * o.n) + o.n * o.n := by ring
  unfold assimilate
  rw [i64_ok ((s.n : Int) + o.n) (by omega) (by omega), ok_bind]
  split
  · rename_i h0
    have ha : a = [] := List.length_eq_zero_iff.mp (by omega)
    have hb' : b = [] := List.length_eq_zero_iff.mp (by omega)
    subst ha; subst hb'
    exact ⟨s, rfl, h⟩
  · rename_i h0
    rw [i64_ok ((s.n : Int) * o.n) (by omega) (by omega), ok_bind]
    rw [i64_ok ((s.n : Int) * s.n) (by omega) (by omega), ok_bind]
    rw [i64_ok ((o.n : Int) * o.n) (by omega) (by omega), ok_bind]
    rw [i64_ok (((s.n : Int) + o.n) * (s.n + o.n)) (by omega) (by omega), ok_bind]
    refine ⟨_, rfl, ?_⟩
    have hne : ((a.length : K) + b.length) ≠ 0 := by
      have : ((a.length + b.length : Nat) : K) ≠ 0 := Nat.cast_ne_zero.mpr (by omega)
      push_cast at this; exact this
    have e1 := h.m1
    have e2 := h.m2
    have e3 := h.m3
    have e4 := h.m4
    have f1 := h'.m1
    have f2 := h'.m2
    have f3 := h'.m3
    have f4 := h'.m4
    constructor
    · simp [hn, hn']
    · push_cast
      rw [pw_append, hn, hn', e1, f1]
      push_cast [List.length_append]
      field_simp
    · intro hc
      have : a.length + b.length = 0 := by rw [← List.length_append, hc]; rfl
      omega
    · push_cast
      rw [pw_append, pw_append, hn, hn', e2, f2, e1, f1]
      push_cast [List.length_append]
      field_simp; ring
    · push_cast
      rw [pw_append, pw_append, pw_append, hn, hn', e3, f3, e2, f2, e1, f1]
      push_cast [List.length_append]
      field_simp; ring
    · push_cast
      rw [pw_append, pw_append, pw_append, pw_append, hn, hn', e4, f4, e3, f3, e2, f2, e1, f1]
      push_cast [List.length_append]
      field_simp; ring
    · simp only []
      rw [foldr_min_append, h.min, h'.min]
    · simp only []
      rw [foldr_max_append, h.max, h'.max]
    · simp [h.log, h'.log]

theorem run_rep (log : K → K) (highest lowest : K) (h : Hist K) :
    h.values.length ≤ maxCount → ∃ s, h.run log highest lowest = .ok s ∧ Rep log highest lowest s h.values := by
  induction h with
  | reset => intro _; exact ⟨_, rfl, by constructor <;> simp [reset, Hist.values, pw]⟩
  | notify h x ih =>
    intro hb
    simp only [Hist.values, List.length_append, List.length_singleton] at hb ⊢
    obtain ⟨s, e, r⟩ := ih (by omega)
    obtain ⟨s', e', r'⟩ := notify_rep log highest lowest s _ r x hb
    exact ⟨s', by simp only [Hist.run]; rw [e, ok_bind, e'], r'⟩
  | assimilate a b iha ihb =>
    intro hb
    simp only [Hist.values, List.length_append] at hb ⊢
    obtain ⟨s, e, r⟩ := iha (by omega)
    obtain ⟨o, f, q⟩ := ihb (by omega)
    obtain ⟨s', e', r'⟩ := assimilate_rep log highest lowest s o _ _ r q hb
    exact ⟨s', by simp only [Hist.run]; rw [e, ok_bind, f, ok_bind, e'], r'⟩

/-! ## Main theorem -/

/-- `m` is the smallest of `l` (and of nothing but `init` if `l` is empty). -/
def IsMin (l : List K) (init m : K) : Prop := (∀ x ∈ l, m ≤ x) ∧ (m ∈ l ∨ m = init)
def IsMax (l : List K) (init m : K) : Prop := (∀ x ∈ l, x ≤ m) ∧ (m ∈ l ∨ m = init)

omit [Field K] [IsStrictOrderedRing K] in
theorem foldr_isMin (l : List K) (init : K) : IsMin l init (l.foldr Min.min init) := by
  induction l with
  | nil => exact ⟨by simp, .inr rfl⟩
  | cons a l ih =>
    simp only [List.foldr_cons]
    refine ⟨fun x hx => ?_, ?_⟩
    · rcases List.mem_cons.mp hx with rfl | hx
      · exact min_le_left _ _
      · exact (min_le_right _ _).trans (ih.1 x hx)
    · rcases le_total a (l.foldr Min.min init) with h | h
      · rw [min_eq_left h]; exact .inl List.mem_cons_self
      · rw [min_eq_right h]; exact ih.2.imp (List.mem_cons_of_mem _) id

omit [Field K] [IsStrictOrderedRing K] in
theorem foldr_isMax (l : List K) (init : K) : IsMax l init (l.foldr Max.max init) := by
  induction l with
  | nil => exact ⟨by simp, .inr rfl⟩
  | cons a l ih =>
    simp only [List.foldr_cons]
    refine ⟨fun x hx => ?_, ?_⟩
    · rcases List.mem_cons.mp hx with rfl | hx
      · exact le_max_left _ _
      · exact (ih.1 x hx).trans (le_max_right _ _)
    · rcases le_total (l.foldr Max.max init) a with h | h
      · rw [max_eq_left h]; exact .inl List.mem_cons_self
      · rw [max_eq_right h]; exact ih.2.imp (List.mem_cons_of_mem _) id

/-- **C32** (accumulation).  After any history of `Notify` and `Assimilate` (any tree), with at most
`maxCount` = 3037000499 values in total (beyond that the code's 64-bit products overflow), the object holds the
count, extremes, sum of logarithms, mean and sums of 2nd, 3rd and 4th powers of deviations from the
mean of the multiset of all notified values; order and grouping do not matter. -/
theorem C32_accumulate (log : K → K) (highest lowest : K) (h : Hist K) (hb : h.values.length ≤ maxCount) :
    ∃ s, h.run log highest lowest = .ok s ∧ count s = h.values.length ∧ mean s = avg h.values ∧
      s.m2 = dev 2 h.values ∧ s.m3 = dev 3 h.values ∧ s.m4 = dev 4 h.values ∧
      IsMin h.values highest s.min ∧ IsMax h.values lowest s.max ∧ s.sumLog = (h.values.map log).sum := by
  obtain ⟨s, e, r⟩ := run_rep log highest lowest h hb
  have hm : s.m1 = avg h.values := by
    by_cases h0 : h.values = []
    · rw [r.z h0, h0]; simp [avg]
    · have hne : (h.values.length : K) ≠ 0 := by
        exact Nat.cast_ne_zero.mpr (by intro hc; exact h0 (List.length_eq_zero_iff.mp hc))
      unfold avg
      rw [← pw_one, r.m1]; field_simp
  obtain ⟨x2, x3, x4⟩ := expand h.values s.m1
  refine ⟨s, e, r.n, hm, ?_, ?_, ?_, ?_, ?_, r.log⟩
  · unfold dev; rw [← hm, x2]; exact r.m2
  · unfold dev; rw [← hm, x3]; exact r.m3
  · unfold dev; rw [← hm, x4]; exact r.m4
  · rw [r.min]; exact foldr_isMin _ _
  · rw [r.max]; exact foldr_isMax _ _

theorem toInt32_small (n : Nat) (h : n < 2 ^ 31) : toInt32 n = n := by
  unfold toInt32
  rw [BitVec.toInt_eq_toNat_cond, BitVec.toNat_ofNat, Nat.mod_eq_of_lt (by omega), if_pos (by omega)]

/-- **C32** (queries).  For fewer than 2^31 values, `SampleVariance`/`Mu2..4` are the central
moments, `Variance` is the unbiased estimator and `SampleKurtosis`/`Kurtosis` are the documented
normalised fourth moment (0 if the spread is below 1e-7). -/
theorem C32_queries (log : K → K) (highest lowest : K) (h : Hist K) (h1 : 1 ≤ h.values.length) (hb : h.values.length < 2 ^ 31) :
    ∃ s, h.run log highest lowest = .ok s ∧
      sampleVariance s = dev 2 h.values / h.values.length ∧ mu2 s = dev 2 h.values / h.values.length ∧
      mu3 s = dev 3 h.values / h.values.length ∧ mu4 s = dev 4 h.values / h.values.length ∧
      (2 ≤ h.values.length → variance s = dev 2 h.values / (h.values.length - 1)) ∧
      (h.values.length = 1 → variance s = 0) ∧
      (1 / 10 ^ 7 ≤ |dev 2 h.values| → sampleKurtosis s = dev 4 h.values * h.values.length / dev 2 h.values ^ 2 ∧
        kurtosis s = sampleKurtosis s * (((h.values.length : K) - 1) / h.values.length) ^ 2) := by
  obtain ⟨s, e, hn, _, h2, h3, h4, _⟩ := C32_accumulate log highest lowest h (by unfold maxCount; omega)
  have hn : s.n = h.values.length := hn
  refine ⟨s, e, ?_, ?_, ?_, ?_, ?_, ?_, ?_⟩
  · unfold sampleVariance; rw [if_neg (by omega), toInt32_small _ (by omega), h2, hn]; norm_cast
  · unfold mu2; rw [toInt32_small _ (by omega), h2, hn]; norm_cast
  · unfold mu3; rw [toInt32_small _ (by omega), h3, hn]; norm_cast
  · unfold mu4; rw [toInt32_small _ (by omega), h4, hn]; norm_cast
  · intro hge
    unfold variance; rw [if_neg (by omega), if_neg (by omega), toInt32_small _ (by omega), h2, hn]
    rw [Nat.cast_sub (by omega)]; push_cast; rfl
  · intro h1
    unfold variance; rw [if_neg (by omega), if_pos (by omega), h2]
    obtain ⟨x, hx⟩ := List.length_eq_one_iff.mp h1
    rw [hx]; simp [dev, avg]
  · intro hs
    have e2 : sampleKurtosis s = dev 4 h.values * h.values.length / dev 2 h.values ^ 2 := by
      unfold sampleKurtosis; rw [if_neg (by rw [h2]; exact not_lt.mpr hs), h2, h4, hn, sq]
    refine ⟨e2, ?_⟩
    unfold kurtosis; rw [if_neg (by omega), hn, sq, mul_assoc]

/-- Code defect: the count is cast to `int`, so with 2^31 values or more the divisor has the wrong
value: with exactly 2^31 values the variance is negated, and with 2^32 values it is a division by
zero. -/
theorem C32_variance_int_cast (s : St K) :
    (s.n = 2 ^ 31 → sampleVariance s = - (s.m2 / s.n)) ∧ (s.n = 2 ^ 32 → toInt32 s.n = 0) := by
  constructor
  · intro h
    unfold sampleVariance
    rw [if_neg (by rw [h]; norm_num), h]
    have : toInt32 (2 ^ 31) = -(2 ^ 31) := by decide
    rw [this]; push_cast; rw [div_neg]
  · intro h; rw [h]; decide

/-- A non-trivial tree: two separately filled objects and an empty one, merged. -/
def exHist : Hist ℚ :=
  .assimilate (.assimilate (.notify (.notify .reset 3) 5) .reset) (.notify (.notify .reset 8) (-4))
example : exHist.values = [3, 5, 8, -4] ∧ ((exHist.run (fun _ => 0) 1000 (-1000)).toOption.map
    fun s => [s.min, s.max, s.m1, s.m2, s.m3, s.m4]) = some [-4, 8, 3, 78, -210, 3042] := by
  decide +kernel

/-! ## Bins (stats.h:31-70) -/

/-- `Bins<N>::Notify` (stats.h:36-39) for an integer bin. -/
def binsNotify (N : Nat) (counts : List Nat) (bin : Int) : M (List Nat) :=
  if 0 ≤ bin ∧ bin < N then do
    let c ← readAt counts bin.toNat
    writeAt counts bin.toNat ((c + 1) % 2 ^ 64)
  else .error .abort

/-- `Bins<N>::Assimilate` (stats.h:41-45). -/
def binsAssimilate (counts other : List Nat) : List Nat := List.zipWith (fun a b => (a + b) % 2 ^ 64) counts other

/-- `Bins<N>::Reset` (stats.h:61-65). -/
def binsReset (N : Nat) : List Nat := List.replicate N 0

inductive BHist
  | reset : BHist
  | notify : BHist → Int → BHist
  | assimilate : BHist → BHist → BHist

def BHist.values : BHist → List Int
  | .reset => []
  | .notify h x => h.values ++ [x]
  | .assimilate a b => a.values ++ b.values

def BHist.run (N : Nat) : BHist → M (List Nat)
  | .reset => .ok (binsReset N)
  | .notify h x => do
    let c ← h.run N
    binsNotify N c x
  | .assimilate a b => do
    let c ← a.run N
    let d ← b.run N
    .ok (binsAssimilate c d)

/-- **C32** (bins).  After any history of `Notify` with in-range bins and `Assimilate`, bin `i`
holds how often `i` was notified (modulo 2^64). -/
theorem C32_bins (N : Nat) (h : BHist) (hv : ∀ x ∈ h.values, 0 ≤ x ∧ x < N) :
    ∃ c, h.run N = .ok c ∧ c.length = N ∧ ∀ i, i < N → c[i]? = some (h.values.count (i : Int) % 2 ^ 64) := by
  induction h with
  | reset => exact ⟨_, rfl, by simp [binsReset], fun i hi => by simp [binsReset, BHist.values, hi]⟩
  | notify h x ih =>
    simp only [BHist.values] at hv ⊢
    obtain ⟨c, e, hl, hc⟩ := ih fun y hy => hv y (List.mem_append_left _ hy)
    have hx := hv x (by simp)
    simp only [BHist.run]
    rw [e]
    show ∃ c', binsNotify N c x = _ ∧ _
    unfold binsNotify
    rw [if_pos hx]
    have hxn : x.toNat < N := by omega
    rw [readAt_of_lt (by omega)]
    refine ⟨_, writeAt_of_lt _ (by omega), by simp [hl], ?_⟩
    intro i hi
    rw [List.count_append, List.getElem?_set]
    by_cases hxi : x.toNat = i
    · have hxe : x = (i : Int) := by omega
      have hci := hc i hi
      rw [List.getElem?_eq_getElem (by omega)] at hci
      injection hci with hci
      subst hxi
      rw [if_pos rfl, if_pos (by omega), hci, ← hxe]
      congr 1
      simp
    · have hne : ¬ (x = (i : Int)) := by omega
      rw [if_neg hxi, hc i hi]
      have : List.count (i : Int) [x] = 0 := by
        rw [List.count_eq_zero]; simp; omega
      rw [this]; simp
  | assimilate a b iha ihb =>
    simp only [BHist.values] at hv ⊢
    obtain ⟨c, e, hl, hc⟩ := iha fun y hy => hv y (List.mem_append_left _ hy)
    obtain ⟨d, e', hl', hd⟩ := ihb fun y hy => hv y (List.mem_append_right _ hy)
    simp only [BHist.run]
    rw [e]
    show ∃ c', (BHist.run N b >>= _) = _ ∧ _
    rw [e']
    refine ⟨_, rfl, by simp [binsAssimilate, hl, hl'], ?_⟩
    intro i hi
    unfold binsAssimilate
    rw [List.getElem?_zipWith, hc i hi, hd i hi, List.count_append]
    simp

/-- Out-of-range bins abort. -/
theorem C32_bins_abort (N : Nat) (c : List Nat) (x : Int) (h : ¬ (0 ≤ x ∧ x < N)) : binsNotify N c x = .error .abort := by
  unfold binsNotify; rw [if_neg h]

example : (BHist.run 4 (.assimilate (.notify (.notify .reset 3) 0) (.notify .reset 3))) = .ok [1, 0, 0, 2] := by rfl

end Hwy.Stats
