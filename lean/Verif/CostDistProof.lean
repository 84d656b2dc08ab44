import Verif.CostDist

/-!
# Facts about `CostDistribution`: estimates stay within the range of the notified costs and no
assertion (other than the one of line 206) fires.
-/

namespace Hwy.Tune.CostDist

variable {K : Type} [Field K] [LinearOrder K] [IsStrictOrderedRing K]

theorem ok_bind' {α β : Type} (a : α) (f : α → M β) : ((Except.ok a : M α) >>= f) = f a := rfl

/-! ## Sorting and the median -/

theorem getD_map_range {α : Type} (l : List α) (z : α) (i : Nat) (h : i < l.length) : l.getD i z = l[i] := by
  simp [List.getD_eq_getElem?_getD, h]

/-- `s` is in ascending order. -/
def Asc (s : List K) : Prop := ∀ i j, i ≤ j → j < s.length → s.getD i 0 ≤ s.getD j 0

theorem asc_mergeSort (l : List K) : Asc (l.mergeSort (fun a b => decide (a ≤ b))) := by
  have h := List.pairwise_mergeSort (le := fun a b : K => decide (a ≤ b))
    (fun a b c h1 h2 => by simp at *; exact le_trans h1 h2) (fun a b => by simp; exact le_total a b) l
  intro i j hij hj
  rcases Nat.eq_or_lt_of_le hij with rfl | hlt
  · exact le_refl _
  · rw [getD_map_range _ _ _ hj, getD_map_range _ _ _ (lt_trans hlt hj)]
    have := List.pairwise_iff_getElem.mp h i j (lt_trans hlt hj) hj hlt
    simpa using this

theorem mergeSort_len (l : List K) : (l.mergeSort (fun a b => decide (a ≤ b))).length = l.length :=
  List.length_mergeSort l

theorem mergeSort_forall {P : K → Prop} (l : List K) (h : ∀ x ∈ l, P x) :
    ∀ x ∈ l.mergeSort (fun a b => decide (a ≤ b)), P x := by
  intro x hx; exact h x ((List.mergeSort_perm l _).mem_iff.mp hx)

/-- The median is at least every lower bound of the list. -/
theorem midOf_ge (s : List K) (h2 : 2 ≤ s.length) (lo : K) (h : ∀ x ∈ s, lo ≤ x) : lo ≤ midOf s := by
  have hm : ∀ i, i < s.length → lo ≤ s.getD i 0 := by
    intro i hi; rw [getD_map_range _ _ _ hi]; exact h _ (List.getElem_mem hi)
  unfold midOf; split
  · exact hm _ (by omega)
  · have a := hm (s.length / 2) (by omega)
    have b := hm (s.length / 2 - 1) (by omega)
    linarith

/-- The median splits the sorted list. -/
theorem midOf_split (s : List K) (h2 : 2 ≤ s.length) (hs : Asc s) :
    ∃ g : K, 0 ≤ g ∧ s.getD (s.length / 2) 0 = midOf s + g ∧
      s.getD ((s.length - 1) / 2) 0 = midOf s - g ∧
      ∀ i, i < s.length → g ≤ |s.getD i 0 - midOf s| := by
  unfold midOf; split
  · rename_i hodd
    refine ⟨0, le_refl _, by simp, ?_, fun i _ => abs_nonneg _⟩
    have : (s.length - 1) / 2 = s.length / 2 := by omega
    rw [this]; simp
  · rename_i hev
    have e1 : (s.length - 1) / 2 = s.length / 2 - 1 := by omega
    have hle := hs (s.length / 2 - 1) (s.length / 2) (by omega) (by omega)
    refine ⟨(s.getD (s.length / 2) 0 - s.getD (s.length / 2 - 1) 0) * (1 / 2), by linarith, by ring,
      by rw [e1]; ring, ?_⟩
    intro i hi
    rcases Nat.lt_or_ge i (s.length / 2) with h | h
    · have := hs i (s.length / 2 - 1) (by omega) (by omega)
      rw [abs_sub_comm]
      refine le_trans ?_ (le_abs_self _)
      linarith
    · have := hs (s.length / 2) i h hi
      refine le_trans ?_ (le_abs_self _)
      linarith

/-! ## Trimming -/

theorem scanRight_spec (s : List K) (u : K) (k : Nat) (hk : s.getD k 0 ≤ u) :
    ∀ r, k ≤ r → ∃ q, scanRight s u r = .ok q ∧ k ≤ q ∧ q ≤ r := by
  intro r
  induction r with
  | zero =>
    intro h
    have : k = 0 := by omega
    subst this
    exact ⟨0, by simp only [scanRight]; rw [if_neg (not_lt.mpr hk)], by omega, by omega⟩
  | succ r ih =>
    intro h
    simp only [scanRight]
    split
    · rename_i hc
      have : k ≠ r + 1 := by rintro rfl; exact absurd hc (not_lt.mpr hk)
      obtain ⟨q, h1, h2, h3⟩ := ih (by omega)
      exact ⟨q, h1, h2, by omega⟩
    · exact ⟨r + 1, rfl, h, le_refl _⟩

theorem scanLeft_spec (s : List K) (lo : K) (k : Nat) (hk : lo ≤ s.getD k 0) :
    ∀ fuel left, left ≤ k → scanLeft s lo left fuel ≤ k ∧ scanLeft s lo left fuel ≤ left + fuel := by
  intro fuel
  induction fuel with
  | zero => intro left h; simp [scanLeft]; exact h
  | succ f ih =>
    intro left h
    simp only [scanLeft]
    split
    · rename_i hc
      have : k ≠ left := by rintro rfl; exact absurd hc (not_lt.mpr hk)
      have := ih (left + 1) (by omega)
      omega
    · omega

theorem keepRange_spec (s : List K) (h3 : 3 ≤ s.length) (hs : Asc s) (md : K) (hmd : 0 ≤ md)
    (hg : ∀ g, (∀ i, i < s.length → g ≤ |s.getD i 0 - midOf s|) → g ≤ md) :
    ∃ left n, keepRange s (midOf s) md = .ok (left, n) ∧ 1 ≤ n ∧ left + n ≤ s.length := by
  obtain ⟨g, hg0, e1, e2, hall⟩ := midOf_split s (by omega) hs
  have hgm := hg g hall
  unfold keepRange
  split
  · simp only []
    rw [if_pos (by omega)]
    refine ⟨_, _, rfl, by omega, ?_⟩
    split <;> omega
  · obtain ⟨q, hq, hq1, hq2⟩ := scanRight_spec s (midOf s + 5 * md) (s.length / 2)
      (by rw [e1]; linarith) (s.length - 1) (by omega)
    rw [hq, ok_bind']
    simp only []
    rw [if_neg (by omega)]
    have hl := scanLeft_spec s (midOf s - 5 * md) ((s.length - 1) / 2) (by rw [e2]; linarith) q 0 (by omega)
    rw [if_neg (by omega)]
    exact ⟨_, _, rfl, by omega, by omega⟩

theorem median_eq (l : List K) (h : 2 ≤ l.length) :
    median l = .ok (l.mergeSort (fun a b => decide (a ≤ b)), midOf (l.mergeSort (fun a b => decide (a ≤ b)))) := by
  unfold median; rw [if_pos h]

/-- The state before the online phase: `num` buffered values, all within `[lo, hi]`. -/
structure Filling (lo hi : K) (d : CostDist K) : Prop where
  len : d.vals.length = kMaxValues
  off : d.onlineN = 0
  num : d.num ≤ kMaxValues
  rng : ∀ x ∈ d.vals.take d.num, lo ≤ x ∧ x ≤ hi

/-- The online state. -/
structure Online (lo hi : K) (d : CostDist K) : Prop where
  len : d.vals.length = kMaxValues
  on : 0 < d.onlineN
  m1 : lo ≤ d.M1 ∧ d.M1 ≤ hi
  mean : lo ≤ d.Mean ∧ d.Mean ≤ hi
  sd : 0 ≤ d.Stddev
  m2 : 0 ≤ d.M2
  lower : d.Lower ≤ d.Mean
  upper : d.Mean ≤ d.Upper

theorem removeOutliers_spec (lo hi : K) (d : CostDist K) (h : Filling lo hi d) (h0 : d.num ≠ 0) :
    ∃ d', d.removeOutliers = .ok d' ∧ Filling lo hi d' ∧ d'.num ≠ 0 := by
  unfold removeOutliers
  split
  · exact ⟨d, rfl, h, h0⟩
  · rename_i h3
    rw [if_neg (by have := h.num; omega)]
    have hlen : (d.vals.take d.num).length = d.num := by
      rw [List.length_take, h.len]; have := h.num; omega
    rw [median_eq _ (by omega), ok_bind']
    simp only []
    have hsl := mergeSort_len (d.vals.take d.num)
    have hsr := mergeSort_forall (P := fun x => lo ≤ x ∧ x ≤ hi) (d.vals.take d.num) h.rng
    have hsa := asc_mergeSort (d.vals.take d.num)
    generalize hs : (d.vals.take d.num).mergeSort (fun a b => decide (a ≤ b)) = s at *
    rw [hlen] at hsl
    have hml : (s.map fun x => |x - midOf s|).length = s.length := by simp
    have hmad : mad s (midOf s) = .ok (midOf ((s.map fun x => |x - midOf s|).mergeSort (fun a b => decide (a ≤ b)))) := by
      unfold mad
      rw [if_pos (by rw [hsl]; exact h.num), median_eq _ (by omega), ok_bind']
    rw [hmad, ok_bind']
    have hge : ∀ g, (∀ i, i < s.length → g ≤ |s.getD i 0 - midOf s|) →
        g ≤ midOf ((s.map fun x => |x - midOf s|).mergeSort (fun a b => decide (a ≤ b))) := by
      intro g hg
      apply midOf_ge
      · rw [mergeSort_len]; omega
      · apply mergeSort_forall
        intro x hx
        obtain ⟨y, hy, rfl⟩ := List.mem_map.mp hx
        obtain ⟨i, hi, rfl⟩ := List.mem_iff_getElem.mp hy
        have := hg i hi
        rwa [getD_map_range _ _ _ hi] at this
    obtain ⟨left, n, hk, hn, hln⟩ := keepRange_spec s (by omega) hsa _ (hge 0 fun _ _ => abs_nonneg _) hge
    rw [hk, ok_bind']
    simp only []
    have hnum := h.num
    have hvl := h.len
    unfold moveDown
    rw [if_pos (by simp; omega), ok_bind']
    refine ⟨_, rfl, ⟨?_, h.off, ?_, ?_⟩, by simp; omega⟩
    · simp; omega
    · simp; omega
    · intro x hx
      simp only [] at hx
      have : (List.take n (List.drop left (s ++ List.drop d.num d.vals))).length = n := by simp; omega
      rw [List.take_append_of_le_length (by omega), List.take_take, Nat.min_self] at hx
      rw [List.drop_append_of_le_length (by omega), List.take_append_of_le_length (by simp; omega)] at hx
      exact hsr x (List.mem_of_mem_drop (List.mem_of_mem_take hx))

/-! ## The online phase -/

theorem get_put_same (d : CostDist K) (i : Nat) (x : K) (h : i < d.vals.length) : (d.put i x).vals.getD i 0 = x := by
  simp [put, List.getD_eq_getElem?_getD, List.getElem?_set, h]

theorem get_put_ne (d : CostDist K) (i j : Nat) (x : K) (h : i ≠ j) : (d.put i x).vals.getD j 0 = d.vals.getD j 0 := by
  simp [put, List.getD_eq_getElem?_getD, List.getElem?_set, h]

@[simp] theorem put_len (d : CostDist K) (i : Nat) (x : K) : (d.put i x).vals.length = d.vals.length := by simp [put]
@[simp] theorem put_on (d : CostDist K) (i : Nat) (x : K) : (d.put i x).onlineN = d.onlineN := rfl
@[simp] theorem put_num (d : CostDist K) (i : Nat) (x : K) : (d.put i x).num = d.num := rfl

/-- What one online update does, as equations on the fields. -/
theorem onlineNotify_eqs (sqrt : K → K) (d : CostDist K) (x : K) (h : d.vals.length = kMaxValues) :
    let y := min (max d.Lower x) d.Upper
    let e := d.onlineNotify sqrt x
    e.vals.length = kMaxValues ∧ e.onlineN = d.onlineN + 1 ∧
    e.M1 = d.M1 + (y - d.M1) / (d.onlineN + 1) ∧
    e.M2 = d.M2 + (y - d.M1) * d.onlineN * ((y - d.M1) / (d.onlineN + 1)) ∧
    e.Mean = e.M1 * (2 / 10) + d.Mean * (1 - 2 / 10) ∧
    e.Stddev = sqrt (e.M2 / max 1 d.onlineN) * (2 / 10) + d.Stddev * (1 - 2 / 10) ∧
    e.Lower = e.Mean - 35 / 10 * e.Stddev ∧ e.Upper = e.Mean + 35 / 10 * e.Stddev := by
  obtain ⟨num, on, vals⟩ := d
  simp only [kMaxValues] at *
  match vals, h with
  | [a, b, c, d, e, f, g, h, i, j, k, l, m, n], _ =>
    simp [onlineNotify, M1, M2, Mean, Stddev, Lower, Upper, put, kMaxValues]

theorem startOnline_eqs (d : CostDist K) (m s : K) (h : d.vals.length = kMaxValues) :
    let s' := if s = 0 then m / 2 else s
    let e := d.startOnline m s
    e.vals.length = kMaxValues ∧ e.onlineN = d.onlineN ∧ e.M1 = 0 ∧ e.M2 = 0 ∧ e.Mean = m ∧
    e.Stddev = s' ∧ e.Lower = m - 4 * s' ∧ e.Upper = m + 4 * s' := by
  obtain ⟨num, on, vals⟩ := d
  simp only [kMaxValues] at *
  match vals, h with
  | [a, b, c, d, e, f, g, h, i, j, k, l, m', n], _ =>
    by_cases hs : s = 0 <;>
    simp [startOnline, M1, M2, Mean, Stddev, Lower, Upper, put, kMaxValues, hs]

/-- The state between `startOnline` and the first `onlineNotify`: `M1` is not yet meaningful. -/
structure Fresh (lo hi : K) (d : CostDist K) : Prop where
  len : d.vals.length = kMaxValues
  off : d.onlineN = 0
  m1 : d.M1 = 0
  m2 : d.M2 = 0
  mean : lo ≤ d.Mean ∧ d.Mean ≤ hi
  sd : 0 ≤ d.Stddev
  lower : d.Lower ≤ d.Mean
  upper : d.Mean ≤ d.Upper

theorem clamp_range {lo hi L U m x : K} (hx : lo ≤ x ∧ x ≤ hi) (hm : lo ≤ m ∧ m ≤ hi) (hL : L ≤ m) (hU : m ≤ U) :
    lo ≤ min (max L x) U ∧ min (max L x) U ≤ hi := by
  constructor
  · exact le_min (le_trans hx.1 (le_max_right _ _)) (le_trans hm.1 hU)
  · exact le_trans (min_le_left _ _) (max_le (le_trans hL hm.2) hx.2)

theorem avg_range {lo hi a y n : K} (hn : 0 ≤ n) (ha : lo ≤ a ∧ a ≤ hi) (hy : lo ≤ y ∧ y ≤ hi) :
    lo ≤ a + (y - a) / (n + 1) ∧ a + (y - a) / (n + 1) ≤ hi := by
  have hp : 0 < n + 1 := by linarith
  have e : a + (y - a) / (n + 1) = (n * a + y) / (n + 1) := by field_simp; ring
  rw [e, le_div_iff₀ hp, div_le_iff₀ hp]
  constructor
  · nlinarith [mul_le_mul_of_nonneg_left ha.1 hn]
  · nlinarith [mul_le_mul_of_nonneg_left ha.2 hn]

theorem online_step (sqrt : K → K) (hsq : ∀ x, 0 ≤ x → 0 ≤ sqrt x) (lo hi : K) (d : CostDist K) (h : Online lo hi d)
    (x : K) (hx : lo ≤ x ∧ x ≤ hi) : Online lo hi (d.onlineNotify sqrt x) := by
  obtain ⟨e1, e2, e3, e4, e5, e6, e7, e8⟩ := onlineNotify_eqs sqrt d x h.len
  have hy := clamp_range hx h.mean h.lower h.upper
  generalize min (max d.Lower x) d.Upper = y at *
  have hon := h.on
  have hm1 := avg_range hon.le h.m1 hy
  rw [← e3] at hm1
  have hm2 : 0 ≤ (d.onlineNotify sqrt x).M2 := by
    rw [e4]
    have : (y - d.M1) * d.onlineN * ((y - d.M1) / (d.onlineN + 1)) = (y - d.M1) ^ 2 * d.onlineN / (d.onlineN + 1) := by
      ring
    rw [this]
    have h2 := h.m2
    positivity
  have hsd : 0 ≤ (d.onlineNotify sqrt x).Stddev := by
    rw [e6]
    have := hsq ((d.onlineNotify sqrt x).M2 / max 1 d.onlineN) (div_nonneg hm2 (le_trans zero_le_one (le_max_left _ _)))
    have := h.sd
    linarith
  have hm := h.mean
  refine ⟨e1, by rw [e2]; linarith, hm1, ?_, hsd, hm2, by rw [e7]; linarith, by rw [e8]; linarith⟩
  rw [e5]; constructor <;> linarith [hm1.1, hm1.2, hm.1, hm.2]

theorem fresh_step (sqrt : K → K) (hsq : ∀ x, 0 ≤ x → 0 ≤ sqrt x) (lo hi : K) (d : CostDist K) (h : Fresh lo hi d)
    (x : K) (hx : lo ≤ x ∧ x ≤ hi) : Online lo hi (d.onlineNotify sqrt x) := by
  obtain ⟨e1, e2, e3, e4, e5, e6, e7, e8⟩ := onlineNotify_eqs sqrt d x h.len
  have hy := clamp_range hx h.mean h.lower h.upper
  generalize min (max d.Lower x) d.Upper = y at *
  rw [h.off, h.m1] at e3
  rw [h.off, h.m1, h.m2] at e4
  have e3' : (d.onlineNotify sqrt x).M1 = y := by rw [e3]; simp
  have e4' : (d.onlineNotify sqrt x).M2 = 0 := by rw [e4]; simp
  have hsd : 0 ≤ (d.onlineNotify sqrt x).Stddev := by
    rw [e6]
    have := hsq ((d.onlineNotify sqrt x).M2 / max 1 d.onlineN)
      (div_nonneg (by rw [e4']) (le_trans zero_le_one (le_max_left _ _)))
    have := h.sd
    linarith
  have hm := h.mean
  refine ⟨e1, by rw [e2, h.off]; linarith [zero_lt_one (α := K)], by rw [e3']; exact hy, ?_, hsd, by rw [e4'], by rw [e7]; linarith, by rw [e8]; linarith⟩
  rw [e5, e3']; constructor <;> linarith [hy.1, hy.2, hm.1, hm.2]

theorem fold_online (sqrt : K → K) (hsq : ∀ x, 0 ≤ x → 0 ≤ sqrt x) (lo hi : K) (l : List K)
    (hl : ∀ x ∈ l, lo ≤ x ∧ x ≤ hi) : ∀ d, Online lo hi d → Online lo hi (l.foldl (onlineNotify sqrt) d) := by
  induction l with
  | nil => intro d h; exact h
  | cons a l ih =>
    intro d h
    exact ih (fun x hx => hl x (List.mem_cons_of_mem _ hx)) _ (online_step sqrt hsq lo hi d h a (hl a List.mem_cons_self))

theorem sum_range {lo hi : K} (l : List K) (hl : ∀ x ∈ l, lo ≤ x ∧ x ≤ hi) :
    lo * l.length ≤ l.sum ∧ l.sum ≤ hi * l.length := by
  induction l with
  | nil => simp
  | cons a l ih =>
    have := ih (fun x hx => hl x (List.mem_cons_of_mem _ hx))
    have ha := hl a List.mem_cons_self
    simp only [List.sum_cons, List.length_cons, Nat.cast_add, Nat.cast_one]
    constructor <;> nlinarith [this.1, this.2, ha.1, ha.2]

theorem sum_sq_nonneg (l : List K) (m : K) : 0 ≤ (l.map fun x => (x - m) * (x - m)).sum := by
  induction l with
  | nil => simp
  | cons a l ih =>
    simp only [List.map_cons, List.sum_cons]
    nlinarith [mul_self_nonneg (a - m)]

/-- Warm-up leaves a usable online state whose mean is inside the range of the samples. -/
theorem warmUp_spec (sqrt : K → K) (hsq : ∀ x, 0 ≤ x → 0 ≤ sqrt x) (lo hi : K) (hlo : 0 ≤ lo) (d : CostDist K)
    (h : Filling lo hi d) (h0 : d.num ≠ 0) : ∃ d', d.warmUpOnline sqrt = .ok d' ∧ Online lo hi d' := by
  obtain ⟨e, he, hf, hn⟩ := removeOutliers_spec lo hi d h h0
  unfold warmUpOnline
  rw [he, ok_bind']
  have hoff : e.isOnline = false := by simp [isOnline, hf.off]
  have hmean : e.sampleMean = .ok ((e.vals.take e.num).sum / e.num) := by
    unfold sampleMean; rw [if_pos ⟨hoff, hn, hf.num⟩]
  rw [hmean, ok_bind']
  have htl : (e.vals.take e.num).length = e.num := by
    rw [List.length_take, hf.len]; have := hf.num; omega
  have hpos : (0 : K) < e.num := by exact_mod_cast Nat.pos_of_ne_zero hn
  have hmr : lo ≤ (e.vals.take e.num).sum / e.num ∧ (e.vals.take e.num).sum / e.num ≤ hi := by
    have := sum_range (e.vals.take e.num) hf.rng
    rw [htl] at this
    rw [le_div_iff₀ hpos, div_le_iff₀ hpos]; exact this
  generalize hm : (e.vals.take e.num).sum / e.num = m at *
  obtain ⟨var, hvar, hvn⟩ : ∃ var, e.sampleVariance m = .ok var ∧ 0 ≤ var := by
    unfold sampleVariance
    rw [if_pos ⟨le_trans hlo hmr.1, hoff, hn, hf.num⟩]
    split
    · exact ⟨0, rfl, le_refl _⟩
    · exact ⟨_, rfl, div_nonneg (sum_sq_nonneg _ _) (Nat.cast_nonneg _)⟩
  rw [hvar, ok_bind']
  have hfresh : Fresh lo hi (e.startOnline m (sqrt var)) := by
    obtain ⟨q1, q2, q3, q4, q5, q6, q7, q8⟩ := startOnline_eqs e m (sqrt var) hf.len
    have hs : 0 ≤ (if sqrt var = 0 then m / 2 else sqrt var) := by
      split
      · have := le_trans hlo hmr.1; linarith
      · exact hsq _ hvn
    refine ⟨q1, by rw [q2, hf.off], q3, q4, by rw [q5]; exact hmr, by rw [q6]; exact hs, by rw [q7, q5]; linarith, by rw [q8, q5]; linarith⟩
  have hne : e.vals.take e.num ≠ [] := by
    intro hc; rw [hc] at htl; simp at htl; omega
  obtain ⟨a, l, hal⟩ := List.exists_cons_of_ne_nil hne
  have hrng := hf.rng
  rw [hal] at hrng ⊢
  have hon : Online lo hi ((a :: l).foldl (onlineNotify sqrt) (e.startOnline m (sqrt var))) := by
    rw [List.foldl_cons]
    exact fold_online sqrt hsq lo hi l (fun x hx => hrng x (List.mem_cons_of_mem _ hx)) _
      (fresh_step sqrt hsq lo hi _ hfresh a (hrng a List.mem_cons_self))
  simp only []
  rw [if_pos (by simp only [isOnline, decide_eq_true_eq]; exact hon.on)]
  exact ⟨_, rfl, hon⟩

/-- Either phase; `Filling` with room left. `n` is 0 only if nothing was notified. -/
inductive Good (lo hi : K) (d : CostDist K) : Prop
  | fill : Filling lo hi d → d.num < kMaxValues → Good lo hi d
  | online : Online lo hi d → Good lo hi d

/-- `d` can be asked for an estimate. -/
def Ready (d : CostDist K) : Prop := d.num ≠ 0 ∨ d.isOnline = true

theorem Good.mono {lo hi lo' hi' : K} (h1 : lo' ≤ lo) (h2 : hi ≤ hi') {d : CostDist K} (h : Good lo hi d) :
    Good lo' hi' d := by
  cases h with
  | fill h hn => exact .fill ⟨h.len, h.off, h.num, fun x hx => ⟨h1.trans (h.rng x hx).1, (h.rng x hx).2.trans h2⟩⟩ hn
  | online h => exact .online ⟨h.len, h.on, ⟨h1.trans h.m1.1, h.m1.2.trans h2⟩, ⟨h1.trans h.mean.1, h.mean.2.trans h2⟩, h.sd, h.m2, h.lower, h.upper⟩

theorem init_good (lo hi : K) (junk : List K) (h : junk.length = kMaxValues) : Good lo hi (init junk) :=
  .fill ⟨h, rfl, Nat.zero_le _, by simp [init]⟩ (by simp [init, kMaxValues])

theorem notify_good (sqrt : K → K) (hsq : ∀ x, 0 ≤ x → 0 ≤ sqrt x) (lo hi : K) (hlo : 0 ≤ lo) (d : CostDist K)
    (h : Good lo hi d) (x : K) (hx : lo ≤ x ∧ x ≤ hi) :
    ∃ d', d.notify sqrt x = .ok d' ∧ Good lo hi d' ∧ Ready d' := by
  unfold notify
  rw [if_neg (not_lt.mpr (le_trans hlo hx.1))]
  cases h with
  | online h =>
    rw [if_pos (by simp only [isOnline, decide_eq_true_eq]; exact h.on)]
    have := online_step sqrt hsq lo hi d h x hx
    exact ⟨_, rfl, .online this, .inr (by simp only [isOnline, decide_eq_true_eq]; exact this.on)⟩
  | fill h hn =>
    rw [if_neg (by simp [isOnline, h.off])]
    rw [writeAt_of_lt x (by rw [h.len]; exact hn), ok_bind']
    simp only []
    rw [if_neg (by omega)]
    have hf : Filling lo hi ({ d with num := d.num + 1, vals := d.vals.set d.num x } : CostDist K) := by
      refine ⟨by simp [h.len], h.off, by simp; omega, ?_⟩
      simp only []
      have hl : d.num < d.vals.length := by rw [h.len]; exact hn
      rw [List.take_add_one, List.take_set_of_le (le_refl _)]
      intro y hy
      rcases List.mem_append.mp hy with hy | hy
      · exact h.rng y hy
      · simp [hl] at hy; rw [hy]; exact hx
    split
    · obtain ⟨d', h1, h2⟩ := warmUp_spec sqrt hsq lo hi hlo _ hf (by simp)
      exact ⟨d', h1, .online h2, .inr (by simp only [isOnline, decide_eq_true_eq]; exact h2.on)⟩
    · rename_i hne
      exact ⟨_, rfl, .fill hf (by simp only []; omega), .inl (by simp)⟩

theorem estimate_good (sqrt : K → K) (hsq : ∀ x, 0 ≤ x → 0 ≤ sqrt x) (lo hi : K) (hlo : 0 ≤ lo) (d : CostDist K)
    (h : Good lo hi d) (hr : Ready d) :
    ∃ d', d.estimateCost sqrt = .ok (d', d'.Mean) ∧ Online lo hi d' := by
  unfold estimateCost
  cases h with
  | online h => rw [if_pos (by simp only [isOnline, decide_eq_true_eq]; exact h.on)]; exact ⟨d, rfl, h⟩
  | fill h hn =>
    have hf : d.isOnline = false := by simp [isOnline, h.off]
    rw [if_neg (by simp [hf])]
    have h0 : d.num ≠ 0 := by
      rcases hr with hr | hr
      · exact hr
      · rw [hf] at hr; cases hr
    obtain ⟨d', h1, h2⟩ := warmUp_spec sqrt hsq lo hi hlo d h h0
    rw [h1, ok_bind']
    exact ⟨d', rfl, h2⟩

/-- Once online, an estimate does not change the state. -/
theorem estimate_online (sqrt : K → K) (d : CostDist K) (h : d.isOnline = true) :
    d.estimateCost sqrt = .ok (d, d.Mean) := by
  unfold estimateCost; rw [if_pos h]

end Hwy.Tune.CostDist
