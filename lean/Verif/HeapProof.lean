import Verif.Heap
import Verif.SortSpec

/-! # Heap invariants -/

namespace Hwy
namespace VQ

variable {α : Type}

theorem readAt_getD (d : α) {a : List α} {i : Nat} (h : i < a.length) : readAt a i = .ok (a.getD i d) := by
  simp [readAt, h, List.getD_eq_getElem?_getD]

theorem getD_set (d : α) (a : List α) (i j : Nat) (x : α) (h : i < a.length) :
    (a.set i x).getD j d = if i = j then x else a.getD j d := by
  simp only [List.getD_eq_getElem?_getD, List.getElem?_set]
  by_cases e : i = j
  · subst e; simp [h]
  · simp [e]

/-- Result of swapping. -/
theorem swapAt_spec (d : α) (a : List α) (i j : Nat) (hi : i < a.length) (hj : j < a.length) :
    ∃ a', swapAt a i j = .ok a' ∧ a'.length = a.length ∧ a'.Perm a ∧
      ∀ t, a'.getD t d = if t = j then a.getD i d else if t = i then a.getD j d else a.getD t d := by
  refine ⟨(a.set i (a[j])).set j (a[i]), ?_, by simp, List.set_set_perm hi hj, ?_⟩
  · unfold swapAt
    rw [readAt_of_lt hi]
    simp only [bind, Except.bind]
    rw [readAt_of_lt hj]
    simp only []
    rw [writeAt_of_lt _ hi]
    simp only []
    rw [writeAt_of_lt _ (by simpa using hj)]
  · intro t
    rw [getD_set d _ _ _ _ (by simpa using hj), getD_set d _ _ _ _ hi]
    have e1 : a.getD i d = a[i] := by simp [List.getD_eq_getElem?_getD, hi]
    have e2 : a.getD j d = a[j] := by simp [List.getD_eq_getElem?_getD, hj]
    rw [e1, e2]
    by_cases h1 : t = j
    · simp [h1]
    · by_cases h2 : t = i
      · subst h2
        simp [h1, Ne.symm h1]
      · rw [if_neg (Ne.symm h1), if_neg (Ne.symm h2), if_neg h1, if_neg h2]

/-- Key `i` is not before its children. -/
def NodeOk (lt : α → α → Bool) (g : Nat → α) (n i : Nat) : Prop :=
  (2 * i + 1 < n → lt (g i) (g (2 * i + 1)) = false) ∧ (2 * i + 2 < n → lt (g i) (g (2 * i + 2)) = false)

def HeapFrom (lt : α → α → Bool) (g : Nat → α) (n s : Nat) : Prop := ∀ i, s ≤ i → NodeOk lt g n i

/-- Heap except at `p`, whose children are not after its parent. -/
def HeapExcept (lt : α → α → Bool) (g : Nat → α) (n s p : Nat) : Prop :=
  (∀ i, s ≤ i → i ≠ p → NodeOk lt g n i) ∧
  (∀ i, s ≤ i → (2 * i + 1 = p ∨ 2 * i + 2 = p) →
    (2 * p + 1 < n → lt (g i) (g (2 * p + 1)) = false) ∧ (2 * p + 2 < n → lt (g i) (g (2 * p + 2)) = false))

/-- One swap of `p` with its largest child `c` moves the exception to `c`. -/
theorem heapExcept_step {lt : α → α → Bool} (ho : IsOrder lt) (g g' : Nat → α) (n s p c : Nat) (hs : s ≤ p)
    (he : HeapExcept lt g n s p) (hc : c = 2 * p + 1 ∨ c = 2 * p + 2) (hcn : c < n)
    (hlt : lt (g p) (g c) = true)
    (hbig : (2 * p + 1 < n → lt (g c) (g (2 * p + 1)) = false) ∧ (2 * p + 2 < n → lt (g c) (g (2 * p + 2)) = false))
    (hg : ∀ t, g' t = if t = c then g p else if t = p then g c else g t) :
    HeapExcept lt g' n s c := by
  obtain ⟨h1, h2⟩ := he
  have hcp : c ≠ p := by omega
  have gc : g' c = g p := by rw [hg, if_pos rfl]
  have gp : g' p = g c := by rw [hg, if_neg (Ne.symm hcp), if_pos rfl]
  have go : ∀ t, t ≠ c → t ≠ p → g' t = g t := fun t a b => by rw [hg, if_neg a, if_neg b]
  have hpc : lt (g c) (g p) = false := ho.asymm hlt
  constructor
  · intro i hi hic
    by_cases hip : i = p
    · subst hip
      constructor
      · intro hn
        rw [gp]
        by_cases e : 2 * i + 1 = c
        · rw [e, gc]; exact hpc
        · rw [go _ e (by omega)]; exact hbig.1 hn
      · intro hn
        rw [gp]
        by_cases e : 2 * i + 2 = c
        · rw [e, gc]; exact hpc
        · rw [go _ e (by omega)]; exact hbig.2 hn
    · have ok := h1 i hi hip
      rw [NodeOk, go i hic hip]
      constructor
      · intro hn
        by_cases e : 2 * i + 1 = p
        · rw [e, gp]
          have := h2 i hi (Or.inl e)
          rcases hc with rfl | rfl
          · exact this.1 hcn
          · exact this.2 hcn
        · rw [go _ (by omega) e]; exact ok.1 hn
      · intro hn
        by_cases e : 2 * i + 2 = p
        · rw [e, gp]
          have := h2 i hi (Or.inr e)
          rcases hc with rfl | rfl
          · exact this.1 hcn
          · exact this.2 hcn
        · rw [go _ (by omega) e]; exact ok.2 hn
  · intro i hi hic
    have hip : i = p := by omega
    subst hip
    rw [gp]
    have ok := h1 c (by omega) hcp
    constructor
    · intro hn; rw [go _ (by omega) (by omega)]; exact ok.1 hn
    · intro hn; rw [go _ (by omega) (by omega)]; exact ok.2 hn

theorem largerChild_spec (d : α) {lt : α → α → Bool} (ho : IsOrder lt) (n p : Nat) (a : List α) (hn : n ≤ a.length)
    (hl : ¬ 2 * p + 1 ≥ n) :
    ∃ c, largerChild lt n p a = .ok c ∧
      ((c = p ∧ NodeOk lt (fun t => a.getD t d) n p) ∨
       ((c = 2 * p + 1 ∨ c = 2 * p + 2) ∧ c < n ∧ lt (a.getD p d) (a.getD c d) = true ∧
         (2 * p + 1 < n → lt (a.getD c d) (a.getD (2 * p + 1) d) = false) ∧
         (2 * p + 2 < n → lt (a.getD c d) (a.getD (2 * p + 2) d) = false))) := by
  unfold largerChild
  simp only []
  rw [readAt_getD d (show p < a.length by omega), readAt_getD d (show 2 * p + 1 < a.length by omega)]
  simp only [bind, Except.bind]
  by_cases h1 : lt (a.getD p d) (a.getD (2 * p + 1) d) = true
  · rw [if_pos h1]
    by_cases h2 : 2 * p + 2 < n
    · rw [if_pos h2, readAt_getD d (show 2 * p + 1 < a.length by omega),
        readAt_getD d (show 2 * p + 2 < a.length by omega)]
      simp only []
      by_cases h3 : lt (a.getD (2 * p + 1) d) (a.getD (2 * p + 2) d) = true
      · rw [if_pos h3]
        exact ⟨2 * p + 2, rfl, Or.inr ⟨Or.inr rfl, h2, ho.trans _ _ _ h1 h3, fun _ => ho.asymm h3,
          fun _ => ho.irrefl _⟩⟩
      · rw [if_neg h3]
        exact ⟨2 * p + 1, rfl, Or.inr ⟨Or.inl rfl, by omega, h1, fun _ => ho.irrefl _,
          fun _ => by simpa using h3⟩⟩
    · rw [if_neg h2]
      exact ⟨2 * p + 1, rfl, Or.inr ⟨Or.inl rfl, by omega, h1, fun _ => ho.irrefl _, fun h => absurd h h2⟩⟩
  · rw [if_neg h1]
    have h1' : lt (a.getD p d) (a.getD (2 * p + 1) d) = false := by simpa using h1
    by_cases h2 : 2 * p + 2 < n
    · rw [if_pos h2, readAt_getD d (show p < a.length by omega),
        readAt_getD d (show 2 * p + 2 < a.length by omega)]
      simp only []
      by_cases h3 : lt (a.getD p d) (a.getD (2 * p + 2) d) = true
      · rw [if_pos h3]
        exact ⟨2 * p + 2, rfl, Or.inr ⟨Or.inr rfl, h2, h3,
          fun _ => ho.le_trans h1' (ho.asymm h3), fun _ => ho.irrefl _⟩⟩
      · rw [if_neg h3]
        exact ⟨p, rfl, Or.inl ⟨rfl, fun _ => h1', fun _ => by simpa using h3⟩⟩
    · rw [if_neg h2]
      exact ⟨p, rfl, Or.inl ⟨rfl, fun _ => h1', fun h => absurd h h2⟩⟩

theorem siftDownLoop_spec (d : α) {lt : α → α → Bool} (ho : IsOrder lt) (n s : Nat) :
    ∀ fuel p (a : List α), n ≤ a.length → s ≤ p → n < p + fuel ∧ 0 < fuel →
      HeapExcept lt (fun t => a.getD t d) n s p →
      ∃ a', siftDownLoop lt n fuel p a = .ok a' ∧ a'.length = a.length ∧ a'.Perm a ∧
        (∀ t, n ≤ t → a'.getD t d = a.getD t d) ∧ HeapFrom lt (fun t => a'.getD t d) n s := by
  intro fuel
  induction fuel with
  | zero =>
    intro p a hn hs hf he
    omega
  | succ fuel ih =>
    intro p a hn hs hf he
    unfold siftDownLoop
    by_cases hp : p < n
    · rw [if_pos hp]
      by_cases hl : 2 * p + 1 ≥ n
      · rw [if_pos hl]
        refine ⟨a, rfl, rfl, List.Perm.refl _, fun _ _ => rfl, ?_⟩
        intro i hi
        by_cases e : i = p
        · subst e; exact ⟨fun h => by omega, fun h => by omega⟩
        · exact he.1 i hi e
      · rw [if_neg hl]
        obtain ⟨c, hc, hcase⟩ := largerChild_spec d ho n p a hn hl
        rw [hc]
        simp only [bind, Except.bind]
        rcases hcase with ⟨rfl, hok⟩ | ⟨hcc, hcn, hlt, hbig⟩
        · rw [if_pos rfl]
          refine ⟨a, rfl, rfl, List.Perm.refl _, fun _ _ => rfl, ?_⟩
          intro i hi
          by_cases e : i = c
          · subst e; exact hok
          · exact he.1 i hi e
        · rw [if_neg (show ¬ c = p by omega)]
          obtain ⟨a1, hs1, hl1, hp1, hg1⟩ := swapAt_spec d a p c (by omega) (by omega)
          rw [hs1]
          simp only []
          have hstep := heapExcept_step ho (fun t => a.getD t d) (fun t => a1.getD t d) n s p c hs he hcc hcn hlt hbig hg1
          obtain ⟨a', h1, h2, h3, h4, h5⟩ := ih c a1 (by omega) (by omega) (by omega) hstep
          refine ⟨a', h1, by omega, h3.trans hp1, ?_, h5⟩
          intro t ht
          rw [h4 t ht, hg1, if_neg (by omega), if_neg (by omega)]
    · rw [if_neg hp]
      refine ⟨a, rfl, rfl, List.Perm.refl _, fun _ _ => rfl, ?_⟩
      intro i hi
      by_cases e : i = p
      · subst e; exact ⟨fun h => by omega, fun h => by omega⟩
      · exact he.1 i hi e

theorem siftDown_spec (d : α) {lt : α → α → Bool} (ho : IsOrder lt) (n s : Nat) (a : List α) (hn : n ≤ a.length)
    (he : HeapFrom lt (fun t => a.getD t d) n (s + 1)) :
    ∃ a', siftDown lt a n s = .ok a' ∧ a'.length = a.length ∧ a'.Perm a ∧
      (∀ t, n ≤ t → a'.getD t d = a.getD t d) ∧ HeapFrom lt (fun t => a'.getD t d) n s := by
  apply siftDownLoop_spec d ho n s (n + 1) s a hn (Nat.le_refl _) (by omega)
  exact ⟨fun i h1 h2 => he i (by omega), fun i h1 h2 => by omega⟩

theorem buildHeap_spec (d : α) {lt : α → α → Bool} (ho : IsOrder lt) (n : Nat) :
    ∀ i (a : List α), n ≤ a.length → HeapFrom lt (fun t => a.getD t d) n (i + 1) →
      ∃ a', buildHeap lt n i a = .ok a' ∧ a'.length = a.length ∧ a'.Perm a ∧
        (∀ t, n ≤ t → a'.getD t d = a.getD t d) ∧ HeapFrom lt (fun t => a'.getD t d) n 0 := by
  intro i
  induction i with
  | zero => intro a hn he; exact siftDown_spec d ho n 0 a hn he
  | succ i ih =>
    intro a hn he
    obtain ⟨a1, h1, h2, h3, h4, h5⟩ := siftDown_spec d ho n (i + 1) a hn he
    unfold buildHeap
    rw [h1]
    simp only [bind, Except.bind]
    obtain ⟨a', g1, g2, g3, g4, g5⟩ := ih a1 (by omega) h5
    exact ⟨a', g1, by omega, g3.trans h3, fun t ht => by rw [g4 t ht, h4 t ht], g5⟩

/-- The root of a heap is not before any other key. -/
theorem heap_root {lt : α → α → Bool} (ho : IsOrder lt) (g : Nat → α) (n : Nat) (h : HeapFrom lt g n 0) :
    ∀ j, j < n → lt (g 0) (g j) = false := by
  intro j
  induction j using Nat.strongRecOn with
  | ind j ih =>
    intro hj
    by_cases hz : j = 0
    · subst hz; exact ho.irrefl _
    · have hp := ih ((j - 1) / 2) (by omega) (by omega)
      have hn := h ((j - 1) / 2) (by omega)
      have : 2 * ((j - 1) / 2) + 1 = j ∨ 2 * ((j - 1) / 2) + 2 = j := by omega
      rcases this with e | e
      · have := hn.1 (by omega); rw [e] at this
        exact ho.le_trans this hp
      · have := hn.2 (by omega); rw [e] at this
        exact ho.le_trans this hp

/-- Lists equal beyond `n` and permutations of each other have prefixes that are permutations. -/
theorem take_perm (d : α) {a b : List α} {n : Nat} (hl : a.length = b.length) (hp : a.Perm b)
    (h : ∀ t, n ≤ t → a.getD t d = b.getD t d) : (a.take n).Perm (b.take n) ∧ a.drop n = b.drop n := by
  have hd : a.drop n = b.drop n := by
    apply List.ext_getElem
    · simp [hl]
    · intro i h1 h2
      have := h (n + i) (by omega)
      simp only [List.length_drop] at h1 h2
      simp only [List.getD_eq_getElem?_getD, List.getElem?_eq_getElem (show n + i < a.length by omega),
        List.getElem?_eq_getElem (show n + i < b.length by omega), Option.getD_some] at this
      simpa using this
  refine ⟨?_, hd⟩
  have : (a.take n ++ a.drop n).Perm (b.take n ++ b.drop n) := by simpa using hp
  rw [hd] at this
  exact (List.perm_append_right_iff _).mp this

theorem mem_take_getD (d : α) {a : List α} {n : Nat} {x : α} (hx : x ∈ a.take n) : ∃ t, t < n ∧ t < a.length ∧ a.getD t d = x := by
  rw [List.mem_take_iff_getElem] at hx
  obtain ⟨t, h1, h2⟩ := hx
  have ht : t < n ∧ t < a.length := by omega
  exact ⟨t, ht.1, ht.2, by simp [List.getD_eq_getElem?_getD, ht.2, h2]⟩

theorem getD_mem_take (d : α) {a : List α} {n t : Nat} (h1 : t < n) (h2 : t < a.length) : a.getD t d ∈ a.take n := by
  rw [List.mem_take_iff_getElem]
  exact ⟨t, by omega, by simp [List.getD_eq_getElem?_getD, h2]⟩

/-- Sortedness in terms of positions. -/
theorem sorted_iff (d : α) (lt : α → α → Bool) (l : List α) :
    Sorted lt l ↔ ∀ i j, i < j → j < l.length → lt (l.getD j d) (l.getD i d) = false := by
  unfold Sorted
  rw [List.pairwise_iff_getElem]
  constructor
  · intro h i j hij hj
    have := h i j (by omega) hj hij
    simp only [List.getD_eq_getElem?_getD, List.getElem?_eq_getElem hj,
      List.getElem?_eq_getElem (show i < l.length by omega), Option.getD_some]
    exact this
  · intro h i j hi hj hij
    have := h i j hij hj
    simp only [List.getD_eq_getElem?_getD, List.getElem?_eq_getElem hj,
      List.getElem?_eq_getElem hi, Option.getD_some] at this
    exact this

/-- Pop loop: `a[0..i]` is a heap, everything behind it is sorted and not before it. -/
theorem popHeap_spec (d : α) {lt : α → α → Bool} (ho : IsOrder lt) (num : Nat) :
    ∀ i (a : List α), i < num → num ≤ a.length → HeapFrom lt (fun t => a.getD t d) (i + 1) 0 →
      (∀ s t, s < t → i < t → t < num → lt (a.getD t d) (a.getD s d) = false) →
      ∃ a', popHeap lt i a = .ok a' ∧ a'.length = a.length ∧ a'.Perm a ∧
        (∀ t, num ≤ t → a'.getD t d = a.getD t d) ∧
        (∀ s t, s < t → t < num → lt (a'.getD t d) (a'.getD s d) = false) := by
  intro i
  induction i with
  | zero =>
    intro a hi hn hh hs
    exact ⟨a, rfl, rfl, List.Perm.refl _, fun _ _ => rfl, fun s t h1 h2 => hs s t h1 (by omega) h2⟩
  | succ i ih =>
    intro a hi hn hh hs
    unfold popHeap
    obtain ⟨a1, e1, l1, p1, g1⟩ := swapAt_spec d a 0 (i + 1) (by omega) (by omega)
    rw [e1]
    simp only [bind, Except.bind]
    have hroot := heap_root ho _ _ hh
    have hh1 : HeapFrom lt (fun t => a1.getD t d) (i + 1) 1 := by
      intro j hj
      have := hh j (by omega)
      constructor
      · intro h
        simp only [g1]
        rw [if_neg (by omega), if_neg (by omega), if_neg (by omega), if_neg (by omega)]
        exact this.1 (by omega)
      · intro h
        simp only [g1]
        rw [if_neg (by omega), if_neg (by omega), if_neg (by omega), if_neg (by omega)]
        exact this.2 (by omega)
    obtain ⟨a2, e2, l2, p2, f2, h2⟩ := siftDown_spec d ho (i + 1) 0 a1 (by omega) hh1
    rw [e2]
    simp only []
    obtain ⟨hperm, _⟩ := take_perm d l2 p2 f2
    obtain ⟨a3, e3, l3, p3, f3, h3⟩ := ih a2 (by omega) (by omega) h2 (by
      intro s t hst hit ht
      rw [f2 t (by omega)]
      -- value at s, before sifting
      obtain ⟨s', hs'⟩ : ∃ s', s' < t ∧ a2.getD s d = a1.getD s' d := by
        by_cases hsi : s < i + 1
        · have hm := getD_mem_take d hsi (show s < a2.length by omega)
          rw [hperm.mem_iff] at hm
          obtain ⟨s', q1, q2, q3⟩ := mem_take_getD d hm
          exact ⟨s', by omega, q3.symm⟩
        · exact ⟨s, hst, f2 s (by omega)⟩
      rw [hs'.2]
      by_cases ht1 : t = i + 1
      · subst ht1
        rw [g1, if_pos rfl, g1, if_neg (by omega)]
        by_cases h0 : s' = 0
        · rw [if_pos h0]; exact hroot _ (by omega)
        · rw [if_neg h0]; exact hroot _ (by omega)
      · rw [g1 t, if_neg ht1, if_neg (by omega), g1]
        by_cases q : s' = i + 1
        · rw [if_pos q]; exact hs 0 t (by omega) (by omega) ht
        · rw [if_neg q]
          by_cases q0 : s' = 0
          · rw [if_pos q0]; exact hs (i + 1) t (by omega) (by omega) ht
          · rw [if_neg q0]; exact hs s' t (by omega) (by omega) ht)
    refine ⟨a3, e3, by omega, p3.trans (p2.trans p1), ?_, h3⟩
    intro t ht
    rw [f3 t ht, f2 t (by omega), g1, if_neg (by omega), if_neg (by omega)]

theorem dec64_pos {n : Nat} (h1 : 1 ≤ n) (h2 : n < 2 ^ 64) : dec64 n = n - 1 := by
  unfold dec64
  rw [show n + 2 ^ 64 - 1 = (n - 1) + 2 ^ 64 by omega, Nat.add_mod_right, Nat.mod_eq_of_lt (by omega)]

theorem heapFrom_leaves (lt : α → α → Bool) (g : Nat → α) (n : Nat) : HeapFrom lt g n ((n - 1) / 2 + 1) := by
  intro i hi
  exact ⟨fun h => by omega, fun h => by omega⟩

/-- **C21** `HeapSort(keys, num)` with `1 <= num`: touches nothing outside `keys[0, num)`, leaves a sorted
permutation there. -/
theorem C21_heapSort {lt : α → α → Bool} (ho : IsOrder lt) (a : List α) (num : Nat) (h1 : 1 ≤ num)
    (hn : num ≤ a.length) (h64 : a.length < 2 ^ 64) :
    ∃ a', heapSort lt a num = .ok a' ∧ (a'.take num).Perm (a.take num) ∧ Sorted lt (a'.take num) ∧
      a'.drop num = a.drop num := by
  obtain ⟨d⟩ : Nonempty α := ⟨a[0]'(by omega)⟩
  unfold heapSort
  by_cases e1 : num = 1
  · rw [if_pos e1]
    refine ⟨a, rfl, List.Perm.refl _, ?_, rfl⟩
    rw [sorted_iff d]
    intro i j hij hj
    simp only [List.length_take] at hj; omega
  · rw [if_neg e1, dec64_pos h1 (by omega)]
    obtain ⟨a1, b1, b2, b3, b4, b5⟩ := buildHeap_spec d ho num ((num - 1) / 2) a hn (heapFrom_leaves _ _ _)
    rw [b1]
    simp only [bind, Except.bind]
    obtain ⟨a2, c1, c2, c3, c4, c5⟩ := popHeap_spec d ho num (num - 1) a1 (by omega) (by omega)
      (by rw [show num - 1 + 1 = num by omega]; exact b5) (fun s t h1 h2 h3 => by omega)
    obtain ⟨q1, q2⟩ := take_perm d (show a2.length = a.length by omega) (c3.trans b3)
      (fun t ht => by rw [c4 t ht, b4 t ht])
    refine ⟨a2, c1, q1, ?_, q2⟩
    rw [sorted_iff d]
    intro i j hij hj
    simp only [List.length_take] at hj
    have := c5 i j hij (by omega)
    simpa [List.getD_eq_getElem?_getD, List.getElem?_take, show i < num by omega, show j < num by omega] using this

theorem siftDown_zero (lt : α → α → Bool) (a : List α) (s : Nat) : siftDown lt a 0 s = .ok a := by
  simp [siftDown, siftDownLoop]

theorem buildHeap_zero (lt : α → α → Bool) (a : List α) : ∀ i, buildHeap lt 0 i a = .ok a := by
  intro i
  induction i with
  | zero => exact siftDown_zero lt a 0
  | succ i ih =>
    unfold buildHeap
    rw [siftDown_zero]
    exact ih

theorem ok_bind {β γ : Type} (x : β) (f : β → M γ) : ((Except.ok x : M β) >>= f) = f x := rfl

theorem popHeap_ub (lt : α → α → Bool) (a : List α) (n : Nat) (h : a.length ≤ n + 1) :
    popHeap lt (n + 1) a = .error .ub := by
  unfold popHeap swapAt
  simp only [bind, Except.bind]
  cases h0 : readAt a 0 with
  | error e =>
    have : e = .ub := by
      unfold readAt at h0
      split at h0 <;> simp_all
    rw [this]
  | ok x =>
    simp only []
    rw [readAt_of_ge (by omega)]

/-- **C21, code defect**: `HeapSort` of an empty array is not a no-op. `num_lanes - N1` wraps and the second loop
starts by swapping `lanes[0]` with `lanes[SIZE_MAX]`: undefined behaviour for every array. -/
theorem C21_heapSort_empty (lt : α → α → Bool) (a : List α) (h64 : a.length < 2 ^ 64) :
    heapSort lt a 0 = .error .ub := by
  have hx : a.length ≤ dec64 0 := by
    have : dec64 0 = 2 ^ 64 - 1 := by decide
    omega
  have hpos : 1 ≤ dec64 0 := by decide
  rw [heapSort]
  generalize dec64 0 = x at *
  rw [if_neg (by decide), buildHeap_zero, ok_bind]
  obtain ⟨m, rfl⟩ : ∃ m, x = m + 1 := ⟨x - 1, by omega⟩
  exact popHeap_ub lt a m hx

/-! ### HeapSelect -/

/-- Loop: `a[0, k)` is a heap and no key in `[k, i)` comes before the root. -/
theorem selectLoop_spec (d : α) {lt : α → α → Bool} (ho : IsOrder lt) (k : Nat) (hk : 1 ≤ k) :
    ∀ todo i (a : List α), k ≤ i → i + todo ≤ a.length → HeapFrom lt (fun t => a.getD t d) k 0 →
      (∀ t, k ≤ t → t < i → lt (a.getD t d) (a.getD 0 d) = false) →
      ∃ a', selectLoop lt k todo i a = .ok a' ∧ a'.length = a.length ∧ a'.Perm a ∧
        (∀ t, i + todo ≤ t → a'.getD t d = a.getD t d) ∧ HeapFrom lt (fun t => a'.getD t d) k 0 ∧
        (∀ t, k ≤ t → t < i + todo → lt (a'.getD t d) (a'.getD 0 d) = false) := by
  intro todo
  induction todo with
  | zero =>
    intro i a hi hl hh hs
    exact ⟨a, rfl, rfl, List.Perm.refl _, fun _ _ => rfl, hh, hs⟩
  | succ todo ih =>
    intro i a hi hl hh hs
    unfold selectLoop
    rw [readAt_getD d (show i < a.length by omega), readAt_getD d (show 0 < a.length by omega)]
    simp only [bind, Except.bind]
    by_cases hlt : lt (a.getD i d) (a.getD 0 d) = true
    · rw [if_pos hlt]
      obtain ⟨a1, e1, l1, p1, g1⟩ := swapAt_spec d a 0 i (by omega) (by omega)
      rw [e1]
      simp only []
      have hh1 : HeapFrom lt (fun t => a1.getD t d) k 1 := by
        intro j hj
        have := hh j (by omega)
        constructor
        · intro h
          simp only [g1]
          rw [if_neg (by omega), if_neg (by omega), if_neg (by omega), if_neg (by omega)]
          exact this.1 (by omega)
        · intro h
          simp only [g1]
          rw [if_neg (by omega), if_neg (by omega), if_neg (by omega), if_neg (by omega)]
          exact this.2 (by omega)
      obtain ⟨a2, e2, l2, p2, f2, h2⟩ := siftDown_spec d ho k 0 a1 (by omega) hh1
      rw [e2]
      simp only []
      obtain ⟨hperm, _⟩ := take_perm d l2 p2 f2
      -- the new root is not after the old one
      have hroot : lt (a.getD 0 d) (a2.getD 0 d) = false := by
        have hm := getD_mem_take d (show 0 < k by omega) (show 0 < a2.length by omega)
        rw [hperm.mem_iff] at hm
        obtain ⟨s', q1, q2, q3⟩ := mem_take_getD d hm
        rw [← q3, g1, if_neg (by omega)]
        by_cases h0 : s' = 0
        · rw [if_pos h0]; exact ho.asymm hlt
        · rw [if_neg h0]; exact heap_root ho _ _ hh s' q1
      obtain ⟨a3, e3, l3, p3, f3, h3, s3⟩ := ih (i + 1) a2 (by omega) (by omega) h2 (by
        intro t h1 h2'
        rw [f2 t h1, g1]
        by_cases ht : t = i
        · rw [if_pos ht]; exact hroot
        · rw [if_neg ht, if_neg (by omega)]
          exact ho.le_trans hroot (hs t h1 (by omega)))
      refine ⟨a3, e3, by omega, p3.trans (p2.trans p1), ?_, h3, fun t h1 h2 => s3 t h1 (by omega)⟩
      intro t ht
      rw [f3 t (by omega), f2 t (by omega), g1, if_neg (by omega), if_neg (by omega)]
    · rw [if_neg hlt]
      obtain ⟨a3, e3, l3, p3, f3, h3, s3⟩ := ih (i + 1) a (by omega) (by omega) hh (by
        intro t h1 h2
        by_cases ht : t = i
        · rw [ht]; simpa using hlt
        · exact hs t h1 (by omega))
      exact ⟨a3, e3, l3, p3, fun t ht => f3 t (by omega), h3, fun t h1 h2 => s3 t h1 (by omega)⟩

theorem heapSelect_pos (d : α) {lt : α → α → Bool} (ho : IsOrder lt) (a : List α) (num k : Nat) (hk : k < num)
    (hn : num ≤ a.length) :
    ∃ a', heapSelect lt a num k = .ok a' ∧ a'.length = a.length ∧ a'.Perm a ∧
      (∀ t, num ≤ t → a'.getD t d = a.getD t d) ∧
      (∀ t, t < k → lt (a'.getD k d) (a'.getD t d) = false) ∧
      (∀ t, k < t → t < num → lt (a'.getD t d) (a'.getD k d) = false) := by
  unfold heapSelect
  simp only []
  by_cases e1 : num = 1
  · rw [if_pos e1]
    exact ⟨a, rfl, rfl, List.Perm.refl _, fun _ _ => rfl, fun t h => by omega, fun t h1 h2 => by omega⟩
  · rw [if_neg e1]
    obtain ⟨a1, b1, b2, b3, b4, b5⟩ := buildHeap_spec d ho (k + 1) ((k + 1 - 1) / 2) a (by omega) (heapFrom_leaves _ _ _)
    rw [b1]
    simp only [bind, Except.bind]
    obtain ⟨a2, c1, c2, c3, c4, c5, c6⟩ := selectLoop_spec d ho (k + 1) (by omega) (num - (k + 1)) (k + 1) a1
      (by omega) (by omega) b5 (fun t h1 h2 => by omega)
    rw [c1]
    simp only []
    obtain ⟨a3, e3, l3, p3, g3⟩ := swapAt_spec d a2 0 k (by omega) (by omega)
    rw [show k + 1 - 1 = k by omega, e3]
    have hroot := heap_root ho _ _ c5
    have hk3 : a3.getD k d = a2.getD 0 d := by rw [g3, if_pos rfl]
    refine ⟨a3, rfl, by omega, p3.trans (c3.trans b3), ?_, ?_, ?_⟩
    · intro t ht
      rw [g3, if_neg (by omega), if_neg (by omega), c4 t (by omega), b4 t (by omega)]
    · intro t ht
      rw [hk3, g3, if_neg (by omega)]
      by_cases h0 : t = 0
      · rw [if_pos h0]; exact hroot k (by omega)
      · rw [if_neg h0]; exact hroot t (by omega)
    · intro t h1 h2
      rw [hk3, g3, if_neg (by omega), if_neg (by omega)]
      exact c6 t (by omega) (by omega)

/-- `Selected` in terms of positions. -/
theorem selected_of (d : α) (lt : α → α → Bool) (l : List α) (k : Nat) (hk : k < l.length)
    (h1 : ∀ t, t < k → lt (l.getD k d) (l.getD t d) = false)
    (h2 : ∀ t, k < t → t < l.length → lt (l.getD t d) (l.getD k d) = false) : Selected lt l k := by
  refine ⟨l.getD k d, by simp [List.getD_eq_getElem?_getD, hk], ?_, ?_⟩
  · intro y hy
    obtain ⟨t, q1, q2, q3⟩ := mem_take_getD d hy
    rw [← q3]; exact h1 t q1
  · intro y hy
    rw [List.mem_drop_iff_getElem] at hy
    obtain ⟨t, q1, q2⟩ := hy
    have := h2 (k + 1 + t) (by omega) (by omega)
    simp only [List.getD_eq_getElem?_getD, List.getElem?_eq_getElem (show k + 1 + t < l.length by omega),
      Option.getD_some, List.getElem?_eq_getElem hk] at this ⊢
    rw [← q2]; exact this

/-- **C22 (HeapSelect)** for `k < num`: permutation, `keys[k]` selected, nothing outside `keys[0, num)` touched. -/
theorem C22_heapSelect {lt : α → α → Bool} (ho : IsOrder lt) (a : List α) (num k : Nat) (hk : k < num)
    (hn : num ≤ a.length) :
    ∃ a', heapSelect lt a num k = .ok a' ∧ (a'.take num).Perm (a.take num) ∧ Selected lt (a'.take num) k ∧
      a'.drop num = a.drop num := by
  obtain ⟨d⟩ : Nonempty α := ⟨a[0]'(by omega)⟩
  obtain ⟨a', h1, h2, h3, h4, h5, h6⟩ := heapSelect_pos d ho a num k hk hn
  obtain ⟨q1, q2⟩ := take_perm d h2 h3 h4
  refine ⟨a', h1, q1, ?_, q2⟩
  have e : ∀ t, t < num → (a'.take num).getD t d = a'.getD t d := by
    intro t ht
    simp [List.getD_eq_getElem?_getD, List.getElem?_take, ht]
  have hlen : (a'.take num).length = num := by simp; omega
  apply selected_of d lt _ k (by omega)
  · intro t ht
    rw [e k hk, e t (by omega)]; exact h5 t ht
  · intro t h1 h2
    rw [e k hk, e t (by omega)]; exact h6 t h1 (by omega)

/-- **C23 (HeapPartialSort)** for `1 <= k < num`. -/
theorem C23_heapPartialSort {lt : α → α → Bool} (ho : IsOrder lt) (a : List α) (num k : Nat) (h1 : 1 ≤ k) (hk : k < num)
    (hn : num ≤ a.length) (h64 : a.length < 2 ^ 64) :
    ∃ a', heapPartialSort lt a num k = .ok a' ∧ (a'.take num).Perm (a.take num) ∧
      PartiallySorted lt (a'.take num) k ∧ a'.drop num = a.drop num := by
  obtain ⟨d⟩ : Nonempty α := ⟨a[0]'(by omega)⟩
  obtain ⟨a1, b1, b2, b3, b4, b5, b6⟩ := heapSelect_pos d ho a num k hk hn
  obtain ⟨q1, q2⟩ := take_perm d b2 b3 b4
  obtain ⟨a2, c1, c2, c3, c4⟩ := C21_heapSort ho a1 k h1 (by omega) (by omega)
  unfold heapPartialSort
  rw [b1]
  refine ⟨a2, c1, ?_, ⟨?_, ?_⟩, ?_⟩
  · have e2 : a2.take num = a2.take k ++ (a2.drop k).take (num - k) := by
      conv => lhs; rw [show num = k + (num - k) by omega, List.take_add]
    have e1 : a1.take num = a1.take k ++ (a1.drop k).take (num - k) := by
      conv => lhs; rw [show num = k + (num - k) by omega, List.take_add]
    rw [e2, c4]
    refine (List.Perm.append_right _ c2).trans ?_
    rw [← e1]; exact q1
  · rw [List.take_take, Nat.min_eq_left (by omega)]; exact c3
  · intro x hx y hy
    rw [List.take_take, Nat.min_eq_left (by omega), c2.mem_iff] at hx
    rw [List.drop_take, c4, ← List.drop_take] at hy
    obtain ⟨s, s1, s2, s3⟩ := mem_take_getD d hx
    rw [List.mem_drop_iff_getElem] at hy
    obtain ⟨t, t1, t2⟩ := hy
    simp only [List.length_take] at t1
    have t3 : a1.getD (k + t) d = y := by
      rw [← t2]; simp [List.getD_eq_getElem?_getD, show k + t < a1.length by omega]
    rw [← s3, ← t3]
    have hxk := b5 s s1
    by_cases e : t = 0
    · subst e; exact hxk
    · exact ho.le_trans hxk (b6 (k + t) (by omega) (by omega))
  · have e2 : a2.drop num = (a2.drop k).drop (num - k) := by rw [List.drop_drop]; congr 1; omega
    have e1 : a1.drop num = (a1.drop k).drop (num - k) := by rw [List.drop_drop]; congr 1; omega
    rw [e2, c4, ← e1, q2]

/-- **C23, code defect**: `HeapPartialSort` with `k = 0` (allowed by the assertion `k <= num`) ends in
`HeapSort(keys, 0)`, undefined behaviour. -/
theorem C23_heapPartialSort_zero {lt : α → α → Bool} (ho : IsOrder lt) (a : List α) (num : Nat) (h1 : 1 ≤ num)
    (hn : num ≤ a.length) (h64 : a.length < 2 ^ 64) :
    heapPartialSort lt a num 0 = .error .ub := by
  obtain ⟨d⟩ : Nonempty α := ⟨a[0]'(by omega)⟩
  obtain ⟨a1, b1, b2, _⟩ := heapSelect_pos d ho a num 0 (by omega) hn
  rw [heapPartialSort, b1, ok_bind]
  rw [C21_heapSort_empty lt a1 (by omega)]

/-- **C23, code defect**: `HeapPartialSort` with `k = num >= 2` on an array of exactly `num` keys builds a heap of
`num + 1` keys and reads past the end. -/
theorem C23_heapPartialSort_all {lt : α → α → Bool} (ho : IsOrder lt) (a : List α) (h2 : 2 ≤ a.length) :
    heapPartialSort lt a a.length a.length = .error .ub := by
  obtain ⟨d⟩ : Nonempty α := ⟨a[0]'(by omega)⟩
  have odd : ∀ (b : List α) (i : Nat), b.length = a.length → 2 * i + 1 = a.length →
      siftDown lt b (a.length + 1) i = .error .ub := by
    intro b i hb hi
    unfold siftDown siftDownLoop
    rw [if_pos (show i < a.length + 1 by omega), if_neg (show ¬ 2 * i + 1 ≥ a.length + 1 by omega)]
    unfold largerChild
    simp only []
    rw [readAt_getD d (show i < b.length by omega),
      readAt_of_ge (show b.length ≤ 2 * i + 1 by omega)]
    rfl
  have even : ∀ (b : List α) (i : Nat), b.length = a.length → 2 * i + 2 = a.length →
      siftDown lt b (a.length + 1) i = .error .ub := by
    intro b i hb hi
    unfold siftDown siftDownLoop
    rw [if_pos (show i < a.length + 1 by omega), if_neg (show ¬ 2 * i + 1 ≥ a.length + 1 by omega)]
    unfold largerChild
    simp only []
    rw [readAt_getD d (show i < b.length by omega),
      readAt_getD d (show 2 * i + 1 < b.length by omega)]
    simp only [bind, Except.bind]
    rw [if_pos (show 2 * i + 2 < a.length + 1 by omega)]
    have : readAt b (if lt (b.getD i d) (b.getD (2 * i + 1) d) = true then 2 * i + 1 else i) =
        .ok (b.getD (if lt (b.getD i d) (b.getD (2 * i + 1) d) = true then 2 * i + 1 else i) d) := by
      apply readAt_getD
      split <;> omega
    rw [this]
    simp only []
    rw [readAt_of_ge (show b.length ≤ 2 * i + 2 by omega)]
  have hb : buildHeap lt (a.length + 1) ((a.length + 1 - 1) / 2) a = .error .ub := by
    have hpar : a.length % 2 = 1 ∨ a.length % 2 = 0 := by omega
    rcases hpar with hpar | hpar
    · cases hi : (a.length + 1 - 1) / 2 with
      | zero => unfold buildHeap; exact odd a 0 rfl (by omega)
      | succ i =>
        unfold buildHeap
        rw [odd a (i + 1) rfl (by omega)]
        rfl
    · cases hi : (a.length + 1 - 1) / 2 with
      | zero => omega
      | succ i =>
        unfold buildHeap
        -- the first call sees no child inside the (too large) heap
        have h0 : siftDown lt a (a.length + 1) (i + 1) = .ok a := by
          unfold siftDown siftDownLoop
          rw [if_pos (show i + 1 < a.length + 1 by omega)]
          rw [if_pos (show 2 * (i + 1) + 1 ≥ a.length + 1 by omega)]
        rw [h0]
        simp only [bind, Except.bind]
        cases i with
        | zero => unfold buildHeap; exact even a 0 rfl (by omega)
        | succ j =>
          unfold buildHeap
          rw [even a (j + 1) rfl (by omega)]
          rfl
  unfold heapPartialSort heapSelect
  simp only []
  rw [if_neg (by omega), hb]
  rfl

/-! Non-vacuity -/

theorem natOrder : IsOrder (fun a b : Nat => decide (a < b)) :=
  ⟨by simp, by simp; omega, by simp; omega⟩

example : heapSort (fun a b : Nat => decide (a < b)) [3, 1, 2, 3, 0, 9] 5 = .ok [0, 1, 2, 3, 3, 9] := rfl
example : heapSelect (fun a b : Nat => decide (a < b)) [3, 1, 2, 3, 0, 9] 6 2 = .ok [0, 1, 2, 3, 3, 9] := rfl

end VQ
end Hwy
