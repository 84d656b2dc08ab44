import Verif.Algo

/-! # C27, C28, C29: the `algo` functions equal the obvious scalar loops, for every count and vector
length, touching only `[0, count)` -/

namespace Hwy
namespace Algo
open Vec

variable {α : Type}

/-! ### List bookkeeping -/

theorem take_add' (l : List α) (i n : Nat) : l.take (i + n) = l.take i ++ (l.drop i).take n := by
  rw [List.take_add]

/-- Storing `v` at the boundary between a finished prefix and the untouched rest. -/
theorem storeU_prefix (p v a : List α) (i : Nat) (hp : p.length = i) (h : i + v.length ≤ a.length) :
    storeU v (p ++ a.drop i) i = .ok ((p ++ v) ++ a.drop (i + v.length)) := by
  rw [storeU_ok _ _ _ (by simp; omega)]
  subst hp
  simp [List.drop_append, List.append_assoc, List.drop_drop]

theorem loadU_prefix (N : Nat) (p a : List α) (i : Nat) (hp : p.length = i) (h : i + N ≤ a.length) :
    loadU N (p ++ a.drop i) i = .ok ((a.drop i).take N) := by
  rw [loadU_ok _ _ _ (by simp; omega)]
  subst hp
  simp

theorem loadN_ok (N : Nat) (zero : α) (p a : List α) (i rem : Nat) (hp : p.length = i)
    (hr : rem ≤ N) (h : i + rem ≤ a.length) :
    loadN N zero (p ++ a.drop i) i rem = .ok ((a.drop i).take rem ++ List.replicate (N - rem) zero) := by
  unfold loadN
  rw [Nat.min_eq_left hr, if_pos (by simp; omega)]
  subst hp
  simp

theorem len_take_drop (a : List α) (i n : Nat) (h : i + n ≤ a.length) : ((a.drop i).take n).length = n := by
  simp; omega

/-! ### C29: Fill, Copy, CopyIf -/

/-- **C29 (Fill).** `to[0, count)` becomes `value`, everything after is unchanged; nothing outside `to` is
touched (even if `to` has exactly `count` elements). -/
theorem C29_fill (N : Nat) (hN : 0 < N) (x : α) (count : Nat) (to : List α) (h : count ≤ to.length) :
    fill N x count to = .ok (List.replicate count x ++ to.drop count) := by
  obtain ⟨j, s, e, -, hj, hjN, rfl⟩ := blocks_spec N count hN
    (fun idx to => storeU (List.replicate N x) to idx)
    (fun i s => s = List.replicate i x ++ to.drop i)
    (by
      rintro i _ - hi rfl
      refine ⟨_, storeU_prefix _ _ _ _ (by simp) (by simp; omega), ?_⟩
      rw [List.replicate_append_replicate]; simp)
    (count + 1) 0 to (by simp) (by omega) (by omega) (by simp)
  unfold fill
  simp only [e, bind, Except.bind, pure, Except.pure]
  by_cases hc : j = count
  · rw [if_pos hc, hc]
  · rw [if_neg hc]
    unfold safeFillN
    rw [storeU_prefix _ _ _ _ (by simp) (by simp; omega), List.replicate_append_replicate]
    simp only [List.length_replicate]
    rw [show j + (count - j) = count by omega]

/-- **C29 (Copy).** -/
theorem C29_copy (N : Nat) (hN : 0 < N) (src : List α) (count : Nat) (to : List α)
    (h1 : count ≤ src.length) (h2 : count ≤ to.length) :
    copy N src count to = .ok (src.take count ++ to.drop count) := by
  obtain ⟨j, s, e, -, hj, hjN, rfl⟩ := blocks_spec N count hN
    (fun idx to => do
      let v ← loadU N src idx
      storeU v to idx)
    (fun i s => s = src.take i ++ to.drop i)
    (by
      rintro i _ - hi rfl
      have hl := len_take_drop src i N (by omega)
      simp only [loadU_ok _ _ _ (show i + N ≤ src.length by omega), bind, Except.bind]
      refine ⟨_, storeU_prefix _ _ _ _ (by simp; omega) (by rw [hl]; omega), ?_⟩
      rw [hl, take_add'])
    (count + 1) 0 to (by simp) (by omega) (by omega) (by simp)
  unfold copy
  simp only [bind, Except.bind, pure, Except.pure] at e ⊢
  rw [e]
  simp only
  by_cases hc : j = count
  · rw [if_pos hc, hc]
  · rw [if_neg hc]
    unfold safeCopyN
    have hl := len_take_drop src j (count - j) (by omega)
    simp only [loadU_ok _ _ _ (show j + (count - j) ≤ src.length by omega), bind, Except.bind]
    rw [storeU_prefix _ _ _ _ (by simp; omega) (by rw [hl]; omega), hl, ← take_add',
      show j + (count - j) = count by omega]

theorem select_map (v : List α) (p : α → Bool) : select v (v.map p) = v.filter p := by
  unfold select
  induction v with
  | nil => rfl
  | cons x v ih =>
    simp only [List.map_cons, List.zip_cons_cons, List.filter_cons]
    by_cases hx : p x = true
    · simp [hx, ih]
    · simp [hx, ih]

theorem cbs_ok (v : List α) (m : List Bool) (p a : List α) (i : Nat) (hp : p.length = i)
    (h : i + (select v m).length ≤ a.length) :
    compressBlendedStore v m (p ++ a.drop i) i =
      .ok ((p ++ select v m) ++ a.drop (i + (select v m).length), (select v m).length) := by
  unfold compressBlendedStore
  rw [storeU_prefix _ _ _ _ hp h]; rfl

theorem filter_take_le (p : α → Bool) (src : List α) {i j : Nat} (h : i ≤ j) :
    ((src.take i).filter p).length ≤ ((src.take j).filter p).length := by
  apply List.Sublist.length_le
  apply List.Sublist.filter
  exact List.take_sublist_take_left h

theorem copyIfTail_spec (func : List α → List Bool) (p : α → Bool) (hf : ∀ v, func v = v.map p)
    (src : List α) (count : Nat) (hs : count ≤ src.length) (to : List α)
    (hroom : ((src.take count).filter p).length ≤ to.length) :
    ∀ fuel idx, idx ≤ count → count < idx + fuel →
      copyIfTail func src count fuel idx
        ((src.take idx).filter p ++ to.drop ((src.take idx).filter p).length,
         ((src.take idx).filter p).length) =
      .ok ((src.take count).filter p ++ to.drop ((src.take count).filter p).length,
         ((src.take count).filter p).length) := by
  intro fuel
  induction fuel with
  | zero => intro idx h1 h2; omega
  | succ fuel ih =>
    intro idx h1 h2
    unfold copyIfTail
    by_cases hlt : idx < count
    · rw [if_pos hlt]
      simp only [loadU_ok _ _ _ (show idx + 1 ≤ src.length by omega), bind, Except.bind]
      have hv : (src.drop idx).take 1 = [src[idx]] := by
        rw [List.drop_eq_getElem_cons (by omega)]; rfl
      have ht : (src.take (idx + 1)).filter p =
          (src.take idx).filter p ++ (if p src[idx] then [src[idx]] else []) := by
        rw [take_add', hv, List.filter_append]
        congr 1
        by_cases hp : p src[idx] <;> simp [hp]
      rw [hv, hf]
      by_cases hp : p src[idx] = true
      · have hnz : ¬ ([src[idx]].map p).countP id = 0 := by simp [hp]
        rw [if_neg hnz]
        rw [if_pos hp] at ht
        have hle := filter_take_le p src (show idx + 1 ≤ count by omega)
        have hlen : ((src.take (idx + 1)).filter p).length = ((src.take idx).filter p).length + 1 := by
          rw [ht]; simp
        rw [storeU_prefix _ _ _ _ rfl (by simp only [List.length_singleton]; omega)]
        simp only
        rw [← ht, List.length_singleton, ← hlen]
        exact ih (idx + 1) (by omega) (by omega)
      · have hz : ([src[idx]].map p).countP id = 0 := by simp [hp]
        rw [if_pos hz]
        rw [if_neg hp, List.append_nil] at ht
        rw [← ht]
        exact ih (idx + 1) (by omega) (by omega)
    · rw [if_neg hlt, show idx = count by omega]

theorem mapM_ok {β γ : Type} (f : β → M γ) (g : β → γ) : ∀ l : List β, (∀ x ∈ l, f x = .ok (g x)) →
    l.mapM f = .ok (l.map g) := by
  intro l
  induction l with
  | nil => intro _; rfl
  | cons x l ih =>
    intro h
    rw [List.mapM_cons, h x (by simp), ih (fun y hy => h y (by simp [hy]))]
    rfl

/-- The tail of `CopyIf` reloads the last `N` elements ending at `count` and masks off those before
`idx`: what is selected is exactly the unseen elements that satisfy the predicate. -/
theorem select_tail (N : Nat) (zero : α) (p : α → Bool) (src : List α) (count idx : Nat)
    (hs : count ≤ src.length) (hlt : idx < count) (hN : count < idx + N) :
    ∃ v, maskedLoad zero ((firstN N (N - (count - idx))).map (!·)) src ((count : Int) - N) = .ok v ∧
      select v ((((firstN N (N - (count - idx))).map (!·)).zip (v.map p)).map (fun q => q.1 && q.2)) =
        ((src.drop idx).take (count - idx)).filter p := by
  have hmask : (firstN N (N - (count - idx))).map (!·) =
      List.replicate (N - (count - idx)) false ++ List.replicate (count - idx) true := by
    unfold firstN
    rw [List.map_map]
    apply List.ext_getElem
    · simp; omega
    · intro i h1 h2
      simp only [List.getElem_map, List.getElem_range, Function.comp, List.getElem_append,
        List.getElem_replicate, List.length_replicate]
      by_cases hi : i < N - (count - idx) <;> simp [hi]
  rw [hmask]
  generalize hk : N - (count - idx) = k
  refine ⟨List.replicate k zero ++ (src.drop idx).take (count - idx), ?_, ?_⟩
  · unfold maskedLoad
    rw [show (List.replicate k false ++ List.replicate (count - idx) true).length = k + (count - idx) by simp]
    have hlen : k + (count - idx) = N := by omega
    rw [mapM_ok _ (fun i : Nat => (List.replicate k zero ++ (src.drop idx).take (count - idx))[i]?.getD zero)]
    · congr 1
      apply List.ext_getElem
      · simp; omega
      · intro i h1 h2
        simp only [List.getElem_map, List.getElem_range]
        rw [List.getElem?_eq_getElem h2]; rfl
    · intro i hi
      have hi := List.mem_range.mp hi
      by_cases hik : i < k
      · rw [List.getElem?_append_left (by simpa using hik), List.getElem?_append_left (by simpa using hik)]
        simp [hik]
      · have m1 : (List.replicate k false ++ List.replicate (count - idx) true)[i]?.getD false = true := by
          rw [List.getElem?_append_right (by simp; omega), List.length_replicate, List.getElem?_replicate,
            if_pos (by omega)]; rfl
        rw [if_pos m1, List.getElem?_append_right (by simp; omega), List.length_replicate]
        have e : ((count : Int) - N + (i : Int)).toNat = idx + (i - k) := by omega
        rw [if_pos (by omega), e, readAt_of_lt (by omega)]
        rw [List.getElem?_take, if_pos (by omega), List.getElem?_drop,
          List.getElem?_eq_getElem (by omega)]
        rfl
  · have hl := len_take_drop src idx (count - idx) (by omega)
    generalize (src.drop idx).take (count - idx) = w at *
    rw [← hl]
    unfold select
    rw [List.map_append, List.zip_append (by simp), List.map_append, List.zip_append (by simp),
      List.filter_append, List.map_append]
    have e1 : ∀ k, (((List.replicate k zero).zip (((List.replicate k false).zip
        ((List.replicate k zero).map p)).map (fun q => q.1 && q.2))).filter (fun q => q.2)) = [] := by
      intro k
      rw [List.filter_eq_nil_iff]
      intro q hq
      have := List.of_mem_zip hq
      have h2 := this.2
      simp at h2
      simp [h2.2.symm]
    rw [e1, List.map_nil, List.nil_append]
    clear e1 hl
    induction w with
    | nil => rfl
    | cons x w ih =>
      simp only [List.length_cons, List.replicate_succ, List.map_cons, List.zip_cons_cons,
        List.filter_cons, Bool.true_and]
      by_cases hx : p x = true
      · simp only [hx, if_true, List.map_cons]; rw [ih]
      · simp only [hx]; exact ih

/-- **C29 (CopyIf).** Exactly the elements of `from[0, count)` satisfying the predicate are appended, in
order and each once; the returned end is their number; no other element of `to` is written, even if `to`
has room for exactly the kept elements. Both preprocessor branches. -/
theorem C29_copyIf (N : Nat) (hN : 0 < N) (mightFault : Bool) (zero : α) (func : List α → List Bool)
    (p : α → Bool) (hf : ∀ v, func v = v.map p) (src : List α) (count : Nat) (hs : count ≤ src.length)
    (to : List α) (hroom : ((src.take count).filter p).length ≤ to.length) :
    copyIf N mightFault zero func src count to =
      .ok ((src.take count).filter p ++ to.drop ((src.take count).filter p).length,
           ((src.take count).filter p).length) := by
  obtain ⟨j, s, e, -, hj, hjN, rfl⟩ := blocks_spec N count hN
    (fun idx (s : List α × Nat) => do
      let v ← loadU N src idx
      let (to, n) ← compressBlendedStore v (func v) s.1 s.2
      return (to, s.2 + n))
    (fun i s => s = ((src.take i).filter p ++ to.drop ((src.take i).filter p).length,
      ((src.take i).filter p).length))
    (by
      rintro i _ - hi rfl
      have ht : (src.take (i + N)).filter p = (src.take i).filter p ++ ((src.drop i).take N).filter p := by
        rw [take_add', List.filter_append]
      have hle := filter_take_le p src hi
      have hlen := congrArg List.length ht
      rw [List.length_append] at hlen
      simp only [loadU_ok _ _ _ (show i + N ≤ src.length by omega), bind, Except.bind, pure, Except.pure]
      rw [hf, cbs_ok _ _ _ _ _ rfl (by rw [select_map]; omega), select_map]
      refine ⟨_, rfl, ?_⟩
      rw [ht, List.length_append])
    (count + 1) 0 (to, 0) (by simp) (by omega) (by omega) (by simp)
  unfold copyIf
  simp only [bind, Except.bind, pure, Except.pure] at e ⊢
  rw [e]
  simp only
  by_cases hc : j = count
  · rw [if_pos hc, hc]
  · rw [if_neg hc]
    cases mightFault
    · simp only [Bool.false_eq_true, if_false]
      have hinv : ((j : Int) - ((count : Int) - N)).toNat = N - (count - j) := by omega
      rw [hinv, if_neg (by omega)]
      obtain ⟨v, h1, h2⟩ := select_tail N zero p src count j hs (by omega) (by omega)
      rw [h1]
      simp only
      have ht : (src.take count).filter p =
          (src.take j).filter p ++ ((src.drop j).take (count - j)).filter p := by
        rw [← List.filter_append, ← take_add', show j + (count - j) = count by omega]
      have hlen := congrArg List.length ht
      rw [List.length_append] at hlen
      rw [hf, cbs_ok _ _ _ _ _ rfl (by rw [h2]; omega), h2]
      simp only
      rw [ht, List.length_append]
    · simp only [if_true]
      exact copyIfTail_spec func p hf src count hs to hroom (count + 1) j (by omega) (by omega)

example : copyIf 4 false 0 (fun v => v.map (· % 2 == 0)) [3, 4, 6, 1, 5, 8, 10, 9] 7 [0, 0, 0, 0, 7] =
    .ok ([4, 6, 8, 10, 7], 4) := rfl

/-! ### C28: Find, FindIf -/

theorem findFirst_map (v : List α) (p : α → Bool) :
    findFirstTrue (v.map p) = v.findIdx? p := by
  unfold findFirstTrue
  rw [List.findIdx?_map]; rfl

theorem findIdx_take_none {p : α → Bool} {v : List α} (h : v.findIdx? p = none) : ∀ x ∈ v, p x = false := by
  simpa [List.findIdx?_eq_none_iff] using h

theorem findLoop_spec (N : Nat) (hN : 0 < N) (func : List α → List Bool) (p : α → Bool)
    (hf : ∀ v, func v = v.map p) (a : List α) (count : Nat) (hc : count ≤ a.length) :
    ∀ fuel i, i ≤ count → count < i + fuel → (∀ k, (h : k < a.length) → k < i → p a[k] = false) →
      ∃ r, findLoop N func a count fuel i = .ok r ∧
        match r with
        | .inl q => ∃ h : q < a.length, q < count ∧ p a[q] = true ∧
            ∀ k, (h : k < a.length) → k < q → p a[k] = false
        | .inr j => j ≤ count ∧ count < j + N ∧ ∀ k, (h : k < a.length) → k < j → p a[k] = false := by
  intro fuel
  induction fuel with
  | zero => intro i h1 h2; omega
  | succ fuel ih =>
    intro i h1 h2 h3
    unfold findLoop
    by_cases hlt : N ≤ count ∧ i ≤ count - N
    · rw [if_pos hlt]
      simp only [loadU_ok _ _ _ (show i + N ≤ a.length by omega), bind, Except.bind, pure, Except.pure]
      rw [hf, findFirst_map]
      cases hr : ((a.drop i).take N).findIdx? p with
      | some q =>
        refine ⟨_, rfl, ?_⟩
        rw [List.findIdx?_eq_some_iff_getElem] at hr
        obtain ⟨hq, q1, q2⟩ := hr
        rw [len_take_drop a i N (by omega)] at hq
        simp only [List.getElem_take, List.getElem_drop] at q1 q2
        refine ⟨by omega, by omega, q1, fun k hk hkq => ?_⟩
        by_cases hki : k < i
        · exact h3 k hk hki
        · have := q2 (k - i) (by omega)
          simp only [show i + (k - i) = k by omega] at this
          simpa using this
      | none =>
        refine ih (i + N) (by omega) (by omega) ?_
        intro k hk hki
        by_cases hk2 : k < i
        · exact h3 k hk hk2
        · have := findIdx_take_none hr a[k] (by
            rw [List.mem_iff_getElem]
            refine ⟨k - i, by rw [len_take_drop a i N (by omega)]; omega, ?_⟩
            simp only [List.getElem_take, List.getElem_drop, show i + (k - i) = k by omega])
          exact this
    · rw [if_neg hlt]
      exact ⟨_, rfl, h1, by omega, h3⟩

theorem findTail_spec (func : List α → List Bool) (p : α → Bool)
    (hf : ∀ v, func v = v.map p) (a : List α) (count : Nat) (hc : count ≤ a.length) :
    ∀ fuel i, i ≤ count → count < i + fuel → (∀ k, (h : k < a.length) → k < i → p a[k] = false) →
      ∃ r, findTail func a count fuel i = .ok r ∧
        ((∃ h : r < a.length, r < count ∧ p a[r] = true) ∨ r = count) ∧
        ∀ k, (h : k < a.length) → k < r → p a[k] = false := by
  intro fuel
  induction fuel with
  | zero => intro i h1 h2; omega
  | succ fuel ih =>
    intro i h1 h2 h3
    unfold findTail
    by_cases hlt : i < count
    · rw [if_pos hlt]
      simp only [loadU_ok _ _ _ (show i + 1 ≤ a.length by omega), bind, Except.bind, pure, Except.pure]
      have hv : (a.drop i).take 1 = [a[i]] := by
        rw [List.drop_eq_getElem_cons (by omega)]; rfl
      rw [hv, hf]
      by_cases hp : p a[i] = true
      · rw [if_pos (by simp [hp])]
        exact ⟨i, rfl, Or.inl ⟨by omega, hlt, hp⟩, h3⟩
      · rw [if_neg (by simp [hp])]
        refine ih (i + 1) (by omega) (by omega) ?_
        intro k hk hki
        by_cases hk2 : k < i
        · exact h3 k hk hk2
        · have : k = i := by omega
          subst this; simpa using hp
    · rw [if_neg hlt]
      have : i = count := by omega
      subst this
      exact ⟨i, rfl, Or.inr rfl, h3⟩

theorem findMasked_spec (N : Nat) (zero : α) (p : α → Bool) (a : List α) (count i : Nat)
    (hc : count ≤ a.length) (hlt : i < count) (hN : count < i + N) :
    ∃ v, maskedLoad zero (firstN N (count - i)) a (i : Int) = .ok v ∧
      findFirstTrue (((v.map p).zip (firstN N (count - i))).map (fun q => q.1 && q.2)) =
        ((a.drop i).take (count - i)).findIdx? p := by
  have hmask : firstN N (count - i) =
      List.replicate (count - i) true ++ List.replicate (N - (count - i)) false := by
    unfold firstN
    apply List.ext_getElem
    · simp; omega
    · intro k h1 h2
      simp only [List.getElem_map, List.getElem_range, List.getElem_append,
        List.getElem_replicate, List.length_replicate]
      by_cases hi : k < count - i <;> simp [hi]
  rw [hmask]
  have hl := len_take_drop a i (count - i) (by omega)
  refine ⟨(a.drop i).take (count - i) ++ List.replicate (N - (count - i)) zero, ?_, ?_⟩
  · unfold maskedLoad
    rw [show (List.replicate (count - i) true ++ List.replicate (N - (count - i)) false).length = N by
      simp; omega]
    rw [mapM_ok _ (fun k : Nat =>
      ((a.drop i).take (count - i) ++ List.replicate (N - (count - i)) zero)[k]?.getD zero)]
    · congr 1
      apply List.ext_getElem
      · simp; omega
      · intro k h1 h2
        simp only [List.getElem_map, List.getElem_range]
        rw [List.getElem?_eq_getElem h2]; rfl
    · intro k hk
      have hk := List.mem_range.mp hk
      by_cases hik : k < count - i
      · rw [List.getElem?_append_left (by simpa using hik), List.getElem?_append_left (by rw [hl]; exact hik)]
        rw [List.getElem?_replicate, if_pos hik]
        simp only [Option.getD_some, if_true]
        rw [if_pos (by omega), show ((i : Int) + (k : Int)).toNat = i + k by omega, readAt_of_lt (by omega),
          List.getElem?_take, if_pos hik, List.getElem?_drop, List.getElem?_eq_getElem (by omega)]
        rfl
      · have m1 : (List.replicate (count - i) true ++ List.replicate (N - (count - i)) false)[k]?.getD false
            = false := by
          rw [List.getElem?_append_right (by simp; omega), List.length_replicate, List.getElem?_replicate]
          split <;> rfl
        rw [m1, if_neg (by simp), List.getElem?_append_right (by rw [hl]; omega), hl,
          List.getElem?_replicate, if_pos (show k - (count - i) < N - (count - i) by omega)]
        rfl
  · generalize (a.drop i).take (count - i) = w at *
    rw [← hl, List.map_append, List.zip_append (by simp), List.map_append]
    unfold findFirstTrue
    have e1 : ((w.map p).zip (List.replicate w.length true)).map (fun q => q.1 && q.2) = w.map p := by
      clear hl
      induction w with
      | nil => rfl
      | cons x w ih => simp [List.replicate_succ, ih]
    have e2 : ∀ k, ((((List.replicate k zero).map p).zip (List.replicate k false)).map
        (fun q => q.1 && q.2)) = List.replicate k false := by
      intro k
      induction k with
      | zero => rfl
      | succ k ih => simp [List.replicate_succ]
    rw [e1, e2, List.findIdx?_append, List.findIdx?_map]
    have e3 : ∀ k, (List.replicate k false).findIdx? id = none := by
      intro k; rw [List.findIdx?_eq_none_iff]; simp
    rw [e3]
    simp

/-- **C28 (FindIf).** The result is the least index below `count` whose element satisfies the predicate,
or `count` if there is none; only `in[0, count)` is read (the array may end there). -/
theorem C28_findIf (N : Nat) (hN : 0 < N) (mightFault : Bool) (zero : α) (func : List α → List Bool)
    (p : α → Bool) (hf : ∀ v, func v = v.map p) (a : List α) (count : Nat) (hc : count ≤ a.length) :
    ∃ r, findIf N mightFault zero func a count = .ok r ∧
      ((∃ h : r < a.length, r < count ∧ p a[r] = true) ∨ r = count) ∧
      ∀ k, (h : k < a.length) → k < r → p a[k] = false := by
  obtain ⟨r, h1, h2⟩ := findLoop_spec N hN func p hf a count hc (count + 1) 0 (by omega) (by omega)
    (fun k _ hk => by omega)
  unfold findIf
  simp only [h1, bind, Except.bind, pure, Except.pure]
  cases r with
  | inl q =>
    obtain ⟨ha, q1, q2, q3⟩ := h2
    exact ⟨q, rfl, Or.inl ⟨ha, q1, q2⟩, q3⟩
  | inr i =>
    obtain ⟨i1, i2, i3⟩ := h2
    simp only
    by_cases hi : i = count
    · rw [if_pos hi]
      subst hi
      exact ⟨i, rfl, Or.inr rfl, i3⟩
    · rw [if_neg hi]
      cases mightFault
      · simp only [Bool.false_eq_true, if_false]
        obtain ⟨v, v1, v2⟩ := findMasked_spec N zero p a count i hc (by omega) i2
        rw [v1]
        simp only
        rw [hf, v2]
        have hl := len_take_drop a i (count - i) (by omega)
        cases hr : ((a.drop i).take (count - i)).findIdx? p with
        | some q =>
          rw [List.findIdx?_eq_some_iff_getElem] at hr
          obtain ⟨hq, q1, q2⟩ := hr
          rw [hl] at hq
          simp only [List.getElem_take, List.getElem_drop] at q1 q2
          refine ⟨i + q, rfl, Or.inl ⟨by omega, by omega, q1⟩, fun k hk hkq => ?_⟩
          by_cases hki : k < i
          · exact i3 k hk hki
          · have := q2 (k - i) (by omega)
            simp only [show i + (k - i) = k by omega] at this
            simpa using this
        | none =>
          refine ⟨count, rfl, Or.inr rfl, fun k hk hkc => ?_⟩
          by_cases hk2 : k < i
          · exact i3 k hk hk2
          · exact findIdx_take_none hr a[k] (by
              rw [List.mem_iff_getElem]
              refine ⟨k - i, by rw [hl]; omega, ?_⟩
              simp only [List.getElem_take, List.getElem_drop, show i + (k - i) = k by omega])
      · simp only [if_true]
        exact findTail_spec func p hf a count hc (count + 1) i (by omega) (by omega) i3

/-- **C28 (Find).** -/
theorem C28_find (N : Nat) (hN : 0 < N) (mightFault : Bool) (zero : α) (eq : α → α → Bool) (value : α)
    (a : List α) (count : Nat) (hc : count ≤ a.length) :
    ∃ r, find N mightFault zero eq value a count = .ok r ∧
      ((∃ h : r < a.length, r < count ∧ eq value a[r] = true) ∨ r = count) ∧
      ∀ k, (h : k < a.length) → k < r → eq value a[k] = false :=
  C28_findIf N hN mightFault zero _ (fun x => eq value x) (fun _ => rfl) a count hc

/- Zero padding of the masked tail is not found. -/
example : find 4 false 0 (· == ·) 0 [5, 3, 1, 2, 7, 9] 6 = .ok 6 := rfl
example : find 4 true 0 (· == ·) 7 [5, 3, 1, 2, 7, 9] 6 = .ok 4 := rfl

/-! ### C27: Transform, Generate, Foreach, Replace -/

/-- **C27 (Transform).** -/
theorem C27_transform (N : Nat) (hN : 0 < N) (zero : α) (func : List α → List α) (f : α → α)
    (hf : ∀ v, func v = v.map f) (a : List α) (count : Nat) (hc : count ≤ a.length) :
    transform N zero func a count = .ok ((a.take count).map f ++ a.drop count) := by
  obtain ⟨j, s, e, -, hj, hjN, rfl⟩ := blocks_spec N count hN
    (fun idx inout => do
      let v ← loadU N inout idx
      storeU (func v) inout idx)
    (fun i s => s = (a.take i).map f ++ a.drop i)
    (by
      rintro i _ - hi rfl
      have hl := len_take_drop a i N (by omega)
      simp only [loadU_prefix N ((a.take i).map f) a i (by simp; omega) (show i + N ≤ a.length by omega), bind, Except.bind, hf]
      refine ⟨_, storeU_prefix _ _ _ _ (by simp; omega) (by rw [List.length_map, hl]; omega), ?_⟩
      rw [List.length_map, hl, ← List.map_append, ← take_add'])
    (count + 1) 0 a (by simp) (by omega) (by omega) (by simp)
  unfold transform
  simp only [bind, Except.bind, pure, Except.pure] at e ⊢
  rw [e]
  simp only
  by_cases hcj : j = count
  · rw [if_pos hcj, hcj]
  · rw [if_neg hcj, loadN_ok N zero _ a j _ (by simp; omega) (by omega) (by omega)]
    simp only
    unfold storeN
    have hl := len_take_drop a j (count - j) (by omega)
    rw [hf, List.map_append, List.take_left' (by rw [List.length_map, hl])]
    rw [storeU_prefix _ _ _ _ (by simp; omega) (by rw [List.length_map, hl]; omega), List.length_map, hl,
      ← List.map_append, ← take_add', show j + (count - j) = count by omega]

theorem zipWith_take_succ {β γ : Type} (f : α → β → γ) (a : List α) (b : List β) (i n : Nat)
    (ha : i + n ≤ a.length) (hb : i + n ≤ b.length) :
    List.zipWith f (a.take (i + n)) (b.take (i + n)) =
      List.zipWith f (a.take i) (b.take i) ++ List.zipWith f ((a.drop i).take n) ((b.drop i).take n) := by
  rw [take_add', take_add', List.zipWith_append (by simp; omega)]

/-- **C27 (Transform1).** -/
theorem C27_transform1 (N : Nat) (hN : 0 < N) (zero : α) (func : List α → List α → List α)
    (f : α → α → α) (hf : ∀ v w, func v w = List.zipWith f v w) (a b : List α) (count : Nat)
    (hc : count ≤ a.length) (hb : count ≤ b.length) :
    transform1 N zero func a count b =
      .ok (List.zipWith f (a.take count) (b.take count) ++ a.drop count) := by
  obtain ⟨j, s, e, -, hj, hjN, rfl⟩ := blocks_spec N count hN
    (fun idx inout => do
      let v ← loadU N inout idx
      let v1 ← loadU N b idx
      storeU (func v v1) inout idx)
    (fun i s => s = List.zipWith f (a.take i) (b.take i) ++ a.drop i)
    (by
      rintro i _ - hi rfl
      have hl := len_take_drop a i N (by omega)
      have hl2 := len_take_drop b i N (by omega)
      simp only [loadU_prefix N (List.zipWith f (a.take i) (b.take i)) a i (by simp; omega) (show i + N ≤ a.length by omega),
        loadU_ok N b i (by omega), bind, Except.bind, hf]
      refine ⟨_, storeU_prefix _ _ _ _ (by simp; omega) (by rw [List.length_zipWith, hl, hl2]; omega), ?_⟩
      rw [List.length_zipWith, hl, hl2, Nat.min_self, zipWith_take_succ f a b i N (by omega) (by omega)])
    (count + 1) 0 a (by simp) (by omega) (by omega) (by simp)
  unfold transform1
  simp only [bind, Except.bind, pure, Except.pure] at e ⊢
  rw [e]
  simp only
  by_cases hcj : j = count
  · rw [if_pos hcj, hcj]
  · rw [if_neg hcj, loadN_ok N zero _ a j _ (by simp; omega) (by omega) (by omega)]
    have hlb : loadN N zero b j (count - j) =
        .ok ((b.drop j).take (count - j) ++ List.replicate (N - (count - j)) zero) := by
      have := loadN_ok N zero (b.take j) b j (count - j) (by simp; omega) (by omega) (by omega)
      rwa [List.take_append_drop] at this
    simp only [hlb]
    unfold storeN
    have hl := len_take_drop a j (count - j) (by omega)
    have hl2 := len_take_drop b j (count - j) (by omega)
    rw [hf, List.zipWith_append (by rw [hl, hl2]), List.take_left' (by rw [List.length_zipWith, hl, hl2]; omega)]
    rw [storeU_prefix _ _ _ _ (by simp; omega) (by rw [List.length_zipWith, hl, hl2]; omega),
      List.length_zipWith, hl, hl2, Nat.min_self, ← zipWith_take_succ f a b _ _ (by omega) (by omega),
      show j + (count - j) = count by omega]

/-- Lane-wise function of three vectors. -/
def zipWith3 (f : α → α → α → α) (a b c : List α) : List α :=
  List.zipWith (fun g z => g z) (List.zipWith f a b) c

/-- **C27 (Transform2).** -/
theorem C27_transform2 (N : Nat) (hN : 0 < N) (zero : α) (func : List α → List α → List α → List α)
    (f : α → α → α → α) (hf : ∀ u v w, func u v w = zipWith3 f u v w) (a b c : List α) (count : Nat)
    (hc : count ≤ a.length) (hb : count ≤ b.length) (hcc : count ≤ c.length) :
    transform2 N zero func a count b c =
      .ok (zipWith3 f (a.take count) (b.take count) (c.take count) ++ a.drop count) := by
  have zlen : ∀ u v w : List α, (zipWith3 f u v w).length = min (min u.length v.length) w.length := by
    intro u v w; simp [zipWith3]
  have zsucc : ∀ i n, i + n ≤ a.length → i + n ≤ b.length → i + n ≤ c.length →
      zipWith3 f (a.take (i + n)) (b.take (i + n)) (c.take (i + n)) =
      zipWith3 f (a.take i) (b.take i) (c.take i) ++
        zipWith3 f ((a.drop i).take n) ((b.drop i).take n) ((c.drop i).take n) := by
    intro i n h1 h2 h3
    unfold zipWith3
    rw [take_add', take_add', take_add', List.zipWith_append (by simp; omega),
      List.zipWith_append (by simp; omega)]
  obtain ⟨j, s, e, -, hj, hjN, rfl⟩ := blocks_spec N count hN
    (fun idx inout => do
      let v ← loadU N inout idx
      let v1 ← loadU N b idx
      let v2 ← loadU N c idx
      storeU (func v v1 v2) inout idx)
    (fun i s => s = zipWith3 f (a.take i) (b.take i) (c.take i) ++ a.drop i)
    (by
      rintro i _ - hi rfl
      have hl := len_take_drop a i N (by omega)
      have hl2 := len_take_drop b i N (by omega)
      have hl3 := len_take_drop c i N (by omega)
      simp only [loadU_prefix N (zipWith3 f (a.take i) (b.take i) (c.take i)) a i (by rw [zlen]; simp; omega) (show i + N ≤ a.length by omega),
        loadU_ok N b i (by omega), loadU_ok N c i (by omega), bind, Except.bind, hf]
      refine ⟨_, storeU_prefix _ _ _ _ (by rw [zlen]; simp; omega) (by rw [zlen, hl, hl2, hl3]; omega), ?_⟩
      rw [zlen, hl, hl2, hl3, Nat.min_self, Nat.min_self, zsucc i N (by omega) (by omega) (by omega)])
    (count + 1) 0 a (by simp) (by omega) (by omega) (by simp [zipWith3])
  unfold transform2
  simp only [bind, Except.bind, pure, Except.pure] at e ⊢
  rw [e]
  simp only
  by_cases hcj : j = count
  · rw [if_pos hcj, hcj]
  · rw [if_neg hcj, loadN_ok N zero _ a j _ (by rw [zlen]; simp; omega) (by omega) (by omega)]
    have hlx : ∀ x : List α, count ≤ x.length → loadN N zero x j (count - j) =
        .ok ((x.drop j).take (count - j) ++ List.replicate (N - (count - j)) zero) := by
      intro x hx
      have := loadN_ok N zero (x.take j) x j (count - j) (by simp; omega) (by omega) (by omega)
      rwa [List.take_append_drop] at this
    simp only [hlx b hb, hlx c hcc]
    unfold storeN
    have hl := len_take_drop a j (count - j) (by omega)
    have hl2 := len_take_drop b j (count - j) (by omega)
    have hl3 := len_take_drop c j (count - j) (by omega)
    have e3 : (func ((a.drop j).take (count - j) ++ List.replicate (N - (count - j)) zero)
        ((b.drop j).take (count - j) ++ List.replicate (N - (count - j)) zero)
        ((c.drop j).take (count - j) ++ List.replicate (N - (count - j)) zero)).take (count - j) =
        zipWith3 f ((a.drop j).take (count - j)) ((b.drop j).take (count - j)) ((c.drop j).take (count - j)) := by
      rw [hf]
      unfold zipWith3
      rw [List.zipWith_append (by rw [hl, hl2]), List.zipWith_append (by rw [List.length_zipWith, hl, hl2, hl3]; omega),
        List.take_left' (by rw [List.length_zipWith, List.length_zipWith, hl, hl2, hl3]; omega)]
    rw [e3, storeU_prefix _ _ _ _ (by rw [zlen]; simp; omega) (by rw [zlen, hl, hl2, hl3]; omega), zlen,
      hl, hl2, hl3, Nat.min_self, Nat.min_self, ← zsucc _ _ (by omega) (by omega) (by omega),
      show j + (count - j) = count by omega]

/-- **C27 (ReplaceIf).** -/
theorem C27_replaceIf (N : Nat) (hN : 0 < N) (zero : α) (func : List α → List Bool) (p : α → Bool)
    (hf : ∀ v, func v = v.map p) (newT : α) (a : List α) (count : Nat) (hc : count ≤ a.length) :
    replaceIf N zero func newT a count =
      .ok ((a.take count).map (fun x => if p x then newT else x) ++ a.drop count) := by
  unfold replaceIf
  apply C27_transform N hN zero _ (fun x => if p x then newT else x) _ a count hc
  intro v
  rw [hf]
  induction v with
  | nil => rfl
  | cons x v ih => simpa using ih

/-- **C27 (Replace).** -/
theorem C27_replace (N : Nat) (hN : 0 < N) (zero : α) (eq : α → α → Bool) (newT oldT : α) (a : List α)
    (count : Nat) (hc : count ≤ a.length) :
    replace N zero eq a count newT oldT =
      .ok ((a.take count).map (fun x => if eq x oldT then newT else x) ++ a.drop count) :=
  C27_replaceIf N hN zero _ (fun x => eq x oldT) (fun _ => rfl) newT a count hc

/-- **C27 (Generate).** `out[i] = g(i)`, the index reduced to the width of the index lanes. -/
theorem C27_generate (N : Nat) (hN : 0 < N) (bits : Nat) (func : List Nat → List α) (g : Nat → α)
    (hf : ∀ v, func v = v.map g) (count : Nat) (out : List α) (hc : count ≤ out.length) :
    generate N bits func count out =
      .ok ((List.range count).map (fun i => g (i % 2 ^ bits)) ++ out.drop count) := by
  have hstep : ∀ i, (List.range (i + N)).map (fun k => g (k % 2 ^ bits)) =
      (List.range i).map (fun k => g (k % 2 ^ bits)) ++
        ((List.range N).map (fun k => (i + k) % 2 ^ bits)).map g := by
    intro i
    rw [List.range_add, List.map_append, List.map_map, List.map_map]
    rfl
  obtain ⟨j, s, e, -, hj, hjN, rfl⟩ := blocks_spec N count hN
    (fun idx (s : List α × List Nat) => do
      let out ← storeU (func s.2) s.1 idx
      return (out, s.2.map (fun x => (x + N % 2 ^ bits) % 2 ^ bits)))
    (fun i s => s = ((List.range i).map (fun k => g (k % 2 ^ bits)) ++ out.drop i,
      (List.range N).map (fun k => (i + k) % 2 ^ bits)))
    (by
      rintro i _ - hi rfl
      simp only [hf, bind, Except.bind, pure, Except.pure]
      rw [storeU_prefix _ _ _ _ (by simp) (by simp; omega)]
      refine ⟨_, rfl, ?_⟩
      simp only [List.length_map, List.length_range]
      rw [hstep i]
      congr 1
      rw [List.map_map]
      apply List.map_congr_left
      intro k _
      simp only [Function.comp]
      rw [← Nat.add_mod]
      congr 1; omega)
    (count + 1) 0 (out, (List.range N).map (fun i => i % 2 ^ bits)) (by simp) (by omega) (by omega) (by simp)
  unfold generate
  simp only [bind, Except.bind, pure, Except.pure] at e ⊢
  rw [e]
  simp only
  by_cases hcj : j = count
  · rw [if_pos hcj, hcj]
  · rw [if_neg hcj]
    unfold storeN
    rw [hf, ← List.map_take, ← List.map_take, List.take_range, Nat.min_eq_left (by omega)]
    rw [storeU_prefix _ _ _ _ (by simp) (by simp; omega)]
    simp only [List.length_map, List.length_range]
    rw [show j + (count - j) = count by omega]
    congr 2
    rw [show (List.range count) = List.range (j + (count - j)) by rw [show j + (count - j) = count by omega],
      List.range_add, List.map_append, List.map_map, List.map_map]
    rfl

/-- **C27 (Foreach).** The vectors passed to `func` are, concatenated, `in[0, count)` followed by the
lanes of `no` that complete the last vector; each has `N` lanes. -/
theorem C27_foreach (N : Nat) (hN : 0 < N) (no a : List α) (hno : no.length = N) (count : Nat)
    (hc : count ≤ a.length) :
    ∃ calls, foreach N no a count = .ok calls ∧ (∀ v ∈ calls, v.length = N) ∧
      calls.flatten = a.take count ++ (if count % N = 0 then [] else no.drop (count % N)) := by
  obtain ⟨j, s, e, hd, hj, hjN, i1, i2⟩ := blocks_spec N count hN
    (fun idx (s : List (List α)) => do
      let v ← loadU N a idx
      return s ++ [v])
    (fun i s => s.flatten = a.take i ∧ ∀ v ∈ s, v.length = N)
    (by
      rintro i s - hi ⟨h1, h2⟩
      have hl := len_take_drop a i N (by omega)
      simp only [loadU_ok N a i (by omega), bind, Except.bind, pure, Except.pure]
      refine ⟨_, rfl, ?_, ?_⟩
      · rw [List.flatten_append, h1, take_add']; simp
      · intro v hv
        rcases List.mem_append.mp hv with hv | hv
        · exact h2 v hv
        · rw [List.mem_singleton.mp hv]; exact hl)
    (count + 1) 0 [] (by simp) (by omega) (by omega) (by simp)
  have hmod : count % N = count - j := by
    obtain ⟨k, rfl⟩ := hd
    have : count = N * k + (count - N * k) := by omega
    rw [this, Nat.mul_add_mod, Nat.mod_eq_of_lt (by omega)]
    omega
  unfold foreach
  simp only [bind, Except.bind, pure, Except.pure] at e ⊢
  rw [e]
  simp only
  by_cases hcj : j = count
  · rw [if_pos hcj]
    refine ⟨s, rfl, i2, ?_⟩
    rw [i1, if_pos (by omega), hcj]; simp
  · rw [if_neg hcj]
    unfold loadNOr
    rw [Nat.min_eq_left (show count - j ≤ N by omega), if_pos (by omega)]
    have hl := len_take_drop a j (count - j) (by omega)
    refine ⟨_, rfl, ?_, ?_⟩
    · intro v hv
      rcases List.mem_append.mp hv with hv | hv
      · exact i2 v hv
      · rw [List.mem_singleton.mp hv, List.length_append, hl, List.length_drop, hno]; omega
    · rw [List.flatten_append, i1, if_neg (by omega), hmod]
      simp only [List.flatten_cons, List.flatten_nil, List.append_nil]
      rw [← List.append_assoc, ← take_add', show j + (count - j) = count by omega]

example : transform 4 0 (fun v => v.map (· * 2)) [1, 2, 3, 4, 5, 6, 7] 6 = .ok [2, 4, 6, 8, 10, 12, 7] := rfl
example : generate 4 2 (fun v => v.map (· + 10)) 6 [0, 0, 0, 0, 0, 0, 0] = .ok [10, 11, 12, 13, 10, 11, 0] := rfl

end Algo
end Hwy
