import Verif.Unroller
import Verif.AlgoSpec
import Mathlib.Tactic.Ring
import Mathlib.Algebra.BigOperators.Group.List.Basic

/-!
# C61: `Unroller` processes every element exactly once, part 1: masked accesses and the loops
-/

namespace Hwy
namespace Unroll
open Vec

variable {α α' β X ξ : Type}

/-! ### Masked accesses -/

theorem mask_neg {L i n : Nat} (h1 : i < n) (h2 : n < i + L) :
    placesMask L ((i : Int) - n) = List.replicate (L - (n - i)) false ++ List.replicate (n - i) true := by
  unfold placesMask
  rw [if_pos (by omega), show ((i : Int) - n + L).toNat = L - (n - i) by omega]
  unfold firstN
  rw [List.map_map]
  apply List.ext_getElem
  · simp; omega
  · intro k h3 h4
    simp only [List.getElem_map, List.getElem_range, Function.comp, List.getElem_append, List.getElem_replicate,
      List.length_replicate]
    by_cases hk : k < L - (n - i) <;> simp [hk]

theorem mask_pos {L n : Nat} (h : n ≤ L) :
    placesMask L (n : Int) = List.replicate n true ++ List.replicate (L - n) false := by
  unfold placesMask
  rw [if_neg (by omega), Int.toNat_natCast]
  unfold firstN
  apply List.ext_getElem
  · simp; omega
  · intro k h3 h4
    simp only [List.getElem_map, List.getElem_range, List.getElem_append, List.getElem_replicate, List.length_replicate]
    by_cases hk : k < n <;> simp [hk]

/-- Reading lane by lane. -/
theorem maskedLoad_eq {fill : α} {mask : List Bool} {a r : List α} {base : Int} (hl : r.length = mask.length)
    (h : ∀ k (hk : k < mask.length), if mask[k] then 0 ≤ base + k ∧ a[(base + k).toNat]? = some (r[k]'(by omega))
      else r[k]'(by omega) = fill) : maskedLoad fill mask a base = .ok r := by
  unfold maskedLoad
  rw [Algo.mapM_ok _ (fun i : Nat => r[i]?.getD fill)]
  · congr 1
    apply List.ext_getElem
    · simp [hl]
    · intro k h1 h2
      simp only [List.getElem_map, List.getElem_range]
      rw [List.getElem?_eq_getElem h2]; rfl
  · intro k hk
    have hk := List.mem_range.mp hk
    have := h k hk
    rw [List.getElem?_eq_getElem hk, List.getElem?_eq_getElem (by omega)]
    simp only [Option.getD_some]
    by_cases hm : mask[k] = true
    · rw [if_pos hm] at this ⊢
      rw [if_pos this.1]
      unfold readAt
      rw [this.2]
    · rw [if_neg hm] at this ⊢
      rw [this]

theorem maskLoad_neg (mf : Bool) {L i n : Nat} (fill : α) {src : List α} (h1 : i < n) (h2 : n < i + L)
    (hs : n ≤ src.length) (hmf : mf = true → L ≤ n) :
    maskLoadImpl mf L fill src ((n : Int) - L) ((i : Int) - n)
      = .ok (List.replicate (L - (n - i)) fill ++ (src.drop i).take (n - i)) := by
  unfold maskLoadImpl maskedLoadOr
  rw [mask_neg h1 h2, if_neg]
  · refine maskedLoad_eq (by simp; omega) fun k hk => ?_
    simp only [List.length_append, List.length_replicate] at hk
    by_cases c : k < L - (n - i)
    · rw [List.getElem_append_left (by simpa using c), List.getElem_append_left (by simpa using c)]
      simp
    · rw [List.getElem_append_right (by simpa using c), List.getElem_append_right (by simpa using c)]
      simp only [List.getElem_replicate, if_true, List.length_replicate, List.getElem_take, List.getElem_drop]
      refine ⟨by omega, ?_⟩
      rw [show ((n : Int) - L + k).toNat = i + (k - (L - (n - i))) by omega]
      exact List.getElem?_eq_getElem _
  · cases mf
    · simp
    · have := hmf rfl
      simp
      omega

theorem maskLoad_pos (mf : Bool) {L n : Nat} (fill : α) {src : List α} (h : n ≤ L) (hs : n ≤ src.length)
    (hmf : mf = true → L ≤ src.length) :
    maskLoadImpl mf L fill src 0 (n : Int) = .ok (src.take n ++ List.replicate (L - n) fill) := by
  unfold maskLoadImpl maskedLoadOr
  rw [mask_pos h, if_neg]
  · refine maskedLoad_eq (by simp; omega) fun k hk => ?_
    simp only [List.length_append, List.length_replicate] at hk
    by_cases c : k < n
    · rw [List.getElem_append_left (by simpa using c), List.getElem_append_left (by simp; omega)]
      simp only [List.getElem_replicate, if_true, List.getElem_take]
      refine ⟨by omega, ?_⟩
      rw [show ((0 : Int) + k).toNat = k by omega]
      exact List.getElem?_eq_getElem _
    · rw [List.getElem_append_right (by simpa using c), List.getElem_append_right (by simp; omega)]
      simp
  · cases mf
    · simp
    · have := hmf rfl
      simp
      omega

theorem blended_false (base : Int) (l : List (β × Bool)) (a : List β) : ∀ (v : List β) (i : Nat),
    blendedLoop base (v.zip (List.replicate v.length false) ++ l) i a = blendedLoop base l (i + v.length) a := by
  intro v
  induction v with
  | nil => intro i; simp
  | cons x v ih =>
    intro i
    simp only [List.length_cons, List.replicate_succ, List.zip_cons_cons, List.cons_append]
    rw [blendedLoop, if_neg (by simp), ih, show i + 1 + v.length = i + (v.length + 1) by omega]

theorem blended_true (base : Int) (l : List (β × Bool)) : ∀ (v : List β) (i p : Nat) (a : List β), base + i = p →
    p + v.length ≤ a.length →
    blendedLoop base (v.zip (List.replicate v.length true) ++ l) i a
      = blendedLoop base l (i + v.length) (a.take p ++ v ++ a.drop (p + v.length)) := by
  intro v
  induction v with
  | nil => intro i p a _ _; simp
  | cons x v ih =>
    intro i p a hp hl
    simp only [List.length_cons] at hl
    simp only [List.length_cons, List.replicate_succ, List.zip_cons_cons, List.cons_append]
    rw [blendedLoop, if_pos rfl, if_pos (by omega), show (base + i).toNat = p by omega, writeAt_of_lt _ (by omega)]
    show blendedLoop base _ (i + 1) (a.set p x) = _
    rw [ih (i + 1) (p + 1) (a.set p x) (by push_cast; omega) (by simp; omega)]
    rw [show i + 1 + v.length = i + (v.length + 1) by omega, show p + 1 + v.length = p + (v.length + 1) by omega]
    congr 1
    rw [List.drop_set_of_lt (by omega), List.take_set]
    rw [show (List.take (p + 1) a).set p x = List.take p a ++ [x] by
      rw [List.take_succ_eq_append_getElem (by omega), List.set_append_right _ _ (by simp)]
      simp [Nat.min_eq_left (show p ≤ a.length by omega)]]
    simp

theorem blendedStore_neg (mf : Bool) {L i n : Nat} {v a : List β} (h1 : i < n) (h2 : n < i + L) (hv : v.length = L)
    (ha : n ≤ a.length) (hmf : mf = true → L ≤ n) :
    maskStoreImpl mf L ((n : Int) - L) a v ((i : Int) - n)
      = .ok (a.take i ++ v.drop (L - (n - i)) ++ a.drop n, ((n - i : Nat) : Int)) := by
  unfold maskStoreImpl blendedStore
  rw [mask_neg h1 h2, if_neg]
  · have e : v.zip (List.replicate (L - (n - i)) false ++ List.replicate (n - i) true)
        = (v.take (L - (n - i))).zip (List.replicate (v.take (L - (n - i))).length false) ++
          ((v.drop (L - (n - i))).zip (List.replicate (v.drop (L - (n - i))).length true) ++ []) := by
      rw [List.append_nil]
      conv_lhs => rw [← List.take_append_drop (L - (n - i)) v]
      rw [List.zip_append (by simp; omega)]
      congr 2
      · congr 1; simp; omega
      · congr 1; simp; omega
    rw [e, blended_false, blended_true _ _ _ _ i _ (by simp; omega) (by simp; omega)]
    simp only [blendedLoop, bind, Except.bind, pure, Except.pure]
    rw [show i + (v.drop (L - (n - i))).length = n by simp; omega]
    congr 2
    omega
  · cases mf
    · simp
    · have := hmf rfl
      simp
      omega

theorem blendedStore_pos (mf : Bool) {L n : Nat} {v a : List β} (h : n ≤ L) (hv : v.length = L) (ha : n ≤ a.length)
    (hmf : mf = true → L ≤ a.length) :
    maskStoreImpl mf L 0 a v (n : Int) = .ok (v.take n ++ a.drop n, (n : Int)) := by
  unfold maskStoreImpl blendedStore
  rw [mask_pos h, if_neg]
  · have e : v.zip (List.replicate n true ++ List.replicate (L - n) false)
        = (v.take n).zip (List.replicate (v.take n).length true) ++
          ((v.drop n).zip (List.replicate (v.drop n).length false) ++ []) := by
      rw [List.append_nil]
      conv_lhs => rw [← List.take_append_drop n v]
      rw [List.zip_append (by simp; omega)]
      congr 2
      · congr 1; simp; omega
      · congr 1; simp; omega
    rw [e, blended_true _ _ _ _ 0 _ (by simp) (by simp; omega), blended_false]
    simp only [blendedLoop, bind, Except.bind, pure, Except.pure]
    rw [show 0 + (v.take n).length = n by simp; omega]
    simp
  · cases mf
    · simp
    · have := hmf rfl
      simp
      omega

/-! ### The loops -/

section
variable (f : Fns X β) (load : Nat → M X) (maskLoad : Int → Int → M X) (L n : Nat) (hL : 0 < L)
  (V : Nat → X → Prop) (hx : ∀ i, i + L ≤ n → ∃ x, load i = .ok x ∧ V i x) (Post : List β → Prop)
include hL hx

/-- Rule for the loop over four vectors; the accumulators are rotated so that the one to be used next comes first. -/
theorem loop4_spec (J : Nat → List β → List β → List β → List β → List β → Prop)
    (hs : ∀ i y a b c d x, i + L ≤ n → V i x → J i y a b c d → ∃ y' g, f.store i y (f.func i x a) = .ok (y', g) ∧
      (g = true → J (i + L) y' b c d (f.func i x a)) ∧ (g = false → Post y')) :
    ∀ fuel i y a b c d, i ≤ n → n < i + fuel → J i y a b c d →
      (∃ y', loop4 f load L n fuel i y a b c d = .ok (.inl y') ∧ Post y') ∨
      (∃ i' y' a' b' c' d', loop4 f load L n fuel i y a b c d = .ok (.inr (i', y', a', b', c', d')) ∧ i' ≤ n ∧
        J i' y' a' b' c' d') := by
  intro fuel
  induction fuel with
  | zero => intro i y a b c d _ h; omega
  | succ fuel ih =>
    intro i y a b c d hi hf hJ
    unfold loop4
    by_cases hc : (i : Int) + 4 * L - 1 < n
    · rw [if_pos hc]
      obtain ⟨x0, e0, v0⟩ := hx i (by omega)
      obtain ⟨x1, e1, v1⟩ := hx (i + L) (by omega)
      obtain ⟨x2, e2, v2⟩ := hx (i + L + L) (by omega)
      obtain ⟨x3, e3, v3⟩ := hx (i + L + L + L) (by omega)
      rw [e0, e1, e2, e3]
      simp only [bind, Except.bind, pure, Except.pure]
      obtain ⟨y0, g0, s0, t0, p0⟩ := hs i y a b c d x0 (by omega) v0 hJ
      rw [s0]
      cases g0 with
      | false => exact .inl ⟨y0, rfl, p0 rfl⟩
      | true =>
        obtain ⟨y1, g1, s1, t1, p1⟩ := hs _ _ _ _ _ _ x1 (by omega) v1 (t0 rfl)
        simp only [Bool.not_true, Bool.false_eq_true, if_false]
        rw [show ((i : Int) + L) = ((i + L : Nat) : Int) by push_cast; rfl, s1]
        cases g1 with
        | false => exact .inl ⟨y1, rfl, p1 rfl⟩
        | true =>
          obtain ⟨y2, g2, s2, t2, p2⟩ := hs _ _ _ _ _ _ x2 (by omega) v2 (t1 rfl)
          simp only [Bool.not_true, Bool.false_eq_true, if_false]
          rw [show ((i : Int) + 2 * L) = ((i + L + L : Nat) : Int) by push_cast; ring, s2]
          cases g2 with
          | false => exact .inl ⟨y2, rfl, p2 rfl⟩
          | true =>
            obtain ⟨y3, g3, s3, t3, p3⟩ := hs _ _ _ _ _ _ x3 (by omega) v3 (t2 rfl)
            simp only [Bool.not_true, Bool.false_eq_true, if_false]
            rw [show ((i : Int) + 3 * L) = ((i + L + L + L : Nat) : Int) by push_cast; ring, s3]
            cases g3 with
            | false => exact .inl ⟨y3, rfl, p3 rfl⟩
            | true => exact ih _ _ _ _ _ _ (by omega) (by omega) (t3 rfl)
    · rw [if_neg hc]
      exact .inr ⟨i, y, a, b, c, d, rfl, hi, hJ⟩

theorem loop1_spec (I : Nat → List β → List β → Prop)
    (hs : ∀ i y a x, i + L ≤ n → V i x → I i y a → ∃ y' g, f.store i y (f.func i x a) = .ok (y', g) ∧
      (g = true → I (i + L) y' (f.func i x a)) ∧ (g = false → Post y')) :
    ∀ fuel i y a, i ≤ n → n < i + fuel → I i y a →
      (∃ y', loop1 f load L n fuel i y a = .ok (.inl y') ∧ Post y') ∨
      (∃ i' y' a', loop1 f load L n fuel i y a = .ok (.inr (i', y', a')) ∧ i' ≤ n ∧ n < i' + L ∧ I i' y' a') := by
  intro fuel
  induction fuel with
  | zero => intro i y a _ h; omega
  | succ fuel ih =>
    intro i y a hi hf hI
    unfold loop1
    by_cases hc : (i : Int) + L - 1 < n
    · rw [if_pos hc]
      obtain ⟨x0, e0, v0⟩ := hx i (by omega)
      rw [e0]
      simp only [bind, Except.bind, pure, Except.pure]
      obtain ⟨y0, g0, s0, t0, p0⟩ := hs i y a x0 (by omega) v0 hI
      rw [s0]
      cases g0 with
      | false => exact .inl ⟨y0, rfl, p0 rfl⟩
      | true => exact ih _ _ _ (by omega) (by omega) (t0 rfl)
    · rw [if_neg hc]
      exact .inr ⟨i, y, a, rfl, hi, by omega, hI⟩

/-- Rule for arrays of at least one vector, and for every array where masked accesses cannot fault. -/
theorem large_spec (J : Nat → List β → List β → List β → List β → List β → Prop) (I : Nat → List β → List β → Prop)
    (y : List β) (j0 : J 0 y f.yInit f.yInit f.yInit f.yInit) (i0 : I 0 y f.yInit)
    (hj : ∀ i y a b c d x, i + L ≤ n → V i x → J i y a b c d → ∃ y' g, f.store i y (f.func i x a) = .ok (y', g) ∧
      (g = true → J (i + L) y' b c d (f.func i x a)) ∧ (g = false → Post y'))
    (hji : ∀ i y a b c d, i ≤ n → J i y a b c d → I i y (f.reduce4 d c b a))
    (hi : ∀ i y a x, i + L ≤ n → V i x → I i y a → ∃ y' g, f.store i y (f.func i x a) = .ok (y', g) ∧
      (g = true → I (i + L) y' (f.func i x a)) ∧ (g = false → Post y'))
    (hf : ∀ i y a, i ≤ n → n < i + L → I i y a → ∃ y', finish f maskLoad L n i y a = .ok y' ∧ Post y') :
    ∃ y', large f load maskLoad L n y = .ok y' ∧ Post y' := by
  have rest : ∀ i y a, i ≤ n → I i y a → ∃ y',
      (do match ← loop1 f load L n (n + 1) i y a with
          | .inl y => return y
          | .inr (i, y, yy) => finish f maskLoad L n i y yy : M (List β)) = .ok y' ∧ Post y' := by
    intro i y a h1 h2
    rcases loop1_spec f load L n hL V hx Post I hi (n + 1) i y a h1 (by omega) h2 with ⟨y', e, p⟩ | ⟨i', y', a', e, l1, l2, p⟩
    · rw [e]; exact ⟨y', rfl, p⟩
    · rw [e]; exact hf i' y' a' l1 l2 p
  unfold large
  by_cases hn : n > 4 * L
  · rw [if_pos hn]
    rcases loop4_spec f load L n hL V hx Post J hj (n + 1) 0 y _ _ _ _ (by omega) (by omega) j0 with
      ⟨y', e, p⟩ | ⟨i', y', a', b', c', d', e, l1, p⟩
    · rw [e]; exact ⟨y', rfl, p⟩
    · rw [e]; exact rest i' y' _ l1 (hji _ _ _ _ _ _ l1 p)
  · rw [if_neg hn]
    exact rest 0 y _ (by omega) i0

end
end Unroll
end Hwy
