import Verif.HeapProof
import Verif.VecOps

/-! # Arrays as functions: effect of loads and stores -/

namespace Hwy
namespace VQ

variable {α : Type}

theorem getD_append' (d : α) (a b : List α) (p : Nat) :
    (a ++ b).getD p d = if p < a.length then a.getD p d else b.getD (p - a.length) d := by
  simp only [List.getD_eq_getElem?_getD]
  split
  · rename_i h; rw [List.getElem?_append_left h]
  · rename_i h; rw [List.getElem?_append_right (by omega)]

theorem getD_take' (d : α) (a : List α) (n p : Nat) : (a.take n).getD p d = if p < n then a.getD p d else d := by
  simp only [List.getD_eq_getElem?_getD, List.getElem?_take]
  split <;> rfl

theorem getD_drop' (d : α) (a : List α) (n p : Nat) : (a.drop n).getD p d = a.getD (n + p) d := by
  simp only [List.getD_eq_getElem?_getD, List.getElem?_drop]

theorem getD_ge (d : α) (a : List α) (p : Nat) (h : a.length ≤ p) : a.getD p d = d := by
  simp [List.getD_eq_getElem?_getD, List.getElem?_eq_none h]

theorem getD_map_range (d : α) (f : Nat → α) (n p : Nat) : ((List.range n).map f).getD p d = if p < n then f p else d := by
  simp only [List.getD_eq_getElem?_getD]
  split
  · rename_i h; simp [h]
  · rename_i h; simp [Nat.not_lt.mp h]

theorem getD_replicate' (d x : α) (n p : Nat) : (List.replicate n x).getD p d = if p < n then x else d := by
  simp only [List.getD_eq_getElem?_getD, List.getElem?_replicate]
  split <;> rfl

theorem ext_getD (d : α) {a b : List α} (hl : a.length = b.length) (h : ∀ p, p < a.length → a.getD p d = b.getD p d) :
    a = b := by
  apply List.ext_getElem hl
  intro i h1 h2
  have := h i h1
  simpa [List.getD_eq_getElem?_getD, h1, h2] using this

theorem loadU_spec (d : α) (N : Nat) (a : List α) (i : Nat) (h : i + N ≤ a.length) :
    ∃ v, Vec.loadU N a i = .ok v ∧ v.length = N ∧ ∀ j, j < N → v.getD j d = a.getD (i + j) d := by
  refine ⟨(a.drop i).take N, Vec.loadU_ok N a i h, by simp; omega, fun j hj => ?_⟩
  rw [getD_take', if_pos hj, getD_drop']

theorem storeU_spec (d : α) (v a : List α) (i : Nat) (h : i + v.length ≤ a.length) :
    ∃ b, Vec.storeU v a i = .ok b ∧ b.length = a.length ∧
      ∀ p, b.getD p d = if i ≤ p ∧ p < i + v.length then v.getD (p - i) d else a.getD p d := by
  refine ⟨_, Vec.storeU_ok v a i h, by simp; omega, fun p => ?_⟩
  rw [getD_append', getD_append', getD_take', getD_drop']
  simp only [List.length_append, List.length_take, Nat.min_eq_left (show i ≤ a.length by omega)]
  by_cases h1 : p < i
  · rw [if_pos (by omega), if_pos h1, if_pos h1, if_neg (by omega)]
  · by_cases h2 : p < i + v.length
    · rw [if_pos h2, if_neg h1, if_pos (by omega)]
    · rw [if_neg h2, if_neg (by omega)]
      congr 1; omega

theorem mapM_spec {β γ : Type} (f : β → M γ) (Q : β → γ → Prop) : ∀ l : List β, (∀ x ∈ l, ∃ y, f x = .ok y ∧ Q x y) →
    ∃ ys, l.mapM f = .ok ys ∧ ys.length = l.length ∧ ∀ (i : Nat) x, l[i]? = some x → ∃ y, ys[i]? = some y ∧ Q x y := by
  intro l
  induction l with
  | nil => intro _; exact ⟨[], rfl, rfl, by simp⟩
  | cons x l ih =>
    intro h
    obtain ⟨y, hy, hq⟩ := h x (by simp)
    obtain ⟨ys, hys, hlen, hq'⟩ := ih (fun z hz => h z (by simp [hz]))
    refine ⟨y :: ys, ?_, by simp [hlen], ?_⟩
    · rw [List.mapM_cons, hy, ok_bind, hys]; rfl
    · intro i z hz
      cases i with
      | zero => simp at hz; subst hz; exact ⟨y, rfl, hq⟩
      | succ i => simp at hz; simpa using hq' i z hz

theorem foldlM_spec {β σ : Type} (f : σ → β → M σ) (I : Nat → σ → Prop) : ∀ (l : List β) (k : Nat) (s : σ), I k s →
    (∀ (i : Nat) x s, l[i]? = some x → I (k + i) s → ∃ s', f s x = .ok s' ∧ I (k + i + 1) s') →
    ∃ s', l.foldlM f s = .ok s' ∧ I (k + l.length) s' := by
  intro l
  induction l with
  | nil => intro k s h _; exact ⟨s, rfl, h⟩
  | cons x l ih =>
    intro k s h hstep
    obtain ⟨s1, h1, h2⟩ := hstep 0 x s rfl h
    obtain ⟨s2, h3, h4⟩ := ih (k + 1) s1 h2 (fun i y s hy hi => by
      have := hstep (i + 1) y s (by simpa using hy) (by rw [show k + (i + 1) = k + 1 + i by omega]; exact hi)
      rw [show k + (i + 1) + 1 = k + 1 + i + 1 by omega] at this
      exact this)
    refine ⟨s2, ?_, ?_⟩
    · rw [List.foldlM_cons, h1, ok_bind]; exact h3
    · rw [List.length_cons, show k + (l.length + 1) = k + 1 + l.length by omega]; exact h4

end VQ
end Hwy
