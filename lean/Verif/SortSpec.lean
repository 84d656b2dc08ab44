import Verif.Basic

/-! # What "sorted", "selected" etc. mean; independent of the code -/

namespace Hwy
namespace VQ

variable {α : Type}

/-- Requirements on a key comparison: a strict weak order. -/
structure IsOrder (lt : α → α → Bool) : Prop where
  irrefl : ∀ a, lt a a = false
  trans : ∀ a b c, lt a b = true → lt b c = true → lt a c = true
  /-- `b` cannot be equivalent to both ends of a strict pair. -/
  cotrans : ∀ a b c, lt a c = true → lt a b = true ∨ lt b c = true

/-- No later key comes before an earlier one. -/
def Sorted (lt : α → α → Bool) (l : List α) : Prop := l.Pairwise (fun x y => lt y x = false)

/-- The key at `k` is the one a full sort would put there: nothing before it comes after it, nothing after it
comes before it. -/
def Selected (lt : α → α → Bool) (l : List α) (k : Nat) : Prop :=
  ∃ x, l[k]? = some x ∧ (∀ y ∈ l.take k, lt x y = false) ∧ (∀ y ∈ l.drop (k + 1), lt y x = false)

/-- The first `k` keys are sorted and none of the others comes before any of them. -/
def PartiallySorted (lt : α → α → Bool) (l : List α) (k : Nat) : Prop :=
  Sorted lt (l.take k) ∧ ∀ x ∈ l.take k, ∀ y ∈ l.drop k, lt y x = false

theorem IsOrder.asymm {lt : α → α → Bool} (h : IsOrder lt) {a b : α} (hab : lt a b = true) : lt b a = false := by
  cases hba : lt b a with
  | false => rfl
  | true => exact absurd (h.trans a b a hab hba) (by simp [h.irrefl])

/-- Transitivity of "does not come after". -/
theorem IsOrder.le_trans {lt : α → α → Bool} (h : IsOrder lt) {a b c : α} (h1 : lt b a = false)
    (h2 : lt c b = false) : lt c a = false := by
  cases hca : lt c a with
  | false => rfl
  | true => rcases h.cotrans c b a hca with h3 | h3 <;> simp_all

end VQ
end Hwy
