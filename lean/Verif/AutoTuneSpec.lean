import Verif.AutoTuneRing
import Mathlib.Algebra.Order.Ring.Rat
import Mathlib.Algebra.Field.Rat

/-!
# `AutoTune` terminates with the candidate of lowest estimated cost (C16)
-/

namespace Hwy.Tune

open CostDist

variable {K : Type} [Field K] [LinearOrder K] [IsStrictOrderedRing K]

/-- How often candidate `i` was measured. -/
def measured (log : List (Nat × Nat)) (i : Nat) : Nat := (log.filter fun e => e.1 = i).length

/-- All costs reported for candidate `i` are within `[lo, hi]`. -/
def Within (log : List (Nat × Nat)) (i : Nat) (lo hi : K) : Prop :=
  ∀ c : Nat, (i, c) ∈ log → lo ≤ (c : K) ∧ (c : K) ≤ hi

theorem measured_append (log : List (Nat × Nat)) (j c i : Nat) :
    measured (log ++ [(j, c)]) i = measured log i + if j = i then 1 else 0 := by
  unfold measured
  rw [List.filter_append, List.length_append]
  by_cases h : j = i <;> simp [h]

theorem measured_pos {log : List (Nat × Nat)} {i : Nat} (h : 0 < measured log i) : ∃ c, (i, c) ∈ log := by
  unfold measured at h
  obtain ⟨e, he⟩ := List.exists_mem_of_length_pos h
  rw [List.mem_filter] at he
  obtain ⟨a, c⟩ := e
  simp only [decide_eq_true_eq] at he
  exact ⟨c, by rw [← he.2]; exact he.1⟩

/-! ## The search for the minimum -/

/-- Mean of the `j`-th distribution. -/
def meanAt (costs : List (CostDist K)) (j : Nat) : K := (costs.getD j (CostDist.init [])).Mean

theorem findMin_spec (sqrt : K → K) (hsq : ∀ x, 0 ≤ x → 0 ≤ sqrt x) (n : Nat) :
    ∀ fuel (costs : List (CostDist K)) (bc : K) (im i : Nat), i + fuel = n → costs.length = n →
      (∀ j, i ≤ j → j < n → ∀ d, costs[j]? = some d → Ready d ∧ ∃ lo hi, 0 ≤ lo ∧ Good lo hi d) →
      ∃ costs' bc' im', findMin sqrt costs bc im i fuel = .ok (costs', bc', im') ∧ costs'.length = n ∧
        (∀ j, j < i → costs'[j]? = costs[j]?) ∧
        (∀ j, i ≤ j → j < n → ∃ d d', costs[j]? = some d ∧ costs'[j]? = some d' ∧
          d.estimateCost sqrt = .ok (d', d'.Mean) ∧ d'.isOnline = true) ∧
        ((bc' = bc ∧ im' = im ∧ ∀ j, i ≤ j → j < n → bc ≤ meanAt costs' j) ∨
         (i ≤ im' ∧ im' < n ∧ bc' = meanAt costs' im' ∧ bc' < bc ∧
           ∀ j, i ≤ j → j < n → bc' ≤ meanAt costs' j ∧ (j < im' → bc' < meanAt costs' j))) := by
  intro fuel
  induction fuel with
  | zero =>
    intro costs bc im i hin hl _
    exact ⟨costs, bc, im, rfl, hl, fun _ _ => rfl, fun j h1 h2 => by omega, .inl ⟨rfl, rfl, fun j h1 h2 => by omega⟩⟩
  | succ fuel ih =>
    intro costs bc im i hin hl hg
    have hi : i < costs.length := by omega
    obtain ⟨hr, lo, hi', hlo, hgd⟩ := hg i (le_refl _) (by omega) costs[i] (List.getElem?_eq_getElem hi)
    obtain ⟨d', he, hon⟩ := estimate_good sqrt hsq lo hi' hlo costs[i] hgd hr
    have hon' : d'.isOnline = true := by simp only [isOnline, decide_eq_true_eq]; exact hon.on
    have hg' : ∀ j, i + 1 ≤ j → j < n → ∀ d, (costs.set i d')[j]? = some d → Ready d ∧ ∃ lo hi, 0 ≤ lo ∧ Good lo hi d := by
      intro j h1 h2 d hd
      rw [List.getElem?_set_ne (by omega)] at hd
      exact hg j (by omega) h2 d hd
    have key : ∀ bc im, ∃ costs' bc' im', findMin sqrt (costs.set i d') bc im (i + 1) fuel = .ok (costs', bc', im') ∧ costs'.length = n ∧
        (∀ j, j < i + 1 → costs'[j]? = (costs.set i d')[j]?) ∧
        (∀ j, i + 1 ≤ j → j < n → ∃ d d', costs[j]? = some d ∧ costs'[j]? = some d' ∧
          d.estimateCost sqrt = .ok (d', d'.Mean) ∧ d'.isOnline = true) ∧ meanAt costs' i = d'.Mean ∧
        ((bc' = bc ∧ im' = im ∧ ∀ j, i + 1 ≤ j → j < n → bc ≤ meanAt costs' j) ∨
         (i + 1 ≤ im' ∧ im' < n ∧ bc' = meanAt costs' im' ∧ bc' < bc ∧
           ∀ j, i + 1 ≤ j → j < n → bc' ≤ meanAt costs' j ∧ (j < im' → bc' < meanAt costs' j))) := by
      intro bc im
      obtain ⟨c', bc', im', e1, e2, e3, e4, e5⟩ := ih (costs.set i d') bc im (i + 1) (by omega) (by simpa using hl) hg'
      refine ⟨c', bc', im', e1, e2, e3, ?_, ?_, e5⟩
      · intro j h1 h2
        obtain ⟨d, d2, x1, x2⟩ := e4 j h1 h2
        rw [List.getElem?_set_ne (by omega)] at x1
        exact ⟨d, d2, x1, x2⟩
      · have := e3 i (by omega)
        rw [List.getElem?_set_self hi] at this
        unfold meanAt; rw [List.getD_eq_getElem?_getD, this]; rfl
    unfold findMin
    rw [readAt_of_lt hi, ok_bind', he, ok_bind']
    simp only []
    rw [writeAt_of_lt _ hi, ok_bind']
    have fin1 : ∀ costs' : List (CostDist K), (∀ j, j < i + 1 → costs'[j]? = (costs.set i d')[j]?) → (∀ j, j < i → costs'[j]? = costs[j]?) := by
      intro c' hc j hj
      rw [hc j (by omega), List.getElem?_set_ne (by omega)]
    have fin2 : ∀ costs' : List (CostDist K), (∀ j, j < i + 1 → costs'[j]? = (costs.set i d')[j]?) →
        (∀ j, i + 1 ≤ j → j < n → ∃ d d', costs[j]? = some d ∧ costs'[j]? = some d' ∧
          d.estimateCost sqrt = .ok (d', d'.Mean) ∧ d'.isOnline = true) →
        (∀ j, i ≤ j → j < n → ∃ d d', costs[j]? = some d ∧ costs'[j]? = some d' ∧
          d.estimateCost sqrt = .ok (d', d'.Mean) ∧ d'.isOnline = true) := by
      intro c' hc hn j h1 h2
      rcases Nat.eq_or_lt_of_le h1 with rfl | h1
      · refine ⟨costs[i], d', List.getElem?_eq_getElem hi, ?_, he, hon'⟩
        rw [hc i (by omega), List.getElem?_set_self hi]
      · exact hn j h1 h2
    split
    · rename_i hlt
      obtain ⟨c', bc', im', e1, e2, e3, e4, em, e5⟩ := key d'.Mean i
      refine ⟨c', bc', im', e1, e2, fin1 c' e3, fin2 c' e3 e4, .inr ?_⟩
      rcases e5 with ⟨rfl, rfl, h5⟩ | ⟨h6, h7, h8, h9, h10⟩
      · refine ⟨le_refl _, by omega, em.symm, hlt, fun j h1 h2 => ?_⟩
        rcases Nat.eq_or_lt_of_le h1 with rfl | h1
        · exact ⟨em.ge, fun h => by omega⟩
        · exact ⟨h5 j h1 h2, fun h => by omega⟩
      · refine ⟨by omega, h7, h8, lt_trans h9 hlt, fun j h1 h2 => ?_⟩
        rcases Nat.eq_or_lt_of_le h1 with rfl | h1
        · rw [em]; exact ⟨h9.le, fun _ => h9⟩
        · exact h10 j h1 h2
    · rename_i hlt
      rw [not_lt] at hlt
      obtain ⟨c', bc', im', e1, e2, e3, e4, em, e5⟩ := key bc im
      refine ⟨c', bc', im', e1, e2, fin1 c' e3, fin2 c' e3 e4, ?_⟩
      rcases e5 with ⟨rfl, rfl, h5⟩ | ⟨h6, h7, h8, h9, h10⟩
      · refine .inl ⟨rfl, rfl, fun j h1 h2 => ?_⟩
        rcases Nat.eq_or_lt_of_le h1 with rfl | h1
        · rw [em]; exact hlt
        · exact h5 j h1 h2
      · refine .inr ⟨by omega, h7, h8, h9, fun j h1 h2 => ?_⟩
        rcases Nat.eq_or_lt_of_le h1 with rfl | h1
        · rw [em]; exact ⟨le_trans h9.le hlt, fun _ => lt_of_lt_of_le h9 hlt⟩
        · exact h10 j h1 h2

/-! ## Invariant of the tuning loop -/

/-- The distributions reflect the log. -/
structure CostsInv (n : Nat) (costs : List (CostDist K)) (log : List (Nat × Nat)) : Prop where
  len : costs.length = n
  good : ∀ i d, costs[i]? = some d → ∀ lo hi, 0 ≤ lo → Within log i lo hi → Good lo hi d
  ready : ∀ i d, costs[i]? = some d → 0 < measured log i → Ready d
  small : ∀ e ∈ log, e.2 < 2 ^ 64

/-- State between two calls of `NotifyCost`, before the winner is known; `A` is the set of
candidates not skipped. -/
structure TInv (kMin n : Nat) (t : Tuner K) (A : Nat → Prop) (log : List (Nat × Nat)) : Prop where
  tn : t.n = n
  best : t.best = none
  costs : CostsInv n t.costs log
  ring : Ring n t.links A
  idx : A t.idx
  rounds : t.rounds < 3 * kMin / 2 + 1
  bound : log.length ≤ t.rounds * n + t.idx
  /-- no candidate at or after the current one has been skipped in the initial rounds -/
  ahead : t.rounds < max kMin 1 → ∀ r, t.idx ≤ r → r < n → A r
  count : t.rounds < max kMin 1 → ∀ i, i < n → t.rounds + (if i < t.idx then 1 else 0) ≤ measured log i
  all : t.rounds < kMin → (∀ r, r < n → A r) ∧ t.skipIfAbove = 0 ∧ log.length = t.rounds * n + t.idx
  enough : max kMin 1 ≤ t.rounds → ∀ i, i < n → max kMin 1 ≤ measured log i
  later : kMin ≤ t.rounds → kMin * n ≤ log.length
  sched : ∀ k e, log[k]? = some e → k < kMin * n → e.1 = k % n

/-- State after the winner was declared. -/
structure Done (kMin n : Nat) (t : Tuner K) (log : List (Nat × Nat)) : Prop where
  tn : t.n = n
  costs : CostsInv n t.costs log
  online : ∀ (i : Nat) (d : CostDist K), t.costs[i]? = some d → d.isOnline = true
  bound : log.length ≤ (3 * kMin / 2 + 1) * n
  enough : ∀ i, i < n → max kMin 1 ≤ measured log i
  sched : ∀ k e, log[k]? = some e → k < kMin * n → e.1 = k % n
  winner : ∃ b, t.best = some b ∧ b < n ∧ ∀ j, j < n → meanAt t.costs b ≤ meanAt t.costs j ∧
    (j < b → meanAt t.costs b < meanAt t.costs j)

theorem within_append {log : List (Nat × Nat)} {i j c : Nat} {lo hi : K} (h : Within (log ++ [(j, c)]) i lo hi) :
    Within log i lo hi := fun c hc => h c (List.mem_append_left _ hc)

theorem costs_set {n : Nat} {costs : List (CostDist K)} {log : List (Nat × Nat)} (h : CostsInv n costs log)
    {i c : Nat} (hc : c < 2 ^ 64) {d' : CostDist K}
    (hg : ∀ lo hi, 0 ≤ lo → Within (log ++ [(i, c)]) i lo hi → Good lo hi d') (hr : Ready d') :
    CostsInv n (costs.set i d') (log ++ [(i, c)]) := by
  refine ⟨by simp [h.len], ?_, ?_, ?_⟩
  · intro j d hd lo hi hlo hw
    by_cases hji : i = j
    · subst hji
      have hlt : i < costs.length := by
        by_contra hn
        rw [List.getElem?_eq_none (by simp; omega)] at hd; cases hd
      rw [List.getElem?_set_self hlt] at hd
      cases hd; exact hg lo hi hlo hw
    · rw [List.getElem?_set_ne hji] at hd
      exact h.good j d hd lo hi hlo (within_append hw)
  · intro j d hd hm
    by_cases hji : i = j
    · subst hji
      have hlt : i < costs.length := by
        by_contra hn
        rw [List.getElem?_eq_none (by simp; omega)] at hd; cases hd
      rw [List.getElem?_set_self hlt] at hd
      cases hd; exact hr
    · rw [List.getElem?_set_ne hji] at hd
      rw [measured_append, if_neg hji] at hm
      exact h.ready j d hd hm
  · intro e he
    rcases List.mem_append.mp he with he | he
    · exact h.small e he
    · simp at he; rw [he]; exact hc

/-- The end of a round preserves the invariant or declares the winner. -/
theorem endRound_spec (sqrt : K → K) (hsq : ∀ x, 0 ≤ x → 0 ≤ sqrt x) (highest : K) (hh : (2 : K) ^ 64 ≤ highest)
    (kMin n : Nat) (t : Tuner K) (A : Nat → Prop) (log : List (Nat × Nat))
    (tn : t.n = n) (best : t.best = none) (costs : CostsInv n t.costs log) (ring : Ring n t.links A) (idx : A t.idx)
    (rounds : t.rounds < 3 * kMin / 2 + 1) (bound : log.length ≤ (t.rounds + 1) * n)
    (count : t.rounds < max kMin 1 → ∀ i, i < n → t.rounds + 1 ≤ measured log i)
    (all : t.rounds + 1 < kMin → (∀ r, r < n → A r) ∧ t.idx = 0 ∧ t.skipIfAbove = 0)
    (exact : t.rounds < kMin → log.length = (t.rounds + 1) * n)
    (enough : max kMin 1 ≤ t.rounds → ∀ i, i < n → max kMin 1 ≤ measured log i)
    (later : kMin ≤ t.rounds → kMin * n ≤ log.length)
    (sched : ∀ k e, log[k]? = some e → k < kMin * n → e.1 = k % n) :
    ∃ t', endRound sqrt highest kMin t = .ok t' ∧ (TInv kMin n t' A log ∨ Done kMin n t' log) := by
  have hn : 0 < n := by
    obtain ⟨r, hr⟩ := ring.ne
    have := ring.sub r hr; omega
  have henough : max kMin 1 ≤ t.rounds + 1 → ∀ i, i < n → max kMin 1 ≤ measured log i := by
    intro h i hi
    rcases Nat.lt_or_ge t.rounds (max kMin 1) with h' | h'
    · have := count h' i hi; omega
    · exact enough h' i hi
  have hlater : kMin ≤ t.rounds + 1 → kMin * n ≤ log.length := by
    intro h
    rcases Nat.lt_or_ge t.rounds kMin with h' | h'
    · rw [exact h']; exact Nat.mul_le_mul_right n h
    · exact later h'
  unfold endRound
  simp only []
  split
  · rename_i hk
    have hk' : max kMin 1 ≤ t.rounds + 1 := by omega
    obtain ⟨c', bc', im', e1, e2, e3, e4, e5⟩ := findMin_spec sqrt hsq n n t.costs highest 0 0 (by omega) costs.len (by
      intro j _ hj d hd
      have hm : 0 < measured log j := by have := henough hk' j hj; omega
      refine ⟨costs.ready j d hd hm, 0, 2 ^ 64, le_refl _, costs.good j d hd 0 _ (le_refl _) ?_⟩
      intro c hc
      exact ⟨Nat.cast_nonneg c, by have := costs.small _ hc; exact_mod_cast this.le⟩)
    rw [tn, e1, ok_bind']
    simp only []
    have hcinv : CostsInv n c' log ∧ ∀ i d, c'[i]? = some d → d.isOnline = true ∧ (i < n → d.Mean < highest) := by
      have hsp : ∀ i d', c'[i]? = some d' → i < n ∧ ∃ d, t.costs[i]? = some d ∧ d.estimateCost sqrt = .ok (d', d'.Mean) ∧ d'.isOnline = true := by
        intro i d' hd'
        have hlt : i < n := by
          by_contra hc
          rw [List.getElem?_eq_none (by omega)] at hd'; cases hd'
        obtain ⟨d, d2, x1, x2, x3, x4⟩ := e4 i (by omega) hlt
        rw [x2] at hd'; cases hd'
        exact ⟨hlt, d, x1, x3, x4⟩
      have hgood : ∀ i d', c'[i]? = some d' → ∀ lo hi, 0 ≤ lo → Within log i lo hi → Online lo hi d' := by
        intro i d' hd' lo hi hlo hw
        obtain ⟨hlt, d, x1, x2, x3⟩ := hsp i d' hd'
        have hm : 0 < measured log i := by have := henough hk' i hlt; omega
        obtain ⟨d2, y1, y2⟩ := estimate_good sqrt hsq lo hi hlo d (costs.good i d x1 lo hi hlo hw) (costs.ready i d x1 hm)
        rw [x2] at y1
        have : d' = d2 := by injection y1 with y1; exact (Prod.mk.injEq ..).mp y1 |>.1
        rw [this]; exact y2
      refine ⟨⟨e2, fun i d hd lo hi hlo hw => .online (hgood i d hd lo hi hlo hw), fun i d hd _ => .inr (hsp i d hd).2.choose_spec.2.2, costs.small⟩, ?_⟩
      intro i d hd
      refine ⟨(hsp i d hd).2.choose_spec.2.2, fun _ => ?_⟩
      have := (hgood i d hd 0 (2 ^ 64 - 1) (le_refl _) (by
        intro c hc
        refine ⟨Nat.cast_nonneg c, ?_⟩
        have h64 := costs.small _ hc
        have h64' : c + 1 ≤ 2 ^ 64 := h64
        have : ((c + 1 : Nat) : K) ≤ ((2 ^ 64 : Nat) : K) := by exact_mod_cast h64'
        push_cast at this
        linarith)).mean.2
      linarith
    have hmean : ∀ j, j < n → meanAt c' j < highest := by
      intro j hj
      obtain ⟨d, d2, x1, x2, x3, x4⟩ := e4 j (by omega) hj
      unfold meanAt
      rw [List.getD_eq_getElem?_getD, x2]
      exact (hcinv.2 j d2 x2).2 hj
    split
    · rename_i hR
      refine ⟨_, rfl, .inr ⟨rfl, hcinv.1, fun i d hd => (hcinv.2 i d hd).1, by rw [← hR]; exact bound, henough hk', sched, im', rfl, ?_⟩⟩
      rcases e5 with ⟨x1, x2, x3⟩ | ⟨x1, x2, x3, x4, x5⟩
      · exact absurd (x3 0 (le_refl _) hn) (not_le.mpr (hmean 0 hn))
      · refine ⟨x2, fun j hj => ?_⟩
        have := x5 j (by omega) hj
        simp only []
        rw [← x3]; exact this
    · rename_i hR
      refine ⟨_, rfl, .inl ⟨rfl, best, hcinv.1, ring, idx, ?_, ?_, ?_, ?_, ?_, fun _ => henough hk', fun _ => hlater hk, sched⟩⟩
      · show t.rounds + 1 < _; omega
      · show log.length ≤ (t.rounds + 1) * n + t.idx; omega
      · intro h; simp only [] at h; omega
      · intro h; simp only [] at h; omega
      · intro h; simp only [] at h; omega
  · rename_i hk
    have hall := all (by omega)
    refine ⟨_, rfl, .inl ⟨tn, best, costs, ring, idx, ?_, ?_, ?_, ?_, ?_, ?_, ?_, sched⟩⟩
    · show t.rounds + 1 < _; omega
    · show log.length ≤ (t.rounds + 1) * n + t.idx; omega
    · intro _ r _ hr; exact hall.1 r hr
    · intro _ i hi
      show t.rounds + 1 + _ ≤ _
      simp only [hall.2.1]
      have := count (by omega) i hi
      simp; omega
    · intro _
      refine ⟨hall.1, hall.2.2, ?_⟩
      show log.length = (t.rounds + 1) * n + t.idx
      rw [exact (by omega), hall.2.1]; omega
    · intro h; simp only [] at h; omega
    · intro h; simp only [] at h; omega

theorem succ_unique_next {A : Nat → Prop} {n p q : Nat} (h : CyclicSucc A p q) (hA : ∀ r, p ≤ r → r < n → A r) (hs : ∀ r, A r → r < n) (hp : p < n) :
    (p + 1 < n ∧ q = p + 1) ∨ (p + 1 = n ∧ ∀ r, A r → q ≤ r) := by
  rcases h with ⟨hq, ⟨h1, h2⟩ | ⟨h1, h2⟩⟩
  · left
    have := hs q hq
    have := h2 (p + 1) (hA (p + 1) (by omega) (by omega)) (by omega)
    omega
  · right
    refine ⟨?_, h2⟩
    by_contra hc
    have := h1 (p + 1) (hA (p + 1) (by omega) (by omega))
    omega

/-- One call of `NotifyCost`. -/
theorem notifyCost_spec (sqrt : K → K) (hsq : ∀ x, 0 ≤ x → 0 ≤ sqrt x) (highest : K) (hh : (2 : K) ^ 64 ≤ highest)
    (kMin n : Nat) (t : Tuner K) (A : Nat → Prop) (log : List (Nat × Nat)) (h : TInv kMin n t A log) (c : Nat) (hc : c < 2 ^ 64) :
    ∃ t', notifyCost sqrt highest kMin t c = .ok t' ∧
      ((∃ A', TInv kMin n t' A' (log ++ [(t.idx, c)])) ∨ Done kMin n t' (log ++ [(t.idx, c)])) := by
  have hidx := h.ring.sub _ h.idx
  have hlen := h.costs.len
  unfold notifyCost
  rw [if_neg (by rw [h.best, h.tn]; simp; omega)]
  have hd0 : t.costs[t.idx]? = some t.costs[t.idx] := List.getElem?_eq_getElem (by omega)
  rw [readAt_of_lt (by omega), ok_bind']
  -- the new sample
  have hex : ∃ d1, t.costs[t.idx].notify sqrt (c : K) = .ok d1 ∧ Ready d1 ∧
      ∀ lo hi, 0 ≤ lo → Within (log ++ [(t.idx, c)]) t.idx lo hi → Good lo hi d1 := by
    have hw0 : Within (log ++ [(t.idx, c)]) t.idx (0 : K) (2 ^ 64) := by
      intro c' hc'
      refine ⟨Nat.cast_nonneg _, ?_⟩
      have : c' < 2 ^ 64 := by
        rcases List.mem_append.mp hc' with h' | h'
        · exact h.costs.small _ h'
        · simp at h'; rw [h']; exact hc
      exact_mod_cast this.le
    have hmem : (t.idx, c) ∈ log ++ [(t.idx, c)] := by simp
    obtain ⟨d1, e1, e2, e3⟩ := notify_good sqrt hsq 0 (2 ^ 64) (le_refl _) _
      (h.costs.good _ _ hd0 0 (2 ^ 64) (le_refl _) (within_append hw0)) (c : K) (hw0 c hmem)
    refine ⟨d1, e1, e3, ?_⟩
    intro lo hi hlo hw
    obtain ⟨d2, f1, f2, f3⟩ := notify_good sqrt hsq lo hi hlo _
      (h.costs.good _ _ hd0 lo hi hlo (within_append hw)) (c : K) (hw c hmem)
    rw [e1] at f1
    injection f1 with f1
    rw [f1]; exact f2
  obtain ⟨d1, e1, r1, g1⟩ := hex
  rw [e1, ok_bind']
  simp only []
  -- my_cost
  have hmc : ∃ d2 mc, myCost sqrt kMin t.rounds d1 = .ok (d2, mc) ∧ Ready d2 ∧ (t.rounds < kMin → mc = 0) ∧
      ∀ lo hi, 0 ≤ lo → Within (log ++ [(t.idx, c)]) t.idx lo hi → Good lo hi d2 := by
    unfold myCost
    split
    · rename_i hk
      have hw0 : Within (log ++ [(t.idx, c)]) t.idx (0 : K) (2 ^ 64) := by
        intro c' hc'
        refine ⟨Nat.cast_nonneg _, ?_⟩
        have : c' < 2 ^ 64 := by
          rcases List.mem_append.mp hc' with h' | h'
          · exact h.costs.small _ h'
          · simp at h'; rw [h']; exact hc
        exact_mod_cast this.le
      obtain ⟨d2, f1, f2⟩ := estimate_good sqrt hsq 0 (2 ^ 64) (le_refl _) d1 (g1 _ _ (le_refl _) hw0) r1
      refine ⟨d2, d2.Mean, f1, .inr (by simp only [isOnline, decide_eq_true_eq]; exact f2.on), fun h' => by omega, ?_⟩
      intro lo hi hlo hw
      obtain ⟨d3, k1, k2⟩ := estimate_good sqrt hsq lo hi hlo d1 (g1 _ _ hlo hw) r1
      rw [f1] at k1
      have : d2 = d3 := by injection k1 with k1; exact ((Prod.mk.injEq ..).mp k1).1
      rw [this]; exact .online k2
    · exact ⟨d1, 0, rfl, r1, fun _ => rfl, g1⟩
  obtain ⟨d2, mc, e2, r2, hmc0, g2⟩ := hmc
  rw [e2, ok_bind']
  simp only []
  rw [writeAt_of_lt _ (by omega), ok_bind']
  obtain ⟨q, e3, hsucc⟩ := h.ring.next h.idx
  rw [e3, ok_bind']
  have hcosts : CostsInv n (t.costs.set t.idx d2) (log ++ [(t.idx, c)]) := costs_set h.costs hc g2 r2
  -- skipping
  have hskip : ∃ links' A', maybeSkip t.skipIfAbove mc t.links t.idx = .ok links' ∧
      Ring n links' A' ∧ A' q ∧ (∀ r, A r → r ≠ t.idx → A' r) ∧ (∀ r, A' r → A r) ∧ (t.rounds < kMin → ∀ r, A r → A' r) := by
    unfold maybeSkip
    split
    · rename_i hgt
      obtain ⟨l', x1, x2⟩ := h.ring.skip h.idx
      refine ⟨l', _, x1, x2, ⟨hsucc.1, ?_⟩, fun r hr hne => ⟨hr, .inl hne⟩, fun r hr => hr.1, ?_⟩
      · by_cases hq : q = t.idx
        · right; rw [hq] at hsucc; exact hsucc.self
        · exact .inl hq
      · intro hk
        have := hmc0 hk
        have := (h.all hk).2.1
        rw [this, hmc0 hk] at hgt
        exact absurd hgt (lt_irrefl _)
    · exact ⟨t.links, A, rfl, h.ring, hsucc.1, fun r hr _ => hr, fun r hr => hr, fun _ r hr => hr⟩
  obtain ⟨links', A', e4, ring', hq', hkeep, hsub, hkeep0⟩ := hskip
  rw [e4, ok_bind']
  have hqn := ring'.sub q hq'
  have hsched : ∀ k e, (log ++ [(t.idx, c)])[k]? = some e → k < kMin * n → e.1 = k % n := by
    intro k e hk hlt
    rcases Nat.lt_or_ge k log.length with hkl | hkl
    · rw [List.getElem?_append_left hkl] at hk
      exact h.sched k e hk hlt
    · have hkeq : k = log.length := by
        by_contra hne
        rw [List.getElem?_eq_none (by simp; omega)] at hk; cases hk
      subst hkeq
      simp at hk
      have hlater := h.later
      have hr : t.rounds < kMin := by
        by_contra hc'
        have := hlater (by omega); omega
      rw [← hk, (h.all hr).2.2]
      simp [Nat.mod_eq_of_lt hidx]
  have hcountgen : ∀ i, measured log i ≤ measured (log ++ [(t.idx, c)]) i := by
    intro i; rw [measured_append]; omega
  have hcount' : t.rounds < max kMin 1 → ∀ i, i < n → t.rounds + (if i ≤ t.idx then 1 else 0) ≤ measured (log ++ [(t.idx, c)]) i := by
    intro hr i hi
    have := h.count hr i hi
    rw [measured_append]
    by_cases h1 : t.idx = i
    · subst h1; simp at this ⊢; omega
    · by_cases h2 : i < t.idx
      · simp [h2, h1, h2.le] at this ⊢; omega
      · have : ¬ i ≤ t.idx := by omega
        simp [h2, this] at *; omega
  split
  · -- round complete
    rename_i hwrap
    have hlast : t.rounds < max kMin 1 → t.idx + 1 = n ∧ ∀ r, A r → q ≤ r := by
      intro hr
      rcases succ_unique_next hsucc (h.ahead hr) h.ring.sub hidx with ⟨_, h2⟩ | h2
      · omega
      · exact h2
    obtain ⟨t', f1, f2⟩ := endRound_spec sqrt hsq highest hh kMin n
      { t with costs := t.costs.set t.idx d2, idx := q, links := links' } A' (log ++ [(t.idx, c)])
      h.tn h.best hcosts ring' hq' h.rounds
      (by have := h.bound; simp; rw [Nat.add_mul, Nat.one_mul]; omega)
      (by
        intro hr i hi
        have hl := hlast hr
        have := hcount' hr i hi
        rw [if_pos (by omega)] at this; exact this)
      (by
        intro hr
        have hr : t.rounds + 1 < kMin := hr
        have hall := h.all (by omega)
        have hl := hlast (by omega)
        refine ⟨fun r hr' => hkeep0 (by omega) r (hall.1 r hr'), ?_, hall.2.1⟩
        have := hl.2 0 (hall.1 0 (by omega))
        show q = 0
        omega)
      (by
        intro hr
        have hr : t.rounds < kMin := hr
        have hl := hlast (by omega)
        have := (h.all hr).2.2
        simp; rw [Nat.add_mul, Nat.one_mul]; omega)
      (by
        intro hr i hi
        exact le_trans (h.enough hr i hi) (hcountgen i))
      (by intro hr; have := h.later hr; simp; omega)
      hsched
    refine ⟨t', f1, ?_⟩
    rcases f2 with f2 | f2
    · exact .inl ⟨A', f2⟩
    · exact .inr f2
  · -- same round
    rename_i hnw
    have hnext : t.rounds < max kMin 1 → q = t.idx + 1 := by
      intro hr
      rcases succ_unique_next hsucc (h.ahead hr) h.ring.sub hidx with ⟨_, h2⟩ | ⟨_, h2⟩
      · exact h2
      · have := h2 t.idx h.idx; omega
    refine ⟨_, rfl, .inl ⟨A', h.tn, h.best, hcosts, ring', hq', h.rounds, ?_, ?_, ?_, ?_, ?_, ?_, hsched⟩⟩
    · have := h.bound
      show (log ++ [(t.idx, c)]).length ≤ t.rounds * n + q
      simp; omega
    · intro hr r h1 h2
      have h1 : q ≤ r := h1
      exact hkeep r (h.ahead hr r (by omega) h2) (by omega)
    · intro hr i hi
      have hq := hnext hr
      have := hcount' hr i hi
      show t.rounds + (if i < q then 1 else 0) ≤ _
      rw [hq]
      by_cases h1 : i ≤ t.idx
      · rw [if_pos h1] at this; rw [if_pos (by omega)]; exact this
      · rw [if_neg (by omega)]; omega
    · intro hr
      have hr : t.rounds < kMin := hr
      have hall := h.all hr
      have hq := hnext (by omega)
      refine ⟨fun r hr' => hkeep0 hr r (hall.1 r hr'), hall.2.1, ?_⟩
      show (log ++ [(t.idx, c)]).length = t.rounds * n + q
      simp; omega
    · intro hr i hi
      exact le_trans (h.enough hr i hi) (hcountgen i)
    · intro hr; have := h.later hr; simp; omega

/-! ## The whole tuning loop -/

theorem tune_spec (sqrt : K → K) (hsq : ∀ x, 0 ≤ x → 0 ≤ sqrt x) (highest : K) (hh : (2 : K) ^ 64 ≤ highest)
    (kMin n : Nat) : ∀ (cs : List Nat), (∀ c ∈ cs, c < 2 ^ 64) → ∀ (t : Tuner K) (A : Nat → Prop) (log : List (Nat × Nat)),
      TInv kMin n t A log → ∃ t' log', tune sqrt highest kMin t cs = .ok (t', log') ∧ log'.map Prod.snd = cs.take log'.length ∧
        ((log'.length = cs.length ∧ ∃ A', TInv kMin n t' A' (log ++ log')) ∨ Done kMin n t' (log ++ log')) := by
  intro cs
  induction cs with
  | nil => intro _ t A log h; exact ⟨t, [], rfl, rfl, .inl ⟨rfl, A, by simpa using h⟩⟩
  | cons c cs ih =>
    intro hcs t A log h
    unfold tune
    rw [if_neg (by simp [h.best])]
    obtain ⟨t1, e1, h1⟩ := notifyCost_spec sqrt hsq highest hh kMin n t A log h c (hcs c List.mem_cons_self)
    rw [e1, ok_bind']
    rcases h1 with ⟨A1, h1⟩ | h1
    · obtain ⟨t2, l2, e2, es, h2⟩ := ih (fun x hx => hcs x (List.mem_cons_of_mem _ hx)) t1 A1 _ h1
      rw [e2, ok_bind']
      refine ⟨t2, _, rfl, by simp [es], ?_⟩
      rw [List.append_assoc] at h2
      rcases h2 with ⟨h2, A2, h3⟩ | h2
      · exact .inl ⟨by simp [h2], A2, h3⟩
      · exact .inr h2
    · have : tune sqrt highest kMin t1 cs = .ok (t1, []) := by
        obtain ⟨b, hb, _⟩ := h1.winner
        cases cs with
        | nil => rfl
        | cons => unfold tune; rw [if_pos (by simp [hb])]
      rw [this, ok_bind']
      exact ⟨t1, _, rfl, by simp, .inr h1⟩

theorem exists_min (l : List Nat) (h : l ≠ []) : ∃ m ∈ l, ∀ x ∈ l, m ≤ x := by
  induction l with
  | nil => exact absurd rfl h
  | cons a l ih =>
    by_cases hl : l = []
    · subst hl; exact ⟨a, by simp⟩
    · obtain ⟨m, h1, h2⟩ := ih hl
      by_cases hma : m ≤ a
      · exact ⟨m, by simp [h1], fun x hx => by rcases List.mem_cons.mp hx with rfl | hx; exact hma; exact h2 x hx⟩
      · exact ⟨a, by simp, fun x hx => by rcases List.mem_cons.mp hx with rfl | hx; exact le_refl _; have := h2 x hx; omega⟩

theorem exists_max (l : List Nat) (h : l ≠ []) : ∃ m ∈ l, ∀ x ∈ l, x ≤ m := by
  induction l with
  | nil => exact absurd rfl h
  | cons a l ih =>
    by_cases hl : l = []
    · subst hl; exact ⟨a, by simp⟩
    · obtain ⟨m, h1, h2⟩ := ih hl
      by_cases hma : a ≤ m
      · exact ⟨m, by simp [h1], fun x hx => by rcases List.mem_cons.mp hx with rfl | hx; exact hma; exact h2 x hx⟩
      · exact ⟨a, by simp, fun x hx => by rcases List.mem_cons.mp hx with rfl | hx; exact le_refl _; have := h2 x hx; omega⟩

theorem init_inv (kMin n : Nat) (h0 : 0 < n) (hn : n < 2 ^ 14) (junk : List (List K)) (hj : junk.length = n)
    (hj' : ∀ l ∈ junk, l.length = kMaxValues) :
    ∃ t, setCandidates junk n = .ok t ∧ TInv kMin n t (fun r => r < n) [] := by
  obtain ⟨l, e, r⟩ := makeLinks_ring n h0 hn
  unfold setCandidates
  rw [if_neg (by omega), e, ok_bind']
  refine ⟨_, rfl, ⟨rfl, rfl, ⟨by simp [hj], ?_, ?_, by simp⟩, r, h0, by simp, by simp, fun _ r _ h => h, by simp [measured], ?_, ?_, ?_, by simp⟩⟩
  · intro i d hd lo hi _ _
    simp only [List.getElem?_map, Option.map_eq_some_iff] at hd
    obtain ⟨x, hx, rfl⟩ := hd
    exact init_good lo hi x (hj' x (List.mem_of_getElem? hx))
  · intro i d _ h; simp [measured] at h
  · intro h; exact ⟨fun r hr => hr, rfl, by simp⟩
  · intro h; simp at h
  · intro h
    have : kMin = 0 := by simpa using h
    simp [this]

/-- **C16** (termination and optimality).  For every number of candidates `1 ≤ n < 2^14`, every
`kMinSamples`, every initial memory contents and every sequence of at least
`n * (3 * kMinSamples / 2 + 1)` reported costs, the tuning loop runs without a failed assertion and
stops with a winner after at most that many measurements.  When it stops: every candidate was
measured at least `kMinSamples` times (and at least once); the first `n * kMinSamples` measurements
are round robin in candidate order; each candidate's estimate lies between the smallest and the
largest cost reported for it; and the winner's estimate is the smallest, the first one on ties.
(Exact arithmetic; `sqrt` is any function that is nonnegative on nonnegative arguments.) -/
theorem C16_autotune (sqrt : K → K) (hsq : ∀ x, 0 ≤ x → 0 ≤ sqrt x) (highest : K) (hh : (2 : K) ^ 64 ≤ highest)
    (kMin n : Nat) (h0 : 0 < n) (hn : n < 2 ^ 14) (junk : List (List K)) (hj : junk.length = n)
    (hj' : ∀ l ∈ junk, l.length = kMaxValues) (cs : List Nat) (hcs : ∀ c ∈ cs, c < 2 ^ 64)
    (hlen : n * (3 * kMin / 2 + 1) ≤ cs.length) :
    ∃ t log b, (setCandidates junk n >>= fun t => tune sqrt highest kMin t cs) = .ok (t, log) ∧
      log.map Prod.snd = cs.take log.length ∧ log.length ≤ n * (3 * kMin / 2 + 1) ∧
      t.best = some b ∧ b < n ∧
      (∀ i, i < n → kMin ≤ measured log i ∧ 1 ≤ measured log i) ∧
      (∀ k e, log[k]? = some e → k < n * kMin → e.1 = k % n) ∧
      ∃ est : Nat → K, (∀ i, i < n → ∃ d, t.costs[i]? = some d ∧ d.estimateCost sqrt = .ok (d, est i) ∧
          (∃ c, (i, c) ∈ log ∧ (c : K) ≤ est i) ∧ (∃ c, (i, c) ∈ log ∧ est i ≤ (c : K))) ∧
        (∀ i, i < n → est b ≤ est i) ∧ ∀ i, i < b → est b < est i := by
  obtain ⟨t0, e0, i0⟩ := init_inv kMin n h0 hn junk hj hj'
  obtain ⟨t, log, e1, es, h1⟩ := tune_spec sqrt hsq highest hh kMin n cs hcs t0 _ [] i0
  rw [List.nil_append] at h1
  have hd : Done kMin n t log := by
    rcases h1 with ⟨hl, A', h1⟩ | h1
    · exfalso
      have hb := h1.bound
      have hr := h1.rounds
      have hi := h1.ring.sub _ h1.idx
      have : (t.rounds + 1) * n ≤ (3 * kMin / 2 + 1) * n := Nat.mul_le_mul_right n hr
      rw [Nat.mul_comm n, ← hl] at hlen
      rw [Nat.add_mul, Nat.one_mul] at this
      omega
    · exact h1
  obtain ⟨b, hb, hbn, hw⟩ := hd.winner
  refine ⟨t, log, b, by rw [e0]; exact e1, es, by rw [Nat.mul_comm]; exact hd.bound, hb, hbn, ?_, ?_, meanAt t.costs, ?_, fun i hi => (hw i hi).1, fun i hi => (hw i (by omega)).2 hi⟩
  · intro i hi; have := hd.enough i hi; omega
  · intro k e hk hlt; rw [Nat.mul_comm] at hlt; exact hd.sched k e hk hlt
  · intro i hi
    have hlen' := hd.costs.len
    have hdi : t.costs[i]? = some t.costs[i] := List.getElem?_eq_getElem (by omega)
    have hon := hd.online i _ hdi
    have hme : meanAt t.costs i = t.costs[i].Mean := by
      unfold meanAt; rw [List.getD_eq_getElem?_getD, hdi]; rfl
    refine ⟨_, hdi, by rw [hme]; exact estimate_online sqrt _ hon, ?_⟩
    obtain ⟨c0, hc0⟩ := measured_pos (by have := hd.enough i hi; omega : 0 < measured log i)
    let l := (log.filter fun e => e.1 = i).map Prod.snd
    have hmem : ∀ c, c ∈ l ↔ (i, c) ∈ log := by
      intro c
      simp only [l, List.mem_map, List.mem_filter, decide_eq_true_eq]
      constructor
      · rintro ⟨⟨a, c'⟩, ⟨h1, h2⟩, h3⟩
        simp only [] at h2 h3; subst h2; subst h3; exact h1
      · intro h; exact ⟨(i, c), ⟨h, rfl⟩, rfl⟩
    have hne : l ≠ [] := List.ne_nil_of_mem ((hmem c0).mpr hc0)
    obtain ⟨mn, m1, m2⟩ := exists_min l hne
    obtain ⟨mx, x1, x2⟩ := exists_max l hne
    have hg := hd.costs.good i _ hdi (mn : K) (mx : K) (Nat.cast_nonneg _) (by
      intro c hc
      have hc' := (hmem c).mpr hc
      exact ⟨by exact_mod_cast m2 c hc', by exact_mod_cast x2 c hc'⟩)
    have hmean : (mn : K) ≤ t.costs[i].Mean ∧ t.costs[i].Mean ≤ (mx : K) := by
      cases hg with
      | online h => exact h.mean
      | fill h _ => simp [isOnline, h.off] at hon
    rw [hme]
    exact ⟨⟨mn, (hmem mn).mp m1, hmean.1⟩, ⟨mx, (hmem mx).mp x1, hmean.2⟩⟩

/-- Code defect: `Candidates()` and `HasCandidates()`, documented to be used after tuning has
finished, fail their debug assertion exactly then. -/
theorem C16_candidates_after_best (t : Tuner K) (h : t.best ≠ none) :
    hasCandidates t = .error .ub ∧ candidates t = .error .ub := by
  have : hasCandidates t = .error .ub := by unfold hasCandidates; rw [if_pos h]
  refine ⟨this, ?_⟩
  unfold candidates; rw [this]; rfl

/-! ## A concrete run: three candidates, candidate 1 is fastest, `kMinSamples = 2` -/

/-- Twelve measurements; every third one belongs to the fast candidate until one is skipped. -/
def exCosts : List Nat := [9, 3, 100, 9, 4, 101, 9, 3, 99, 9, 4, 100]
def exJunk : List (List ℚ) := List.replicate 3 (List.replicate 14 7)
/-- A stand-in for the square root that is exact on 0 and nonnegative. -/
def exSqrt (x : ℚ) : ℚ := x

example : ∃ t log b, (setCandidates exJunk 3 >>= fun t => tune exSqrt (2 ^ 64) 2 t exCosts) = .ok (t, log) ∧ t.best = some b :=
  let ⟨t, log, b, h, _, _, hb, _⟩ := C16_autotune (K := ℚ) exSqrt (fun _ h => h) (2 ^ 64) (le_refl _) 2 3 (by omega)
    (by omega) exJunk (by decide) (by decide) exCosts (by decide) (by decide)
  ⟨t, log, b, h, hb⟩

/-- The winner is candidate 1; candidates 0 and 2 were skipped, so only ten measurements are made. -/
example : ((setCandidates exJunk 3 >>= fun t => tune exSqrt (2 ^ 64) 2 t exCosts).toOption.map
    fun r => (r.1.best, r.2.map Prod.fst)) = some (some 1, [0, 1, 2, 0, 1, 2, 0, 1, 2, 1]) := by
  decide +kernel

end Hwy.Tune
