import Verif.PoolInv1
import Mathlib.Algebra.BigOperators.Group.Finset.Basic
import Mathlib.Algebra.Order.BigOperators.Group.Finset
import Mathlib.Data.Finset.Card
import Mathlib.Tactic.IntervalCases

/-! # Barrier invariant of the thread-pool model: main passes the barrier only when every thread
reached it -/

namespace Hwy
namespace Pool

/-- Threads of shard `sh` (of `k`) that have reached the barrier of epoch `E`. -/
def cnt (n k E : Nat) (ep : Nat → Nat) (sh : Nat) : Nat :=
  ((Finset.range n).filter (fun i => i % k = sh ∧ ep i = E + 1)).card

structure Inv2 (P : Params) (s : St) : Prop where
  b1 : ∀ i, i < P.n → s.bar i < s.ep i
  b2 : s.mpc.inPhase = true → ∀ g, (barUsed s).kind = .group g → ∀ i, i < P.n →
    s.ep i = s.epoch + 1 → s.bar i = s.epoch
  b3 : s.mpc.inPhase = true → ∀ g, (barUsed s).kind = .group g → ∀ i, i < P.n → i % g = 0 →
    s.ep i = s.epoch + 1 → ∀ j, i < j → j < min (i + g) P.n → s.ep j = s.epoch + 1
  b4 : ∀ i, i < P.n → ∀ j, s.pc i = .lead j → ∃ g, (s.cfg i).barrier.kind = .group g ∧ i % g = 0 ∧
    ∀ m, i < m → m < j → s.ep m = s.epoch + 1
  b5 : s.mpc.inPhase = true → ∀ k, (barUsed s).kind = .counter k → ∀ sh, sh < k →
    s.bar (63 - sh) = cnt P.n k s.epoch s.ep sh
  b6 : ∀ j acc, s.mpc = .until j acc → ∀ k, (barUsed s).kind = .counter k →
    acc ≤ ∑ sh ∈ Finset.range j, s.bar (63 - sh)
  b7 : ∀ j acc, s.mpc = .until j acc → ∀ k, (barUsed s).kind = .counter k → j ≤ k
  b8 : ∀ j acc, s.mpc = .until j acc → ∀ g, (barUsed s).kind = .group g →
    j % g = 0 ∧ ∀ i, i < P.n → i < j → i % g = 0 → s.ep i = s.epoch + 1

theorem kind_counter (b : BarT) (k : Nat) (h : b.kind = .counter k) : k = 1 ∨ k = 2 ∨ k = 4 := by
  cases b <;> simp [BarT.kind] at h <;> omega

theorem kind_group (b : BarT) (g : Nat) (h : b.kind = .group g) : g = 1 ∨ g = 2 ∨ g = 4 := by
  cases b <;> simp [BarT.kind] at h <;> omega

theorem barUsed_eq (s : St) : barUsed s = (target s.op s.config).barrier := by
  unfold barUsed target; cases s.op <;> rfl

theorem inv2_init (P : Params) (s : St) (h : Init s) : Inv2 P s := by
  obtain ⟨h1, h2, h3, h4, h5, h6, h7, h8, h9, h10, h11, h12, h13⟩ := h
  constructor
  · intro i _; rw [h2, h5]; omega
  · rw [h7]; simp [MPC.inPhase]
  · rw [h7]; simp [MPC.inPhase]
  · intro i _ j; rw [h4]; simp
  · rw [h7]; simp [MPC.inPhase]
  · rw [h7]; simp
  · rw [h7]; simp
  · rw [h7]; simp

/-- The counters add up to the number of threads that reached the barrier. -/
theorem sum_cnt (n k E : Nat) (ep : Nat → Nat) (hk : 0 < k) :
    ∑ sh ∈ Finset.range k, cnt n k E ep sh =
      ((Finset.range n).filter (fun i => ep i = E + 1)).card := by
  rw [Finset.card_eq_sum_card_fiberwise (f := fun i => i % k) (t := Finset.range k)]
  · apply Finset.sum_congr rfl
    intro sh _
    unfold cnt
    congr 1
    ext i
    simp only [Finset.mem_filter]
    tauto
  · intro i _
    simp only [Finset.coe_range, Set.mem_Iio]
    exact Nat.mod_lt _ hk

/-- Main leaves the barrier only when every thread has reached it. -/
theorem barrier_sound {P : Params} {s s' : St} (hI : Inv2 P s) (hs : Step P s s')
    (h0 : s.mpc ≠ .fin) (h1 : s'.mpc = .fin) : ∀ i, i < P.n → s.ep i = s.epoch + 1 := by
  cases hs <;> try (exfalso; revert h1; simp_all [afterReached]; done)
  case mRun => exfalso; revert h1; dsimp only; split <;> simp
  case mCtrDone j acc k h2 h3 h4 h5 =>
    have hph : s.mpc.inPhase = true := by rw [h2]; rfl
    have hk := kind_counter _ _ h3
    have hjk : j = k := by have := hI.b7 j acc h2 k h3; omega
    subst hjk
    have hle := hI.b6 j acc h2 j h3
    have e1 : ∑ sh ∈ Finset.range j, s.bar (63 - sh) = ∑ sh ∈ Finset.range j, cnt P.n j s.epoch s.ep sh := by
      apply Finset.sum_congr rfl
      intro sh hsh
      exact hI.b5 hph j h3 sh (Finset.mem_range.mp hsh)
    rw [e1, sum_cnt _ _ _ _ (by omega), h5] at hle
    have hsub : (Finset.range P.n).filter (fun i => s.ep i = s.epoch + 1) = Finset.range P.n :=
      Finset.eq_of_subset_of_card_le (Finset.filter_subset _ _) (by rw [Finset.card_range]; exact hle)
    intro i hi
    have : i ∈ (Finset.range P.n).filter (fun i => s.ep i = s.epoch + 1) := by
      rw [hsub]; exact Finset.mem_range.mpr hi
    exact (Finset.mem_filter.mp this).2
  case mGrpDone j acc g h2 h3 h4 =>
    have hph : s.mpc.inPhase = true := by rw [h2]; rfl
    have hg := kind_group _ _ h3
    obtain ⟨_, hall⟩ := hI.b8 j acc h2 g h3
    intro i hi
    have hmle := Nat.mod_le i g
    have hlead := hall (i - i % g) (by omega) (by omega) (by rcases hg with rfl | rfl | rfl <;> omega)
    by_cases hm : i % g = 0
    · simpa [hm] using hlead
    · refine hI.b3 hph g h3 (i - i % g) (by omega) (by rcases hg with rfl | rfl | rfl <;> omega) hlead i
        (by omega) ?_
      have : i % g < g := Nat.mod_lt _ (by omega)
      omega

/-- Steps that touch neither barrier words nor epochs. -/
theorem inv2_frame {P : Params} {s s' : St} (h : Inv2 P s) (e1 : s'.bar = s.bar) (e2 : s'.ep = s.ep)
    (e3 : s'.epoch = s.epoch)
    (e4 : s'.mpc.inPhase = true → s.mpc.inPhase = true ∧ barUsed s' = barUsed s)
    (e5 : ∀ i, i < P.n → ∀ j, s'.pc i = .lead j → s.pc i = .lead j ∧ s'.cfg i = s.cfg i)
    (e6 : ∀ j acc, s'.mpc = .until j acc → s.mpc = .until j acc ∨ (j = 0 ∧ acc = 0)) : Inv2 P s' := by
  obtain ⟨h1, h2, h3, h4, h5, h6, h7, h8⟩ := h
  have hu : ∀ j acc, s'.mpc = .until j acc → s'.mpc.inPhase = true := by
    intro j acc h; rw [h]; rfl
  constructor
  · rw [e1, e2]; exact h1
  · intro hp; rw [(e4 hp).2, e1, e2, e3]; exact h2 (e4 hp).1
  · intro hp; rw [(e4 hp).2, e2, e3]; exact h3 (e4 hp).1
  · intro i hi j hj
    obtain ⟨a, b⟩ := e5 i hi j hj
    rw [b, e2, e3]; exact h4 i hi j a
  · intro hp; rw [(e4 hp).2, e1, e2, e3]; exact h5 (e4 hp).1
  · intro j acc hj k hk
    rw [(e4 (hu j acc hj)).2] at hk
    rw [e1]
    rcases e6 j acc hj with h | ⟨rfl, rfl⟩
    · exact h6 j acc h k hk
    · simp
  · intro j acc hj k hk
    rw [(e4 (hu j acc hj)).2] at hk
    rcases e6 j acc hj with h | ⟨rfl, rfl⟩
    · exact h7 j acc h k hk
    · simp
  · intro j acc hj g hk
    rw [(e4 (hu j acc hj)).2] at hk
    rw [e2, e3]
    rcases e6 j acc hj with h | ⟨rfl, rfl⟩
    · exact h8 j acc h g hk
    · simp

/-- A thread's barrier arrival: what remains to be shown is only the counter / flag bookkeeping. -/
theorem inv2_reach {P : Params} {s : St} (hn : P.n ≤ 60) (hI : Inv1 P s) (h : Inv2 P s) (i : Nat) (hi : i < P.n)
    (bar' : Nat → Nat) (hw : (s.pc i).isWait = false) (hx : s.pc i ≠ .exited)
    (hb1 : ∀ j, j < P.n → bar' j < if j = i then s.ep i + 1 else s.ep j)
    (hgrp : ∀ g, (barUsed s).kind = .group g → (∀ j, bar' j = if j = i then s.epoch else s.bar j) ∧
      (i % g = 0 → ∀ j, i < j → j < min (i + g) P.n → s.ep j = s.epoch + 1))
    (hctr : ∀ k, (barUsed s).kind = .counter k →
      ∀ j, bar' j = if j = 63 - i % k then s.bar j + 1 else s.bar j) :
    Inv2 P (afterReached { s with bar := bar' } i) := by
  obtain ⟨a0, a1, a2, a3, a4, a5, a6⟩ := tinv_phase (hI.t i hi) hw hx
  obtain ⟨h1, h2, h3, h4, h5, h6, h7, h8⟩ := h
  have hbu : barUsed (afterReached { s with bar := bar' } i) = barUsed s := rfl
  constructor
  · intro j hj
    simp only [afterReached, upd_apply]
    exact hb1 j hj
  · intro _ g hg j hj
    rw [hbu] at hg
    simp only [afterReached, upd_apply]
    rw [(hgrp g hg).1 j]
    by_cases hji : j = i
    · simp [hji]
    · simp only [hji, if_false]; exact h2 a1 g hg j hj
  · intro _ g hg j hj hjg
    rw [hbu] at hg
    simp only [afterReached, upd_apply]
    intro hje m hm1 hm2
    by_cases hmi : m = i
    · simp [hmi, a0]
    · rw [if_neg hmi]
      by_cases hji : j = i
      · subst hji; exact (hgrp g hg).2 hjg m hm1 hm2
      · rw [if_neg hji] at hje
        exact h3 a1 g hg j hj hjg hje m hm1 hm2
  · intro j hj m
    simp only [afterReached, upd_apply]
    intro hp
    by_cases hji : j = i
    · rw [if_pos hji] at hp; split at hp <;> simp at hp
    · rw [if_neg hji] at hp
      obtain ⟨g, g1, g2, g3⟩ := h4 j hj m hp
      refine ⟨g, g1, g2, fun q q1 q2 => ?_⟩
      by_cases hqi : q = i
      · simp [hqi, a0]
      · rw [if_neg hqi]; exact g3 q q1 q2
  · intro _ k hk sh hsh
    rw [hbu] at hk
    simp only [afterReached]
    rw [hctr k hk]
    have hk3 := kind_counter _ _ hk
    have h63 : 63 - sh = 63 - i % k ↔ sh = i % k := by
      have : i % k < k := Nat.mod_lt _ (by omega)
      omega
    rw [h5 a1 k hk sh hsh]
    by_cases hs' : sh = i % k
    · rw [if_pos (h63.mpr hs')]
      unfold cnt
      have hni : i ∉ (Finset.range P.n).filter (fun j => j % k = sh ∧ s.ep j = s.epoch + 1) := by
        simp [a0]
      rw [← Finset.card_insert_of_notMem hni]
      refine congrArg Finset.card (Finset.ext fun j => ?_)
      rw [Finset.mem_insert, Finset.mem_filter, Finset.mem_filter]
      simp only [Finset.mem_range, upd_apply]
      by_cases hji : j = i
      · subst hji; simp [hi, hs', a0]
      · simp [hji]
    · rw [if_neg (fun hc => hs' (h63.mp hc))]
      unfold cnt
      refine congrArg Finset.card (Finset.filter_congr fun j _ => ?_)
      simp only [upd_apply]
      by_cases hji : j = i
      · subst hji
        constructor
        · rintro ⟨hc, _⟩; exact absurd hc.symm hs'
        · rintro ⟨hc, _⟩; exact absurd hc.symm hs'
      · simp [hji]
  · intro j acc hj k hk
    rw [hbu] at hk
    refine le_trans (h6 j acc hj k hk) ?_
    apply Finset.sum_le_sum
    intro sh _
    simp only [afterReached]
    rw [hctr k hk]
    split <;> omega
  · intro j acc hj k hk
    exact h7 j acc hj k hk
  · intro j acc hj g hg
    obtain ⟨c1, c2⟩ := h8 j acc hj g hg
    refine ⟨c1, fun m m1 m2 m3 => ?_⟩
    simp only [afterReached, upd_apply]
    by_cases hmi : m = i
    · simp [hmi, a0]
    · rw [if_neg hmi]; exact c2 m m1 m2 m3

theorem cfg_bar {P : Params} {s : St} (hI : Inv1 P s) (i : Nat) (hi : i < P.n)
    (hp : (s.pc i).early = false) (hw : (s.pc i).isWait = false) (hx : s.pc i ≠ .exited) :
    (s.cfg i).barrier = barUsed s := by
  obtain ⟨a0, a1, a2, a3, a4, a5, a6⟩ := tinv_phase (hI.t i hi) hw hx
  rw [barUsed_eq, ((hI.t i hi).cfgMid a1 a0 hp).1]

theorem inv2_step {P : Params} {s s' : St} (hn : P.n ≤ 60) (hI : Inv1 P s) (h : Inv2 P s)
    (hs : Step P s s') : Inv2 P s' := by
  cases hs
  case mReset h1 =>
    have hep : ∀ i, i < P.n → s.ep i = s.epoch + 1 := fun i hi =>
      (hI.t i hi).ep_quiet (by rw [h1]; rfl)
    obtain ⟨c1, c2, c3, c4, c5, c6, c7, c8⟩ := h
    have hbu : barUsed { s with epoch := s.epoch + 1, bar := resetBar (barUsed s).kind s.bar, mpc := .wake 0 }
      = barUsed s := rfl
    have hnl : ∀ i, i < P.n → ∀ j, s.pc i ≠ .lead j := by
      intro i hi j hj
      have := (tinv_phase (hI.t i hi) (by rw [hj]; rfl) (by rw [hj]; simp)).1
      have := hep i hi
      omega
    constructor
    · intro i hi
      have := c1 i hi
      simp only [resetBar]
      cases hk : (barUsed s).kind with
      | group g => exact this
      | counter k =>
        have := kind_counter _ _ hk
        simp only
        rw [if_neg (by omega)]
        exact c1 i hi
    · intro _ g _ i hi h2
      have := hep i hi
      simp only at h2
      omega
    · intro _ g _ i hi _ h2
      have := hep i hi
      simp only at h2
      omega
    · intro i hi j hj
      exact absurd hj (hnl i hi j)
    · intro _ k hk sh hsh
      rw [hbu] at hk
      have hk3 := kind_counter _ _ hk
      simp only [resetBar, hk]
      rw [if_pos (by omega)]
      unfold cnt
      symm
      rw [Finset.card_eq_zero, Finset.filter_eq_empty_iff]
      intro i hi
      have := hep i (Finset.mem_range.mp hi)
      omega
    · intro j acc hj; simp at hj
    · intro j acc hj; simp at hj
    · intro j acc hj; simp at hj
  case mCtrLoad j acc k h1 h2 h3 =>
    obtain ⟨c1, c2, c3, c4, c5, c6, c7, c8⟩ := h
    have hbu : barUsed { s with mpc := .until (j + 1) (acc + s.bar (63 - j)) } = barUsed s := rfl
    have hph : s.mpc.inPhase = true := by rw [h1]; rfl
    refine ⟨c1, fun _ => c2 hph, fun _ => c3 hph, c4, fun _ => c5 hph, ?_, ?_, ?_⟩
    · intro j' acc' hj k' hk'
      simp only [MPC.until.injEq] at hj
      obtain ⟨rfl, rfl⟩ := hj
      rw [Finset.sum_range_succ]
      dsimp only
      have := c6 j acc h1 k' hk'
      omega
    · intro j' acc' hj k' hk'
      simp only [MPC.until.injEq] at hj
      rw [hbu, h2] at hk'
      simp only [BarK.counter.injEq] at hk'
      omega
    · intro j' acc' hj g hg
      rw [hbu, h2] at hg; simp at hg
  case mGrpPoll j acc g h1 h2 h3 h4 =>
    obtain ⟨c1, c2, c3, c4, c5, c6, c7, c8⟩ := h
    have hbu : barUsed { s with mpc := .until (j + g) acc } = barUsed s := rfl
    have hph : s.mpc.inPhase = true := by rw [h1]; rfl
    have hg3 := kind_group _ _ h2
    refine ⟨c1, fun _ => c2 hph, fun _ => c3 hph, c4, fun _ => c5 hph, ?_, ?_, ?_⟩
    · intro j' acc' hj k' hk'
      rw [hbu, h2] at hk'; simp at hk'
    · intro j' acc' hj k' hk'
      rw [hbu, h2] at hk'; simp at hk'
    · intro j' acc' hj g' hg'
      simp only [MPC.until.injEq] at hj
      rw [hbu, h2] at hg'
      simp only [BarK.group.injEq] at hg'
      subst hg'
      obtain ⟨d1, d2⟩ := c8 j acc h1 g h2
      refine ⟨?_, fun i hi hij hig => ?_⟩
      · rw [← hj.1]; simp [d1]
      · by_cases hlt : i < j
        · exact d2 i hi hlt hig
        · have hji : i = j := by
            rcases hg3 with rfl | rfl | rfl <;> omega
          subst hji
          have := c1 i hi
          rcases (hI.t i hi).ep_act with h5 | h5
          · omega
          · exact h5
  case tGroupLead i g h1 h2 h3 h4 =>
    obtain ⟨c1, c2, c3, c4, c5, c6, c7, c8⟩ := h
    refine ⟨c1, c2, c3, ?_, c5, c6, c7, c8⟩
    intro i' hi' j hj
    simp only [upd_apply] at hj
    by_cases hii : i' = i
    · subst hii
      simp only [if_true, WPC.lead.injEq] at hj
      subst hj
      exact ⟨g, h3, h4, fun m m1 m2 => by omega⟩
    · rw [if_neg hii] at hj
      exact c4 i' hi' j hj
  case tLeadPoll i j g h1 h2 h3 h4 h5 =>
    have a0 := (tinv_phase (hI.t i h1) (by rw [h2]; rfl) (by rw [h2]; simp)).1
    obtain ⟨c1, c2, c3, c4, c5, c6, c7, c8⟩ := h
    refine ⟨c1, c2, c3, ?_, c5, c6, c7, c8⟩
    intro i' hi' j' hj
    simp only [upd_apply] at hj
    by_cases hii : i' = i
    · subst hii
      simp only [if_true, WPC.lead.injEq] at hj
      subst hj
      obtain ⟨g', g1, g2, g3⟩ := c4 i' hi' j h2
      refine ⟨g', g1, g2, fun m m1 m2 => ?_⟩
      by_cases hmj : m = j
      · subst hmj
        have hm : m < P.n := by omega
        have := c1 m hm
        rcases (hI.t m hm).ep_act with h6 | h6
        · omega
        · exact h6
      · exact g3 m m1 (by omega)
    · rw [if_neg hii] at hj
      exact c4 i' hi' j' hj
  case tCounter i k h1 h2 h3 =>
    have hcb := cfg_bar hI i h1 (by rw [h2]; rfl) (by rw [h2]; rfl) (by rw [h2]; simp)
    have hk3 := kind_counter _ _ h3
    apply inv2_reach hn hI h i h1 _ (by rw [h2]; rfl) (by rw [h2]; simp)
    · intro j hj
      simp only [upd_apply]
      have hmk : i % k < k := Nat.mod_lt _ (by omega)
      rw [if_neg (by omega)]
      have := h.b1 j hj
      split
      · next hji => subst hji; omega
      · exact this
    · intro g hg
      rw [← hcb, h3] at hg; simp at hg
    · intro k' hk' j
      rw [← hcb, h3] at hk'
      simp only [BarK.counter.injEq] at hk'
      subst hk'
      simp only [upd_apply]
      split
      · next hj => rw [hj]
      · rfl
  case tGroupStore i g h1 h2 h3 h4 =>
    have a0 := (tinv_phase (hI.t i h1) (by rw [h2]; rfl) (by rw [h2]; simp)).1
    have hcb := cfg_bar hI i h1 (by rw [h2]; rfl) (by rw [h2]; rfl) (by rw [h2]; simp)
    apply inv2_reach hn hI h i h1 _ (by rw [h2]; rfl) (by rw [h2]; simp)
    · intro j hj
      simp only [upd_apply]
      have := h.b1 j hj
      split
      · omega
      · exact this
    · intro g' hg'
      rw [← hcb, h3] at hg'
      simp only [BarK.group.injEq] at hg'
      subst hg'
      refine ⟨fun j => by simp only [upd_apply, a0], fun hc => absurd hc h4⟩
    · intro k' hk' j
      rw [← hcb, h3] at hk'; simp at hk'
  case tLeadStore i j g h1 h2 h3 h4 =>
    have a0 := (tinv_phase (hI.t i h1) (by rw [h2]; rfl) (by rw [h2]; simp)).1
    have hcb := cfg_bar hI i h1 (by rw [h2]; rfl) (by rw [h2]; rfl) (by rw [h2]; simp)
    obtain ⟨g', g1, g2, g3⟩ := h.b4 i h1 j h2
    apply inv2_reach hn hI h i h1 _ (by rw [h2]; rfl) (by rw [h2]; simp)
    · intro j hj
      simp only [upd_apply]
      have := h.b1 j hj
      split
      · omega
      · exact this
    · intro g' hg'
      rw [← hcb, h3] at hg'
      simp only [BarK.group.injEq] at hg'
      subst hg'
      exact ⟨fun j => by simp only [upd_apply, a0], fun _ m m1 m2 => g3 m m1 (by omega)⟩
    · intro k' hk' j
      rw [← hcb, h3] at hk'; simp at hk'
  case mWakeAll h1 =>
    refine inv2_frame h rfl rfl rfl (fun hp => ⟨by rw [h1]; rfl, rfl⟩) (fun i hi j => ?_) (by simp)
    simp only [upd_apply, if_neg (show ¬ i = P.n by omega)]
    cases s.pc i <;> simp [wakeSleeper]
  case mRun b e h1 h2 h3 h4 h5 =>
    refine inv2_frame h rfl rfl rfl ?_ (fun i hi j hj => ⟨hj, rfl⟩) ?_
    · dsimp only; split <;> simp [MPC.inPhase]
    · dsimp only; split <;> simp
  case mSendDone c h1 h2 =>
    refine inv2_frame h rfl rfl rfl ?_ (fun i hi j hj => ⟨hj, rfl⟩) ?_
    · dsimp only; split <;> simp [MPC.inPhase]
    · dsimp only; split <;> simp
  case tLatch i h1 h2 =>
    refine inv2_frame h rfl rfl rfl (fun hp => ⟨hp, rfl⟩) (fun j hj m => ?_) (fun j acc hj => Or.inl hj)
    simp only [upd_apply]
    by_cases hji : j = i
    · simp [hji]
    · simp [hji]
  all_goals first
    | (refine inv2_frame h rfl rfl rfl (fun hp => ⟨hp, rfl⟩) (fun j hj m => ?_) (fun j acc hj => Or.inl hj)
       simp only [upd_apply]
       split
       · (try unfold contOf); (repeat' split) <;> simp
       · intro hh; first | exact ⟨hh, rfl⟩ | exact ⟨hh, trivial⟩)
    | (refine inv2_frame h rfl rfl rfl (by simp_all [MPC.inPhase, barUsed]) (fun j hj m => ?_) (by simp_all)
       try simp only [upd_apply]
       try rw [if_neg (by omega)]
       first | (intro hh; exact ⟨hh, rfl⟩) | (intro hh; exact ⟨hh, trivial⟩))

end Pool
end Hwy
