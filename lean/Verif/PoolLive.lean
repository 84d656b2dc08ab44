import Verif.PoolInv5
import Mathlib.Logic.Relation

/-! # Progress of the thread-pool model: every pending operation can be driven to completion -/

namespace Hwy
namespace Pool

/-- Finite executions. -/
def Steps (P : Params) : St → St → Prop := Relation.ReflTransGen (Step P)

theorem Steps.reach {P : Params} {s s' : St} (h : Steps P s s') (hr : Reach P s) : Reach P s' := by
  induction h with
  | refl => exact hr
  | tail _ hs ih => exact Reach.step _ _ ih hs

/-- main waits for the other workers of the phase or works itself. -/
def Active (s : St) : Prop := s.mpc = .running ∨ ∃ j a, s.mpc = .until j a

theorem active_phase {s : St} (h : Active s) : s.mpc.inPhase = true ∧ s.mpc.quiet = false ∧
    s.mpc ≠ .fin ∧ s.mpc ≠ .wakeAll ∧ s.mpc.isWake0 = false ∧ ∀ i, s.mpc.prewake i = false := by
  rcases h with h | ⟨j, a, h⟩ <;> rw [h] <;> simp [MPC.inPhase, MPC.quiet, MPC.isWake0, MPC.prewake]

/-- Remaining reservation work on the victims `vs`. -/
def rem (s : St) (vs : List Nat) : Nat := (vs.map (fun v => 3 * (s.me v - s.mb v) + 2)).sum

/-- Bound on the number of steps worker `w` still needs in this phase. -/
def wt (P : Params) (s : St) (w : Nat) : WPC → Nat
  | .sleep => 0
  | .fwait => P.n + rem s (P.vict w) + 34
  | .wait => P.n + rem s (P.vict w) + 33
  | .latch => P.n + rem s (P.vict w) + 32
  | .ldEnd => P.n + rem s (P.vict w) + 31
  | .ldBegin _ => P.n + rem s (P.vict w) + 30
  | .w1 => P.n + rem s (P.vict w) + 12
  | .w2 vs _ => P.n + rem s vs + 11
  | .w3 vs _ _ => P.n + rem s vs + 10
  | .call (some (vs, _)) _ _ => P.n + rem s vs + 12
  | .inCall (some (vs, _)) _ _ => P.n + rem s vs + 11
  | .s1 => P.n + 20
  | .s2 _ => P.n + 19
  | .s3 _ => P.n + 18
  | .call none _ _ => P.n + 17
  | .inCall none _ _ => P.n + 16
  | .arrive => P.n + 6
  | .lead j => P.n + 5 - j
  | .exited => 0

def mu (P : Params) (w : Nat) (s : St) : Nat := wt P s w (s.pc w)

/-- `s'` differs from `s` only in what worker `w` may change. -/
structure Solo (P : Params) (w : Nat) (s s' : St) : Prop where
  mpc : s'.mpc = s.mpc
  epoch : s'.epoch = s.epoch
  ep : ∀ j, j ≠ w → s'.ep j = s.ep j
  pc : ∀ j, j ≠ w → s'.pc j = s.pc j

theorem Solo.trans {P : Params} {w : Nat} {a b c : St} (h : Solo P w a b) (h' : Solo P w b c) :
    Solo P w a c :=
  ⟨h'.mpc.trans h.mpc, h'.epoch.trans h.epoch, fun j hj => (h'.ep j hj).trans (h.ep j hj),
    fun j hj => (h'.pc j hj).trans (h.pc j hj)⟩

theorem lead_gt {P : Params} {s : St} (hr : Reach P s) :
    ∀ i, i < P.n → ∀ j, s.pc i = .lead j → i < j := by
  induction hr with
  | init s h => intro i _ j hj; rw [h.2.2.2.1] at hj; simp at hj
  | step s s' _ hs ih =>
    intro i hi j hj
    cases hs
    case mWakeAll =>
      simp only [upd_apply] at hj
      split at hj
      · simp at hj
      · refine ih i hi j ?_
        cases h : s.pc i <;> simp [h, wakeSleeper] at hj ⊢
        exact hj
    all_goals first
      | exact ih i hi j hj
      | (dsimp only [afterReached] at hj
         simp only [upd_apply] at hj
         split at hj
         · first
             | (simp at hj; done)
             | (exfalso; revert hj; (try unfold contOf); (repeat' split) <;> simp; done)
             | (simp only [WPC.lead.injEq] at hj; subst hj; subst_vars; omega)
             | (simp only [WPC.lead.injEq] at hj; subst hj; subst_vars
                have := ih _ hi _ ‹_›; omega)
         · exact ih i hi j hj)

theorem solo_upd {P : Params} {s s' : St} (w : Nat) (p : WPC) (e1 : s'.mpc = s.mpc)
    (e2 : s'.epoch = s.epoch) (e3 : ∀ j, j ≠ w → s'.ep j = s.ep j) (e4 : s'.pc = upd s.pc w p) :
    Solo P w s s' :=
  ⟨e1, e2, e3, fun j hj => by rw [e4, upd_apply, if_neg hj]⟩

/-- A thread that has not reached the barrier of the current phase, all later ones having reached it,
can take a step towards it; main can take a step until its own share is done. -/
theorem solo_step {P : Params} (hn : P.n ≤ 60) (hv : VOk P) {s : St} (hr : Reach P s) (ha : Active s)
    (w : Nat) (hw : w ≤ P.n) (h1 : w < P.n → s.ep w = s.epoch)
    (h2 : w < P.n → ∀ j, w < j → j < P.n → s.ep j = s.epoch + 1)
    (h3 : w = P.n → s.pc P.n ≠ .arrive) :
    ∃ s', Step P s s' ∧ Solo P w s s' ∧ (s'.ep w = s.ep w ∧ mu P w s' < mu P w s ∨
      w < P.n ∧ s'.ep w = s.epoch + 1) := by
  obtain ⟨hI, hI2, hI3⟩ := reach_inv hn hv hr
  obtain ⟨a1, a2, a3, a4, a5, a6⟩ := active_phase ha
  have hl := hI.l w hw
  have hN : w = P.n → (s.pc w).runPc = true := by
    intro h
    subst h
    rcases ha with ha | ⟨j, a, ha⟩
    · exact hI.g.runN ha
    · exact absurd (hI.g.untN j a ha) (h3 rfl)
  have hnp : P.n ≠ 0 := hI.g.npos (Or.inr a1)
  have hw0 : s.waiter 0 = s.epoch := hI.g.wt0' a5 hnp
  have thr : (s.pc w).runPc = false → w < P.n := by
    intro h
    rcases Nat.lt_or_ge w P.n with h' | h'
    · exact h'
    · rw [hN (by omega)] at h; simp at h
  have hT := fun hlt : w < P.n => hI.t w hlt
  cases hpc : s.pc w with
  | wait =>
    have hwn := thr (by rw [hpc]; rfl)
    have ht := hT hwn
    have he := h1 hwn
    have hcf := (ht.cfgPre a1 he (by rw [hpc]; rfl)).1
    refine ⟨_, Step.tWoken s w hwn hpc ?_, solo_upd w _ rfl rfl (fun _ _ => rfl) rfl, Or.inl ⟨rfl, ?_⟩⟩
    · unfold woken
      rw [hcf]
      cases hc : s.config.wait with
      | block => have := ht.eppos; simp only; omega
      | spin1 => simp only; omega
      | spinSep => have := ht.wts a1 (a6 w) hc; simp only; omega
    · simp [mu, upd_apply, hpc, wt, rem]
  | fwait =>
    have hwn := thr (by rw [hpc]; rfl)
    have ht := hT hwn
    have he := h1 hwn
    refine ⟨_, Step.tEagain s w hwn hpc (by have := ht.eppos; omega),
      solo_upd w _ rfl rfl (fun _ _ => rfl) rfl, Or.inl ⟨rfl, ?_⟩⟩
    simp [mu, upd_apply, hpc, wt, rem]
  | sleep =>
    have hwn := thr (by rw [hpc]; rfl)
    have ht := hT hwn
    have he := h1 hwn
    rcases (ht.slp hpc).2 with h | h
    · omega
    · exact absurd h a4
  | latch =>
    have hwn := thr (by rw [hpc]; rfl)
    refine ⟨_, Step.tLatch s w hwn hpc, solo_upd w _ rfl rfl (fun _ _ => rfl) rfl, Or.inl ⟨rfl, ?_⟩⟩
    simp [mu, upd_apply, hpc, wt, rem]
  | ldEnd =>
    refine ⟨_, Step.rEnd s w hw hpc, solo_upd w _ rfl rfl (fun _ _ => rfl) rfl, Or.inl ⟨rfl, ?_⟩⟩
    simp [mu, upd_apply, hpc, wt, rem]
  | ldBegin e =>
    refine ⟨_, Step.rBegin s w e hw hpc, solo_upd w _ rfl rfl (fun _ _ => rfl) rfl, Or.inl ⟨rfl, ?_⟩⟩
    simp only [mu, upd_apply, hpc, if_true]
    split <;> simp [wt, rem] <;> omega
  | s1 =>
    refine ⟨_, Step.rS1 s w hw hpc, solo_upd w _ rfl rfl (fun _ _ => rfl) rfl, Or.inl ⟨rfl, ?_⟩⟩
    simp [mu, upd_apply, hpc, wt]
  | s2 b =>
    refine ⟨_, Step.rS2 s w b hw hpc, solo_upd w _ rfl rfl (fun _ _ => rfl) rfl, Or.inl ⟨rfl, ?_⟩⟩
    simp only [mu, upd_apply, hpc, if_true]
    split <;> simp [wt]
  | s3 t =>
    refine ⟨_, Step.rS3 s w t hw hpc, solo_upd w _ rfl rfl (fun _ _ => rfl) rfl, Or.inl ⟨rfl, ?_⟩⟩
    simp [mu, upd_apply, hpc, wt]
  | w1 =>
    refine ⟨_, Step.rW1 s w hw hpc, solo_upd w _ rfl rfl (fun _ _ => rfl) rfl, Or.inl ⟨rfl, ?_⟩⟩
    simp [mu, upd_apply, hpc, wt, rem]
  | w2 vs f =>
    cases vs with
    | nil =>
      refine ⟨_, Step.rW2Done s w f hw hpc, solo_upd w _ rfl rfl (fun _ _ => rfl) rfl, Or.inl ⟨rfl, ?_⟩⟩
      simp [mu, upd_apply, hpc, wt]; omega
    | cons v vs =>
      refine ⟨_, Step.rW2 s w v vs f hw hpc, solo_upd w _ rfl rfl (fun _ _ => rfl) rfl, Or.inl ⟨rfl, ?_⟩⟩
      simp [mu, upd_apply, hpc, wt, rem]
  | w3 vs oe f =>
    rw [hpc] at hl
    obtain ⟨l1, l2, l3, v, vs', rfl, l5⟩ := hl
    obtain ⟨q1, q2⟩ := suffix_vict hv hw l3
    refine ⟨_, Step.rW3 s w v vs' oe f hw hpc, solo_upd w _ rfl rfl (fun _ _ => rfl) rfl, Or.inl ⟨rfl, ?_⟩⟩
    simp only [mu, upd_apply, hpc, if_true]
    have hrest : (vs'.map (fun x => 3 * (s.me x - (upd s.mb v ((s.mb v + 1) % 2 ^ 64)) x) + 2)).sum =
        (vs'.map (fun x => 3 * (s.me x - s.mb x) + 2)).sum := by
      congr 1
      apply List.map_congr_left
      intro x hx
      rw [upd_apply, if_neg (by rintro rfl; exact q2 hx)]
    split
    · simp only [wt, rem, List.map_cons, List.sum_cons]
      rw [hrest]; omega
    · next hlt =>
      have ⟨id, b, e, ho⟩ : ∃ id b e, s.op = .run id b e := by
        obtain ⟨t1, t2, t3⟩ := hI.g.tasks (Or.inr a1)
        cases ho : s.op with
        | run id b e => exact ⟨id, b, e, rfl⟩
        | send1 c => rw [ho] at t1 t2; simp only [jobB, jobE] at t1 t2; omega
        | send2 c => rw [ho] at t1 t2; simp only [jobB, jobE] at t1 t2; omega
      obtain ⟨j1, j2, j3, j4, j5, j6⟩ := job_run hI a1 ho
      have hX := hI3.i10 a1 a3 id b e ho
      have hm := (hX.x3 (by omega) v q1).1
      have hle : rng P.n b e (v + 1) ≤ e := by
        have := rng_mono P.n b e (v + 1) (P.n + 1) (by omega)
        rwa [rng_last P.n b e j4] at this
      simp only [wt, rem, List.map_cons, List.sum_cons]
      rw [hrest, upd_apply, if_pos rfl, Nat.mod_eq_of_lt (show s.mb v + 1 < 2 ^ 64 by omega)]
      omega
  | call k t f =>
    cases f with
    | user id =>
      refine ⟨_, Step.rCallUser s w k t id hw hpc, solo_upd w _ rfl rfl (fun _ _ => rfl) rfl, Or.inl ⟨rfl, ?_⟩⟩
      rcases k with _ | ⟨vs, oe⟩ <;> simp [mu, upd_apply, hpc, wt, rem]
    | latch c =>
      refine ⟨_, Step.rCallLatch s w k t c hw hpc, solo_upd w _ rfl rfl (fun _ _ => rfl) rfl, Or.inl ⟨rfl, ?_⟩⟩
      rcases k with _ | ⟨vs, oe⟩ <;> simp [mu, upd_apply, hpc, wt, rem]
    | noop =>
      refine ⟨_, Step.rCallNoop s w k t hw hpc, solo_upd w _ rfl rfl (fun _ _ => rfl) rfl, Or.inl ⟨rfl, ?_⟩⟩
      rcases k with _ | ⟨vs, oe⟩ <;> simp [mu, upd_apply, hpc, wt, rem]
  | inCall k t f =>
    by_cases hf : ∃ id, f = .user id
    · obtain ⟨id, rfl⟩ := hf
      refine ⟨_, Step.rRetUser s w k t id hw hpc, solo_upd w _ rfl rfl (fun _ _ => rfl) rfl, Or.inl ⟨rfl, ?_⟩⟩
      rcases k with _ | ⟨vs, oe⟩ <;> simp [mu, upd_apply, hpc, wt, rem, contOf]
    · refine ⟨_, Step.rRetOther s w k t f hw hpc (fun id hc => hf ⟨id, hc⟩),
        solo_upd w _ rfl rfl (fun _ _ => rfl) rfl, Or.inl ⟨rfl, ?_⟩⟩
      rcases k with _ | ⟨vs, oe⟩ <;> simp [mu, upd_apply, hpc, wt, rem, contOf]
  | arrive =>
    have hwn : w < P.n := by
      rcases Nat.lt_or_ge w P.n with h | h
      · exact h
      · have : w = P.n := by omega
        subst this
        exact absurd hpc (h3 rfl)
    have he := h1 hwn
    cases hk : (s.cfg w).barrier.kind with
    | counter k =>
      refine ⟨_, Step.tCounter s w k hwn hpc hk, solo_upd w _ rfl rfl ?_ rfl, Or.inr ⟨hwn, ?_⟩⟩
      · intro j hj; simp [afterReached, upd_apply, hj]
      · simp [afterReached, upd_apply, he]
    | group g =>
      by_cases hg : w % g = 0
      · refine ⟨_, Step.tGroupLead s w g hwn hpc hk hg, solo_upd w _ rfl rfl (fun _ _ => rfl) rfl,
          Or.inl ⟨rfl, ?_⟩⟩
        simp only [mu, upd_apply, hpc, if_true, wt]; omega
      · refine ⟨_, Step.tGroupStore s w g hwn hpc hk hg, solo_upd w _ rfl rfl ?_ rfl, Or.inr ⟨hwn, ?_⟩⟩
        · intro j hj; simp [afterReached, upd_apply, hj]
        · simp [afterReached, upd_apply, he]
  | lead j =>
    have hwn := thr (by rw [hpc]; rfl)
    have he := h1 hwn
    have hgt := lead_gt hr w hwn j hpc
    obtain ⟨g, hk, hg, hall⟩ := hI2.b4 w hwn j hpc
    have hcb := cfg_bar hI w hwn (by rw [hpc]; rfl) (by rw [hpc]; rfl) (by rw [hpc]; simp)
    by_cases hj : j < min (w + g) P.n
    · have hbj : s.bar j = s.ep w := by
        rw [he]
        exact hI2.b2 a1 g (by rw [← hcb]; exact hk) j (by omega) (h2 hwn j hgt (by omega))
      refine ⟨_, Step.tLeadPoll s w j g hwn hpc hk hj hbj, solo_upd w _ rfl rfl (fun _ _ => rfl) rfl,
        Or.inl ⟨rfl, ?_⟩⟩
      simp only [mu, upd_apply, hpc, if_true, wt]; omega
    · refine ⟨_, Step.tLeadStore s w j g hwn hpc hk hj, solo_upd w _ rfl rfl ?_ rfl, Or.inr ⟨hwn, ?_⟩⟩
      · intro j hj; simp [afterReached, upd_apply, hj]
      · simp [afterReached, upd_apply, he]
  | exited =>
    have hwn := thr (by rw [hpc]; rfl)
    have := ((hT hwn).exit1 hpc).2
    have := h1 hwn
    omega

/-- Running one worker alone brings it to the barrier (threads) or to the end of its share (main). -/
theorem solo_run {P : Params} (hn : P.n ≤ 60) (hv : VOk P) (w : Nat) (hw : w ≤ P.n) :
    ∀ m s, mu P w s < m → Reach P s → Active s →
      (w < P.n → ∀ j, w < j → j < P.n → s.ep j = s.epoch + 1) →
      ∃ s', Steps P s s' ∧ Solo P w s s' ∧ (w < P.n → s'.ep w = s.epoch + 1) ∧
        (w = P.n → s'.pc P.n = .arrive ∧ s'.ep w = s.ep w) := by
  intro m
  induction m with
  | zero => intro s h; omega
  | succ m ih =>
    intro s hm hr ha h2
    by_cases hd : (w < P.n ∧ s.ep w = s.epoch + 1) ∨ (w = P.n ∧ s.pc P.n = .arrive)
    · refine ⟨s, Relation.ReflTransGen.refl, ⟨rfl, rfl, fun _ _ => rfl, fun _ _ => rfl⟩, ?_, ?_⟩
      · intro h; rcases hd with hd | hd
        · exact hd.2
        · omega
      · intro h; rcases hd with hd | hd
        · omega
        · exact ⟨hd.2, rfl⟩
    · push Not at hd
      have he : w < P.n → s.ep w = s.epoch := by
        intro h
        obtain ⟨hI, _, _⟩ := reach_inv hn hv hr
        rcases (hI.t w h).ep_act with h' | h'
        · exact h'
        · exact absurd h' (hd.1 h)
      obtain ⟨s1, st, so, hc⟩ := solo_step hn hv hr ha w hw he h2 hd.2
      have hr1 := Reach.step _ _ hr st
      rcases hc with ⟨c1, c2⟩ | ⟨c1, c2⟩
      · have ha1 : Active s1 := by unfold Active; rw [so.mpc]; exact ha
        obtain ⟨s2, q1, q2, q3, q4⟩ := ih s1 (by omega) hr1 ha1 (by
          intro h j hj hj'; rw [so.ep j (by omega), so.epoch]; exact h2 h j hj hj')
        refine ⟨s2, Relation.ReflTransGen.head st q1, so.trans q2, ?_, ?_⟩
        · intro h; rw [q3 h, so.epoch]
        · intro h; exact ⟨(q4 h).1, by rw [(q4 h).2, c1]⟩
      · refine ⟨s1, Relation.ReflTransGen.single st, so, fun _ => c2, fun h => by omega⟩

/-- All threads from `k` on can be brought to the barrier. -/
theorem threads_reach {P : Params} (hn : P.n ≤ 60) (hv : VOk P) : ∀ d k s, d + k = P.n →
    Reach P s → Active s → s.pc P.n = .arrive →
    ∃ s', Steps P s s' ∧ s'.mpc = s.mpc ∧ s'.epoch = s.epoch ∧ s'.pc P.n = .arrive ∧
      ∀ j, k ≤ j → j < P.n → s'.ep j = s'.epoch + 1 := by
  intro d
  induction d with
  | zero =>
    intro k s hk hr ha hp
    exact ⟨s, Relation.ReflTransGen.refl, rfl, rfl, hp, fun j h h' => by omega⟩
  | succ d ih =>
    intro k s hk hr ha hp
    obtain ⟨s1, q1, q2, q3, q4, q5⟩ := ih (k + 1) s (by omega) hr ha hp
    have hr1 := q1.reach hr
    have ha1 : Active s1 := by unfold Active; rw [q2]; exact ha
    obtain ⟨s2, p1, p2, p3, _⟩ := solo_run hn hv k (by omega) _ s1 (Nat.lt_succ_self _) hr1 ha1
      (fun _ j hj hj' => q5 j hj hj')
    refine ⟨s2, q1.trans p1, by rw [p2.mpc, q2], by rw [p2.epoch, q3],
      by rw [p2.pc P.n (by omega), q4], fun j hj hj' => ?_⟩
    by_cases hjk : j = k
    · subst hjk; rw [p3 hj', p2.epoch]
    · rw [p2.ep j hjk, q5 j (by omega) hj', p2.epoch]

/-- Main's counter loop, all threads having reached the barrier. -/
theorem counter_done {P : Params} (hn : P.n ≤ 60) (hv : VOk P) (k : Nat) : ∀ d j s, d + j = k →
    Reach P s → (barUsed s).kind = .counter k →
    (s.mpc = .until j (∑ sh ∈ Finset.range j, s.bar (63 - sh))) →
    (∀ i, i < P.n → s.ep i = s.epoch + 1) → ∃ s', Steps P s s' ∧ s'.mpc = .fin ∧ s'.op = s.op := by
  intro d
  induction d with
  | zero =>
    intro j s hd hr hk hm hall
    have hjk : j = k := by omega
    subst hjk
    obtain ⟨hI, hI2, hI3⟩ := reach_inv hn hv hr
    have hph : s.mpc.inPhase = true := by rw [hm]; rfl
    have hk0 := kind_counter _ _ hk
    have hacc : ∑ sh ∈ Finset.range j, s.bar (63 - sh) = P.n := by
      have e1 : ∑ sh ∈ Finset.range j, s.bar (63 - sh) =
          ∑ sh ∈ Finset.range j, cnt P.n j s.epoch s.ep sh := by
        apply Finset.sum_congr rfl
        intro sh hsh
        exact hI2.b5 hph j hk sh (Finset.mem_range.mp hsh)
      rw [e1, sum_cnt _ _ _ _ (by omega)]
      rw [Finset.filter_true_of_mem (fun i hi => hall i (Finset.mem_range.mp hi)), Finset.card_range]
    exact ⟨_, Relation.ReflTransGen.single (Step.mCtrDone s j _ j hm hk (by omega) hacc), rfl, rfl⟩
  | succ d ih =>
    intro j s hd hr hk hm hall
    have st := Step.mCtrLoad (P := P) s j _ k hm hk (by omega)
    obtain ⟨s', q1, q2, q3⟩ := ih (j + 1) _ (by omega) (Reach.step _ _ hr st) hk
      (by simp only [Finset.sum_range_succ]) hall
    exact ⟨s', Relation.ReflTransGen.head st q1, q2, q3⟩

/-- From any position of the counter loop main gets back to its start, or out of it. -/
theorem counter_restart {P : Params} (k : Nat) : ∀ d j acc s, d + j = k →
    (barUsed s).kind = .counter k → s.mpc = .until j acc →
    (∀ i, i < P.n → s.ep i = s.epoch + 1) →
    ∃ s', Steps P s s' ∧ s'.op = s.op ∧ s'.config = s.config ∧ s'.ep = s.ep ∧ s'.epoch = s.epoch ∧
      (s'.mpc = .fin ∨ s'.mpc = .until 0 0) := by
  intro d
  induction d with
  | zero =>
    intro j acc s hd hk hm hall
    by_cases hacc : acc = P.n
    · exact ⟨_, Relation.ReflTransGen.single (Step.mCtrDone s j acc k hm hk (by omega) hacc),
        rfl, rfl, rfl, rfl, Or.inl rfl⟩
    · exact ⟨_, Relation.ReflTransGen.single (Step.mCtrAgain s j acc k hm hk (by omega) hacc),
        rfl, rfl, rfl, rfl, Or.inr rfl⟩
  | succ d ih =>
    intro j acc s hd hk hm hall
    have st := Step.mCtrLoad (P := P) s j acc k hm hk (by omega)
    obtain ⟨s', q1, q2, q3, q4, q5, q6⟩ := ih (j + 1) (acc + s.bar (63 - j))
      { s with mpc := .until (j + 1) (acc + s.bar (63 - j)) } (by omega) hk rfl hall
    exact ⟨s', Relation.ReflTransGen.head st q1, q2, q3, q4, q5, q6⟩

theorem group_done {P : Params} (hn : P.n ≤ 60) (hv : VOk P) (g : Nat) : ∀ d j acc s, P.n ≤ d + j →
    Reach P s → (barUsed s).kind = .group g → s.mpc = .until j acc →
    (∀ i, i < P.n → s.ep i = s.epoch + 1) → ∃ s', Steps P s s' ∧ s'.mpc = .fin ∧ s'.op = s.op := by
  intro d
  induction d with
  | zero =>
    intro j acc s hd hr hk hm hall
    exact ⟨_, Relation.ReflTransGen.single (Step.mGrpDone s j acc g hm hk (by omega)), rfl, rfl⟩
  | succ d ih =>
    intro j acc s hd hr hk hm hall
    obtain ⟨hI, hI2, hI3⟩ := reach_inv hn hv hr
    have hg := kind_group _ _ hk
    by_cases hj : j < P.n
    · have st := Step.mGrpPoll (P := P) s j acc g hm hk hj
        (hI2.b2 (by rw [hm]; rfl) g hk j hj (hall j hj))
      obtain ⟨s', q1, q2, q3⟩ := ih (j + g) acc _ (by omega) (Reach.step _ _ hr st) hk rfl hall
      exact ⟨s', Relation.ReflTransGen.head st q1, q2, q3⟩
    · exact ⟨_, Relation.ReflTransGen.single (Step.mGrpDone s j acc g hm hk hj), rfl, rfl⟩

theorem until_done {P : Params} (hn : P.n ≤ 60) (hv : VOk P) {s : St} {j acc : Nat} (hr : Reach P s)
    (hm : s.mpc = .until j acc) (hall : ∀ i, i < P.n → s.ep i = s.epoch + 1) :
    ∃ s', Steps P s s' ∧ s'.mpc = .fin ∧ s'.op = s.op := by
  obtain ⟨hI, hI2, hI3⟩ := reach_inv hn hv hr
  cases hk : (barUsed s).kind with
  | group g => exact group_done hn hv g P.n j acc s (by omega) hr hk hm hall
  | counter k =>
    have hjk := hI2.b7 j acc hm k hk
    obtain ⟨s1, q1, q2, q3, q4, q5, q6⟩ := counter_restart (P := P) k (k - j) j acc s (by omega) hk hm hall
    rcases q6 with q6 | q6
    · exact ⟨s1, q1, q6, q2⟩
    · have hk1 : (barUsed s1).kind = .counter k := by
        rw [barUsed_eq, q2, q3, ← barUsed_eq]; exact hk
      obtain ⟨s2, p1, p2, p3⟩ := counter_done hn hv k k 0 s1 (by omega) (q1.reach hr) hk1
        (by rw [q6]; simp) (by rw [q4, q5]; exact hall)
      exact ⟨s2, q1.trans p1, p2, by rw [p3, q2]⟩

theorem op_steps {P : Params} {s s' : St} (h : Step P s s') (hp : s.mpc.inPhase = true) (hf : s.mpc ≠ .fin) :
    s'.op = s.op := by
  cases h <;> first | rfl | (exfalso; simp_all [MPC.inPhase]; done)

/-- An active phase can be completed. -/
theorem active_done {P : Params} (hn : P.n ≤ 60) (hv : VOk P) {s : St} (hr : Reach P s)
    (ha : Active s) : ∃ s', Steps P s s' ∧ s'.mpc = .fin := by
  obtain ⟨s1, q1, q2, q3, q4⟩ := solo_run hn hv P.n (le_refl _) _ s (Nat.lt_succ_self _) hr ha
    (fun h => by omega)
  have hp1 := (q4 rfl).1
  have hr1 := q1.reach hr
  have ha1 : Active s1 := by unfold Active; rw [q2.mpc]; exact ha
  obtain ⟨s2, p1, p2, p3, p4, p5⟩ := threads_reach hn hv P.n 0 s1 (by omega) hr1 ha1 hp1
  have hr2 := p1.reach hr1
  have hall : ∀ i, i < P.n → s2.ep i = s2.epoch + 1 := fun i hi => p5 i (by omega) hi
  have ha2 : Active s2 := by unfold Active; rw [p2]; exact ha1
  rcases ha2 with ha2 | ⟨j, a, ha2⟩
  · have st := Step.mRan (P := P) s2 ha2 p4
    obtain ⟨s3, r1, r2, _⟩ := until_done hn hv (Reach.step _ _ hr2 st) rfl hall
    exact ⟨s3, (q1.trans p1).trans (Relation.ReflTransGen.head st r1), r2⟩
  · obtain ⟨s3, r1, r2, _⟩ := until_done hn hv hr2 ha2 hall
    exact ⟨s3, (q1.trans p1).trans r1, r2⟩

theorem wake_running {P : Params} : ∀ d k s, d + k = P.n → s.mpc = .wake k →
    ∃ s', Steps P s s' ∧ s'.mpc = .running := by
  intro d
  induction d with
  | zero =>
    intro k s hd hm
    cases hc : s.config.wait with
    | block =>
      refine ⟨_, Relation.ReflTransGen.head (Step.mWakeBlock s k hm hc)
        (Relation.ReflTransGen.single (Step.mWakeAll _ rfl)), rfl⟩
    | spin1 => exact ⟨_, Relation.ReflTransGen.single (Step.mWakeSpin1 s k hm hc), rfl⟩
    | spinSep => exact ⟨_, Relation.ReflTransGen.single (Step.mWakeSepDone s k hm hc (by omega)), rfl⟩
  | succ d ih =>
    intro k s hd hm
    cases hc : s.config.wait with
    | block =>
      refine ⟨_, Relation.ReflTransGen.head (Step.mWakeBlock s k hm hc)
        (Relation.ReflTransGen.single (Step.mWakeAll _ rfl)), rfl⟩
    | spin1 => exact ⟨_, Relation.ReflTransGen.single (Step.mWakeSpin1 s k hm hc), rfl⟩
    | spinSep =>
      obtain ⟨s1, st, e1⟩ : ∃ s1, Step P s s1 ∧ s1.mpc = .wake (k + 1) :=
        ⟨_, Step.mWakeSep (P := P) s k hm hc (by omega), rfl⟩
      obtain ⟨s', q1, q2⟩ := ih (k + 1) s1 (by omega) e1
      exact ⟨s', Relation.ReflTransGen.head st q1, q2⟩

theorem phase_done {P : Params} (hn : P.n ≤ 60) (hv : VOk P) {s : St} (hr : Reach P s)
    (hp : s.mpc.inPhase = true) : ∃ s', Steps P s s' ∧ s'.mpc = .fin := by
  cases hm : s.mpc with
  | wake k =>
    obtain ⟨hI, _, _⟩ := reach_inv hn hv hr
    have hk := (hI.g.wake0 k hm).2
    obtain ⟨s1, q1, q2⟩ := wake_running (P := P) (P.n - k) k s (by omega) hm
    obtain ⟨s2, p1, p2⟩ := active_done hn hv (q1.reach hr) (Or.inl q2)
    exact ⟨s2, q1.trans p1, p2⟩
  | wakeAll =>
    have st := Step.mWakeAll (P := P) s hm
    obtain ⟨s2, p1, p2⟩ := active_done hn hv (Reach.step _ _ hr st) (Or.inl rfl)
    exact ⟨s2, Relation.ReflTransGen.head st p1, p2⟩
  | running => exact active_done hn hv hr (Or.inl hm)
  | «until» j a => exact active_done hn hv hr (Or.inr ⟨j, a, hm⟩)
  | fin => exact ⟨s, Relation.ReflTransGen.refl, hm⟩
  | _ => rw [hm] at hp; simp [MPC.inPhase] at hp

theorem reset_done {P : Params} (hn : P.n ≤ 60) (hv : VOk P) {s : St} (hr : Reach P s)
    (hm : s.mpc = .reset) : ∃ s', Steps P s s' ∧ s'.mpc = .fin := by
  have st := Step.mReset (P := P) s hm
  obtain ⟨s2, p1, p2⟩ := phase_done hn hv (Reach.step _ _ hr st) rfl
  exact ⟨s2, Relation.ReflTransGen.head st p1, p2⟩

/-- The operation main executes, with the number of phases it still needs after the current one. -/
def more : Op → Nat | .send1 _ => 1 | _ => 0

theorem more_steps {P : Params} {s s' : St} (hs : Step P s s') (hp : s.mpc.inPhase = true)
    (hf : s.mpc ≠ .fin) : s'.op = s.op ∧ s'.mpc.inPhase = true := by
  cases hs <;> first
    | exact ⟨rfl, hp⟩
    | exact ⟨rfl, rfl⟩
    | (exfalso; simp_all [MPC.inPhase]; done)

/-- Along any execution from within a phase, the phase ends with its operation unchanged. -/
theorem phase_done' {P : Params} (hn : P.n ≤ 60) (hv : VOk P) {s : St} (hr : Reach P s)
    (hp : s.mpc.inPhase = true) : ∃ s', Steps P s s' ∧ s'.mpc = .fin ∧ s'.op = s.op := by
  obtain ⟨s1, q1, q2⟩ := phase_done hn hv hr hp
  have key : ∀ a, Steps P a s1 → a.mpc.inPhase = true →
      ∃ s', Steps P a s' ∧ s'.mpc = .fin ∧ s'.op = a.op := by
    intro a h
    induction h using Relation.ReflTransGen.head_induction_on with
    | refl => intro _; exact ⟨s1, Relation.ReflTransGen.refl, q2, rfl⟩
    | head hab hbc ih =>
      rename_i a b
      intro ha
      by_cases hf : a.mpc = .fin
      · exact ⟨a, Relation.ReflTransGen.refl, hf, rfl⟩
      · obtain ⟨e1, e2⟩ := more_steps hab ha hf
        obtain ⟨s', p1, p2, p3⟩ := ih e2
        exact ⟨s', Relation.ReflTransGen.head hab p1, p2, by rw [p3, e1]⟩
  exact key s q1 hp

/-- main is outside any pool function, or the pool is destroyed. -/
def Settled (s : St) : Prop := s.mpc = .idle ∨ s.mpc = .dead

theorem fin_done {P : Params} (hn : P.n ≤ 60) (hv : VOk P) : ∀ m s, more s.op = m → Reach P s →
    s.mpc = .fin → ∃ s', Steps P s s' ∧ Settled s' := by
  intro m
  induction m using Nat.strong_induction_on with
  | _ m ih =>
    intro s hmore hr hm
    cases ho : s.op with
    | run id b e =>
      exact ⟨_, Relation.ReflTransGen.single (Step.mRunRet s id b e hm ho), Or.inl rfl⟩
    | send1 c =>
      obtain ⟨s1, st, e1, e2⟩ : ∃ s1, Step P s s1 ∧ s1.mpc = .reset ∧ s1.op = .send2 c :=
        ⟨_, Step.mSend2 (P := P) s c hm ho, rfl, rfl⟩
      have hr1 := Reach.step _ _ hr st
      obtain ⟨s1', st2, e3, e4⟩ : ∃ s1', Step P s1 s1' ∧ s1'.mpc = .wake 0 ∧ s1'.op = s1.op :=
        ⟨_, Step.mReset (P := P) s1 e1, rfl, rfl⟩
      have hr2 := Reach.step _ _ hr1 st2
      obtain ⟨s2, p1, p2, p3⟩ := phase_done' hn hv hr2 (by rw [e3]; rfl)
      obtain ⟨s3, r1, r2⟩ := ih 0 (by rw [← hmore, ho]; simp [more]) s2 (by rw [p3, e4, e2]; rfl) (p1.reach hr2) p2
      exact ⟨s3, Relation.ReflTransGen.head st (Relation.ReflTransGen.head st2 (p1.trans r1)), r2⟩
    | send2 c =>
      have st := Step.mSendDone (P := P) s c hm ho
      have hr1 := Reach.step _ _ hr st
      by_cases hc : c.exit = true
      · rw [hc] at st hr1
        obtain ⟨hI, _, _⟩ := reach_inv hn hv hr1
        have hall : ∀ i, i < P.n → s.pc i = .exited := by
          intro i hi
          have ht := hI.t i hi
          have e1 := ht.ep_quiet rfl
          have e2 := ht.cfgEnd rfl
          exact ht.exit2 e1 (by rw [e2]; exact hc)
        exact ⟨_, Relation.ReflTransGen.head st (Relation.ReflTransGen.single
          (Step.mJoin _ rfl hall)), Or.inr rfl⟩
      · exact ⟨_, Relation.ReflTransGen.single st, Or.inl (by simp [hc])⟩

theorem div_done {P : Params} : ∀ d v x s, d + v = P.n + 1 → s.mpc = .div v x →
    ∃ s', Steps P s s' ∧ s'.mpc = .reset := by
  intro d
  induction d with
  | zero =>
    intro v x s hd hm
    exact ⟨_, Relation.ReflTransGen.single (Step.mDivDone s v x hm (by omega)), rfl⟩
  | succ d ih =>
    intro v x s hd hm
    obtain ⟨s1, y, st, e1⟩ : ∃ s1 y, Step P s s1 ∧ s1.mpc = .div (v + 1) y :=
      ⟨_, _, Step.mDiv (P := P) s v x hm (by omega), rfl⟩
    obtain ⟨s', q1, q2⟩ := ih (v + 1) y s1 (by omega) e1
    exact ⟨s', Relation.ReflTransGen.head st q1, q2⟩

theorem inl_done {P : Params} : ∀ d id b e t s, d + t = e → s.mpc = .inl id b e t →
    ∃ s', Steps P s s' ∧ s'.mpc = .idle := by
  intro d
  induction d with
  | zero =>
    intro id b e t s hd hm
    exact ⟨_, Relation.ReflTransGen.single (Step.mInlDone s id b e t hm (by omega)), rfl⟩
  | succ d ih =>
    intro id b e t s hd hm
    obtain ⟨s1, st, e1⟩ : ∃ s1, Step P s s1 ∧ s1.mpc = .inlC id b e t :=
      ⟨_, Step.mInlCall (P := P) s id b e t hm (by omega), rfl⟩
    obtain ⟨s2, st2, e2⟩ : ∃ s2, Step P s1 s2 ∧ s2.mpc = .inl id b e (t + 1) :=
      ⟨_, Step.mInlRet (P := P) s1 id b e t e1, rfl⟩
    obtain ⟨s', q1, q2⟩ := ih id b e (t + 1) s2 (by omega) e2
    exact ⟨s', Relation.ReflTransGen.head st (Relation.ReflTransGen.head st2 q1), q2⟩

/-- Whatever the pool is doing, there is a continuation that completes it. -/
theorem completes {P : Params} (hn : P.n ≤ 60) (hv : VOk P) {s : St} (hr : Reach P s) :
    ∃ s', Steps P s s' ∧ Settled s' := by
  have fin : ∀ a, Reach P a → a.mpc = .fin → ∃ s', Steps P a s' ∧ Settled s' :=
    fun a ha hm => fin_done hn hv _ a rfl ha hm
  have viaReset : ∀ a, Reach P a → a.mpc = .reset → ∃ s', Steps P a s' ∧ Settled s' := by
    intro a ha hm
    obtain ⟨s1, q1, q2⟩ := reset_done hn hv ha hm
    obtain ⟨s2, p1, p2⟩ := fin s1 (q1.reach ha) q2
    exact ⟨s2, q1.trans p1, p2⟩
  obtain ⟨hI, hI2, hI3⟩ := reach_inv hn hv hr
  by_cases hp : s.mpc.inPhase = true
  · obtain ⟨s1, q1, q2⟩ := phase_done hn hv hr hp
    obtain ⟨s2, p1, p2⟩ := fin s1 (q1.reach hr) q2
    exact ⟨s2, q1.trans p1, p2⟩
  · cases hm : s.mpc with
    | idle => exact ⟨s, Relation.ReflTransGen.refl, Or.inl hm⟩
    | dead => exact ⟨s, Relation.ReflTransGen.refl, Or.inr hm⟩
    | inl id b e t =>
      obtain ⟨_, _, b3, b4, _⟩ := hI3.i5 id b e t hm
      obtain ⟨s', q1, q2⟩ := inl_done (P := P) (e - t) id b e t s (by omega) hm
      exact ⟨s', q1, Or.inl q2⟩
    | inlC id b e t =>
      obtain ⟨_, _, b3, b4, _⟩ := hI3.i6 id b e t hm
      obtain ⟨s1, st, e1⟩ : ∃ s1, Step P s s1 ∧ s1.mpc = .inl id b e (t + 1) :=
        ⟨_, Step.mInlRet (P := P) s id b e t hm, rfl⟩
      obtain ⟨s', q1, q2⟩ := inl_done (P := P) (e - (t + 1)) id b e (t + 1) s1 (by omega) e1
      exact ⟨s', Relation.ReflTransGen.head st q1, Or.inl q2⟩
    | div v x =>
      obtain ⟨id, b, e, ho, _⟩ := hI.g.divOp v x hm
      obtain ⟨c1, _⟩ := hI3.i8 v x hm id b e ho
      obtain ⟨s1, q1, q2⟩ := div_done (P := P) (P.n + 1 - v) v x s (by omega) hm
      obtain ⟨s2, p1, p2⟩ := viaReset s1 (q1.reach hr) q2
      exact ⟨s2, q1.trans p1, p2⟩
    | reset => exact viaReset s hr hm
    | join =>
      have hall : ∀ i, i < P.n → s.pc i = .exited := by
        intro i hi
        have ht := hI.t i hi
        have e1 := ht.ep_quiet (by rw [hm]; rfl)
        have e2 := ht.cfgEnd (by rw [hm]; rfl)
        have e3 := hI.g.exit4 (by rw [hm]; rfl)
        exact ht.exit2 e1 (by rw [e2]; exact e3)
      exact ⟨_, Relation.ReflTransGen.single (Step.mJoin s hm hall), Or.inr rfl⟩
    | _ => rw [hm] at hp; simp [MPC.inPhase] at hp

end Pool
end Hwy
