import Verif.PoolLive
import Verif.PoolTasksSpec

/-! # C11, C12, C13: what a user of `ThreadPool` relies on, over every schedule and history

`Reach (pool n) s`: `s` is reachable from a freshly constructed pool with `n` threads by some
interleaving of main and the threads, main executing any history of `Run`, configuration changes and
destruction.  `s.started`/`s.finished` log every call of a user closure as (run, task, worker),
`s.returned` every `Run` that returned as (run, begin, end); runs are numbered in order of their call.
-/

namespace Hwy
namespace Pool

/-- The pool with `n` threads, victims computed by the `Worker` constructor (thread_pool.h:293-314). -/
def pool (n : Nat) : Params where
  n := n
  vict := fun w =>
    match Divisor64.make (BitVec.ofNat 64 (n + 1)) with
    | .ok v => (match victims w (n + 1) v with | .ok vs => vs | .error _ => [])
    | .error _ => []

theorem pool_vok (n : Nat) (hn : n ≤ 60) : VOk (pool n) := by
  intro w hw
  have hw : w ≤ n := hw
  obtain ⟨v, vs, h1, h2, h3, h4, h5, h6⟩ := C15_victims (n + 1) w (by omega) (by omega) (by omega)
  have e : (pool n).vict w = vs := by simp only [pool, h1, h2]
  rw [e]
  refine ⟨?_, h5, fun x hx => by have := h6 x hx; show x ≤ n; omega⟩
  cases vs with
  | nil => simp at h4
  | cons a l => simp at h4; exact ⟨l, by rw [h4]⟩

/-- Number of entries of a log for run `id` and task `t`. -/
def entries (id t : Nat) (log : List (Nat × Nat × Nat)) : Nat :=
  (log.filter (fun x => x.1 = id ∧ x.2.1 = t)).length

theorem entries_eq (id t : Nat) (log : List (Nat × Nat × Nat)) : entries id t log = calls id t log := by
  unfold entries calls
  rw [List.countP_eq_length_filter]
  congr 2
  funext x
  rw [Bool.eq_iff_iff]; simp

/-- **C11.** When `Run(begin, end, closure)` has returned, the closure has been called exactly once for
every task in `[begin, end)` and never for another task, always with a worker index below
`NumWorkers() = n + 1`. -/
theorem C11_exactly_once (n : Nat) (hn : n ≤ 60) (s : St) (hr : Reach (pool n) s) (id b e : Nat)
    (h : (id, b, e) ∈ s.returned) :
    (∀ t, entries id t s.started = if b ≤ t ∧ t < e then 1 else 0) ∧
    (∀ x ∈ s.started, x.2.2 < n + 1) := by
  obtain ⟨h1, h2, h3⟩ := reach_inv (P := pool n) hn (pool_vok n hn) hr
  refine ⟨fun t => ?_, fun x hx => ?_⟩
  · rw [entries_eq]; exact ((h3.i3 _ h).2 t).1
  · have : x.2.2 ≤ n := (h3.i1 x hx).2
    omega

/-- **C12.** When `Run` has returned, every call it started has finished, and no worker is executing its
closure or about to call it; this holds for every wait type and barrier type the pool was configured
with at that time or later. -/
theorem C12_run_is_synchronous (n : Nat) (hn : n ≤ 60) (s : St) (hr : Reach (pool n) s) (id b e : Nat)
    (h : (id, b, e) ∈ s.returned) :
    (∀ t, entries id t s.finished = entries id t s.started) ∧
    (∀ w, w ≤ n → ∀ k t, s.pc w ≠ .call k t (.user id) ∧ s.pc w ≠ .inCall k t (.user id)) := by
  obtain ⟨h1, h2, h3⟩ := reach_inv (P := pool n) hn (pool_vok n hn) hr
  refine ⟨fun t => ?_, fun w hw k t => ?_⟩
  · rw [entries_eq, entries_eq]; exact ((h3.i3 _ h).2 t).2
  · have key : ∀ p : WPC, s.pc w = p → p.runPc = true → p ≠ .arrive →
        (locals (pool n) s.tb s.te s.fn s.me w p → s.fn = .user id) → False := by
      intro p hp hrun hna hl
      obtain ⟨r1, r2, r3⟩ := runner h1 w hw (Or.inl (by rw [hp]; exact hrun))
      have hf := hl (by rw [← hp]; exact h1.l w hw)
      obtain ⟨b', e', ho⟩ := job_user h1 r1 hf
      exact (h3.i4 (Or.inr r1) id b' e' ho).2 _ h rfl
    constructor
    · intro hp
      exact key _ hp rfl (by simp) (fun hl => (call_fn (Or.inl hl)).symm)
    · intro hp
      exact key _ hp rfl (by simp) (fun hl => (call_fn (Or.inr hl)).symm)

/-- A finished call was started: at any time and for every run. -/
theorem C12_finished_le_started (n : Nat) (hn : n ≤ 60) (s : St) (hr : Reach (pool n) s) (id b e : Nat)
    (h : s.mpc = .running ∨ ∃ j a, s.mpc = .until j a) (ho : s.op = .run id b e) (t : Nat) :
    entries id t s.finished ≤ entries id t s.started ∧ entries id t s.started ≤ 1 := by
  obtain ⟨h1, h2, h3⟩ := reach_inv (P := pool n) hn (pool_vok n hn) hr
  obtain ⟨a1, a2, a3, _⟩ := active_phase h
  have hX := h3.i10 a1 a3 id b e ho
  rw [entries_eq, entries_eq]
  have x1 := hX.x1 t
  have x2 := hX.x2 t
  have : iv (Resv (pool n).n b e s.mb (kap (pool n) s) t) ≤ 1 := by
    by_cases hh : Resv (pool n).n b e s.mb (kap (pool n) s) t
    · rw [iv_pos hh]
    · rw [iv_neg hh]; omega
  constructor
  · omega
  · exact Nat.le_trans (Nat.le_trans (Nat.le_add_right _ _) (Nat.le_of_eq x1)) this

/-- **C13 (no deadlock).** Whatever the pool is doing, in every reachable state there is a continuation
in which the operation main is executing completes: `Run` and `SetWaitMode` return, the destructor
finishes. In particular no reachable state is stuck. -/
theorem C13_no_deadlock (n : Nat) (hn : n ≤ 60) (s : St) (hr : Reach (pool n) s) :
    ∃ s', Steps (pool n) s s' ∧ (s'.mpc = .idle ∨ s'.mpc = .dead) :=
  completes (P := pool n) hn (pool_vok n hn) hr

/-- **C13 (no lost wake-up).** No thread sleeps in the futex once main's wake-up of the current phase is
done: a sleeping thread always waits for a phase main has not started. -/
theorem C13_no_lost_wakeup (n : Nat) (hn : n ≤ 60) (s : St) (hr : Reach (pool n) s) (i : Nat) (hi : i < n)
    (hs : s.pc i = .sleep) (h : s.mpc = .running ∨ ∃ j a, s.mpc = .until j a) : s.ep i = s.epoch + 1 := by
  obtain ⟨h1, h2, h3⟩ := reach_inv (P := pool n) hn (pool_vok n hn) hr
  obtain ⟨a1, a2, a3, a4, a5, _⟩ := active_phase h
  have ht := h1.t i hi
  rcases (ht.slp hs).2 with h' | h'
  · have := h1.g.wt0' a5 (h1.g.npos (Or.inr a1))
    omega
  · exact absurd h' a4

/-- **C13 (configuration).** When main is about to wake the workers, every thread is waiting with exactly
the configuration main signals with; when a thread is at the barrier, it uses exactly the barrier main
waits on. -/
theorem C13_config_agreement (n : Nat) (hn : n ≤ 60) (s : St) (hr : Reach (pool n) s) (i : Nat)
    (hi : i < n) :
    (s.mpc = .wake 0 → (s.pc i = .wait ∨ s.pc i = .fwait ∨ s.pc i = .sleep) ∧ s.cfg i = s.config ∧
      s.ep i = s.epoch) ∧
    (s.pc i = .arrive ∨ (∃ j, s.pc i = .lead j) → (s.cfg i).barrier = barUsed s) := by
  obtain ⟨h1, h2, h3⟩ := reach_inv (P := pool n) hn (pool_vok n hn) hr
  have ht := h1.t i hi
  constructor
  · intro hm
    obtain ⟨p1, p2⟩ := ht.pre (by rw [hm]; simp [MPC.prewake])
    have hc := (ht.cfgPre (by rw [hm]; rfl) p1 (isWait_facts _ p2).1).1
    refine ⟨?_, hc, p1⟩
    revert p2
    cases s.pc i <;> simp [WPC.isWait]
  · rintro (hp | ⟨j, hp⟩)
    · exact cfg_bar h1 i hi (by rw [hp]; rfl) (by rw [hp]; rfl) (by rw [hp]; simp)
    · exact cfg_bar h1 i hi (by rw [hp]; rfl) (by rw [hp]; rfl) (by rw [hp]; simp)

/-- **C13 (hand-over).** While main is outside the pool, every thread and its latch hold main's
configuration. -/
theorem C13_config_handed_over (n : Nat) (hn : n ≤ 60) (s : St) (hr : Reach (pool n) s) (i : Nat)
    (hi : i < n) (hm : s.mpc = .idle) : s.cfg i = s.config ∧ s.latched i = s.config := by
  obtain ⟨h1, h2, h3⟩ := reach_inv (P := pool n) hn (pool_vok n hn) hr
  exact (h1.t i hi).cfgCalm (by rw [hm]; rfl)

/-- **C13 (destructor).** Once the destructor has handed over the exit request, and after it has
finished, every thread has left its loop. -/
theorem C13_threads_exit (n : Nat) (hn : n ≤ 60) (s : St) (hr : Reach (pool n) s) (i : Nat)
    (hi : i < n) (hm : s.mpc = .join ∨ s.mpc = .dead) : s.pc i = .exited := by
  obtain ⟨h1, h2, h3⟩ := reach_inv (P := pool n) hn (pool_vok n hn) hr
  have ht := h1.t i hi
  have hend : s.mpc.ending = true := by rcases hm with h | h <;> rw [h] <;> rfl
  have hq : s.mpc.quiet = true := by rcases hm with h | h <;> rw [h] <;> rfl
  exact ht.exit2 (ht.ep_quiet hq) (by rw [ht.cfgEnd hend]; exact h1.g.exit4 hend)

/-- No thread leaves its loop before the destructor runs: after any operation that returned to the
caller the pool still has all its threads. -/
theorem C13_threads_alive (n : Nat) (hn : n ≤ 60) (s : St) (hr : Reach (pool n) s) (i : Nat)
    (hi : i < n) (hm : s.mpc = .idle) : s.pc i ≠ .exited := by
  obtain ⟨h1, h2, h3⟩ := reach_inv (P := pool n) hn (pool_vok n hn) hr
  intro hx
  have ht := h1.t i hi
  have hc := (ht.cfgCalm (by rw [hm]; rfl)).1
  have := (ht.exit1 hx).1
  rw [hc] at this
  have := h1.g.exit3 this
  rw [hm] at this; simp [MPC.ending] at this

/-! ### The hypotheses are met: a two-thread pool completes a run of five tasks -/

/-- A freshly constructed pool. -/
def fresh (c : Cfg) : St where
  tb := 7
  te := 3
  fn := .noop
  mb := fun _ => 0
  me := fun _ => 0
  waiter := fun _ => 0
  bar := fun _ => 0
  latched := fun _ => c
  pc := fun _ => .wait
  ep := fun _ => 1
  cfg := fun _ => c
  mpc := .idle
  epoch := 0
  config := c
  op := .send2 c
  nextId := 0
  started := []
  finished := []
  returned := []

theorem fresh_init (c : Cfg) (h : c.exit = false) : Init (fresh c) := by
  simp [Init, fresh, h]

/-- Runs are not only reachable but can be driven to their return, for every configuration. -/
theorem C11_nonvacuous (n : Nat) (hn : n ≤ 60) (h0 : n ≠ 0) (c : Cfg) (hc : c.exit = false) (b e : Nat)
    (h1 : b + 1 < e) (h2 : e + (n + 1) < 2 ^ 64) :
    ∃ s, Reach (pool n) s ∧ (0, b, e) ∈ s.returned := by
  have r0 : Reach (pool n) (fresh c) := Reach.init _ (fresh_init c hc)
  obtain ⟨s1, st, o1, m1⟩ : ∃ s1, Step (pool n) (fresh c) s1 ∧ s1.op = .run 0 b e ∧
      (s1.mpc = .div 0 b ∨ s1.mpc = .reset) := by
    refine ⟨_, Step.mRun (fresh c) b e rfl (by omega) h2 (by omega) h0, rfl, ?_⟩
    dsimp only
    split
    · exact Or.inl rfl
    · exact Or.inr rfl
  have r1 := Reach.step _ _ r0 st
  have hd : ∀ d v x s, d + v = n + 1 → s.mpc = .div v x → ∃ s', Steps (pool n) s s' ∧ s'.mpc = .reset ∧
      s'.op = s.op := by
    intro d
    induction d with
    | zero =>
      intro v x s hd hm
      exact ⟨_, Relation.ReflTransGen.single (Step.mDivDone s v x hm (by show ¬ v < n + 1; omega)), rfl, rfl⟩
    | succ d ih =>
      intro v x s hd hm
      obtain ⟨s1, y, st, e1, e2⟩ : ∃ s1 y, Step (pool n) s s1 ∧ s1.mpc = .div (v + 1) y ∧ s1.op = s.op :=
        ⟨_, _, Step.mDiv s v x hm (by show v < n + 1; omega), rfl, rfl⟩
      obtain ⟨s', q1, q2, q3⟩ := ih (v + 1) y s1 (by omega) e1
      exact ⟨s', Relation.ReflTransGen.head st q1, q2, by rw [q3, e2]⟩
  obtain ⟨s2, p1, p2, p3⟩ : ∃ s2, Steps (pool n) s1 s2 ∧ s2.mpc = .reset ∧ s2.op = s1.op := by
    rcases m1 with m1 | m1
    · exact hd (n + 1) 0 b s1 (by omega) m1
    · exact ⟨s1, Relation.ReflTransGen.refl, m1, rfl⟩
  have r2 := p1.reach r1
  obtain ⟨s3, st3, e3, e4⟩ : ∃ s3, Step (pool n) s2 s3 ∧ s3.mpc = .wake 0 ∧ s3.op = s2.op :=
    ⟨_, Step.mReset s2 p2, rfl, rfl⟩
  have r3 := Reach.step _ _ r2 st3
  obtain ⟨s4, q1, q2, q3⟩ := phase_done' (P := pool n) hn (pool_vok n hn) r3 (by rw [e3]; rfl)
  have r4 := q1.reach r3
  have st5 := Step.mRunRet (P := pool n) s4 0 b e q2 (by rw [q3, e4, p3, o1])
  exact ⟨_, Reach.step _ _ r4 st5, by simp⟩

example : ∃ s, Reach (pool 2) s ∧ (0, 10, 15) ∈ s.returned ∧
    (∀ t, entries 0 t s.started = if 10 ≤ t ∧ t < 15 then 1 else 0) := by
  obtain ⟨s, h1, h2⟩ := C11_nonvacuous 2 (by omega) (by omega) ⟨.block, .group2, false⟩ rfl 10 15
    (by omega) (by omega)
  exact ⟨s, h1, h2, (C11_exactly_once 2 (by omega) s h1 0 10 15 h2).1⟩

end Pool
end Hwy
