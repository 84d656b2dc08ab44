import Verif.PoolSpec

/-!
# Why C11-C13 need at most 60 threads: a deadlock with 63 threads

`BarrierCounter` keeps its shards in the barrier words of workers 60..63 (thread_pool.h:661-676), which with 61..63 threads are also
the words `BarrierOrdered`/`BarrierGroup` use for threads 60..62 (717-762). After a phase with four counter shards the word of thread
62 holds the count 16. If the pool then changes to a group barrier in its 16th phase, main takes that count for the arrival of thread
62 in phase 16 and returns while the thread still waits for that phase to start. A spinning thread waits for the waiter word to equal
16, but main goes on to 17: neither ever moves again.

The history used here is the one the pool takes by itself for the calls `ThreadPool pool(63); SetWaitMode(m); SetWaitMode(kSpin);` and
five calls of `Run`: the auto-tuner tries the spinning candidates in the order ordered, counter1, counter2, counter4, group2
(thread_pool.h:218-259, auto_tune.h:430-460).
-/

namespace Hwy
namespace Pool
namespace Finding

theorem upd_self {α : Type} (f : Nat → α) (i : Nat) (x : α) : upd f i x i = x := by simp [upd]
theorem upd_ne {α : Type} (f : Nat → α) {i j : Nat} (x : α) (h : j ≠ i) : upd f i x j = f j := by simp [upd, h]
theorem upd_upd {α : Type} (f : Nat → α) (i : Nat) (x y : α) : upd (upd f i x) i y = upd f i y := by
  funext j; unfold upd; split <;> rfl
theorem upd_same {α : Type} (f : Nat → α) (i : Nat) : upd f i (f i) = f := by
  funext j; unfold upd; split <;> simp_all

/-- Set one program counter. -/
def setPc (s : St) (w : Nat) (p : WPC) : St := { s with pc := upd s.pc w p }
theorem setPc_self (s : St) (w : Nat) {p : WPC} (h : s.pc w = p) : setPc s w p = s := by
  unfold setPc; rw [← h, upd_same]

variable {P : Params} (hn : P.n = 63) {s : St} {w : Nat}

/-- The variables a worker does not write while it runs tasks. -/
structure Same (s s' : St) : Prop where
  tb : s'.tb = s.tb
  te : s'.te = s.te
  fn : s'.fn = s.fn
  waiter : s'.waiter = s.waiter
  bar : s'.bar = s.bar
  ep : s'.ep = s.ep
  mpc : s'.mpc = s.mpc
  epoch : s'.epoch = s.epoch
  config : s'.config = s.config
  op : s'.op = s.op
  cfg : s'.cfg = s.cfg
  suf : s.started <:+ s'.started

/-- What `LatchedConfig` of worker `w` is after it ran its task. -/
def newLatch (s : St) (w : Nat) : Cfg :=
  match s.fn with
  | .latch c => if s.tb + w < s.te then c else s.latched w
  | _ => s.latched w

include hn in
/-- A worker runs its single task. -/
theorem runSingle (hr : Reach P s) (hw : w ≤ 63) (hp : s.pc w = .ldEnd) (hb : s.tb ≤ s.te) (hs : s.te - s.tb ≤ 64)
    (hf : s.te + 64 < 2 ^ 64) :
    ∃ s', Reach P s' ∧ Same s s' ∧ (∀ j, j ≠ w → s'.pc j = s.pc j ∧ s'.latched j = s.latched j) ∧ s'.pc w = .arrive ∧
      s'.latched w = newLatch s w ∧
      (∀ id, s.fn = .user id → s.tb + w < s.te → s'.started = (id, s.tb + w, w) :: s.started) := by
  have hw' : w ≤ P.n := by omega
  have st : ∀ (u : St) (p : WPC) (u' : St), Reach P (setPc u w p) → Step P (setPc u w p) u' → Reach P u' :=
    fun u p u' h1 h2 => Reach.step _ _ h1 h2
  have r0 : Reach P (setPc s w .ldEnd) := by rw [setPc_self s w hp]; exact hr
  have r1 : Reach P (setPc s w (.ldBegin s.te)) := by
    have := Reach.step _ _ r0 (Step.rEnd (setPc s w .ldEnd) w hw' (upd_self _ _ _))
    simpa only [setPc, upd_upd] using this
  have r2 : Reach P (setPc s w .s1) := by
    have := Reach.step _ _ r1 (Step.rBegin (setPc s w (.ldBegin s.te)) w s.te hw' (upd_self _ _ _))
    rw [if_neg (by show ¬ (2 ^ 64 + s.te - s.tb) % 2 ^ 64 > P.n + 1; omega)] at this
    simpa only [setPc, upd_upd] using this
  have r3 : Reach P (setPc s w (.s2 s.tb)) := by
    have := Reach.step _ _ r2 (Step.rS1 (setPc s w .s1) w hw' (upd_self _ _ _))
    simpa only [setPc, upd_upd] using this
  have r4 := Reach.step _ _ r3 (Step.rS2 (setPc s w (.s2 s.tb)) w s.tb hw' (upd_self _ _ _))
  have hm : (s.tb + w) % 2 ^ 64 = s.tb + w := by omega
  have e4 : (setPc s w (.s2 s.tb)).te = s.te := rfl
  rw [hm, e4] at r4
  by_cases hlt : s.tb + w < s.te
  · rw [if_pos hlt] at r4
    have r5 : Reach P (setPc s w (.s3 (s.tb + w))) := by simpa only [setPc, upd_upd] using r4
    have r6 : Reach P (setPc s w (.call none (s.tb + w) s.fn)) := by
      have := Reach.step _ _ r5 (Step.rS3 (setPc s w (.s3 (s.tb + w))) w _ hw' (upd_self _ _ _))
      simpa only [setPc, upd_upd] using this
    cases hfn : s.fn with
    | user id =>
      rw [hfn] at r6
      have r7 := Reach.step _ _ r6 (Step.rCallUser _ w none (s.tb + w) id hw' (upd_self _ _ _))
      have r8 := Reach.step _ _ r7 (Step.rRetUser _ w none (s.tb + w) id hw' (upd_self _ _ _))
      refine ⟨_, r8, ⟨rfl, rfl, hfn.symm ▸ hfn, rfl, rfl, rfl, rfl, rfl, rfl, rfl, rfl, List.suffix_cons _ _⟩, fun j hj => ⟨?_, rfl⟩,
        upd_self _ _ _, ?_, fun id' h _ => ?_⟩
      · simp only [setPc]; rw [upd_ne _ _ hj, upd_ne _ _ hj, upd_ne _ _ hj]
      · simp only [newLatch, hfn]; rfl
      · cases h; rfl
    | latch c =>
      rw [hfn] at r6
      have r7 := Reach.step _ _ r6 (Step.rCallLatch _ w none (s.tb + w) c hw' (upd_self _ _ _))
      have r8 := Reach.step _ _ r7 (Step.rRetOther _ w none (s.tb + w) (.latch c) hw' (upd_self _ _ _) (by simp))
      refine ⟨_, r8, ⟨rfl, rfl, hfn.symm ▸ hfn, rfl, rfl, rfl, rfl, rfl, rfl, rfl, rfl, List.suffix_rfl⟩, fun j hj => ⟨?_, ?_⟩,
        upd_self _ _ _, ?_, fun id' h _ => by cases h⟩
      · simp only [setPc]; rw [upd_ne _ _ hj, upd_ne _ _ hj, upd_ne _ _ hj]
      · exact upd_ne _ _ hj
      · simp only [newLatch, hfn, if_pos hlt]; exact upd_self _ _ _
    | noop =>
      rw [hfn] at r6
      have r7 := Reach.step _ _ r6 (Step.rCallNoop _ w none (s.tb + w) hw' (upd_self _ _ _))
      have r8 := Reach.step _ _ r7 (Step.rRetOther _ w none (s.tb + w) .noop hw' (upd_self _ _ _) (by simp))
      refine ⟨_, r8, ⟨rfl, rfl, hfn.symm ▸ hfn, rfl, rfl, rfl, rfl, rfl, rfl, rfl, rfl, List.suffix_rfl⟩, fun j hj => ⟨?_, rfl⟩,
        upd_self _ _ _, ?_, fun id' h _ => by cases h⟩
      · simp only [setPc]; rw [upd_ne _ _ hj, upd_ne _ _ hj, upd_ne _ _ hj]
      · simp only [newLatch, hfn]; rfl
  · rw [if_neg hlt] at r4
    have r5 : Reach P (setPc s w .arrive) := by simpa only [setPc, upd_upd] using r4
    refine ⟨_, r5, ⟨rfl, rfl, rfl, rfl, rfl, rfl, rfl, rfl, rfl, rfl, rfl, List.suffix_rfl⟩, fun j hj => ⟨upd_ne _ _ hj, rfl⟩,
      upd_self _ _ _, ?_, fun _ _ h => absurd h hlt⟩
    cases hfn : s.fn <;> simp only [newLatch, hfn, if_neg hlt, setPc]

/-- Effect of `WorkerReached` on the barrier words. -/
def arrBar (k : BarK) (i e : Nat) (bar : Nat → Nat) : Nat → Nat :=
  match k with
  | .counter k => upd bar (63 - i % k) (bar (63 - i % k) + 1)
  | .group _ => upd bar i e
/-- A leader's followers have arrived. -/
def canArrive (k : BarK) (i e : Nat) (bar : Nat → Nat) : Prop :=
  match k with
  | .counter _ => True
  | .group g => i % g = 0 → ∀ j, i < j → j < min (i + g) 63 → bar j = e

include hn in
/-- A thread reaches the barrier. -/
theorem reached (hr : Reach P s) (hw : w < 63) (hp : s.pc w = .arrive) (hx : (s.cfg w).exit = false)
    (hc : canArrive (s.cfg w).barrier.kind w (s.ep w) s.bar) :
    Reach P { s with bar := arrBar (s.cfg w).barrier.kind w (s.ep w) s.bar, pc := upd s.pc w .wait, ep := upd s.ep w (s.ep w + 1) } := by
  have hw' : w < P.n := by omega
  cases hk : (s.cfg w).barrier.kind with
  | counter k =>
    have := Reach.step _ _ hr (Step.tCounter s w k hw' hp hk)
    simpa only [afterReached, hx, arrBar, Bool.false_eq_true, if_false] using this
  | group g =>
    by_cases hg : w % g = 0
    · have r1 : Reach P (setPc s w (.lead (w + 1))) := Reach.step _ _ hr (Step.tGroupLead s w g hw' hp hk hg)
      have hc' : ∀ j, w < j → j < min (w + g) 63 → s.bar j = s.ep w := by
        rw [hk] at hc; exact hc hg
      have poll : ∀ m, w + 1 + m ≤ min (w + g) 63 → Reach P (setPc s w (.lead (w + 1 + m))) := by
        intro m
        induction m with
        | zero => intro _; exact r1
        | succ m ih =>
          intro hm
          have := Reach.step _ _ (ih (by omega)) (Step.tLeadPoll (setPc s w (.lead (w + 1 + m))) w (w + 1 + m) g hw' (upd_self _ _ _) hk
            (by rw [hn]; omega) (hc' _ (by omega) (by omega)))
          show Reach P (setPc s w (.lead (w + 1 + m + 1)))
          simpa only [setPc, upd_upd] using this
      by_cases hm : w + 1 ≤ min (w + g) 63
      · have r2 := poll (min (w + g) 63 - (w + 1)) (by omega)
        have := Reach.step _ _ r2 (Step.tLeadStore (setPc s w _) w _ g hw' (upd_self _ _ _) hk (by rw [hn]; omega))
        simpa only [afterReached, setPc, upd_upd, hx, arrBar, Bool.false_eq_true, if_false] using this
      · have := Reach.step _ _ r1 (Step.tLeadStore (setPc s w _) w _ g hw' (upd_self _ _ _) hk (by rw [hn]; omega))
        simpa only [afterReached, setPc, upd_upd, hx, arrBar, Bool.false_eq_true, if_false] using this
    · have := Reach.step _ _ hr (Step.tGroupStore s w g hw' hp hk hg)
      simpa only [afterReached, hx, arrBar, Bool.false_eq_true, if_false] using this

/-- The global variables the threads do not write. -/
structure Frame (s s' : St) : Prop where
  tb : s'.tb = s.tb
  te : s'.te = s.te
  fn : s'.fn = s.fn
  waiter : s'.waiter = s.waiter
  mpc : s'.mpc = s.mpc
  epoch : s'.epoch = s.epoch
  config : s'.config = s.config
  op : s'.op = s.op
  suf : s.started <:+ s'.started

include hn in
/-- A woken thread runs its task and reaches the barrier. -/
theorem oneThread (hr : Reach P s) (hw : w < 63) (hp : s.pc w = .wait) (hk : woken s w) (hx : (s.latched w).exit = false)
    (hb : s.tb ≤ s.te) (hs : s.te - s.tb ≤ 64) (hf : s.te + 64 < 2 ^ 64)
    (hc : canArrive (s.latched w).barrier.kind w (s.ep w) s.bar) :
    ∃ s', Reach P s' ∧ Frame s s' ∧
      (∀ j, j ≠ w → s'.pc j = s.pc j ∧ s'.latched j = s.latched j ∧ s'.ep j = s.ep j ∧ s'.cfg j = s.cfg j) ∧
      s'.pc w = .wait ∧ s'.latched w = newLatch s w ∧ s'.ep w = s.ep w + 1 ∧ s'.cfg w = s.latched w ∧
      s'.bar = arrBar (s.latched w).barrier.kind w (s.ep w) s.bar ∧
      (∀ id, s.fn = .user id → s.tb + w < s.te → s'.started = (id, s.tb + w, w) :: s.started) := by
  have hw' : w < P.n := by omega
  have r1 : Reach P (setPc s w .latch) := Reach.step _ _ hr (Step.tWoken s w hw' hp hk)
  have r2 : Reach P { s with pc := upd s.pc w .ldEnd, cfg := upd s.cfg w (s.latched w) } := by
    have := Reach.step _ _ r1 (Step.tLatch (setPc s w .latch) w hw' (upd_self _ _ _))
    simpa only [setPc, upd_upd] using this
  obtain ⟨t, rt, sm, hj, ha, hl, hst⟩ := runSingle hn r2 (w := w) (by omega) (upd_self _ _ _) hb hs hf
  have ec : t.cfg w = s.latched w := by rw [sm.cfg]; exact upd_self _ _ _
  have ee : t.ep = s.ep := sm.ep
  have eb : t.bar = s.bar := sm.bar
  have r3 := reached hn rt hw ha (by rw [ec]; exact hx) (by rw [ec, ee, eb]; exact hc)
  refine ⟨_, r3, ⟨sm.tb, sm.te, sm.fn, sm.waiter, sm.mpc, sm.epoch, sm.config, sm.op, sm.suf⟩,
    fun j hjw => ⟨?_, ?_, ?_, ?_⟩, upd_self _ _ _, hl, ?_, ec, ?_, hst⟩
  · show upd t.pc w .wait j = _
    rw [upd_ne _ _ hjw, (hj j hjw).1]; exact upd_ne _ _ hjw
  · exact (hj j hjw).2
  · show upd t.ep w _ j = _
    rw [upd_ne _ _ hjw, ee]
  · show t.cfg j = _
    rw [sm.cfg]; exact upd_ne _ _ hjw
  · show upd t.ep w _ w = _
    rw [upd_self, ee]
  · show arrBar (t.cfg w).barrier.kind w (t.ep w) t.bar = _
    rw [ec, ee, eb]

include hn in
/-- The threads below `top` run one after the other, the last one first. -/
theorem sweep (s0 : St) (hr : Reach P s0) (top E : Nat) (l : Cfg) (htop : top ≤ 63) (hx : l.exit = false)
    (h0 : ∀ i, i < top → s0.pc i = .wait ∧ s0.ep i = E ∧ woken s0 i ∧ s0.latched i = l)
    (hb : s0.tb ≤ s0.te) (hs : s0.te - s0.tb ≤ 64) (hf : s0.te + 64 < 2 ^ 64)
    (Inv : Nat → (Nat → Nat) → Prop) (hi0 : Inv top s0.bar)
    (harr : ∀ i bar, i < top → Inv (i + 1) bar → canArrive l.barrier.kind i E bar ∧ Inv i (arrBar l.barrier.kind i E bar)) :
    ∃ s, Reach P s ∧ Frame s0 s ∧
      (∀ i, i < top → s.pc i = .wait ∧ s.ep i = E + 1 ∧ s.cfg i = l ∧ s.latched i = newLatch s0 i) ∧
      (∀ i, top ≤ i → s.pc i = s0.pc i ∧ s.latched i = s0.latched i ∧ s.ep i = s0.ep i ∧ s.cfg i = s0.cfg i) ∧ Inv 0 s.bar := by
  have key : ∀ d, d ≤ top → ∃ s, Reach P s ∧ Frame s0 s ∧
      (∀ i, top - d ≤ i → i < top → s.pc i = .wait ∧ s.ep i = E + 1 ∧ s.cfg i = l ∧ s.latched i = newLatch s0 i) ∧
      (∀ i, i < top - d ∨ top ≤ i → s.pc i = s0.pc i ∧ s.latched i = s0.latched i ∧ s.ep i = s0.ep i ∧ s.cfg i = s0.cfg i) ∧
      Inv (top - d) s.bar := by
    intro d
    induction d with
    | zero =>
      intro _
      exact ⟨s0, hr, ⟨rfl, rfl, rfl, rfl, rfl, rfl, rfl, rfl, List.suffix_rfl⟩, fun i h1 h2 => by omega, fun i _ => ⟨rfl, rfl, rfl, rfl⟩, hi0⟩
    | succ d ih =>
      intro hd
      obtain ⟨s, r, f, a1, a2, a3⟩ := ih (by omega)
      obtain ⟨m, hm⟩ : ∃ m, m = top - (d + 1) := ⟨_, rfl⟩
      have hmd : top - d = m + 1 := by omega
      rw [hmd] at a1 a2 a3
      rw [← hm]
      obtain ⟨b1, b2, b3, b4⟩ := h0 m (by omega)
      obtain ⟨c1, c2, c3, c4⟩ := a2 m (by omega)
      obtain ⟨g1, g2⟩ := harr m s.bar (by omega) a3
      have hl : s.latched m = l := by rw [c2, b4]
      have he : s.ep m = E := by rw [c3, b2]
      have hwk : woken s m := by
        unfold woken at b3 ⊢
        rw [c4, c3, f.waiter]; exact b3
      obtain ⟨t, rt, ft, o, p1, p2, p3, p4, p5, _⟩ := oneThread hn r (w := m) (by omega) (by rw [c1, b1]) hwk (by rw [hl]; exact hx)
        (by rw [f.tb, f.te]; exact hb) (by rw [f.tb, f.te]; exact hs) (by rw [f.te]; exact hf) (by rw [hl, he]; exact g1)
      refine ⟨t, rt, ⟨by rw [ft.tb, f.tb], by rw [ft.te, f.te], by rw [ft.fn, f.fn], by rw [ft.waiter, f.waiter], by rw [ft.mpc, f.mpc],
        by rw [ft.epoch, f.epoch], by rw [ft.config, f.config], by rw [ft.op, f.op], f.suf.trans ft.suf⟩, fun i h1 h2 => ?_, fun i h => ?_, ?_⟩
      · by_cases him : i = m
        · subst him
          refine ⟨p1, by rw [p3, he], by rw [p4, hl], ?_⟩
          rw [p2]; unfold newLatch; rw [f.fn, f.tb, f.te, c2]
        · obtain ⟨q1, q2, q3, q4⟩ := o i him
          obtain ⟨u1, u2, u3, u4⟩ := a1 i (by omega) h2
          exact ⟨by rw [q1, u1], by rw [q3, u2], by rw [q4, u3], by rw [q2, u4]⟩
      · obtain ⟨q1, q2, q3, q4⟩ := o i (by omega)
        obtain ⟨u1, u2, u3, u4⟩ := a2 i (by omega)
        exact ⟨by rw [q1, u1], by rw [q2, u2], by rw [q3, u3], by rw [q4, u4]⟩
      · rw [p5, hl, he]; exact g2
  obtain ⟨s, r, f, a1, a2, a3⟩ := key top (Nat.le_refl _)
  rw [Nat.sub_self] at a1 a2 a3
  exact ⟨s, r, f, fun i h => a1 i (by omega) h, fun i h => a2 i (.inr h), a3⟩

include hn in
/-- `Reset` and `WakeWorkers`. -/
theorem wake (hr : Reach P s) (hm : s.mpc = .reset) (hw : s.config.wait ≠ .spinSep) (hp : ∀ i, i < 63 → s.pc i = .wait) :
    ∃ s1, Reach P s1 ∧ s1.mpc = .running ∧ s1.epoch = s.epoch + 1 ∧ s1.waiter 0 = s.epoch + 1 ∧ s1.pc 63 = .ldEnd ∧
      s1.bar = resetBar (barUsed s).kind s.bar ∧ (∀ i, i < 63 → s1.pc i = .wait) ∧ s1.tb = s.tb ∧ s1.te = s.te ∧ s1.fn = s.fn ∧
      s1.config = s.config ∧ s1.op = s.op ∧ s1.ep = s.ep ∧ s1.cfg = s.cfg ∧ s1.latched = s.latched := by
  have r1 := Reach.step _ _ hr (Step.mReset s hm)
  cases hc : s.config.wait with
  | spinSep => exact absurd hc hw
  | spin1 =>
    have r2 := Reach.step _ _ r1 (Step.mWakeSpin1 _ 0 rfl hc)
    refine ⟨_, r2, rfl, rfl, upd_self s.waiter 0 (s.epoch + 1), ?_, rfl, fun i hi => ?_, rfl, rfl, rfl, rfl, rfl, rfl, rfl, rfl⟩
    · show upd s.pc P.n _ 63 = _
      rw [hn]; exact upd_self _ _ _
    · show upd s.pc P.n _ i = _
      rw [hn, upd_ne _ _ (by omega), hp i hi]
  | block =>
    have r2 := Reach.step _ _ r1 (Step.mWakeBlock _ 0 rfl hc)
    have r3 := Reach.step _ _ r2 (Step.mWakeAll _ rfl)
    refine ⟨_, r3, rfl, rfl, upd_self s.waiter 0 (s.epoch + 1), ?_, rfl, fun i hi => ?_, rfl, rfl, rfl, rfl, rfl, rfl, rfl, rfl⟩
    · show upd (fun i => wakeSleeper (s.pc i)) P.n _ 63 = _
      rw [hn]; exact upd_self _ _ _
    · show upd (fun i => wakeSleeper (s.pc i)) P.n _ i = _
      rw [hn, upd_ne _ _ (by omega), hp i hi]; rfl

include hn in
/-- One phase up to main waiting for the threads, in which the threads below `top` run. -/
theorem toUntil (s : St) (hr : Reach P s) (top E : Nat) (l : Cfg) (htop : top ≤ 63) (hx : l.exit = false)
    (hm : s.mpc = .reset) (hE : s.epoch + 1 = E) (hw : s.config.wait ≠ .spinSep)
    (hp : ∀ i, i < 63 → s.pc i = .wait) (h0 : ∀ i, i < top → s.ep i = E ∧ (s.cfg i).wait = s.config.wait ∧ s.latched i = l)
    (hb : s.tb ≤ s.te) (hs : s.te - s.tb ≤ 64) (hf : s.te + 64 < 2 ^ 64)
    (Inv : Nat → (Nat → Nat) → Prop) (hi0 : Inv top (resetBar (barUsed s).kind s.bar))
    (harr : ∀ i bar, i < top → Inv (i + 1) bar → canArrive l.barrier.kind i E bar ∧ Inv i (arrBar l.barrier.kind i E bar)) :
    ∃ u, Reach P u ∧ u.mpc = .until 0 0 ∧ u.epoch = E ∧ u.waiter 0 = E ∧ u.config = s.config ∧ u.op = s.op ∧ u.pc 63 = .arrive ∧
      (∀ i, i < top → u.pc i = .wait ∧ u.ep i = E + 1 ∧ u.cfg i = l ∧ u.latched i = newLatch s i) ∧
      (∀ i, top ≤ i → i < 63 → u.pc i = .wait ∧ u.latched i = s.latched i ∧ u.ep i = s.ep i ∧ u.cfg i = s.cfg i) ∧ Inv 0 u.bar := by
  obtain ⟨a, ra, a1, a2, a3, a4, a5, a6, a7, a8, a9, a10, a11, a12, a13, a14⟩ := wake hn hr hm hw hp
  have hk : ∀ i, i < top → woken a i := by
    intro i hi
    obtain ⟨b1, b2, b3⟩ := h0 i hi
    unfold woken
    rw [a13, a12, a3, b1, b2]
    cases hc : s.config.wait with
    | spinSep => exact absurd hc hw
    | spin1 => exact hE
    | block => show s.epoch + 1 ≠ E - 1; omega
  obtain ⟨t, rt, f, t1, t2, t3⟩ := sweep hn a ra top E l htop hx
    (fun i hi => ⟨a6 i (by omega), by rw [a12, (h0 i hi).1], hk i hi, by rw [a14, (h0 i hi).2.2]⟩)
    (by rw [a7, a8]; exact hb) (by rw [a7, a8]; exact hs) (by rw [a8]; exact hf) Inv (by rw [a5]; exact hi0) harr
  obtain ⟨u, ru, sm, o, u1, u2, _⟩ := runSingle hn rt (w := 63) (by omega) (by rw [(t2 63 (by omega)).1, a4])
    (by rw [f.tb, f.te, a7, a8]; exact hb) (by rw [f.tb, f.te, a7, a8]; exact hs) (by rw [f.te, a8]; exact hf)
  have r := Reach.step _ _ ru (Step.mRan u (by rw [sm.mpc, f.mpc, a1]) (by rw [hn]; exact u1))
  have hL : ∀ i, newLatch a i = newLatch s i := fun i => by unfold newLatch; rw [a9, a7, a8, a14]
  refine ⟨_, r, rfl, ?_, ?_, ?_, ?_, u1, fun i hi => ?_, fun i hi hi' => ?_, ?_⟩
  · show u.epoch = _
    rw [sm.epoch, f.epoch, a2, hE]
  · show u.waiter 0 = _
    rw [sm.waiter, f.waiter, a3, hE]
  · show u.config = _
    rw [sm.config, f.config, a10]
  · show u.op = _
    rw [sm.op, f.op, a11]
  · obtain ⟨v1, v2, v3, v4⟩ := t1 i hi
    refine ⟨?_, ?_, ?_, ?_⟩
    · show u.pc i = _
      rw [(o i (by omega)).1, v1]
    · show u.ep i = _
      rw [sm.ep, v2]
    · show u.cfg i = _
      rw [sm.cfg, v3]
    · show u.latched i = _
      rw [(o i (by omega)).2, v4, hL]
  · obtain ⟨v1, v2, v3, v4⟩ := t2 i hi
    refine ⟨?_, ?_, ?_, ?_⟩
    · show u.pc i = _
      rw [(o i (by omega)).1, v1, a6 i hi']
    · show u.latched i = _
      rw [(o i (by omega)).2, v2, a14]
    · show u.ep i = _
      rw [sm.ep, v3, a12]
    · show u.cfg i = _
      rw [sm.cfg, v4, a13]
  · show Inv 0 u.bar
    rw [sm.bar]; exact t3

include hn in
/-- Main polls the leaders `0, g, .., (m-1) g`. -/
theorem poll (u : St) (hr : Reach P u) (hm : u.mpc = .until 0 0) {g : Nat} (hg : (barUsed u).kind = .group g) (m : Nat)
    (h : ∀ i, i < m → g * i < 63 ∧ u.bar (g * i) = u.epoch) : Reach P { u with mpc := .until (g * m) 0 } := by
  induction m with
  | zero => rw [Nat.mul_zero, ← hm]; exact hr
  | succ m ih =>
    have r := ih (fun i hi => h i (by omega))
    have := Reach.step _ _ r (Step.mGrpPoll _ (g * m) 0 g rfl hg (by rw [hn]; exact (h m (by omega)).1) (h m (by omega)).2)
    rw [Nat.mul_succ]; exact this

include hn in
/-- Main finishes waiting: groups. -/
theorem finGroup (u : St) (hr : Reach P u) (hm : u.mpc = .until 0 0) {g : Nat} (hg : (barUsed u).kind = .group g) (m : Nat)
    (h : ∀ i, i < m → g * i < 63 ∧ u.bar (g * i) = u.epoch) (hme : 63 ≤ g * m) :
    Reach P { u with mpc := .fin, pc := upd u.pc 63 .wait } := by
  have r := poll hn u hr hm hg m h
  have := Reach.step _ _ r (Step.mGrpDone _ (g * m) 0 g rfl hg (by rw [hn]; omega))
  rw [hn] at this; exact this

include hn in
/-- Main finishes waiting: counters. -/
theorem finCounter (u : St) (hr : Reach P u) (hm : u.mpc = .until 0 0) {k : Nat} (hk : (barUsed u).kind = .counter k)
    (h : ((List.range k).map (fun j => u.bar (63 - j))).sum = 63) : Reach P { u with mpc := .fin, pc := upd u.pc 63 .wait } := by
  have ld : ∀ m, m ≤ k → Reach P { u with mpc := .until m (((List.range m).map (fun j => u.bar (63 - j))).sum) } := by
    intro m
    induction m with
    | zero => intro _; show Reach P { u with mpc := .until 0 0 }; rw [← hm]; exact hr
    | succ m ih =>
      intro hmk
      have := Reach.step _ _ (ih (by omega)) (Step.mCtrLoad _ m _ k rfl hk (by omega))
      have e : ((List.range (m + 1)).map (fun j => u.bar (63 - j))).sum = ((List.range m).map (fun j => u.bar (63 - j))).sum + u.bar (63 - m) := by
        rw [List.range_succ, List.map_append, List.sum_append]; simp
      rw [e]; exact this
  have r := ld k (Nat.le_refl _)
  rw [h] at r
  have := Reach.step _ _ r (Step.mCtrDone _ k 63 k rfl hk (by omega) hn.symm)
  rw [hn] at this; exact this

/-- The barrier words while threads `m..62` have arrived. -/
def invBar (k : BarK) (E m : Nat) (bar : Nat → Nat) : Prop :=
  match k with
  | .counter k => ∀ r, r < k → bar (63 - r) = (62 + k - r) / k - (m + k - 1 - r) / k
  | .group _ => ∀ j, m ≤ j → j < 63 → bar j = E

theorem invBar_step (b : BarT) (E i : Nat) (bar : Nat → Nat) (hi : i < 63) (h : invBar b.kind E (i + 1) bar) :
    canArrive b.kind i E bar ∧ invBar b.kind E i (arrBar b.kind i E bar) := by
  have grp : ∀ g, b.kind = .group g → canArrive b.kind i E bar ∧ invBar b.kind E i (arrBar b.kind i E bar) := by
    intro g hg
    rw [hg] at h ⊢
    refine ⟨fun _ j h1 h2 => h j (by omega) (by omega), fun j h1 h2 => ?_⟩
    by_cases hj : j = i
    · rw [hj]; exact upd_self _ _ _
    · exact (upd_ne _ _ hj).trans (h j (by omega) h2)
  have ctr : ∀ k, (k = 1 ∨ k = 2 ∨ k = 4) → b.kind = .counter k → canArrive b.kind i E bar ∧ invBar b.kind E i (arrBar b.kind i E bar) := by
    intro k hk hg
    rw [hg] at h ⊢
    refine ⟨trivial, fun r hr => ?_⟩
    have := h r hr
    show upd bar (63 - i % k) _ (63 - r) = _
    by_cases hj : r = i % k
    · subst hj
      rw [upd_self, this]
      rcases hk with rfl | rfl | rfl <;> omega
    · rw [upd_ne _ _ (by rcases hk with rfl | rfl | rfl <;> omega), this]
      rcases hk with rfl | rfl | rfl <;> omega
  cases b
  · exact grp 1 rfl
  · exact ctr 1 (by omega) rfl
  · exact ctr 2 (by omega) rfl
  · exact ctr 4 (by omega) rfl
  · exact grp 2 rfl
  · exact grp 4 rfl

theorem invBar_reset (b : BarT) (E : Nat) (bar : Nat → Nat) : invBar b.kind E 63 (resetBar b.kind bar) := by
  cases b <;> (intro r hr; first | omega | (simp only [resetBar, BarT.kind]; rw [if_pos (by omega)]; omega))

include hn in
/-- One complete phase. -/
theorem phase (s : St) (hr : Reach P s) (E : Nat) (l : Cfg) (hx : l.exit = false)
    (hm : s.mpc = .reset) (hE : s.epoch + 1 = E) (hw : s.config.wait ≠ .spinSep) (hbu : barUsed s = l.barrier)
    (h0 : ∀ i, i < 63 → s.pc i = .wait ∧ s.ep i = E ∧ (s.cfg i).wait = s.config.wait ∧ s.latched i = l)
    (hb : s.tb ≤ s.te) (hs : s.te - s.tb ≤ 64) (hf : s.te + 64 < 2 ^ 64) :
    ∃ u, Reach P u ∧ u.mpc = .fin ∧ u.epoch = E ∧ u.config = s.config ∧ u.op = s.op ∧
      (∀ i, i < 63 → u.pc i = .wait ∧ u.ep i = E + 1 ∧ u.cfg i = l ∧ u.latched i = newLatch s i) ∧ invBar l.barrier.kind E 0 u.bar := by
  obtain ⟨u, ru, u1, u2, u3, u4, u5, u6, u7, u8, u9⟩ := toUntil hn s hr 63 E l (by omega) hx hm hE hw (fun i hi => (h0 i hi).1)
    (fun i hi => (h0 i hi).2) hb hs hf (invBar l.barrier.kind E) (by rw [hbu]; exact invBar_reset _ _ _)
    (fun i bar hi h => invBar_step _ _ _ _ hi h)
  have hbu' : barUsed u = l.barrier := by rw [← hbu]; unfold barUsed; rw [u5, u4]
  have r : Reach P { u with mpc := .fin, pc := upd u.pc 63 .wait } := by
    cases hl : l.barrier <;> rw [hl] at hbu' u9
    · exact finGroup hn u ru u1 (g := 1) (by rw [hbu']; rfl) 63 (fun i hi => ⟨by omega, by rw [u2]; exact u9 _ (by omega) (by omega)⟩) (by omega)
    · refine finCounter hn u ru u1 (k := 1) (by rw [hbu']; rfl) ?_
      have := u9 0 (by omega)
      simp only [Nat.sub_zero] at this
      simp [List.range_succ, this]
    · refine finCounter hn u ru u1 (k := 2) (by rw [hbu']; rfl) ?_
      have a := u9 0 (by omega); have b := u9 1 (by omega)
      simp only [Nat.sub_zero, Nat.reduceSub] at a b
      simp [List.range_succ, a, b]
    · refine finCounter hn u ru u1 (k := 4) (by rw [hbu']; rfl) ?_
      have a := u9 0 (by omega); have b := u9 1 (by omega); have c := u9 2 (by omega); have d := u9 3 (by omega)
      simp only [Nat.sub_zero, Nat.reduceSub] at a b c d
      simp [List.range_succ, a, b, c, d]
    · exact finGroup hn u ru u1 (g := 2) (by rw [hbu']; rfl) 32 (fun i hi => ⟨by omega, by rw [u2]; exact u9 _ (by omega) (by omega)⟩) (by omega)
    · exact finGroup hn u ru u1 (g := 4) (by rw [hbu']; rfl) 16 (fun i hi => ⟨by omega, by rw [u2]; exact u9 _ (by omega) (by omega)⟩) (by omega)
  refine ⟨_, r, rfl, u2, u4, u5, fun i hi => ?_, u9⟩
  obtain ⟨v1, v2, v3, v4⟩ := u7 i hi
  exact ⟨(upd_ne _ _ (by omega)).trans v1, v2, v3, v4⟩

/-- The pool is idle after `E` phases with configuration `c`. -/
structure Ready (P : Params) (s : St) (E : Nat) (c : Cfg) : Prop where
  reach : Reach P s
  mpc : s.mpc = .idle
  epoch : s.epoch = E
  config : s.config = c
  exit : c.exit = false
  wait : c.wait ≠ .spinSep
  th : ∀ i, i < 63 → s.pc i = .wait ∧ s.ep i = E + 1 ∧ s.cfg i = c ∧ s.latched i = c

include hn in
/-- A `Run` of two tasks. -/
theorem run {E : Nat} {c : Cfg} (h : Ready P s E c) : ∃ s', Ready P s' (E + 1) c := by
  have r1 := Reach.step _ _ h.reach (Step.mRun s 0 2 h.mpc (by omega) (by omega) (by omega) (by omega))
  rw [if_neg (by omega)] at r1
  obtain ⟨u, ru, u1, u2, u3, u4, u5, u6⟩ := phase hn _ r1 (E + 1) c h.exit rfl (by show s.epoch + 1 = _; rw [h.epoch])
    (by show s.config.wait ≠ _; rw [h.config]; exact h.wait) (by show s.config.barrier = _; rw [h.config])
    (fun i hi => by obtain ⟨a, b, c', d⟩ := h.th i hi; exact ⟨a, b, by show (s.cfg i).wait = s.config.wait; rw [c', h.config], d⟩)
    (by show 0 ≤ 2; omega) (by show 2 - 0 ≤ 64; omega) (by show 2 + 64 < 2 ^ 64; omega)
  have r2 := Reach.step _ _ ru (Step.mRunRet u s.nextId 0 2 u1 u4)
  refine ⟨_, r2, rfl, u2, u3.trans h.config, h.exit, h.wait, fun i hi => ?_⟩
  obtain ⟨a, b, c', d⟩ := u5 i hi
  exact ⟨a, b, c', d.trans (h.th i hi).2.2.2⟩

include hn in
/-- The first phase of `SendConfig(c')`. -/
theorem send1 {E : Nat} {c : Cfg} (h : Ready P s E c) (c' : Cfg) (hx : c'.exit = false) :
    ∃ u, Reach P u ∧ u.mpc = .reset ∧ u.epoch = E + 1 ∧ u.config = c ∧ u.op = .send2 c' ∧ u.tb = 0 ∧ u.te = 0 ∧ u.fn = .noop ∧
      (∀ i, i < 63 → u.pc i = .wait ∧ u.ep i = E + 2 ∧ u.cfg i = c ∧ u.latched i = c') ∧ invBar c.barrier.kind (E + 1) 0 u.bar := by
  have r1 := Reach.step _ _ h.reach (Step.mSend s c' h.mpc hx (by omega))
  obtain ⟨u, ru, u1, u2, u3, u4, u5, u6⟩ := phase hn _ r1 (E + 1) c h.exit rfl (by show s.epoch + 1 = _; rw [h.epoch])
    (by show s.config.wait ≠ _; rw [h.config]; exact h.wait) (by show s.config.barrier = _; rw [h.config])
    (fun i hi => by obtain ⟨a, b, c', d⟩ := h.th i hi; exact ⟨a, b, by show (s.cfg i).wait = s.config.wait; rw [c', h.config], d⟩)
    (by show 0 ≤ P.n + 1; omega) (by show P.n + 1 - 0 ≤ 64; omega) (by show P.n + 1 + 64 < 2 ^ 64; omega)
  have r2 := Reach.step _ _ ru (Step.mSend2 u c' u1 u4)
  refine ⟨_, r2, rfl, u2, u3.trans h.config, rfl, rfl, rfl, rfl, fun i hi => ?_, u6⟩
  obtain ⟨a, b, c'', d⟩ := u5 i hi
  refine ⟨a, b, c'', d.trans ?_⟩
  show (if 0 + i < P.n + 1 then c' else _) = c'
  rw [if_pos (by omega)]

include hn in
/-- `SendConfig(c')`. -/
theorem send {E : Nat} {c : Cfg} (h : Ready P s E c) (c' : Cfg) (hx : c'.exit = false) (hw : c'.wait ≠ .spinSep) :
    ∃ s', Ready P s' (E + 2) c' := by
  obtain ⟨a, ra, a1, a2, a3, a4, a5, a6, a7, a8, a9⟩ := send1 hn h c' hx
  obtain ⟨u, ru, u1, u2, u3, u4, u5, u6⟩ := phase hn a ra (E + 2) c' hx a1 (by rw [a2]) (by rw [a3]; exact h.wait)
    (by unfold barUsed; rw [a4])
    (fun i hi => by obtain ⟨b1, b2, b3, b4⟩ := a8 i hi; exact ⟨b1, b2, by rw [b3, a3], b4⟩)
    (by omega) (by omega) (by omega)
  have r2 := Reach.step _ _ ru (Step.mSendDone u c' u1 (u4.trans a4))
  refine ⟨_, r2, ?_, u2, rfl, hx, hw, fun i hi => ?_⟩
  · show (if c'.exit then MPC.join else .idle) = .idle
    rw [hx]; rfl
  · obtain ⟨b1, b2, b3, b4⟩ := u5 i hi
    refine ⟨b1, b2, b3, b4.trans ?_⟩
    unfold newLatch; rw [a7]; exact (a8 i hi).2.2.2

/-- The barrier words while threads `m..61` have arrived in phase `E`, with the stale word of thread 62. -/
def invPart (E m : Nat) (bar : Nat → Nat) : Prop := (∀ j, m ≤ j → j < 62 → bar j = E) ∧ bar 62 = 16
theorem invPart_step (E i : Nat) (bar : Nat → Nat) (hi : i < 62) (h : invPart E (i + 1) bar) :
    canArrive (.group 2) i E bar ∧ invPart E i (arrBar (.group 2) i E bar) := by
  refine ⟨fun he j h1 h2 => h.1 j (by omega) (by omega), fun j h1 h2 => ?_, ?_⟩
  · by_cases hj : j = i
    · rw [hj]; exact upd_self _ _ _
    · exact (upd_ne _ _ hj).trans (h.1 j (by omega) h2)
  · exact (upd_ne _ _ (by omega)).trans h.2

/-- The state after the history of the header. -/
theorem early (W : WaitT) (hW : W ≠ .spinSep) :
    ∃ s, Reach (pool 63) s ∧ s.mpc = .idle ∧ s.cfg 62 ≠ s.config ∧ s.epoch = 16 ∧ s.ep 62 = 16 ∧ s.waiter 0 = 16 ∧
      s.config = ⟨W, .group2, false⟩ ∧ s.bar 62 = 16 ∧ s.latched 62 = s.config ∧ (∀ i, i < 63 → s.pc i = .wait ∧ (s.cfg i).wait = W) ∧
      (∀ i, i < 62 → s.ep i = 17 ∧ s.latched i = s.config) := by
  have hn : (pool 63).n = 63 := rfl
  have r0 : Ready (pool 63) (fresh ⟨.block, .ordered, false⟩) 0 ⟨.block, .ordered, false⟩ :=
    ⟨Reach.init _ (fresh_init _ rfl), rfl, rfl, rfl, rfl, by decide, fun i _ => ⟨rfl, rfl, rfl, rfl⟩⟩
  -- two calls of SetWaitMode
  obtain ⟨_, r2⟩ := send hn r0 ⟨W, .ordered, false⟩ rfl hW
  obtain ⟨_, r4⟩ := send hn r2 ⟨W, .ordered, false⟩ rfl hW
  -- auto-tuned runs
  obtain ⟨_, r5⟩ := run hn r4
  obtain ⟨_, r7⟩ := send hn r5 ⟨W, .counter1, false⟩ rfl hW
  obtain ⟨_, r8⟩ := run hn r7
  obtain ⟨_, r10⟩ := send hn r8 ⟨W, .counter2, false⟩ rfl hW
  obtain ⟨_, r11⟩ := run hn r10
  obtain ⟨_, r13⟩ := send hn r11 ⟨W, .counter4, false⟩ rfl hW
  obtain ⟨_, r14⟩ := run hn r13
  obtain ⟨a, ra, a1, a2, a3, a4, a5, a6, a7, a8, a9⟩ := send1 hn r14 ⟨W, .group2, false⟩ rfl
  have hstale : a.bar 62 = 16 := a9 1 (by omega)
  obtain ⟨u, ru, u1, u2, u3, u4, u5, u6, u7, u8, u9⟩ := toUntil hn a ra 62 16 ⟨W, .group2, false⟩ (by omega) rfl a1 (by rw [a2])
    (by rw [a3]; exact hW) (fun i hi => (a8 i hi).1)
    (fun i hi => by obtain ⟨b1, b2, b3, b4⟩ := a8 i (by omega); exact ⟨b2, by rw [b3, a3], b4⟩) (by omega) (by omega) (by omega)
    (invPart 16) (by
      have e : barUsed a = .group2 := by unfold barUsed; rw [a4]
      rw [e]; exact ⟨fun j h1 h2 => by omega, hstale⟩)
    (fun i bar hi h => invPart_step _ _ _ hi h)
  have hk : (barUsed u).kind = .group 2 := by unfold barUsed; rw [u5, a4]; rfl
  have r := finGroup hn u ru u1 hk 32 (fun i hi => ⟨by omega, by
    rw [u2]
    by_cases h : i = 31
    · subst h; exact u9.2
    · exact u9.1 _ (by omega) (by omega)⟩) (by omega)
  have r' := Reach.step _ _ r (Step.mSendDone _ ⟨W, .group2, false⟩ rfl (by show u.op = _; rw [u5, a4]))
  obtain ⟨v1, v2, v3, v4⟩ := u8 62 (by omega) (by omega)
  refine ⟨_, r', rfl, ?_, u2, ?_, u3, rfl, u9.2, ?_, fun i hi => ⟨(upd_ne _ _ (by omega)).trans ?_, ?_⟩, fun i hi => ⟨?_, ?_⟩⟩
  · show u.cfg 62 ≠ (⟨W, .group2, false⟩ : Cfg)
    rw [v4, (a8 62 (by omega)).2.2.1]; simp
  · show u.ep 62 = 16
    rw [v3, (a8 62 (by omega)).2.1]
  · show u.latched 62 = _
    rw [v2]; exact (a8 62 (by omega)).2.2.2
  · by_cases h : i < 62
    · exact (u7 i h).1
    · exact (u8 i (by omega) hi).1
  · show (u.cfg i).wait = W
    by_cases h : i < 62
    · rw [(u7 i h).2.2.1]
    · rw [(u8 i (by omega) hi).2.2.2, (a8 i hi).2.2.1]
  · exact (u7 i hi).2.1
  · show u.latched i = _
    rw [(u7 i hi).2.2.2]; unfold newLatch; rw [a7]; exact (a8 i (by omega)).2.2.2

end Finding

open Finding in
/-- **C13 fails for 63 threads.** A pool of 63 threads can reach a state in which `SetWaitMode`/the end of an auto-tuned `Run` has
returned but thread 62 still has the old configuration (contrast `C13_config_handed_over`). -/
theorem C13_finding_63_threads_early_return : ∃ s, Reach (pool 63) s ∧ s.mpc = .idle ∧ s.cfg 62 ≠ s.config := by
  obtain ⟨s, h1, h2, h3, _⟩ := early .block (by decide)
  exact ⟨s, h1, h2, h3⟩

open Finding in
/-- **C13 fails for 63 threads.** A pool of 63 threads can deadlock: a state is reachable in which `Run` has not returned and no thread
can take another step, ever (contrast `C13_no_deadlock`). -/
theorem C13_finding_63_threads_deadlock :
    ∃ s, Reach (pool 63) s ∧ (∃ id b e, s.op = .run id b e) ∧ s.mpc ≠ .idle ∧ s.mpc ≠ .fin ∧ s.mpc ≠ .dead ∧ ∀ s', ¬ Step (pool 63) s s' := by
  have hn : (pool 63).n = 63 := rfl
  obtain ⟨s, rs, s1, s2, s3, s4, s5, s6, s7, _, s8, s9⟩ := early .spin1 (by decide)
  have r1 := Reach.step _ _ rs (Step.mRun s 0 2 s1 (by omega) (by rw [hn]; omega) (by omega) (by rw [hn]; omega))
  rw [if_neg (by rw [hn]; omega)] at r1
  obtain ⟨u, ru, u1, u2, u3, u4, u5, u6, u7, u8, u9⟩ := toUntil hn _ r1 62 17 ⟨.spin1, .group2, false⟩ (by omega) rfl rfl (by
      show s.epoch + 1 = 17; rw [s3])
    (by show s.config.wait ≠ _; rw [s6]; decide) (fun i hi => (s8 i hi).1)
    (fun i hi => ⟨(s9 i hi).1, by show (s.cfg i).wait = s.config.wait; rw [(s8 i (by omega)).2, s6], by
      show s.latched i = _; rw [(s9 i hi).2, s6]⟩)
    (by show 0 ≤ 2; omega) (by show 2 - 0 ≤ 64; omega) (by show 2 + 64 < 2 ^ 64; omega) (invPart 17) (by
      show invPart 17 62 (resetBar s.config.barrier.kind s.bar)
      rw [s6]; exact ⟨fun j h1 h2 => by omega, s7⟩)
    (fun i bar hi h => invPart_step _ _ _ hi h)
  have hk : (barUsed u).kind = .group 2 := by unfold barUsed; rw [u5, u4]; show s.config.barrier.kind = _; rw [s6]; rfl
  have r := poll hn u ru u1 hk 31 (fun i hi => ⟨by omega, by rw [u2]; exact u9.1 _ (by omega) (by omega)⟩)
  have hk' : (barUsed { u with mpc := .until (2 * 31) 0 }).kind = .group 2 := hk
  have hpc : ∀ i, i < 63 → u.pc i = .wait := fun i hi => by
    by_cases h : i < 62
    · exact (u7 i h).1
    · exact (u8 i (by omega) hi).1
  have hcfg : ∀ i, i < 63 → (u.cfg i).wait = .spin1 := fun i hi => by
    by_cases h : i < 62
    · rw [(u7 i h).2.2.1]
    · rw [(u8 i (by omega) hi).2.2.2]; exact (s8 i hi).2
  have hep : ∀ i, i < 63 → u.ep i ≠ 17 := fun i hi => by
    by_cases h : i < 62
    · rw [(u7 i h).2.1]; omega
    · rw [(u8 i (by omega) hi).2.2.1]
      show s.ep i ≠ 17
      rw [show i = 62 by omega, s4]; omega
  have hpc' : ∀ w, w ≤ 63 → u.pc w = .wait ∨ u.pc w = .arrive := fun w hw => by
    by_cases h : w < 63
    · exact .inl (hpc w h)
    · rw [show w = 63 by omega]; exact .inr u6
  refine ⟨_, r, ⟨_, _, _, u5⟩, by simp, by simp, by simp, fun s' hst => ?_⟩
  generalize hv : ({ u with mpc := .until (2 * 31) 0 } : St) = v at hst
  have vm : v.mpc = .until 62 0 := by rw [← hv]
  have vk : (barUsed v).kind = .group 2 := by rw [← hv]; exact hk'
  have vb : v.bar 62 ≠ v.epoch := by rw [← hv]; show u.bar 62 ≠ u.epoch; rw [u2, u9.2]; omega
  have vpc : ∀ i, i < (pool 63).n → v.pc i = .wait := by rw [← hv]; exact hpc
  have vcfg : ∀ i, i < (pool 63).n → (v.cfg i).wait = .spin1 := by rw [← hv]; exact hcfg
  have vep : ∀ i, i < (pool 63).n → v.waiter 0 ≠ v.ep i := by
    rw [← hv]; intro i hi; show u.waiter 0 ≠ u.ep i; rw [u3]; exact fun h => hep i hi h.symm
  have vpc' : ∀ w, w ≤ (pool 63).n → v.pc w = .wait ∨ v.pc w = .arrive := by rw [← hv]; exact hpc'
  clear hv
  have hw : ∀ (w : Nat) (p : WPC), w ≤ (pool 63).n → v.pc w = p → p = .wait ∨ p = .arrive := fun w p h1 h2 => by
    rw [← h2]; exact vpc' w h1
  have ht : ∀ (i : Nat) (p : WPC), i < (pool 63).n → v.pc i = p → p = .wait := fun i p h1 h2 => by
    rw [← h2]; exact vpc i h1
  have hM : ∀ p : MPC, v.mpc = p → p = .until 62 0 := fun p h => by rw [← h]; exact vm
  cases hst
  all_goals first
    | (rename_i h; cases hM _ h; done)
    | (rename_i h _; cases hM _ h; done)
    | (rename_i h _ _; cases hM _ h; done)
    | (rename_i h _ _ _; cases hM _ h; done)
    | (rename_i h _ _ _ _; cases hM _ h; done)
    | (rename_i h1 h2; rcases hw _ _ h1 h2 with h | h <;> cases h; done)
    | (rename_i h1 h2 _; rcases hw _ _ h1 h2 with h | h <;> cases h; done)
    | (rename_i h1 h2; cases ht _ _ h1 h2; done)
    | (rename_i h1 h2 _; cases ht _ _ h1 h2; done)
    | (rename_i h1 h2 _ _; cases ht _ _ h1 h2; done)
    | (rename_i h1 h2 _ _ _; cases ht _ _ h1 h2; done)
    | (rename_i h1 h2 h3 _; rw [vk] at h2; cases h2; done)
    | skip
  case mCtrLoad h2 _ => rw [vk] at h2; cases h2
  case mGrpPoll h1 h2 h3 h4 =>
    cases hM _ h1; exact vb h4
  case mGrpDone h1 h2 h3 =>
    cases hM _ h1; exact h3 (by rw [hn]; omega)
  case tWoken h1 h2 h3 =>
    unfold woken at h3; rw [vcfg _ h1] at h3; exact vep _ h1 h3
  case tFutex h1 h2 h3 h4 => rw [vcfg _ h1] at h3; cases h3

open Finding in
/-- **C11 fails for 63 threads.** A pool of 63 threads in the default (blocking) mode can call the closure twice for the same task of a
`Run` that returned (contrast `C11_exactly_once`). -/
theorem C11_finding_63_threads_called_twice :
    ∃ s id, Reach (pool 63) s ∧ (id, 0, 64) ∈ s.returned ∧ 2 ≤ entries id 62 s.started := by
  have hn : (pool 63).n = 63 := rfl
  obtain ⟨s, rs, s1, s2, s3, s4, s5, s6, s7, s10, s8, s9⟩ := early .block (by decide)
  have r1 := Reach.step _ _ rs (Step.mRun s 0 64 s1 (by omega) (by rw [hn]; omega) (by omega) (by rw [hn]; omega))
  rw [if_neg (by rw [hn]; omega)] at r1
  obtain ⟨a, ra, a1, a2, a3, a4, a5, a6, a7, a8, a9, a10, a11, a12, a13, a14⟩ := wake hn r1 rfl
    (by show s.config.wait ≠ _; rw [s6]; decide) (fun i hi => (s8 i hi).1)
  have a3 : a.waiter 0 = 17 := by rw [a3]; show s.epoch + 1 = 17; rw [s3]
  have a7 : a.tb = 0 := a7
  have a8 : a.te = 64 := a8
  have a9 : a.fn = .user s.nextId := a9
  have al : a.latched = s.latched := a14
  have ac : a.cfg = s.cfg := a13
  have ae : a.ep = s.ep := a12
  -- thread 62 leaves phase 16 late: it runs task 62 ...
  obtain ⟨t, rt, ft, o, t1, t2, t3, t4, t5, t6⟩ := oneThread hn ra (w := 62) (by omega) (a6 62 (by omega))
    (by unfold woken; rw [ac, (s8 62 (by omega)).2, ae, s4, a3]; show 17 ≠ 16 - 1; decide)
    (by rw [al, s10, s6]) (by omega) (by omega) (by omega) (by
      rw [al, s10, s6]; exact fun _ j h1 h2 => by omega)
  have t2' : t.latched 62 = ⟨.block, .group2, false⟩ := by
    rw [t2]; unfold newLatch; rw [a9, al, s10, s6]
  -- ... and, in phase 17, again
  obtain ⟨v, rv, fv, p, v1, v2, v3, v4, v5, v6⟩ := oneThread hn rt (w := 62) (by omega) t1
    (by unfold woken; rw [t4, al, s10, s6, t3, ae, s4, ft.waiter, a3]; show 17 ≠ 16 + 1 - 1; decide)
    (by rw [t2']) (by rw [ft.tb, ft.te]; omega) (by rw [ft.tb, ft.te]; omega) (by rw [ft.te]; omega) (by
      rw [t2']; exact fun _ j h1 h2 => by omega)
  have c1 := t6 s.nextId a9 (by omega)
  have c2 := v6 s.nextId (by rw [ft.fn, a9]) (by rw [ft.tb, ft.te]; omega)
  rw [c1, ft.tb, a7] at c2
  have hv2 : ∀ i, i < 62 → v.pc i = .wait ∧ v.ep i = 17 ∧ (v.cfg i).wait = .block ∧ v.latched i = ⟨.block, .group2, false⟩ := by
    intro i hi
    obtain ⟨x1, x2, x3, x4⟩ := o i (by omega)
    obtain ⟨y1, y2, y3, y4⟩ := p i (by omega)
    exact ⟨by rw [y1, x1, a6 i (by omega)], by rw [y3, x3, ae, (s9 i hi).1], by rw [y4, x4, ac, (s8 i (by omega)).2],
      by rw [y2, x2, al, (s9 i hi).2, s6]⟩
  have vw : v.waiter 0 = 17 := by rw [fv.waiter, ft.waiter, a3]
  have vtb : v.tb = 0 := by rw [fv.tb, ft.tb, a7]
  have vte : v.te = 64 := by rw [fv.te, ft.te, a8]
  obtain ⟨x, rx, fx, x1, x2, x3⟩ := sweep hn v rv 62 17 ⟨.block, .group2, false⟩ (by omega) rfl
    (fun i hi => by
      obtain ⟨y1, y2, y3, y4⟩ := hv2 i hi
      exact ⟨y1, y2, by unfold woken; rw [y3, y2, vw]; show 17 ≠ 17 - 1; decide, y4⟩)
    (by omega) (by omega) (by omega) (invBar (.group 2) 17) (by
      intro j h1 h2
      rw [show j = 62 by omega, v5, t2', t3, ae, s4]; exact upd_self _ _ _)
    (fun i bar hi h => invBar_step .group2 _ _ _ (by omega) h)
  obtain ⟨u, ru, sm, _, u1, _, _⟩ := runSingle hn rx (w := 63) (by omega) (by
      rw [(x2 63 (by omega)).1, (p 63 (by omega)).1, (o 63 (by omega)).1, a4]) (by rw [fx.tb, fx.te]; omega)
    (by rw [fx.tb, fx.te]; omega) (by rw [fx.te]; omega)
  have rU := Reach.step _ _ ru (Step.mRan u (by rw [sm.mpc, fx.mpc, fv.mpc, ft.mpc, a1]) (by rw [hn]; exact u1))
  have ue : u.epoch = 17 := by rw [sm.epoch, fx.epoch, fv.epoch, ft.epoch, a2]; show s.epoch + 1 = 17; rw [s3]
  have uop : u.op = .run s.nextId 0 64 := by rw [sm.op, fx.op, fv.op, ft.op, a11]
  have ucf : u.config = ⟨.block, .group2, false⟩ := by rw [sm.config, fx.config, fv.config, ft.config, a10]; exact s6
  have rF := finGroup hn _ rU rfl (g := 2) (by
      show (barUsed u).kind = _
      unfold barUsed; rw [uop, ucf]; rfl) 32 (fun i hi => ⟨by omega, by
      show u.bar (2 * i) = u.epoch
      rw [ue, sm.bar]; exact x3 _ (by omega) (by omega)⟩) (by omega)
  have rR := Reach.step _ _ rF (Step.mRunRet _ s.nextId 0 64 rfl uop)
  refine ⟨_, s.nextId, rR, List.mem_cons_self, ?_⟩
  show 2 ≤ entries s.nextId 62 u.started
  have hs : v.started <:+ u.started := fx.suf.trans sm.suf
  have hsub : ((v.started.filter (fun x => x.1 = s.nextId ∧ x.2.1 = 62))).length ≤ entries s.nextId 62 u.started :=
    (hs.sublist.filter _).length_le
  refine Nat.le_trans ?_ hsub
  rw [c2]
  simp [List.filter_cons]

end Pool
end Hwy
