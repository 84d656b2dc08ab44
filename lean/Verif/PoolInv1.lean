import Verif.PoolModel

/-! # Control invariant of the thread-pool model: epochs, waiters, configuration, task registers -/

namespace Hwy
namespace Pool

@[grind =] theorem upd_apply {α : Type} (f : Nat → α) (i : Nat) (x : α) (j : Nat) :
    upd f i x j = if j = i then x else f j := rfl

@[grind] def MPC.quiet : MPC → Bool
  | .wake _ | .wakeAll | .running | .until _ _ => false
  | _ => true

/-- main is outside any phase. -/
@[grind] def MPC.calm : MPC → Bool
  | .idle | .inl _ _ _ _ | .inlC _ _ _ _ => true
  | _ => false

@[grind] def MPC.setup : MPC → Bool
  | .div _ _ | .reset => true
  | _ => false

@[grind] def MPC.inPhase : MPC → Bool
  | .wake _ | .wakeAll | .running | .until _ _ | .fin => true
  | _ => false

@[grind] def MPC.ending : MPC → Bool
  | .join | .dead => true
  | _ => false

@[grind] def WPC.isWait : WPC → Bool
  | .wait | .fwait | .sleep => true
  | _ => false

@[grind] def WPC.early : WPC → Bool
  | .wait | .fwait | .sleep | .latch => true
  | _ => false

/-- The latch closure (if that is the job) has executed on this worker. -/
@[grind] def WPC.late : WPC → Bool
  | .inCall _ _ _ | .arrive | .lead _ => true
  | _ => false

@[grind] def WPC.runPc : WPC → Bool
  | .wait | .fwait | .sleep | .latch | .lead _ | .exited => false
  | _ => true

/-- Configuration of a thread after the current phase. -/
@[grind] def target (op : Op) (c : Cfg) : Cfg := match op with | .send2 d => d | _ => c
@[grind] def latchBefore (op : Op) (c : Cfg) : Cfg := match op with | .send2 d => d | _ => c
@[grind] def latchAfter (op : Op) (c : Cfg) : Cfg :=
  match op with | .send2 d => d | .send1 d => d | .run _ _ _ => c

/-- Tasks of the current phase. -/
@[grind] def jobB : Op → Nat | .run _ b _ => b | _ => 0
@[grind] def jobE (n : Nat) : Op → Nat | .run _ _ e => e | .send1 _ => n + 1 | .send2 _ => 0
@[grind] def jobF : Op → Fn | .run id _ _ => .user id | .send1 c => .latch c | .send2 _ => .noop

/-- Thread `i` is still to be woken by the wake-up in progress. -/
@[grind] def MPC.prewake (m : MPC) (i : Nat) : Bool :=
  match m with
  | .wake k => decide (k ≤ i)
  | _ => false

@[grind] def MPC.isWake0 : MPC → Bool
  | .wake 0 => true
  | _ => false

theorem runPc_facts (p : WPC) (h : p.runPc = true) : p.isWait = false ∧ p.early = false ∧
    p ≠ .exited ∧ p ≠ .sleep ∧ p ≠ .fwait ∧ p ≠ .wait ∧ p ≠ .latch := by
  cases p <;> simp_all [WPC.runPc, WPC.isWait, WPC.early]

theorem isWait_facts (p : WPC) (h : p.isWait = true) : p.early = true ∧ p.runPc = false ∧
    p ≠ .exited ∧ p ≠ .latch := by
  cases p <;> simp_all [WPC.runPc, WPC.isWait, WPC.early]

theorem inPhase_of_not_quiet (m : MPC) (h : m.quiet = false) : m.inPhase = true ∧ m.calm = false ∧
    m.setup = false ∧ m.ending = false := by
  cases m <;> simp_all [MPC.quiet, MPC.inPhase, MPC.calm, MPC.setup, MPC.ending]

/-- Register contents are those of the current job `[tb, te)`, `fn`, with range ends `me`. -/
@[grind] def locals (P : Params) (tb te : Nat) (fn : Fn) (me : Nat → Nat) (w : Nat) : WPC → Prop
  | .ldBegin e => e = te
  | .s1 => te - tb ≤ P.n + 1
  | .s2 b => te - tb ≤ P.n + 1 ∧ b = tb
  | .s3 t => te - tb ≤ P.n + 1 ∧ t = tb + w ∧ t < te
  | .w1 => P.n + 1 < te - tb
  | .w2 vs f => P.n + 1 < te - tb ∧ f = fn ∧ vs <:+ P.vict w
  | .w3 vs oe f => P.n + 1 < te - tb ∧ f = fn ∧ vs <:+ P.vict w ∧
      ∃ v vs', vs = v :: vs' ∧ oe = me v
  | .call none t f => f = fn ∧ te - tb ≤ P.n + 1 ∧ t = tb + w ∧ t < te
  | .inCall none t f => f = fn ∧ te - tb ≤ P.n + 1 ∧ t = tb + w ∧ t < te
  | .call (some (vs, oe)) t f => f = fn ∧ P.n + 1 < te - tb ∧ vs <:+ P.vict w ∧
      (∃ v vs', vs = v :: vs' ∧ oe = me v) ∧ t < oe
  | .inCall (some (vs, oe)) t f => f = fn ∧ P.n + 1 < te - tb ∧ vs <:+ P.vict w ∧
      (∃ v vs', vs = v :: vs' ∧ oe = me v) ∧ t < oe
  | _ => True

/-- Invariant of thread `i`, given main's epoch `E`, program counter `m`, configuration `cg`, phase
`op` and the first waiter `w0`; `ep`, `pc`, `cf`, `la`, `wt` are the thread's own variables. -/
structure TInv (E w0 : Nat) (m : MPC) (cg : Cfg) (op : Op) (i ep : Nat) (pc : WPC) (cf la : Cfg)
    (wt : Nat) : Prop where
  ep_quiet : m.quiet = true → ep = E + 1
  ep_act : ep = E ∨ ep = E + 1
  eppos : 1 ≤ ep
  pre : m.prewake i = true → ep = E ∧ pc.isWait = true
  next : ep = E + 1 → pc.isWait = true ∨ pc = .exited
  exit1 : pc = .exited → cf.exit = true ∧ ep = E + 1
  exit2 : ep = E + 1 → cf.exit = true → pc = .exited
  wti : wt ≤ E
  wtk : m.prewake i = true → wt < E
  wts : m.inPhase = true → m.prewake i = false → cg.wait = .spinSep → wt = E
  slp : pc = .sleep → cf.wait = .block ∧ (w0 + 1 = ep ∨ m = .wakeAll)
  fwt : pc = .fwait → cf.wait = .block
  cfgCalm : m.calm = true → cf = cg ∧ la = cg
  cfgEnd : m.ending = true → cf = cg
  cfgSetup : m.setup = true → cf = cg ∧ la = latchBefore op cg
  cfgPre : m.inPhase = true → ep = E → pc.early = true → cf = cg ∧ la = latchBefore op cg
  cfgMid : m.inPhase = true → ep = E → pc.early = false → cf = target op cg ∧
      la = if pc.late then latchAfter op cg else latchBefore op cg
  cfgPost : m.inPhase = true → ep = E + 1 → cf = target op cg ∧ la = latchAfter op cg

/-- Invariant of main's variables; `pn` is main's own worker program counter, `w0` the first waiter. -/
structure GInv (n E w0 : Nat) (m : MPC) (cg : Cfg) (op : Op) (tb te : Nat) (fn : Fn) (pn : WPC) :
    Prop where
  wake0 : ∀ k, m = .wake k → (k = 0 ∨ cg.wait = .spinSep) ∧ k ≤ n
  waitN : m ≠ .running → (∀ j a, m ≠ .until j a) → pn = .wait
  runN : m = .running → pn.runPc = true
  untN : ∀ j a, m = .until j a → pn = .arrive
  exit3 : cg.exit = true → m.ending = true
  exit4 : m.ending = true → cg.exit = true
  npos : m.setup = true ∨ m.inPhase = true → n ≠ 0
  wt0 : m.isWake0 = true → w0 + 1 = E
  wt0' : m.isWake0 = false → n ≠ 0 → w0 = E
  tasks : m.setup = true ∨ m.inPhase = true → tb = jobB op ∧ te = jobE n op ∧ fn = jobF op
  opOk : m.setup = true ∨ m.inPhase = true → ∀ id b e, op = .run id b e →
    b ≤ e ∧ 1 < e - b ∧ e + (n + 1) < 2 ^ 64
  divOp : ∀ v d, m = .div v d → ∃ id b e, op = .run id b e ∧ n + 1 < e - b

structure Inv1 (P : Params) (s : St) : Prop where
  nbig : P.n < 2 ^ 32
  g : GInv P.n s.epoch (s.waiter 0) s.mpc s.config s.op s.tb s.te s.fn (s.pc P.n)
  t : ∀ i, i < P.n → TInv s.epoch (s.waiter 0) s.mpc s.config s.op i (s.ep i) (s.pc i) (s.cfg i)
    (s.latched i) (s.waiter i)
  l : ∀ w, w ≤ P.n → locals P s.tb s.te s.fn s.me w (s.pc w)

theorem inv1_init (P : Params) (hn : P.n < 2 ^ 32) (s : St) (h : Init s) : Inv1 P s := by
  obtain ⟨h1, h2, h3, h4, h5, h6, h7, h8, h9, h10, h11, h12, h13⟩ := h
  refine ⟨hn, ?_, fun i hi => ?_, fun w _ => by rw [h4]; trivial⟩
  · rw [h7, h8, h1, h4]; constructor <;> simp [MPC.ending, MPC.setup, MPC.inPhase, MPC.isWake0, h9]
  · rw [h7, h8, h1, h4, h1, h5, h6, h3]
    constructor <;> simp [MPC.quiet, MPC.prewake, MPC.inPhase, MPC.calm, MPC.ending, MPC.setup,
      WPC.isWait, h9]

/-- A step by thread `i` that leaves shared control variables alone. -/
theorem inv1_thread {P : Params} {s s' : St} (h : Inv1 P s) (i : Nat) (hi : i < P.n)
    (e1 : s'.epoch = s.epoch) (e2 : s'.waiter = s.waiter) (e3 : s'.mpc = s.mpc)
    (e4 : s'.config = s.config) (e5 : s'.op = s.op) (e6 : s'.tb = s.tb) (e7 : s'.te = s.te)
    (e8 : s'.fn = s.fn) (e9 : s'.me = s.me)
    (o1 : ∀ j, j ≠ i → s'.pc j = s.pc j) (o2 : ∀ j, j ≠ i → s'.ep j = s.ep j)
    (o3 : ∀ j, j ≠ i → s'.cfg j = s.cfg j) (o4 : ∀ j, j ≠ i → s'.latched j = s.latched j)
    (ht : TInv s.epoch (s.waiter 0) s.mpc s.config s.op i (s'.ep i) (s'.pc i) (s'.cfg i)
      (s'.latched i) (s.waiter i))
    (hl : locals P s.tb s.te s.fn s.me i (s'.pc i)) : Inv1 P s' := by
  refine ⟨h.nbig, ?_, fun j hj => ?_, fun w hw => ?_⟩
  · rw [e1, e2, e3, e4, e5, e6, e7, e8, o1 P.n (by omega)]; exact h.g
  · rw [e1, e2, e3, e4, e5]
    by_cases hji : j = i
    · subst hji; exact ht
    · rw [o1 j hji, o2 j hji, o3 j hji, o4 j hji]; exact h.t j hj
  · rw [e6, e7, e8, e9]
    by_cases hji : w = i
    · subst hji; exact hl
    · rw [o1 w hji]; exact h.l w hw

/-- A step of `WorkerRun` by worker `w`: only its program counter (and possibly `latched`) changes. -/
theorem inv1_run {P : Params} {s s' : St} (h : Inv1 P s) (w : Nat) (hw : w ≤ P.n)
    (e1 : s'.epoch = s.epoch) (e2 : s'.waiter = s.waiter) (e3 : s'.mpc = s.mpc)
    (e4 : s'.config = s.config) (e5 : s'.op = s.op) (e6 : s'.tb = s.tb) (e7 : s'.te = s.te)
    (e8 : s'.fn = s.fn) (e9 : s'.me = s.me) (e10 : s'.ep = s.ep) (e11 : s'.cfg = s.cfg)
    (o1 : ∀ j, j ≠ w → s'.pc j = s.pc j) (o4 : ∀ j, j ≠ w → s'.latched j = s.latched j)
    (r1 : (s.pc w).runPc = true) (r0 : s.pc w ≠ .arrive) (r2 : (s'.pc w).runPc = true)
    (hla : w < P.n → s.mpc.inPhase = true → s.latched w =
        (if (s.pc w).late then latchAfter s.op s.config else latchBefore s.op s.config) →
      s'.latched w =
        (if (s'.pc w).late then latchAfter s.op s.config else latchBefore s.op s.config))
    (hl : locals P s.tb s.te s.fn s.me w (s'.pc w)) : Inv1 P s' := by
  by_cases hwn : w < P.n
  · refine inv1_thread h w hwn e1 e2 e3 e4 e5 e6 e7 e8 e9 o1 (fun _ _ => by rw [e10])
      (fun _ _ => by rw [e11]) o4 ?_ hl
    rw [e10, e11]
    have ht := h.t w hwn
    have hepq := ht.ep_act
    have hnx := ht.next
    obtain ⟨p1, p2, p3, p4, p5, p6, p7⟩ := runPc_facts _ r1
    obtain ⟨q1, q2, q3, q4, q5, q6, q7⟩ := runPc_facts _ r2
    have hep : s.ep w = s.epoch := by
      rcases hepq with h1 | h1
      · exact h1
      · rcases hnx h1 with h2 | h2
        · rw [p1] at h2; simp at h2
        · exact absurd h2 p3
    have hq : s.mpc.quiet = false := by
      cases hq : s.mpc.quiet with
      | false => rfl
      | true => have := ht.ep_quiet hq; omega
    obtain ⟨hph, m2, m3, m4⟩ := inPhase_of_not_quiet _ hq
    have hpre : s.mpc.prewake w = false := by
      cases hq : s.mpc.prewake w with
      | false => rfl
      | true => have := (ht.pre hq).2; rw [p1] at this; simp at this
    obtain ⟨t1, t2, t0, t3, t4, t5, t6, t7, t8, t9, t10, t11, t12, t13, t14, t15, t16, t17⟩ := ht
    have hla' := hla hwn hph (t16 hph hep p2).2
    constructor <;> simp_all
  · have hwn' : w = P.n := by omega
    subst hwn'
    refine ⟨h.nbig, ?_, fun j hj => ?_, fun w hw => ?_⟩
    · rw [e1, e2, e3, e4, e5, e6, e7, e8]
      have hg := h.g
      have hrun : s.mpc = .running := by
        have h1 := hg.waitN
        have h2 := hg.untN
        by_contra hc
        by_cases hu : ∃ j a, s.mpc = .until j a
        · obtain ⟨j, a, hu⟩ := hu
          exact r0 (h2 j a hu)
        · have := h1 hc (fun j a he => hu ⟨j, a, he⟩)
          rw [this] at r1; simp [WPC.runPc] at r1
      obtain ⟨g1, g2, g3, g4, g5, g6, g7, g8, g9, g10, g11, g12⟩ := hg
      refine ⟨g1, fun hc => absurd hrun hc, fun _ => r2, fun j a hc => ?_, g5, g6, g7, g8, g9, g10,
        g11, g12⟩
      rw [hrun] at hc; simp at hc
    · rw [e1, e2, e3, e4, e5, e10, e11, o1 j (by omega), o4 j (by omega)]; exact h.t j hj
    · rw [e6, e7, e8, e9]
      by_cases hji : w = P.n
      · subst hji; exact hl
      · rw [o1 w hji]; exact h.l w hw

/-- A step by main that changes no program counter of a worker. -/
theorem inv1_main {P : Params} {s s' : St} (h : Inv1 P s)
    (e1 : s'.pc = s.pc) (e2 : s'.ep = s.ep) (e3 : s'.cfg = s.cfg) (e4 : s'.latched = s.latched)
    (hg : GInv P.n s'.epoch (s'.waiter 0) s'.mpc s'.config s'.op s'.tb s'.te s'.fn (s.pc P.n))
    (ht : ∀ i, i < P.n → TInv s'.epoch (s'.waiter 0) s'.mpc s'.config s'.op i (s.ep i) (s.pc i)
      (s.cfg i) (s.latched i) (s'.waiter i))
    (hl : (s'.tb = s.tb ∧ s'.te = s.te ∧ s'.fn = s.fn ∧ s'.me = s.me) ∨
      (s.mpc.quiet = true)) : Inv1 P s' := by
  refine ⟨h.nbig, by rw [e1]; exact hg, fun i hi => by rw [e1, e2, e3, e4]; exact ht i hi, fun w hw => ?_⟩
  rw [e1]
  rcases hl with ⟨h1, h2, h3, h4⟩ | hq
  · rw [h1, h2, h3, h4]; exact h.l w hw
  · by_cases hwn : w < P.n
    · have ht := h.t w hwn
      rcases ht.next (ht.ep_quiet hq) with h1 | h1
      · revert h1; cases s.pc w <;> simp [WPC.isWait, locals]
      · rw [h1]; trivial
    · have : w = P.n := by omega
      subst this
      rw [h.g.waitN (by intro hc; rw [hc] at hq; simp [MPC.quiet] at hq)
        (by intro j a hc; rw [hc] at hq; simp [MPC.quiet] at hq)]
      trivial

/-- Main steps that change only main's variables. -/
macro "main_case" s:term "," h:term "," h1:term "," hl:term : tactic => `(tactic| (
  refine inv1_main $h rfl rfl rfl rfl ?_ (fun i hi => ?_) $hl
  · have gg := Inv1.g $h
    rw [$h1:term] at gg
    obtain ⟨g1, g2, g3, g4, g5, g6, g7, g8, g9, g10, g11, g12⟩ := gg
    simp only [MPC.quiet, MPC.calm, MPC.setup, MPC.inPhase, MPC.ending, MPC.prewake,
      reduceCtorEq, false_implies, true_implies, implies_true, or_self, or_false, or_true,
      not_false_eq_true, ne_eq, Bool.false_eq_true] at g1 g2 g3 g4 g5 g6 g7 g8 g9 g10 g11 g12
    constructor <;> grind
  · have gg := Inv1.g $h
    have tt := Inv1.t $h i hi
    rw [$h1:term] at gg tt
    have g5 := gg.exit3
    have g8 := gg.wt0
    have g9 := gg.wt0'
    have g1 := gg.wake0
    clear gg
    have wf := isWait_facts (St.pc $s i)
    obtain ⟨t1, t2, t0, t3, t4, t5, t6, t7, t8, t9, t10, t11, t12, t13, t14, t15, t16, t17⟩ := tt
    simp only [MPC.quiet, MPC.calm, MPC.setup, MPC.inPhase, MPC.ending, MPC.prewake,
      reduceCtorEq, false_implies, true_implies, implies_true, or_self, or_false, or_true,
      not_false_eq_true, ne_eq, Bool.false_eq_true, decide_eq_true_eq, decide_eq_false_iff_not,
      not_le] at g1 g5 t0 t1 t2 t3 t4 t5 t6 t7 t8 t9 t10 t11 t12 t13 t14 t15 t16 t17
    constructor <;> try simp only [MPC.quiet, MPC.calm, MPC.setup, MPC.inPhase, MPC.ending, MPC.prewake,
      reduceCtorEq, false_implies, true_implies, implies_true, or_self, or_false, or_true,
      not_false_eq_true, ne_eq, Bool.false_eq_true, decide_eq_true_eq, decide_eq_false_iff_not,
      not_le]
    all_goals first | assumption | grind))

/-- A step by main that also sets its own worker program counter (and may make threads re-check). -/
theorem inv1_mainN {P : Params} {s s' : St} (h : Inv1 P s)
    (o1 : ∀ j, j < P.n → s'.pc j = s.pc j ∨ (s.pc j = .sleep ∧ s'.pc j = .wait))
    (e2 : s'.ep = s.ep) (e3 : s'.cfg = s.cfg) (e4 : s'.latched = s.latched)
    (e6 : s'.tb = s.tb) (e7 : s'.te = s.te) (e8 : s'.fn = s.fn) (e9 : s'.me = s.me)
    (hg : GInv P.n s'.epoch (s'.waiter 0) s'.mpc s'.config s'.op s'.tb s'.te s'.fn (s'.pc P.n))
    (ht : ∀ i, i < P.n → TInv s'.epoch (s'.waiter 0) s'.mpc s'.config s'.op i (s.ep i) (s'.pc i)
      (s.cfg i) (s.latched i) (s'.waiter i))
    (hl : s'.pc P.n = .wait ∨ s'.pc P.n = .ldEnd) : Inv1 P s' := by
  refine ⟨h.nbig, hg, fun i hi => by rw [e2, e3, e4]; exact ht i hi, fun w hw => ?_⟩
  rw [e6, e7, e8, e9]
  by_cases hwn : w < P.n
  · rcases o1 w hwn with h1 | ⟨_, h1⟩
    · rw [h1]; exact h.l w hw
    · rw [h1]; trivial
  · have : w = P.n := by omega
    subst this
    rcases hl with h1 | h1 <;> rw [h1] <;> trivial

macro "mainN_case" s:term "," h:term "," h1:term : tactic => `(tactic| (
  · have gg := Inv1.g $h
    rw [$h1:term] at gg
    obtain ⟨g1, g2, g3, g4, g5, g6, g7, g8, g9, g10, g11, g12⟩ := gg
    simp only [MPC.quiet, MPC.calm, MPC.setup, MPC.inPhase, MPC.ending, MPC.prewake,
      reduceCtorEq, false_implies, true_implies, implies_true, or_self, or_false, or_true,
      not_false_eq_true, ne_eq, Bool.false_eq_true] at g1 g2 g3 g4 g5 g6 g7 g8 g9 g10 g11 g12
    constructor <;> grind))

macro "mainT_case" s:term "," h:term "," h1:term "," i:term "," hi:term : tactic => `(tactic| (
  · have gg := Inv1.g $h
    have tt := Inv1.t $h $i $hi
    rw [$h1:term] at gg tt
    have g5 := gg.exit3
    have g8 := gg.wt0
    have g9 := gg.wt0'
    have g1 := gg.wake0
    clear gg
    have wf := isWait_facts (St.pc $s $i)
    obtain ⟨t1, t2, t0, t3, t4, t5, t6, t7, t8, t9, t10, t11, t12, t13, t14, t15, t16, t17⟩ := tt
    simp only [MPC.quiet, MPC.calm, MPC.setup, MPC.inPhase, MPC.ending, MPC.prewake,
      reduceCtorEq, false_implies, true_implies, implies_true, or_self, or_false, or_true,
      not_false_eq_true, ne_eq, Bool.false_eq_true, decide_eq_true_eq, decide_eq_false_iff_not,
      not_le] at g1 g5 t0 t1 t2 t3 t4 t5 t6 t7 t8 t9 t10 t11 t12 t13 t14 t15 t16 t17
    constructor <;> try simp only [MPC.quiet, MPC.calm, MPC.setup, MPC.inPhase, MPC.ending, MPC.prewake,
      reduceCtorEq, false_implies, true_implies, implies_true, or_self, or_false, or_true,
      not_false_eq_true, ne_eq, Bool.false_eq_true, decide_eq_true_eq, decide_eq_false_iff_not,
      not_le]
    all_goals first | assumption | grind))

theorem tinv_phase {E w0 : Nat} {m : MPC} {cg : Cfg} {op : Op} {i ep : Nat} {pc : WPC} {cf la : Cfg}
    {wt : Nat} (h : TInv E w0 m cg op i ep pc cf la wt) (h1 : pc.isWait = false) (h2 : pc ≠ .exited) :
    ep = E ∧ m.inPhase = true ∧ m.prewake i = false ∧ m.calm = false ∧ m.setup = false ∧
      m.ending = false ∧ m.quiet = false := by
  have hep : ep = E := by
    rcases h.ep_act with h3 | h3
    · exact h3
    · rcases h.next h3 with h4 | h4
      · rw [h1] at h4; simp at h4
      · exact absurd h4 h2
  have hq : m.quiet = false := by
    cases hq : m.quiet with
    | false => rfl
    | true => have := h.ep_quiet hq; omega
  obtain ⟨a1, a2, a3, a4⟩ := inPhase_of_not_quiet _ hq
  refine ⟨hep, a1, ?_, a2, a3, a4, hq⟩
  cases hq : m.prewake i with
  | false => rfl
  | true => have := (h.pre hq).2; rw [h1] at this; simp at this

/-- A woken thread is in the current epoch, and main has signalled it. -/
theorem woken_phase {P : Params} {s : St} (h : Inv1 P s) {i : Nat} (hi : i < P.n)
    (hw : (s.pc i).isWait = true) (hk : woken s i) :
    s.ep i = s.epoch ∧ s.mpc.inPhase = true ∧ s.mpc.prewake i = false ∧ s.mpc.quiet = false := by
  have hn : P.n ≠ 0 := by omega
  have ht := h.t i hi
  have hg := h.g
  have ht0 := h.t 0 (by omega)
  have hne : s.pc i ≠ .exited := (isWait_facts _ hw).2.2.1
  have hla := (isWait_facts _ hw).1
  have hep : s.ep i = s.epoch := by
    rcases ht.ep_act with h1 | h1
    · exact h1
    · exfalso
      unfold woken at hk
      cases hw0 : s.mpc.isWake0 with
      | false =>
        have := hg.wt0' hw0 hn
        have := ht.wti
        split at hk <;> omega
      | true =>
        have := hg.wt0 hw0
        have hp : s.mpc.prewake i = true := by
          revert hw0; cases s.mpc <;> simp [MPC.isWake0, MPC.prewake]
          split <;> simp_all
        have := (ht.pre hp).1
        omega
  have hq : s.mpc.quiet = false := by
    cases hq : s.mpc.quiet with
    | false => rfl
    | true => have := ht.ep_quiet hq; omega
  have hph := (inPhase_of_not_quiet _ hq).1
  refine ⟨hep, hph, ?_, hq⟩
  have hcfg := (ht.cfgPre hph hep hla).1
  cases hp : s.mpc.prewake i with
  | false => rfl
  | true =>
    exfalso
    unfold woken at hk
    rw [hcfg] at hk
    have hwtk := ht.wtk hp
    have : ∃ k, s.mpc = .wake k := by
      revert hp; unfold MPC.prewake; split <;> simp_all
    obtain ⟨k, hk'⟩ := this
    obtain ⟨w1, w2⟩ := hg.wake0 k hk'
    rcases w1 with w1 | w1
    · subst w1
      have := hg.wt0 (by rw [hk']; rfl)
      split at hk <;> omega
    · rw [w1] at hk
      simp only at hk
      omega

/-- While `WorkerRun` executes anywhere, the job's bounds do not wrap. -/
theorem run_bounds {P : Params} {s : St} (h : Inv1 P s) (w : Nat) (hw : w ≤ P.n)
    (r1 : (s.pc w).runPc = true) (r0 : s.pc w ≠ .arrive) :
    s.tb ≤ s.te ∧ s.te + (P.n + 1) < 2 ^ 64 ∧ s.mpc.inPhase = true := by
  have hph : s.mpc.inPhase = true := by
    by_cases hwn : w < P.n
    · obtain ⟨p1, p2, p3, p4⟩ := runPc_facts _ r1
      exact (tinv_phase (h.t w hwn) p1 p3).2.1
    · have : w = P.n := by omega
      subst this
      by_cases hr : s.mpc = .running
      · rw [hr]; rfl
      · by_cases hu : ∃ j a, s.mpc = .until j a
        · obtain ⟨j, a, hu⟩ := hu
          rw [hu]; rfl
        · have := h.g.waitN hr (fun j a he => hu ⟨j, a, he⟩)
          rw [this] at r1; simp [WPC.runPc] at r1
  have ht := h.g.tasks (Or.inr hph)
  have ho := h.g.opOk (Or.inr hph)
  have hnb := h.nbig
  refine ⟨?_, ?_, hph⟩
  · cases hop : s.op with
    | run id b e => rw [hop] at ht; have := ho id b e hop; simp [jobB, jobE] at ht; omega
    | send1 c => rw [hop] at ht; simp [jobB, jobE] at ht; omega
    | send2 c => rw [hop] at ht; simp [jobB, jobE] at ht; omega
  · cases hop : s.op with
    | run id b e => rw [hop] at ht; have := ho id b e hop; simp [jobB, jobE] at ht; omega
    | send1 c => rw [hop] at ht; simp [jobB, jobE] at ht; omega
    | send2 c => rw [hop] at ht; simp [jobB, jobE] at ht; omega

theorem inv1_ret {P : Params} {s s' : St} (h : Inv1 P s) (w : Nat) (k : Option (List Nat × Nat))
    (t : Nat) (f : Fn) (hw : w ≤ P.n) (h2 : s.pc w = .inCall k t f)
    (e1 : s'.epoch = s.epoch) (e2 : s'.waiter = s.waiter) (e3 : s'.mpc = s.mpc)
    (e4 : s'.config = s.config) (e5 : s'.op = s.op) (e6 : s'.tb = s.tb) (e7 : s'.te = s.te)
    (e8 : s'.fn = s.fn) (e9 : s'.me = s.me) (e10 : s'.ep = s.ep) (e11 : s'.cfg = s.cfg)
    (e12 : s'.latched = s.latched) (e13 : s'.pc = upd s.pc w (contOf k f)) : Inv1 P s' := by
  have hl := h.l w hw
  rw [h2] at hl
  refine inv1_run h w hw e1 e2 e3 e4 e5 e6 e7 e8 e9 e10 e11
    (fun j hj => by rw [e13, upd_apply, if_neg hj]) (fun _ _ => by rw [e12]) (by rw [h2]; rfl)
    (by rw [h2]; simp) ?_ ?_ ?_
  · rw [e13, upd_apply, if_pos rfl]; cases k <;> simp [contOf, WPC.runPc]
  · rw [e13, upd_apply, if_pos rfl, e12, h2]
    intro hwn hph h3
    rcases k with _ | ⟨vs, oe⟩
    · simpa [contOf, WPC.late] using h3
    · simp only [contOf, WPC.late, if_true] at h3 ⊢
      rw [h3]
      have := h.g.tasks (Or.inr hph)
      have hb := hl.2.1
      revert this
      cases s.op <;> simp [latchBefore, latchAfter, jobB, jobE]
      intro h4 h5 h6
      omega
  · rw [e13, upd_apply, if_pos rfl]
    rcases k with _ | ⟨vs, oe⟩
    · trivial
    · exact ⟨hl.2.1, hl.1, hl.2.2.1, hl.2.2.2.1⟩

set_option maxHeartbeats 4000000 in
theorem inv1_step (P : Params) (s s' : St) (h : Inv1 P s) (hs : Step P s s')
    (hbar : s.mpc ≠ .fin → s'.mpc = .fin → ∀ i, i < P.n → s.ep i = s.epoch + 1) : Inv1 P s' := by
  cases hs with
  | mInline b e h1 h2 h3 h4 => main_case s, h, h1, (Or.inl ⟨rfl, rfl, rfl, rfl⟩)
  | mInlCall id b e t h1 h2 => main_case s, h, h1, (Or.inl ⟨rfl, rfl, rfl, rfl⟩)
  | mInlRet id b e t h1 => main_case s, h, h1, (Or.inl ⟨rfl, rfl, rfl, rfl⟩)
  | mInlDone id b e t h1 h2 => main_case s, h, h1, (Or.inl ⟨rfl, rfl, rfl, rfl⟩)
  | mRun b e h1 h2 h3 h4 h5 =>
    by_cases hd : e - b > P.n + 1
    · rw [if_pos hd]
      main_case s, h, h1, (Or.inr (by rw [h1]; rfl))
    · rw [if_neg hd]
      main_case s, h, h1, (Or.inr (by rw [h1]; rfl))
  | mDiv v myb h1 h2 => main_case s, h, h1, (Or.inr (by rw [h1]; rfl))
  | mDivDone v myb h1 h2 => main_case s, h, h1, (Or.inr (by rw [h1]; rfl))
  | mSend c h1 h2 h3 => main_case s, h, h1, (Or.inr (by rw [h1]; rfl))
  | mSend0 c h1 h2 h3 => main_case s, h, h1, (Or.inl ⟨rfl, rfl, rfl, rfl⟩)
  | mDestroy h1 h2 => main_case s, h, h1, (Or.inr (by rw [h1]; rfl))
  | mDestroy0 h1 h2 => main_case s, h, h1, (Or.inl ⟨rfl, rfl, rfl, rfl⟩)
  | mReset h1 => main_case s, h, h1, (Or.inl ⟨rfl, rfl, rfl, rfl⟩)
  | mWakeBlock k h1 h2 => main_case s, h, h1, (Or.inl ⟨rfl, rfl, rfl, rfl⟩)
  | mWakeSep k h1 h2 h3 => main_case s, h, h1, (Or.inl ⟨rfl, rfl, rfl, rfl⟩)
  | mRan h1 h2 => main_case s, h, h1, (Or.inl ⟨rfl, rfl, rfl, rfl⟩)
  | mCtrLoad j acc k h1 h2 h3 => main_case s, h, h1, (Or.inl ⟨rfl, rfl, rfl, rfl⟩)
  | mCtrAgain j acc k h1 h2 h3 h4 => main_case s, h, h1, (Or.inl ⟨rfl, rfl, rfl, rfl⟩)
  | mGrpPoll j acc g h1 h2 h3 h4 => main_case s, h, h1, (Or.inl ⟨rfl, rfl, rfl, rfl⟩)
  | mRunRet id b e h1 h2 => main_case s, h, h1, (Or.inl ⟨rfl, rfl, rfl, rfl⟩)
  | mSend2 c h1 h2 => main_case s, h, h1, (Or.inr (by rw [h1]; rfl))
  | mSendDone c h1 h2 =>
    by_cases hd : c.exit = true
    · rw [if_pos hd]
      main_case s, h, h1, (Or.inr (by rw [h1]; rfl))
    · rw [if_neg hd]
      main_case s, h, h1, (Or.inr (by rw [h1]; rfl))
  | mJoin h1 h2 => main_case s, h, h1, (Or.inl ⟨rfl, rfl, rfl, rfl⟩)
  | mWakeAll h1 =>
    have hc : ∀ p, wakeSleeper p ≠ .sleep ∧ (wakeSleeper p = p ∨ (p = .sleep ∧ wakeSleeper p = .wait)) := by
      intro p; cases p <;> simp [wakeSleeper]
    refine inv1_mainN h ?_ rfl rfl rfl rfl rfl rfl rfl ?_ ?_ (Or.inr (by simp [upd_apply]))
    · intro j hj
      simp only [upd_apply, if_neg (show ¬ j = P.n by omega)]
      exact (hc _).2
    · simp only [upd_apply, if_true]
      mainN_case s, h, h1
    · intro i hi
      simp only [upd_apply, if_neg (show ¬ i = P.n by omega)]
      have gg := h.g
      have tt := h.t i hi
      rw [h1] at gg tt
      obtain ⟨hns, hc⟩ := hc (s.pc i)
      generalize wakeSleeper (s.pc i) = q at *
      rcases hc with hc | ⟨hc1, hc2⟩
      · subst hc
        obtain ⟨t1, t2, t0, t3, t4, t5, t6, t7, t8, t9, t10, t11, t12, t13, t14, t15, t16, t17⟩ := tt
        constructor <;> grind
      · subst hc2
        rw [hc1] at tt
        obtain ⟨t1, t2, t0, t3, t4, t5, t6, t7, t8, t9, t10, t11, t12, t13, t14, t15, t16, t17⟩ := tt
        constructor <;> grind
  | mWakeSpin1 k h1 h2 =>
    refine inv1_mainN h (fun j hj => Or.inl (by simp only [upd_apply]; rw [if_neg (by omega)])) rfl rfl rfl rfl
      rfl rfl rfl ?_ (fun i hi => ?_) (Or.inr (by simp [upd_apply]))
    · simp only [upd_apply, if_true]
      mainN_case s, h, h1
    · simp only [upd_apply]; rw [if_neg (show ¬ i = P.n by omega)]
      mainT_case s, h, h1, i, hi
  | mWakeSepDone k h1 h2 h3 =>
    refine inv1_mainN h (fun j hj => Or.inl (by simp only [upd_apply]; rw [if_neg (by omega)])) rfl rfl rfl rfl
      rfl rfl rfl ?_ (fun i hi => ?_) (Or.inr (by simp [upd_apply]))
    · simp only [upd_apply, if_true]
      mainN_case s, h, h1
    · simp only [upd_apply]; rw [if_neg (show ¬ i = P.n by omega)]
      mainT_case s, h, h1, i, hi
  | mCtrDone j acc k h1 h2 h3 h4 =>
    refine inv1_mainN h (fun j hj => Or.inl (by simp only [upd_apply]; rw [if_neg (by omega)])) rfl rfl rfl rfl
      rfl rfl rfl ?_ (fun i hi => ?_) (Or.inl (by simp [upd_apply]))
    · simp only [upd_apply, if_true]
      mainN_case s, h, h1
    · simp only [upd_apply]; rw [if_neg (show ¬ i = P.n by omega)]
      have hb := hbar (by rw [h1]; simp) rfl i hi
      mainT_case s, h, h1, i, hi
  | mGrpDone j acc g h1 h2 h3 =>
    refine inv1_mainN h (fun j hj => Or.inl (by simp only [upd_apply]; rw [if_neg (by omega)])) rfl rfl rfl rfl
      rfl rfl rfl ?_ (fun i hi => ?_) (Or.inl (by simp [upd_apply]))
    · simp only [upd_apply, if_true]
      mainN_case s, h, h1
    · simp only [upd_apply]; rw [if_neg (show ¬ i = P.n by omega)]
      have hb := hbar (by rw [h1]; simp) rfl i hi
      mainT_case s, h, h1, i, hi
  | tWoken i h1 h2 h3 =>
    obtain ⟨w1, w2, w3, w4⟩ := woken_phase h h1 (by rw [h2]; rfl) h3
    obtain ⟨a1, a2, a3, a4⟩ := inPhase_of_not_quiet _ w4
    refine inv1_thread h i h1 rfl rfl rfl rfl rfl rfl rfl rfl rfl
      (fun j hj => by simp only [upd_apply]; rw [if_neg hj]) (fun _ _ => rfl) (fun _ _ => rfl)
      (fun _ _ => rfl) ?_ ?_
    · simp only [upd_apply, if_true]
      have tt := h.t i h1
      rw [h2] at tt
      obtain ⟨t1, t2, t0, t3, t4, t5, t6, t7, t8, t9, t10, t11, t12, t13, t14, t15, t16, t17⟩ := tt
      constructor <;> grind
    · simp [upd_apply, locals]
  | tFutex i h1 h2 h3 h4 =>
    refine inv1_thread h i h1 rfl rfl rfl rfl rfl rfl rfl rfl rfl
      (fun j hj => by simp only [upd_apply]; rw [if_neg hj]) (fun _ _ => rfl) (fun _ _ => rfl)
      (fun _ _ => rfl) ?_ ?_
    · simp only [upd_apply, if_true]
      have tt := h.t i h1
      rw [h2] at tt
      obtain ⟨t1, t2, t0, t3, t4, t5, t6, t7, t8, t9, t10, t11, t12, t13, t14, t15, t16, t17⟩ := tt
      constructor <;> grind
    · simp [upd_apply, locals]
  | tSleep i h1 h2 h3 =>
    have hg8 := h.g.wt0
    have hg9 := h.g.wt0'
    refine inv1_thread h i h1 rfl rfl rfl rfl rfl rfl rfl rfl rfl
      (fun j hj => by simp only [upd_apply]; rw [if_neg hj]) (fun _ _ => rfl) (fun _ _ => rfl)
      (fun _ _ => rfl) ?_ ?_
    · simp only [upd_apply, if_true]
      have tt := h.t i h1
      rw [h2] at tt
      obtain ⟨t1, t2, t0, t3, t4, t5, t6, t7, t8, t9, t10, t11, t12, t13, t14, t15, t16, t17⟩ := tt
      cases hw0 : s.mpc.isWake0 with
      | false =>
        have := hg9 hw0 (by omega)
        constructor <;> grind
      | true =>
        have := hg8 hw0
        constructor <;> grind
    · simp [upd_apply, locals]
  | tEagain i h1 h2 h3 =>
    refine inv1_thread h i h1 rfl rfl rfl rfl rfl rfl rfl rfl rfl
      (fun j hj => by simp only [upd_apply]; rw [if_neg hj]) (fun _ _ => rfl) (fun _ _ => rfl)
      (fun _ _ => rfl) ?_ ?_
    · simp only [upd_apply, if_true]
      have tt := h.t i h1
      rw [h2] at tt
      obtain ⟨t1, t2, t0, t3, t4, t5, t6, t7, t8, t9, t10, t11, t12, t13, t14, t15, t16, t17⟩ := tt
      constructor <;> grind
    · simp [upd_apply, locals]
  | tSpurious i h1 h2 =>
    refine inv1_thread h i h1 rfl rfl rfl rfl rfl rfl rfl rfl rfl
      (fun j hj => by simp only [upd_apply]; rw [if_neg hj]) (fun _ _ => rfl) (fun _ _ => rfl)
      (fun _ _ => rfl) ?_ ?_
    · simp only [upd_apply, if_true]
      have tt := h.t i h1
      rw [h2] at tt
      obtain ⟨t1, t2, t0, t3, t4, t5, t6, t7, t8, t9, t10, t11, t12, t13, t14, t15, t16, t17⟩ := tt
      constructor <;> grind
    · simp [upd_apply, locals]
  | tLatch i h1 h2 =>
    refine inv1_thread h i h1 rfl rfl rfl rfl rfl rfl rfl rfl rfl
      (fun j hj => by simp only [upd_apply]; rw [if_neg hj]) (fun _ _ => rfl)
      (fun j hj => by simp only [upd_apply]; rw [if_neg hj])
      (fun _ _ => rfl) ?_ ?_
    · simp only [upd_apply, if_true]
      have tt := h.t i h1
      rw [h2] at tt
      obtain ⟨a0, a1, a2, a3, a4, a5, a6⟩ := tinv_phase tt rfl (by simp)
      obtain ⟨t1, t2, t0, t3, t4, t5, t6, t7, t8, t9, t10, t11, t12, t13, t14, t15, t16, t17⟩ := tt
      have hlt : latchBefore s.op s.config = target s.op s.config := rfl
      obtain ⟨c1, c2⟩ := t15 a1 a0 rfl
      constructor <;> grind
    · simp [upd_apply, locals]
  | tGroupLead i g h1 h2 h3 h4 =>
    refine inv1_thread h i h1 rfl rfl rfl rfl rfl rfl rfl rfl rfl
      (fun j hj => by simp only [upd_apply]; rw [if_neg hj]) (fun _ _ => rfl) (fun _ _ => rfl)
      (fun _ _ => rfl) ?_ ?_
    · simp only [upd_apply, if_true]
      have tt := h.t i h1
      rw [h2] at tt
      obtain ⟨a0, a1, a2, a3, a4, a5, a6⟩ := tinv_phase tt rfl (by simp)
      obtain ⟨t1, t2, t0, t3, t4, t5, t6, t7, t8, t9, t10, t11, t12, t13, t14, t15, t16, t17⟩ := tt
      constructor <;> grind
    · simp [upd_apply, locals]
  | tLeadPoll i j g h1 h2 h3 h4 h5 =>
    refine inv1_thread h i h1 rfl rfl rfl rfl rfl rfl rfl rfl rfl
      (fun j hj => by simp only [upd_apply]; rw [if_neg hj]) (fun _ _ => rfl) (fun _ _ => rfl)
      (fun _ _ => rfl) ?_ ?_
    · simp only [upd_apply, if_true]
      have tt := h.t i h1
      rw [h2] at tt
      obtain ⟨a0, a1, a2, a3, a4, a5, a6⟩ := tinv_phase tt rfl (by simp)
      obtain ⟨t1, t2, t0, t3, t4, t5, t6, t7, t8, t9, t10, t11, t12, t13, t14, t15, t16, t17⟩ := tt
      constructor <;> grind
    · simp [upd_apply, locals]
  | tCounter i k h1 h2 h3 =>
    refine inv1_thread h i h1 rfl rfl rfl rfl rfl rfl rfl rfl rfl
      (fun j hj => by simp only [afterReached, upd_apply]; rw [if_neg hj])
      (fun j hj => by simp only [afterReached, upd_apply]; rw [if_neg hj]) (fun _ _ => rfl)
      (fun _ _ => rfl) ?_ ?_
    · simp only [afterReached, upd_apply, if_true]
      have tt := h.t i h1
      rw [h2] at tt
      obtain ⟨a0, a1, a2, a3, a4, a5, a6⟩ := tinv_phase tt rfl (by simp)
      obtain ⟨t1, t2, t0, t3, t4, t5, t6, t7, t8, t9, t10, t11, t12, t13, t14, t15, t16, t17⟩ := tt
      constructor <;> grind
    · simp only [afterReached, upd_apply, if_true]; split <;> trivial
  | tGroupStore i g h1 h2 h3 h4 =>
    refine inv1_thread h i h1 rfl rfl rfl rfl rfl rfl rfl rfl rfl
      (fun j hj => by simp only [afterReached, upd_apply]; rw [if_neg hj])
      (fun j hj => by simp only [afterReached, upd_apply]; rw [if_neg hj]) (fun _ _ => rfl)
      (fun _ _ => rfl) ?_ ?_
    · simp only [afterReached, upd_apply, if_true]
      have tt := h.t i h1
      rw [h2] at tt
      obtain ⟨a0, a1, a2, a3, a4, a5, a6⟩ := tinv_phase tt rfl (by simp)
      obtain ⟨t1, t2, t0, t3, t4, t5, t6, t7, t8, t9, t10, t11, t12, t13, t14, t15, t16, t17⟩ := tt
      constructor <;> grind
    · simp only [afterReached, upd_apply, if_true]; split <;> trivial
  | tLeadStore i j g h1 h2 h3 h4 =>
    refine inv1_thread h i h1 rfl rfl rfl rfl rfl rfl rfl rfl rfl
      (fun j hj => by simp only [afterReached, upd_apply]; rw [if_neg hj])
      (fun j hj => by simp only [afterReached, upd_apply]; rw [if_neg hj]) (fun _ _ => rfl)
      (fun _ _ => rfl) ?_ ?_
    · simp only [afterReached, upd_apply, if_true]
      have tt := h.t i h1
      rw [h2] at tt
      obtain ⟨a0, a1, a2, a3, a4, a5, a6⟩ := tinv_phase tt rfl (by simp)
      obtain ⟨t1, t2, t0, t3, t4, t5, t6, t7, t8, t9, t10, t11, t12, t13, t14, t15, t16, t17⟩ := tt
      constructor <;> grind
    · simp only [afterReached, upd_apply, if_true]; split <;> trivial
  | rEnd w h1 h2 =>
    refine inv1_run h w h1 rfl rfl rfl rfl rfl rfl rfl rfl rfl rfl rfl
      (fun j hj => by simp only [upd_apply]; rw [if_neg hj]) (fun _ _ => rfl) (by rw [h2]; rfl)
      (by rw [h2]; simp) (by simp [upd_apply, WPC.runPc]) ?_ ?_
    · simp [upd_apply, h2, WPC.late]
    · simp [upd_apply, locals]
  | rBegin w e h1 h2 =>
    have hl := h.l w h1
    rw [h2] at hl
    simp only [locals] at hl
    have hnb := h.nbig
    have hb := run_bounds h w h1 (by rw [h2]; rfl) (by rw [h2]; simp)
    refine inv1_run h w h1 rfl rfl rfl rfl rfl rfl rfl rfl rfl rfl rfl
      (fun j hj => by simp only [upd_apply]; rw [if_neg hj]) (fun _ _ => rfl) (by rw [h2]; rfl)
      (by rw [h2]; simp) (by simp only [upd_apply, if_true]; split <;> simp [WPC.runPc]) ?_ ?_
    · simp only [upd_apply, if_true, h2]
      intro _ _ h3
      rw [apply_ite WPC.late]
      split <;> simpa [WPC.late] using h3
    · simp only [upd_apply, if_true]
      subst hl
      split <;> simp only [locals] <;> omega
  | rS1 w h1 h2 =>
    have hl := h.l w h1
    rw [h2] at hl
    simp only [locals] at hl
    refine inv1_run h w h1 rfl rfl rfl rfl rfl rfl rfl rfl rfl rfl rfl
      (fun j hj => by simp only [upd_apply]; rw [if_neg hj]) (fun _ _ => rfl) (by rw [h2]; rfl)
      (by rw [h2]; simp) (by simp [upd_apply, WPC.runPc]) ?_ ?_
    · simp [upd_apply, h2, WPC.late]
    · simp [upd_apply, locals, hl]
  | rS2 w b h1 h2 =>
    have hl := h.l w h1
    rw [h2] at hl
    simp only [locals] at hl
    obtain ⟨hl, rfl⟩ := hl
    have hb := run_bounds h w h1 (by rw [h2]; rfl) (by rw [h2]; simp)
    have hnb := h.nbig
    have hm : (s.tb + w) % 2 ^ 64 = s.tb + w := Nat.mod_eq_of_lt (by omega)
    rw [hm]
    refine inv1_run h w h1 rfl rfl rfl rfl rfl rfl rfl rfl rfl rfl rfl
      (fun j hj => by simp only [upd_apply]; rw [if_neg hj]) (fun _ _ => rfl) (by rw [h2]; rfl)
      (by rw [h2]; simp) (by simp only [upd_apply, if_true]; split <;> simp [WPC.runPc]) ?_ ?_
    · simp only [upd_apply, if_true, h2]
      intro hwn hph h3
      simp only [WPC.late] at h3
      rw [apply_ite WPC.late]
      split
      · simpa [WPC.late] using h3
      · simp only [WPC.late]
        have := h.g.tasks (Or.inr hph)
        revert h3 this
        cases s.op <;> simp [latchBefore, latchAfter, jobB, jobE] <;> intros <;> first | assumption | omega
    · simp only [upd_apply, if_true]
      split
      · exact ⟨hl, rfl, by assumption⟩
      · trivial
  | rS3 w t h1 h2 =>
    have hl := h.l w h1
    rw [h2] at hl
    simp only [locals] at hl
    refine inv1_run h w h1 rfl rfl rfl rfl rfl rfl rfl rfl rfl rfl rfl
      (fun j hj => by simp only [upd_apply]; rw [if_neg hj]) (fun _ _ => rfl) (by rw [h2]; rfl)
      (by rw [h2]; simp) (by simp [upd_apply, WPC.runPc]) ?_ ?_
    · simp [upd_apply, h2, WPC.late]
    · simp only [upd_apply, if_true]; exact ⟨rfl, hl⟩
  | rW1 w h1 h2 =>
    have hl := h.l w h1
    rw [h2] at hl
    simp only [locals] at hl
    refine inv1_run h w h1 rfl rfl rfl rfl rfl rfl rfl rfl rfl rfl rfl
      (fun j hj => by simp only [upd_apply]; rw [if_neg hj]) (fun _ _ => rfl) (by rw [h2]; rfl)
      (by rw [h2]; simp) (by simp [upd_apply, WPC.runPc]) ?_ ?_
    · simp [upd_apply, h2, WPC.late]
    · simp only [upd_apply, if_true]; exact ⟨hl, rfl, List.suffix_rfl⟩
  | rW2 w v vs f h1 h2 =>
    have hl := h.l w h1
    rw [h2] at hl
    simp only [locals] at hl
    refine inv1_run h w h1 rfl rfl rfl rfl rfl rfl rfl rfl rfl rfl rfl
      (fun j hj => by simp only [upd_apply]; rw [if_neg hj]) (fun _ _ => rfl) (by rw [h2]; rfl)
      (by rw [h2]; simp) (by simp [upd_apply, WPC.runPc]) ?_ ?_
    · simp [upd_apply, h2, WPC.late]
    · simp only [upd_apply, if_true]; exact ⟨hl.1, hl.2.1, hl.2.2, v, vs, rfl, rfl⟩
  | rW2Done w f h1 h2 =>
    have hl := h.l w h1
    rw [h2] at hl
    simp only [locals] at hl
    refine inv1_run h w h1 rfl rfl rfl rfl rfl rfl rfl rfl rfl rfl rfl
      (fun j hj => by simp only [upd_apply]; rw [if_neg hj]) (fun _ _ => rfl) (by rw [h2]; rfl)
      (by rw [h2]; simp) (by simp [upd_apply, WPC.runPc]) ?_ ?_
    · simp only [upd_apply, if_true, h2, WPC.late]
      intro hwn hph h3
      have := h.g.tasks (Or.inr hph)
      revert h3 this
      cases s.op <;> simp [latchBefore, latchAfter, jobB, jobE] <;> intros <;> first | assumption | omega
    · simp [upd_apply, locals]
  | rW3 w v vs oe f h1 h2 =>
    have hl := h.l w h1
    rw [h2] at hl
    simp only [locals] at hl
    refine inv1_run h w h1 rfl rfl rfl rfl rfl rfl rfl rfl rfl rfl rfl
      (fun j hj => by simp only [upd_apply]; rw [if_neg hj]) (fun _ _ => rfl) (by rw [h2]; rfl)
      (by rw [h2]; simp) (by simp only [upd_apply, if_true]; split <;> simp [WPC.runPc]) ?_ ?_
    · simp only [upd_apply, if_true, h2]
      intro _ _ h3
      rw [apply_ite WPC.late]
      split <;> simpa [WPC.late] using h3
    · simp only [upd_apply, if_true]
      split
      · exact ⟨hl.1, hl.2.1, (List.suffix_cons v vs).trans hl.2.2.1⟩
      · exact ⟨hl.2.1, hl.1, hl.2.2.1, hl.2.2.2, by omega⟩
  | rCallUser w k t id h1 h2 =>
    have hl := h.l w h1
    rw [h2] at hl
    refine inv1_run h w h1 rfl rfl rfl rfl rfl rfl rfl rfl rfl rfl rfl
      (fun j hj => by simp only [upd_apply]; rw [if_neg hj]) (fun _ _ => rfl) (by rw [h2]; rfl)
      (by rw [h2]; simp) (by simp [upd_apply, WPC.runPc]) ?_ ?_
    · simp only [upd_apply, if_true, h2, WPC.late]
      intro hwn hph h3
      have hf : Fn.user id = s.fn := by cases k <;> exact hl.1
      have := h.g.tasks (Or.inr hph)
      rw [← hf] at this
      revert h3 this
      cases s.op <;> simp [latchBefore, latchAfter, jobB, jobE, jobF]
      intro h3; intros; exact h3
    · simp only [upd_apply, if_true]; cases k <;> exact hl
  | rCallLatch w k t c h1 h2 =>
    have hl := h.l w h1
    rw [h2] at hl
    refine inv1_run h w h1 rfl rfl rfl rfl rfl rfl rfl rfl rfl rfl rfl
      (fun j hj => by simp only [upd_apply]; rw [if_neg hj])
      (fun j hj => by simp only [upd_apply]; rw [if_neg hj]) (by rw [h2]; rfl)
      (by rw [h2]; simp) (by simp [upd_apply, WPC.runPc]) ?_ ?_
    · simp only [upd_apply, if_true, h2, WPC.late]
      intro hwn hph h3
      have hf : Fn.latch c = s.fn := by cases k <;> exact hl.1
      have := h.g.tasks (Or.inr hph)
      rw [← hf] at this
      revert h3 this
      cases s.op <;> simp [latchBefore, latchAfter, jobB, jobE, jobF]
    · simp only [upd_apply, if_true]; cases k <;> exact hl
  | rCallNoop w k t h1 h2 =>
    have hl := h.l w h1
    rw [h2] at hl
    refine inv1_run h w h1 rfl rfl rfl rfl rfl rfl rfl rfl rfl rfl rfl
      (fun j hj => by simp only [upd_apply]; rw [if_neg hj]) (fun _ _ => rfl) (by rw [h2]; rfl)
      (by rw [h2]; simp) (by simp [upd_apply, WPC.runPc]) ?_ ?_
    · simp only [upd_apply, if_true, h2, WPC.late]
      intro hwn hph h3
      have hf : Fn.noop = s.fn := by cases k <;> exact hl.1
      have := h.g.tasks (Or.inr hph)
      rw [← hf] at this
      revert h3 this
      cases s.op <;> simp [latchBefore, latchAfter, jobB, jobE, jobF]
      intro h3; intros; exact h3
    · simp only [upd_apply, if_true]; cases k <;> exact hl
  | rRetUser w k t id h1 h2 => exact inv1_ret h w k t _ h1 h2 rfl rfl rfl rfl rfl rfl rfl rfl rfl rfl rfl rfl rfl
  | rRetOther w k t f h1 h2 h3 => exact inv1_ret h w k t _ h1 h2 rfl rfl rfl rfl rfl rfl rfl rfl rfl rfl rfl rfl rfl

end Pool
end Hwy
