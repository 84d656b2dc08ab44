import Verif.PoolTasks

/-!
# Transition-system model of `hwy/contrib/thread_pool/thread_pool.h` (`ThreadPool`)

One `Step` is one access to shared memory by one thread followed by code that only touches that
thread's own variables.  Every interleaving of the main thread and `n` worker threads is a sequence
of `Step`s.  Simplifications (see also DESIGN.md):

* memory is sequentially consistent (the code uses acquire/release; no weak-memory reordering);
* stores made by main while every thread is provably blocked in `UntilWoken` (`Tasks::Set`, one
  `SetRange`, `Barrier::Reset`) are one step each;
* `func_` and `opaque_` are one variable `fn`;
* the spin policy (`spin.h`) only says how to poll, so `spin_type` is dropped: `UntilEqual` is a step
  enabled exactly when the polled value is the wanted one;
* epochs are unbounded (the code uses `uint32_t`: histories of fewer than `2^32` phases);
* a `Run` with auto-tuning is a `Run` followed by a `SendConfig` with an arbitrary candidate.
-/

namespace Hwy
namespace Pool

/-- `WaitType` (thread_pool.h:155-160). -/
inductive WaitT | block | spin1 | spinSep
  deriving DecidableEq, Repr

/-- `BarrierType` (thread_pool.h:161-169). -/
inductive BarT | ordered | counter1 | counter2 | counter4 | group2 | group4
  deriving DecidableEq, Repr

/-- Template parameter of the class that implements a barrier type: `BarrierCounter<k>`
(thread_pool.h:651-706) or `BarrierGroup<g>` (734-765). `BarrierOrdered` (712-731) is the same code
as `BarrierGroup<1>`: every thread is a leader without followers. -/
inductive BarK | counter (k : Nat) | group (g : Nat)
  deriving DecidableEq, Repr

/-- `FunctorAddBarrier` dispatch (thread_pool.h:806-850). -/
def BarT.kind : BarT → BarK
  | .ordered => .group 1
  | .counter1 => .counter 1
  | .counter2 => .counter 2
  | .counter4 => .counter 4
  | .group2 => .group 2
  | .group4 => .group 4

/-- `Config` (thread_pool.h:209-278) without the spin type. -/
structure Cfg where
  wait : WaitT
  barrier : BarT
  exit : Bool
  deriving DecidableEq, Repr

/-- The closure stored in `Tasks` (thread_pool.h:446-455): the user's closure of the `Run` call
numbered `id`, the latching lambda of `SendConfig` (1218-1222) or the no-op lambda (1230). -/
inductive Fn | user (id : Nat) | latch (c : Cfg) | noop
  deriving DecidableEq, Repr

/-- Program counter of a worker (threads `0..n-1` in `ThreadFunc::operator()`, thread_pool.h:953-975;
worker `n` is main inside `Tasks::WorkerRun`). `vs` is the list of victims not yet finished, its head
the current one. -/
inductive WPC
  | wait                                  -- UntilWoken: about to load the waiter
  | fwait                                 -- BlockUntilDifferent: saw `prev`, about to futex_wait
  | sleep                                 -- blocked in futex_wait
  | latch                                 -- about to read LatchedConfig
  | ldEnd                                 -- NumTasks: about to load end_
  | ldBegin (e : Nat)                     -- NumTasks: about to load begin_
  | s1                                    -- WorkerRunSingle: about to load begin_
  | s2 (b : Nat)                          -- WorkerRunSingle: about to load end_
  | s3 (t : Nat)                          -- WorkerRunSingle: about to load opaque_/func_
  | w1                                    -- WorkerRunWithStealing: about to load func_/opaque_
  | w2 (vs : List Nat) (f : Fn)           -- about to load the victim's my_end_
  | w3 (vs : List Nat) (oe : Nat) (f : Fn) -- about to fetch_add the victim's my_begin_
  | call (k : Option (List Nat × Nat)) (t : Nat) (f : Fn)   -- about to call func
  | inCall (k : Option (List Nat × Nat)) (t : Nat) (f : Fn) -- inside func
  | arrive                                -- WorkerRun returned
  | lead (j : Nat)                        -- BarrierGroup leader polling member j
  | exited                                -- thread function returned

/-- The phase main is executing: `Run` (thread_pool.h:1101-1160) or one of the two phases of
`SendConfig` (1212-1245). -/
inductive Op
  | run (id b e : Nat)
  | send1 (c : Cfg)
  | send2 (c : Cfg)

/-- Program counter of the main thread. -/
inductive MPC
  | idle                                  -- outside the pool's functions
  | inl (id b e t : Nat)                  -- Run: single-threaded loop, about to test t < e
  | inlC (id b e t : Nat)                 -- inside closure(t, 0)
  | div (v myb : Nat)                     -- DivideRangeAmongWorkers loop
  | reset                                 -- about to ++epoch_, barrier.Reset
  | wake (k : Nat)                        -- WakeWorkers, about to store (thread k for kSpinSeparate)
  | wakeAll                               -- WaitBlock: about to futex-wake
  | running                               -- inside tasks_->WorkerRun(main_)
  | until (j acc : Nat)                   -- UntilReached
  | fin                                   -- CallWithConfig returned
  | join                                  -- destructor joining
  | dead                                  -- destructor finished

/-- Number of threads (`n = num_threads_`) and each worker's `Victims()` (thread_pool.h:348). -/
structure Params where
  n : Nat
  vict : Nat → List Nat

structure St where
  /-- `Tasks::begin_`, `end_`, `func_`/`opaque_` -/
  tb : Nat
  te : Nat
  fn : Fn
  /-- `Worker::my_begin_`, `my_end_` -/
  mb : Nat → Nat
  me : Nat → Nat
  /-- `Worker::wait_epoch_`, `barrier_epoch_`, `latched_` -/
  waiter : Nat → Nat
  bar : Nat → Nat
  latched : Nat → Cfg
  /-- per thread: program counter, `epoch` and `config_` of `ThreadFunc` -/
  pc : Nat → WPC
  ep : Nat → Nat
  cfg : Nat → Cfg
  /-- main: program counter, `epoch_`, `config_`, current phase -/
  mpc : MPC
  epoch : Nat
  config : Cfg
  op : Op
  /-- observations: number of `Run` calls so far; closure calls started and finished as
  (run, task, worker); `Run` calls that returned as (run, begin, end) -/
  nextId : Nat
  started : List (Nat × Nat × Nat)
  finished : List (Nat × Nat × Nat)
  returned : List (Nat × Nat × Nat)

/-- Array store. -/
def upd {α : Type} (f : Nat → α) (i : Nat) (x : α) : Nat → α := fun j => if j = i then x else f j

/-- State after the `ThreadPool` constructor (thread_pool.h:1023-1048): threads have been created with
`config` and start with epoch 1; `Worker` members per 361-366. `begin_`, `my_begin_` etc. are
uninitialised in the code, hence arbitrary here. -/
def Init (s : St) : Prop :=
  (∀ i, s.waiter i = 0) ∧ (∀ i, s.bar i = 0) ∧ (∀ i, s.latched i = s.config) ∧
  (∀ i, s.pc i = .wait) ∧ (∀ i, s.ep i = 1) ∧ (∀ i, s.cfg i = s.config) ∧
  s.mpc = .idle ∧ s.epoch = 0 ∧ s.config.exit = false ∧ s.nextId = 0 ∧
  s.started = [] ∧ s.finished = [] ∧ s.returned = []

/-- `Wait*::UntilWoken` condition (thread_pool.h:602-606, 620-625, 639-644). -/
def woken (s : St) (i : Nat) : Prop :=
  match (s.cfg i).wait with
  | .block => s.waiter 0 ≠ s.ep i - 1
  | .spin1 => s.waiter 0 = s.ep i
  | .spinSep => s.waiter i = s.ep i

/-- Barrier main passes to `CallWithConfig`: `config_`, except in the second phase of `SendConfig`,
which uses the new barrier (thread_pool.h:1233-1236). -/
def barUsed (s : St) : BarT :=
  match s.op with
  | .send2 c => c.barrier
  | _ => s.config.barrier

/-- `Barrier::Reset` (thread_pool.h:661-667, 717, 744): `workers[kMaxThreads - i] = 0` for each shard. -/
def resetBar (k : BarK) (bar : Nat → Nat) : Nat → Nat :=
  match k with
  | .counter k => fun j => if 63 - k < j ∧ j ≤ 63 then 0 else bar j
  | .group _ => bar

/-- What a thread does after `WorkerReached` (thread_pool.h:971-973, 958): leave the loop if
`config_.exit`, else `++epoch` and wait again. (`ep` is also advanced for an exited thread.) -/
def afterReached (s : St) (i : Nat) : St :=
  { s with ep := upd s.ep i (s.ep i + 1),
           pc := upd s.pc i (if (s.cfg i).exit then .exited else .wait) }

/-- Effect of a futex wake on one thread: a sleeper returns from `futex_wait` and loops. -/
def wakeSleeper : WPC → WPC
  | .sleep => .wait
  | p => p

/-- Continue after a call: back to the reservation loop, or (single) WorkerRun is done. -/
def contOf (k : Option (List Nat × Nat)) (f : Fn) : WPC :=
  match k with
  | none => .arrive
  | some (vs, oe) => .w3 vs oe f

inductive Step (P : Params) : St → St → Prop
  -- ### main: Run
  /-- `Run` with at most one task or no threads (thread_pool.h:1107-1112). -/
  | mInline (s : St) (b e : Nat) : s.mpc = .idle → b ≤ e → e < 2 ^ 64 → (e - b ≤ 1 ∨ P.n = 0) →
      Step P s { s with mpc := .inl s.nextId b e b, nextId := s.nextId + 1 }
  | mInlCall (s : St) (id b e t : Nat) : s.mpc = .inl id b e t → t < e →
      Step P s { s with mpc := .inlC id b e t, started := (id, t, 0) :: s.started }
  | mInlRet (s : St) (id b e t : Nat) : s.mpc = .inlC id b e t →
      Step P s { s with mpc := .inl id b e (t + 1), finished := (id, t, 0) :: s.finished }
  | mInlDone (s : St) (id b e t : Nat) : s.mpc = .inl id b e t → ¬ t < e →
      Step P s { s with mpc := .idle, returned := (id, b, e) :: s.returned }
  /-- `Run`, general path: `tasks_.Set`, then `DivideRangeAmongWorkers` if there are more tasks than
  workers (thread_pool.h:1114-1120, 446-455). Caller obligations: `begin <= end`, and
  `end + NumWorkers()` is below `2^64`. -/
  | mRun (s : St) (b e : Nat) : s.mpc = .idle → b ≤ e → e + (P.n + 1) < 2 ^ 64 → 1 < e - b →
      P.n ≠ 0 →
      Step P s { s with
        op := .run s.nextId b e, nextId := s.nextId + 1, tb := b, te := e, fn := .user s.nextId,
        mpc := if e - b > P.n + 1 then .div 0 b else .reset }
  /-- One iteration of `DivideRangeAmongWorkers` (thread_pool.h:474-479); `Divisor64` replaced by `/` and
  `%`, which it computes (C04). -/
  | mDiv (s : St) (v myb : Nat) : s.mpc = .div v myb → v < P.n + 1 →
      Step P s { s with
        mb := upd s.mb v myb,
        me := upd s.me v ((myb + (s.te - s.tb) / (P.n + 1) +
                (if v < (s.te - s.tb) % (P.n + 1) then 1 else 0)) % 2 ^ 64),
        mpc := .div (v + 1) ((myb + (s.te - s.tb) / (P.n + 1) +
                (if v < (s.te - s.tb) % (P.n + 1) then 1 else 0)) % 2 ^ 64) }
  | mDivDone (s : St) (v myb : Nat) : s.mpc = .div v myb → ¬ v < P.n + 1 →
      Step P s { s with mpc := .reset }
  -- ### main: SendConfig, SetWaitMode, destructor
  /-- `SetWaitMode` / end of an auto-tuned `Run`: first phase of `SendConfig(c)`
  (thread_pool.h:1081-1085, 1151-1157, 1218-1225). -/
  | mSend (s : St) (c : Cfg) : s.mpc = .idle → c.exit = false → P.n ≠ 0 →
      Step P s { s with op := .send1 c, tb := 0, te := P.n + 1, fn := .latch c, mpc := .reset }
  /-- `SendConfig` without threads (thread_pool.h:1213-1216). -/
  | mSend0 (s : St) (c : Cfg) : s.mpc = .idle → c.exit = false → P.n = 0 →
      Step P s { s with config := c }
  /-- Destructor: `SendConfig` of a copy with `exit` set (thread_pool.h:1050-1058). -/
  | mDestroy (s : St) : s.mpc = .idle → P.n ≠ 0 →
      Step P s { s with op := .send1 { s.config with exit := true }, tb := 0, te := P.n + 1,
                        fn := .latch { s.config with exit := true }, mpc := .reset }
  | mDestroy0 (s : St) : s.mpc = .idle → P.n = 0 →
      Step P s { s with config := { s.config with exit := true }, mpc := .join }
  -- ### main: MainAdapter (thread_pool.h:886-908)
  /-- `SetEpoch(++epoch_)` and `barrier.Reset`. -/
  | mReset (s : St) : s.mpc = .reset →
      Step P s { s with epoch := s.epoch + 1, bar := resetBar (barUsed s).kind s.bar, mpc := .wake 0 }
  | mWakeBlock (s : St) (k : Nat) : s.mpc = .wake k → s.config.wait = .block →
      Step P s { s with waiter := upd s.waiter 0 s.epoch, mpc := .wakeAll }
  /-- `WakeAll`: every thread blocked on the futex returns and re-checks. -/
  | mWakeAll (s : St) : s.mpc = .wakeAll →
      Step P s { s with
        pc := upd (fun i => wakeSleeper (s.pc i)) P.n .ldEnd,
        mpc := .running }
  | mWakeSpin1 (s : St) (k : Nat) : s.mpc = .wake k → s.config.wait = .spin1 →
      Step P s { s with waiter := upd s.waiter 0 s.epoch, pc := upd s.pc P.n .ldEnd, mpc := .running }
  | mWakeSep (s : St) (k : Nat) : s.mpc = .wake k → s.config.wait = .spinSep → k < P.n →
      Step P s { s with waiter := upd s.waiter k s.epoch, mpc := .wake (k + 1) }
  | mWakeSepDone (s : St) (k : Nat) : s.mpc = .wake k → s.config.wait = .spinSep → ¬ k < P.n →
      Step P s { s with pc := upd s.pc P.n .ldEnd, mpc := .running }
  /-- main's own `WorkerRun` returned. -/
  | mRan (s : St) : s.mpc = .running → s.pc P.n = .arrive →
      Step P s { s with mpc := .until 0 0 }
  /-- `BarrierCounter<k>::UntilReached`: load shard `j`. -/
  | mCtrLoad (s : St) (j acc k : Nat) : s.mpc = .until j acc → (barUsed s).kind = .counter k → j < k →
      Step P s { s with mpc := .until (j + 1) (acc + s.bar (63 - j)) }
  | mCtrDone (s : St) (j acc k : Nat) : s.mpc = .until j acc → (barUsed s).kind = .counter k →
      ¬ j < k → acc = P.n →
      Step P s { s with mpc := .fin, pc := upd s.pc P.n .wait }
  | mCtrAgain (s : St) (j acc k : Nat) : s.mpc = .until j acc → (barUsed s).kind = .counter k →
      ¬ j < k → acc ≠ P.n →
      Step P s { s with mpc := .until 0 0 }
  /-- `BarrierOrdered`/`BarrierGroup<g>::UntilReached`: wait for leader `j`. -/
  | mGrpPoll (s : St) (j acc g : Nat) : s.mpc = .until j acc → (barUsed s).kind = .group g →
      j < P.n → s.bar j = s.epoch →
      Step P s { s with mpc := .until (j + g) acc }
  | mGrpDone (s : St) (j acc g : Nat) : s.mpc = .until j acc → (barUsed s).kind = .group g →
      ¬ j < P.n →
      Step P s { s with mpc := .fin, pc := upd s.pc P.n .wait }
  /-- `Run` returns to its caller. -/
  | mRunRet (s : St) (id b e : Nat) : s.mpc = .fin → s.op = .run id b e →
      Step P s { s with mpc := .idle, returned := (id, b, e) :: s.returned }
  /-- Second phase of `SendConfig` (thread_pool.h:1229-1236). -/
  | mSend2 (s : St) (c : Cfg) : s.mpc = .fin → s.op = .send1 c →
      Step P s { s with op := .send2 c, tb := 0, te := 0, fn := .noop, mpc := .reset }
  /-- End of `SendConfig` (thread_pool.h:1239); the destructor continues with `join`. -/
  | mSendDone (s : St) (c : Cfg) : s.mpc = .fin → s.op = .send2 c →
      Step P s { s with config := c, mpc := if c.exit then .join else .idle }
  /-- `thread.join()` for all threads (thread_pool.h:1060-1063). -/
  | mJoin (s : St) : s.mpc = .join → (∀ i, i < P.n → s.pc i = .exited) →
      Step P s { s with mpc := .dead }
  -- ### threads: UntilWoken (thread_pool.h:602-606, 620-625, 639-644; futex.h:146-160)
  | tWoken (s : St) (i : Nat) : i < P.n → s.pc i = .wait → woken s i →
      Step P s { s with pc := upd s.pc i .latch }
  | tFutex (s : St) (i : Nat) : i < P.n → s.pc i = .wait → (s.cfg i).wait = .block →
      s.waiter 0 = s.ep i - 1 →
      Step P s { s with pc := upd s.pc i .fwait }
  /-- The kernel puts the thread to sleep only if the value is still `prev`. -/
  | tSleep (s : St) (i : Nat) : i < P.n → s.pc i = .fwait → s.waiter 0 = s.ep i - 1 →
      Step P s { s with pc := upd s.pc i .sleep }
  | tEagain (s : St) (i : Nat) : i < P.n → s.pc i = .fwait → s.waiter 0 ≠ s.ep i - 1 →
      Step P s { s with pc := upd s.pc i .wait }
  /-- Spurious wake-up. -/
  | tSpurious (s : St) (i : Nat) : i < P.n → s.pc i = .sleep →
      Step P s { s with pc := upd s.pc i .wait }
  /-- `config_ = worker_->LatchedConfig()` (thread_pool.h:963). -/
  | tLatch (s : St) (i : Nat) : i < P.n → s.pc i = .latch →
      Step P s { s with cfg := upd s.cfg i (s.latched i), pc := upd s.pc i .ldEnd }
  -- ### WorkerRun, by any worker including main (thread_pool.h:484-546)
  | rEnd (s : St) (w : Nat) : w ≤ P.n → s.pc w = .ldEnd →
      Step P s { s with pc := upd s.pc w (.ldBegin s.te) }
  | rBegin (s : St) (w e : Nat) : w ≤ P.n → s.pc w = .ldBegin e →
      Step P s { s with pc := upd s.pc w (if (2 ^ 64 + e - s.tb) % 2 ^ 64 > P.n + 1 then .w1 else .s1) }
  | rS1 (s : St) (w : Nat) : w ≤ P.n → s.pc w = .s1 →
      Step P s { s with pc := upd s.pc w (.s2 s.tb) }
  | rS2 (s : St) (w b : Nat) : w ≤ P.n → s.pc w = .s2 b →
      Step P s { s with pc := upd s.pc w (if (b + w) % 2 ^ 64 < s.te
                                          then .s3 ((b + w) % 2 ^ 64) else .arrive) }
  | rS3 (s : St) (w t : Nat) : w ≤ P.n → s.pc w = .s3 t →
      Step P s { s with pc := upd s.pc w (.call none t s.fn) }
  | rW1 (s : St) (w : Nat) : w ≤ P.n → s.pc w = .w1 →
      Step P s { s with pc := upd s.pc w (.w2 (P.vict w) s.fn) }
  | rW2 (s : St) (w v : Nat) (vs : List Nat) (f : Fn) : w ≤ P.n → s.pc w = .w2 (v :: vs) f →
      Step P s { s with pc := upd s.pc w (.w3 (v :: vs) (s.me v) f) }
  | rW2Done (s : St) (w : Nat) (f : Fn) : w ≤ P.n → s.pc w = .w2 [] f →
      Step P s { s with pc := upd s.pc w .arrive }
  /-- `WorkerReserveTask`: `fetch_add` on the victim's `my_begin_` (thread_pool.h:354-357, 533-540). -/
  | rW3 (s : St) (w v : Nat) (vs : List Nat) (oe : Nat) (f : Fn) : w ≤ P.n →
      s.pc w = .w3 (v :: vs) oe f →
      Step P s { s with
        mb := upd s.mb v ((s.mb v + 1) % 2 ^ 64),
        pc := upd s.pc w (if s.mb v ≥ oe then .w2 vs f else .call (some (v :: vs, oe)) (s.mb v) f) }
  /-- Call of the user's closure begins. -/
  | rCallUser (s : St) (w : Nat) (k : Option (List Nat × Nat)) (t id : Nat) : w ≤ P.n →
      s.pc w = .call k t (.user id) →
      Step P s { s with started := (id, t, w) :: s.started, pc := upd s.pc w (.inCall k t (.user id)) }
  /-- The `SendConfig` lambda: `workers_[worker].LatchConfig(copy)` (thread_pool.h:1218-1222). -/
  | rCallLatch (s : St) (w : Nat) (k : Option (List Nat × Nat)) (t : Nat) (c : Cfg) : w ≤ P.n →
      s.pc w = .call k t (.latch c) →
      Step P s { s with latched := upd s.latched w c, pc := upd s.pc w (.inCall k t (.latch c)) }
  | rCallNoop (s : St) (w : Nat) (k : Option (List Nat × Nat)) (t : Nat) : w ≤ P.n →
      s.pc w = .call k t .noop →
      Step P s { s with pc := upd s.pc w (.inCall k t .noop) }
  /-- Call of the user's closure ends. -/
  | rRetUser (s : St) (w : Nat) (k : Option (List Nat × Nat)) (t id : Nat) : w ≤ P.n →
      s.pc w = .inCall k t (.user id) →
      Step P s { s with finished := (id, t, w) :: s.finished, pc := upd s.pc w (contOf k (.user id)) }
  | rRetOther (s : St) (w : Nat) (k : Option (List Nat × Nat)) (t : Nat) (f : Fn) : w ≤ P.n →
      s.pc w = .inCall k t f → (∀ id, f ≠ .user id) →
      Step P s { s with pc := upd s.pc w (contOf k f) }
  -- ### threads: WorkerReached with the latched config (thread_pool.h:969, 669-676, 720-723, 746-757)
  | tCounter (s : St) (i k : Nat) : i < P.n → s.pc i = .arrive →
      (s.cfg i).barrier.kind = .counter k →
      Step P s (afterReached
        { s with bar := upd s.bar (63 - i % k) (s.bar (63 - i % k) + 1) } i)
  | tGroupLead (s : St) (i g : Nat) : i < P.n → s.pc i = .arrive →
      (s.cfg i).barrier.kind = .group g → i % g = 0 →
      Step P s { s with pc := upd s.pc i (.lead (i + 1)) }
  | tGroupStore (s : St) (i g : Nat) : i < P.n → s.pc i = .arrive →
      (s.cfg i).barrier.kind = .group g → i % g ≠ 0 →
      Step P s (afterReached { s with bar := upd s.bar i (s.ep i) } i)
  | tLeadPoll (s : St) (i j g : Nat) : i < P.n → s.pc i = .lead j →
      (s.cfg i).barrier.kind = .group g → j < min (i + g) P.n → s.bar j = s.ep i →
      Step P s { s with pc := upd s.pc i (.lead (j + 1)) }
  | tLeadStore (s : St) (i j g : Nat) : i < P.n → s.pc i = .lead j →
      (s.cfg i).barrier.kind = .group g → ¬ j < min (i + g) P.n →
      Step P s (afterReached { s with bar := upd s.bar i (s.ep i) } i)

/-- States some interleaving of some history of pool operations can reach. -/
inductive Reach (P : Params) : St → Prop
  | init (s : St) : Init s → Reach P s
  | step (s s' : St) : Reach P s → Step P s s' → Reach P s'

end Pool
end Hwy
