import Verif.PoolInv3

/-! # Task invariant of the thread-pool model over states and its preservation -/

namespace Hwy
namespace Pool

/-- Each worker's victims start with itself, are distinct and are workers (C15). -/
def VOk (P : Params) : Prop :=
  ∀ w, w ≤ P.n → (∃ vs, P.vict w = w :: vs) ∧ (P.vict w).Nodup ∧ ∀ x ∈ P.vict w, x ≤ P.n

structure Inv3 (P : Params) (s : St) : Prop where
  i1 : ∀ x ∈ s.started, x.1 < s.nextId ∧ x.2.2 ≤ P.n
  i2 : ∀ x ∈ s.finished, x.1 < s.nextId ∧ x.2.2 ≤ P.n
  i3 : ∀ x ∈ s.returned, x.1 < s.nextId ∧ Complete x.1 x.2.1 x.2.2 s
  i4 : s.mpc.setup = true ∨ s.mpc.inPhase = true → ∀ id b e, s.op = .run id b e →
    id < s.nextId ∧ ∀ x ∈ s.returned, x.1 ≠ id
  i5 : ∀ id b e t, s.mpc = .inl id b e t → id < s.nextId ∧ (∀ x ∈ s.returned, x.1 ≠ id) ∧
    b ≤ t ∧ t ≤ e ∧ ∀ u, calls id u s.started = (if b ≤ u ∧ u < t then 1 else 0) ∧
      calls id u s.finished = calls id u s.started
  i6 : ∀ id b e t, s.mpc = .inlC id b e t → id < s.nextId ∧ (∀ x ∈ s.returned, x.1 ≠ id) ∧
    b ≤ t ∧ t < e ∧ ∀ u, calls id u s.started = (if b ≤ u ∧ u ≤ t then 1 else 0) ∧
      calls id u s.finished = (if b ≤ u ∧ u < t then 1 else 0)
  i7 : s.mpc.setup = true → ∀ id b e, s.op = .run id b e →
    ∀ t, calls id t s.started = 0 ∧ calls id t s.finished = 0
  i8 : ∀ v d, s.mpc = .div v d → ∀ id b e, s.op = .run id b e →
    v ≤ P.n + 1 ∧ d = rng P.n b e v ∧
    ∀ u, u < v → s.me u = rng P.n b e (u + 1) ∧ s.mb u = rng P.n b e u
  i9 : s.mpc = .reset → ∀ id b e, s.op = .run id b e → P.n + 1 < e - b →
    ∀ u, u ≤ P.n → s.me u = rng P.n b e (u + 1) ∧ s.mb u = rng P.n b e u
  i10 : s.mpc.inPhase = true → s.mpc ≠ .fin → ∀ id b e, s.op = .run id b e →
    XInv P.n id b e s.mb s.me (kap P s) s.started s.finished
  i11 : s.mpc = .fin → ∀ id b e, s.op = .run id b e → Complete id b e s

theorem inv3_init (P : Params) (s : St) (h : Init s) : Inv3 P s := by
  obtain ⟨h1, h2, h3, h4, h5, h6, h7, h8, h9, h10, h11, h12, h13⟩ := h
  constructor <;> simp [h7, h11, h12, h13, MPC.setup, MPC.inPhase]

/-- A step by a thread or worker that changes nothing the invariant talks about. -/
theorem inv3_frame {P : Params} {s s' : St} (h : Inv3 P s) (e1 : s'.mpc = s.mpc) (e2 : s'.op = s.op)
    (e3 : s'.nextId = s.nextId) (e4 : s'.started = s.started) (e5 : s'.finished = s.finished)
    (e6 : s'.returned = s.returned) (e7 : s'.mb = s.mb) (e8 : s'.me = s.me)
    (e9 : kap P s' = kap P s) : Inv3 P s' := by
  obtain ⟨a1, a2, a3, a4, a5, a6, a7, a8, a9, a10, a11⟩ := h
  have hc : ∀ id b e, Complete id b e s → Complete id b e s' := by
    intro id b e hc; unfold Complete; rw [e4, e5]; exact hc
  constructor <;> (try rw [e1]) <;> (try rw [e2]) <;> (try rw [e3]) <;> (try rw [e4]) <;> (try rw [e5]) <;>
    (try rw [e6]) <;> (try rw [e7]) <;> (try rw [e8]) <;> (try rw [e9]) <;> (try assumption)
  · intro x hx; exact ⟨(a3 x hx).1, hc _ _ _ (a3 x hx).2⟩
  · intro hf id b e ho; exact hc _ _ _ (a11 hf id b e ho)

theorem calls_new {id t : Nat} {l : List (Nat × Nat × Nat)} (h : ∀ x ∈ l, x.1 < id) :
    calls id t l = 0 := by
  unfold calls
  rw [List.countP_eq_zero]
  intro x hx
  have := h x hx
  have : ¬ x.1 = id := by omega
  simp [this]

/-- A step within a phase. -/
theorem inv3_phase {P : Params} {s s' : St} (h : Inv3 P s)
    (hp : s.mpc.inPhase = true) (hf : s.mpc ≠ .fin) (hp' : s'.mpc.inPhase = true) (hf' : s'.mpc ≠ .fin)
    (e2 : s'.op = s.op) (e3 : s'.nextId = s.nextId) (e6 : s'.returned = s.returned)
    (hx : ∀ id b e, s.op = .run id b e →
      XInv P.n id b e s.mb s.me (kap P s) s.started s.finished →
      XInv P.n id b e s'.mb s'.me (kap P s') s'.started s'.finished)
    (hl : (s'.started = s.started ∧ s'.finished = s.finished) ∨
      ∃ id b e t w, w ≤ P.n ∧ s.op = .run id b e ∧
        ((s'.started = (id, t, w) :: s.started ∧ s'.finished = s.finished) ∨
         (s'.started = s.started ∧ s'.finished = (id, t, w) :: s.finished))) : Inv3 P s' := by
  obtain ⟨a1, a2, a3, a4, a5, a6, a7, a8, a9, a10, a11⟩ := h
  have hc : ∀ x ∈ s.returned, Complete x.1 x.2.1 x.2.2 s → Complete x.1 x.2.1 x.2.2 s' := by
    intro x hx hc t
    have hc := hc t
    rcases hl with ⟨l1, l2⟩ | ⟨id, b, e, t', w, _, l2, l3⟩
    · rw [l1, l2]; exact hc
    · have hne := (a4 (Or.inr hp) id b e l2).2 x hx
      have hne' : ¬ (id = x.1 ∧ t' = t) := by rintro ⟨h, _⟩; exact hne h.symm
      rcases l3 with ⟨l3, l4⟩ | ⟨l3, l4⟩ <;> rw [l3, l4, calls_cons, if_neg hne'] <;> exact hc
  have hs' : s'.mpc.setup = false := by revert hp'; cases s'.mpc <;> simp [MPC.inPhase, MPC.setup]
  constructor
  · rw [e3]
    rcases hl with ⟨l1, l2⟩ | ⟨id, b, e, t', w, l1, l2, ⟨l3, l4⟩ | ⟨l3, l4⟩⟩ <;> (rw [‹s'.started = _›])
    · exact a1
    · intro x hx
      rcases List.mem_cons.mp hx with rfl | hx
      · exact ⟨(a4 (Or.inr hp) id b e l2).1, l1⟩
      · exact a1 x hx
    · exact a1
  · rw [e3]
    rcases hl with ⟨l1, l2⟩ | ⟨id, b, e, t', w, l1, l2, ⟨l3, l4⟩ | ⟨l3, l4⟩⟩ <;> (rw [‹s'.finished = _›])
    · exact a2
    · exact a2
    · intro x hx
      rcases List.mem_cons.mp hx with rfl | hx
      · exact ⟨(a4 (Or.inr hp) id b e l2).1, l1⟩
      · exact a2 x hx
  · rw [e6, e3]; intro x hx; exact ⟨(a3 x hx).1, hc x hx (a3 x hx).2⟩
  · rw [e2, e3, e6]; intro _; exact a4 (Or.inr hp)
  · intro id b e t hm; rw [hm] at hp'; simp [MPC.inPhase] at hp'
  · intro id b e t hm; rw [hm] at hp'; simp [MPC.inPhase] at hp'
  · intro hm; rw [hs'] at hm; simp at hm
  · intro v d hm; rw [hm] at hp'; simp [MPC.inPhase] at hp'
  · intro hm; rw [hm] at hp'; simp [MPC.inPhase] at hp'
  · intro _ _ id b e ho; rw [e2] at ho; exact hx id b e ho (a10 hp hf id b e ho)
  · intro hm; exact absurd hm hf'

/-- A worker that is running is inside the current phase. -/
theorem runner {P : Params} {s : St} (hI : Inv1 P s) (w : Nat) (hw : w ≤ P.n)
    (hr : (s.pc w).runPc = true ∨ ∃ j, s.pc w = .lead j) :
    s.mpc.inPhase = true ∧ s.mpc ≠ .fin ∧ (w < P.n → s.ep w = s.epoch) := by
  have hpw : (s.pc w).isWait = false ∧ s.pc w ≠ .exited ∧ s.pc w ≠ .wait := by
    rcases hr with hr | ⟨j, hr⟩
    · have := runPc_facts _ hr; exact ⟨this.1, this.2.2.1, this.2.2.2.2.2.1⟩
    · rw [hr]; simp [WPC.isWait]
  by_cases hwn : w < P.n
  · have ht := hI.t w hwn
    have hep : s.ep w = s.epoch := by
      rcases ht.ep_act with h | h
      · exact h
      · rcases ht.next h with h1 | h1
        · rw [hpw.1] at h1; simp at h1
        · exact absurd h1 hpw.2.1
    have hq : s.mpc.quiet = false := by
      cases hq : s.mpc.quiet with
      | false => rfl
      | true => have := ht.ep_quiet hq; omega
    refine ⟨(inPhase_of_not_quiet _ hq).1, ?_, fun _ => hep⟩
    intro hc; rw [hc] at hq; simp [MPC.quiet] at hq
  · have : w = P.n := by omega
    subst this
    have h1 := hI.g.waitN
    by_cases hrun : s.mpc = .running
    · rw [hrun]; exact ⟨rfl, by simp, fun h => absurd h hwn⟩
    · by_cases hu : ∃ j a, s.mpc = .until j a
      · obtain ⟨j, a, hu⟩ := hu
        rw [hu]; exact ⟨rfl, by simp, fun h => absurd h hwn⟩
      · exact absurd (h1 hrun (fun j a he => hu ⟨j, a, he⟩)) hpw.2.2

/-- Effect of a worker's own step on the abstract status. -/
theorem kap_upd {P : Params} {s s' : St} (w : Nat) (p : WPC)
    (hep : w < P.n → s.ep w = s.epoch) (e1 : s'.ep = s.ep) (e2 : s'.epoch = s.epoch)
    (e3 : s'.pc = upd s.pc w p) : kap P s' = upd (kap P s) w (key p) := by
  funext x
  unfold kap
  rw [e1, e2, e3, upd_apply, upd_apply]
  by_cases hx : x = w
  · subst hx
    rw [if_pos rfl, if_pos rfl, if_neg]
    rintro ⟨h1, h2⟩
    have := hep h1; omega
  · rw [if_neg hx, if_neg hx]

theorem kap_own {P : Params} {s : St} (w : Nat) (hep : w < P.n → s.ep w = s.epoch) :
    kap P s w = key (s.pc w) := by
  unfold kap
  rw [if_neg]
  rintro ⟨h1, h2⟩
  have := hep h1; omega

/-- A step of `WorkerRun` by worker `w` that does not touch the logs. -/
theorem inv3_run {P : Params} {s s' : St} (hI : Inv1 P s) (h : Inv3 P s) (w : Nat) (hw : w ≤ P.n)
    (hr : (s.pc w).runPc = true) (p : WPC) (e0 : s'.mpc = s.mpc) (e2 : s'.op = s.op) (e3 : s'.nextId = s.nextId)
    (e4 : s'.started = s.started) (e5 : s'.finished = s.finished) (e6 : s'.returned = s.returned)
    (e8 : s'.ep = s.ep) (e9 : s'.epoch = s.epoch) (e10 : s'.pc = upd s.pc w p)
    (hx : ∀ id b e, s.op = .run id b e → s.tb = b → s.te = e → b ≤ e → e + (P.n + 1) < 2 ^ 64 →
      kap P s w = key (s.pc w) →
      XInv P.n id b e s.mb s.me (kap P s) s.started s.finished →
      XInv P.n id b e s'.mb s'.me (upd (kap P s) w (key p)) s.started s.finished) : Inv3 P s' := by
  obtain ⟨r1, r2, r3⟩ := runner hI w hw (Or.inl hr)
  refine inv3_phase h r1 r2 (by rw [e0]; exact r1) (by rw [e0]; exact r2) e2 e3 e6 ?_ (Or.inl ⟨e4, e5⟩)
  intro id b e ho hX
  rw [kap_upd w p r3 e8 e9 e10, e4, e5]
  obtain ⟨t1, t2, t3⟩ := hI.g.tasks (Or.inr r1)
  obtain ⟨o1, o2, o3⟩ := hI.g.opOk (Or.inr r1) id b e ho
  rw [ho] at t1 t2
  exact hx id b e ho t1 t2 o1 o3 (kap_own w r3) hX

/-- Same, when the abstract status does not change. -/
theorem inv3_run_same {P : Params} {s s' : St} (hI : Inv1 P s) (h : Inv3 P s) (w : Nat) (hw : w ≤ P.n)
    (hr : (s.pc w).runPc = true) (p : WPC) (e0 : s'.mpc = s.mpc) (e2 : s'.op = s.op)
    (e3 : s'.nextId = s.nextId)
    (e4 : s'.started = s.started) (e5 : s'.finished = s.finished) (e6 : s'.returned = s.returned)
    (e8 : s'.ep = s.ep) (e9 : s'.epoch = s.epoch) (e10 : s'.pc = upd s.pc w p)
    (e11 : s'.mb = s.mb) (e12 : s'.me = s.me)
    (hk : key p = key (s.pc w)) : Inv3 P s' := by
  refine inv3_run hI h w hw hr p e0 e2 e3 e4 e5 e6 e8 e9 e10 ?_
  intro id b e _ _ _ _ _ hko hX
  have : upd (kap P s) w (key p) = kap P s := by
    funext x; rw [upd_apply]; split
    · next hh => rw [hh, hko, hk]
    · rfl
  rw [this, e11, e12]; exact hX

/-- Steps of threads outside `WorkerRun`. -/
theorem kap_same {P : Params} {s s' : St} (i : Nat) (p : WPC)
    (hk : key p = key (s.pc i)) (e1 : s'.ep = s.ep) (e2 : s'.epoch = s.epoch)
    (e3 : s'.pc = upd s.pc i p) : kap P s' = kap P s := by
  funext x
  unfold kap
  rw [e1, e2, e3, upd_apply]
  split
  · rfl
  · split
    · next hx => rw [hx, hk]
    · rfl

/-- A thread reaches the barrier. -/
theorem kap_reached {P : Params} {s s' : St} (i : Nat) (hi : i < P.n) (p : WPC)
    (hep : s.ep i = s.epoch) (hk : key (s.pc i) = .done)
    (e1 : s'.ep = upd s.ep i (s.ep i + 1)) (e2 : s'.epoch = s.epoch)
    (e3 : s'.pc = upd s.pc i p) : kap P s' = kap P s := by
  funext x
  unfold kap
  rw [e1, e2, e3, upd_apply, upd_apply]
  by_cases hx : x = i
  · subst hx
    rw [if_pos rfl, if_pos ⟨hi, by omega⟩, if_neg (by omega), hk]
  · rw [if_neg hx, if_neg hx]

/-- Steps by main outside a phase. -/
theorem inv3_main {P : Params} {s s' : St} (h : Inv3 P s) (e3 : s'.nextId = s.nextId) (e4 : s'.started = s.started)
    (e5 : s'.finished = s.finished) (e6 : s'.returned = s.returned)
    (n1 : ∀ id b e t, s'.mpc ≠ .inl id b e t ∧ s'.mpc ≠ .inlC id b e t)
    (n2 : s'.mpc.setup = true ∨ s'.mpc.inPhase = true → ∀ id b e, s'.op ≠ .run id b e) : Inv3 P s' := by
  obtain ⟨a1, a2, a3, a4, a5, a6, a7, a8, a9, a10, a11⟩ := h
  have hc : ∀ id b e, Complete id b e s → Complete id b e s' := by
    intro id b e hc; unfold Complete; rw [e4, e5]; exact hc
  constructor
  · rw [e3, e4]; exact a1
  · rw [e3, e5]; exact a2
  · rw [e3, e6]; exact fun x hx => ⟨(a3 x hx).1, hc _ _ _ (a3 x hx).2⟩
  · intro hp id b e ho; exact absurd ho (n2 hp id b e)
  · intro id b e t hm; exact absurd hm (n1 id b e t).1
  · intro id b e t hm; exact absurd hm (n1 id b e t).2
  · intro hp id b e ho; exact absurd ho (n2 (Or.inl hp) id b e)
  · intro v d hm id b e ho; exact absurd ho (n2 (Or.inl (by rw [hm]; rfl)) id b e)
  · intro hm id b e ho; exact absurd ho (n2 (Or.inl (by rw [hm]; rfl)) id b e)
  · intro hp _ id b e ho; exact absurd ho (n2 (Or.inr hp) id b e)
  · intro hm id b e ho; exact absurd ho (n2 (Or.inr (by rw [hm]; rfl)) id b e)

/-- Return of a run. -/
theorem inv3_return {P : Params} {s s' : St} (h : Inv3 P s) (id b e : Nat) (hid : id < s.nextId)
    (hc : Complete id b e s) (e3 : s'.nextId = s.nextId) (e4 : s'.started = s.started)
    (e5 : s'.finished = s.finished) (e6 : s'.returned = (id, b, e) :: s.returned)
    (e7 : s'.mpc = .idle) : Inv3 P s' := by
  obtain ⟨a1, a2, a3, a4, a5, a6, a7, a8, a9, a10, a11⟩ := h
  have hc' : ∀ id b e, Complete id b e s → Complete id b e s' := by
    intro id b e hc; unfold Complete; rw [e4, e5]; exact hc
  constructor <;> (try rw [e7]) <;> (try simp only [MPC.setup, MPC.inPhase, reduceCtorEq, false_implies, implies_true, or_self, Bool.false_eq_true]) <;> (try trivial)
  · rw [e3, e4]; exact a1
  · rw [e3, e5]; exact a2
  · rw [e3, e6]
    intro x hx
    rcases List.mem_cons.mp hx with rfl | hx
    · exact ⟨hid, hc' _ _ _ hc⟩
    · exact ⟨(a3 x hx).1, hc' _ _ _ (a3 x hx).2⟩

end Pool
end Hwy
