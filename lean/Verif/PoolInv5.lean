import Verif.PoolInv4

/-! # Preservation of the task invariant of the thread-pool model -/

namespace Hwy
namespace Pool

theorem job_run {P : Params} {s : St} (hI : Inv1 P s) (hp : s.mpc.inPhase = true) {id b e : Nat}
    (ho : s.op = .run id b e) : s.tb = b ∧ s.te = e ∧ s.fn = .user id ∧ b ≤ e ∧
      1 < e - b ∧ e + (P.n + 1) < 2 ^ 64 := by
  obtain ⟨t1, t2, t3⟩ := hI.g.tasks (Or.inr hp)
  obtain ⟨o1, o2, o3⟩ := hI.g.opOk (Or.inr hp) id b e ho
  rw [ho] at t1 t2 t3
  exact ⟨t1, t2, t3, o1, o2, o3⟩

theorem job_user {P : Params} {s : St} (hI : Inv1 P s) (hp : s.mpc.inPhase = true) {id : Nat}
    (hf : s.fn = .user id) : ∃ b e, s.op = .run id b e := by
  obtain ⟨t1, t2, t3⟩ := hI.g.tasks (Or.inr hp)
  rw [hf] at t3
  cases ho : s.op with
  | run id' b e => rw [ho] at t3; simp [jobF] at t3; exact ⟨b, e, by rw [t3]⟩
  | send1 c => rw [ho] at t3; simp [jobF] at t3
  | send2 c => rw [ho] at t3; simp [jobF] at t3

theorem call_fn {P : Params} {tb te : Nat} {fn : Fn} {me : Nat → Nat} {w : Nat} {k : Option (List Nat × Nat)}
    {t : Nat} {f : Fn} (h : locals P tb te fn me w (.call k t f) ∨ locals P tb te fn me w (.inCall k t f)) :
    f = fn := by
  rcases k with _ | ⟨vs, oe⟩ <;> rcases h with h | h <;> exact h.1

theorem suffix_vict {P : Params} (hv : VOk P) {w v : Nat} {vs : List Nat} (hw : w ≤ P.n)
    (h : (v :: vs) <:+ P.vict w) : v ≤ P.n ∧ v ∉ vs := by
  obtain ⟨_, h2, h3⟩ := hv w hw
  refine ⟨h3 v (h.mem (by simp)), ?_⟩
  have := List.Nodup.sublist h.sublist h2
  exact (List.nodup_cons.mp this).1

theorem xinv_kap {n id b e : Nat} {mb me : Nat → Nat} {κ κ' : Nat → Key}
    {st fi : List (Nat × Nat × Nat)} (hk : κ' = κ) (h : XInv n id b e mb me κ st fi) :
    XInv n id b e mb me κ' st fi := hk ▸ h

theorem key_plain_of_wait {p : WPC} (h : p.isWait = true) : key p = .plain := by
  cases p <;> simp_all [WPC.isWait, key]

theorem inv3_step {P : Params} {s s' : St} (hv : VOk P) (hI : Inv1 P s) (hI2 : Inv2 P s) (h : Inv3 P s)
    (hs : Step P s s') : Inv3 P s' := by
  have hbar := barrier_sound hI2 hs
  have hbig := hI.nbig
  cases hs
  case mInline b e h1 h2 h3 h4 =>
    obtain ⟨a1, a2, a3, a4, a5, a6, a7, a8, a9, a10, a11⟩ := h
    constructor <;> dsimp only
    · intro x hx; have := a1 x hx; exact ⟨by omega, this.2⟩
    · intro x hx; have := a2 x hx; exact ⟨by omega, this.2⟩
    · intro x hx; have := a3 x hx; exact ⟨by omega, this.2⟩
    · simp [MPC.setup, MPC.inPhase]
    · intro id b' e' t hm
      simp only [MPC.inl.injEq] at hm
      obtain ⟨rfl, rfl, rfl, rfl⟩ := hm
      refine ⟨by omega, fun x hx => by have := (a3 x hx).1; omega, le_refl _, h2, fun u => ?_⟩
      rw [calls_new (fun x hx => (a1 x hx).1), calls_new (fun x hx => (a2 x hx).1), if_neg (by omega)]
      exact ⟨rfl, rfl⟩
    · simp
    · simp [MPC.setup]
    · simp
    · simp
    · simp [MPC.inPhase]
    · simp
  case mInlCall id b e t h1 h2 =>
    obtain ⟨a1, a2, a3, a4, a5, a6, a7, a8, a9, a10, a11⟩ := h
    obtain ⟨b1, b2, b3, b4, b5⟩ := a5 id b e t h1
    constructor <;> dsimp only
    · intro x hx
      rcases List.mem_cons.mp hx with rfl | hx
      · exact ⟨b1, Nat.zero_le _⟩
      · exact a1 x hx
    · exact a2
    · intro x hx
      refine ⟨(a3 x hx).1, fun u => ?_⟩
      dsimp only
      have hne : ¬ (id = x.1 ∧ t = u) := by rintro ⟨hh, _⟩; exact b2 x hx hh.symm
      rw [calls_cons, if_neg hne]
      exact (a3 x hx).2 u
    · simp [MPC.setup, MPC.inPhase]
    · simp
    · intro id' b' e' t' hm
      simp only [MPC.inlC.injEq] at hm
      obtain ⟨rfl, rfl, rfl, rfl⟩ := hm
      refine ⟨b1, b2, b3, h2, fun u => ?_⟩
      rw [calls_cons, (b5 u).2, (b5 u).1]
      refine ⟨?_, rfl⟩
      by_cases hu : t = u
      · subst hu; simp [b3]
      · rw [if_neg (show ¬ (id = id ∧ t = u) from fun hc => hu hc.2), Nat.add_zero]
        congr 1
        apply propext; omega
    · simp [MPC.setup]
    · simp
    · simp
    · simp [MPC.inPhase]
    · simp
  case mInlRet id b e t h1 =>
    obtain ⟨a1, a2, a3, a4, a5, a6, a7, a8, a9, a10, a11⟩ := h
    obtain ⟨b1, b2, b3, b4, b5⟩ := a6 id b e t h1
    constructor <;> dsimp only
    · exact a1
    · intro x hx
      rcases List.mem_cons.mp hx with rfl | hx
      · exact ⟨b1, Nat.zero_le _⟩
      · exact a2 x hx
    · intro x hx
      refine ⟨(a3 x hx).1, fun u => ?_⟩
      dsimp only
      have hne : ¬ (id = x.1 ∧ t = u) := by rintro ⟨hh, _⟩; exact b2 x hx hh.symm
      rw [calls_cons, if_neg hne]
      exact (a3 x hx).2 u
    · simp [MPC.setup, MPC.inPhase]
    · intro id' b' e' t' hm
      simp only [MPC.inl.injEq] at hm
      obtain ⟨rfl, rfl, rfl, rfl⟩ := hm
      refine ⟨b1, b2, by omega, by omega, fun u => ?_⟩
      rw [calls_cons, (b5 u).2, (b5 u).1]
      refine ⟨?_, ?_⟩
      · congr 1
        apply propext; omega
      · by_cases hu : t = u
        · subst hu; simp [b3]
        · rw [if_neg (show ¬ (id = id ∧ t = u) from fun hc => hu hc.2), Nat.add_zero]
          congr 1
          apply propext; omega
    · simp
    · simp [MPC.setup]
    · simp
    · simp
    · simp [MPC.inPhase]
    · simp
  case mInlDone id b e t h1 h2 =>
    obtain ⟨b1, b2, b3, b4, b5⟩ := h.i5 id b e t h1
    refine inv3_return h id b e b1 ?_ rfl rfl rfl rfl rfl
    have : t = e := by omega
    rw [this] at b5
    exact b5
  case mRun b e h1 h2 h3 h4 h5 =>
    obtain ⟨a1, a2, a3, a4, a5, a6, a7, a8, a9, a10, a11⟩ := h
    constructor <;> dsimp only
    · intro x hx; have := a1 x hx; exact ⟨by omega, this.2⟩
    · intro x hx; have := a2 x hx; exact ⟨by omega, this.2⟩
    · intro x hx; have := a3 x hx; exact ⟨by omega, this.2⟩
    · intro _ id b' e' ho
      simp only [Op.run.injEq] at ho
      obtain ⟨rfl, rfl, rfl⟩ := ho
      exact ⟨by omega, fun x hx => by have := (a3 x hx).1; omega⟩
    · intro id b' e' t; split <;> simp
    · intro id b' e' t; split <;> simp
    · intro _ id b' e' ho
      simp only [Op.run.injEq] at ho
      obtain ⟨rfl, rfl, rfl⟩ := ho
      intro t
      exact ⟨calls_new (fun x hx => (a1 x hx).1), calls_new (fun x hx => (a2 x hx).1)⟩
    · intro v d hm id b' e' ho
      simp only [Op.run.injEq] at ho
      obtain ⟨rfl, rfl, rfl⟩ := ho
      split at hm
      · simp only [MPC.div.injEq] at hm
        obtain ⟨rfl, rfl⟩ := hm
        exact ⟨by omega, (rng_zero _ _ _).symm, fun u hu => by omega⟩
      · simp at hm
    · intro hm id b' e' ho hlt
      simp only [Op.run.injEq] at ho
      obtain ⟨rfl, rfl, rfl⟩ := ho
      rw [if_pos hlt] at hm; simp at hm
    · intro hm; revert hm; split <;> simp [MPC.inPhase]
    · intro hm; revert hm; split <;> simp
  case mDiv v d h1 h2 =>
    obtain ⟨id, b, e, ho, hlt⟩ := hI.g.divOp v d h1
    obtain ⟨t1, t2, t3⟩ := hI.g.tasks (Or.inl (by rw [h1]; rfl))
    obtain ⟨o1, o2, o3⟩ := hI.g.opOk (Or.inl (by rw [h1]; rfl)) id b e ho
    rw [ho] at t1 t2
    simp only [jobB, jobE] at t1 t2
    obtain ⟨a1, a2, a3, a4, a5, a6, a7, a8, a9, a10, a11⟩ := h
    obtain ⟨c1, c2, c3⟩ := a8 v d h1 id b e ho
    have hle : rng P.n b e (v + 1) ≤ e := by
      have := rng_mono P.n b e (v + 1) (P.n + 1) (by omega)
      rwa [rng_last P.n b e o1] at this
    have hval : (d + (s.te - s.tb) / (P.n + 1) +
                (if v < (s.te - s.tb) % (P.n + 1) then 1 else 0)) % 2 ^ 64 = rng P.n b e (v + 1) := by
      rw [t1, t2, c2, ← rng_succ]
      exact Nat.mod_eq_of_lt (by omega)
    constructor <;> dsimp only
    · exact a1
    · exact a2
    · exact a3
    · intro _; exact a4 (Or.inl (by rw [h1]; rfl))
    · simp
    · simp
    · intro _; exact a7 (by rw [h1]; rfl)
    · intro v' d' hm id' b' e' ho'
      rw [ho] at ho'
      simp only [Op.run.injEq] at ho'
      obtain ⟨rfl, rfl, rfl⟩ := ho'
      rw [hval] at hm
      simp only [MPC.div.injEq] at hm
      obtain ⟨rfl, rfl⟩ := hm
      refine ⟨by omega, rfl, fun u hu => ?_⟩
      rw [upd_apply, upd_apply, hval]
      split
      · next hh => rw [hh]; exact ⟨rfl, c2⟩
      · exact c3 u (by omega)
    · simp
    · simp [MPC.inPhase]
    · simp
  case mDivDone v d h1 h2 =>
    obtain ⟨a1, a2, a3, a4, a5, a6, a7, a8, a9, a10, a11⟩ := h
    constructor <;> dsimp only
    · exact a1
    · exact a2
    · exact a3
    · intro _; exact a4 (Or.inl (by rw [h1]; rfl))
    · simp
    · simp
    · intro _; exact a7 (by rw [h1]; rfl)
    · simp
    · intro _ id b e ho _ u hu
      exact (a8 v d h1 id b e ho).2.2 u (by omega)
    · simp [MPC.inPhase]
    · simp
  case mSend c h1 h2 h3 => exact inv3_main h rfl rfl rfl rfl (by simp) (by simp)
  case mSend0 c h1 h2 h3 => exact inv3_main h rfl rfl rfl rfl (by simp [h1]) (by simp [h1, MPC.setup, MPC.inPhase])
  case mDestroy h1 h2 => exact inv3_main h rfl rfl rfl rfl (by simp) (by simp)
  case mDestroy0 h1 h2 => exact inv3_main h rfl rfl rfl rfl (by simp) (by simp [MPC.setup, MPC.inPhase])
  case mSend2 c h1 h2 => exact inv3_main h rfl rfl rfl rfl (by simp) (by simp)
  case mSendDone c h1 h2 =>
    refine inv3_main h rfl rfl rfl rfl ?_ ?_
    · intro id b e t; dsimp only; split <;> simp
    · dsimp only; split <;> simp [MPC.setup, MPC.inPhase]
  case mJoin h1 h2 => exact inv3_main h rfl rfl rfl rfl (by simp) (by simp [MPC.setup, MPC.inPhase])
  case mReset h1 =>
    obtain ⟨a1, a2, a3, a4, a5, a6, a7, a8, a9, a10, a11⟩ := h
    have hset : s.mpc.setup = true := by rw [h1]; rfl
    constructor <;> dsimp only
    · exact a1
    · exact a2
    · exact a3
    · intro _; exact a4 (Or.inl hset)
    · simp
    · simp
    · simp [MPC.setup]
    · simp
    · simp
    · intro _ _ id b e ho
      refine xinv_start ?_ (fun t => (a7 hset id b e ho t).1) (fun t => (a7 hset id b e ho t).2)
        (fun hlt => a9 h1 id b e ho hlt)
      intro w hw
      unfold kap
      dsimp only
      by_cases hwn : w < P.n
      · have ht := hI.t w hwn
        have hq := ht.ep_quiet (by rw [h1]; rfl)
        rw [if_neg (by omega)]
        rcases ht.next hq with hx | hx
        · exact key_plain_of_wait hx
        · rw [hx]; rfl
      · rw [if_neg (by omega), show w = P.n by omega, hI.g.waitN (by rw [h1]; simp) (by rw [h1]; simp)]
        rfl
    · simp
  case mWakeBlock k h1 h2 =>
    refine inv3_phase h (by rw [h1]; rfl) (by rw [h1]; simp) rfl (by simp) rfl rfl rfl ?_ (Or.inl ⟨rfl, rfl⟩)
    intro id b e _ hX; exact hX
  case mWakeAll h1 =>
    refine inv3_phase h (by rw [h1]; rfl) (by rw [h1]; simp) rfl (by simp) rfl rfl rfl ?_ (Or.inl ⟨rfl, rfl⟩)
    intro id b e _ hX
    have hn := hI.g.waitN (by rw [h1]; simp) (by rw [h1]; simp)
    have : kap P { s with pc := upd (fun i => wakeSleeper (s.pc i)) P.n .ldEnd, mpc := .running } = kap P s := by
      funext x
      unfold kap
      dsimp only
      split
      · rfl
      · rw [upd_apply]
        split
        · next hx => rw [hx, hn]; rfl
        · cases s.pc x <;> rfl
    rw [this]; exact hX
  case mWakeSpin1 k h1 h2 =>
    refine inv3_phase h (by rw [h1]; rfl) (by rw [h1]; simp) rfl (by simp) rfl rfl rfl ?_ (Or.inl ⟨rfl, rfl⟩)
    intro id b e _ hX
    have hn := hI.g.waitN (by rw [h1]; simp) (by rw [h1]; simp)
    refine xinv_kap (kap_same (s := s) P.n .ldEnd (by rw [hn]; rfl) ?_ ?_ ?_) hX <;> rfl
  case mWakeSep k h1 h2 h3 =>
    refine inv3_phase h (by rw [h1]; rfl) (by rw [h1]; simp) rfl (by simp) rfl rfl rfl ?_ (Or.inl ⟨rfl, rfl⟩)
    intro id b e _ hX; exact hX
  case mWakeSepDone k h1 h2 h3 =>
    refine inv3_phase h (by rw [h1]; rfl) (by rw [h1]; simp) rfl (by simp) rfl rfl rfl ?_ (Or.inl ⟨rfl, rfl⟩)
    intro id b e _ hX
    have hn := hI.g.waitN (by rw [h1]; simp) (by rw [h1]; simp)
    refine xinv_kap (kap_same (s := s) P.n .ldEnd (by rw [hn]; rfl) ?_ ?_ ?_) hX <;> rfl
  case mRan h1 h2 =>
    refine inv3_phase h (by rw [h1]; rfl) (by rw [h1]; simp) rfl (by simp) rfl rfl rfl ?_ (Or.inl ⟨rfl, rfl⟩)
    intro id b e _ hX; exact hX
  case mCtrLoad j acc k h1 h2 h3 =>
    refine inv3_phase h (by rw [h1]; rfl) (by rw [h1]; simp) rfl (by simp) rfl rfl rfl ?_ (Or.inl ⟨rfl, rfl⟩)
    intro id b e _ hX; exact hX
  case mCtrAgain j acc k h1 h2 h3 h4 =>
    refine inv3_phase h (by rw [h1]; rfl) (by rw [h1]; simp) rfl (by simp) rfl rfl rfl ?_ (Or.inl ⟨rfl, rfl⟩)
    intro id b e _ hX; exact hX
  case mGrpPoll j acc g h1 h2 h3 h4 =>
    refine inv3_phase h (by rw [h1]; rfl) (by rw [h1]; simp) rfl (by simp) rfl rfl rfl ?_ (Or.inl ⟨rfl, rfl⟩)
    intro id b e _ hX; exact hX
  case mRunRet id b e h1 h2 =>
    exact inv3_return h id b e (h.i4 (Or.inr (by rw [h1]; rfl)) id b e h2).1 (h.i11 h1 id b e h2)
      rfl rfl rfl rfl rfl
  case mCtrDone j acc k h1 h2 h3 h4 =>
    have hall := hbar (by rw [h1]; simp) rfl
    have hp : s.mpc.inPhase = true := by rw [h1]; rfl
    obtain ⟨a1, a2, a3, a4, a5, a6, a7, a8, a9, a10, a11⟩ := h
    constructor <;> dsimp only
    · exact a1
    · exact a2
    · exact a3
    · intro _; exact a4 (Or.inr hp)
    · simp
    · simp
    · simp [MPC.setup]
    · simp
    · simp
    · simp
    · intro _ id b e ho
      obtain ⟨j1, j2, j3, j4, j5, j6⟩ := job_run hI hp ho
      have hX := a10 hp (by rw [h1]; simp) id b e ho
      refine xinv_done hX j4 ?_
      intro w hw
      unfold kap
      by_cases hwn : w < P.n
      · rw [if_pos ⟨hwn, hall w hwn⟩]
      · rw [if_neg (by omega), show w = P.n by omega, hI.g.untN j acc h1]; rfl
  case mGrpDone j acc g h1 h2 h3 =>
    have hall := hbar (by rw [h1]; simp) rfl
    have hp : s.mpc.inPhase = true := by rw [h1]; rfl
    obtain ⟨a1, a2, a3, a4, a5, a6, a7, a8, a9, a10, a11⟩ := h
    constructor <;> dsimp only
    · exact a1
    · exact a2
    · exact a3
    · intro _; exact a4 (Or.inr hp)
    · simp
    · simp
    · simp [MPC.setup]
    · simp
    · simp
    · simp
    · intro _ id b e ho
      obtain ⟨j1, j2, j3, j4, j5, j6⟩ := job_run hI hp ho
      have hX := a10 hp (by rw [h1]; simp) id b e ho
      refine xinv_done hX j4 ?_
      intro w hw
      unfold kap
      by_cases hwn : w < P.n
      · rw [if_pos ⟨hwn, hall w hwn⟩]
      · rw [if_neg (by omega), show w = P.n by omega, hI.g.untN j acc h1]; rfl
  case tWoken i h1 h2 h3 =>
    exact inv3_frame h rfl rfl rfl rfl rfl rfl rfl rfl (kap_same i .latch (by rw [h2]; rfl) rfl rfl rfl)
  case tFutex i h1 h2 h3 h4 =>
    exact inv3_frame h rfl rfl rfl rfl rfl rfl rfl rfl (kap_same i .fwait (by rw [h2]; rfl) rfl rfl rfl)
  case tSleep i h1 h2 h3 =>
    exact inv3_frame h rfl rfl rfl rfl rfl rfl rfl rfl (kap_same i .sleep (by rw [h2]; rfl) rfl rfl rfl)
  case tEagain i h1 h2 h3 =>
    exact inv3_frame h rfl rfl rfl rfl rfl rfl rfl rfl (kap_same i .wait (by rw [h2]; rfl) rfl rfl rfl)
  case tSpurious i h1 h2 =>
    exact inv3_frame h rfl rfl rfl rfl rfl rfl rfl rfl (kap_same i .wait (by rw [h2]; rfl) rfl rfl rfl)
  case tLatch i h1 h2 =>
    exact inv3_frame h rfl rfl rfl rfl rfl rfl rfl rfl (kap_same i .ldEnd (by rw [h2]; rfl) rfl rfl rfl)
  case rEnd w h1 h2 =>
    exact inv3_run_same hI h w h1 (by rw [h2]; rfl) _ rfl rfl rfl rfl rfl rfl rfl rfl rfl rfl rfl
      (by rw [h2]; rfl)
  case rBegin w e h1 h2 =>
    exact inv3_run_same hI h w h1 (by rw [h2]; rfl) _ rfl rfl rfl rfl rfl rfl rfl rfl rfl rfl rfl
      (by rw [h2]; split <;> rfl)
  case rS1 w h1 h2 =>
    exact inv3_run_same hI h w h1 (by rw [h2]; rfl) _ rfl rfl rfl rfl rfl rfl rfl rfl rfl rfl rfl
      (by rw [h2]; rfl)
  case rS2 w b h1 h2 =>
    refine inv3_run hI h w h1 (by rw [h2]; rfl) _ rfl rfl rfl rfl rfl rfl rfl rfl rfl ?_
    intro id b' e ho t1 t2 hbe hfit hko hX
    have hl := hI.l w h1
    rw [h2] at hl hko
    obtain ⟨l1, l2⟩ := hl
    have hb : b = b' := by omega
    subst hb
    rw [Nat.mod_eq_of_lt (show b + w < 2 ^ 64 by omega), t2]
    split
    · next hlt => exact xinv_single hX w h1 hko (by omega) hlt
    · next hlt =>
      refine xinv_move hX w h1 .done ?_ ?_ ?_ ?_ (Or.inr (Or.inr hlt))
      · intro t; rw [hko]; exact ⟨rfl, rfl⟩
      · intro t; rw [hko]; exact ⟨rfl, rfl⟩
      · intro hs; omega
      · intro hs; omega
  case rS3 w t h1 h2 =>
    exact inv3_run_same hI h w h1 (by rw [h2]; rfl) _ rfl rfl rfl rfl rfl rfl rfl rfl rfl rfl rfl
      (by rw [h2]; rfl)
  case rW1 w h1 h2 =>
    refine inv3_run hI h w h1 (by rw [h2]; rfl) _ rfl rfl rfl rfl rfl rfl rfl rfl rfl ?_
    intro id b' e ho t1 t2 hbe hfit hko hX
    have hl := hI.l w h1
    rw [h2] at hl hko
    have hl : P.n + 1 < s.te - s.tb := hl
    obtain ⟨⟨vs, v1⟩, v2, v3⟩ := hv w h1
    refine xinv_move hX w h1 _ ?_ ?_ ?_ ?_ (Or.inl (by omega))
    · intro t; rw [hko]; exact ⟨rfl, rfl⟩
    · intro t; rw [hko]; exact ⟨rfl, rfl⟩
    · intro _ u hu; rw [hko] at hu; simp [key, Key.passed] at hu
    · intro _ hp
      simp [key, Key.passed, v1] at hp
  case rW2 w v vs f h1 h2 =>
    exact inv3_run_same hI h w h1 (by rw [h2]; rfl) _ rfl rfl rfl rfl rfl rfl rfl rfl rfl rfl rfl
      (by rw [h2]; rfl)
  case rW2Done w f h1 h2 =>
    refine inv3_run hI h w h1 (by rw [h2]; rfl) _ rfl rfl rfl rfl rfl rfl rfl rfl rfl ?_
    intro id b' e ho t1 t2 hbe hfit hko hX
    have hl := hI.l w h1
    rw [h2] at hl hko
    obtain ⟨l1, l2, l3⟩ := hl
    refine xinv_move hX w h1 _ ?_ ?_ ?_ ?_ (Or.inl (by omega))
    · intro t; rw [hko]; exact ⟨rfl, rfl⟩
    · intro t; rw [hko]; exact ⟨rfl, rfl⟩
    · intro _ u hu; rfl
    · intro _ hp; rw [hko]; rfl
  case rW3 w v vs oe f h1 h2 =>
    refine inv3_run hI h w h1 (by rw [h2]; rfl) _ rfl rfl rfl rfl rfl rfl rfl rfl rfl ?_
    intro id b' e ho t1 t2 hbe hfit hko hX
    have hl := hI.l w h1
    rw [h2] at hl hko
    obtain ⟨l1, l2, l3, v', vs', l4, l5⟩ := hl
    simp only [List.cons.injEq] at l4
    obtain ⟨rfl, rfl⟩ := l4
    obtain ⟨s1, s2⟩ := suffix_vict hv h1 l3
    dsimp only
    split
    · next hge => exact xinv_skip hX w v vs h1 s1 hko (by omega) (by omega) s2 hfit hbe
    · next hge => exact xinv_reserve hX w v vs h1 s1 hko (by omega) (by omega) hfit hbe
  case rCallUser w k t id h1 h2 =>
    obtain ⟨r1, r2, r3⟩ := runner hI w h1 (Or.inl (by rw [h2]; rfl))
    have hl := hI.l w h1
    rw [h2] at hl
    have hf := call_fn (Or.inl hl)
    obtain ⟨b, e, ho⟩ := job_user hI r1 hf.symm
    refine inv3_phase h r1 r2 r1 r2 rfl rfl rfl ?_ (Or.inr ⟨id, b, e, t, w, h1, ho, Or.inl ⟨rfl, rfl⟩⟩)
    intro id' b' e' ho' hX
    rw [ho] at ho'
    simp only [Op.run.injEq] at ho'
    obtain ⟨rfl, rfl, rfl⟩ := ho'
    refine xinv_kap (kap_upd (s := s) w _ r3 (by rfl) (by rfl) (by rfl)) ?_
    exact xinv_call hX w h1 (k.map Prod.fst) t (by rw [kap_own w r3, h2]; rfl)
  case rCallLatch w k t c h1 h2 =>
    refine inv3_run hI h w h1 (by rw [h2]; rfl) _ rfl rfl rfl rfl rfl rfl rfl rfl rfl ?_
    intro id b e ho
    have hl := hI.l w h1
    rw [h2] at hl
    have hf := call_fn (Or.inl hl)
    obtain ⟨r1, r2, r3⟩ := runner hI w h1 (Or.inl (by rw [h2]; rfl))
    have := (job_run hI r1 ho).2.2.1
    rw [← hf] at this; simp at this
  case rCallNoop w k t h1 h2 =>
    refine inv3_run hI h w h1 (by rw [h2]; rfl) _ rfl rfl rfl rfl rfl rfl rfl rfl rfl ?_
    intro id b e ho
    have hl := hI.l w h1
    rw [h2] at hl
    have hf := call_fn (Or.inl hl)
    obtain ⟨r1, r2, r3⟩ := runner hI w h1 (Or.inl (by rw [h2]; rfl))
    have := (job_run hI r1 ho).2.2.1
    rw [← hf] at this; simp at this
  case rRetOther w k t f h1 h2 h3 =>
    refine inv3_run hI h w h1 (by rw [h2]; rfl) _ rfl rfl rfl rfl rfl rfl rfl rfl rfl ?_
    intro id b e ho
    have hl := hI.l w h1
    rw [h2] at hl
    have hf := call_fn (Or.inr hl)
    obtain ⟨r1, r2, r3⟩ := runner hI w h1 (Or.inl (by rw [h2]; rfl))
    have := (job_run hI r1 ho).2.2.1
    rw [← hf] at this; exact absurd this (h3 id)
  case rRetUser w k t id h1 h2 =>
    obtain ⟨r1, r2, r3⟩ := runner hI w h1 (Or.inl (by rw [h2]; rfl))
    have hl := hI.l w h1
    rw [h2] at hl
    have hf := call_fn (Or.inr hl)
    obtain ⟨b, e, ho⟩ := job_user hI r1 hf.symm
    obtain ⟨j1, j2, j3, j4, j5, j6⟩ := job_run hI r1 ho
    refine inv3_phase h r1 r2 r1 r2 rfl rfl rfl ?_ (Or.inr ⟨id, b, e, t, w, h1, ho, Or.inr ⟨rfl, rfl⟩⟩)
    intro id' b' e' ho' hX
    rw [ho] at ho'
    simp only [Op.run.injEq] at ho'
    obtain ⟨rfl, rfl, rfl⟩ := ho'
    refine xinv_kap (kap_upd (s := s) w _ r3 (by rfl) (by rfl) (by rfl)) ?_
    refine xinv_ret hX w h1 (k.map Prod.fst) t (by rw [kap_own w r3, h2]; rfl) _ ?_ ?_
    · rcases k with _ | ⟨vs, oe⟩ <;> rfl
    · intro hk
      rcases k with _ | ⟨vs, oe⟩
      · have := hl.2.1
        omega
      · simp at hk
  case tCounter i k h1 h2 h3 =>
    obtain ⟨r1, r2, r3⟩ := runner hI i (by omega) (Or.inl (by rw [h2]; rfl))
    exact inv3_frame h rfl rfl rfl rfl rfl rfl rfl rfl
      (kap_reached i h1 _ (r3 h1) (by rw [h2]; rfl) rfl rfl rfl)
  case tGroupLead i g h1 h2 h3 h4 =>
    exact inv3_frame h rfl rfl rfl rfl rfl rfl rfl rfl (kap_same i _ (by rw [h2]; rfl) rfl rfl rfl)
  case tGroupStore i g h1 h2 h3 h4 =>
    obtain ⟨r1, r2, r3⟩ := runner hI i (by omega) (Or.inl (by rw [h2]; rfl))
    exact inv3_frame h rfl rfl rfl rfl rfl rfl rfl rfl
      (kap_reached i h1 _ (r3 h1) (by rw [h2]; rfl) rfl rfl rfl)
  case tLeadPoll i j g h1 h2 h3 h4 h5 =>
    exact inv3_frame h rfl rfl rfl rfl rfl rfl rfl rfl (kap_same i _ (by rw [h2]; rfl) rfl rfl rfl)
  case tLeadStore i j g h1 h2 h3 h4 =>
    obtain ⟨r1, r2, r3⟩ := runner hI i (by omega) (Or.inr ⟨j, h2⟩)
    exact inv3_frame h rfl rfl rfl rfl rfl rfl rfl rfl
      (kap_reached i h1 _ (r3 h1) (by rw [h2]; rfl) rfl rfl rfl)

/-- The three invariants hold in every reachable state. -/
theorem reach_inv {P : Params} (hn : P.n ≤ 60) (hv : VOk P) {s : St} (hr : Reach P s) :
    Inv1 P s ∧ Inv2 P s ∧ Inv3 P s := by
  induction hr with
  | init s h => exact ⟨inv1_init P (by omega) s h, inv2_init P s h, inv3_init P s h⟩
  | step s s' _ hs ih =>
    obtain ⟨h1, h2, h3⟩ := ih
    exact ⟨inv1_step P s s' h1 hs (fun a b => barrier_sound h2 hs a b), inv2_step hn h1 h2 hs,
      inv3_step hv h1 h2 h3 hs⟩

end Pool
end Hwy
