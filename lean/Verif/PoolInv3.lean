import Verif.PoolInv2

/-! # Task invariant of the thread-pool model: every task is reserved, started and finished once -/

namespace Hwy
namespace Pool

/-- How often the closure of run `id` was called for `task`, according to a log. -/
def calls (id task : Nat) (log : List (Nat × Nat × Nat)) : Nat :=
  log.countP (fun x => x.1 == id && x.2.1 == task)

theorem calls_cons (id t id' t' w : Nat) (l : List (Nat × Nat × Nat)) :
    calls id t ((id', t', w) :: l) = calls id t l + if id' = id ∧ t' = t then 1 else 0 := by
  unfold calls
  rw [List.countP_cons]
  congr 1
  by_cases h1 : id' = id <;> by_cases h2 : t' = t <;> simp [h1, h2]

/-- Abstract status of a worker within a phase. -/
inductive Key
  | plain
  | rem (vs : List Nat)
  | pend (k : Option (List Nat)) (t : Nat)
  | exec (k : Option (List Nat)) (t : Nat)
  | done

def key : WPC → Key
  | .s3 t => .pend none t
  | .call k t _ => .pend (k.map Prod.fst) t
  | .inCall k t _ => .exec (k.map Prod.fst) t
  | .w2 vs _ => .rem vs
  | .w3 vs _ _ => .rem vs
  | .arrive | .lead _ => .done
  | _ => .plain

/-- Status of worker `w`; a thread that reached the barrier of the current epoch is done. -/
def kap (P : Params) (s : St) (w : Nat) : Key :=
  if w < P.n ∧ s.ep w = s.epoch + 1 then .done else key (s.pc w)

@[grind] def Key.pendIs (t : Nat) : Key → Bool
  | .pend _ t' => t' == t
  | _ => false

@[grind] def Key.execIs (t : Nat) : Key → Bool
  | .exec _ t' => t' == t
  | _ => false

/-- The worker will not reserve from victim `u` any more. -/
@[grind] def Key.passed (u : Nat) : Key → Bool
  | .rem vs | .pend (some vs) _ | .exec (some vs) _ => !vs.contains u
  | .done => true
  | _ => false

/-- (Single-task mode) the worker has taken its task, if any. -/
@[grind] def Key.decided : Key → Bool
  | .pend none _ | .exec none _ | .done => true
  | _ => false

/-- Number of workers (including main) with property `f`. -/
def wc (n : Nat) (f : Key → Bool) (κ : Nat → Key) : Nat :=
  ((Finset.range (n + 1)).filter (fun w => f (κ w) = true)).card

theorem wc_upd (n : Nat) (f : Key → Bool) (κ : Nat → Key) (w : Nat) (k : Key) (hw : w ≤ n) :
    wc n f (upd κ w k) + (if f (κ w) = true then 1 else 0) = wc n f κ + (if f k = true then 1 else 0) := by
  unfold wc
  have hmem : w ∈ Finset.range (n + 1) := Finset.mem_range.mpr (by omega)
  rw [← Finset.insert_erase hmem, Finset.filter_insert, Finset.filter_insert]
  have e : ((Finset.range (n + 1)).erase w).filter (fun j => f (upd κ w k j) = true) =
      ((Finset.range (n + 1)).erase w).filter (fun j => f (κ j) = true) := by
    apply Finset.filter_congr
    intro j hj
    rw [upd_apply, if_neg (Finset.ne_of_mem_erase hj)]
  have hnm : ∀ g : Nat → Prop, [DecidablePred g] → w ∉ ((Finset.range (n + 1)).erase w).filter g := by
    intro g _; simp
  rw [upd_apply, if_pos rfl, e]
  by_cases h1 : f k = true <;> by_cases h2 : f (κ w) = true <;>
    simp [h1, h2, Finset.card_insert_of_notMem (hnm _)]

theorem wc_le (n : Nat) (f : Key → Bool) (κ : Nat → Key) : wc n f κ ≤ n + 1 := by
  unfold wc
  refine le_trans (Finset.card_filter_le _ _) ?_
  simp

/-- Start of worker `v`'s share of `[b, e)` among `n + 1` workers. -/
def rng (n b e v : Nat) : Nat := b + v * ((e - b) / (n + 1)) + min v ((e - b) % (n + 1))

theorem rng_zero (n b e : Nat) : rng n b e 0 = b := by simp [rng]

theorem rng_last (n b e : Nat) (h : b ≤ e) : rng n b e (n + 1) = e := by
  unfold rng
  have h1 := Nat.div_add_mod (e - b) (n + 1)
  have h2 := Nat.mod_lt (e - b) (show 0 < n + 1 by omega)
  rw [Nat.min_eq_right (by omega)]
  omega

theorem rng_succ (n b e v : Nat) : rng n b e (v + 1) =
    rng n b e v + (e - b) / (n + 1) + (if v < (e - b) % (n + 1) then 1 else 0) := by
  unfold rng
  rw [Nat.add_mul]
  split <;> omega

theorem rng_mono (n b e : Nat) : ∀ u v, u ≤ v → rng n b e u ≤ rng n b e v := by
  intro u v h
  induction v with
  | zero => have : u = 0 := by omega
            rw [this]
  | succ v ih =>
    by_cases hu : u = v + 1
    · rw [hu]
    · refine le_trans (ih (by omega)) ?_
      rw [rng_succ, Nat.add_assoc]; exact Nat.le_add_right _ _

/-- Every task lies in some worker's share. -/
theorem rng_cover (n b e t : Nat) (h : b ≤ e) (h1 : b ≤ t) (h2 : t < e) :
    ∃ u, u ≤ n ∧ rng n b e u ≤ t ∧ t < rng n b e (u + 1) := by
  by_contra hc
  push Not at hc
  have : ∀ u, u ≤ n + 1 → rng n b e u ≤ t := by
    intro u
    induction u with
    | zero => intro _; rw [rng_zero]; exact h1
    | succ u ih => intro hu; exact hc u (by omega) (ih (by omega))
  have := this (n + 1) (le_refl _)
  rw [rng_last n b e h] at this
  omega

/-- Task `t` has been reserved by some worker. -/
def Resv (n b e : Nat) (mb : Nat → Nat) (κ : Nat → Key) (t : Nat) : Prop :=
  if n + 1 < e - b then ∃ u, u ≤ n ∧ rng n b e u ≤ t ∧ t < mb u ∧ t < rng n b e (u + 1)
  else b ≤ t ∧ t < e ∧ t - b ≤ n ∧ (κ (t - b)).decided = true

open Classical in
/-- 1 if `p` holds, else 0. -/
noncomputable def iv (p : Prop) : Nat := if p then 1 else 0

theorem iv_pos {p : Prop} (h : p) : iv p = 1 := by simp [iv, h]
theorem iv_neg {p : Prop} (h : ¬ p) : iv p = 0 := by simp [iv, h]
theorem iv_ite (p : Prop) [Decidable p] : iv p = if p then 1 else 0 := by
  by_cases h : p <;> simp [iv, h]

/-- Invariant of a running `Run(b, e)` numbered `id`. -/
structure XInv (n id b e : Nat) (mb me : Nat → Nat) (κ : Nat → Key)
    (started finished : List (Nat × Nat × Nat)) : Prop where
  x1 : ∀ t, calls id t started + wc n (Key.pendIs t) κ = iv (Resv n b e mb κ t)
  x2 : ∀ t, calls id t finished + wc n (Key.execIs t) κ = calls id t started
  x3 : n + 1 < e - b → ∀ u, u ≤ n → me u = rng n b e (u + 1) ∧ rng n b e u ≤ mb u ∧
    mb u ≤ rng n b e (u + 1) + wc n (Key.passed u) κ
  x4 : n + 1 < e - b → ∀ w, w ≤ n → (κ w).passed w = true → rng n b e (w + 1) ≤ mb w

/-- The closure of run `id` has been called exactly once for each task of `[b, e)`, never for another
task, and all calls have returned. -/
def Complete (id b e : Nat) (s : St) : Prop :=
  ∀ t, calls id t s.started = (if b ≤ t ∧ t < e then 1 else 0) ∧
    calls id t s.finished = calls id t s.started

theorem wc_zero {n : Nat} {f : Key → Bool} {κ : Nat → Key} (h : ∀ w, w ≤ n → f (κ w) = false) :
    wc n f κ = 0 := by
  unfold wc
  rw [Finset.card_eq_zero, Finset.filter_eq_empty_iff]
  intro w hw
  have := Finset.mem_range.mp hw
  rw [h w (by omega)]; simp

/-- When all workers are done, the run is complete. -/
theorem xinv_done {n id b e : Nat} {mb me : Nat → Nat} {κ : Nat → Key}
    {st fi : List (Nat × Nat × Nat)} (h : XInv n id b e mb me κ st fi) (hbe : b ≤ e)
    (hd : ∀ w, w ≤ n → κ w = .done) : ∀ t, calls id t st = (if b ≤ t ∧ t < e then 1 else 0) ∧
      calls id t fi = calls id t st := by
  intro t
  have h1 := h.x1 t
  have h2 := h.x2 t
  rw [wc_zero (fun w hw => by rw [hd w hw]; rfl)] at h1 h2
  refine ⟨?_, by simpa using h2⟩
  rw [Nat.add_zero] at h1
  rw [h1, ← iv_ite]
  congr 1
  unfold Resv
  split
  · next hs =>
    apply propext
    constructor
    · rintro ⟨u, u1, u2, u3, u4⟩
      have a1 := rng_mono n b e 0 u (by omega)
      have a2 := rng_mono n b e (u + 1) (n + 1) (by omega)
      rw [rng_zero] at a1
      rw [rng_last n b e hbe] at a2
      omega
    · rintro ⟨t1, t2⟩
      obtain ⟨u, u1, u2, u3⟩ := rng_cover n b e t hbe t1 t2
      have := h.x4 hs u u1 (by rw [hd u u1]; rfl)
      exact ⟨u, u1, u2, by omega, u3⟩
  · next hs =>
    apply propext
    constructor
    · rintro ⟨t1, t2, _⟩; exact ⟨t1, t2⟩
    · rintro ⟨t1, t2⟩
      exact ⟨t1, t2, by omega, by rw [hd _ (by omega)]; rfl⟩

/-- At the start of a phase nothing is reserved. -/
theorem xinv_start {n id b e : Nat} {mb me : Nat → Nat} {κ : Nat → Key}
    {st fi : List (Nat × Nat × Nat)} (hk : ∀ w, w ≤ n → κ w = .plain)
    (h1 : ∀ t, calls id t st = 0) (h2 : ∀ t, calls id t fi = 0)
    (h3 : n + 1 < e - b → ∀ u, u ≤ n → me u = rng n b e (u + 1) ∧ mb u = rng n b e u) :
    XInv n id b e mb me κ st fi := by
  constructor
  · intro t
    rw [h1, wc_zero (fun w hw => by rw [hk w hw]; rfl), iv_neg]
    unfold Resv
    split
    · next hs =>
      rintro ⟨u, u1, u2, u3, u4⟩
      have := (h3 hs u u1).2
      omega
    · rintro ⟨t1, t2, t3, t4⟩
      rw [hk _ t3] at t4; simp [Key.decided] at t4
  · intro t
    rw [h1, h2, wc_zero (fun w hw => by rw [hk w hw]; rfl)]
  · intro hs u hu
    obtain ⟨a1, a2⟩ := h3 hs u hu
    have := rng_mono n b e u (u + 1) (by omega)
    exact ⟨a1, by omega, by omega⟩
  · intro hs w hw hp
    rw [hk w hw] at hp; simp [Key.passed] at hp

/-! ### The transitions of one worker -/

variable {n id b e : Nat} {mb me : Nat → Nat} {κ : Nat → Key} {st fi : List (Nat × Nat × Nat)}

theorem resv_same {mb : Nat → Nat} {κ κ' : Nat → Key} (hk : n + 1 < e - b ∨ ∀ w, w ≤ n →
    (κ' w).decided = (κ w).decided) (t : Nat) : Resv n b e mb κ' t ↔ Resv n b e mb κ t := by
  unfold Resv
  split
  · rfl
  · rcases hk with hk | hk
    · omega
    · constructor <;> rintro ⟨t1, t2, t3, t4⟩ <;> refine ⟨t1, t2, t3, ?_⟩
      · rw [← hk _ t3]; exact t4
      · rw [hk _ t3]; exact t4

/-- `plain → rem (victims)`, `rem [] → done`: nothing is reserved, at most `passed` grows for victims
that are not in the list. -/
theorem xinv_move (h : XInv n id b e mb me κ st fi) (w : Nat) (hw : w ≤ n) (k : Key)
    (p1 : ∀ t, (κ w).pendIs t = false ∧ k.pendIs t = false)
    (p2 : ∀ t, (κ w).execIs t = false ∧ k.execIs t = false)
    (p3 : n + 1 < e - b → ∀ u, (κ w).passed u = true → k.passed u = true)
    (p4 : n + 1 < e - b → k.passed w = true → (κ w).passed w = true)
    (p5 : n + 1 < e - b ∨ k.decided = (κ w).decided ∨ ¬ b + w < e) :
    XInv n id b e mb me (upd κ w k) st fi := by
  have hr : ∀ t, Resv n b e mb (upd κ w k) t ↔ Resv n b e mb κ t := by
    intro t
    rcases p5 with p5 | p5 | p5
    · exact resv_same (Or.inl p5) t
    · refine resv_same (Or.inr fun w' _ => ?_) t
      rw [upd_apply]; split
      · next h => rw [h, p5]
      · rfl
    · unfold Resv
      split
      · rfl
      · constructor <;> rintro ⟨t1, t2, t3, t4⟩ <;> refine ⟨t1, t2, t3, ?_⟩
        · rwa [upd_apply, if_neg (by omega)] at t4
        · rwa [upd_apply, if_neg (by omega)]
  constructor
  · intro t
    have h1 := h.x1 t
    have h2 := wc_upd n (Key.pendIs t) κ w k hw
    rw [(p1 t).1, (p1 t).2] at h2
    rw [congrArg iv (propext (hr _))]
    rw [← h1]; simp at h2; omega
  · intro t
    have h1 := h.x2 t
    have h2 := wc_upd n (Key.execIs t) κ w k hw
    rw [(p2 t).1, (p2 t).2] at h2
    simp at h2; omega
  · intro hs u hu
    obtain ⟨a1, a2, a3⟩ := h.x3 hs u hu
    refine ⟨a1, a2, ?_⟩
    have h2 := wc_upd n (Key.passed u) κ w k hw
    have h3 := p3 hs u
    by_cases hc : (κ w).passed u = true
    · rw [hc, h3 hc] at h2; simp at h2; omega
    · rw [if_neg hc] at h2
      omega
  · intro hs w' hw' hp
    rw [upd_apply] at hp
    split at hp
    · next hww => subst hww; exact h.x4 hs w' hw' (p4 hs hp)
    · exact h.x4 hs w' hw' hp

/-- Single-task mode: `plain → pend none (b + w)`. -/
theorem xinv_single (h : XInv n id b e mb me κ st fi) (w : Nat) (hw : w ≤ n)
    (hk : κ w = .plain) (hs : ¬ n + 1 < e - b) (ht : b + w < e) :
    XInv n id b e mb me (upd κ w (.pend none (b + w))) st fi := by
  have hr : ∀ t, Resv n b e mb (upd κ w (.pend none (b + w))) t ↔ (Resv n b e mb κ t ∨ t = b + w) := by
    intro t
    unfold Resv
    rw [if_neg hs, if_neg hs]
    constructor
    · rintro ⟨t1, t2, t3, t4⟩
      by_cases htw : t - b = w
      · right; omega
      · left
        rw [upd_apply, if_neg htw] at t4
        exact ⟨t1, t2, t3, t4⟩
    · rintro (⟨t1, t2, t3, t4⟩ | rfl)
      · refine ⟨t1, t2, t3, ?_⟩
        rw [upd_apply]; split
        · rfl
        · exact t4
      · refine ⟨by omega, ht, by omega, ?_⟩
        rw [upd_apply, if_pos (by omega)]; rfl
  have hnr : ¬ Resv n b e mb κ (b + w) := by
    unfold Resv
    rw [if_neg hs]
    rintro ⟨t1, t2, t3, t4⟩
    rw [show b + w - b = w by omega, hk] at t4
    simp [Key.decided] at t4
  constructor
  · intro t
    have h1 := h.x1 t
    have h2 := wc_upd n (Key.pendIs t) κ w (.pend none (b + w)) hw
    rw [hk] at h2
    simp only [Key.pendIs] at h2 ⊢
    rw [congrArg iv (propext (hr t))]
    by_cases htw : t = b + w
    · subst htw
      rw [iv_neg hnr] at h1
      rw [iv_pos (Or.inr rfl)]
      simp at h2 ⊢; omega
    · rw [congrArg iv (propext (or_iff_left htw))]
      rw [← h1]
      have : ¬ (b + w = t) := fun hc => htw hc.symm
      simp [this] at h2; omega
  · intro t
    have h1 := h.x2 t
    have h2 := wc_upd n (Key.execIs t) κ w (.pend none (b + w)) hw
    rw [hk] at h2
    simp [Key.execIs] at h2; omega
  · intro hs'; exact absurd hs' hs
  · intro hs'; exact absurd hs' hs

/-- Stealing: reserve a task of victim `v`. -/
theorem xinv_reserve (h : XInv n id b e mb me κ st fi) (w v : Nat) (vs : List Nat) (hw : w ≤ n)
    (hv : v ≤ n) (hk : κ w = .rem (v :: vs)) (hs : n + 1 < e - b) (hlt : mb v < me v)
    (hfit : e + (n + 1) < 2 ^ 64) (hbe : b ≤ e) :
    XInv n id b e (upd mb v ((mb v + 1) % 2 ^ 64)) me
      (upd κ w (.pend (some (v :: vs)) (mb v))) st fi := by
  obtain ⟨m1, m2, m3⟩ := h.x3 hs v hv
  have hle : rng n b e (v + 1) ≤ e := by
    have := rng_mono n b e (v + 1) (n + 1) (by omega)
    rwa [rng_last n b e hbe] at this
  have hmod : (mb v + 1) % 2 ^ 64 = mb v + 1 := Nat.mod_eq_of_lt (by omega)
  rw [hmod]
  have hr : ∀ t, Resv n b e (upd mb v (mb v + 1)) (upd κ w (.pend (some (v :: vs)) (mb v))) t ↔
      (Resv n b e mb κ t ∨ t = mb v) := by
    intro t
    unfold Resv
    rw [if_pos hs, if_pos hs]
    constructor
    · rintro ⟨u, u1, u2, u3, u4⟩
      rw [upd_apply] at u3
      split at u3
      · next huv =>
        subst huv
        by_cases htm : t = mb u
        · right; exact htm
        · left; exact ⟨u, u1, u2, by omega, u4⟩
      · left; exact ⟨u, u1, u2, u3, u4⟩
    · rintro (⟨u, u1, u2, u3, u4⟩ | rfl)
      · refine ⟨u, u1, u2, ?_, u4⟩
        rw [upd_apply]; split
        · next huv => subst huv; omega
        · exact u3
      · refine ⟨v, hv, m2, ?_, by omega⟩
        rw [upd_apply, if_pos rfl]; omega
  have hnr : ¬ Resv n b e mb κ (mb v) := by
    unfold Resv
    rw [if_pos hs]
    rintro ⟨u, u1, u2, u3, u4⟩
    by_cases huv : u = v
    · subst huv; omega
    · rcases Nat.lt_or_gt_of_ne huv with h' | h'
      · have := rng_mono n b e (u + 1) v (by omega); omega
      · have := rng_mono n b e (v + 1) u (by omega); omega
  constructor
  · intro t
    have h1 := h.x1 t
    have h2 := wc_upd n (Key.pendIs t) κ w (.pend (some (v :: vs)) (mb v)) hw
    rw [hk] at h2
    simp only [Key.pendIs] at h2 ⊢
    rw [congrArg iv (propext (hr t))]
    by_cases htw : t = mb v
    · subst htw
      rw [iv_neg hnr] at h1
      rw [iv_pos (Or.inr rfl)]
      simp at h2 ⊢; omega
    · rw [congrArg iv (propext (or_iff_left htw))]
      rw [← h1]
      have : ¬ (mb v = t) := fun hc => htw hc.symm
      simp [this] at h2; omega
  · intro t
    have h1 := h.x2 t
    have h2 := wc_upd n (Key.execIs t) κ w (.pend (some (v :: vs)) (mb v)) hw
    rw [hk] at h2
    simp [Key.execIs] at h2; omega
  · intro _ u hu
    obtain ⟨a1, a2, a3⟩ := h.x3 hs u hu
    have h2 := wc_upd n (Key.passed u) κ w (.pend (some (v :: vs)) (mb v)) hw
    rw [hk, show (Key.rem (v :: vs)).passed u = (Key.pend (some (v :: vs)) (mb v)).passed u from rfl] at h2
    have h2 := Nat.add_right_cancel h2
    refine ⟨a1, ?_, ?_⟩
    · rw [upd_apply]; split
      · next huv => subst huv; omega
      · exact a2
    · rw [upd_apply]; split
      · next huv => subst huv; omega
      · omega
  · intro _ w' hw' hp
    have hp' : (κ w').passed w' = true := by
      rw [upd_apply] at hp
      split at hp
      · next hww => subst hww; rw [hk]; exact hp
      · exact hp
    have := h.x4 hs w' hw' hp'
    rw [upd_apply]; split
    · next hwv => subst hwv; omega
    · exact this

/-- Stealing: victim `v` is exhausted. -/
theorem xinv_skip (h : XInv n id b e mb me κ st fi) (w v : Nat) (vs : List Nat) (hw : w ≤ n)
    (hv : v ≤ n) (hk : κ w = .rem (v :: vs)) (hs : n + 1 < e - b) (hge : me v ≤ mb v)
    (hnd : v ∉ vs) (hfit : e + (n + 1) < 2 ^ 64) (hbe : b ≤ e) :
    XInv n id b e (upd mb v ((mb v + 1) % 2 ^ 64)) me (upd κ w (.rem vs)) st fi := by
  obtain ⟨m1, m2, m3⟩ := h.x3 hs v hv
  have hle : rng n b e (v + 1) ≤ e := by
    have := rng_mono n b e (v + 1) (n + 1) (by omega)
    rwa [rng_last n b e hbe] at this
  have hpv := wc_upd n (Key.passed v) κ w (.rem vs) hw
  rw [hk] at hpv
  have hpv' : wc n (Key.passed v) (upd κ w (.rem vs)) = wc n (Key.passed v) κ + 1 := by
    simpa [Key.passed, hnd] using hpv
  have hwl := wc_le n (Key.passed v) (upd κ w (.rem vs))
  have hmod : (mb v + 1) % 2 ^ 64 = mb v + 1 := Nat.mod_eq_of_lt (by omega)
  rw [hmod]
  have hr : ∀ t, Resv n b e (upd mb v (mb v + 1)) (upd κ w (.rem vs)) t ↔ Resv n b e mb κ t := by
    intro t
    unfold Resv
    rw [if_pos hs, if_pos hs]
    constructor
    · rintro ⟨u, u1, u2, u3, u4⟩
      rw [upd_apply] at u3
      split at u3
      · next huv => subst huv; exact ⟨u, u1, u2, by omega, u4⟩
      · exact ⟨u, u1, u2, u3, u4⟩
    · rintro ⟨u, u1, u2, u3, u4⟩
      refine ⟨u, u1, u2, ?_, u4⟩
      rw [upd_apply]; split
      · next huv => subst huv; omega
      · exact u3
  constructor
  · intro t
    have h1 := h.x1 t
    have h2 := wc_upd n (Key.pendIs t) κ w (.rem vs) hw
    rw [hk] at h2
    rw [congrArg iv (propext (hr _))]
    rw [← h1]
    simp [Key.pendIs] at h2; omega
  · intro t
    have h1 := h.x2 t
    have h2 := wc_upd n (Key.execIs t) κ w (.rem vs) hw
    rw [hk] at h2
    simp [Key.execIs] at h2; omega
  · intro _ u hu
    obtain ⟨a1, a2, a3⟩ := h.x3 hs u hu
    refine ⟨a1, ?_, ?_⟩
    · rw [upd_apply]; split
      · next huv => subst huv; omega
      · exact a2
    · rw [upd_apply]; split
      · next huv => subst huv; omega
      · next huv =>
        have h2 := wc_upd n (Key.passed u) κ w (.rem vs) hw
        rw [hk] at h2
        have e1 : (Key.rem (v :: vs)).passed u = (Key.rem vs).passed u := by
          simp [Key.passed, huv]
        rw [e1] at h2
        omega
  · intro _ w' hw' hp
    rw [upd_apply] at hp ⊢
    split at hp
    · next hww =>
      subst hww
      split
      · next hwv => subst hwv; omega
      · next hwv =>
        refine h.x4 hs w' hw' ?_
        rw [hk]
        simpa [Key.passed, hwv] using hp
    · have := h.x4 hs w' hw' hp
      split
      · next hwv => subst hwv; omega
      · exact this

/-- A call begins. -/
theorem xinv_call (h : XInv n id b e mb me κ st fi) (w : Nat) (hw : w ≤ n) (k : Option (List Nat))
    (t : Nat) (hk : κ w = .pend k t) :
    XInv n id b e mb me (upd κ w (.exec k t)) ((id, t, w) :: st) fi := by
  have hd : (Key.exec k t).decided = (Key.pend k t).decided := by cases k <;> rfl
  have hps : ∀ u, (Key.exec k t).passed u = (Key.pend k t).passed u := by intro u; cases k <;> rfl
  have hr : ∀ t', Resv n b e mb (upd κ w (.exec k t)) t' ↔ Resv n b e mb κ t' := by
    intro t'
    refine resv_same (Or.inr fun w' _ => ?_) t'
    rw [upd_apply]; split
    · next h => rw [h, hk, hd]
    · rfl
  constructor
  · intro t'
    have h1 := h.x1 t'
    have h2 := wc_upd n (Key.pendIs t') κ w (.exec k t) hw
    rw [hk] at h2
    rw [congrArg iv (propext (hr _))]
    rw [← h1, calls_cons]
    simp only [Key.pendIs, beq_iff_eq, true_and] at h2 ⊢
    simp at h2
    omega
  · intro t'
    have h1 := h.x2 t'
    have h2 := wc_upd n (Key.execIs t') κ w (.exec k t) hw
    rw [hk] at h2
    rw [calls_cons]
    simp only [Key.execIs, beq_iff_eq, true_and] at h2 ⊢
    simp at h2
    omega
  · intro hs u hu
    obtain ⟨a1, a2, a3⟩ := h.x3 hs u hu
    have h2 := wc_upd n (Key.passed u) κ w (.exec k t) hw
    rw [hk, hps u] at h2
    exact ⟨a1, a2, by omega⟩
  · intro hs w' hw' hp
    refine h.x4 hs w' hw' ?_
    rw [upd_apply] at hp
    split at hp
    · next hww => subst hww; rw [hk, ← hps]; exact hp
    · exact hp

/-- A call ends. -/
theorem xinv_ret (h : XInv n id b e mb me κ st fi) (w : Nat) (hw : w ≤ n) (k : Option (List Nat))
    (t : Nat) (hk : κ w = .exec k t) (k' : Key)
    (hk' : k' = match k with | none => .done | some vs => .rem vs)
    (hm : k = none → ¬ n + 1 < e - b) :
    XInv n id b e mb me (upd κ w k') st ((id, t, w) :: fi) := by
  have hd : n + 1 < e - b ∨ k'.decided = (Key.exec k t).decided := by
    cases k with
    | none => right; subst hk'; rfl
    | some vs => subst hk'; right; rfl
  have hps : n + 1 < e - b → ∀ u, k'.passed u = (Key.exec k t).passed u := by
    intro hs u
    cases k with
    | none => exact absurd hs (hm rfl)
    | some vs => subst hk'; rfl
  have hpe : ∀ t, k'.pendIs t = false ∧ k'.execIs t = false := by
    intro t; cases k <;> subst hk' <;> exact ⟨rfl, rfl⟩
  have hr : ∀ t', Resv n b e mb (upd κ w k') t' ↔ Resv n b e mb κ t' := by
    intro t'
    rcases hd with hd | hd
    · exact resv_same (Or.inl hd) t'
    · refine resv_same (Or.inr fun w' _ => ?_) t'
      rw [upd_apply]; split
      · next h => rw [h, hk, hd]
      · rfl
  constructor
  · intro t'
    have h1 := h.x1 t'
    have h2 := wc_upd n (Key.pendIs t') κ w k' hw
    rw [hk, (hpe t').1] at h2
    rw [congrArg iv (propext (hr _))]
    rw [← h1]
    simp [Key.pendIs] at h2
    omega
  · intro t'
    have h1 := h.x2 t'
    have h2 := wc_upd n (Key.execIs t') κ w k' hw
    rw [hk, (hpe t').2] at h2
    rw [calls_cons]
    simp only [Key.execIs, beq_iff_eq, true_and] at h2 ⊢
    simp at h2
    omega
  · intro hs u hu
    obtain ⟨a1, a2, a3⟩ := h.x3 hs u hu
    have h2 := wc_upd n (Key.passed u) κ w k' hw
    rw [hk, hps hs u] at h2
    exact ⟨a1, a2, by omega⟩
  · intro hs w' hw' hp
    refine h.x4 hs w' hw' ?_
    rw [upd_apply] at hp
    split at hp
    · next hww => subst hww; rw [hk, ← hps hs]; exact hp
    · exact hp

end Pool
end Hwy
