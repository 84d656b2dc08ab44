import Verif.TargetsLemmas
import Mathlib.Tactic.IntervalCases
import Mathlib.Tactic.Tauto

/-!
# C34: dynamic dispatch runs the best compiled target that is supported and enabled
-/

namespace Hwy
namespace Tgt

/-! ## Specification -/

/-- The bits of `HWY_TARGETS` that belong to each architecture, per the comments in detect_targets.h. -/
def bitRange : Arch → Nat × Nat
  | .x86 => (0, 14) | .arm => (15, 29) | .riscv => (30, 38) | .loongarch => (39, 41)
  | .ppc => (43, 51) | .wasm => (52, 60)

/-- The targets that exist for each architecture (detect_targets.h; 3 = AVX10_2_512, 4 = AVX3_SPR, 5 = AVX10_2,
6 = AVX3_ZEN4, 7 = AVX3_DL, 8 = AVX3, 9 = AVX2, 11 = SSE4, 12 = SSSE3, 14 = SSE2, 18 = SVE2_128, 19 = SVE_256,
23 = SVE2, 24 = SVE, 26 = NEON_BF16, 28 = NEON, 29 = NEON_WITHOUT_AES, 37 = RVV, 40 = LASX, 41 = LSX, 47 = PPC10,
48 = PPC9, 49 = PPC8, 50 = Z15, 51 = Z14, 58 = WASM_EMU256, 59 = WASM). -/
def targetsOf : Arch → List Nat
  | .x86 => [3, 4, 5, 6, 7, 8, 9, 11, 12, 14]
  | .arm => [18, 19, 23, 24, 26, 28, 29]
  | .riscv => [37]
  | .loongarch => [40, 41]
  | .ppc => [47, 48, 49, 50, 51]
  | .wasm => [58, 59]

def InArch (a : Arch) (b : Nat) : Prop := (bitRange a).1 ≤ b ∧ b ≤ (bitRange a).2

/-- A translation unit is compiled only for targets that exist, and for its static target. -/
structure Ok (a : Arch) (u : Unit') : Prop where
  exist : ∀ b, InArch a b → u.compiled.getLsbD b = true → b ∈ targetsOf a
  static : u.compiled.getLsbD u.static = true

/-- The target used when none of the architecture's targets can be: emulation (bit 61), else scalar (bit 62),
else the static target. -/
def IsFallback (u : Unit') (b : Nat) : Prop :=
  (b = 61 ∧ u.compiled.getLsbD 61 = true) ∨
  (b = 62 ∧ u.compiled.getLsbD 62 = true ∧ u.compiled.getLsbD 61 = false) ∨
  (b = u.static ∧ u.compiled.getLsbD 62 = false ∧ u.compiled.getLsbD 61 = false)

/-- `b` is the best (lowest-numbered) target of the architecture that is both compiled in `u` and in `S`, or the
fallback when there is none. -/
def IsBest (a : Arch) (u : Unit') (S : Mask) (b : Nat) : Prop :=
  (InArch a b ∧ u.compiled.getLsbD b = true ∧ S.getLsbD b = true ∧
    ∀ c, c < b → InArch a c → ¬ (u.compiled.getLsbD c = true ∧ S.getLsbD c = true)) ∨
  ((∀ c, InArch a c → ¬ (u.compiled.getLsbD c = true ∧ S.getLsbD c = true)) ∧ IsFallback u b)

/-- What a program can know about the dispatcher: the mocked set, the enabled set, and the set that the first
dispatch since the last reset settled on. -/
structure Ghost where
  test : Mask
  enabled : Mask
  cached : Option Mask

def Ghost.init : Ghost := ⟨0, ~~~(1#64 <<< 63), none⟩

/-- Supported and enabled targets; the static target of the library if none. -/
def Ghost.effective (lib : Nat) (det : Mask) (g : Ghost) : Mask :=
  let s := (if g.test = 0 then det else g.test) &&& g.enabled
  if s = 0 then 1#64 <<< lib else s

def Ghost.step (lib : Nat) (g : Ghost) : Op → Ghost
  | .disable t => { g with enabled := ~~~t, cached := none }
  | .setTest t => { g with test := t, cached := none }
  | .deInit => { g with cached := none }
  | .supported det => if g.test = 0 then { g with cached := some det } else g
  | .dispatch _ det => { g with cached := some (g.cached.getD (g.effective lib det)) }

/-- The result of a call: dispatching calls a compiled best target for the settled set. -/
def ResultOk (a : Arch) (lib : Nat) (g : Ghost) (r : Option Nat) : Op → Prop
  | .dispatch u det => ∃ b S, r = some b ∧ (g.step lib (.dispatch u det)).cached = some S ∧
      u.compiled.getLsbD b = true ∧ IsBest a u S b
  | _ => r = none

/-- `ResultOk` for each call of a history. -/
def Meets (a : Arch) (lib : Nat) : List Op → Ghost → List (Option Nat) → Prop
  | [], _, rs => rs = []
  | op :: ops, g, rs => ∃ r rs', rs = r :: rs' ∧ Meets a lib ops (g.step lib op) rs' ∧ ResultOk a lib g r op

def OkOp (a : Arch) : Op → Prop
  | .dispatch u _ => Ok a u
  | _ => True

/-! ## Proofs -/

theorem isFallback_fallback (u : Unit') : IsFallback u (fallback u) := by
  unfold IsFallback fallback EMU128 SCALAR
  cases h1 : u.compiled.getLsbD 61 <;> cases h2 : u.compiled.getLsbD 62 <;> simp

theorem isFallback_compiled {a : Arch} {u : Unit'} (h : Ok a u) {b : Nat} (hb : IsFallback u b) :
    u.compiled.getLsbD b = true := by
  rcases hb with ⟨rfl, h⟩ | ⟨rfl, h, _⟩ | ⟨rfl, _⟩
  · exact h
  · exact h
  · exact Ok.static ‹_›

theorem isBest_compiled {a : Arch} {u : Unit'} (h : Ok a u) {S : Mask} {b : Nat} (hb : IsBest a u S b) :
    u.compiled.getLsbD b = true := by
  rcases hb with ⟨_, h, _⟩ | ⟨_, hf⟩
  · exact h
  · exact isFallback_compiled h hf

theorem range_eq (a : Arch) : bitRange a = (highest a + 1 - maxDyn a, highest a + 1 - maxDyn a + maxDyn a - 1) := by
  cases a <;> rfl

theorem maxDyn_pos (a : Arch) : 0 < maxDyn a := by cases a <;> decide

theorem chooseList_target (a : Arch) : ∀ b ∈ targetsOf a,
    (chooseList a)[b - (highest a + 1 - maxDyn a)]? = some (some b) := by
  cases a <;> decide

/-- **C34, the table links only what was compiled.**  A dispatch table names the function of target `b` exactly when
this translation unit was compiled for `b` and `b` is a dynamic target of this architecture or the fallback.  (A table
naming a target that was not compiled would not link.) -/
theorem C34_table (a : Arch) (u : Unit') (h : Ok a u) (b : Nat) :
    Entry.fn b ∈ table a u ↔ u.compiled.getLsbD b = true ∧ (b ∈ targetsOf a ∨ IsFallback u b) := by
  have hl : ∀ b, some b ∈ chooseList a → b ∈ targetsOf a := by
    have h0 : ∀ o ∈ chooseList a, ∀ c ∈ o, c ∈ targetsOf a := by cases a <;> decide
    exact fun b hb => h0 _ hb b rfl
  unfold table
  simp only [List.mem_append, List.mem_singleton, List.mem_map, reduceCtorEq, false_or, Entry.fn.injEq]
  constructor
  · rintro (⟨o, ho, e⟩ | e)
    · cases o with
      | none => simp [choose] at e
      | some c =>
        unfold choose at e
        simp only at e
        split at e
        · rename_i hc
          cases e
          exact ⟨hc, Or.inl (hl _ ho)⟩
        · cases e
    · subst e
      exact ⟨isFallback_compiled h (isFallback_fallback u), Or.inr (isFallback_fallback u)⟩
  · rintro ⟨hc, hb | hb⟩
    · left
      have := chooseList_target a b hb
      refine ⟨some b, List.mem_of_getElem? this, ?_⟩
      simp [choose, hc]
    · right
      have h2 := isFallback_fallback u
      unfold IsFallback at hb h2
      grind

/-- After `Update(S)`, the table entry chosen is the best target. -/
theorem entry_update (a : Arch) (u : Unit') (S : Mask) (hu : Ok a u) :
    ∃ i b, getIndex a u (updateMask a S) = .ok i ∧ (table a u)[i]? = some (.fn b) ∧ IsBest a u S b := by
  have hbit := getLsbD_update a u S
  set m := updateMask a S &&& maskTargets a u with hm
  have hne : m ≠ 0 := by
    intro h
    have := hbit (maxDyn a + 1)
    rw [h] at this
    simp at this
  obtain ⟨hlt, hset, hlow⟩ := ctz_spec m hne
  have hidx : getIndex a u (updateMask a S) = .ok (ctz m) := by
    unfold getIndex num0BitsBelowLS1Bit_Nonzero64
    rw [← hm, if_neg hne]
  have hR := range_eq a
  have hpos := maxDyn_pos a
  generalize hlo : highest a + 1 - maxDyn a = lo at *
  -- no lower arch bit is available
  have hnone : ∀ c, InArch a c → c - lo + 1 < ctz m → ¬ (u.compiled.getLsbD c = true ∧ S.getLsbD c = true) := by
    rintro c hc hlt' ⟨h1, h2⟩
    unfold InArch at hc
    rw [hR] at hc
    simp only at hc
    have := hlow _ hlt'
    rw [hbit] at this
    have e : c - lo + 1 - 1 + lo = c := by omega
    rw [e] at this
    have e2 : c - lo + 1 ≤ maxDyn a := by omega
    simp [h1, h2, e2] at this
  rw [hbit] at hset
  by_cases hlast : ctz m = maxDyn a + 1
  · refine ⟨_, fallback u, hidx, by rw [hlast]; exact table_last a u, Or.inr ⟨?_, isFallback_fallback u⟩⟩
    intro c hc
    apply hnone c hc
    unfold InArch at hc
    rw [hR] at hc
    simp only at hc
    omega
  · simp [hlast] at hset
    obtain ⟨⟨h1, h2⟩, h3, h4⟩ := hset
    have hin : InArch a (ctz m - 1 + lo) := by
      unfold InArch; rw [hR]; simp only; omega
    have hmem := hu.exist _ hin h4
    have hcl := chooseList_target a _ hmem
    rw [hlo] at hcl
    have e : ctz m - 1 + lo - lo = ctz m - 1 := by omega
    rw [e] at hcl
    have ht := table_mid a u (ctz m - 1) (by omega) _ hcl
    have e2 : ctz m - 1 + 1 = ctz m := by omega
    rw [e2] at ht
    refine ⟨_, ctz m - 1 + lo, hidx, ?_, Or.inl ⟨hin, h4, h3, ?_⟩⟩
    · rw [ht]; simp [choose, h4]
    · intro c hc hci
      apply hnone c hci
      have := hci.1
      rw [hR] at this
      simp only at this
      omega

/-- The states reached agree with the ghost. -/
structure Agree (a : Arch) (g : Ghost) (s : St) : Prop where
  test : s.test = g.test
  sup : s.supMask = g.enabled
  mask : s.mask = match g.cached with | none => 1 | some S => updateMask a S

theorem ok_bind' {α β : Type} (a : α) (f : α → M β) : ((Except.ok a : M α) >>= f) = f a := rfl

theorem supportedTargets_snd (a : Arch) (lib : Nat) (det : Mask) (g : Ghost) (s : St) (h : Agree a g s) :
    (supportedTargets a lib det s).2 = g.effective lib det ∧
    (supportedTargets a lib det s).1 = (if g.test = 0 then { s with mask := updateMask a det } else s) := by
  unfold supportedTargets Ghost.effective
  by_cases h0 : g.test = 0
  · have h0' : s.test = 0 := h.test.trans h0
    simp only [h0, h0', if_true]
    rw [h.sup]
    simp
  · have h0' : s.test ≠ 0 := by rw [h.test]; exact h0
    simp only [h0, h0', if_false]
    rw [h.sup, h.test]
    simp

theorem dispatch_spec (a : Arch) (lib : Nat) (u : Unit') (det : Mask) (g : Ghost) (s : St) (h : Agree a g s)
    (hu : Ok a u) : ∃ s' b, dispatch a lib u det s = .ok (s', b) ∧
      Agree a (g.step lib (.dispatch u det)) s' ∧ IsBest a u (g.cached.getD (g.effective lib det)) b := by
  cases hc : g.cached with
  | some S =>
    have hmask := h.mask
    rw [hc] at hmask
    simp only at hmask
    obtain ⟨i, b, h1, h2, h3⟩ := entry_update a u S hu
    refine ⟨s, b, ?_, ⟨h.test, h.sup, ?_⟩, by simpa using h3⟩
    · unfold dispatch
      rw [hmask, h1, ok_bind', readAt_some _ _ _ h2, ok_bind']
      rfl
    · simp [Ghost.step, hc, hmask]
  | none =>
    have hmask := h.mask
    rw [hc] at hmask
    simp only at hmask
    obtain ⟨e1, e2⟩ := supportedTargets_snd a lib det g s h
    obtain ⟨i, b, h1, h2, h3⟩ := entry_update a u (g.effective lib det) hu
    refine ⟨{ (supportedTargets a lib det s).1 with mask := updateMask a (g.effective lib det) }, b, ?_, ⟨?_, ?_, ?_⟩,
      by simpa using h3⟩
    · unfold dispatch
      rw [hmask, getIndex_one, ok_bind', readAt_some _ _ _ (table_zero a u), ok_bind']
      simp only
      unfold chooseAndCall
      have es : supportedTargets a lib det s = ((supportedTargets a lib det s).1, g.effective lib det) := by
        rw [← e1]
      rw [es]
      simp only
      rw [h1, ok_bind', readAt_some _ _ _ h2, ok_bind']
      rfl
    · rw [e2]; split <;> exact h.test
    · rw [e2]; split <;> exact h.sup
    · simp [Ghost.step, hc]

theorem step_agree (a : Arch) (lib : Nat) (op : Op) (g : Ghost) (s : St) (h : Agree a g s) (hop : OkOp a op) :
    ∃ s' r, op.run a lib s = .ok (s', r) ∧ Agree a (g.step lib op) s' ∧ ResultOk a lib g r op := by
  cases op with
  | disable t => exact ⟨_, _, rfl, ⟨h.test, rfl, rfl⟩, rfl⟩
  | setTest t => exact ⟨_, _, rfl, ⟨rfl, h.sup, rfl⟩, rfl⟩
  | deInit => exact ⟨_, _, rfl, ⟨h.test, h.sup, rfl⟩, rfl⟩
  | supported det =>
    refine ⟨_, _, rfl, ?_, rfl⟩
    obtain ⟨_, e2⟩ := supportedTargets_snd a lib det g s h
    rw [e2]
    simp only [Ghost.step]
    split
    · exact ⟨h.test, h.sup, rfl⟩
    · exact h
  | dispatch u det =>
    obtain ⟨s', b, h1, h2, h3⟩ := dispatch_spec a lib u det g s h hop
    refine ⟨s', some b, ?_, h2, b, _, rfl, rfl, isBest_compiled hop h3, h3⟩
    have e : (Op.dispatch u det).run a lib s = (Tgt.dispatch a lib u det s >>= fun p => .ok (p.1, some p.2)) := rfl
    rw [e, h1, ok_bind']

theorem run_spec (a : Arch) (lib : Nat) : ∀ (ops : List Op) (g : Ghost) (s : St), Agree a g s →
    (∀ op ∈ ops, OkOp a op) → ∃ s' rs, run a lib ops s = .ok (s', rs) ∧ Meets a lib ops g rs ∧
      Agree a (ops.foldl (Ghost.step lib) g) s'
  | [], g, s, h, _ => ⟨s, [], rfl, rfl, h⟩
  | op :: ops, g, s, h, hops => by
    obtain ⟨s1, r, h1, h2, h3⟩ := step_agree a lib op g s h (hops op (by simp))
    obtain ⟨s2, rs, h4, h5, h6⟩ := run_spec a lib ops _ s1 h2 (fun o ho => hops o (by simp [ho]))
    refine ⟨s2, r :: rs, ?_, ⟨r, rs, rfl, h5, h3⟩, h6⟩
    unfold run
    rw [h1, ok_bind']
    simp only
    rw [h4, ok_bind']
    rfl

theorem agree_init (a : Arch) : Agree a Ghost.init init := ⟨rfl, by decide, rfl⟩

/-- C34.  For every architecture, every set of compiled targets per translation unit, every detection result at each
call, and every history of `DisableTargets`, `SetSupportedTargetsForTest`, `DeInit`, `SupportedTargets` and
dispatches: no dispatch faults (in particular none calls a null entry or recurses), and each calls a target compiled
in its translation unit which is the best among those the dispatcher settled on. -/
theorem C34_dispatch (a : Arch) (lib : Nat) (ops : List Op) (hok : ∀ op ∈ ops, OkOp a op) :
    ∃ s rs, run a lib ops init = .ok (s, rs) ∧ Meets a lib ops Ghost.init rs := by
  obtain ⟨s, rs, h1, h2, _⟩ := run_spec a lib ops Ghost.init init (agree_init a) hok
  exact ⟨s, rs, h1, h2⟩

/-- The best target is unique. -/
theorem C34_best_unique (a : Arch) (u : Unit') (S : Mask) (b c : Nat) (hb : IsBest a u S b) (hc : IsBest a u S c) :
    b = c := by
  rcases hb with ⟨i1, c1, s1, m1⟩ | ⟨n1, f1⟩ <;> rcases hc with ⟨i2, c2, s2, m2⟩ | ⟨n2, f2⟩
  · rcases Nat.lt_trichotomy b c with h | h | h
    · exact absurd ⟨c1, s1⟩ (m2 b h i1)
    · exact h
    · exact absurd ⟨c2, s2⟩ (m1 c h i2)
  · exact absurd ⟨c1, s1⟩ (n2 b i1)
  · exact absurd ⟨c2, s2⟩ (n1 c i2)
  · rcases f1 with ⟨rfl, x1⟩ | ⟨rfl, x1, y1⟩ | ⟨rfl, x1, y1⟩ <;>
      rcases f2 with ⟨rfl, x2⟩ | ⟨rfl, x2, y2⟩ | ⟨rfl, x2, y2⟩ <;> simp_all

/-- The argument of the last `DisableTargets`; initially only the unused sign bit is off. -/
def lastDisabled (ops : List Op) : Mask :=
  ops.foldl (fun d op => match op with | .disable t => t | _ => d) (1#64 <<< 63)

theorem enabled_eq (lib : Nat) (ops : List Op) : ∀ (g : Ghost) (d : Mask), g.enabled = ~~~d →
    (ops.foldl (Ghost.step lib) g).enabled =
      ~~~(ops.foldl (fun d op => match op with | .disable t => t | _ => d) d) := by
  induction ops with
  | nil => intro g d h; exact h
  | cons op ops ih =>
    intro g d h
    simp only [List.foldl_cons]
    apply ih
    cases op <;> simp only [Ghost.step]
    case supported => split <;> exact h
    all_goals exact h

/-- Without bare `SupportedTargets()` calls, what is settled on is enabled. -/
def Settled (lib : Nat) (g : Ghost) : Prop :=
  ∀ S, g.cached = some S → S = 1#64 <<< lib ∨ S &&& g.enabled = S

theorem effective_settled (lib : Nat) (det : Mask) (g : Ghost) :
    g.effective lib det = 1#64 <<< lib ∨ g.effective lib det &&& g.enabled = g.effective lib det := by
  unfold Ghost.effective
  generalize (if g.test = 0 then det else g.test) = t
  simp only
  by_cases h : t &&& g.enabled = 0
  · rw [if_pos h]; exact Or.inl rfl
  · rw [if_neg h]; right; rw [BitVec.and_assoc, BitVec.and_self]

theorem settled_step (lib : Nat) (op : Op) (g : Ghost) (h : Settled lib g) (hop : ∀ d, op ≠ .supported d) :
    Settled lib (g.step lib op) := by
  cases op with
  | supported d => exact absurd rfl (hop d)
  | dispatch u det =>
    intro S hS
    simp only [Ghost.step, Option.some.injEq] at hS ⊢
    cases hc : g.cached with
    | none => rw [hc] at hS; simp only [Option.getD_none] at hS; rw [← hS]; exact effective_settled lib det g
    | some S' => rw [hc] at hS; simp only [Option.getD_some] at hS; rw [← hS]; exact h _ hc
  | _ => intro S hS; simp [Ghost.step] at hS

theorem settled_foldl (lib : Nat) (ops : List Op) : ∀ (g : Ghost), Settled lib g →
    (∀ op ∈ ops, ∀ d, op ≠ .supported d) → Settled lib (ops.foldl (Ghost.step lib) g) := by
  induction ops with
  | nil => intro g h _; exact h
  | cons op ops ih =>
    intro g h hops
    exact ih _ (settled_step lib op g h (hops op (by simp))) (fun o ho => hops o (by simp [ho]))

theorem run_append (a : Arch) (lib : Nat) : ∀ (xs ys : List Op) (s s1 : St) (rs : List (Option Nat)),
    run a lib xs s = .ok (s1, rs) →
    run a lib (xs ++ ys) s = (run a lib ys s1 >>= fun p => .ok (p.1, rs ++ p.2))
  | [], ys, s, s1, rs, h => by
    cases h
    simp only [List.nil_append]
    cases run a lib ys s <;> rfl
  | x :: xs, ys, s, s1, rs, h => by
    have e : ∀ zs s, run a lib (x :: zs) s =
      (x.run a lib s >>= fun p => run a lib zs p.1 >>= fun q => .ok (q.1, p.2 :: q.2)) := fun _ _ => rfl
    rw [List.cons_append, e]
    rw [e] at h
    cases hx : x.run a lib s with
    | error e => rw [hx] at h; cases h
    | ok p =>
      rw [hx, ok_bind'] at h
      rw [ok_bind']
      cases hr : run a lib xs p.1 with
      | error e => rw [hr] at h; cases h
      | ok q =>
        rw [hr, ok_bind'] at h
        cases h
        rw [run_append a lib xs ys p.1 q.1 q.2 hr]
        cases run a lib ys q.1 <;> rfl

/-- C34.  If the program never calls `SupportedTargets()` itself, a dispatch after any history runs a target that the
last `DisableTargets` left enabled, unless it is the fallback or the static target of the library. -/
theorem C34_never_disabled (a : Arch) (lib : Nat) (ops : List Op) (u : Unit') (det : Mask)
    (hok : ∀ op ∈ ops, OkOp a op) (hu : Ok a u) (hns : ∀ op ∈ ops, ∀ d, op ≠ .supported d) :
    ∃ s rs b, run a lib (ops ++ [.dispatch u det]) init = .ok (s, rs ++ [some b]) ∧
      u.compiled.getLsbD b = true ∧
      ((lastDisabled ops).getLsbD b = false ∨ IsFallback u b ∨ b = lib) := by
  obtain ⟨s1, rs, h1, _, h3⟩ := run_spec a lib ops Ghost.init init (agree_init a) hok
  obtain ⟨s2, b, h4, _, h6⟩ := dispatch_spec a lib u det _ s1 h3 hu
  refine ⟨s2, rs, b, ?_, isBest_compiled hu h6, ?_⟩
  · rw [run_append a lib ops _ init s1 rs h1]
    have e : run a lib [.dispatch u det] s1 = .ok (s2, [some b]) := by
      have e1 : run a lib [.dispatch u det] s1 =
          (Tgt.dispatch a lib u det s1 >>= fun p => .ok (p.1, some p.2)) >>= fun p => .ok (p.1, [p.2]) := rfl
      rw [e1, h4, ok_bind', ok_bind']
    rw [e, ok_bind']
  · have hset := settled_foldl lib ops Ghost.init (by intro S hS; simp [Ghost.init] at hS) hns
    have hen := enabled_eq lib ops Ghost.init (1#64 <<< 63) rfl
    set g := ops.foldl (Ghost.step lib) Ghost.init with hg
    have key : g.cached.getD (g.effective lib det) = 1#64 <<< lib ∨
        g.cached.getD (g.effective lib det) &&& g.enabled = g.cached.getD (g.effective lib det) := by
      cases hc : g.cached with
      | none => exact effective_settled lib det g
      | some S => exact hset S hc
    rcases h6 with ⟨_, _, hS, _⟩ | ⟨_, hf⟩
    · rcases key with key | key
      · right; right
        rw [key, BitVec.getLsbD_shiftLeft] at hS
        simp [BitVec.getLsbD_one] at hS
        omega
      · left
        rw [← key, BitVec.getLsbD_and, hen] at hS
        have hb := BitVec.lt_of_getLsbD (x := g.cached.getD (g.effective lib det)) (i := b) (by
          simp only [Bool.and_eq_true] at hS; exact hS.1)
        rw [BitVec.getLsbD_not] at hS
        simp only [Bool.and_eq_true, Bool.not_eq_true'] at hS
        exact hS.2.2
    · exact Or.inr (Or.inl hf)

/-- Finding: `DisableTargets(AVX3)` followed by a call of `SupportedTargets()` (as HWY_VISIT_TARGETS-style code or
`GetChosenTarget().Update`-free queries do) re-enables AVX3 for all later dispatches, because `SupportedTargets()`
itself initialises the chosen target with the unmasked detection result. -/
theorem C34_finding_supported_reenables :
    (run .x86 14 [.disable (1#64 <<< 8), .supported 0x5B00#64, .dispatch ⟨0x5B00#64, 14⟩ 0x5B00#64] init).toOption.map
      (·.2) = some [none, none, some 8] ∧
    (run .x86 14 [.disable (1#64 <<< 8), .dispatch ⟨0x5B00#64, 14⟩ 0x5B00#64] init).toOption.map
      (·.2) = some [none, some 9] := by
  constructor <;> decide

/-- Each `DisableTargets` replaces the previous one: disabling AVX3, then AVX2, runs AVX3. -/
theorem C34_disable_replaces :
    (run .x86 14 [.disable (1#64 <<< 8), .disable (1#64 <<< 9), .dispatch ⟨0x5B00#64, 14⟩ 0x5B00#64] init).toOption.map
      (·.2) = some [none, none, some 8] := by
  decide

/-- Non-vacuity: a unit compiled for AVX3, AVX2, SSE4, SSSE3 and SSE2. -/
theorem ok_example : Ok .x86 ⟨0x5B00#64, 14⟩ := by
  refine ⟨?_, by decide⟩
  intro b hb
  have h2 : b < 15 := by have : b ≤ 14 := hb.2; omega
  have h : ∀ b < 15, (0x5B00#64).getLsbD b = true → b ∈ targetsOf .x86 := by decide
  exact h b h2

/-! ## Concurrent dispatch -/

/-- The sets a dispatch may see: some thread's detection result or some thread's supported and enabled set. -/
def Env.Seen (e : Env) (S : Mask) : Prop :=
  (∃ t, S = e.ret t) ∨ (e.test = 0 ∧ ∃ t, S = e.det t)

/-- Supported and enabled targets on a thread; the static target of the library if none. -/
def Env.enabledOn (e : Env) (t : Nat) : Mask :=
  let s := (if e.test = 0 then e.det t else e.test) &&& e.supMask
  if s = 0 then 1#64 <<< e.lib else s

theorem ret_eq (e : Env) (t : Nat) : e.ret t = e.enabledOn t := by
  unfold Env.ret Env.enabledOn supportedTargets
  by_cases h : e.test = 0
  · simp only [if_pos h]
  · simp only [if_neg h]

structure CInv (e : Env) (s : CSt) : Prop where
  mask : (s.mask = 1 ∧ ∀ t, s.pc t ≠ .beforeIndex) ∨ ∃ S, s.mask = updateMask e.arch S ∧ e.Seen S
  test : e.test ≠ 0 → ∀ t, s.pc t ≠ .inSupported
  calls : ∀ c ∈ s.calls, ∃ b S, c.2 = .fn b ∧ e.Seen S ∧ IsBest e.arch (e.unit c.1) S b

theorem cstep_inv (e : Env) (hu : ∀ t, Ok e.arch (e.unit t)) (t : Nat) (s : CSt) (h : CInv e s) :
    ∃ s', cstep e t s = .ok s' ∧ CInv e s' := by
  unfold cstep
  cases hp : s.pc t with
  | idle =>
    simp only
    rcases h.mask with ⟨hm, hb⟩ | ⟨S, hm, hS⟩
    · rw [hm, getIndex_one, ok_bind', readAt_some _ _ _ (table_zero _ _), ok_bind']
      refine ⟨_, rfl, Or.inl ⟨rfl, ?_⟩, ?_, h.calls⟩
      · intro t'
        simp only [setPc]
        split
        · split <;> simp
        · exact hb t'
      · intro ht t'
        simp only [setPc]
        split
        · simp [ht]
        · exact h.test ht t'
    · obtain ⟨i, b, h1, h2, h3⟩ := entry_update e.arch (e.unit t) S (hu t)
      rw [hm, h1, ok_bind', readAt_some _ _ _ h2, ok_bind']
      refine ⟨_, rfl, Or.inr ⟨S, rfl, hS⟩, h.test, ?_⟩
      intro c hc
      simp only [List.mem_cons] at hc
      rcases hc with rfl | hc
      · exact ⟨b, S, rfl, hS, h3⟩
      · exact h.calls c hc
  | inSupported =>
    have ht : e.test = 0 := by
      by_contra ht
      exact h.test ht t hp
    refine ⟨_, rfl, Or.inr ⟨_, rfl, Or.inr ⟨ht, t, rfl⟩⟩, ?_, h.calls⟩
    intro ht'; exact absurd ht ht'
  | beforeUpdate =>
    refine ⟨_, rfl, Or.inr ⟨_, rfl, Or.inl ⟨t, rfl⟩⟩, ?_, h.calls⟩
    intro ht t'
    simp only [setPc]
    split
    · simp
    · exact h.test ht t'
  | beforeIndex =>
    simp only
    rcases h.mask with ⟨hm, hb⟩ | ⟨S, hm, hS⟩
    · exact absurd hp (hb t)
    · obtain ⟨i, b, h1, h2, h3⟩ := entry_update e.arch (e.unit t) S (hu t)
      rw [hm, h1, ok_bind', readAt_some _ _ _ h2, ok_bind']
      refine ⟨_, rfl, Or.inr ⟨S, rfl, hS⟩, ?_, ?_⟩
      · intro ht t'
        simp only [setPc]
        split
        · simp
        · exact h.test ht t'
      · intro c hc
        simp only [List.mem_cons] at hc
        rcases hc with rfl | hc
        · exact ⟨b, S, rfl, hS, h3⟩
        · exact h.calls c hc

theorem crun_inv (e : Env) (hu : ∀ t, Ok e.arch (e.unit t)) : ∀ (ts : List Nat) (s : CSt), CInv e s →
    ∃ s', crun e ts s = .ok s' ∧ CInv e s'
  | [], s, h => ⟨s, rfl, h⟩
  | t :: ts, s, h => by
    obtain ⟨s1, h1, h2⟩ := cstep_inv e hu t s h
    obtain ⟨s2, h3, h4⟩ := crun_inv e hu ts s1 h2
    refine ⟨s2, ?_, h4⟩
    unfold crun
    rw [h1, ok_bind', h3]

theorem cinv_init (e : Env) : CInv e cinit :=
  ⟨Or.inl ⟨rfl, by simp [cinit]⟩, by simp [cinit], by simp [cinit]⟩

/-- C34, concurrently.  For every number of threads and every interleaving of their loads and stores, no dispatch
faults, and every call made is of the best compiled target for a set that some thread detected or found enabled. -/
theorem C34_concurrent (e : Env) (hu : ∀ t, Ok e.arch (e.unit t)) (ts : List Nat) :
    ∃ s, crun e ts cinit = .ok s ∧ ∀ c ∈ s.calls, ∃ b, c.2 = .fn b ∧
      (e.unit c.1).compiled.getLsbD b = true ∧
      ∃ t, IsBest e.arch (e.unit c.1) (e.enabledOn t) b ∨ (e.test = 0 ∧ IsBest e.arch (e.unit c.1) (e.det t) b) := by
  obtain ⟨s, h1, h2⟩ := crun_inv e hu ts cinit (cinv_init e)
  refine ⟨s, h1, fun c hc => ?_⟩
  obtain ⟨b, S, h3, h4, h5⟩ := h2.calls c hc
  refine ⟨b, h3, isBest_compiled (hu _) h5, ?_⟩
  rcases h4 with ⟨t, rfl⟩ | ⟨ht, t, rfl⟩
  · exact ⟨t, Or.inl (by rw [← ret_eq]; exact h5)⟩
  · exact ⟨t, Or.inr ⟨ht, h5⟩⟩

/-- If nothing that is detected is disabled (the default) and all threads detect the same non-empty set, every
concurrent dispatch of a function calls the same, best target. -/
theorem C34_concurrent_default (e : Env) (hu : ∀ t, Ok e.arch (e.unit t)) (D : Mask) (hD : ∀ t, e.det t = D)
    (h0 : D ≠ 0) (hen : D &&& e.supMask = D) (htest : e.test = 0) (ts : List Nat) :
    ∃ s, crun e ts cinit = .ok s ∧ ∀ c ∈ s.calls, ∃ b, c.2 = .fn b ∧ IsBest e.arch (e.unit c.1) D b := by
  obtain ⟨s, h1, h2⟩ := C34_concurrent e hu ts
  refine ⟨s, h1, fun c hc => ?_⟩
  obtain ⟨b, h3, _, t, h4⟩ := h2 c hc
  refine ⟨b, h3, ?_⟩
  rcases h4 with h4 | ⟨_, h4⟩
  · unfold Env.enabledOn at h4
    rw [if_pos htest, hD, hen] at h4
    simp only [if_neg h0] at h4
    exact h4
  · rw [hD] at h4; exact h4

/-- With a mocked set (`SetSupportedTargetsForTest`) every call is of the best mocked and enabled target. -/
theorem C34_concurrent_mock (e : Env) (hu : ∀ t, Ok e.arch (e.unit t)) (htest : e.test ≠ 0)
    (hen : e.test &&& e.supMask ≠ 0) (ts : List Nat) :
    ∃ s, crun e ts cinit = .ok s ∧ ∀ c ∈ s.calls, ∃ b, c.2 = .fn b ∧
      IsBest e.arch (e.unit c.1) (e.test &&& e.supMask) b := by
  obtain ⟨s, h1, h2⟩ := C34_concurrent e hu ts
  refine ⟨s, h1, fun c hc => ?_⟩
  obtain ⟨b, h3, _, t, h4⟩ := h2 c hc
  refine ⟨b, h3, ?_⟩
  rcases h4 with h4 | ⟨h, _⟩
  · unfold Env.enabledOn at h4
    rw [if_neg htest] at h4
    simp only [if_neg hen] at h4
    exact h4
  · exact absurd h htest

/-- Finding: with AVX3 disabled before threads start, an interleaving exists in which a thread runs AVX3: thread 0 is
between the two updates of the chosen target when thread 1 dispatches. -/
theorem C34_finding_concurrent_disabled :
    (crun ⟨.x86, 14, 0, ~~~(1#64 <<< 8), fun _ => 0x5B00#64, fun _ => ⟨0x5B00#64, 14⟩⟩ [0, 0, 1] cinit).toOption.map
      (·.calls) = some [(1, .fn 8)] := by
  decide

/-! ## x86 detection -/

/-- Where CPUID reports a feature (Intel SDM numbering): leaf 1, 7.0, 7.1 or 0x80000001. -/
def hasFeature (m : Cpu) : Feature → Bool
  | .SSE => (m.cpuid 1 0).d.getLsbD 25
  | .SSE2 => (m.cpuid 1 0).d.getLsbD 26
  | .SSE3 => (m.cpuid 1 0).c.getLsbD 0
  | .CLMUL => (m.cpuid 1 0).c.getLsbD 1
  | .SSSE3 => (m.cpuid 1 0).c.getLsbD 9
  | .FMA => (m.cpuid 1 0).c.getLsbD 12
  | .SSE41 => (m.cpuid 1 0).c.getLsbD 19
  | .SSE42 => (m.cpuid 1 0).c.getLsbD 20
  | .AES => (m.cpuid 1 0).c.getLsbD 25
  | .AVX => (m.cpuid 1 0).c.getLsbD 28
  | .F16C => (m.cpuid 1 0).c.getLsbD 29
  | .LZCNT => (m.cpuid 0x80000001 0).c.getLsbD 5
  | .BMI => decide (7 ≤ (m.cpuid 0 0).a.toNat) && (m.cpuid 7 0).b.getLsbD 3
  | .AVX2 => decide (7 ≤ (m.cpuid 0 0).a.toNat) && (m.cpuid 7 0).b.getLsbD 5
  | .BMI2 => decide (7 ≤ (m.cpuid 0 0).a.toNat) && (m.cpuid 7 0).b.getLsbD 8
  | .AVX512F => decide (7 ≤ (m.cpuid 0 0).a.toNat) && (m.cpuid 7 0).b.getLsbD 16
  | .AVX512DQ => decide (7 ≤ (m.cpuid 0 0).a.toNat) && (m.cpuid 7 0).b.getLsbD 17
  | .AVX512CD => decide (7 ≤ (m.cpuid 0 0).a.toNat) && (m.cpuid 7 0).b.getLsbD 28
  | .AVX512BW => decide (7 ≤ (m.cpuid 0 0).a.toNat) && (m.cpuid 7 0).b.getLsbD 30
  | .AVX512VL => decide (7 ≤ (m.cpuid 0 0).a.toNat) && (m.cpuid 7 0).b.getLsbD 31
  | .VBMI => decide (7 ≤ (m.cpuid 0 0).a.toNat) && (m.cpuid 7 0).c.getLsbD 1
  | .VBMI2 => decide (7 ≤ (m.cpuid 0 0).a.toNat) && (m.cpuid 7 0).c.getLsbD 6
  | .GFNI => decide (7 ≤ (m.cpuid 0 0).a.toNat) && (m.cpuid 7 0).c.getLsbD 8
  | .VAES => decide (7 ≤ (m.cpuid 0 0).a.toNat) && (m.cpuid 7 0).c.getLsbD 9
  | .VPCLMULQDQ => decide (7 ≤ (m.cpuid 0 0).a.toNat) && (m.cpuid 7 0).c.getLsbD 10
  | .VNNI => decide (7 ≤ (m.cpuid 0 0).a.toNat) && (m.cpuid 7 0).c.getLsbD 11
  | .BITALG => decide (7 ≤ (m.cpuid 0 0).a.toNat) && (m.cpuid 7 0).c.getLsbD 12
  | .POPCNTDQ => decide (7 ≤ (m.cpuid 0 0).a.toNat) && (m.cpuid 7 0).c.getLsbD 14
  | .AVX512FP16 => decide (7 ≤ (m.cpuid 0 0).a.toNat) && (m.cpuid 7 0).d.getLsbD 23
  | .AVX512BF16 => decide (7 ≤ (m.cpuid 0 0).a.toNat) && (m.cpuid 7 1).a.getLsbD 5
  | .AVX10 => decide (7 ≤ (m.cpuid 0 0).a.toNat) && (m.cpuid 7 1).d.getLsbD 19
  | .APX => decide (7 ≤ (m.cpuid 0 0).a.toNat) && (m.cpuid 7 1).d.getLsbD 21

theorem isBitSet_eq (r : BitVec 32) (i : Nat) (hi : i < 32) : isBitSet r i = r.getLsbD i := by
  unfold isBitSet
  rw [Bool.eq_iff_iff, bne_iff_ne]
  constructor
  · intro h
    by_contra hc
    apply h
    apply BitVec.eq_of_getLsbD_eq
    intro j hj
    rw [BitVec.getLsbD_and, BitVec.getLsbD_shiftLeft]
    by_cases hji : j = i
    · subst hji; simp at hc; simp [hc]
    · by_cases hlt : j < i
      · simp [hlt]
      · have : j - i ≠ 0 := by omega
        simp [BitVec.getLsbD_one, this]
  · intro h h0
    have := congrArg (fun x : BitVec 32 => x.getLsbD i) h0
    simp only [BitVec.getLsbD_and, BitVec.getLsbD_shiftLeft] at this
    rw [h] at this
    simp [hi] at this

theorem getLsbD_bit (f : Feature) (i : Nat) : f.bit.getLsbD i = decide (i = f.ctorIdx) := by
  have hf : f.ctorIdx < 32 := by cases f <;> decide
  unfold Feature.bit
  rw [BitVec.getLsbD_shiftLeft]
  by_cases h : i = f.ctorIdx
  · subst h; simp; omega
  · by_cases h' : i < f.ctorIdx
    · simp [h', h]
    · have : i - f.ctorIdx ≠ 0 := by omega
      simp [h, BitVec.getLsbD_one, this]

theorem flagIf_bit (c : Bool) (f g : Feature) :
    (flagIf c f).getLsbD g.ctorIdx = (c && decide (g = f)) := by
  unfold flagIf
  cases c
  · simp
  · simp only [if_true, getLsbD_bit, Bool.true_and]
    cases g <;> cases f <;> rfl

/-- The flags computed are the features CPUID reports. -/
theorem flags_bit (m : Cpu) (g : Feature) : (flagsFromCPUID m).getLsbD g.ctorIdx = hasFeature m g := by
  have hle : (7#32 ≤ (m.cpuid 0 0).a) ↔ 7 ≤ (m.cpuid 0 0).a.toNat := by
    rw [BitVec.le_def]; rfl
  unfold flagsFromCPUID
  simp only
  by_cases h : 7 ≤ (m.cpuid 0 0).a.toNat
  · rw [if_pos (hle.2 h)]
    simp only [BitVec.getLsbD_or, flagIf_bit, BitVec.getLsbD_zero]
    cases g <;> simp [hasFeature, h, isBitSet_eq]
  · rw [if_neg (fun c => h (hle.1 c))]
    simp only [BitVec.getLsbD_or, flagIf_bit, BitVec.getLsbD_zero]
    cases g <;> simp [hasFeature, h, isBitSet_eq]

/-! CPU features each target requires (detect_targets.h and targets.cc comments). -/
def needSSE2 : List Feature := [.SSE, .SSE2]
def needSSSE3 : List Feature := needSSE2 ++ [.SSE3, .SSSE3]
def needSSE4 : List Feature := needSSSE3 ++ [.SSE41, .SSE42, .CLMUL, .AES]
def needAVX2 (cfg : Cfg) : List Feature :=
  needSSE4 ++ [.AVX, .AVX2, .LZCNT] ++ (if cfg.noBmi2Fma then [] else [.BMI, .BMI2, .FMA]) ++
    (if cfg.noF16C then [] else [.F16C])
def needAVX3 (cfg : Cfg) : List Feature := needAVX2 cfg ++ [.AVX512F, .AVX512VL, .AVX512DQ, .AVX512BW, .AVX512CD]
def needAVX3_DL (cfg : Cfg) : List Feature :=
  needAVX3 cfg ++ [.VNNI, .VPCLMULQDQ, .VBMI, .VBMI2, .VAES, .POPCNTDQ, .BITALG, .GFNI]
def needAVX3_ZEN4 (cfg : Cfg) : List Feature := needAVX3_DL cfg ++ [.AVX512BF16]
def needAVX3_SPR (cfg : Cfg) : List Feature := needAVX3_ZEN4 cfg ++ [.AVX512FP16]
def needAVX10 (cfg : Cfg) : List Feature := needAVX2 cfg ++ [.AVX10, .APX, .VPCLMULQDQ, .VAES, .GFNI]

def HasAll (m : Cpu) (l : List Feature) : Prop := ∀ f ∈ l, hasFeature m f = true

def orAll (l : List Feature) : BitVec 64 := l.foldr (fun f x => f.bit ||| x) 0

theorem getLsbD_orAll (l : List Feature) (i : Nat) : (orAll l).getLsbD i = true ↔ ∃ f ∈ l, i = f.ctorIdx := by
  induction l with
  | nil => simp [orAll]
  | cons f l ih =>
    have e : orAll (f :: l) = f.bit ||| orAll l := rfl
    rw [e, BitVec.getLsbD_or, getLsbD_bit, Bool.or_eq_true, ih]
    simp

theorem group_iff (m : Cpu) (l : List Feature) (g : BitVec 64) (hg : g = orAll l) :
    flagsFromCPUID m &&& g = g ↔ HasAll m l := by
  subst hg
  constructor
  · intro h f hf
    rw [← flags_bit]
    have := congrArg (fun x : BitVec 64 => x.getLsbD f.ctorIdx) h
    simp only [BitVec.getLsbD_and] at this
    have h2 := (getLsbD_orAll l f.ctorIdx).2 ⟨f, hf, rfl⟩
    rw [h2] at this
    simpa using this
  · intro h
    apply BitVec.eq_of_getLsbD_eq
    intro i hi
    rw [BitVec.getLsbD_and]
    cases ho : (orAll l).getLsbD i
    · simp
    · obtain ⟨f, hf, rfl⟩ := (getLsbD_orAll l i).1 ho
      rw [flags_bit, h f hf]; rfl

/-- The OS preserves XMM/YMM registers: XSAVE and OSXSAVE (leaf 1), XCR0 bits 1 and 2. -/
def OsYmm (m : Cpu) : Prop :=
  (m.cpuid 1 0).c.getLsbD 26 = true ∧ (m.cpuid 1 0).c.getLsbD 27 = true ∧
    m.xcr0.getLsbD 1 = true ∧ m.xcr0.getLsbD 2 = true

/-- The OS preserves opmask and ZMM registers: XCR0 bits 5 to 7, or on Apple what the system reports. -/
def OsZmm (cfg : Cfg) (m : Cpu) : Prop :=
  match cfg.apple with
  | some b => b = true
  | none => m.xcr0.getLsbD 5 = true ∧ m.xcr0.getLsbD 6 = true ∧ m.xcr0.getLsbD 7 = true

/-- AVX10 version (leaf 0x24, low 8 bits of EBX). -/
def avx10Version (m : Cpu) : Nat := (m.cpuid 0x24 0).b.toNat % 256

/-- AVX10.1 or later with 512-bit vectors. -/
def Avx10_512 (cfg : Cfg) (m : Cpu) : Prop :=
  HasAll m (needAVX10 cfg) ∧ 1 ≤ avx10Version m ∧ (m.cpuid 0x24 0).b.getLsbD 18 = true

/-- CPUID vendor string "AuthenticAMD" (EBX, EDX, ECX of leaf 0, little endian), with a standard leaf 1. -/
def VendorAMD (m : Cpu) : Prop :=
  1 ≤ (m.cpuid 0 0).a.toNat ∧ (m.cpuid 0 0).b.toNat = 0x68747541 ∧ (m.cpuid 0 0).d.toNat = 0x69746e65 ∧
    (m.cpuid 0 0).c.toNat = 0x444d4163

/-- The exact condition under which the x86 code reports each target. -/
def Reports (cfg : Cfg) (m : Cpu) (b : Nat) : Prop :=
  (b = 14 ∧ (cfg.x64 = true ∨ HasAll m needSSE2)) ∨
  (b = 12 ∧ HasAll m needSSSE3) ∨
  (b = 11 ∧ HasAll m needSSE4) ∨
  (b = 9 ∧ HasAll m (needAVX2 cfg) ∧ OsYmm m) ∨
  (b = 8 ∧ (HasAll m (needAVX3 cfg) ∨ Avx10_512 cfg m) ∧ OsYmm m ∧ OsZmm cfg m) ∨
  (b = 7 ∧ (HasAll m (needAVX3_DL cfg) ∨ Avx10_512 cfg m) ∧ OsYmm m ∧ OsZmm cfg m) ∨
  (b = 6 ∧ HasAll m (needAVX3_ZEN4 cfg) ∧ VendorAMD m ∧ OsYmm m ∧ OsZmm cfg m) ∨
  (b = 4 ∧ (HasAll m (needAVX3_SPR cfg) ∨ Avx10_512 cfg m) ∧ OsYmm m ∧ OsZmm cfg m) ∨
  (b = 5 ∧ HasAll m (needAVX10 cfg) ∧ 2 ≤ avx10Version m ∧ OsYmm m) ∨
  (b = 3 ∧ Avx10_512 cfg m ∧ 2 ≤ avx10Version m ∧ OsYmm m)

theorem getLsbD_tbit (t i : Nat) (ht : t < 64) : (tbit t).getLsbD i = decide (i = t) := by
  unfold tbit
  rw [BitVec.getLsbD_shiftLeft]
  by_cases h : i = t
  · subst h; simp; omega
  · by_cases h' : i < t
    · simp [h', h]
    · have : i - t ≠ 0 := by omega
      simp [h, BitVec.getLsbD_one, this]

theorem getLsbD_minAvx2 (i : Nat) : (tbit AVX2 ||| (tbit AVX2 - 1#64)).getLsbD i = decide (i ≤ 9) := by
  have h : (tbit AVX2 ||| (tbit AVX2 - 1#64)) = BitVec.ofNat 64 (2 ^ 10 - 1) := by decide
  rw [h, BitVec.getLsbD_ofNat, Nat.testBit_two_pow_sub_one]
  by_cases hi : i ≤ 9
  · simp [hi]; omega
  · simp [hi]; omega

theorem addIf_bit (flags group : BitVec 64) (t : Nat) (ht : t < 64) (bits : Mask) (i : Nat) :
    (addIf flags group (tbit t) bits).getLsbD i = true ↔
      bits.getLsbD i = true ∨ (i = t ∧ flags &&& group = group) := by
  unfold addIf
  split
  · rw [BitVec.getLsbD_or, getLsbD_tbit t i ht]; simp_all
  · simp_all

theorem avx10Version_eq (m : Cpu) : ((m.cpuid 0x24 0).b &&& 0xFF#32).toNat = avx10Version m := by
  rw [BitVec.toNat_and]
  exact Nat.and_two_pow_sub_one_eq_mod _ 8

theorem detectAvx10_bit (cfg : Cfg) (m : Cpu) (bits : Mask) (i : Nat) :
    (detectAvx10 cfg m (flagsFromCPUID m) bits).getLsbD i = true ↔
      bits.getLsbD i = true ∨ ((i = 4 ∨ i = 7 ∨ i = 8) ∧ Avx10_512 cfg m) ∨
      (i = 5 ∧ HasAll m (needAVX10 cfg) ∧ 2 ≤ avx10Version m) ∨
      (i = 3 ∧ Avx10_512 cfg m ∧ 2 ≤ avx10Version m) := by
  have hg := group_iff m (needAVX10 cfg) (groupAVX10 cfg) (by
    rcases cfg with ⟨_ | _, _ | _, _ | _, _ | _ | _⟩ <;> decide)
  have hv := avx10Version_eq m
  have h1 : (1#32 ≤ (m.cpuid 0x24 0).b &&& 0xFF#32) ↔ 1 ≤ avx10Version m := by
    rw [BitVec.le_def, hv]; rfl
  have h2 : (2#32 ≤ (m.cpuid 0x24 0).b &&& 0xFF#32) ↔ 2 ≤ avx10Version m := by
    rw [BitVec.le_def, hv]; rfl
  unfold detectAvx10 Avx10_512
  by_cases c1 : HasAll m (needAVX10 cfg)
  · rw [if_pos (hg.2 c1)]
    simp only [h1, h2, isBitSet_eq _ 18 (by omega)]
    by_cases c2 : 1 ≤ avx10Version m <;> by_cases c3 : 2 ≤ avx10Version m <;>
      by_cases c4 : (m.cpuid 0x24 0).b.getLsbD 18 = true <;>
      simp only [c1, c2, c3, c4, if_true, if_false, decide_true, decide_false, Bool.and_true, Bool.and_false,
        Bool.true_and, Bool.false_and, BitVec.getLsbD_or, Bool.or_eq_true, AVX3_SPR, AVX3_DL, AVX3, AVX10_2,
        AVX10_2_512, getLsbD_tbit _ _ (show 3 < 64 by omega), getLsbD_tbit _ _ (show 4 < 64 by omega),
        getLsbD_tbit _ _ (show 5 < 64 by omega), getLsbD_tbit _ _ (show 7 < 64 by omega),
        getLsbD_tbit _ _ (show 8 < 64 by omega), decide_eq_true_eq, and_true, true_and, and_false, false_and,
        or_false, Bool.false_eq_true] <;> first | omega | tauto
  · rw [if_neg (fun h => c1 (hg.1 h))]; simp [c1]

theorem haveAvx3Xsave_iff (cfg : Cfg) (m : Cpu) : haveAvx3Xsave cfg m = true ↔ OsZmm cfg m := by
  unfold haveAvx3Xsave OsZmm
  cases cfg.apple
  · simp [isBitSet_eq, and_assoc]
  · simp

theorem clear_bit (cfg : Cfg) (m : Cpu) (bits : Mask) (i : Nat) :
    (clearUnpreserved cfg m bits).getLsbD i = true ↔
      bits.getLsbD i = true ∧ (i ≤ 9 → OsYmm m) ∧ ((i = 8 ∨ i = 7 ∨ i = 4) → OsZmm cfg m) := by
  have hz := haveAvx3Xsave_iff cfg m
  have hlt : bits.getLsbD i = true → i < 64 := BitVec.lt_of_getLsbD
  unfold clearUnpreserved OsYmm
  simp only [isBitSet_eq _ 26 (by omega), isBitSet_eq _ 27 (by omega), isBitSet_eq _ 1 (by omega),
    isBitSet_eq _ 2 (by omega)]
  have hm3 : (tbit AVX3 ||| tbit AVX3_DL ||| tbit AVX3_SPR).getLsbD i = decide (i = 8 ∨ i = 7 ∨ i = 4) := by
    simp only [BitVec.getLsbD_or, AVX3, AVX3_DL, AVX3_SPR, getLsbD_tbit _ _ (show 8 < 64 by omega),
      getLsbD_tbit _ _ (show 7 < 64 by omega), getLsbD_tbit _ _ (show 4 < 64 by omega)]
    simp [Bool.or_assoc]
  by_cases c1 : (m.cpuid 1 0).c.getLsbD 26 = true <;> by_cases c2 : (m.cpuid 1 0).c.getLsbD 27 = true <;>
    by_cases c3 : m.xcr0.getLsbD 1 = true <;> by_cases c4 : m.xcr0.getLsbD 2 = true <;>
    by_cases c5 : haveAvx3Xsave cfg m = true <;>
    simp only [c1, c2, c3, c4, c5, Bool.and_self, Bool.and_false, Bool.false_and, Bool.not_true, Bool.not_false,
      Bool.or_self, Bool.or_true, Bool.true_or, if_true, if_false, Bool.false_eq_true, BitVec.getLsbD_and,
      BitVec.getLsbD_not, getLsbD_minAvx2, hm3, Bool.and_eq_true, decide_eq_true_eq, Bool.not_eq_true',
      decide_eq_false_iff_not, ← hz] <;>
    by_cases hb : bits.getLsbD i = true <;> simp only [hb] <;>
    first | (have := hlt hb; (constructor <;> intro h <;> simp_all <;> omega)) | simp_all

theorem isAMD_iff (m : Cpu) : isAMD m = true ↔ VendorAMD m := by
  unfold isAMD VendorAMD
  simp only [Bool.and_eq_true, decide_eq_true_eq, beq_iff_eq, BitVec.le_def, ← BitVec.toNat_inj]
  constructor
  · rintro ⟨⟨⟨a, b⟩, c⟩, d⟩; exact ⟨a, b, d, c⟩
  · rintro ⟨a, b, d, c⟩; exact ⟨⟨⟨a, b⟩, c⟩, d⟩

theorem needAVX2_sub (cfg : Cfg) (m : Cpu) (h : HasAll m (needAVX10 cfg)) : HasAll m (needAVX2 cfg) :=
  fun f hf => h f (by unfold needAVX10; exact List.mem_append_left _ hf)

/-- C34.  x86 detection reports exactly the targets whose CPU features are all present and, except for the finding
below, whose registers the OS preserves. -/
theorem C34_detect_x86 (cfg : Cfg) (m : Cpu) (b : Nat) :
    (detectX86 cfg m).getLsbD b = true ↔ Reports cfg m b := by
  have g1 := group_iff m (needAVX3_SPR cfg) (groupAVX3_SPR cfg) (by
    rcases cfg with ⟨_ | _, _ | _, _ | _, _ | _ | _⟩ <;> decide)
  have g2 := group_iff m (needAVX3_DL cfg) (groupAVX3_DL cfg) (by
    rcases cfg with ⟨_ | _, _ | _, _ | _, _ | _ | _⟩ <;> decide)
  have g3 := group_iff m (needAVX3 cfg) (groupAVX3 cfg) (by
    rcases cfg with ⟨_ | _, _ | _, _ | _, _ | _ | _⟩ <;> decide)
  have g4 := group_iff m (needAVX2 cfg) (groupAVX2 cfg) (by
    rcases cfg with ⟨_ | _, _ | _, _ | _, _ | _ | _⟩ <;> decide)
  have g5 := group_iff m needSSE4 groupSSE4 (by decide)
  have g6 := group_iff m needSSSE3 groupSSSE3 (by decide)
  have g7 := group_iff m needSSE2 groupSSE2 (by decide)
  have g8 := group_iff m (needAVX3_ZEN4 cfg) (groupAVX3_ZEN4 cfg) (by
    rcases cfg with ⟨_ | _, _ | _, _ | _, _ | _ | _⟩ <;> decide)
  -- bits before the ZEN4 step
  unfold detectX86
  simp only
  set F := flagsFromCPUID m with hF
  set B0 : Mask := if cfg.x64 then 0 ||| tbit SSE2 else 0 with hB0
  set B1 := addIf F groupSSSE3 (tbit SSSE3) (addIf F groupSSE4 (tbit SSE4) (addIf F (groupAVX2 cfg) (tbit AVX2)
    (addIf F (groupAVX3 cfg) (tbit AVX3) (addIf F (groupAVX3_DL cfg) (tbit AVX3_DL)
      (addIf F (groupAVX3_SPR cfg) (tbit AVX3_SPR) B0))))) with hB1
  set B2 := (if !cfg.x64 then addIf F groupSSE2 (tbit SSE2) B1 else B1) with hB2
  set B3 := clearUnpreserved cfg m (detectAvx10 cfg m F B2) with hB3
  have e0 : ∀ i, B0.getLsbD i = true ↔ i = 14 ∧ cfg.x64 = true := by
    intro i
    rw [hB0]
    cases cfg.x64
    · simp
    · simp only [if_true, BitVec.getLsbD_or, SSE2, getLsbD_tbit _ _ (show 14 < 64 by omega)]
      simp
  have e1 : ∀ i, B1.getLsbD i = true ↔ (i = 14 ∧ cfg.x64 = true) ∨ (i = 4 ∧ HasAll m (needAVX3_SPR cfg)) ∨
      (i = 7 ∧ HasAll m (needAVX3_DL cfg)) ∨ (i = 8 ∧ HasAll m (needAVX3 cfg)) ∨
      (i = 9 ∧ HasAll m (needAVX2 cfg)) ∨ (i = 11 ∧ HasAll m needSSE4) ∨ (i = 12 ∧ HasAll m needSSSE3) := by
    intro i
    rw [hB1]
    rw [addIf_bit _ _ _ (by decide), addIf_bit _ _ _ (by decide), addIf_bit _ _ _ (by decide),
      addIf_bit _ _ _ (by decide), addIf_bit _ _ _ (by decide), addIf_bit _ _ _ (by decide), e0,
      g1, g2, g3, g4, g5, g6]
    simp only [AVX3_SPR, AVX3_DL, AVX3, AVX2, SSE4, SSSE3, or_assoc]
  have e2 : ∀ i, B2.getLsbD i = true ↔ B1.getLsbD i = true ∨ (i = 14 ∧ cfg.x64 = false ∧ HasAll m needSSE2) := by
    intro i
    rw [hB2]
    cases cfg.x64
    · simp only [Bool.not_false, if_true]
      rw [addIf_bit _ _ _ (by decide), g7]
      simp [SSE2]
    · simp
  have e3 : ∀ i, B3.getLsbD i = true ↔ _ := fun i => by
    rw [hB3, clear_bit, hF, detectAvx10_bit, e2, e1]
  have hz4 : HasAll m (needAVX3_ZEN4 cfg) → HasAll m (needAVX3_DL cfg) :=
    fun h f hf => h f (by unfold needAVX3_ZEN4; exact List.mem_append_left _ hf)
  have e7 : B3 &&& tbit AVX3_DL ≠ 0 ↔ B3.getLsbD 7 = true := by
    constructor
    · intro h
      by_contra hc
      apply h
      apply BitVec.eq_of_getLsbD_eq
      intro j hj
      rw [BitVec.getLsbD_and, AVX3_DL, getLsbD_tbit _ _ (by omega)]
      by_cases hj7 : j = 7
      · subst hj7; simp only [Bool.not_eq_true] at hc; rw [hc]; simp
      · simp [hj7]
    · intro h h0
      have := congrArg (fun x : BitVec 64 => x.getLsbD 7) h0
      simp only [BitVec.getLsbD_and, AVX3_DL, getLsbD_tbit _ _ (show 7 < 64 by omega)] at this
      rw [h] at this
      simp at this
  have fin : (if B3 &&& tbit AVX3_DL ≠ 0 ∧ F &&& groupAVX3_ZEN4 cfg = groupAVX3_ZEN4 cfg ∧ isAMD m = true then
      B3 ||| tbit AVX3_ZEN4 else B3).getLsbD b = true ↔
      B3.getLsbD b = true ∨ (b = 6 ∧ B3.getLsbD 7 = true ∧ HasAll m (needAVX3_ZEN4 cfg) ∧ VendorAMD m) := by
    by_cases c : B3 &&& tbit AVX3_DL ≠ 0 ∧ F &&& groupAVX3_ZEN4 cfg = groupAVX3_ZEN4 cfg ∧ isAMD m = true
    · rw [if_pos c, BitVec.getLsbD_or, AVX3_ZEN4, getLsbD_tbit _ _ (by omega)]
      rw [e7, g8, isAMD_iff] at c
      simp [c]
    · rw [if_neg c]
      rw [e7, g8, isAMD_iff] at c
      constructor
      · exact Or.inl
      · rintro (h | ⟨_, h⟩)
        · exact h
        · exact absurd h c
  refine fin.trans ?_
  rw [e3, e3]
  unfold Reports
  have hx : cfg.x64 = false ↔ ¬ cfg.x64 = true := by simp
  rw [hx]
  clear e0 e1 e2 e3 e7 fin g1 g2 g3 g4 g5 g6 g7 g8
  generalize (cfg.x64 = true) = X
  generalize OsYmm m = Y
  generalize OsZmm cfg m = Z
  generalize VendorAMD m = A
  generalize Avx10_512 cfg m = V5
  generalize HasAll m (needAVX3_ZEN4 cfg) = P1 at *
  generalize HasAll m (needAVX3_DL cfg) = P2 at *
  generalize HasAll m (needAVX3_SPR cfg) = P3
  generalize HasAll m (needAVX3 cfg) = P4
  generalize HasAll m (needAVX2 cfg) = P5
  generalize HasAll m needSSE4 = P6
  generalize HasAll m needSSSE3 = P7
  generalize HasAll m needSSE2 = P8
  generalize HasAll m (needAVX10 cfg) = P9
  generalize (2 ≤ avx10Version m) = P10
  by_cases hb : b ≤ 14
  · interval_cases b <;> simp <;> tauto
  · have : ∀ k, k ≤ 14 → b ≠ k := by intro k hk; omega
    simp [this]

theorem HasAll.mono {m : Cpu} {l l' : List Feature} (h : HasAll m l) (hs : ∀ f ∈ l', f ∈ l) : HasAll m l' :=
  fun f hf => h f (hs f hf)

/-- C34.  Reported x86 targets are closed downwards: AVX3_SPR implies AVX3_DL, then AVX3, AVX2, SSE4, SSSE3, SSE2;
likewise AVX3_ZEN4 implies AVX3_DL, AVX10_2_512 implies AVX10_2, and AVX10_2 implies AVX2. -/
theorem C34_detect_chain (cfg : Cfg) (m : Cpu) (p : Nat × Nat)
    (hp : p ∈ [(4, 7), (6, 7), (7, 8), (8, 9), (9, 11), (11, 12), (12, 14), (3, 5), (5, 9)])
    (h : (detectX86 cfg m).getLsbD p.1 = true) : (detectX86 cfg m).getLsbD p.2 = true := by
  have m1 : ∀ {l l' : List Feature}, HasAll m (l ++ l') → HasAll m l :=
    fun h => h.mono (fun f hf => List.mem_append_left _ hf)
  have k10 : HasAll m (needAVX10 cfg) → HasAll m (needAVX2 cfg) := m1
  have k3 : HasAll m (needAVX3 cfg) → HasAll m (needAVX2 cfg) := m1
  have k7 : HasAll m (needAVX3_DL cfg) → HasAll m (needAVX3 cfg) := m1
  have k6 : HasAll m (needAVX3_ZEN4 cfg) → HasAll m (needAVX3_DL cfg) := m1
  have k4 : HasAll m (needAVX3_SPR cfg) → HasAll m (needAVX3_ZEN4 cfg) := m1
  have k2 : HasAll m (needAVX2 cfg) → HasAll m needSSE4 := fun h => m1 (m1 (m1 h))
  have k1 : HasAll m needSSE4 → HasAll m needSSSE3 := m1
  have k0 : HasAll m needSSSE3 → HasAll m needSSE2 := m1
  have kv : Avx10_512 cfg m → HasAll m (needAVX10 cfg) := fun h => h.1
  rw [C34_detect_x86] at h ⊢
  unfold Reports at *
  clear m1
  generalize (cfg.x64 = true) = X at *
  generalize OsYmm m = Y at *
  generalize OsZmm cfg m = Z at *
  generalize VendorAMD m = A at *
  generalize Avx10_512 cfg m = V5 at *
  generalize HasAll m (needAVX3_ZEN4 cfg) = P1 at *
  generalize HasAll m (needAVX3_DL cfg) = P2 at *
  generalize HasAll m (needAVX3_SPR cfg) = P3 at *
  generalize HasAll m (needAVX3 cfg) = P4 at *
  generalize HasAll m (needAVX2 cfg) = P5 at *
  generalize HasAll m needSSE4 = P6 at *
  generalize HasAll m needSSSE3 = P7 at *
  generalize HasAll m needSSE2 = P8 at *
  generalize HasAll m (needAVX10 cfg) = P9 at *
  generalize (2 ≤ avx10Version m) = P10 at *
  simp only [List.mem_cons, List.not_mem_nil, or_false] at hp
  rcases hp with rfl | rfl | rfl | rfl | rfl | rfl | rfl | rfl | rfl <;> simp at h ⊢ <;> grind

/-- C34.  No AVX2-or-better target is reported unless the OS preserves YMM registers, and of the targets with 512-bit
vectors AVX3, AVX3_DL, AVX3_ZEN4 and AVX3_SPR are not unless it preserves ZMM and opmask registers. -/
theorem C34_detect_os (cfg : Cfg) (m : Cpu) (b : Nat) (h : (detectX86 cfg m).getLsbD b = true) :
    (b ≤ 9 → OsYmm m) ∧ (b ∈ [4, 6, 7, 8] → OsZmm cfg m) := by
  rw [C34_detect_x86] at h
  unfold Reports at h
  constructor
  · intro hb
    rcases h with ⟨rfl, h⟩ | ⟨rfl, h⟩ | ⟨rfl, h⟩ | ⟨rfl, h⟩ | ⟨rfl, h⟩ | ⟨rfl, h⟩ | ⟨rfl, h⟩ | ⟨rfl, h⟩ | ⟨rfl, h⟩ |
      ⟨rfl, h⟩ <;> first | omega | tauto
  · intro hb
    simp only [List.mem_cons, List.not_mem_nil, or_false] at hb
    rcases hb with rfl | rfl | rfl | rfl <;> simp at h <;> tauto

/-- A machine with every CPUID bit set whose OS preserves only XMM and YMM. -/
def ymmOnly : Cpu := ⟨fun _ _ => ⟨-1, -1, -1, -1⟩, 7#32⟩

/-- Finding: `min_avx3` omits AVX10_2_512, so that target, which uses ZMM and opmask registers, is reported even when
the OS does not preserve them; AVX3, AVX3_DL and AVX3_SPR are cleared. -/
theorem C34_finding_avx10_without_zmm :
    ¬ OsZmm ⟨true, false, false, none⟩ ymmOnly ∧
    (detectX86 ⟨true, false, false, none⟩ ymmOnly).getLsbD 3 = true ∧
    (detectX86 ⟨true, false, false, none⟩ ymmOnly).getLsbD 8 = false := by
  refine ⟨by unfold OsZmm ymmOnly; decide, by decide, by decide⟩

/-- A machine with everything (and not AMD): all targets but AVX3_ZEN4 are reported. -/
theorem detect_all_example : (detectX86 ⟨true, false, false, none⟩ ⟨fun _ _ => ⟨-1, -1, -1, -1⟩, -1⟩) = 0x5BB8#64 := by
  decide

/-- `DetectTargets` on x86 (targets.cc:725-762): the result without mocking. -/
def hostTargets (cfg : Cfg) (m : Cpu) : Mask := tbit SCALAR ||| tbit EMU128 ||| detectX86 cfg m

/-- Every call detects `D`, and no call mocks the supported set. -/
def OnHost (D : Mask) : Op → Prop
  | .setTest _ => False
  | .supported det => det = D
  | .dispatch _ det => det = D
  | _ => True

theorem onHost_foldl (lib : Nat) (D : Mask) (ops : List Op) : ∀ (g : Ghost),
    g.test = 0 → (∀ S, g.cached = some S → S = 1#64 <<< lib ∨ S &&& D = S) → (∀ op ∈ ops, OnHost D op) →
    (ops.foldl (Ghost.step lib) g).test = 0 ∧
      ∀ S, (ops.foldl (Ghost.step lib) g).cached = some S → S = 1#64 <<< lib ∨ S &&& D = S := by
  induction ops with
  | nil => intro g h1 h2 _; exact ⟨h1, h2⟩
  | cons op ops ih =>
    intro g h1 h2 hops
    have hop := hops op (by simp)
    rw [List.foldl_cons]
    refine ih _ ?_ ?_ (fun o ho => hops o (by simp [ho]))
    · cases op <;> simp only [Ghost.step]
      case setTest => exact absurd hop (by simp [OnHost])
      case supported => split <;> exact h1
      all_goals exact h1
    · intro S hS
      cases op with
      | setTest t => exact absurd hop (by simp [OnHost])
      | disable t => simp [Ghost.step] at hS
      | deInit => simp [Ghost.step] at hS
      | supported det =>
        have hd : det = D := hop
        simp only [Ghost.step, if_pos h1, Option.some.injEq] at hS
        right; rw [← hS, hd, BitVec.and_self]
      | dispatch u det =>
        have hd : det = D := hop
        simp only [Ghost.step, Option.some.injEq] at hS
        cases hc : g.cached with
        | some S' => rw [hc] at hS; simp only [Option.getD_some] at hS; rw [← hS]; exact h2 _ hc
        | none =>
          rw [hc] at hS
          simp only [Option.getD_none] at hS
          rw [← hS, hd]
          unfold Ghost.effective
          rw [if_pos h1]
          simp only
          split
          · exact Or.inl rfl
          · right
            rw [BitVec.and_assoc, BitVec.and_comm g.enabled, ← BitVec.and_assoc, BitVec.and_self]

/-- C34.  On an x86 machine, without mocking, a dispatch after any history (including bare `SupportedTargets()` calls)
runs a target that detection reports for this machine, or the fallback, or the static target of the library. -/
theorem C34_runs_supported (cfg : Cfg) (m : Cpu) (lib : Nat) (ops : List Op) (u : Unit')
    (hok : ∀ op ∈ ops, OkOp .x86 op) (hu : Ok .x86 u) (hh : ∀ op ∈ ops, OnHost (hostTargets cfg m) op) :
    ∃ s rs b, run .x86 lib (ops ++ [.dispatch u (hostTargets cfg m)]) init = .ok (s, rs ++ [some b]) ∧
      u.compiled.getLsbD b = true ∧ (Reports cfg m b ∨ IsFallback u b ∨ b = lib) := by
  obtain ⟨s1, rs, h1, _, h3⟩ := run_spec .x86 lib ops Ghost.init init (agree_init .x86) hok
  obtain ⟨s2, b, h4, _, h6⟩ := dispatch_spec .x86 lib u (hostTargets cfg m) _ s1 h3 hu
  refine ⟨s2, rs, b, ?_, isBest_compiled hu h6, ?_⟩
  · rw [run_append .x86 lib ops _ init s1 rs h1]
    have e : run .x86 lib [.dispatch u (hostTargets cfg m)] s1 = .ok (s2, [some b]) := by
      have e1 : run .x86 lib [.dispatch u (hostTargets cfg m)] s1 =
          (Tgt.dispatch .x86 lib u (hostTargets cfg m) s1 >>= fun p => .ok (p.1, some p.2)) >>=
            fun p => .ok (p.1, [p.2]) := rfl
      rw [e1, h4, ok_bind', ok_bind']
    rw [e, ok_bind']
  · obtain ⟨ht, hc⟩ := onHost_foldl lib (hostTargets cfg m) (ops ++ [.dispatch u (hostTargets cfg m)]) Ghost.init rfl
      (by intro S hS; simp [Ghost.init] at hS) (by
        intro op hop
        simp only [List.mem_append, List.mem_singleton] at hop
        rcases hop with hop | rfl
        · exact hh op hop
        · rfl)
    rw [List.foldl_append] at hc
    have key := hc _ rfl
    rcases h6 with ⟨hin, _, hS, _⟩ | ⟨_, hf⟩
    · rcases key with key | key
      · right; right
        rw [key, BitVec.getLsbD_shiftLeft] at hS
        simp [BitVec.getLsbD_one] at hS
        omega
      · left
        rw [← key, BitVec.getLsbD_and] at hS
        simp only [Bool.and_eq_true] at hS
        have hS := hS.2
        unfold hostTargets SCALAR EMU128 at hS
        rw [BitVec.getLsbD_or, BitVec.getLsbD_or, getLsbD_tbit _ _ (by omega), getLsbD_tbit _ _ (by omega)] at hS
        have h14 : b ≤ 14 := hin.2
        have n1 : b ≠ 62 := by omega
        have n2 : b ≠ 61 := by omega
        simp only [n1, n2, decide_false, Bool.false_or] at hS
        exact (C34_detect_x86 cfg m b).1 hS
    · exact Or.inr (Or.inl hf)

end Tgt
end Hwy
