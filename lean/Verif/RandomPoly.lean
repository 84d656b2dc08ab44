import Verif.Random
import Verif.RandomPrimes
import Mathlib.Dynamics.PeriodicPts.Defs
import Mathlib.Tactic.Ring

/-!
# The state transition of xoshiro as a linear map over F₂

`Next` changes the state by a map `T` that is linear over F₂.  Polynomials over F₂ are coded as
natural numbers (bit `i` is the coefficient of `x^i`); `app n p v` is `p(T) v` for a polynomial of
degree below `n`.  The kernel checks that the polynomial `charP` of degree 256 annihilates the 256 unit
states, so `charP(T) = 0`, and evaluates powers of `x` modulo `charP`.
-/

namespace Hwy
namespace Rnd

/-! ### Addition of states -/

/-- Sum over F₂. -/
def St.add (a b : St) : St := ⟨a.s0 ^^^ b.s0, a.s1 ^^^ b.s1, a.s2 ^^^ b.s2, a.s3 ^^^ b.s3⟩

def St.zero : St := ⟨0, 0, 0, 0⟩

theorem St.add_assoc (a b c : St) : (a.add b).add c = a.add (b.add c) := by
  simp [St.add, BitVec.xor_assoc]

theorem St.add_comm (a b : St) : a.add b = b.add a := by
  simp [St.add, BitVec.xor_comm]

theorem St.zero_add (a : St) : St.zero.add a = a := by simp [St.add, St.zero]
theorem St.add_zero (a : St) : a.add St.zero = a := by simp [St.add, St.zero]
theorem St.add_self (a : St) : a.add a = St.zero := by simp [St.add, St.zero]

theorem St.add_add_cancel (a b : St) : (a.add b).add b = a := by
  rw [St.add_assoc, St.add_self, St.add_zero]

theorem St.add4 (a b c d : St) : (a.add b).add (c.add d) = (a.add c).add (b.add d) := by
  rw [St.add_assoc, St.add_assoc, ← St.add_assoc b c d, St.add_comm b c, St.add_assoc c b d]

/-! ### The transition -/

/-- The state after one `Next`. -/
def step (s : St) : St := (Xoshiro.next s).1

theorem rotl45_xor (x y : W) : rotl (x ^^^ y) 45 = rotl x 45 ^^^ rotl y 45 := by
  unfold rotl
  ext i hi
  simp only [BitVec.getElem_or, BitVec.getElem_xor, BitVec.getElem_shiftLeft, BitVec.getElem_ushiftRight,
    BitVec.getLsbD_xor]
  by_cases h : i < 45
  · simp [h]
  · have : 64 ≤ 64 - 45 + i := by omega
    simp [h, BitVec.getLsbD_of_ge _ _ this]

theorem St.mk_congr {a0 a1 a2 a3 b0 b1 b2 b3 : W} (h0 : a0 = b0) (h1 : a1 = b1) (h2 : a2 = b2)
    (h3 : a3 = b3) : St.mk a0 a1 a2 a3 = St.mk b0 b1 b2 b3 := by subst h0 h1 h2 h3; rfl

theorem xor6 (a b c d x y : W) : ((a ^^^ b) ^^^ (c ^^^ d)) ^^^ (x ^^^ y) = ((a ^^^ c) ^^^ x) ^^^ ((b ^^^ d) ^^^ y) := by
  ac_rfl

theorem step_add (a b : St) : step (a.add b) = (step a).add (step b) := by
  obtain ⟨a0, a1, a2, a3⟩ := a
  obtain ⟨b0, b1, b2, b3⟩ := b
  have e1 : step ⟨a0 ^^^ b0, a1 ^^^ b1, a2 ^^^ b2, a3 ^^^ b3⟩ =
      ⟨(a0 ^^^ b0) ^^^ ((a3 ^^^ b3) ^^^ (a1 ^^^ b1)), (a1 ^^^ b1) ^^^ ((a2 ^^^ b2) ^^^ (a0 ^^^ b0)),
       ((a2 ^^^ b2) ^^^ (a0 ^^^ b0)) ^^^ ((a1 ^^^ b1) <<< 17), rotl ((a3 ^^^ b3) ^^^ (a1 ^^^ b1)) 45⟩ := rfl
  have e2 : (step ⟨a0, a1, a2, a3⟩).add (step ⟨b0, b1, b2, b3⟩) =
      ⟨(a0 ^^^ (a3 ^^^ a1)) ^^^ (b0 ^^^ (b3 ^^^ b1)), (a1 ^^^ (a2 ^^^ a0)) ^^^ (b1 ^^^ (b2 ^^^ b0)),
       ((a2 ^^^ a0) ^^^ (a1 <<< 17)) ^^^ ((b2 ^^^ b0) ^^^ (b1 <<< 17)),
       rotl (a3 ^^^ a1) 45 ^^^ rotl (b3 ^^^ b1) 45⟩ := rfl
  show step ⟨a0 ^^^ b0, a1 ^^^ b1, a2 ^^^ b2, a3 ^^^ b3⟩ = _
  rw [e1, e2]
  refine St.mk_congr ?_ ?_ ?_ ?_
  · ac_rfl
  · ac_rfl
  · rw [BitVec.shiftLeft_xor_distrib]
    generalize a1 <<< 17 = x
    generalize b1 <<< 17 = y
    exact xor6 a2 b2 a0 b0 x y
  · rw [← rotl45_xor]
    exact congrArg (fun x => rotl x 45) (by ac_rfl)

theorem step_zero : step St.zero = St.zero := by decide +kernel

/-! ### Polynomials in `T` -/

/-- `p(T) v`, the coefficients `0 … n - 1` of `p`. -/
def app : Nat → Nat → St → St
  | 0, _, _ => St.zero
  | n + 1, p, v => (if p.testBit 0 then v else St.zero).add (app n (p / 2) (step v))

theorem app_add (n p : Nat) (v w : St) : app n p (v.add w) = (app n p v).add (app n p w) := by
  induction n generalizing p v w with
  | zero => simp [app, St.zero_add]
  | succ n ih =>
    simp only [app, step_add, ih]
    rw [St.add4]
    split <;> simp [St.add_zero]

theorem app_vzero (n p : Nat) : app n p St.zero = St.zero := by
  induction n generalizing p with
  | zero => rfl
  | succ n ih => simp [app, step_zero, ih, St.zero_add]

theorem app_xor (n p q : Nat) (v : St) : app n (p ^^^ q) v = (app n p v).add (app n q v) := by
  induction n generalizing p q v with
  | zero => simp [app, St.zero_add]
  | succ n ih =>
    have e : (p ^^^ q) / 2 = (p / 2) ^^^ (q / 2) := by
      rw [← Nat.shiftRight_one, ← Nat.shiftRight_one, ← Nat.shiftRight_one, Nat.shiftRight_xor_distrib]
    simp only [app, e, ih, Nat.testBit_xor]
    rw [St.add4]
    cases p.testBit 0 <;> cases q.testBit 0 <;> simp [St.zero_add, St.add_zero, St.add_self]

theorem app_zero (n : Nat) (v : St) : app n 0 v = St.zero := by
  induction n generalizing v with
  | zero => rfl
  | succ n ih => simp [app, ih, St.zero_add]

theorem app_step (n p : Nat) (v : St) : app n p (step v) = step (app n p v) := by
  induction n generalizing p v with
  | zero => exact step_zero.symm
  | succ n ih =>
    simp only [app, ih, step_add]
    split
    · rfl
    · rw [step_zero]

theorem app_double (n p : Nat) (v : St) : app (n + 1) (2 * p) v = step (app n p v) := by
  simp [app, St.zero_add, app_step]

theorem app_succ (n p : Nat) (v : St) (h : p < 2 ^ n) : app (n + 1) p v = app n p v := by
  induction n generalizing p v with
  | zero =>
    have : p = 0 := by simpa using h
    subst this
    rw [app_zero, app_zero]
  | succ n ih =>
    rw [app, ih (p / 2) _ (by rw [Nat.pow_succ] at h; omega)]
    rfl

theorem app_add_step (n p : Nat) (v : St) (m : Nat) : app n p (step^[m] v) = step^[m] (app n p v) := by
  induction m generalizing v with
  | zero => rfl
  | succ m ih => rw [Function.iterate_succ_apply, Function.iterate_succ_apply, ih, app_step]

theorem app_one (n : Nat) (v : St) : app (n + 1) 1 v = v := by
  simp [app, app_zero, St.add_zero]

theorem app_two (n : Nat) (v : St) : app (n + 2) 2 v = step v := by
  simp [app, app_zero, St.add_zero, St.zero_add]

/-! ### Arithmetic modulo the characteristic polynomial -/

/-- The characteristic polynomial of `T`. -/
def charP : Nat := 0x10003c03c3f3ecb1904b4edcf26259f850280002bcefd1a5e9d116f2bb0f0f001

/-- Make the kernel compute `n` before it goes on. -/
def force {β : Type} (n : Nat) (f : Nat → β) : β := Nat.rec (f 0) (fun m _ => f (Nat.succ m)) n

theorem force_eq {β : Type} (n : Nat) (f : Nat → β) : force n f = f n := by cases n <;> rfl

/-- `x · r` modulo `charP`, for `r < 2^256`. -/
def xt (r : Nat) : Nat :=
  Nat.xor (Nat.mul 2 r) (Nat.mul charP (Nat.shiftRight r 255))

/-- Horner's scheme: the `n` low coefficients of `a`, highest first. -/
def mulGo (a b : Nat) : Nat → Nat → Nat
  | 0, r => r
  | n + 1, r => force (Nat.xor (xt r) (Nat.mul b (Nat.land (Nat.shiftRight a n) 1))) (fun r => mulGo a b n r)

/-- Product modulo `charP`. -/
def mul (a b : Nat) : Nat := mulGo a b 256 0

theorem charP_lt : charP < 2 ^ 257 := by decide +kernel
theorem charP_xor_lt (r : Nat) (h : r < 2 ^ 256) : xt r < 2 ^ 256 := by
  have h1 : r >>> 255 < 2 := by
    rw [Nat.shiftRight_eq_div_pow]
    have := h
    have e : (2:Nat) ^ 256 = 2 * 2 ^ 255 := by rw [Nat.pow_succ, Nat.mul_comm]
    rw [e] at h
    exact Nat.div_lt_of_lt_mul (by rw [Nat.mul_comm]; exact h)
  have e1 : xt r = (2 * r) ^^^ (charP * (r >>> 255)) := rfl
  rw [e1]
  have e : (2:Nat) ^ 256 = 2 * 2 ^ 255 := by rw [Nat.pow_succ, Nat.mul_comm]
  rcases Nat.lt_or_ge r (2 ^ 255) with hr | hr
  · have : r >>> 255 = 0 := by rw [Nat.shiftRight_eq_div_pow, Nat.div_eq_of_lt hr]
    rw [this, Nat.mul_zero, Nat.xor_zero, e]
    omega
  · have h0 : r >>> 255 = 1 := by
      have : 0 < r >>> 255 := by
        rw [Nat.shiftRight_eq_div_pow]; exact Nat.div_pos hr (Nat.two_pow_pos _)
      omega
    rw [h0, Nat.mul_one]
    -- both have bit 256 set and nothing above
    apply Nat.lt_pow_two_of_testBit
    intro i hi
    rw [Nat.testBit_xor]
    rcases Nat.eq_or_lt_of_le hi with rfl | hi
    · have a : (2 * r).testBit 256 = true := by
        rw [show (256:Nat) = 255 + 1 from rfl, Nat.testBit_succ, Nat.mul_div_cancel_left _ (by decide : 0 < 2)]
        rw [Nat.testBit_eq_decide_div_mod_eq, ← Nat.shiftRight_eq_div_pow, h0]; rfl
      have b : charP.testBit 256 = true := by decide +kernel
      rw [a, b]; rfl
    · have hle : (2:Nat) ^ 257 ≤ 2 ^ i := Nat.pow_le_pow_right (by decide) hi
      have a : (2 * r).testBit i = false := by
        apply Nat.testBit_lt_two_pow
        have e2 : (2:Nat) ^ 257 = 2 * 2 ^ 256 := by rw [Nat.pow_succ 2 256, Nat.mul_comm]
        rw [e2] at hle
        omega
      have b : charP.testBit i = false := Nat.testBit_lt_two_pow (Nat.lt_of_lt_of_le charP_lt hle)
      rw [a, b]; rfl

/-- `charP(T) = 0`. -/
def Annihilates : Prop := ∀ v, app 257 charP v = St.zero

theorem app_xt (hP : Annihilates) (r : Nat) (h : r < 2 ^ 256) (v : St) : app 256 (xt r) v = step (app 256 r v) := by
  rw [← app_succ 256 _ _ (charP_xor_lt r h)]
  have e1 : xt r = (2 * r) ^^^ (charP * (r >>> 255)) := rfl
  rw [e1, app_xor, app_double]
  have h1 : r >>> 255 < 2 := by
    rw [Nat.shiftRight_eq_div_pow]
    have e : (2:Nat) ^ 256 = 2 * 2 ^ 255 := by rw [Nat.pow_succ, Nat.mul_comm]
    rw [e] at h
    exact Nat.div_lt_of_lt_mul (by rw [Nat.mul_comm]; exact h)
  rcases (by omega : r >>> 255 = 0 ∨ r >>> 255 = 1) with h0 | h0 <;> rw [h0]
  · rw [Nat.mul_zero, app_zero, St.add_zero]
  · rw [Nat.mul_one, hP, St.add_zero]

theorem mulGo_spec (hP : Annihilates) (a b : Nat) (hb : b < 2 ^ 256) (v : St) :
    ∀ n m r, n + m = 256 → r < 2 ^ 256 → app 256 r v = app m (a >>> n) (app 256 b v) →
      mulGo a b n r < 2 ^ 256 ∧ app 256 (mulGo a b n r) v = app 256 a (app 256 b v) := by
  intro n
  induction n with
  | zero =>
    intro m r hm hr h
    have : m = 256 := by omega
    subst this
    rw [Nat.shiftRight_zero] at h
    exact ⟨hr, h⟩
  | succ n ih =>
    intro m r hm hr h
    rw [mulGo, force_eq]
    have hbit : (a >>> n) &&& 1 < 2 := by rw [Nat.and_one_is_mod]; exact Nat.mod_lt _ (by decide)
    have hlt : b * ((a >>> n) &&& 1) < 2 ^ 256 := by
      rcases (by omega : (a >>> n) &&& 1 = 0 ∨ (a >>> n) &&& 1 = 1) with h | h <;> rw [h]
      · rw [Nat.mul_zero]; exact Nat.two_pow_pos _
      · rw [Nat.mul_one]; exact hb
    refine ih (m + 1) _ (by omega) (Nat.xor_lt_two_pow (charP_xor_lt r hr) hlt) ?_
    show app 256 (xt r ^^^ (b * ((a >>> n) &&& 1))) v = _
    rw [app_xor, app_xt hP r hr, h]
    have e : a >>> n / 2 = a >>> (n + 1) := by
      rw [Nat.shiftRight_succ]
    generalize hw : app 256 b v = w
    generalize hc : b * ((a >>> n) &&& 1) = c
    have e2 : app (m + 1) (a >>> n) w =
      (if (a >>> n).testBit 0 then w else St.zero).add (app m (a >>> n / 2) (step w)) := rfl
    rw [e2, e, app_step, St.add_comm]
    subst hc
    congr 1
    rw [Nat.testBit_zero, Nat.and_one_is_mod]
    rcases Nat.mod_two_eq_zero_or_one (a >>> n) with h | h <;> rw [h]
    · simp [app_zero]
    · simp [hw]

theorem mul_spec (hP : Annihilates) (a b : Nat) (hb : b < 2 ^ 256) :
    mul a b < 2 ^ 256 ∧ ∀ v, app 256 (mul a b) v = app 256 a (app 256 b v) :=
  ⟨(mulGo_spec hP a b hb St.zero 256 0 0 rfl (Nat.two_pow_pos _) (by rw [app_zero]; rfl)).1,
   fun v => (mulGo_spec hP a b hb v 256 0 0 rfl (Nat.two_pow_pos _) (by rw [app_zero]; rfl)).2⟩

/-! ### `charP(T) = 0` -/

/-- A state from four natural numbers. -/
def rep (a b c d : Nat) : St := ⟨BitVec.ofNat 64 a, BitVec.ofNat 64 b, BitVec.ofNat 64 c, BitVec.ofNat 64 d⟩

/-- `step` on natural numbers, in continuation-passing style. -/
def stepN {β : Type} (a b c d : Nat) (k : Nat → Nat → Nat → Nat → β) : β :=
  force (Nat.xor c a) fun s2 =>
  force (Nat.xor d b) fun s3 =>
  force (Nat.xor b s2) fun s1 =>
  force (Nat.xor a s3) fun s0 =>
  force (Nat.xor s2 (Nat.mod (Nat.shiftLeft b 17) 18446744073709551616)) fun s2 =>
  force (Nat.lor (Nat.mod (Nat.shiftLeft s3 45) 18446744073709551616) (Nat.shiftRight s3 19)) fun s3 =>
  k s0 s1 s2 s3

/-- Horner's scheme for `p(T)` at `(a, b, c, d)`; the accumulator is `(w, x, y, z)`. -/
def horN (p a b c d : Nat) : Nat → Nat → Nat → Nat → Nat → Bool
  | 0, w, x, y, z => Nat.beq (Nat.lor (Nat.lor w x) (Nat.lor y z)) 0
  | n + 1, w, x, y, z =>
    force (Nat.land (Nat.shiftRight p n) 1) fun e =>
    stepN w x y z fun w x y z =>
    force (Nat.xor w (Nat.mul e a)) fun w =>
    force (Nat.xor x (Nat.mul e b)) fun x =>
    force (Nat.xor y (Nat.mul e c)) fun y =>
    force (Nat.xor z (Nat.mul e d)) fun z =>
    horN p a b c d n w x y z

/-- Check all unit states whose single bit has an index below `n`. -/
def unitsOk : Nat → Bool
  | 0 => true
  | n + 1 =>
    horN charP (Nat.pow 2 n) 0 0 0 257 0 0 0 0 && horN charP 0 (Nat.pow 2 n) 0 0 257 0 0 0 0 &&
    horN charP 0 0 (Nat.pow 2 n) 0 257 0 0 0 0 && horN charP 0 0 0 (Nat.pow 2 n) 257 0 0 0 0 && unitsOk n

set_option maxRecDepth 100000 in
theorem unitsOk_64 : unitsOk 64 = true := by decide +kernel

theorem stepN_spec {a b c d : Nat} (ha : a < 2 ^ 64) (hb : b < 2 ^ 64) (hc : c < 2 ^ 64) (hd : d < 2 ^ 64)
    {β : Type} (k : Nat → Nat → Nat → Nat → β) :
    ∃ w x y z, w < 2 ^ 64 ∧ x < 2 ^ 64 ∧ y < 2 ^ 64 ∧ z < 2 ^ 64 ∧
      step (rep a b c d) = rep w x y z ∧ stepN a b c d k = k w x y z := by
  have h1 := Nat.xor_lt_two_pow hc ha
  have h2 := Nat.xor_lt_two_pow hd hb
  have hm : ∀ u : Nat, u % 18446744073709551616 < 2 ^ 64 := fun u => Nat.mod_lt _ (by decide)
  have h3 : (d ^^^ b) >>> 19 < 2 ^ 64 := Nat.lt_of_le_of_lt (Nat.shiftRight_le _ _) h2
  refine ⟨a ^^^ (d ^^^ b), b ^^^ (c ^^^ a), (c ^^^ a) ^^^ ((b <<< 17) % 18446744073709551616),
    (((d ^^^ b) <<< 45) % 18446744073709551616) ||| ((d ^^^ b) >>> 19),
    Nat.xor_lt_two_pow ha h2, Nat.xor_lt_two_pow hb h1, Nat.xor_lt_two_pow h1 (hm _),
    Nat.or_lt_two_pow (hm _) h3, ?_, ?_⟩
  · refine St.mk_congr ?_ ?_ ?_ ?_
    · simp only [rep, Xoshiro.next, BitVec.ofNat_xor]
    · simp only [rep, Xoshiro.next, BitVec.ofNat_xor]
    · apply BitVec.eq_of_toNat_eq
      show (((BitVec.ofNat 64 c ^^^ BitVec.ofNat 64 a) ^^^ (BitVec.ofNat 64 b <<< 17) : W)).toNat = _
      rw [BitVec.toNat_xor, BitVec.toNat_xor, BitVec.toNat_shiftLeft]
      simp only [BitVec.toNat_ofNat, Nat.mod_eq_of_lt ha, Nat.mod_eq_of_lt hb, Nat.mod_eq_of_lt hc]
      rw [Nat.mod_eq_of_lt (Nat.xor_lt_two_pow h1 (hm _))]
    · apply BitVec.eq_of_toNat_eq
      show ((rotl (BitVec.ofNat 64 d ^^^ BitVec.ofNat 64 b) 45 : W)).toNat = _
      unfold rotl
      rw [BitVec.toNat_or, BitVec.toNat_shiftLeft, BitVec.toNat_ushiftRight, BitVec.toNat_xor]
      simp only [BitVec.toNat_ofNat, Nat.mod_eq_of_lt hd, Nat.mod_eq_of_lt hb]
      rw [Nat.mod_eq_of_lt (Nat.or_lt_two_pow (hm _) h3)]
  · simp only [stepN, force_eq]
    rfl

theorem rep_xor_bit (w x y z e a b c d : Nat) (he : e < 2) :
    rep (w ^^^ (e * a)) (x ^^^ (e * b)) (y ^^^ (e * c)) (z ^^^ (e * d)) =
      (rep w x y z).add (if e = 1 then rep a b c d else St.zero) := by
  rcases (by omega : e = 0 ∨ e = 1) with h | h <;> subst h
  · simp [St.add_zero]
  · simp [rep, St.add, BitVec.ofNat_xor]

theorem horN_spec (p : Nat) {a b c d : Nat} (ha : a < 2 ^ 64) (hb : b < 2 ^ 64) (hc : c < 2 ^ 64) (hd : d < 2 ^ 64) :
    ∀ n m w x y z, w < 2 ^ 64 → x < 2 ^ 64 → y < 2 ^ 64 → z < 2 ^ 64 →
      rep w x y z = app m (p >>> n) (rep a b c d) →
      horN p a b c d n w x y z = true → app (n + m) p (rep a b c d) = St.zero := by
  intro n
  induction n with
  | zero =>
    intro m w x y z _ _ _ _ h hk
    rw [Nat.shiftRight_zero] at h
    have hk' : (w ||| x) ||| (y ||| z) = 0 := Nat.eq_of_beq_eq_true hk
    simp only [Nat.or_eq_zero_iff] at hk'
    obtain ⟨⟨h1, h2⟩, h3, h4⟩ := hk'
    subst h1 h2 h3 h4
    rw [Nat.zero_add, ← h]
    rfl
  | succ n ih =>
    intro m w x y z hw hx hy hz h hk
    rw [horN, force_eq] at hk
    obtain ⟨w', x', y', z', hw', hx', hy', hz', hs, hk2⟩ := stepN_spec hw hx hy hz
      (fun w x y z => force (Nat.xor w (Nat.mul (Nat.land (Nat.shiftRight p n) 1) a)) fun w =>
        force (Nat.xor x (Nat.mul (Nat.land (Nat.shiftRight p n) 1) b)) fun x =>
        force (Nat.xor y (Nat.mul (Nat.land (Nat.shiftRight p n) 1) c)) fun y =>
        force (Nat.xor z (Nat.mul (Nat.land (Nat.shiftRight p n) 1) d)) fun z =>
        horN p a b c d n w x y z)
    rw [hk2] at hk
    simp only [force_eq] at hk
    have e1 : (p >>> n) &&& 1 = (p >>> n) % 2 := Nat.and_one_is_mod _
    have he : (p >>> n) % 2 < 2 := Nat.mod_lt _ (by decide)
    have hmul : ∀ u, u < 2 ^ 64 → (p >>> n) % 2 * u < 2 ^ 64 := by
      intro u hu
      rcases (by omega : (p >>> n) % 2 = 0 ∨ (p >>> n) % 2 = 1) with h | h <;> rw [h] <;> omega
    have hk3 : horN p a b c d n (w' ^^^ ((p >>> n) % 2 * a)) (x' ^^^ ((p >>> n) % 2 * b))
        (y' ^^^ ((p >>> n) % 2 * c)) (z' ^^^ ((p >>> n) % 2 * d)) = true := by
      rw [← e1]; exact hk
    have := ih (m + 1) _ _ _ _ (Nat.xor_lt_two_pow hw' (hmul a ha)) (Nat.xor_lt_two_pow hx' (hmul b hb))
      (Nat.xor_lt_two_pow hy' (hmul c hc)) (Nat.xor_lt_two_pow hz' (hmul d hd)) (by
        rw [rep_xor_bit _ _ _ _ _ _ _ _ _ he, ← hs, h]
        have e2 : ∀ v, app (m + 1) (p >>> n) v =
          (if (p >>> n).testBit 0 then v else St.zero).add (app m (p >>> n / 2) (step v)) := fun _ => rfl
        have e : p >>> n / 2 = p >>> (n + 1) := by rw [Nat.shiftRight_succ]
        rw [e2, e, app_step, St.add_comm, Nat.testBit_zero]
        by_cases hq : (p >>> n) % 2 = 1
        · rw [if_pos hq, if_pos (decide_eq_true hq)]
        · rw [if_neg hq, if_neg (by rw [decide_eq_false hq]; decide)]) hk3
    rw [show n + 1 + m = n + (m + 1) by omega]
    exact this

theorem unitsOk_spec : ∀ n, n ≤ 64 → unitsOk n = true → ∀ j, j < n →
    app 257 charP (rep (2 ^ j) 0 0 0) = St.zero ∧ app 257 charP (rep 0 (2 ^ j) 0 0) = St.zero ∧
    app 257 charP (rep 0 0 (2 ^ j) 0) = St.zero ∧ app 257 charP (rep 0 0 0 (2 ^ j)) = St.zero := by
  intro n
  induction n with
  | zero => intro _ _ j hj; omega
  | succ n ih =>
    intro hn h j hj
    rw [unitsOk] at h
    simp only [Bool.and_eq_true] at h
    obtain ⟨⟨⟨⟨h1, h2⟩, h3⟩, h4⟩, h5⟩ := h
    rcases Nat.lt_or_ge j n with hj' | hj'
    · exact ih (by omega) h5 j hj'
    · have : j = n := by omega
      subst this
      have z : (0:Nat) < 2 ^ 64 := Nat.two_pow_pos _
      have u : 2 ^ j < 2 ^ 64 := Nat.pow_lt_pow_right (by decide) (by omega)
      have e0 : ∀ v, rep 0 0 0 0 = app 0 (charP >>> 257) v := fun _ => rfl
      exact ⟨horN_spec charP u z z z 257 0 0 0 0 0 z z z z (e0 _) h1,
        horN_spec charP z u z z 257 0 0 0 0 0 z z z z (e0 _) h2,
        horN_spec charP z z u z 257 0 0 0 0 0 z z z z (e0 _) h3,
        horN_spec charP z z z u 257 0 0 0 0 0 z z z z (e0 _) h4⟩

/-- A map on words that is additive and vanishes at the powers of two is zero. -/
theorem additive_zero (f : Nat → St) (h0 : f 0 = St.zero) (hadd : ∀ a b, f (a ^^^ b) = (f a).add (f b))
    (hu : ∀ j, j < 64 → f (2 ^ j) = St.zero) : ∀ n, n ≤ 64 → ∀ x, x < 2 ^ n → f x = St.zero := by
  intro n
  induction n with
  | zero => intro _ x hx; rw [show x = 0 by simpa using hx]; exact h0
  | succ n ih =>
    intro hn x hx
    rcases Nat.lt_or_ge x (2 ^ n) with h | h
    · exact ih (by omega) x h
    · have e : x = (x - 2 ^ n) ^^^ 2 ^ n := by
        have h2 : x - 2 ^ n < 2 ^ n := by rw [Nat.pow_succ] at hx; omega
        have := Nat.two_pow_add_eq_or_of_lt h2 1
        apply Nat.eq_of_testBit_eq
        intro i
        rw [Nat.testBit_xor, Nat.testBit_two_pow]
        have hx' : x = 2 ^ n + (x - 2 ^ n) := by omega
        generalize x - 2 ^ n = y at *
        subst hx'
        by_cases hi : n = i
        · subst hi
          rw [Nat.testBit_two_pow_add_eq, Nat.testBit_lt_two_pow h2]; simp
        · rcases Nat.lt_or_gt_of_ne hi with hi | hi
          · rw [Nat.testBit_lt_two_pow (Nat.lt_of_lt_of_le hx (Nat.pow_le_pow_right (by decide) hi)),
              Nat.testBit_lt_two_pow (Nat.lt_of_lt_of_le h2 (Nat.pow_le_pow_right (by decide) (by omega)))]
            simp; omega
          · rw [Nat.testBit_two_pow_add_gt hi, decide_eq_false (by omega), Bool.xor_false]
      rw [e, hadd, hu n (by omega), St.add_zero]
      refine ih (by omega) _ ?_
      rw [Nat.pow_succ] at hx; omega

theorem annihilates : Annihilates := by
  intro v
  have hU := unitsOk_spec 64 (Nat.le_refl _) unitsOk_64
  have key : ∀ (g : Nat → St), g 0 = St.zero → (∀ a b, g (a ^^^ b) = (g a).add (g b)) →
      (∀ j, j < 64 → app 257 charP (g (2 ^ j)) = St.zero) → ∀ x, x < 2 ^ 64 → app 257 charP (g x) = St.zero := by
    intro g h0 hadd hu x hx
    refine additive_zero (fun x => app 257 charP (g x)) ?_ ?_ hu 64 (Nat.le_refl _) x hx
    · simp only [h0]; exact app_vzero _ _
    · intro a b; simp only [hadd]; exact app_add _ _ _ _
  have x0 : (0#64 ^^^ 0#64) = 0#64 := rfl
  have h0 := key (fun x => rep x 0 0 0) rfl
    (fun a b => by simp [rep, St.add, BitVec.ofNat_xor]) (fun j hj => (hU j hj).1)
    v.s0.toNat v.s0.isLt
  have h1 := key (fun x => rep 0 x 0 0) rfl
    (fun a b => by simp [rep, St.add, BitVec.ofNat_xor]) (fun j hj => (hU j hj).2.1)
    v.s1.toNat v.s1.isLt
  have h2 := key (fun x => rep 0 0 x 0) rfl
    (fun a b => by simp [rep, St.add, BitVec.ofNat_xor]) (fun j hj => (hU j hj).2.2.1)
    v.s2.toNat v.s2.isLt
  have h3 := key (fun x => rep 0 0 0 x) rfl
    (fun a b => by simp [rep, St.add, BitVec.ofNat_xor]) (fun j hj => (hU j hj).2.2.2)
    v.s3.toNat v.s3.isLt
  have e : v = ((rep v.s0.toNat 0 0 0).add (rep 0 v.s1.toNat 0 0)).add
      ((rep 0 0 v.s2.toNat 0).add (rep 0 0 0 v.s3.toNat)) := by
    obtain ⟨a, b, c, d⟩ := v
    simp [rep, St.add]
  rw [e, app_add, app_add, app_add, h0, h1, h2, h3]
  rfl

/-! ### Powers of `x` -/

/-- `x^e` modulo `charP`: the `n` low bits of `e`, highest first. -/
def powGo (e : Nat) : Nat → Nat → Nat
  | 0, r => r
  | n + 1, r => force (mul r r) fun r =>
    force (Nat.rec r (fun _ _ => xt r) (Nat.land (Nat.shiftRight e n) 1)) fun r => powGo e n r

theorem powGo_spec (e : Nat) : ∀ n r, r < 2 ^ 256 → (∀ v, app 256 r v = step^[e >>> n] v) →
    powGo e n r < 2 ^ 256 ∧ ∀ v, app 256 (powGo e n r) v = step^[e] v := by
  intro n
  induction n with
  | zero => intro r hr h; exact ⟨hr, h⟩
  | succ n ih =>
    intro r hr h
    rw [powGo, force_eq, force_eq]
    obtain ⟨hm, hs⟩ := mul_spec annihilates r r hr
    have e1 : Nat.land (Nat.shiftRight e n) 1 = (e >>> n) % 2 := Nat.and_one_is_mod _
    have e2 : e >>> (n + 1) = e >>> n / 2 := Nat.shiftRight_succ _ _
    rw [e1]
    rw [e2] at h
    rcases Nat.mod_two_eq_zero_or_one (e >>> n) with h0 | h0 <;> rw [h0]
    · refine ih (mul r r) hm (fun v => ?_)
      rw [hs, h, h, ← Function.iterate_add_apply]
      congr 1; omega
    · refine ih (xt (mul r r)) (charP_xor_lt _ hm) (fun v => ?_)
      rw [app_xt annihilates _ hm, hs, h, h, ← Function.iterate_add_apply, ← Function.iterate_succ_apply' step]
      congr 1; omega

/-- `x^e`, for `e < 2^n`. -/
def pow (n e : Nat) : Nat := powGo e n 1

theorem pow_spec (n e : Nat) (h : e < 2 ^ n) : pow n e < 2 ^ 256 ∧ ∀ v, app 256 (pow n e) v = step^[e] v := by
  refine powGo_spec e n 1 (by decide +kernel) (fun v => ?_)
  rw [Nat.shiftRight_eq_div_pow, Nat.div_eq_of_lt h]
  exact app_one 255 v

/-! ### Kernel computations -/

/-- `kJump` as a polynomial. -/
def jumpPoly : Nat := 0x39abdc4529b1661ca9582618e03fc9aad5a61266f0c9392c180ec6d33cfd0aba
/-- `kLongJump` as a polynomial. -/
def longJumpPoly : Nat := 0x39109bb02acbe63577710069854ee241c5004e441c522fb376e15d3efefdcbbf

set_option maxRecDepth 100000

theorem pow_jump : pow 129 (2 ^ 128) = jumpPoly := by decide +kernel
theorem pow_longJump : pow 193 (2 ^ 192) = longJumpPoly := by decide +kernel
theorem pow_full : pow 256 (2 ^ 256 - 1) = 1 := by decide +kernel

/-- For a prime factor `r` of `2^256 - 1`: the inverse of `x^((2^256 - 1) / r) - 1`. -/
def inverses : List (Nat × Nat) := [
  (3, 0x54d6a48aae687fb68b7f13ce6607e276afab085596734aa97762f281b25ed783),
  (5, 0x9b17f5767b72e1a3c673d4c3e369b20235e972559753b37fdedc95dc103781f),
  (17, 0xf4646ef27133b2d46393a4c40448d75b8f3adcab0a20793ef8bb26f5b81e7ecf),
  (257, 0x618e9a9a97b4105e9870464ee696824b10a336ec58f59159b1165cabfe23cd76),
  (641, 0x56ced9120f236c15fdd49ed161d46abc0269afa58693de573c5dcc0645c4b0ff),
  (65537, 0x5b7382b05dc5a20686e618650a39fab806017ce589bb2d98cf9b5a05139e793f),
  (274177, 0x24d5461cfd63732f63b6b60adc840b312db07c0c8c7b46872d3955d70f9e6ac5),
  (6700417, 0x1c10854fe79f6066b6b1fe5c68be2282e701b5777ef01c8fd5b0ea5458d18c36),
  (67280421310721, 0xc3bc6f4888606c0bfb4a6ce96aa43d28506b49c1c962aba2928641dd24af8cf8),
  (59649589127497217, 0x2b0b5d0e0d5dcbfd343a0c7c13920e58856efc82f8b6f3e99a6368bb225afce6),
  (5704689200685129054721, 0xca8fcba3c0dd08871d4e3f7290e3e7fb8436109b90a55fd4bc6fe9d31b611e5)]

/-- All the certificates are correct. -/
def invOk : List (Nat × Nat) → Bool
  | [] => true
  | (r, i) :: rest =>
    force (pow 256 ((2 ^ 256 - 1) / r)) fun q =>
    Nat.blt i (2 ^ 256) && Nat.beq (mul i (Nat.xor q 1)) 1 && invOk rest

theorem inverses_ok : invOk inverses = true := by decide +kernel

theorem inverses_fst : inverses.map Prod.fst = factors := by decide +kernel

theorem invOk_spec : ∀ l, invOk l = true → ∀ r ∈ l.map Prod.fst,
    ∃ i, mul i (pow 256 ((2 ^ 256 - 1) / r) ^^^ 1) = 1 := by
  intro l
  induction l with
  | nil => intro _ r hr; simp at hr
  | cons a l ih =>
    intro h r hr
    obtain ⟨r', i⟩ := a
    rw [invOk, force_eq] at h
    simp only [Bool.and_eq_true] at h
    rcases List.mem_cons.mp hr with rfl | hr
    · exact ⟨i, Nat.eq_of_beq_eq_true h.1.2⟩
    · exact ih h.2 r hr

/-! ### The period -/

theorem step_full (v : St) : step^[2 ^ 256 - 1] v = v := by
  rw [← (pow_spec 256 (2 ^ 256 - 1) (by decide +kernel)).2 v, pow_full]
  exact app_one 255 v

theorem no_smaller (r : Nat) (hr : r ∈ factors) (v : St) (h : step^[(2 ^ 256 - 1) / r] v = v) : v = St.zero := by
  rw [← inverses_fst] at hr
  obtain ⟨i, hi⟩ := invOk_spec inverses inverses_ok r hr
  have hlt : (2 ^ 256 - 1) / r < 2 ^ 256 :=
    Nat.lt_of_le_of_lt (Nat.div_le_self _ _) (by decide +kernel)
  obtain ⟨hp, hs⟩ := pow_spec 256 ((2 ^ 256 - 1) / r) hlt
  have h1 : (1:Nat) < 2 ^ 256 := by decide +kernel
  have hm := (mul_spec annihilates i (pow 256 ((2 ^ 256 - 1) / r) ^^^ 1) (Nat.xor_lt_two_pow hp h1)).2 v
  rw [hi, app_xor, hs, h, show app 256 1 v = v from app_one 255 v, St.add_self, app_vzero] at hm
  exact hm

/-- The state returns after `k` calls exactly if the period `2^256 - 1` divides `k`. -/
theorem period (s : St) (hs : s ≠ St.zero) (k : Nat) : step^[k] s = s ↔ (2 ^ 256 - 1) ∣ k := by
  have hN : Function.IsPeriodicPt step (2 ^ 256 - 1) s := step_full s
  constructor
  · intro h
    have hd := hN.minimalPeriod_dvd
    have hk : Function.minimalPeriod step s ∣ k := Function.IsPeriodicPt.minimalPeriod_dvd h
    obtain ⟨c, hc⟩ := hd
    by_cases h1 : c = 1
    · rw [h1, Nat.mul_one] at hc; rw [hc]; exact hk
    · exfalso
      obtain ⟨r, hr, d, hd⟩ := Nat.exists_prime_and_dvd h1
      have hmem : r ∈ factors := mem_factors hr ⟨Function.minimalPeriod step s * d, by rw [hc, hd]; ring⟩
      refine hs (no_smaller r hmem s ?_)
      have e : (2 ^ 256 - 1) / r = Function.minimalPeriod step s * d := by
        rw [hc, hd, show Function.minimalPeriod step s * (r * d) = r * (Function.minimalPeriod step s * d) by ring]
        exact Nat.mul_div_cancel_left _ hr.pos
      rw [e]
      exact (Function.isPeriodicPt_minimalPeriod step s).mul_const d
  · rintro ⟨c, rfl⟩
    exact hN.mul_const c

/-- Two positions of the stream have the same state exactly if they are congruent modulo the period. -/
theorem iterate_eq_iff (s : St) (hs : s ≠ St.zero) (i j : Nat) :
    step^[i] s = step^[j] s ↔ i % (2 ^ 256 - 1) = j % (2 ^ 256 - 1) := by
  have hN : Function.IsPeriodicPt step (2 ^ 256 - 1) s := step_full s
  constructor
  · intro h
    have h2 : step^[(2 ^ 256 - 2) * i] (step^[i] s) = step^[(2 ^ 256 - 2) * i] (step^[j] s) := by rw [h]
    rw [← Function.iterate_add_apply, ← Function.iterate_add_apply] at h2
    have e : (2 ^ 256 - 2) * i + i = (2 ^ 256 - 1) * i := by
      rw [show (2:Nat) ^ 256 - 1 = (2 ^ 256 - 2) + 1 by decide +kernel]; ring
    rw [e] at h2
    have h3 : step^[(2 ^ 256 - 1) * i] s = s := hN.mul_const i
    rw [h3] at h2
    obtain ⟨c, hc⟩ := (period s hs _).mp h2.symm
    have e2 : (2 ^ 256 - 1) * i + j = (2 ^ 256 - 1) * c + i := by rw [← hc, ← e]; ring
    have := congrArg (· % (2 ^ 256 - 1)) e2
    simp only [Nat.mul_add_mod] at this
    exact this.symm
  · intro h
    rw [← Function.IsPeriodicPt.iterate_mod_apply hN i, ← Function.IsPeriodicPt.iterate_mod_apply hN j, h]

end Rnd
end Hwy
