import Verif.BitPackPrograms
import Mathlib.Tactic.Ring

/-! # C26: Unpack after Pack returns the original values

The proof is by reflection: each bit of each variable is tracked as 0, 1, a bit of one of the inputs, or
unknown (`AV`); this tracking is proved sound for all inputs and vector lengths (`aexec_sound`), and the
kernel evaluates it on the finitely many programs. -/

namespace Hwy
namespace BitPack
open Vec

/-! ### Symbolic lanes

A symbolic lane is a natural number with one 16-bit field per bit of the lane: field 0 means the bit is zero,
field `2^15 + 64 s + j` means it equals bit `j` of input slot `s`. -/

inductive AV
  | top
  | const (n : Nat)
  | sym (x : Nat)
  deriving DecidableEq

def field (x j : Nat) : Nat := x / 2 ^ (16 * j) % 2 ^ 16

theorem field_testBit (x j i : Nat) (hi : i < 16) : (field x j).testBit i = x.testBit (16 * j + i) := by
  unfold field
  rw [Nat.testBit_mod_two_pow, Nat.testBit_div_two_pow, Nat.add_comm]
  simp [hi]

theorem field_lt (x j : Nat) : field x j < 2 ^ 16 := Nat.mod_lt _ (by decide)

theorem field_eq (f x j : Nat) (hf : f < 2 ^ 16) (h : ∀ i, i < 16 → x.testBit (16 * j + i) = f.testBit i) :
    field x j = f := by
  apply Nat.eq_of_testBit_eq
  intro i
  by_cases hi : i < 16
  · rw [field_testBit _ _ _ hi, h i hi]
  · have h1 : 2 ^ 16 ≤ 2 ^ i := Nat.pow_le_pow_right (by decide) (by omega)
    rw [Nat.testBit_lt_two_pow (Nat.lt_of_lt_of_le (field_lt _ _) h1),
      Nat.testBit_lt_two_pow (Nat.lt_of_lt_of_le hf h1)]

theorem field_and (x y j : Nat) : field (x &&& y) j = field x j &&& field y j := by
  apply field_eq
  · exact Nat.lt_of_le_of_lt Nat.and_le_left (field_lt _ _)
  · intro i hi
    rw [Nat.testBit_and, Nat.testBit_and, field_testBit _ _ _ hi, field_testBit _ _ _ hi]

theorem field_or (x y j : Nat) : field (x ||| y) j = field x j ||| field y j := by
  apply field_eq
  · exact Nat.or_lt_two_pow (field_lt _ _) (field_lt _ _)
  · intro i hi
    rw [Nat.testBit_or, Nat.testBit_or, field_testBit _ _ _ hi, field_testBit _ _ _ hi]

theorem field_shl (x k w j : Nat) (hj : j < w) :
    field ((x <<< (16 * k)) % 2 ^ (16 * w)) j = if j < k then 0 else field x (j - k) := by
  apply field_eq
  · split
    · decide
    · exact field_lt _ _
  · intro i hi
    rw [Nat.testBit_mod_two_pow, Nat.testBit_shiftLeft]
    have h1 : 16 * j + i < 16 * w := by omega
    by_cases h : j < k
    · have : ¬ 16 * j + i ≥ 16 * k := by omega
      simp [h, this]
    · rw [if_neg h, field_testBit _ _ _ hi]
      have h2 : 16 * j + i ≥ 16 * k := by omega
      simp only [h1, h2, decide_true, Bool.true_and]
      congr 1; omega

theorem field_shr (x k j : Nat) : field (x >>> (16 * k)) j = field x (k + j) := by
  apply field_eq _ _ _ (field_lt _ _)
  intro i hi
  rw [field_testBit _ _ _ hi, Nat.testBit_shiftRight]
  congr 1; omega

theorem field_ge (x w j : Nat) (hx : x < 2 ^ (16 * w)) (hj : w ≤ j) : field x j = 0 := by
  unfold field
  rw [Nat.div_eq_of_lt, Nat.zero_mod]
  exact Nat.lt_of_lt_of_le hx (Nat.pow_le_pow_right (by decide) (by omega))

/-- Each bit of `n` repeated over a field. -/
def expand (n : Nat) : Nat → Nat
  | 0 => 0
  | w + 1 => expand n w + (if n.testBit w then (2 ^ 16 - 1) * 2 ^ (16 * w) else 0)

theorem expand_lt (n : Nat) : ∀ w, expand n w < 2 ^ (16 * w) := by
  intro w
  induction w with
  | zero => simp [expand]
  | succ w ih =>
    unfold expand
    have e : 2 ^ (16 * (w + 1)) = 2 ^ 16 * 2 ^ (16 * w) := by rw [Nat.mul_add, Nat.mul_one, Nat.add_comm, Nat.pow_add]
    rw [e]
    split <;> omega

theorem field_add_high (a b w j : Nat) (ha : a < 2 ^ (16 * w)) (hb : b < 2 ^ 16) (hj : j ≤ w) :
    field (a + b * 2 ^ (16 * w)) j = if j < w then field a j else b := by
  unfold field
  by_cases h : j < w
  · rw [if_pos h]
    have e : b * 2 ^ (16 * w) = 2 ^ (16 * j) * (2 ^ 16 * (b * 2 ^ (16 * (w - j - 1)))) := by
      have : 16 * w = 16 * j + (16 + 16 * (w - j - 1)) := by omega
      rw [this, Nat.pow_add, Nat.pow_add]
      ring
    rw [e, Nat.add_mul_div_left _ _ (Nat.two_pow_pos _), Nat.add_mul_mod_self_left]
  · have : j = w := by omega
    subst this
    rw [if_neg h, Nat.add_mul_div_right _ _ (Nat.two_pow_pos _), Nat.div_eq_of_lt ha, Nat.zero_add,
      Nat.mod_eq_of_lt hb]

theorem field_expand (n : Nat) : ∀ w j, j < w → field (expand n w) j = if n.testBit j then 2 ^ 16 - 1 else 0 := by
  intro w
  induction w with
  | zero => intro j h; omega
  | succ w ih =>
    intro j hj
    unfold expand
    have e : (if n.testBit w = true then (2 ^ 16 - 1) * 2 ^ (16 * w) else 0) =
        (if n.testBit w = true then 2 ^ 16 - 1 else 0) * 2 ^ (16 * w) := by split <;> simp
    rw [e, field_add_high _ _ _ _ (expand_lt n w) (by split <;> decide) (by omega)]
    by_cases h : j < w
    · rw [if_pos h, ih j h]
    · have : j = w := by omega
      subst this
      rw [if_neg h]

def γ {w : Nat} (ρ : Nat → BitVec w) (f : Nat) (b : Bool) : Prop :=
  (f = 0 ∧ b = false) ∨ (2 ^ 15 ≤ f ∧ b = (ρ ((f - 2 ^ 15) / 64)).getLsbD ((f - 2 ^ 15) % 64))

/-- Abstract value describes the lane. -/
def Sound {w : Nat} (ρ : Nat → BitVec w) : AV → BitVec w → Prop
  | .top, _ => True
  | .const n, v => v = BitVec.ofNat w n
  | .sym x, v => x < 2 ^ (16 * w) ∧ ∀ j, j < w → γ ρ (field x j) (v.getLsbD j)

/-- Valid bit of every field. -/
def validMask : Nat → Nat
  | 0 => 0
  | w + 1 => validMask w + 2 ^ 15 * 2 ^ (16 * w)

def aAnd (w : Nat) : AV → AV → AV
  | .sym x, .const n => .sym (x &&& expand n w)
  | .const n, .sym x => .sym (x &&& expand n w)
  | _, _ => .top

def aAndNot (w : Nat) : AV → AV → AV
  | .const n, .sym x => .sym (x &&& expand (2 ^ w - 1 - n) w)
  | _, _ => .top

/-- Or and xor of lanes that have no bit position in common. -/
def aOr (w : Nat) : AV → AV → AV
  | .sym x, .sym y => if x &&& y &&& validMask w == 0 then .sym (x ||| y) else .top
  | _, _ => .top

def aShl (w k : Nat) : AV → AV
  | .sym x => .sym ((x <<< (16 * k)) % 2 ^ (16 * w))
  | .const n => .const ((n <<< k) % 2 ^ w)
  | .top => .top

def aShr (k : Nat) : AV → AV
  | .sym x => .sym (x >>> (16 * k))
  | _ => .top

section
variable {w : Nat} (ρ : Nat → BitVec w)

theorem γ_mask {f : Nat} {b : Bool} (h : γ ρ f b) (hf : f < 2 ^ 16) (c : Bool) :
    γ ρ (f &&& (if c then 2 ^ 16 - 1 else 0)) (b && c) := by
  cases c with
  | false => left; simp
  | true =>
    have : f &&& (2 ^ 16 - 1) = f := by rw [Nat.and_two_pow_sub_one_eq_mod, Nat.mod_eq_of_lt hf]
    simp only [if_true, this, Bool.and_true]
    exact h

theorem sym_mask {x n : Nat} {v c : BitVec w} (h : Sound ρ (.sym x) v)
    (hc : ∀ j, j < w → c.getLsbD j = (v.getLsbD j && n.testBit j)) : Sound ρ (.sym (x &&& expand n w)) c := by
  refine ⟨Nat.lt_of_le_of_lt Nat.and_le_left h.1, ?_⟩
  intro j hj
  rw [field_and, field_expand _ _ _ hj, hc j hj]
  exact γ_mask ρ (h.2 j hj) (field_lt _ _) _

theorem sound_and {a b : AV} {u v : BitVec w} (h1 : Sound ρ a u) (h2 : Sound ρ b v) :
    Sound ρ (aAnd w a b) (u &&& v) := by
  unfold aAnd
  split
  · rename_i x n
    apply sym_mask ρ h1
    intro j hj
    simp only [Sound] at h2
    subst h2
    rw [BitVec.getLsbD_and, BitVec.getLsbD_ofNat]
    simp only [hj, decide_true, Bool.true_and]
  · rename_i n x
    apply sym_mask ρ h2
    intro j hj
    simp only [Sound] at h1
    subst h1
    rw [BitVec.getLsbD_and, BitVec.getLsbD_ofNat, Bool.and_comm]
    simp only [hj, decide_true, Bool.true_and]
  · trivial

theorem sound_andNot {a b : AV} {u v : BitVec w} (h1 : Sound ρ a u) (h2 : Sound ρ b v)
    (hn : ∀ n, a = .const n → n < 2 ^ w) :
    Sound ρ (aAndNot w a b) (~~~ u &&& v) := by
  unfold aAndNot
  split
  · rename_i n x
    apply sym_mask ρ h2
    intro j hj
    simp only [Sound] at h1
    subst h1
    have hlt := hn n rfl
    rw [show 2 ^ w - 1 - n = 2 ^ w - (n + 1) by omega, Nat.testBit_two_pow_sub_succ hlt]
    rw [BitVec.getLsbD_and, BitVec.getLsbD_not, BitVec.getLsbD_ofNat, Bool.and_comm]
    simp only [hj, decide_true, Bool.true_and]
  · trivial

theorem field_validMask : ∀ w j, j < w → field (validMask w) j = 2 ^ 15 ∧ validMask w < 2 ^ (16 * w) := by
  intro w
  induction w with
  | zero => intro j h; omega
  | succ w ih =>
    intro j hj
    have hlt : validMask w < 2 ^ (16 * w) := by
      rcases Nat.eq_zero_or_pos w with h | h
      · subst h; decide
      · exact (ih 0 h).2
    unfold validMask
    constructor
    · rw [field_add_high _ _ _ _ hlt (by decide) (by omega)]
      by_cases h : j < w
      · rw [if_pos h, (ih j h).1]
      · rw [if_neg h]
    · have e : 2 ^ (16 * (w + 1)) = 2 ^ 16 * 2 ^ (16 * w) := by
        rw [Nat.mul_add, Nat.mul_one, Nat.add_comm, Nat.pow_add]
      rw [e]; omega

theorem γ_valid {f : Nat} {b : Bool} (h : γ ρ f b) (hf : f < 2 ^ 16) (hv : f.testBit 15 = false) :
    f = 0 ∧ b = false := by
  rcases h with h | h
  · exact h
  · exfalso
    have : f.testBit 15 = true := by
      rw [Nat.testBit_eq_decide_div_mod_eq]
      have : f / 2 ^ 15 = 1 := by omega
      rw [this]; rfl
    rw [this] at hv; simp at hv

theorem sound_disj {a b : AV} {u v c : BitVec w} (h1 : Sound ρ a u) (h2 : Sound ρ b v)
    (hc1 : ∀ j, j < w → u.getLsbD j = false → c.getLsbD j = v.getLsbD j)
    (hc2 : ∀ j, j < w → v.getLsbD j = false → c.getLsbD j = u.getLsbD j) :
    Sound ρ (aOr w a b) c := by
  unfold aOr
  split
  · rename_i x y
    split
    · rename_i hz
      rw [beq_iff_eq] at hz
      refine ⟨Nat.or_lt_two_pow h1.1 h2.1, ?_⟩
      intro j hj
      have hb : x.testBit (16 * j + 15) = false ∨ y.testBit (16 * j + 15) = false := by
        have := congrArg (fun z => z.testBit (16 * j + 15)) hz
        simp only [Nat.testBit_and, Nat.zero_testBit] at this
        have hv : (validMask w).testBit (16 * j + 15) = true := by
          rw [← field_testBit _ _ _ (by decide), (field_validMask w j hj).1]; decide
        rw [hv] at this
        revert this
        cases x.testBit (16 * j + 15) <;> cases y.testBit (16 * j + 15) <;> simp
      rw [field_or]
      rcases hb with hb | hb
      · rw [← field_testBit _ _ _ (by decide)] at hb
        obtain ⟨e1, e2⟩ := γ_valid ρ (h1.2 j hj) (field_lt _ _) hb
        rw [e1, Nat.zero_or, hc1 j hj e2]
        exact h2.2 j hj
      · rw [← field_testBit _ _ _ (by decide)] at hb
        obtain ⟨e1, e2⟩ := γ_valid ρ (h2.2 j hj) (field_lt _ _) hb
        rw [e1, Nat.or_zero, hc2 j hj e2]
        exact h1.2 j hj
    · trivial
  · trivial

theorem sound_or {a b : AV} {u v : BitVec w} (h1 : Sound ρ a u) (h2 : Sound ρ b v) :
    Sound ρ (aOr w a b) (u ||| v) :=
  sound_disj ρ h1 h2 (fun j _ h => by simp [h]) (fun j _ h => by simp [h])

theorem sound_xor {a b : AV} {u v : BitVec w} (h1 : Sound ρ a u) (h2 : Sound ρ b v) :
    Sound ρ (aOr w a b) (u ^^^ v) :=
  sound_disj ρ h1 h2 (fun j _ h => by simp [h]) (fun j _ h => by simp [h])

theorem sound_shl (k : Nat) {a : AV} {u : BitVec w} (h : Sound ρ a u) : Sound ρ (aShl w k a) (u <<< k) := by
  unfold aShl
  split
  · refine ⟨Nat.mod_lt _ (Nat.two_pow_pos _), ?_⟩
    intro j hj
    rw [field_shl _ _ _ _ hj, BitVec.getLsbD_shiftLeft]
    by_cases hjk : j < k
    · left; simp [hjk]
    · rw [if_neg hjk]
      simpa [hj, hjk] using h.2 (j - k) (by omega)
  · rename_i n
    simp only [Sound] at h ⊢
    subst h
    apply BitVec.eq_of_toNat_eq
    rw [BitVec.toNat_shiftLeft, BitVec.toNat_ofNat, BitVec.toNat_ofNat, Nat.shiftLeft_eq, Nat.shiftLeft_eq,
      Nat.mod_mod, Nat.mod_mul_mod]
  · trivial

theorem sound_shr (k : Nat) {a : AV} {u : BitVec w} (h : Sound ρ a u) : Sound ρ (aShr k a) (u >>> k) := by
  unfold aShr
  split
  · refine ⟨Nat.lt_of_le_of_lt (Nat.shiftRight_le _ _) h.1, ?_⟩
    intro j hj
    rw [field_shr, BitVec.getLsbD_ushiftRight]
    by_cases hjk : k + j < w
    · exact h.2 (k + j) hjk
    · left
      exact ⟨field_ge _ w _ h.1 (by omega), BitVec.getLsbD_of_ge _ _ (by omega)⟩
  · trivial

end

def lookup : List (Nat × AV) → Nat → AV
  | [], _ => .top
  | (i, a) :: l, k => if i == k then a else lookup l k

def E.aeval (w : Nat) (regs : List (Nat × AV)) : E → AV
  | .v i => lookup regs i
  | .c n => .const (n % 2 ^ w)
  | .and a b => aAnd w (a.aeval w regs) (b.aeval w regs)
  | .or a b => aOr w (a.aeval w regs) (b.aeval w regs)
  | .andNot a b => aAndNot w (a.aeval w regs) (b.aeval w regs)
  | .xor3 a b e => aOr w (aOr w (a.aeval w regs) (b.aeval w regs)) (e.aeval w regs)
  | .orAnd o a b => aOr w (o.aeval w regs) (aAnd w (a.aeval w regs) (b.aeval w regs))
  | .add a b => if a = b then aShl w 1 (a.aeval w regs) else .top
  | .shl k a => aShl w k (a.aeval w regs)
  | .shr k a => aShr k (a.aeval w regs)

/-- Constants are reduced to the lane width. -/
def Small (w : Nat) (a : AV) : Prop := ∀ n, a = .const n → n < 2 ^ w

theorem small_shl {w : Nat} (k : Nat) (a : AV) : Small w (aShl w k a) := by
  intro m hm
  cases a with
  | top => simp [aShl] at hm
  | sym x => simp [aShl] at hm
  | const n =>
    simp only [aShl, AV.const.injEq] at hm
    rw [← hm]; exact Nat.mod_lt _ (Nat.two_pow_pos _)

theorem small_aeval {w : Nat} (regs : List (Nat × AV)) (h : ∀ i, Small w (lookup regs i)) (e : E) :
    Small w (e.aeval w regs) := by
  cases e with
  | v i => exact h i
  | c n => intro m hm; simp only [E.aeval, AV.const.injEq] at hm; rw [← hm]; exact Nat.mod_lt _ (Nat.two_pow_pos _)
  | and a b => intro m hm; simp only [E.aeval, aAnd] at hm; split at hm <;> simp at hm
  | or a b => intro m hm; simp only [E.aeval, aOr] at hm; split at hm <;> [split at hm; skip] <;> simp at hm
  | andNot a b => intro m hm; simp only [E.aeval, aAndNot] at hm; split at hm <;> simp at hm
  | xor3 a b e =>
    intro m hm
    simp only [E.aeval] at hm
    rw [aOr.eq_def] at hm
    split at hm <;> [split at hm; skip] <;> simp at hm
  | orAnd o a b =>
    intro m hm
    simp only [E.aeval] at hm
    rw [aOr.eq_def] at hm
    split at hm <;> [split at hm; skip] <;> simp at hm
  | add a b =>
    intro m hm
    simp only [E.aeval] at hm
    split at hm
    · exact small_shl _ _ m hm
    · simp at hm
  | shl k a => intro m hm; exact small_shl _ _ m hm
  | shr k a => intro m hm; simp only [E.aeval, aShr] at hm; split at hm <;> simp at hm

theorem aeval_sound {w : Nat} (ρ : Nat → BitVec w) (regs : List (Nat × AV)) (env : Nat → BitVec w)
    (hs : ∀ i, Small w (lookup regs i))
    (h : ∀ i, Sound ρ (lookup regs i) (env i)) (e : E) : Sound ρ (e.aeval w regs) (e.eval env) := by
  induction e with
  | v i => exact h i
  | c n =>
    simp only [E.aeval, E.eval, Sound]
    apply BitVec.eq_of_toNat_eq
    simp
  | and a b ha hb => exact sound_and ρ ha hb
  | or a b ha hb => exact sound_or ρ ha hb
  | andNot a b ha hb => exact sound_andNot ρ ha hb (small_aeval regs hs a)
  | xor3 a b e ha hb he => exact sound_xor ρ (sound_xor ρ ha hb) he
  | orAnd o a b ho ha hb => exact sound_or ρ ho (sound_and ρ ha hb)
  | add a b ha hb =>
    unfold E.aeval
    by_cases hab : a = b
    · subst hab
      rw [if_pos rfl]
      have e : (E.add a a).eval env = a.eval env <<< 1 := by
        simp only [E.eval]
        apply BitVec.eq_of_toNat_eq
        rw [BitVec.toNat_add, BitVec.toNat_shiftLeft, Nat.shiftLeft_eq]
        congr 1; omega
      rw [e]
      exact sound_shl ρ 1 ha
    · rw [if_neg hab]; trivial
  | shl k a ha => exact sound_shl ρ k ha
  | shr k a ha => exact sound_shr ρ k ha

/-- Symbolic execution: the map from output slots to symbolic lanes. -/
def aexec (w : Nat) (ain : Nat → AV) : List Stmt → List (Nat × AV) → List (Nat × AV) → List (Nat × AV)
  | [], _, mem => mem
  | .load dst slot :: p, regs, mem => aexec w ain p ((dst, ain slot) :: regs) mem
  | .set dst e :: p, regs, mem => aexec w ain p ((dst, e.aeval w regs) :: regs) mem
  | .store e slot :: p, regs, mem => aexec w ain p regs ((slot, e.aeval w regs) :: mem)

theorem small_aexec (w : Nat) (ain : Nat → AV) (hsm : ∀ s, Small w (ain s)) : ∀ (p : List Stmt)
    (aregs mem : List (Nat × AV)), (∀ i, Small w (lookup aregs i)) → (∀ i, Small w (lookup mem i)) →
    ∀ i, Small w (lookup (aexec w ain p aregs mem) i) := by
  have cons : ∀ (l : List (Nat × AV)) (d : Nat) (a : AV), (∀ i, Small w (lookup l i)) → Small w a →
      ∀ i, Small w (lookup ((d, a) :: l) i) := by
    intro l d a h ha i
    unfold lookup
    split
    · exact ha
    · exact h i
  intro p
  induction p with
  | nil => intro aregs mem _ h; exact h
  | cons st p ih =>
    intro aregs mem h1 h2
    cases st with
    | load dst slot => exact ih _ _ (cons _ _ _ h1 (hsm slot)) h2
    | set dst e => exact ih _ _ (cons _ _ _ h1 (small_aeval _ h1 e)) h2
    | store e slot => exact ih _ _ h1 (cons _ _ _ h2 (small_aeval _ h1 e))

/-- All slots are inside the given number of input and output vectors. -/
def inBounds (nin nout : Nat) (p : List Stmt) : Bool :=
  p.all (fun s => match s with
    | .load _ slot => slot < nin
    | .set _ _ => true
    | .store _ slot => slot < nout)

/-! ### Memory -/

/-- Laws of `BitCast`. -/
structure Cast.Ok {B w : Nat} (C : Cast B w) : Prop where
  rpos : 0 < C.r
  size : w = C.r * B
  bit : ∀ f j, j < w → (C.toLane f).getLsbD j = (f (j / B)).getLsbD (j % B)
  ofTo : ∀ f t, t < C.r → C.ofLane (C.toLane f) t = f t
  toOf : ∀ x f, (∀ t, t < C.r → f t = C.ofLane x t) → C.toLane f = x

theorem Cast.same_ok (B : Nat) : (Cast.same B).Ok where
  rpos := Nat.one_pos
  size := by simp [Cast.same]
  bit := by
    intro f j hj
    rw [Nat.div_eq_of_lt hj, Nat.mod_eq_of_lt hj]; rfl
  ofTo := by
    intro f t ht
    have : t = 0 := by simp [Cast.same] at ht; omega
    subst this; rfl
  toOf := by intro x f h; exact h 0 Nat.one_pos

theorem Cast.wide_ok : Cast.wide.Ok where
  rpos := by decide
  size := rfl
  bit := by
    intro f j hj
    simp only [Cast.wide]
    rw [BitVec.getLsbD_append]
    by_cases h : j < 8
    · rw [Nat.div_eq_of_lt h, Nat.mod_eq_of_lt h]; simp [h]
    · have e1 : j / 8 = 1 := by omega
      have e2 : j % 8 = j - 8 := by omega
      rw [e1, e2]; simp [h]
  ofTo := by
    intro f t ht
    simp only [Cast.wide] at ht ⊢
    have : t = 0 ∨ t = 1 := by omega
    rcases this with rfl | rfl
    · rw [if_pos rfl]
      apply BitVec.eq_of_getLsbD_eq
      intro i hi
      simp only [BitVec.getLsbD_setWidth, hi, decide_true, Bool.true_and, BitVec.getLsbD_append, cond_true, if_true]
    · rw [if_neg (by decide)]
      apply BitVec.eq_of_getLsbD_eq
      intro i hi
      simp only [BitVec.getLsbD_setWidth, hi, decide_true, Bool.true_and, BitVec.getLsbD_ushiftRight,
        BitVec.getLsbD_append]
      have : ¬ (8 + i < 8) := by omega
      simp [this]
  toOf := by
    intro x f h
    have h0 := h 0 (by decide)
    have h1 := h 1 (by decide)
    simp only [Cast.wide] at h0 h1 ⊢
    rw [if_pos trivial] at h0
    rw [if_neg (by decide)] at h1
    rw [h0, h1]
    apply BitVec.eq_of_getLsbD_eq
    intro i hi
    rw [BitVec.getLsbD_append]
    by_cases h : i < 8
    · simp [h]
    · have e : 8 + (i - 8) = i := by omega
      have : i - 8 < 8 := by omega
      simp [h, BitVec.getLsbD_ushiftRight, e, this]

/-- Where a stored vector ends up. -/
theorem memLane_store {B w : Nat} (C : Cast B w) (hC : C.Ok) (N : Nat) (hN : C.r ∣ N)
    (out out' : List (BitVec B)) (x : Nat → BitVec w) (slot : Nat)
    (h : storeU ((List.range N).map (fun i => C.ofLane (x (i / C.r)) (i % C.r))) out (slot * N) = .ok out')
    (s l : Nat) (hl : C.r * l < N) :
    memLane C N out' s l = if s = slot then x l else memLane C N out s l := by
  unfold storeU at h
  split at h
  case isFalse => simp at h
  case isTrue hb =>
    simp only [List.length_map, List.length_range, Except.ok.injEq] at h hb
    have hr := hC.rpos
    obtain ⟨q, rfl⟩ := hN
    have hlq : l < q := Nat.lt_of_mul_lt_mul_left hl
    have hle : C.r * l + C.r ≤ C.r * q := by
      calc C.r * l + C.r = C.r * (l + 1) := by rw [Nat.mul_add, Nat.mul_one]
        _ ≤ _ := Nat.mul_le_mul_left _ hlq
    generalize hn : C.r * q = n at *
    by_cases hs : s = slot
    · subst hs
      rw [if_pos rfl]
      unfold memLane
      apply hC.toOf
      intro t ht
      rw [← h, List.getD_eq_getElem?_getD, List.append_assoc,
        List.getElem?_append_right (by rw [List.length_take]; omega),
        List.length_take, Nat.min_eq_left (by omega), List.getElem?_append_left (by simp; omega)]
      rw [show s * n + C.r * l + t - s * n = C.r * l + t by omega]
      rw [List.getElem?_map, List.getElem?_range (by omega)]
      simp only [Option.map_some, Option.getD_some]
      rw [Nat.mul_add_div hr, Nat.div_eq_of_lt ht, Nat.mul_add_mod, Nat.mod_eq_of_lt ht, Nat.add_zero]
    · rw [if_neg hs]
      unfold memLane
      have hd : ∀ t, t < C.r → s * n + C.r * l + t < slot * n ∨ slot * n + n ≤ s * n + C.r * l + t := by
        intro t ht
        rcases Nat.lt_or_gt_of_ne hs with h1 | h1
        · left
          have : (s + 1) * n ≤ slot * n := Nat.mul_le_mul_right _ h1
          rw [Nat.add_mul, Nat.one_mul] at this
          omega
        · right
          have : (slot + 1) * n ≤ s * n := Nat.mul_le_mul_right _ h1
          rw [Nat.add_mul, Nat.one_mul] at this
          omega
      have : ∀ t, t < C.r → out'.getD (s * n + C.r * l + t) 0 = out.getD (s * n + C.r * l + t) 0 := by
        intro t ht
        have hd := hd t ht
        generalize s * n + C.r * l + t = i at *
        rw [← h, List.getD_eq_getElem?_getD, List.getD_eq_getElem?_getD, List.append_assoc]
        rcases hd with h1 | h1
        · rw [List.getElem?_append_left (by rw [List.length_take]; omega), List.getElem?_take, if_pos h1]
        · rw [List.getElem?_append_right (by rw [List.length_take]; omega), List.length_take,
            Nat.min_eq_left (by omega), List.getElem?_append_right (by simp; omega)]
          simp only [List.length_map, List.length_range]
          rw [List.getElem?_drop, show slot * n + n + (i - slot * n - n) = i by omega]
      apply hC.toOf
      intro t ht
      rw [hC.ofTo _ _ ht, this t ht]

theorem lookup_cons_sound {w : Nat} (ρ : Nat → BitVec w) (regs : List (Nat × AV)) (env : Nat → BitVec w)
    (h : ∀ i, Sound ρ (lookup regs i) (env i)) (d : Nat) (a : AV) (x : BitVec w) (ha : Sound ρ a x) (i : Nat) :
    Sound ρ (lookup ((d, a) :: regs) i) (upd env d x i) := by
  unfold lookup upd
  by_cases hi : i = d
  · subst hi; simpa using ha
  · have : ¬ d = i := fun e => hi e.symm
    simpa [hi, this] using h i

theorem small_cons {w : Nat} (regs : List (Nat × AV)) (h : ∀ i, Small w (lookup regs i)) (d : Nat) (a : AV)
    (ha : Small w a) (i : Nat) : Small w (lookup ((d, a) :: regs) i) := by
  unfold lookup
  split
  · exact ha
  · exact h i

/-- Symbolic execution describes every lane of every output vector; the program does not leave the
memory it was given, and does not change anything beyond its `nout` output vectors. -/
theorem aexec_sound {B w : Nat} (C : Cast B w) (hC : C.Ok) (N : Nat) (hN : C.r ∣ N)
    (gin gout : BitVec w → BitVec w) (inp : List (BitVec B)) (nin nout : Nat)
    (hin : nin * N ≤ inp.length) (ρ : Nat → Nat → BitVec w) (ain : Nat → AV)
    (hsm : ∀ s, Small w (ain s))
    (hain : ∀ s l, s < nin → C.r * l < N → Sound (ρ l) (ain s) (gin (memLane C N inp s l))) :
    ∀ (p : List Stmt) (aregs mem : List (Nat × AV)) (regs : Nat → Nat → BitVec w) (out : List (BitVec B)),
      inBounds nin nout p = true → nout * N ≤ out.length → (∀ i, Small w (lookup aregs i)) →
      (∀ l, C.r * l < N → ∀ i, Sound (ρ l) (lookup aregs i) (regs i l)) →
      (∀ s l, C.r * l < N → ∃ x, memLane C N out s l = gout x ∧ Sound (ρ l) (lookup mem s) x) →
      ∃ out', exec C N gin gout inp p regs out = .ok out' ∧ out'.length = out.length ∧
        out'.drop (nout * N) = out.drop (nout * N) ∧
        ∀ s l, C.r * l < N → ∃ x, memLane C N out' s l = gout x ∧
          Sound (ρ l) (lookup (aexec w ain p aregs mem) s) x := by
  intro p
  induction p with
  | nil =>
    intro aregs mem regs out _ _ _ _ hmem
    exact ⟨out, rfl, rfl, rfl, hmem⟩
  | cons st p ih =>
    intro aregs mem regs out hb hlen hsr hregs hmem
    simp only [inBounds, List.all_cons, Bool.and_eq_true] at hb
    obtain ⟨hb1, hb2⟩ := hb
    cases st with
    | load dst slot =>
      have hs : slot < nin := by simpa using hb1
      have hfit : slot * N + N ≤ inp.length := by
        have : (slot + 1) * N ≤ nin * N := Nat.mul_le_mul_right _ hs
        rw [Nat.add_mul, Nat.one_mul] at this
        omega
      simp only [exec, aexec, if_pos hfit]
      apply ih _ _ _ _ hb2 hlen (small_cons _ hsr _ _ (hsm slot)) _ hmem
      intro l hl i
      have := lookup_cons_sound (ρ l) aregs (fun q => regs q l) (hregs l hl) dst _ _ (hain slot l hs hl) i
      unfold upd at this ⊢
      by_cases hi : i = dst
      · simpa [hi] using this
      · simpa [hi] using this
    | set dst e =>
      simp only [exec, aexec]
      apply ih _ _ _ _ hb2 hlen (small_cons _ hsr _ _ (small_aeval _ hsr e)) _ hmem
      intro l hl i
      have := lookup_cons_sound (ρ l) aregs (fun q => regs q l) (hregs l hl) dst _ _
        (aeval_sound (ρ l) aregs (fun q => regs q l) hsr (hregs l hl) e) i
      unfold upd at this ⊢
      by_cases hi : i = dst
      · simpa [hi] using this
      · simpa [hi] using this
    | store e slot =>
      have hs : slot < nout := by simpa using hb1
      have hfit : slot * N + N ≤ nout * N := by
        have : (slot + 1) * N ≤ nout * N := Nat.mul_le_mul_right _ hs
        rw [Nat.add_mul, Nat.one_mul] at this
        omega
      simp only [exec, aexec]
      have hst := storeU_ok ((List.range N).map (fun i =>
        C.ofLane (gout (e.eval (fun q => regs q (i / C.r)))) (i % C.r))) out (slot * N) (by simp; omega)
      generalize ho1 : out.take (slot * N) ++ (List.range N).map (fun i =>
        C.ofLane (gout (e.eval (fun q => regs q (i / C.r)))) (i % C.r)) ++ out.drop (slot * N +
        ((List.range N).map (fun i =>
        C.ofLane (gout (e.eval (fun q => regs q (i / C.r)))) (i % C.r))).length) = out1 at hst
      rw [hst]
      simp only [bind, Except.bind]
      have hl1 : out1.length = out.length := by
        rw [← ho1]; simp; omega
      obtain ⟨out', r1, r2, r3, r4⟩ := ih aregs ((slot, e.aeval w aregs) :: mem) regs out1 hb2 (by omega) hsr hregs (by
        intro s l hl
        have hm := memLane_store C hC N hN out out1 (fun l => gout (e.eval (fun q => regs q l))) slot hst s l hl
        rw [hm]
        unfold lookup
        by_cases hss : s = slot
        · subst hss
          rw [if_pos rfl]
          refine ⟨_, rfl, ?_⟩
          simpa using aeval_sound (ρ l) aregs (fun q => regs q l) hsr (hregs l hl) e
        · have : ¬ slot = s := fun e => hss e.symm
          rw [if_neg hss]
          simpa [this] using hmem s l hl)
      refine ⟨out', r1, by omega, ?_, r4⟩
      rw [r3, ← ho1, List.append_assoc, List.drop_append, List.length_take, Nat.min_eq_left (by omega)]
      rw [List.drop_eq_nil_of_le (by rw [List.length_take]; omega), List.nil_append, List.drop_append]
      simp only [List.length_map, List.length_range]
      rw [List.drop_eq_nil_of_le (by simp; omega), List.nil_append, List.drop_drop]
      congr 1; omega

/-! ### The round trip -/

/-- Symbolic input vector: bit `j` of slot `s`, known to be zero above the low `k` bits of each element. -/
def ainitFields (B k s : Nat) : Nat → Nat
  | 0 => 0
  | w + 1 => ainitFields B k s w + (if w % B < k then 2 ^ 15 + 64 * s + w else 0) * 2 ^ (16 * w)

def ainit (w B k s : Nat) : AV := .sym (ainitFields B k s w)

theorem ainitFields_spec (B k s : Nat) (hs : s < 64) : ∀ w, w ≤ 64 → ainitFields B k s w < 2 ^ (16 * w) ∧
    ∀ j, j < w → field (ainitFields B k s w) j = if j % B < k then 2 ^ 15 + 64 * s + j else 0 := by
  intro w
  induction w with
  | zero => intro _; exact ⟨by simp [ainitFields], fun j h => by omega⟩
  | succ w ih =>
    intro hw
    obtain ⟨h1, h2⟩ := ih (by omega)
    have hlt : (if w % B < k then 2 ^ 15 + 64 * s + w else 0) < 2 ^ 16 := by split <;> omega
    unfold ainitFields
    constructor
    · have e : 2 ^ (16 * (w + 1)) = 2 ^ 16 * 2 ^ (16 * w) := by
        rw [Nat.mul_add, Nat.mul_one, Nat.add_comm, Nat.pow_add]
      rw [e]
      generalize (if w % B < k then 2 ^ 15 + 64 * s + w else 0) = q at *
      have : q * 2 ^ (16 * w) ≤ (2 ^ 16 - 1) * 2 ^ (16 * w) := Nat.mul_le_mul_right _ (by omega)
      omega
    · intro j hj
      rw [field_add_high _ _ _ _ h1 hlt (by omega)]
      by_cases h : j < w
      · rw [if_pos h, h2 j h]
      · have : j = w := by omega
        subst this
        rw [if_neg h]

/-- The finite check evaluated by the kernel: symbolic packing then unpacking yields the symbolic input. -/
def check (w B n k : Nat) (pack unpack : List Stmt) : Bool :=
  let packed := aexec w (ainit w B k) pack [] []
  let res := aexec w (lookup packed) unpack [] []
  inBounds n k pack && inBounds k n unpack &&
    (List.range n).all (fun s => decide (lookup res s = ainit w B k s))

/-- **Round trip, generic form.** If the check succeeds then for every vector length `N`, all memory
contents and all input elements that (after subtracting the frame of reference) fit in `k` bits: `Pack`
reads only `n` vectors of `raw` and writes only `k` vectors of `packed`; `Unpack` of the result writes
exactly the original `n` vectors and changes nothing else. -/
theorem roundTrip {B w : Nat} (C : Cast B w) (hC : C.Ok) (hw : w ≤ 64) (n k : Nat) (hn : n ≤ 64) (pack unpack : List Stmt)
    (hchk : check w B n k pack unpack = true) (N : Nat) (hN : C.r ∣ N)
    (gin gout : BitVec w → BitVec w) (hg : ∀ x, gout (gin x) = x)
    (raw packed out : List (BitVec B)) (hraw : n * N ≤ raw.length) (hpacked : k * N ≤ packed.length)
    (hout : n * N ≤ out.length) (regs regs' : Nat → Nat → BitVec w)
    (hfit : ∀ s l, s < n → C.r * l < N → ∀ j, j < w → k ≤ j % B →
      (gin (memLane C N raw s l)).getLsbD j = false) :
    ∃ packed', exec C N gin id raw pack regs packed = .ok packed' ∧ packed'.length = packed.length ∧
      packed'.drop (k * N) = packed.drop (k * N) ∧
      exec C N id gout packed' unpack regs' out = .ok (raw.take (n * N) ++ out.drop (n * N)) := by
  simp only [check, Bool.and_eq_true, List.all_eq_true, List.mem_range, decide_eq_true_eq] at hchk
  obtain ⟨⟨b1, b2⟩, hres⟩ := hchk
  let ρ : Nat → Nat → BitVec w := fun l s => gin (memLane C N raw s l)
  have hinit : ∀ s l, s < n → C.r * l < N → Sound (ρ l) (ainit w B k s) (ρ l s) := by
    intro s l hs hl
    obtain ⟨a1, a2⟩ := ainitFields_spec B k s (by omega) w hw
    refine ⟨a1, ?_⟩
    intro j hj
    rw [a2 j hj]
    by_cases hjk : j % B < k
    · rw [if_pos hjk]
      right
      refine ⟨by omega, ?_⟩
      rw [show (2 ^ 15 + 64 * s + j - 2 ^ 15) / 64 = s by omega,
        show (2 ^ 15 + 64 * s + j - 2 ^ 15) % 64 = j by omega]
    · rw [if_neg hjk]
      left
      exact ⟨rfl, hfit s l hs hl j hj (by omega)⟩
  obtain ⟨packed', e1, e2, e3, e4⟩ := aexec_sound C hC N hN gin id raw n k hraw ρ (ainit w B k) (by intro s m hm; simp [ainit] at hm) hinit pack [] []
    regs packed b1 hpacked (by intro i m hm; simp [lookup] at hm) (fun l _ i => trivial) (fun s l _ => ⟨_, rfl, trivial⟩)
  refine ⟨packed', e1, e2, e3, ?_⟩
  have hgsurj : ∀ x, ∃ y, x = gout y := fun x => ⟨gin x, (hg x).symm⟩
  obtain ⟨out', f1, f2, f3, f4⟩ := aexec_sound C hC N hN id gout packed' k n (by omega) ρ
    (lookup (aexec w (ainit w B k) pack [] [])) (small_aexec _ _ (by intro s m hm; simp [ainit] at hm) _ _ _ (by intro i m hm; simp [lookup] at hm) (by intro i m hm; simp [lookup] at hm)) (by
      intro s l _ hl
      obtain ⟨x, hx, hs⟩ := e4 s l hl
      simp only [id] at hx ⊢
      rw [hx]; exact hs) unpack [] [] regs' out b2 hout (by intro i m hm; simp [lookup] at hm) (fun l _ i => trivial) (by
      intro s l _
      obtain ⟨y, hy⟩ := hgsurj (memLane C N out s l)
      exact ⟨y, hy, trivial⟩)
  rw [f1]
  congr 1
  have hr := hC.rpos
  have hlane : ∀ s l, s < n → C.r * l < N → memLane C N out' s l = memLane C N raw s l := by
    intro s l hs hl
    obtain ⟨x, hx, hsx⟩ := f4 s l hl
    rw [hres s hs] at hsx
    have hi := hinit s l hs hl
    have : x = ρ l s := by
      apply BitVec.eq_of_getLsbD_eq
      intro j hj
      have h1 := hsx.2 j hj
      have h2 := hi.2 j hj
      rw [(ainitFields_spec B k s (by omega) w hw).2 j hj] at h1 h2
      by_cases hjk : j % B < k
      · rw [if_pos hjk] at h1 h2
        rcases h1 with h1 | h1
        · omega
        rcases h2 with h2 | h2
        · omega
        rw [h1.2, h2.2]
      · rw [if_neg hjk] at h1 h2
        rcases h1 with h1 | h1
        · rcases h2 with h2 | h2
          · rw [h1.2, h2.2]
          · simp at h2
        · simp at h1
    rw [hx, this]
    exact hg _
  have helem : ∀ i, i < n * N → out'.getD i 0 = raw.getD i 0 := by
    intro i hi
    have hN0 : 0 < N := by
      rcases Nat.eq_zero_or_pos N with h | h
      · rw [h] at hi; simp at hi
      · exact h
    have hs : i / N < n := Nat.div_lt_of_lt_mul (by rw [Nat.mul_comm]; exact hi)
    have hmod := Nat.mod_lt i hN0
    have hl : C.r * (i % N / C.r) < N := Nat.lt_of_le_of_lt (Nat.mul_div_le _ _) hmod
    have h := hlane (i / N) (i % N / C.r) hs hl
    have ht : i % N % C.r < C.r := Nat.mod_lt _ hr
    have h1 := congrArg (fun x => C.ofLane x (i % N % C.r)) h
    simp only [memLane] at h1
    rw [hC.ofTo _ _ ht, hC.ofTo _ _ ht] at h1
    have e : i / N * N + C.r * (i % N / C.r) + i % N % C.r = i := by
      have h1 := Nat.div_add_mod (i % N) C.r
      have h2 := Nat.div_add_mod i N
      rw [Nat.mul_comm] at h2
      omega
    rw [e] at h1
    exact h1
  have hd : out' = out'.take (n * N) ++ out'.drop (n * N) := (List.take_append_drop _ _).symm
  rw [hd, f3]
  congr 1
  apply List.ext_getElem
  · simp; omega
  · intro i h1 h2
    simp only [List.length_take] at h1 h2
    rw [List.getElem_take, List.getElem_take]
    have := helem i (by omega)
    rw [List.getD_eq_getElem?_getD, List.getD_eq_getElem?_getD, List.getElem?_eq_getElem (by omega),
      List.getElem?_eq_getElem (by omega)] at this
    simpa using this

/-! ### The programs -/


end BitPack
end Hwy
