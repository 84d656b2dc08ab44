import Verif.X86Perm
import Verif.X86OpsSpec4

/-!
# Symbolic bytes

Every rearranging operation produces bytes that are constants, bytes of the inputs or copies of their sign.
`Sym a b R S` says that byte `i` of register `R` is what `S i` denotes for inputs `a` and `b`.  Each
instruction has a rule that computes the symbolic bytes of its result, so the check that an operation
moves the right lanes is an evaluation of `S`, valid for all register contents.
-/

namespace Hwy.X86

/-- A symbolic byte: a constant, byte `j` of input `a` (`r = false`) or `b`, eight copies of the sign of such
a byte, or unknown. -/
inductive SB | lit (n : Nat) | byte (r : Bool) (j : Nat) | sign (r : Bool) (j : Nat) | bad
  deriving DecidableEq, Repr

/-- All-ones if the byte is negative. -/
def signByte (x : BitVec 8) : BitVec 8 := if x.msb then 255#8 else 0#8

/-- The value of a symbolic byte. -/
def SB.den (a b : M128) : SB → Option (BitVec 8)
  | .lit n => some (BitVec.ofNat 8 n)
  | .byte r j => some (lane 8 j (if r then b else a))
  | .sign r j => some (signByte (lane 8 j (if r then b else a)))
  | .bad => none

/-- `R` consists of the symbolic bytes `S`. -/
def Sym (a b R : M128) (S : Nat → SB) : Prop :=
  ∀ i, i < 16 → ∀ x, (S i).den a b = some x → lane 8 i R = x

theorem byte_lane {w m : Nat} (hw : w = 8 * m) {j : Nat} (hj : j < m) (k : Nat) (r : M128) :
    (lane w k r).extractLsb' (8 * j) 8 = lane 8 (m * k + j) r := by
  subst hw; exact (lane_sub 8 m k j hj r).symm

theorem byte_mk {w m : Nat} (hw : w = 8 * m) (hd : m = 1 ∨ m = 2 ∨ m = 4 ∨ m = 8) (f : Nat → BitVec w)
    {i : Nat} (hi : i < 16) :
    lane 8 i (mk w f) = (f (i / m)).extractLsb' (8 * (i % m)) 8 := by
  have hm : 0 < m := by omega
  have h1 : i % m < m := Nat.mod_lt _ hm
  have h2 := Nat.div_add_mod i m
  have h3 : w * (i / m) + w ≤ 128 := by
    subst hw; rcases hd with rfl | rfl | rfl | rfl <;> omega
  have h4 : lane w (i / m) (mk w f) = f (i / m) := lane_mk (by omega) h3 f
  rw [← h4, byte_lane hw h1, h2]

/-- Lanes of `w` bits are equal if their bytes are. -/
theorem lane_bytes {w m : Nat} (hw : w = 8 * m) {x y : BitVec w}
    (h : ∀ j, j < m → x.extractLsb' (8 * j) 8 = y.extractLsb' (8 * j) 8) : x = y := by
  subst hw
  apply BitVec.eq_of_getLsbD_eq
  intro k hk
  have hj : k / 8 < m := by omega
  have := congrArg (fun z => z.getLsbD (k % 8)) (h _ hj)
  simp only [BitVec.getLsbD_extractLsb', show k % 8 < 8 by omega, decide_true, Bool.true_and,
    show 8 * (k / 8) + k % 8 = k by omega] at this
  exact this

section
variable {a b : M128}

theorem sym_a : Sym a b a (fun i => .byte false i) := by
  intro i _ x hx; simp only [SB.den] at hx; injection hx
theorem sym_b : Sym a b b (fun i => .byte true i) := by
  intro i _ x hx; simp only [SB.den] at hx; injection hx

theorem sym_const {w m : Nat} (hw : w = 8 * m) (hd : m = 1 ∨ m = 2 ∨ m = 4 ∨ m = 8) (f : Nat → BitVec w) :
    Sym a b (mk w f) (fun i => .lit ((f (i / m)).extractLsb' (8 * (i % m)) 8).toNat) := by
  intro i hi x hx
  simp only [SB.den, BitVec.ofNat_toNat, BitVec.setWidth_eq, Option.some.injEq] at hx
  rw [byte_mk hw hd f hi, hx]

theorem sym_zero : Sym a b zero (fun _ => .lit 0) := by
  intro i _ x hx; simp only [SB.den, Option.some.injEq] at hx; rw [lane_zero', ← hx]

theorem sym_set {w m : Nat} (hw : w = 8 * m) (hd : m = 1 ∨ m = 2 ∨ m = 4 ∨ m = 8) (x : BitVec w) :
    Sym a b (set w x) (fun i => .lit (x.extractLsb' (8 * (i % m)) 8).toNat) := sym_const hw hd _
theorem sym_ofBytes (l : List Nat) : Sym a b (ofBytes l) (fun i => .lit (l.getD i 0 % 256)) := by
  intro i hi x hx
  simp only [SB.den, Option.some.injEq] at hx
  unfold ofBytes; rw [lane_mk (by omega) (by omega), ← hx]
  apply BitVec.eq_of_toNat_eq; simp
theorem sym_of16 (l : List Nat) : Sym a b (of16 l)
    (fun i => .lit (l.getD (i / 2) 0 / (if i % 2 = 0 then 1 else 256) % 256)) := by
  intro i hi x hx
  simp only [SB.den, Option.some.injEq] at hx
  unfold of16; rw [byte_mk (m := 2) rfl (by omega) _ hi, ← hx]
  apply BitVec.eq_of_toNat_eq
  rw [BitVec.extractLsb'_toNat, BitVec.toNat_ofNat, BitVec.toNat_ofNat, Nat.shiftRight_eq_div_pow]
  generalize l.getD (i / 2) 0 = y
  have h2 : i % 2 = 0 ∨ i % 2 = 1 := by omega
  rcases h2 with h | h <;> simp [h] <;> omega

variable {A B R : M128} {S T U : Nat → SB}

/-- Any lane-wise selection from two registers. -/
theorem sym_mk2 {w m : Nat} (hw : w = 8 * m) (hd : m = 1 ∨ m = 2 ∨ m = 4 ∨ m = 8)
    (c : Nat → Bool) (f g : Nat → Nat) (hA : Sym a b A S) (hB : Sym a b B T)
    (hf : ∀ k, k < 16 / m → f k < 16 / m) (hg : ∀ k, k < 16 / m → g k < 16 / m) :
    Sym a b (mk w (fun k => if c k then lane w (f k) A else lane w (g k) B))
      (fun i => if c (i / m) then S (m * f (i / m) + i % m) else T (m * g (i / m) + i % m)) := by
  intro i hi x hx
  have hm : 0 < m := by omega
  have hj := Nat.mod_lt i hm
  have hk : i / m < 16 / m := by rcases hd with rfl | rfl | rfl | rfl <;> omega
  have hlt : ∀ k, k < 16 / m → m * k + i % m < 16 := by
    intro k hk; rcases hd with rfl | rfl | rfl | rfl <;> omega
  rw [byte_mk hw hd _ hi]
  cases hc : c (i / m)
  · simp only [hc, Bool.false_eq_true, if_false] at hx ⊢
    rw [byte_lane hw hj]; exact hB _ (hlt _ (hg _ hk)) x hx
  · simp only [hc, if_true] at hx ⊢
    rw [byte_lane hw hj]; exact hA _ (hlt _ (hf _ hk)) x hx

theorem sym_unpacklo {w m : Nat} (hw : w = 8 * m) (hd : m = 1 ∨ m = 2 ∨ m = 4 ∨ m = 8)
    (hA : Sym a b A S) (hB : Sym a b B T) : Sym a b (unpacklo w A B)
      (fun i => if i / m % 2 = 0 then S (m * (i / m / 2) + i % m) else T (m * (i / m / 2) + i % m)) := by
  have := sym_mk2 hw hd (fun k => decide (k % 2 = 0)) (fun k => k / 2) (fun k => k / 2) hA hB
    (fun k hk => by omega) (fun k hk => by omega)
  simp only [decide_eq_true_eq] at this
  exact this

theorem sym_unpackhi {w m : Nat} (hw : w = 8 * m) (hd : m = 1 ∨ m = 2 ∨ m = 4 ∨ m = 8)
    (hA : Sym a b A S) (hB : Sym a b B T) : Sym a b (unpackhi w A B)
      (fun i => if i / m % 2 = 0 then S (m * (64 / w + i / m / 2) + i % m)
        else T (m * (64 / w + i / m / 2) + i % m)) := by
  have hk : ∀ k, k < 16 / m → 64 / w + k / 2 < 16 / m := by
    intro k hk; subst hw; rcases hd with rfl | rfl | rfl | rfl <;> omega
  have := sym_mk2 hw hd (fun k => decide (k % 2 = 0)) (fun k => 64 / w + k / 2) (fun k => 64 / w + k / 2) hA hB
    hk hk
  simp only [decide_eq_true_eq] at this
  exact this

theorem sym_shuffle32 (imm : Nat) (hA : Sym a b A S) : Sym a b (shuffle32 A imm)
    (fun i => S (4 * (imm >>> (2 * (i / 4)) % 4) + i % 4)) := by
  have := sym_mk2 (w := 32) (m := 4) rfl (by omega) (fun _ => true) (fun k => imm >>> (2 * k) % 4) (fun k => k) hA hA
    (fun k hk => by omega) (fun k hk => hk)
  simp only [if_true] at this
  exact this

theorem sym_shufflelo16 (imm : Nat) (hA : Sym a b A S) : Sym a b (shufflelo16 A imm)
    (fun i => if i / 2 < 4 then S (2 * (imm >>> (2 * (i / 2)) % 4) + i % 2) else S (2 * (i / 2) + i % 2)) := by
  have := sym_mk2 (w := 16) (m := 2) rfl (by omega) (fun k => decide (k < 4)) (fun k => imm >>> (2 * k) % 4) (fun k => k) hA hA
    (fun k hk => by omega) (fun k hk => hk)
  simp only [decide_eq_true_eq] at this
  exact this

theorem sym_shufflehi16 (imm : Nat) (hA : Sym a b A S) : Sym a b (shufflehi16 A imm)
    (fun i => if i / 2 < 4 then S (2 * (i / 2) + i % 2)
      else S (2 * (4 + imm >>> (2 * (i / 2 - 4)) % 4) + i % 2)) := by
  have := sym_mk2 (w := 16) (m := 2) rfl (by omega) (fun k => decide (k < 4)) (fun k => k)
    (fun k => 4 + imm >>> (2 * (k - 4)) % 4) hA hA (fun k hk => hk) (fun k hk => by omega)
  simp only [decide_eq_true_eq] at this
  exact this

theorem sym_shufflePs (imm : Nat) (hA : Sym a b A S) (hB : Sym a b B T) : Sym a b (shufflePs A B imm)
    (fun i => if i / 4 < 2 then S (4 * (imm >>> (2 * (i / 4)) % 4) + i % 4)
      else T (4 * (imm >>> (2 * (i / 4)) % 4) + i % 4)) := by
  have := sym_mk2 (w := 32) (m := 4) rfl (by omega) (fun k => decide (k < 2)) (fun k => imm >>> (2 * k) % 4)
    (fun k => imm >>> (2 * k) % 4) hA hB (fun k hk => by omega) (fun k hk => by omega)
  simp only [decide_eq_true_eq] at this
  exact this

theorem sym_shufflePd (imm : Nat) (hA : Sym a b A S) (hB : Sym a b B T) : Sym a b (shufflePd A B imm)
    (fun i => if i / 8 < 1 then S (8 * (imm >>> (i / 8) % 2) + i % 8) else T (8 * (imm >>> (i / 8) % 2) + i % 8)) := by
  have := sym_mk2 (w := 64) (m := 8) rfl (by omega) (fun k => decide (k < 1)) (fun k => imm >>> k % 2)
    (fun k => imm >>> k % 2) hA hB (fun k hk => by omega) (fun k hk => by omega)
  simp only [decide_eq_true_eq] at this
  exact this

theorem sym_blend {w m : Nat} (hw : w = 8 * m) (hd : m = 1 ∨ m = 2 ∨ m = 4 ∨ m = 8) (imm : Nat)
    (hA : Sym a b A S) (hB : Sym a b B T) : Sym a b (blend w A B imm)
      (fun i => if imm >>> (i / m) % 2 = 1 then T (m * (i / m) + i % m) else S (m * (i / m) + i % m)) := by
  have := sym_mk2 hw hd (fun k => decide (imm >>> k % 2 = 1)) (fun k => k) (fun k => k) hB hA
    (fun k hk => hk) (fun k hk => hk)
  simp only [decide_eq_true_eq] at this
  exact this

theorem den_lit {n : Nat} {x : BitVec 8} : (SB.lit n).den a b = some x ↔ BitVec.ofNat 8 n = x := by
  simp [SB.den]

theorem sym_slliBytes (k : Nat) (hA : Sym a b A S) : Sym a b (slliBytes A k)
    (fun i => if k ≤ i then S (i - k) else .lit 0) := by
  intro i hi x hx
  unfold slliBytes; rw [lane_mk (by omega) (by omega)]
  dsimp only at hx
  split at hx
  · rename_i h; rw [if_pos h]; exact hA _ (by omega) x hx
  · rename_i h; rw [if_neg h]; exact den_lit.1 hx
theorem sym_srliBytes (k : Nat) (hA : Sym a b A S) : Sym a b (srliBytes A k)
    (fun i => if i + k < 16 then S (i + k) else .lit 0) := by
  intro i hi x hx
  dsimp only at hx
  unfold srliBytes; rw [lane_mk (by omega) (by omega)]
  split at hx
  · rename_i h; rw [if_pos h]; exact hA _ h x hx
  · rename_i h; rw [if_neg h]; exact den_lit.1 hx
theorem sym_alignr (k : Nat) (hA : Sym a b A S) (hB : Sym a b B T) : Sym a b (alignr A B k)
    (fun i => if i + k < 16 then T (i + k) else if i + k < 32 then S (i + k - 16) else .lit 0) := by
  intro i hi x hx
  dsimp only at hx
  unfold alignr; rw [lane_mk (by omega) (by omega)]
  split at hx
  · rename_i h; rw [if_pos h]; exact hB _ h x hx
  · rename_i h; rw [if_neg h]
    split at hx
    · rename_i h; rw [if_pos h]; exact hA _ (by omega) x hx
    · rename_i h; rw [if_neg h]; exact den_lit.1 hx

theorem sym_moveEpi64 (hA : Sym a b A S) : Sym a b (moveEpi64 A) (fun i => if i < 8 then S i else .lit 0) := by
  intro i hi x hx
  dsimp only at hx
  unfold moveEpi64; rw [byte_mk (m := 8) rfl (by omega) _ hi]
  split at hx
  · rename_i h
    rw [if_pos (by omega), byte_lane (w := 64) (m := 8) rfl (by omega)]
    rw [show 8 * 0 + i % 8 = i by omega]; exact hA _ hi x hx
  · rename_i h
    rw [if_neg (by omega)]
    rw [← den_lit.1 hx]; apply BitVec.eq_of_toNat_eq; simp

/-- Symbolic conjunction of bytes. -/
def SB.and : SB → SB → SB
  | .lit m, y => if m = 0 then .lit 0 else if m = 255 then y else .bad
  | x, .lit m => if m = 0 then .lit 0 else if m = 255 then x else .bad
  | _, _ => .bad
/-- Symbolic disjunction of bytes. -/
def SB.or : SB → SB → SB
  | .lit m, y => if m = 0 then y else .bad
  | x, .lit m => if m = 0 then x else .bad
  | _, _ => .bad

theorem ones_and8 (x : BitVec 8) : 255#8 &&& x = x := BitVec.allOnes_and
theorem and_ones8 (x : BitVec 8) : x &&& 255#8 = x := BitVec.and_allOnes

theorem den_and (a b : M128) {s t : SB} {x y : BitVec 8} (hs : ∀ z, s.den a b = some z → x = z)
    (ht : ∀ z, t.den a b = some z → y = z) : ∀ z, (s.and t).den a b = some z → x &&& y = z := by
  intro z hz
  have key : ∀ (m : Nat) (u : SB) (p q : BitVec 8), (∀ z, (SB.lit m).den a b = some z → p = z) →
      (∀ z, u.den a b = some z → q = z) →
      (if m = 0 then SB.lit 0 else if m = 255 then u else SB.bad).den a b = some z → p &&& q = z := by
    intro m u p q hp hq hz
    have hp' := hp _ rfl
    split at hz
    · rename_i h; subst h; rw [hp', ← den_lit.1 hz]; exact BitVec.zero_and
    split at hz
    · rename_i h; subst h; rw [hp']; rw [ones_and8]; exact hq _ hz
    · simp [SB.den] at hz
  cases s with
  | lit m => exact key m t x y hs ht hz
  | byte r j =>
    cases t with
    | lit m => rw [BitVec.and_comm]; exact key m _ y x ht hs hz
    | _ => simp [SB.and, SB.den] at hz
  | sign r j =>
    cases t with
    | lit m => rw [BitVec.and_comm]; exact key m _ y x ht hs hz
    | _ => simp [SB.and, SB.den] at hz
  | bad =>
    cases t with
    | lit m => rw [BitVec.and_comm]; exact key m _ y x ht hs hz
    | _ => simp [SB.and, SB.den] at hz

theorem den_or (a b : M128) {s t : SB} {x y : BitVec 8} (hs : ∀ z, s.den a b = some z → x = z)
    (ht : ∀ z, t.den a b = some z → y = z) : ∀ z, (s.or t).den a b = some z → x ||| y = z := by
  intro z hz
  have key : ∀ (m : Nat) (u : SB) (p q : BitVec 8), (∀ z, (SB.lit m).den a b = some z → p = z) →
      (∀ z, u.den a b = some z → q = z) →
      (if m = 0 then u else SB.bad).den a b = some z → p ||| q = z := by
    intro m u p q hp hq hz
    have hp' := hp _ rfl
    split at hz
    · rename_i h; subst h; rw [hp', ← hq _ hz]; exact BitVec.zero_or
    · simp [SB.den] at hz
  cases s with
  | lit m => exact key m t x y hs ht hz
  | byte r j =>
    cases t with
    | lit m => rw [BitVec.or_comm]; exact key m _ y x ht hs hz
    | _ => simp [SB.or, SB.den] at hz
  | sign r j =>
    cases t with
    | lit m => rw [BitVec.or_comm]; exact key m _ y x ht hs hz
    | _ => simp [SB.or, SB.den] at hz
  | bad =>
    cases t with
    | lit m => rw [BitVec.or_comm]; exact key m _ y x ht hs hz
    | _ => simp [SB.or, SB.den] at hz

theorem sym_And (hA : Sym a b A S) (hB : Sym a b B T) : Sym a b (And A B) (fun i => (S i).and (T i)) := by
  intro i hi x hx; rw [lane_And]; exact den_and a b (hA i hi) (hB i hi) x hx
theorem sym_Or (hA : Sym a b A S) (hB : Sym a b B T) : Sym a b (Or A B) (fun i => (S i).or (T i)) := by
  intro i hi x hx; rw [lane_Or]; exact den_or a b (hA i hi) (hB i hi) x hx

/-- Selection by a constant mask byte. -/
def SB.ite (m s t : SB) : SB := if m = .lit 255 then s else if m = .lit 0 then t else .bad

theorem sym_IfThenElse (t : Tgt) (hA : Sym a b A S) (hB : Sym a b B T) (hR : Sym a b R U) :
    Sym a b (IfThenElse t A B R) (fun i => SB.ite (S i) (T i) (U i)) := by
  intro i hi x hx
  dsimp only at hx
  have h : InReg 8 i := ⟨Or.inl rfl, hi⟩
  unfold SB.ite at hx
  split at hx
  · rename_i hs
    have hm : lane 8 i A = 255#8 := hA i hi _ (by rw [hs]; rfl)
    rw [lane_IfThenElse t h A B R True (by rw [hm]; rfl), if_pos trivial]; exact hB i hi x hx
  split at hx
  · rename_i hs
    have hm : lane 8 i A = 0#8 := hA i hi _ (by rw [hs]; rfl)
    rw [lane_IfThenElse t h A B R False (by rw [hm]; rfl), if_neg (fun h => h)]; exact hR i hi x hx
  · simp [SB.den] at hx

theorem sym_IfVecThenElse (t : Tgt) (hA : Sym a b A S) (hB : Sym a b B T) (hR : Sym a b R U) :
    Sym a b (IfVecThenElse t A B R) (fun i => SB.ite (S i) (T i) (U i)) := sym_IfThenElse t hA hB hR

/-- Table lookup with constant indices. -/
def SB.look (S : Nat → SB) : SB → SB
  | .lit n => if n < 16 then S n else .bad
  | _ => .bad

theorem sym_TableLookupBytes (t : Tgt) (hA : Sym a b A S) (hB : Sym a b B T) :
    Sym a b (TableLookupBytes t A B) (fun i => SB.look S (T i)) := by
  intro i hi x hx
  cases hT : T i with
  | lit n =>
    simp only [hT, SB.look] at hx
    split at hx
    · rename_i hn
      have hb : lane 8 i B = BitVec.ofNat 8 n := hB i hi _ (by rw [hT]; rfl)
      have hbn : (lane 8 i B).toNat = n := by rw [hb]; simp; omega
      rw [C62_tableLookupBytes t hi A B (by omega), hbn]
      exact hA n hn x hx
    · simp [SB.den] at hx
  | _ => simp [hT, SB.look, SB.den] at hx

theorem sym_FirstN (t : Tgt) {w m : Nat} (hw : w = 8 * m) (hd : m = 1 ∨ m = 2 ∨ m = 4 ∨ m = 8) (kN n : Nat)
    (hn : kN ≤ 16 / m) :
    Sym a b (FirstN t w kN n) (fun i => if i / m < kN then (if i / m < n then .lit 255 else .lit 0) else .bad) := by
  intro i hi x hx
  dsimp only at hx
  have hm : 0 < m := by omega
  have hj := Nat.mod_lt i hm
  have h : InReg w (i / m) := by
    subst hw; rcases hd with rfl | rfl | rfl | rfl <;> exact ⟨by omega, by omega⟩
  have h0 : lane 8 i (FirstN t w kN n) = (lane w (i / m) (FirstN t w kN n)).extractLsb' (8 * (i % m)) 8 := by
    rw [byte_lane hw hj, Nat.div_add_mod]
  split at hx
  · rename_i hk
    have hkN : kN ≤ 128 / w := by subst hw; rcases hd with rfl | rfl | rfl | rfl <;> omega
    rw [h0, C62_firstN t h kN n hkN hk]
    split at hx
    · rename_i hc
      rw [if_pos hc, ← den_lit.1 hx]
      apply BitVec.eq_of_getLsbD_eq; intro q hq
      rw [BitVec.getLsbD_extractLsb', BitVec.getLsbD_allOnes, show BitVec.ofNat 8 255 = BitVec.allOnes 8 from rfl,
        BitVec.getLsbD_allOnes]
      have : 8 * (i % m) + q < w := by omega
      simp only [this, hq, decide_true, Bool.and_self]
    · rename_i hc
      rw [if_neg hc, ← den_lit.1 hx]
      apply BitVec.eq_of_toNat_eq; simp
  · simp [SB.den] at hx

theorem sym_IfThenElseZero (hA : Sym a b A S) (hB : Sym a b B T) :
    Sym a b (IfThenElseZero A B) (fun i => (T i).and (S i)) := sym_And hB hA

theorem sym_slli {w m : Nat} (hw : w = 8 * m) (hd : m = 1 ∨ m = 2 ∨ m = 4 ∨ m = 8) (k q : Nat) (hk : k = 8 * q)
    (hA : Sym a b A S) : Sym a b (slli w k A) (fun i => if q ≤ i % m then S (i - q) else .lit 0) := by
  intro i hi x hx
  dsimp only at hx
  have hm : 0 < m := by omega
  have e : ∀ n, n < 8 → (lane 8 i (slli w k A)).getLsbD n
      = (decide (q ≤ i % m) && A.getLsbD (8 * (i - q) + n)) := by
    intro n hn
    rw [getLsbD_lane, getLsbD_slli (by omega) (by subst hw; rcases hd with rfl | rfl | rfl | rfl <;> rfl) _ _ _ (by omega)]
    have h1 : decide (k ≤ (8 * i + n) % w) = decide (q ≤ i % m) := by
      subst hw hk
      have : (8 * i + n) % (8 * m) = 8 * (i % m) + n := by
        rcases hd with rfl | rfl | rfl | rfl <;> omega
      rw [this]; simp only [decide_eq_decide]; omega
    rw [h1]
    by_cases c : q ≤ i % m
    · have := Nat.mod_le i m
      have h2 : 8 * i + n - k = 8 * (i - q) + n := by subst hk; omega
      simp only [c, h2, hn, decide_true, Bool.true_and]
    · simp only [c, decide_false, Bool.false_and, Bool.and_false]
  split at hx
  · rename_i c
    rw [← hA (i - q) (by omega) x hx]
    apply BitVec.eq_of_getLsbD_eq; intro n hn
    rw [e n hn, getLsbD_lane]; simp only [c, hn, decide_true]
  · rename_i c
    rw [← den_lit.1 hx]
    apply BitVec.eq_of_getLsbD_eq; intro n hn
    rw [e n hn]; simp [c]

theorem sym_srli {w m : Nat} (hw : w = 8 * m) (hd : m = 1 ∨ m = 2 ∨ m = 4 ∨ m = 8) (k q : Nat) (hk : k = 8 * q)
    (hA : Sym a b A S) : Sym a b (srli w k A) (fun i => if i % m + q < m then S (i + q) else .lit 0) := by
  intro i hi x hx
  dsimp only at hx
  have hm : 0 < m := by omega
  have e : ∀ n, n < 8 → (lane 8 i (srli w k A)).getLsbD n
      = (decide (i % m + q < m) && A.getLsbD (8 * (i + q) + n)) := by
    intro n hn
    rw [getLsbD_lane, getLsbD_srli (by omega) (by subst hw; rcases hd with rfl | rfl | rfl | rfl <;> rfl) _ _ _ (by omega)]
    have h1 : decide ((8 * i + n) % w + k < w) = decide (i % m + q < m) := by
      subst hw hk
      have : (8 * i + n) % (8 * m) = 8 * (i % m) + n := by
        rcases hd with rfl | rfl | rfl | rfl <;> omega
      rw [this]; simp only [decide_eq_decide]; omega
    have h2 : 8 * i + n + k = 8 * (i + q) + n := by subst hk; omega
    rw [h1, h2]; simp only [hn, decide_true, Bool.true_and]
  split at hx
  · rename_i c
    have hlt : i + q < 16 := by rcases hd with rfl | rfl | rfl | rfl <;> omega
    rw [← hA (i + q) hlt x hx]
    apply BitVec.eq_of_getLsbD_eq; intro n hn
    rw [e n hn, getLsbD_lane]; simp only [c, hn, decide_true]
  · rename_i c
    rw [← den_lit.1 hx]
    apply BitVec.eq_of_getLsbD_eq; intro n hn
    rw [e n hn]; simp [c]

/-- The sign of a symbolic byte. -/
def SB.sgn : SB → SB
  | .lit n => if n < 128 then .lit 0 else if n < 256 then .lit 255 else .bad
  | .byte r j => .sign r j
  | .sign r j => .sign r j
  | .bad => .bad

theorem signByte_signByte (x : BitVec 8) : signByte (signByte x) = signByte x := by
  unfold signByte; cases x.msb <;> rfl

theorem den_sgn {s : SB} {x : BitVec 8} (hs : ∀ z, s.den a b = some z → x = z) :
    ∀ z, s.sgn.den a b = some z → signByte x = z := by
  intro z hz
  cases s with
  | lit n =>
    rw [hs _ rfl]
    unfold SB.sgn at hz
    have hm : n < 256 → (BitVec.ofNat 8 n).msb = decide (128 ≤ n) := by
      intro hn; rw [BitVec.msb_eq_decide, BitVec.toNat_ofNat]; simp; omega
    dsimp only at hz
    split at hz
    · rename_i h; rw [← den_lit.1 hz]; unfold signByte; rw [hm (by omega)]; simp; omega
    split at hz
    · rename_i h h2; rw [← den_lit.1 hz]; unfold signByte; rw [hm h2]; simp; omega
    · simp [SB.den] at hz
  | byte r j => rw [hs _ rfl]; simpa [SB.sgn, SB.den] using hz
  | sign r j => rw [hs _ rfl, signByte_signByte]; simpa [SB.sgn, SB.den] using hz
  | bad => simp [SB.sgn, SB.den] at hz

theorem getLsbD_signByte (x : BitVec 8) (n : Nat) (hn : n < 8) : (signByte x).getLsbD n = x.msb := by
  unfold signByte
  cases x.msb
  · simp
  · rw [if_pos rfl, show (255#8) = BitVec.allOnes 8 from rfl, BitVec.getLsbD_allOnes]; simp [hn]

theorem sym_srai {w m : Nat} (hw : w = 8 * m) (hd : m = 1 ∨ m = 2 ∨ m = 4 ∨ m = 8) (k q : Nat) (hk : k = 8 * q)
    (hA : Sym a b A S) : Sym a b (srai w k A)
      (fun i => if i % m + q < m then S (i + q) else (S (m * (i / m) + (m - 1))).sgn) := by
  intro i hi x hx
  dsimp only at hx
  have hm : 0 < m := by omega
  have hj := Nat.mod_lt i hm
  have hInReg : InReg w (i / m) := by
    subst hw; rcases hd with rfl | rfl | rfl | rfl <;> exact ⟨by omega, by omega⟩
  have h0 : lane 8 i (srai w k A) = ((lane w (i / m) A).sshiftRight k).extractLsb' (8 * (i % m)) 8 := by
    rw [← lane_srai hInReg, byte_lane hw hj, Nat.div_add_mod]
  rw [h0]
  have hlt : m * (i / m) + (m - 1) < 16 := by rcases hd with rfl | rfl | rfl | rfl <;> omega
  have hmsb : (lane w (i / m) A).msb = (lane 8 (m * (i / m) + (m - 1)) A).msb := by
    rw [BitVec.msb_eq_getLsbD_last, BitVec.msb_eq_getLsbD_last, getLsbD_lane, getLsbD_lane]
    have h1 : w - 1 < w := by omega
    have h2 : w * (i / m) + (w - 1) = 8 * (m * (i / m) + (m - 1)) + (8 - 1) := by
      subst hw; rw [Nat.mul_assoc]; omega
    rw [h2]; simp [h1]
  have e : ∀ n, n < 8 → (((lane w (i / m) A).sshiftRight k).extractLsb' (8 * (i % m)) 8).getLsbD n
      = if i % m + q < m then (lane 8 (i + q) A).getLsbD n else (lane 8 (m * (i / m) + (m - 1)) A).msb := by
    intro n hn
    rw [BitVec.getLsbD_extractLsb', BitVec.getLsbD_sshiftRight]
    have hin : 8 * (i % m) + n < w := by omega
    have hin' : ¬ w ≤ 8 * (i % m) + n := by omega
    by_cases c : i % m + q < m
    · have h1 : k + (8 * (i % m) + n) < w := by omega
      have h2 : w * (i / m) + (k + (8 * (i % m) + n)) = 8 * (i + q) + n := by
        have := Nat.div_add_mod i m
        subst hw hk; rw [Nat.mul_assoc]; omega
      simp only [hn, hin', h1, c, decide_true, decide_false, Bool.not_false, Bool.true_and, if_true, getLsbD_lane, h2]
    · have h1 : ¬ k + (8 * (i % m) + n) < w := by omega
      simp only [hn, hin', h1, c, decide_true, decide_false, Bool.not_false, Bool.true_and, if_false, hmsb]
  split at hx
  · rename_i c
    have hl : i + q < 16 := by rcases hd with rfl | rfl | rfl | rfl <;> omega
    rw [← hA _ hl x hx]
    apply BitVec.eq_of_getLsbD_eq; intro n hn; rw [e n hn, if_pos c]
  · rename_i c
    rw [← den_sgn (hA _ hlt) x hx]
    apply BitVec.eq_of_getLsbD_eq; intro n hn; rw [e n hn, if_neg c, getLsbD_signByte _ _ hn]

/-- The value of a 16-bit lane from its bytes. -/
theorem toNat_two (x : BitVec 16) : x.toNat = (x.extractLsb' 0 8).toNat + 256 * (x.extractLsb' 8 8).toNat := by
  rw [BitVec.extractLsb'_toNat, BitVec.extractLsb'_toNat, Nat.shiftRight_eq_div_pow, Nat.shiftRight_eq_div_pow]
  have := x.isLt; omega
theorem toNat_four (x : BitVec 32) : x.toNat = (x.extractLsb' 0 16).toNat + 65536 * (x.extractLsb' 16 16).toNat := by
  rw [BitVec.extractLsb'_toNat, BitVec.extractLsb'_toNat, Nat.shiftRight_eq_div_pow, Nat.shiftRight_eq_div_pow]
  have := x.isLt; omega

theorem packus16_id {x : BitVec 16} (h : x.extractLsb' 8 8 = 0#8) :
    BitVec.ofInt 8 (max 0 (min x.toInt (2 ^ 8 - 1))) = x.extractLsb' 0 8 := by
  have h1 := toNat_two x
  rw [h] at h1
  have h2 := (x.extractLsb' 0 8).isLt
  have h3 : x.toInt = (x.toNat : Int) := by rw [BitVec.toInt_eq_toNat_cond]; simp at h1; omega
  have h4 : max 0 (min x.toInt (2 ^ 8 - 1)) = ((x.extractLsb' 0 8).toNat : Int) := by
    have h1' : x.toNat = (x.extractLsb' 0 8).toNat := by simpa using h1
    rw [h3, show ((2 : Int) ^ 8 - 1) = 255 from by decide, Int.min_eq_left (by omega),
      Int.max_eq_right (by omega), h1']
  rw [h4, BitVec.ofInt_natCast, BitVec.ofNat_toNat, BitVec.setWidth_eq]

theorem packus32_id {x : BitVec 32} (h : x.extractLsb' 16 16 = 0#16) :
    BitVec.ofInt 16 (max 0 (min x.toInt (2 ^ 16 - 1))) = x.extractLsb' 0 16 := by
  have h1 := toNat_four x
  rw [h] at h1
  have h2 := (x.extractLsb' 0 16).isLt
  have h3 : x.toInt = (x.toNat : Int) := by rw [BitVec.toInt_eq_toNat_cond]; simp at h1; omega
  have h4 : max 0 (min x.toInt (2 ^ 16 - 1)) = ((x.extractLsb' 0 16).toNat : Int) := by
    have h1' : x.toNat = (x.extractLsb' 0 16).toNat := by simpa using h1
    rw [h3, show ((2 : Int) ^ 16 - 1) = 65535 from by decide, Int.min_eq_left (by omega),
      Int.max_eq_right (by omega), h1']
  rw [h4, BitVec.ofInt_natCast, BitVec.ofNat_toNat, BitVec.setWidth_eq]

theorem packs32_id {x : BitVec 32} (h : x.extractLsb' 16 16 = if (x.extractLsb' 0 16).msb then BitVec.allOnes 16 else 0#16) :
    BitVec.ofInt 16 (clampI 16 x.toInt) = x.extractLsb' 0 16 := by
  have h1 := toNat_four x
  rw [h] at h1
  generalize x.extractLsb' 0 16 = y at h1 ⊢
  have h2 := y.isLt
  have h3 : x.toInt = y.toInt := by
    rw [BitVec.toInt_eq_toNat_cond, BitVec.toInt_eq_toNat_cond]
    rw [BitVec.msb_eq_decide] at h1
    by_cases c : 2 ^ (16 - 1) ≤ y.toNat
    · simp [c] at h1; omega
    · simp [c] at h1; omega
  have h5 := BitVec.toInt_lt (x := y)
  have h6 := BitVec.le_toInt (x := y)
  have h4 : clampI 16 x.toInt = y.toInt := by
    rw [h3]; unfold clampI; simp at h5 h6; omega
  rw [h4, BitVec.ofInt_toInt]

/-- Symbolic result of packing 16-bit lanes with zero upper bytes. -/
def SB.pack16 (S : Nat → SB) (k : Nat) : SB := if S (2 * k + 1) = .lit 0 then S (2 * k) else .bad
/-- Symbolic byte `i` of the result of `packus` on 32-bit lanes with zero upper halves. -/
def SB.pack32 (S : Nat → SB) (k j : Nat) : SB :=
  if S (4 * k + 2) = .lit 0 ∧ S (4 * k + 3) = .lit 0 then S (4 * k + j) else .bad
/-- Symbolic byte `i` of the result of `packs` on sign-extended 32-bit lanes. -/
def SB.packs32 (S : Nat → SB) (k j : Nat) : SB :=
  if S (4 * k + 2) = (S (4 * k + 1)).sgn ∧ S (4 * k + 3) = (S (4 * k + 1)).sgn ∧ (S (4 * k + 1)).sgn ≠ .bad then
    S (4 * k + j) else .bad

theorem sym_packus16 (hA : Sym a b A S) (hB : Sym a b B T) : Sym a b (packus 16 A B)
    (fun i => if i < 8 then SB.pack16 S i else SB.pack16 T (i - 8)) := by
  have key : ∀ {A : M128} {S : Nat → SB}, Sym a b A S → ∀ k, k < 8 → ∀ x, (SB.pack16 S k).den a b = some x →
      BitVec.ofInt 8 (max 0 (min (lane 16 k A).toInt (2 ^ 8 - 1))) = x := by
    intro A S hA k hk x hx
    unfold SB.pack16 at hx
    split at hx
    · rename_i h
      have h1 := hA (2 * k + 1) (by omega) 0#8 (by rw [h]; rfl)
      have h2 := byte_lane (w := 16) (m := 2) rfl (show 1 < 2 by omega) k A
      have h3 := byte_lane (w := 16) (m := 2) rfl (show 0 < 2 by omega) k A
      rw [packus16_id (by rw [show (8 : Nat) = 8 * 1 from rfl, h2, h1])]
      rw [show (8 * 0 : Nat) = 0 from rfl] at h3
      rw [h3]; exact hA _ (by omega) x hx
    · simp [SB.den] at hx
  intro i hi x hx
  dsimp only at hx
  have e : lane 8 i (packus 16 A B) = _ := lane_mk (w := 8) (by omega) (by omega) _
  rw [e]
  split at hx
  · rename_i h
    rw [if_pos (by omega)]; exact key hA i h x hx
  · rename_i h
    rw [if_neg (by omega)]; exact key hB (i - 8) (by omega) x hx

theorem half_bytes {x y : BitVec 16} (h0 : x.extractLsb' 0 8 = y.extractLsb' 0 8)
    (h1 : x.extractLsb' 8 8 = y.extractLsb' 8 8) : x = y := by
  apply BitVec.eq_of_toNat_eq; rw [toNat_two x, toNat_two y, h0, h1]

theorem half_of_lane (A : M128) (k c : Nat) (hc : c < 2) :
    (lane 32 k A).extractLsb' (16 * c) 16 = lane 16 (2 * k + c) A := (lane_sub 16 2 k c hc A).symm

theorem bytes_of_half (A : M128) (k : Nat) (c : Nat) (hc : c < 2) :
    (lane 16 k A).extractLsb' (8 * c) 8 = lane 8 (2 * k + c) A := (lane_sub 8 2 k c hc A).symm

theorem sym_packus32 (hA : Sym a b A S) (hB : Sym a b B T) : Sym a b (packus 32 A B)
    (fun i => if i / 2 < 4 then SB.pack32 S (i / 2) (i % 2) else SB.pack32 T (i / 2 - 4) (i % 2)) := by
  have key : ∀ {A : M128} {S : Nat → SB}, Sym a b A S → ∀ k, k < 4 → ∀ j, j < 2 → ∀ x,
      (SB.pack32 S k j).den a b = some x →
      (BitVec.ofInt 16 (max 0 (min (lane 32 k A).toInt (2 ^ 16 - 1)))).extractLsb' (8 * j) 8 = x := by
    intro A S hA k hk j hj x hx
    unfold SB.pack32 at hx
    split at hx
    · rename_i h
      have h1 := hA (4 * k + 2) (by omega) 0#8 (by rw [h.1]; rfl)
      have h2 := hA (4 * k + 3) (by omega) 0#8 (by rw [h.2]; rfl)
      have hz : (lane 32 k A).extractLsb' 16 16 = 0#16 := by
        rw [show (16 : Nat) = 16 * 1 from rfl, half_of_lane A k 1 (by omega)]
        apply half_bytes
        · have := bytes_of_half A (2 * k + 1) 0 (by omega)
          rw [show (0 : Nat) = 8 * 0 from rfl, this, show 2 * (2 * k + 1) + 0 = 4 * k + 2 by omega, h1]; rfl
        · have := bytes_of_half A (2 * k + 1) 1 (by omega)
          rw [show lane (16 * 1) (2 * k + 1) A = lane 16 (2 * k + 1) A from rfl]
          rw [show BitVec.extractLsb' 8 8 (lane 16 (2 * k + 1) A) = BitVec.extractLsb' (8 * 1) 8 (lane 16 (2 * k + 1) A) from rfl,
            this, show 2 * (2 * k + 1) + 1 = 4 * k + 3 by omega, h2]; rfl
      rw [packus32_id hz]
      have h0 := half_of_lane A k 0 (by omega)
      rw [show 16 * 0 = 0 from rfl] at h0
      rw [h0, bytes_of_half _ _ _ hj]
      rw [show 2 * (2 * k + 0) + j = 4 * k + j by omega]
      exact hA _ (by omega) x hx
    · simp [SB.den] at hx
  intro i hi x hx
  dsimp only at hx
  unfold packus
  rw [byte_mk (w := 32 / 2) (m := 2) rfl (by omega) _ hi]
  split at hx
  · rename_i h
    rw [if_pos (by omega)]; exact key hA _ h _ (Nat.mod_lt _ (by omega)) x hx
  · rename_i h
    rw [if_neg (by omega)]; exact key hB _ (by omega) _ (Nat.mod_lt _ (by omega)) x hx

theorem sgn_den {s : SB} {x : BitVec 8} (hs : ∀ z, s.den a b = some z → x = z) (hb : s.sgn ≠ .bad) :
    s.sgn.den a b = some (signByte x) := by
  cases h : s.sgn.den a b with
  | none =>
    revert h hb
    cases s.sgn <;> simp [SB.den]
  | some z => rw [den_sgn hs z h]

theorem sym_packs32 (hA : Sym a b A S) (hB : Sym a b B T) : Sym a b (packs 32 A B)
    (fun i => if i / 2 < 4 then SB.packs32 S (i / 2) (i % 2) else SB.packs32 T (i / 2 - 4) (i % 2)) := by
  have key : ∀ {A : M128} {S : Nat → SB}, Sym a b A S → ∀ k, k < 4 → ∀ j, j < 2 → ∀ x,
      (SB.packs32 S k j).den a b = some x →
      (BitVec.ofInt 16 (clampI 16 (lane 32 k A).toInt)).extractLsb' (8 * j) 8 = x := by
    intro A S hA k hk j hj x hx
    unfold SB.packs32 at hx
    split at hx
    · rename_i h
      have hs := sgn_den (hA (4 * k + 1) (by omega)) h.2.2
      have h1 := hA (4 * k + 2) (by omega) _ (by rw [h.1]; exact hs)
      have h2 := hA (4 * k + 3) (by omega) _ (by rw [h.2.1]; exact hs)
      have h0 := half_of_lane A k 0 (by omega)
      rw [show 16 * 0 = 0 from rfl, show 2 * k + 0 = 2 * k by omega] at h0
      have hz : (lane 32 k A).extractLsb' 16 16 =
          if ((lane 32 k A).extractLsb' 0 16).msb then BitVec.allOnes 16 else 0#16 := by
        rw [h0]
        have hm : (lane 16 (2 * k) A).msb = (lane 8 (4 * k + 1) A).msb := by
          rw [BitVec.msb_eq_getLsbD_last, BitVec.msb_eq_getLsbD_last, getLsbD_lane, getLsbD_lane,
            show 16 * (2 * k) + (16 - 1) = 8 * (4 * k + 1) + (8 - 1) by omega]; rfl
        rw [hm]
        have b0 := bytes_of_half A (2 * k + 1) 0 (by omega)
        have b1 := bytes_of_half A (2 * k + 1) 1 (by omega)
        rw [show 2 * (2 * k + 1) + 0 = 4 * k + 2 by omega, h1] at b0
        rw [show 2 * (2 * k + 1) + 1 = 4 * k + 3 by omega, h2] at b1
        have e1 : (lane 32 k A).extractLsb' 16 16 = lane 16 (2 * k + 1) A := half_of_lane A k 1 (by omega)
        rw [e1]
        apply half_bytes
        · rw [show (0 : Nat) = 8 * 0 from rfl, b0]
          unfold signByte; cases (lane 8 (4 * k + 1) A).msb <;> rfl
        · rw [show BitVec.extractLsb' 8 8 (lane 16 (2 * k + 1) A) = BitVec.extractLsb' (8 * 1) 8 (lane 16 (2 * k + 1) A) from rfl, b1]
          unfold signByte; cases (lane 8 (4 * k + 1) A).msb <;> rfl
      rw [packs32_id hz, h0, bytes_of_half _ _ _ hj]
      rw [show 2 * (2 * k) + j = 4 * k + j by omega]
      exact hA _ (by omega) x hx
    · simp [SB.den] at hx
  intro i hi x hx
  dsimp only at hx
  unfold packs
  rw [byte_mk (w := 32 / 2) (m := 2) rfl (by omega) _ hi]
  split at hx
  · rename_i h
    rw [if_pos (by omega)]; exact key hA _ h _ (Nat.mod_lt _ (by omega)) x hx
  · rename_i h
    rw [if_neg (by omega)]; exact key hB _ (by omega) _ (Nat.mod_lt _ (by omega)) x hx

/-- `PSHUFB` with constant indices. -/
theorem sym_shuffle8 (hA : Sym a b A S) (hB : Sym a b B T) :
    Sym a b (shuffle8 A B) (fun i => SB.look S (T i)) := by
  intro i hi x hx
  dsimp only at hx
  cases hT : T i with
  | lit n =>
    simp only [hT, SB.look] at hx
    split at hx
    · rename_i hn
      have hb : lane 8 i B = BitVec.ofNat 8 n := hB i hi _ (by rw [hT]; rfl)
      have hbn : (lane 8 i B).toNat = n := by rw [hb]; simp; omega
      have hm : (lane 8 i B).msb = false := by rw [BitVec.msb_eq_decide, hbn]; simp; omega
      unfold shuffle8
      rw [lane_mk (by omega) (by omega), hm, hbn, Nat.mod_eq_of_lt hn]
      simp only [Bool.false_eq_true, if_false]
      exact hA n hn x hx
    · simp [SB.den] at hx
  | _ => simp [hT, SB.look, SB.den] at hx

/-- The conclusion: the lanes of `R` are lanes of `a` or `b`. -/
theorem Sym.lanes {w m n : Nat} (hw : w = 8 * m) (hn : m * n ≤ 16) {R : M128} {S : Nat → SB} (h : Sym a b R S)
    (c : Nat → Bool) (f g : Nat → Nat)
    (chk : ∀ k, k < n → ∀ j, j < m →
      S (m * k + j) = if c k then SB.byte false (m * f k + j) else SB.byte true (m * g k + j)) :
    ∀ i, i < n → lane w i R = if c i then lane w (f i) a else lane w (g i) b := by
  intro i hi
  have hlt : ∀ j, j < m → m * i + j < 16 := by
    intro j hj
    have : m * (i + 1) ≤ m * n := Nat.mul_le_mul_left _ hi
    rw [Nat.mul_add] at this; omega
  apply lane_bytes hw
  intro j hj
  rw [byte_lane hw hj]
  have hc := chk i hi j hj
  cases hci : c i
  · rw [hci] at hc
    rw [h (m * i + j) (hlt j hj) _ (by rw [hc]; rfl)]
    simp only [Bool.false_eq_true, if_false]
    rw [byte_lane hw hj]; rfl
  · rw [hci] at hc
    rw [h (m * i + j) (hlt j hj) _ (by rw [hc]; rfl)]
    simp only [if_true]
    rw [byte_lane hw hj]; rfl

/-- The conclusion where the upper part of the result is zero. -/
theorem Sym.lanes0 {w m n : Nat} (hw : w = 8 * m) (hn : m * n ≤ 16) {R : M128} {S : Nat → SB} (h : Sym a b R S)
    (c : Nat → Bool) (f : Nat → Nat)
    (chk : ∀ k, k < n → ∀ j, j < m →
      S (m * k + j) = if c k then SB.byte false (m * f k + j) else SB.lit 0) :
    ∀ i, i < n → lane w i R = if c i then lane w (f i) a else 0#w := by
  intro i hi
  have hlt : ∀ j, j < m → m * i + j < 16 := by
    intro j hj
    have : m * (i + 1) ≤ m * n := Nat.mul_le_mul_left _ hi
    rw [Nat.mul_add] at this; omega
  apply lane_bytes hw
  intro j hj
  rw [byte_lane hw hj]
  have hc := chk i hi j hj
  cases hci : c i
  · rw [hci] at hc
    rw [h (m * i + j) (hlt j hj) _ (by rw [hc]; rfl)]
    simp
  · rw [hci] at hc
    rw [h (m * i + j) (hlt j hj) _ (by rw [hc]; rfl)]
    simp only [if_true]
    rw [byte_lane hw hj]; rfl

/-- Checks a property of all numbers below a bound. -/
def allLT (n : Nat) (p : Nat → Bool) : Bool := (List.range n).all p
theorem allLT_iff {n : Nat} {p : Nat → Bool} (h : allLT n p = true) : ∀ k, k < n → p k = true := by
  intro k hk; exact List.all_eq_true.1 h k (List.mem_range.2 hk)
/-- Equality of symbolic bytes, as a test. -/
def SB.same : SB → SB → Bool
  | .lit m, .lit n => Nat.beq m n
  | .byte r j, .byte r' j' => r == r' && Nat.beq j j'
  | _, _ => false
theorem SB.same_eq {s t : SB} (h : s.same t = true) : s = t := by
  cases s <;> cases t <;> simp_all [SB.same, Nat.beq_eq]
/-- Compares the symbolic bytes of a result with the expected ones. -/
def chkBytes (m n : Nat) (S E : Nat → SB) : Bool := allLT (m * n) (fun q => (S q).same (E q))
theorem chkBytes_eq {m n : Nat} {S E : Nat → SB} (h : chkBytes m n S E = true) (k : Nat) (hk : k < n) (j : Nat)
    (hj : j < m) : S (m * k + j) = E (m * k + j) := by
  apply SB.same_eq
  apply allLT_iff h
  have : m * (k + 1) ≤ m * n := Nat.mul_le_mul_left _ hk
  rw [Nat.mul_add] at this; omega

/-- `Sym.lanes` with the number of bytes per lane computed from the width. -/
theorem Sym.lanesW {w n : Nat} {R : M128} {S : Nat → SB} {c : Nat → Prop} {dc : DecidablePred c} {f g : Nat → Nat}
    (hw : w = 8 * (w / 8)) (hn : w / 8 * n ≤ 16) (h : Sym a b R S)
    (chk : chkBytes (w / 8) n S (fun q => if c (q / (w / 8)) then SB.byte false (w / 8 * f (q / (w / 8)) + q % (w / 8))
      else SB.byte true (w / 8 * g (q / (w / 8)) + q % (w / 8))) = true)
    (i : Nat) (hi : i < n) : lane w i R = if c i then lane w (f i) a else lane w (g i) b := by
  have := Sym.lanes hw hn h (fun k => decide (c k)) f g (by
    intro k hk j hj
    rw [chkBytes_eq chk k hk j hj]
    have h1 : (w / 8 * k + j) / (w / 8) = k := by
      rw [Nat.mul_add_div (by omega), Nat.div_eq_of_lt hj]; omega
    have h2 : (w / 8 * k + j) % (w / 8) = j := by rw [Nat.mul_add_mod, Nat.mod_eq_of_lt hj]
    rw [h1, h2]; simp only [decide_eq_true_eq]) i hi
  simpa only [decide_eq_true_eq] using this

/-- `Sym.lanes0` with the number of bytes per lane computed from the width. -/
theorem Sym.lanes0W {w n : Nat} {R : M128} {S : Nat → SB} {c : Nat → Prop} {dc : DecidablePred c} {f : Nat → Nat}
    (hw : w = 8 * (w / 8)) (hn : w / 8 * n ≤ 16) (h : Sym a b R S)
    (chk : chkBytes (w / 8) n S (fun q => if c (q / (w / 8)) then SB.byte false (w / 8 * f (q / (w / 8)) + q % (w / 8))
      else SB.lit 0) = true)
    (i : Nat) (hi : i < n) : lane w i R = if c i then lane w (f i) a else 0#w := by
  have := Sym.lanes0 hw hn h (fun k => decide (c k)) f (by
    intro k hk j hj
    rw [chkBytes_eq chk k hk j hj]
    have h1 : (w / 8 * k + j) / (w / 8) = k := by
      rw [Nat.mul_add_div (by omega), Nat.div_eq_of_lt hj]; omega
    have h2 : (w / 8 * k + j) % (w / 8) = j := by rw [Nat.mul_add_mod, Nat.mod_eq_of_lt hj]
    rw [h1, h2]; simp only [decide_eq_true_eq]) i hi
  simpa only [decide_eq_true_eq] using this

/-- The conclusion for a permutation of one register. -/
theorem Sym.lanes1W {w n : Nat} {R : M128} {S : Nat → SB} {f : Nat → Nat}
    (hw : w = 8 * (w / 8)) (hn : w / 8 * n ≤ 16) (h : Sym a b R S)
    (chk : chkBytes (w / 8) n S (fun q => SB.byte false (w / 8 * f (q / (w / 8)) + q % (w / 8))) = true)
    (i : Nat) (hi : i < n) : lane w i R = lane w (f i) a := by
  have := Sym.lanes hw hn h (fun _ => true) f f (by
    intro k hk j hj
    rw [chkBytes_eq chk k hk j hj]
    have h1 : (w / 8 * k + j) / (w / 8) = k := by
      rw [Nat.mul_add_div (by omega), Nat.div_eq_of_lt hj]; omega
    have h2 : (w / 8 * k + j) % (w / 8) = j := by rw [Nat.mul_add_mod, Nat.mod_eq_of_lt hj]
    rw [h1, h2]; rfl) i hi
  simpa only [if_true] using this

theorem sym_set8 (x : BitVec 8) : Sym a b (set 8 x) (fun i => .lit (x.extractLsb' (8 * (i % 1)) 8).toNat) :=
  sym_set (w := 8) (m := 1) rfl (by omega) x
theorem sym_set16 (x : BitVec 16) : Sym a b (set 16 x) (fun i => .lit (x.extractLsb' (8 * (i % 2)) 8).toNat) :=
  sym_set (w := 16) (m := 2) rfl (by omega) x
theorem sym_set32 (x : BitVec 32) : Sym a b (set 32 x) (fun i => .lit (x.extractLsb' (8 * (i % 4)) 8).toNat) :=
  sym_set (w := 32) (m := 4) rfl (by omega) x
theorem sym_unpacklo8 (hA : Sym a b A S) (hB : Sym a b B T) : Sym a b (unpacklo 8 A B)
    (fun i => if i / 1 % 2 = 0 then S (1 * (i / 1 / 2) + i % 1) else T (1 * (i / 1 / 2) + i % 1)) :=
  sym_unpacklo (w := 8) (m := 1) rfl (by omega) hA hB
theorem sym_unpackhi8 (hA : Sym a b A S) (hB : Sym a b B T) : Sym a b (unpackhi 8 A B)
    (fun i => if i / 1 % 2 = 0 then S (1 * (8 + i / 1 / 2) + i % 1) else T (1 * (8 + i / 1 / 2) + i % 1)) :=
  sym_unpackhi (w := 8) (m := 1) rfl (by omega) hA hB
theorem sym_FirstN8 (t : Tgt) (kN n : Nat) (hn : kN ≤ 16) : Sym a b (FirstN t 8 kN n)
    (fun i => if i / 1 < kN then (if i / 1 < n then .lit 255 else .lit 0) else .bad) :=
  sym_FirstN t (w := 8) (m := 1) rfl (by omega) kN n hn
theorem sym_unpacklo16 (hA : Sym a b A S) (hB : Sym a b B T) : Sym a b (unpacklo 16 A B)
    (fun i => if i / 2 % 2 = 0 then S (2 * (i / 2 / 2) + i % 2) else T (2 * (i / 2 / 2) + i % 2)) :=
  sym_unpacklo (w := 16) (m := 2) rfl (by omega) hA hB
theorem sym_unpackhi16 (hA : Sym a b A S) (hB : Sym a b B T) : Sym a b (unpackhi 16 A B)
    (fun i => if i / 2 % 2 = 0 then S (2 * (4 + i / 2 / 2) + i % 2) else T (2 * (4 + i / 2 / 2) + i % 2)) :=
  sym_unpackhi (w := 16) (m := 2) rfl (by omega) hA hB
theorem sym_FirstN16 (t : Tgt) (kN n : Nat) (hn : kN ≤ 8) : Sym a b (FirstN t 16 kN n)
    (fun i => if i / 2 < kN then (if i / 2 < n then .lit 255 else .lit 0) else .bad) :=
  sym_FirstN t (w := 16) (m := 2) rfl (by omega) kN n hn
theorem sym_unpacklo32 (hA : Sym a b A S) (hB : Sym a b B T) : Sym a b (unpacklo 32 A B)
    (fun i => if i / 4 % 2 = 0 then S (4 * (i / 4 / 2) + i % 4) else T (4 * (i / 4 / 2) + i % 4)) :=
  sym_unpacklo (w := 32) (m := 4) rfl (by omega) hA hB
theorem sym_unpackhi32 (hA : Sym a b A S) (hB : Sym a b B T) : Sym a b (unpackhi 32 A B)
    (fun i => if i / 4 % 2 = 0 then S (4 * (2 + i / 4 / 2) + i % 4) else T (4 * (2 + i / 4 / 2) + i % 4)) :=
  sym_unpackhi (w := 32) (m := 4) rfl (by omega) hA hB
theorem sym_FirstN32 (t : Tgt) (kN n : Nat) (hn : kN ≤ 4) : Sym a b (FirstN t 32 kN n)
    (fun i => if i / 4 < kN then (if i / 4 < n then .lit 255 else .lit 0) else .bad) :=
  sym_FirstN t (w := 32) (m := 4) rfl (by omega) kN n hn
theorem sym_unpacklo64 (hA : Sym a b A S) (hB : Sym a b B T) : Sym a b (unpacklo 64 A B)
    (fun i => if i / 8 % 2 = 0 then S (8 * (i / 8 / 2) + i % 8) else T (8 * (i / 8 / 2) + i % 8)) :=
  sym_unpacklo (w := 64) (m := 8) rfl (by omega) hA hB
theorem sym_unpackhi64 (hA : Sym a b A S) (hB : Sym a b B T) : Sym a b (unpackhi 64 A B)
    (fun i => if i / 8 % 2 = 0 then S (8 * (1 + i / 8 / 2) + i % 8) else T (8 * (1 + i / 8 / 2) + i % 8)) :=
  sym_unpackhi (w := 64) (m := 8) rfl (by omega) hA hB
theorem sym_FirstN64 (t : Tgt) (kN n : Nat) (hn : kN ≤ 2) : Sym a b (FirstN t 64 kN n)
    (fun i => if i / 8 < kN then (if i / 8 < n then .lit 255 else .lit 0) else .bad) :=
  sym_FirstN t (w := 64) (m := 8) rfl (by omega) kN n hn
theorem sym_blend16 (imm : Nat) (hA : Sym a b A S) (hB : Sym a b B T) : Sym a b (blend 16 A B imm)
    (fun i => if imm >>> (i / 2) % 2 = 1 then T (2 * (i / 2) + i % 2) else S (2 * (i / 2) + i % 2)) :=
  sym_blend (w := 16) (m := 2) rfl (by omega) imm hA hB
theorem sym_blend32 (imm : Nat) (hA : Sym a b A S) (hB : Sym a b B T) : Sym a b (blend 32 A B imm)
    (fun i => if imm >>> (i / 4) % 2 = 1 then T (4 * (i / 4) + i % 4) else S (4 * (i / 4) + i % 4)) :=
  sym_blend (w := 32) (m := 4) rfl (by omega) imm hA hB
theorem sym_blend64 (imm : Nat) (hA : Sym a b A S) (hB : Sym a b B T) : Sym a b (blend 64 A B imm)
    (fun i => if imm >>> (i / 8) % 2 = 1 then T (8 * (i / 8) + i % 8) else S (8 * (i / 8) + i % 8)) :=
  sym_blend (w := 64) (m := 8) rfl (by omega) imm hA hB
theorem sym_slli16_8 (hA : Sym a b A S) : Sym a b (slli 16 8 A) (fun i => if 1 ≤ i % 2 then S (i - 1) else .lit 0) :=
  sym_slli (w := 16) (m := 2) rfl (by omega) 8 1 rfl hA
theorem sym_srli16_8 (hA : Sym a b A S) : Sym a b (srli 16 8 A) (fun i => if i % 2 + 1 < 2 then S (i + 1) else .lit 0) :=
  sym_srli (w := 16) (m := 2) rfl (by omega) 8 1 rfl hA
theorem sym_srai16_8 (hA : Sym a b A S) : Sym a b (srai 16 8 A)
    (fun i => if i % 2 + 1 < 2 then S (i + 1) else (S (2 * (i / 2) + (2 - 1))).sgn) :=
  sym_srai (w := 16) (m := 2) rfl (by omega) 8 1 rfl hA
theorem sym_slli32_16 (hA : Sym a b A S) : Sym a b (slli 32 16 A) (fun i => if 2 ≤ i % 4 then S (i - 2) else .lit 0) :=
  sym_slli (w := 32) (m := 4) rfl (by omega) 16 2 rfl hA
theorem sym_srli32_16 (hA : Sym a b A S) : Sym a b (srli 32 16 A) (fun i => if i % 4 + 2 < 4 then S (i + 2) else .lit 0) :=
  sym_srli (w := 32) (m := 4) rfl (by omega) 16 2 rfl hA
theorem sym_srai32_16 (hA : Sym a b A S) : Sym a b (srai 32 16 A)
    (fun i => if i % 4 + 2 < 4 then S (i + 2) else (S (4 * (i / 4) + (4 - 1))).sgn) :=
  sym_srai (w := 32) (m := 4) rfl (by omega) 16 2 rfl hA
theorem sym_slli64_32 (hA : Sym a b A S) : Sym a b (slli 64 32 A) (fun i => if 4 ≤ i % 8 then S (i - 4) else .lit 0) :=
  sym_slli (w := 64) (m := 8) rfl (by omega) 32 4 rfl hA
theorem sym_srli64_32 (hA : Sym a b A S) : Sym a b (srli 64 32 A) (fun i => if i % 8 + 4 < 8 then S (i + 4) else .lit 0) :=
  sym_srli (w := 64) (m := 8) rfl (by omega) 32 4 rfl hA
theorem sym_slli32_8 (hA : Sym a b A S) : Sym a b (slli 32 8 A) (fun i => if 1 ≤ i % 4 then S (i - 1) else .lit 0) :=
  sym_slli (w := 32) (m := 4) rfl (by omega) 8 1 rfl hA
theorem sym_srli32_8 (hA : Sym a b A S) : Sym a b (srli 32 8 A) (fun i => if i % 4 + 1 < 4 then S (i + 1) else .lit 0) :=
  sym_srli (w := 32) (m := 4) rfl (by omega) 8 1 rfl hA
theorem sym_srai32_8 (hA : Sym a b A S) : Sym a b (srai 32 8 A)
    (fun i => if i % 4 + 1 < 4 then S (i + 1) else (S (4 * (i / 4) + (4 - 1))).sgn) :=
  sym_srai (w := 32) (m := 4) rfl (by omega) 8 1 rfl hA
theorem sym_slli64_8 (hA : Sym a b A S) : Sym a b (slli 64 8 A) (fun i => if 1 ≤ i % 8 then S (i - 1) else .lit 0) :=
  sym_slli (w := 64) (m := 8) rfl (by omega) 8 1 rfl hA
theorem sym_srli64_8 (hA : Sym a b A S) : Sym a b (srli 64 8 A) (fun i => if i % 8 + 1 < 8 then S (i + 1) else .lit 0) :=
  sym_srli (w := 64) (m := 8) rfl (by omega) 8 1 rfl hA
theorem sym_slli64_16 (hA : Sym a b A S) : Sym a b (slli 64 16 A) (fun i => if 2 ≤ i % 8 then S (i - 2) else .lit 0) :=
  sym_slli (w := 64) (m := 8) rfl (by omega) 16 2 rfl hA
theorem sym_srli64_16 (hA : Sym a b A S) : Sym a b (srli 64 16 A) (fun i => if i % 8 + 2 < 8 then S (i + 2) else .lit 0) :=
  sym_srli (w := 64) (m := 8) rfl (by omega) 16 2 rfl hA
theorem sym_slli32_24 (hA : Sym a b A S) : Sym a b (slli 32 24 A) (fun i => if 3 ≤ i % 4 then S (i - 3) else .lit 0) :=
  sym_slli (w := 32) (m := 4) rfl (by omega) 24 3 rfl hA
theorem sym_srli32_24 (hA : Sym a b A S) : Sym a b (srli 32 24 A) (fun i => if i % 4 + 3 < 4 then S (i + 3) else .lit 0) :=
  sym_srli (w := 32) (m := 4) rfl (by omega) 24 3 rfl hA
theorem sym_srai32_24 (hA : Sym a b A S) : Sym a b (srai 32 24 A)
    (fun i => if i % 4 + 3 < 4 then S (i + 3) else (S (4 * (i / 4) + (4 - 1))).sgn) :=
  sym_srai (w := 32) (m := 4) rfl (by omega) 24 3 rfl hA
theorem sym_const8 (f : Nat → BitVec 8) : Sym a b (mk 8 f) (fun i => .lit ((f (i / 1)).extractLsb' (8 * (i % 1)) 8).toNat) :=
  sym_const (w := 8) (m := 1) rfl (by omega) f

/-- Computes the symbolic bytes of a register expression. -/
macro "sym" : tactic => `(tactic| (
  repeat' with_reducible first
    | exact sym_a | exact sym_b | exact sym_zero | apply sym_unpacklo8 | apply sym_unpacklo16
    | apply sym_unpacklo32 | apply sym_unpacklo64 | apply sym_unpackhi8 | apply sym_unpackhi16
    | apply sym_unpackhi32 | apply sym_unpackhi64 | apply sym_shuffle32 | apply sym_shufflelo16
    | apply sym_shufflehi16 | apply sym_shufflePs | apply sym_shufflePd | apply sym_packus16
    | apply sym_packus32 | apply sym_packs32 | apply sym_And | apply sym_Or | apply sym_TableLookupBytes
    | apply sym_ofBytes | apply sym_of16 | apply sym_set8 | apply sym_set16 | apply sym_set32
    | apply sym_slli16_8 | apply sym_srli16_8 | apply sym_srai16_8 | apply sym_slli32_16 | apply sym_srli32_16
    | apply sym_srai32_16 | apply sym_slli64_32 | apply sym_srli64_32 | apply sym_slli32_8 | apply sym_srli32_8
    | apply sym_srai32_8 | apply sym_slli64_8 | apply sym_srli64_8 | apply sym_slli64_16 | apply sym_srli64_16
    | apply sym_slli32_24 | apply sym_srli32_24 | apply sym_srai32_24 | apply sym_slliBytes
    | apply sym_srliBytes | apply sym_alignr | apply sym_moveEpi64 | apply sym_IfThenElseZero
    | apply sym_IfThenElse | apply sym_IfVecThenElse | apply sym_shuffle8 | apply sym_blend16
    | apply sym_blend32 | apply sym_blend64 | exact sym_FirstN8 _ _ _ (by decide)
    | exact sym_FirstN16 _ _ _ (by decide) | exact sym_FirstN32 _ _ _ (by decide)
    | exact sym_FirstN64 _ _ _ (by decide) | exact sym_const8 _))

end
end Hwy.X86
