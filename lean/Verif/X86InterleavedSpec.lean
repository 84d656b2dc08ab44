import Verif.X86Interleaved
import Verif.X86CompressSpec2

/-!
# C69: interleaved loads and stores

A symbolic byte engine for any number of inputs: `SymM env R S` says that byte `i` of `R` is what `S i` denotes, a constant or a
byte of one of the registers `env 0, env 1, ...`. Each operation has a rule derived from its lane theorem (C62, C63).
-/

namespace Hwy.X86

/-- A symbolic byte: a constant, byte `j` of input `k`, or unknown. -/
inductive MB | lit (n : Nat) | byte (k j : Nat) | bad
  deriving DecidableEq, Repr

/-- The value of a symbolic byte. -/
def MB.den (env : Nat → M128) : MB → Option (BitVec 8)
  | .lit n => some (BitVec.ofNat 8 n)
  | .byte k j => some (lane 8 j (env k))
  | .bad => none

/-- `R` consists of the symbolic bytes `S`. -/
def SymM (env : Nat → M128) (R : M128) (S : Nat → MB) : Prop :=
  ∀ i, i < 16 → ∀ x, (S i).den env = some x → lane 8 i R = x

/-- Reading beyond the register is unknown. -/
def cut (S : Nat → MB) (j : Nat) : MB := if j < 16 then S j else .bad

section
variable {env : Nat → M128}

theorem SymM.cut {R : M128} {S : Nat → MB} (h : SymM env R S) {j : Nat} {x : BitVec 8} (hx : (cut S j).den env = some x) :
    lane 8 j R = x := by
  unfold Hwy.X86.cut at hx
  split at hx
  · exact h j ‹_› x hx
  · simp [MB.den] at hx

theorem m_in (k : Nat) : SymM env (env k) (fun i => .byte k i) := by
  intro i _ x hx
  simp only [MB.den, Option.some.injEq] at hx
  rw [hx]

theorem m_ofBytes (l : List Nat) : SymM env (ofBytes l) (fun i => .lit (l.getD i 0)) := by
  intro i hi x hx
  simp only [MB.den, Option.some.injEq] at hx
  rw [lane_ofBytes l hi, hx]

theorem m_set8 (n : BitVec 8) : SymM env (set 8 n) (fun _ => .lit n.toNat) := by
  intro i hi x hx
  simp only [MB.den, Option.some.injEq, BitVec.ofNat_toNat, BitVec.setWidth_eq] at hx
  rw [lane_set ⟨by omega, by omega⟩, hx]

/-- The symbolic bytes of lanes taken from two registers. -/
def two (m n : Nat) (c : Nat → Bool) (f g : Nat → Nat) (Sa Sb : Nat → MB) (i : Nat) : MB :=
  if i < m * n then (if c (i / m) then cut Sa (m * f (i / m) + i % m) else cut Sb (m * g (i / m) + i % m)) else .bad
/-- The symbolic bytes of lanes taken from a register, or zero. -/
def one0 (m n : Nat) (c : Nat → Bool) (f : Nat → Nat) (Sa : Nat → MB) (i : Nat) : MB :=
  if i < m * n then (if c (i / m) then cut Sa (m * f (i / m) + i % m) else .lit 0) else .bad

/-- Lanes taken from two registers. -/
theorem m_two {w m n : Nat} (hw : w = 8 * m) {a b R : M128} {c : Nat → Prop} [DecidablePred c] {f g : Nat → Nat}
    (h : ∀ i, i < n → lane w i R = if c i then lane w (f i) a else lane w (g i) b) {Sa Sb : Nat → MB} (ha : SymM env a Sa) (hb : SymM env b Sb) :
    SymM env R (two m n (fun i => decide (c i)) f g Sa Sb) := by
  intro i hi x hx
  simp only [two, decide_eq_true_eq] at hx
  split at hx
  · rename_i hin
    have hm : 0 < m := by
      apply Nat.pos_of_ne_zero; intro h0; subst h0; simp at hin
    have hl : i / m < n := Nat.div_lt_of_lt_mul hin
    have hj := Nat.mod_lt i hm
    have e : lane 8 i R = (lane w (i / m) R).extractLsb' (8 * (i % m)) 8 := by
      rw [byte_lane hw hj, Nat.div_add_mod]
    rw [e, h _ hl]
    split at hx
    · rename_i hc
      rw [if_pos hc, byte_lane hw hj]; exact ha.cut hx
    · rename_i hc
      rw [if_neg hc, byte_lane hw hj]; exact hb.cut hx
  · simp [MB.den] at hx

theorem extract_zero {w k : Nat} : (0#w).extractLsb' k 8 = 0#8 := by
  apply BitVec.eq_of_getLsbD_eq; intro i hi; simp

/-- Lanes of a register or zero. -/
theorem m_one0 {w m n : Nat} (hw : w = 8 * m) {a R : M128} {c : Nat → Prop} [DecidablePred c] {f : Nat → Nat}
    (h : ∀ i, i < n → lane w i R = if c i then lane w (f i) a else 0#w) {Sa : Nat → MB} (ha : SymM env a Sa) :
    SymM env R (one0 m n (fun i => decide (c i)) f Sa) := by
  intro i hi x hx
  simp only [one0, decide_eq_true_eq] at hx
  split at hx
  · rename_i hin
    have hm : 0 < m := by
      apply Nat.pos_of_ne_zero; intro h0; subst h0; simp at hin
    have hl : i / m < n := Nat.div_lt_of_lt_mul hin
    have hj := Nat.mod_lt i hm
    have e : lane 8 i R = (lane w (i / m) R).extractLsb' (8 * (i % m)) 8 := by
      rw [byte_lane hw hj, Nat.div_add_mod]
    rw [e, h _ hl]
    split at hx
    · rename_i hc
      rw [if_pos hc, byte_lane hw hj]; exact ha.cut hx
    · rename_i hc
      simp only [MB.den, Option.some.injEq] at hx
      rw [if_neg hc, extract_zero, ← hx]
  · simp [MB.den] at hx

theorem shape_w {w sz : Nat} (h : Shape w sz) : w = 8 * (w / 8) := by
  obtain ⟨hw, -, -⟩ := shape_cases h
  rcases hw with rfl | rfl | rfl | rfl <;> rfl

theorem m_il {w : Nat} (hs : Shape w 16) {a b : M128} {Sa Sb : Nat → MB} (ha : SymM env a Sa) (hb : SymM env b Sb) :
    SymM env (InterleaveLower w a b)
      (two (w / 8) (Lanes w 16) (fun i => decide (i % 2 = 0)) (fun i => i / 2) (fun i => i / 2) Sa Sb) :=
  m_two (shape_w hs) (fun i hi => C63_interleaveLower hs a b (i := i) hi) ha hb
theorem m_iu (t : Tgt) {w sz : Nat} (hs : Shape w sz) (h2 : 2 ≤ Lanes w sz) {a b : M128} {Sa Sb : Nat → MB} (ha : SymM env a Sa) (hb : SymM env b Sb) :
    SymM env (InterleaveUpper t w sz a b)
      (two (w / 8) (Lanes w sz) (fun i => decide (i % 2 = 0)) (fun i => Lanes w sz / 2 + i / 2) (fun i => Lanes w sz / 2 + i / 2) Sa Sb) :=
  m_two (shape_w hs) (fun i hi => C63_interleaveUpper t hs h2 a b (i := i) hi) ha hb
theorem m_oe (t : Tgt) {w : Nat} (hs : Shape w 16) {a b : M128} {Sa Sb : Nat → MB} (ha : SymM env a Sa) (hb : SymM env b Sb) :
    SymM env (OddEven t w a b)
      (two (w / 8) (Lanes w 16) (fun i => decide (i % 2 = 1)) (fun i => i) (fun i => i) Sa Sb) :=
  m_two (shape_w hs) (fun i hi => C63_oddEven t hs a b (i := i) hi) ha hb
theorem m_ce (t : Tgt) {w sz : Nat} (hs : Shape w sz) (h2 : 2 ≤ Lanes w sz) {a b : M128} {Sa Sb : Nat → MB} (ha : SymM env a Sa) (hb : SymM env b Sb) :
    SymM env (ConcatEven t w sz a b)
      (two (w / 8) (Lanes w sz) (fun i => decide (i < Lanes w sz / 2)) (fun i => 2 * i) (fun i => 2 * (i - Lanes w sz / 2)) Sb Sa) :=
  m_two (shape_w hs) (fun i hi => C63_concatEven t hs h2 a b (i := i) hi) hb ha
theorem m_co (t : Tgt) {w sz : Nat} (hs : Shape w sz) (h2 : 2 ≤ Lanes w sz) {a b : M128} {Sa Sb : Nat → MB} (ha : SymM env a Sa) (hb : SymM env b Sb) :
    SymM env (ConcatOdd t w sz a b)
      (two (w / 8) (Lanes w sz) (fun i => decide (i < Lanes w sz / 2)) (fun i => 2 * i + 1) (fun i => 2 * (i - Lanes w sz / 2) + 1) Sb Sa) :=
  m_two (shape_w hs) (fun i hi => C63_concatOdd t hs h2 a b (i := i) hi) hb ha
theorem m_csr (t : Tgt) {w sz k : Nat} (hs : Shape w sz) (hk : k < sz) {a b : M128} {Sa Sb : Nat → MB} (ha : SymM env a Sa) (hb : SymM env b Sb) :
    SymM env (CombineShiftRightBytes t w sz k a b)
      (two 1 sz (fun i => decide (i + k < sz)) (fun i => i + k) (fun i => i + k - sz) Sb Sa) :=
  m_two (w := 8) rfl (fun i hi => C63_combineShiftRightBytes t hs hk a b (i := i) hi) hb ha
theorem m_s2301 (t : Tgt) {w : Nat} (hw : w = 8 ∨ w = 16 ∨ w = 32) {a b : M128} {Sa Sb : Nat → MB} (ha : SymM env a Sa) (hb : SymM env b Sb) :
    SymM env (ShuffleTwo2301 t w a b)
      (two (w / 8) 4 (fun i => decide (i < 2)) (fun i => 1 - i) (fun i => 5 - i) Sa Sb) :=
  m_two (by omega) (fun i hi => C63_shuffleTwo2301 t hw a b (i := i) hi) ha hb
theorem m_s1230 (t : Tgt) {w : Nat} (hw : w = 8 ∨ w = 16 ∨ w = 32) {a b : M128} {Sa Sb : Nat → MB} (ha : SymM env a Sa) (hb : SymM env b Sb) :
    SymM env (ShuffleTwo1230 t w a b)
      (two (w / 8) 4 (fun i => decide (i < 2)) (fun i => 3 * i) (fun i => 4 - i) Sa Sb) :=
  m_two (by omega) (fun i hi => C63_shuffleTwo1230 t hw a b (i := i) hi) ha hb
theorem m_s3012 (t : Tgt) {w : Nat} (hw : w = 8 ∨ w = 16 ∨ w = 32) {a b : M128} {Sa Sb : Nat → MB} (ha : SymM env a Sa) (hb : SymM env b Sb) :
    SymM env (ShuffleTwo3012 t w a b)
      (two (w / 8) 4 (fun i => decide (i < 2)) (fun i => 2 - i) (fun i => 3 * (i - 2)) Sa Sb) :=
  m_two (by omega) (fun i hi => C63_shuffleTwo3012 t hw a b (i := i) hi) ha hb
theorem m_srl (t : Tgt) {w sz k : Nat} (hs : Shape w sz) {a : M128} {Sa : Nat → MB} (ha : SymM env a Sa) :
    SymM env (ShiftRightLanes t w sz k a) (one0 (w / 8) (Lanes w sz) (fun i => decide (i + k < Lanes w sz)) (fun i => i + k) Sa) :=
  m_one0 (shape_w hs) (fun i hi => C63_shiftRightLanes t hs k a (i := i) hi) ha
theorem m_ze (t : Tgt) {w sz : Nat} (hs : Shape w sz) (h2 : 2 ≤ Lanes w sz) {a : M128} {Sa : Nat → MB} (ha : SymM env a Sa) :
    SymM env (ZeroExtendVector t w sz a) (one0 (w / 8) (Lanes w sz) (fun i => decide (i < Lanes w sz / 2)) (fun i => i) Sa) :=
  m_one0 (shape_w hs) (fun i hi => C63_zeroExtendVector t hs h2 a (i := i) hi) ha

/-- Symbolic sum of bytes. -/
def addB : MB → MB → MB
  | .lit x, .lit y => .lit ((x + y) % 256)
  | _, _ => .bad
theorem m_add8 {a b : M128} {Sa Sb : Nat → MB} (ha : SymM env a Sa) (hb : SymM env b Sb) : SymM env (Add 8 a b) (fun i => addB (Sa i) (Sb i)) := by
  intro i hi x hx
  rw [lane_Add ⟨by omega, by omega⟩]
  have h1 := ha i hi; have h2 := hb i hi
  simp only [] at hx
  generalize Sa i = p at h1 hx
  generalize Sb i = q at h2 hx
  cases p <;> cases q <;> simp only [addB, MB.den, Option.some.injEq, reduceCtorEq] at hx
  rw [h1 _ rfl, h2 _ rfl, ← hx]
  apply BitVec.eq_of_toNat_eq
  simp

/-- Symbolic `|` and `^` of bytes, one of which is zero. -/
def orB : MB → MB → MB
  | .lit 0, y => y
  | x, .lit 0 => x
  | _, _ => .bad
theorem orB_cases (p q : MB) : (p = .lit 0 ∧ orB p q = q) ∨ (q = .lit 0 ∧ orB p q = p) ∨ orB p q = .bad := by
  unfold orB
  split
  · exact .inl ⟨rfl, rfl⟩
  · exact .inr (.inl ⟨rfl, rfl⟩)
  · exact .inr (.inr rfl)
theorem m_or {a b : M128} {Sa Sb : Nat → MB} (ha : SymM env a Sa) (hb : SymM env b Sb) : SymM env (Or a b) (fun i => orB (Sa i) (Sb i)) := by
  intro i hi x hx
  rw [lane_Or]
  simp only [] at hx
  have h1 := ha i hi; have h2 := hb i hi
  rcases orB_cases (Sa i) (Sb i) with ⟨e, e2⟩ | ⟨e, e2⟩ | e
  · rw [e2] at hx; rw [e] at h1
    rw [h1 _ rfl, h2 x hx]; simp
  · rw [e2] at hx; rw [e] at h2
    rw [h2 _ rfl, h1 x hx]; simp
  · rw [e] at hx; simp [MB.den] at hx
theorem m_xor {a b : M128} {Sa Sb : Nat → MB} (ha : SymM env a Sa) (hb : SymM env b Sb) : SymM env (Xor a b) (fun i => orB (Sa i) (Sb i)) := by
  intro i hi x hx
  rw [lane_Xor]
  simp only [] at hx
  have h1 := ha i hi; have h2 := hb i hi
  rcases orB_cases (Sa i) (Sb i) with ⟨e, e2⟩ | ⟨e, e2⟩ | e
  · rw [e2] at hx; rw [e] at h1
    rw [h1 _ rfl, h2 x hx]; simp
  · rw [e2] at hx; rw [e] at h2
    rw [h2 _ rfl, h1 x hx]; simp
  · rw [e] at hx; simp [MB.den] at hx

/-- Symbolic lookup: an index of 128 or more gives zero. -/
def lookB (S : Nat → MB) : MB → MB
  | .lit n => if n % 256 < 16 then S (n % 256) else if 128 ≤ n % 256 then .lit 0 else .bad
  | _ => .bad
theorem m_tbl (t : Tgt) {v idx : M128} {Sv Si : Nat → MB} (hv : SymM env v Sv) (hi : SymM env idx Si) :
    SymM env (TableLookupBytesOr0 t v idx) (fun i => lookB Sv (Si i)) := by
  intro i h16 x hx
  have h1 := hi i h16
  simp only [] at hx
  generalize Si i = p at h1 hx
  cases p with
  | byte k j => simp [lookB, MB.den] at hx
  | bad => simp [lookB, MB.den] at hx
  | lit n =>
  simp only [lookB] at hx
  have e : (lane 8 i idx).toNat = n % 256 := by rw [h1 _ rfl]; simp
  split at hx
  · rename_i hlt
    rw [C62_tableLookupBytesOr0 t h16 _ _ (by omega), e, if_neg (by omega)]
    exact hv _ hlt x hx
  · split at hx
    · simp only [MB.den, Option.some.injEq] at hx
      rw [C62_tableLookupBytesOr0 t h16 _ _ (by omega), e, if_pos (by omega), ← hx]
    · simp [MB.den] at hx

/-- Reading off a lane. -/
theorem SymM.lane {w m : Nat} (hw : w = 8 * m) {R : M128} {S : Nat → MB} (h : SymM env R S) {i k l : Nat} (hi : m * i + m ≤ 16)
    (hS : ∀ j, j < m → S (m * i + j) = .byte k (m * l + j)) : Hwy.X86.lane w i R = Hwy.X86.lane w l (env k) := by
  apply lane_bytes hw
  intro j hj
  rw [byte_lane hw hj, byte_lane hw hj]
  exact h _ (by omega) _ (by rw [hS j hj]; rfl)

end

/-- Computes the symbolic bytes. -/
macro "msym" : tactic => `(tactic| repeat' with_reducible first
  | exact m_in _ | exact m_ofBytes _ | exact m_set8 _
  | apply m_il | apply m_iu | apply m_oe | apply m_tbl | apply m_xor | apply m_or | apply m_add8 | apply m_csr
  | apply m_s2301 | apply m_s1230 | apply m_s3012 | apply m_srl | apply m_ze | apply m_ce | apply m_co
  | (show Shape _ _; simp [Shape]; done)
  | (simp; done)
  | decide)

/-- The lanes of `R` are what `g` says: lane `i` is lane `(g i).2` of input `(g i).1`. -/
theorem lanes_from {env : Nat → M128} {w m n : Nat} (hw : w = 8 * m) (hn : m * n ≤ 16) {R : M128} {S : Nat → MB} (h : SymM env R S)
    (g : Nat → Nat × Nat) (hS : ∀ i, i < n → ∀ j, j < m → S (m * i + j) = .byte (g i).1 (m * (g i).2 + j)) :
    ∀ i, i < n → lane w i R = lane w (g i).2 (env (g i).1) := by
  intro i hi
  apply h.lane hw _ (hS i hi)
  have : m * (i + 1) ≤ m * n := Nat.mul_le_mul_left m hi
  rw [Nat.mul_add, Nat.mul_one] at this
  omega

/-- `lanes_from` with the bytes of a lane computed from its width. -/
theorem lanes_from' {env : Nat → M128} {w n : Nat} (hw : w = 8 * (w / 8)) (hn : w / 8 * n ≤ 16) {R : M128} {S : Nat → MB} (h : SymM env R S)
    (g : Nat → Nat × Nat) (hS : ∀ i, i < n → ∀ j, j < w / 8 → S (w / 8 * i + j) = .byte (g i).1 (w / 8 * (g i).2 + j)) :
    ∀ i, i < n → lane w i R = lane w (g i).2 (env (g i).1) :=
  lanes_from hw hn h g hS

end Hwy.X86
