import Verif.X86V256
import Verif.X86Reg256Spec
import Verif.X86InterleavedSpec

/-!
# C72: rearranging operations of 256-bit vectors

The multi-input symbolic engine of `X86InterleavedSpec.lean`, with one rule per instruction, on the four blocks of
the two operands.
-/

namespace Hwy.X86.V256

/-- A lane width. -/
def Width (w : Nat) : Prop := w = 8 ∨ w = 16 ∨ w = 32 ∨ w = 64

/-- The four blocks of two operands. -/
def env4 (a b : M256) : Nat → M128
  | 0 => a.lo
  | 1 => a.hi
  | 2 => b.lo
  | _ => b.hi

section
variable {a b : M256}

theorem q_a0 : SymM (env4 a b) a.lo (fun i => .byte 0 i) := m_in (env := env4 a b) 0
theorem q_a1 : SymM (env4 a b) a.hi (fun i => .byte 1 i) := m_in (env := env4 a b) 1
theorem q_b0 : SymM (env4 a b) b.lo (fun i => .byte 2 i) := m_in (env := env4 a b) 2
theorem q_b1 : SymM (env4 a b) b.hi (fun i => .byte 3 i) := m_in (env := env4 a b) 3

variable {env : Nat → M128} {A B : M128} {S T : Nat → MB}

theorem q_zero : SymM env zero (fun _ => .lit 0) := by
  intro i _ x hx; simp only [MB.den, Option.some.injEq] at hx; rw [lane_zero', ← hx]
theorem q_zero' : SymM env (0#128) (fun _ => .lit 0) := q_zero

theorem q_unpacklo {w m : Nat} (hw : w = 8 * m) (hd : m = 1 ∨ m = 2 ∨ m = 4 ∨ m = 8) (hA : SymM env A S) (hB : SymM env B T) :
    SymM env (unpacklo w A B) (two m (16 / m) (fun i => decide (i % 2 = 0)) (fun i => i / 2) (fun i => i / 2) S T) :=
  m_two hw (fun i hi => lane_mk (by omega) (by subst hw; rcases hd with rfl | rfl | rfl | rfl <;> omega) _) hA hB
theorem q_unpackhi {w m : Nat} (hw : w = 8 * m) (hd : m = 1 ∨ m = 2 ∨ m = 4 ∨ m = 8) (hA : SymM env A S) (hB : SymM env B T) :
    SymM env (unpackhi w A B) (two m (16 / m) (fun i => decide (i % 2 = 0)) (fun i => 64 / w + i / 2) (fun i => 64 / w + i / 2) S T) :=
  m_two hw (fun i hi => lane_mk (by omega) (by subst hw; rcases hd with rfl | rfl | rfl | rfl <;> omega) _) hA hB
theorem q_blend {w m : Nat} (hw : w = 8 * m) (hd : m = 1 ∨ m = 2 ∨ m = 4 ∨ m = 8) (imm : Nat) (hA : SymM env A S) (hB : SymM env B T) :
    SymM env (blend w A B imm) (two m (16 / m) (fun i => decide (imm >>> i % 2 = 1)) (fun i => i) (fun i => i) T S) :=
  m_two hw (fun i hi => lane_mk (by omega) (by subst hw; rcases hd with rfl | rfl | rfl | rfl <;> omega) _) hB hA
theorem q_shufflePs (imm : Nat) (hA : SymM env A S) (hB : SymM env B T) :
    SymM env (shufflePs A B imm) (two 4 4 (fun i => decide (i < 2)) (fun i => imm >>> (2 * i) % 4) (fun i => imm >>> (2 * i) % 4) S T) :=
  m_two (w := 32) rfl (fun i hi => lane_mk (by omega) (by omega) _) hA hB
theorem q_shufflePd (imm : Nat) (hA : SymM env A S) (hB : SymM env B T) :
    SymM env (shufflePd A B imm) (two 8 2 (fun i => decide (i < 1)) (fun i => imm >>> i % 2) (fun i => imm >>> i % 2) S T) :=
  m_two (w := 64) rfl (fun i hi => lane_mk (by omega) (by omega) _) hA hB
theorem q_shuffle32 (imm : Nat) (hA : SymM env A S) :
    SymM env (shuffle32 A imm) (two 4 4 (fun _ => true) (fun i => imm >>> (2 * i) % 4) (fun i => i) S S) := by
  have := m_two (env := env) (w := 32) (m := 4) (n := 4) (c := fun _ => True) (f := fun i => imm >>> (2 * i) % 4) (g := fun i => i) rfl
    (R := shuffle32 A imm) (fun i hi => (lane_mk (by omega) (by omega) _).trans (if_pos trivial).symm) hA hA
  simpa using this
theorem q_shufflelo16 (imm : Nat) (hA : SymM env A S) :
    SymM env (shufflelo16 A imm) (two 2 8 (fun i => decide (i < 4)) (fun i => imm >>> (2 * i) % 4) (fun i => i) S S) :=
  m_two (w := 16) rfl (fun i hi => lane_mk (by omega) (by omega) _) hA hA
theorem q_shufflehi16 (imm : Nat) (hA : SymM env A S) :
    SymM env (shufflehi16 A imm) (two 2 8 (fun i => decide (i < 4)) (fun i => i) (fun i => 4 + imm >>> (2 * (i - 4)) % 4) S S) :=
  m_two (w := 16) rfl (fun i hi => lane_mk (by omega) (by omega) _) hA hA
theorem q_alignr (k : Nat) (hk : k ≤ 16) (hA : SymM env A S) (hB : SymM env B T) :
    SymM env (alignr A B k) (two 1 16 (fun i => decide (i + k < 16)) (fun i => i + k) (fun i => i + k - 16) T S) :=
  m_two (w := 8) rfl (fun i hi => by
    unfold alignr; rw [lane_mk (by omega) (by omega)]
    by_cases h : i + k < 16
    · simp only [if_pos h]
    · simp only [if_neg h, if_pos (show i + k < 32 by omega)]) hB hA
theorem q_slliBytes (k : Nat) (hA : SymM env A S) :
    SymM env (slliBytes A k) (one0 1 16 (fun i => decide (k ≤ i)) (fun i => i - k) S) :=
  m_one0 (w := 8) rfl (fun i hi => lane_mk (by omega) (by omega) _) hA
theorem q_srliBytes (k : Nat) (hA : SymM env A S) :
    SymM env (srliBytes A k) (one0 1 16 (fun i => decide (i + k < 16)) (fun i => i + k) S) :=
  m_one0 (w := 8) rfl (fun i hi => lane_mk (by omega) (by omega) _) hA

theorem q_of16 (l : List Nat) : SymM env (of16 l) (fun i => .lit (l.getD (i / 2) 0 / (if i % 2 = 0 then 1 else 256) % 256)) := by
  intro i hi x hx
  simp only [MB.den, Option.some.injEq] at hx
  exact sym_of16 (a := zero) (b := zero) l i hi x (by simp only [SB.den, Option.some.injEq]; exact hx)

theorem q_shuffle8 (hA : SymM env A S) (hB : SymM env B T) : SymM env (shuffle8 A B) (fun i => lookB S (T i)) := by
  intro i hi x hx
  exact m_tbl .avx2 hA hB i hi x hx

/-- Chunks with saturating packs. -/
theorem q_packOdd16 (hA : SymM env A S) (hB : SymM env B T) :
    SymM env (packus 16 (srli 16 8 A) (srli 16 8 B))
      (two 1 16 (fun i => decide (i < 8)) (fun i => 2 * i + 1) (fun i => 2 * (i - 8) + 1) S T) :=
  m_two (w := 8) rfl (fun i hi => by leaf hi) hA hB
theorem q_packOdd32 (hA : SymM env A S) (hB : SymM env B T) :
    SymM env (packus 32 (srli 32 16 A) (srli 32 16 B))
      (two 2 8 (fun i => decide (i < 4)) (fun i => 2 * i + 1) (fun i => 2 * (i - 4) + 1) S T) :=
  m_two (w := 16) rfl (fun i hi => by leaf hi) hA hB
theorem q_packEven16 (hA : SymM env A S) (hB : SymM env B T) :
    SymM env (packus 16 (And A (set 16 0x00FF#16)) (And B (set 16 0x00FF#16)))
      (two 1 16 (fun i => decide (i < 8)) (fun i => 2 * i) (fun i => 2 * (i - 8)) S T) :=
  m_two (w := 8) rfl (fun i hi => by leaf hi) hA hB
theorem q_packEven32 (hA : SymM env A S) (hB : SymM env B T) :
    SymM env (packus 32 (And A (set 32 0x0000FFFF#32)) (And B (set 32 0x0000FFFF#32)))
      (two 2 8 (fun i => decide (i < 4)) (fun i => 2 * i) (fun i => 2 * (i - 4)) S T) :=
  m_two (w := 16) rfl (fun i hi => by leaf hi) hA hB
theorem q_slli16 (hA : SymM env A S) : SymM env (slli 16 8 A) (one0 1 16 (fun i => decide (1 ≤ i % 2)) (fun i => i - 1) S) :=
  m_one0 (w := 8) rfl (fun i hi => by leaf0 hi) hA
theorem q_slli32 (hA : SymM env A S) : SymM env (slli 32 16 A) (one0 2 8 (fun i => decide (1 ≤ i % 2)) (fun i => i - 1) S) :=
  m_one0 (w := 16) rfl (fun i hi => by leaf0 hi) hA
theorem q_srli16 (hA : SymM env A S) : SymM env (srli 16 8 A) (one0 1 16 (fun i => decide (i % 2 < 1)) (fun i => i + 1) S) :=
  m_one0 (w := 8) rfl (fun i hi => by leaf0 hi) hA
theorem q_srli32 (hA : SymM env A S) : SymM env (srli 32 16 A) (one0 2 8 (fun i => decide (i % 2 < 1)) (fun i => i + 1) S) :=
  m_one0 (w := 16) rfl (fun i hi => by leaf0 hi) hA

/-- Selection by a constant mask. -/
def iteB : MB → MB → MB → MB
  | .lit n, x, y => if n = 255 then y else if n = 0 then x else .bad
  | _, _, _ => .bad
theorem q_blendv8 {M : M128} {U : Nat → MB} (hA : SymM env A S) (hB : SymM env B T) (hM : SymM env M U) :
    SymM env (blendv 8 A B M) (fun i => iteB (U i) (S i) (T i)) := by
  intro i hi x hx
  have h1 := hM i hi
  have h2 := hA i hi x; have h3 := hB i hi x
  simp only [] at hx
  unfold blendv
  rw [lane_mk (by omega) (by omega)]
  generalize U i = p at h1 hx
  cases p with
  | byte k j => simp [iteB, MB.den] at hx
  | bad => simp [iteB, MB.den] at hx
  | lit n =>
  simp only [iteB] at hx
  have e := h1 _ rfl
  split at hx
  · rename_i hn; subst hn
    rw [e, if_pos (by decide)]; exact h3 hx
  · split at hx
    · rename_i hn; subst hn
      rw [e, if_neg (by decide)]; exact h2 hx
    · simp [MB.den] at hx

/-- `VPERMQ`. -/
theorem q_p4lo {q : M256} (imm : Nat) (hA : SymM env q.lo S) (hB : SymM env q.hi T) :
    SymM env (permute4x64 q imm).lo
      (two 8 2 (fun i => decide (imm >>> (2 * i) % 4 < 2)) (fun i => imm >>> (2 * i) % 4) (fun i => imm >>> (2 * i) % 4 - 2) S T) :=
  m_two (w := 64) rfl (fun i hi => lane_mk (by omega) (by omega) _) hA hB
theorem q_p4hi {q : M256} (imm : Nat) (hA : SymM env q.lo S) (hB : SymM env q.hi T) :
    SymM env (permute4x64 q imm).hi
      (two 8 2 (fun i => decide (imm >>> (2 * (i + 2)) % 4 < 2)) (fun i => imm >>> (2 * (i + 2)) % 4) (fun i => imm >>> (2 * (i + 2)) % 4 - 2) S T) :=
  m_two (w := 64) rfl (fun i hi => lane_mk (by omega) (by omega) _) hA hB

/-- Broadcast of lane 0. -/
theorem q_bcast {w m : Nat} (hw : w = 8 * m) (hd : m = 1 ∨ m = 2 ∨ m = 4 ∨ m = 8) (hA : SymM env A S) :
    SymM env (set1 w (lane w 0 A)) (two m (16 / m) (fun _ => true) (fun _ => 0) (fun _ => 0) S S) := by
  have := m_two (env := env) (w := w) (m := m) (n := 16 / m) (c := fun _ => True) (f := fun _ => 0) (g := fun _ => 0) hw
    (R := set1 w (lane w 0 A)) (fun i hi => (lane_mk (by omega) (by subst hw; rcases hd with rfl | rfl | rfl | rfl <;> omega) _).trans (if_pos trivial).symm) hA hA
  simpa using this

/-- `VPERMD` with a constant index. -/
def look8 (S T : Nat → MB) (U : Nat → MB) (i : Nat) : MB :=
  match U (4 * (i / 4)), U (4 * (i / 4) + 1), U (4 * (i / 4) + 2), U (4 * (i / 4) + 3) with
  | .lit n, .lit _, .lit _, .lit _ => if n % 8 < 4 then cut S (4 * (n % 8) + i % 4) else cut T (4 * (n % 8 - 4) + i % 4)
  | _, _, _, _ => .bad

end

/-- The lanes of a 256-bit result taken from two operands. -/
theorem lanesQ {w m : Nat} (hw : w = 8 * m) (hd : m = 1 ∨ m = 2 ∨ m = 4 ∨ m = 8) {a b R : M256} {S T : Nat → MB}
    (h0 : SymM (env4 a b) R.lo S) (h1 : SymM (env4 a b) R.hi T) {c : Nat → Prop} [DecidablePred c] {f g : Nat → Nat}
    (chk : ∀ i, i < 32 / m → ∀ j, j < m → (if i < 16 / m then S (m * i + j) else T (m * (i - 16 / m) + j)) =
      if c i then .byte (if f i < 16 / m then 0 else 1) (m * (if f i < 16 / m then f i else f i - 16 / m) + j)
      else .byte (if g i < 16 / m then 2 else 3) (m * (if g i < 16 / m then g i else g i - 16 / m) + j))
    {i : Nat} (hi : i < 256 / w) :
    lane256 w i R = if c i then lane256 w (f i) a else lane256 w (g i) b := by
  have hd1 : 128 / w = 16 / m := by subst hw; rcases hd with rfl | rfl | rfl | rfl <;> rfl
  have hd2 : 256 / w = 32 / m := by subst hw; rcases hd with rfl | rfl | rfl | rfl <;> rfl
  have hfit : ∀ k, k < 16 / m → m * k + m ≤ 16 := by rcases hd with rfl | rfl | rfl | rfl <;> omega
  have hsub : ∀ i, i < 32 / m → ¬ i < 16 / m → i - 16 / m < 16 / m := by rcases hd with rfl | rfl | rfl | rfl <;> omega
  have ck := chk i (by omega)
  have hi' : i < 32 / m := by omega
  have key : ∀ (l : M128) (U : Nat → MB) (k : Nat), SymM (env4 a b) l U → k < 16 / m →
      (∀ j, j < m → U (m * k + j) =
        if c i then .byte (if f i < 16 / m then 0 else 1) (m * (if f i < 16 / m then f i else f i - 16 / m) + j)
        else .byte (if g i < 16 / m then 2 else 3) (m * (if g i < 16 / m then g i else g i - 16 / m) + j)) →
      lane w k l = if c i then lane256 w (f i) a else lane256 w (g i) b := by
    intro l U k hl hk hU
    unfold lane256
    rw [hd1]
    by_cases hc : c i
    · simp only [if_pos hc] at hU ⊢
      by_cases hf : f i < 16 / m
      · simp only [if_pos hf] at hU ⊢; exact hl.lane hw (hfit k hk) hU
      · simp only [if_neg hf] at hU ⊢; exact hl.lane hw (hfit k hk) hU
    · simp only [if_neg hc] at hU ⊢
      by_cases hg : g i < 16 / m
      · simp only [if_pos hg] at hU ⊢; exact hl.lane hw (hfit k hk) hU
      · simp only [if_neg hg] at hU ⊢; exact hl.lane hw (hfit k hk) hU
  by_cases hb : i < 16 / m
  · rw [lane256_lo (by omega)]
    simp only [if_pos hb] at ck
    exact key _ _ _ h0 hb ck
  · rw [lane256_hi (by omega), hd1]
    simp only [if_neg hb] at ck
    exact key _ _ _ h1 (hsub i hi' hb) ck

/-- The lanes of a 256-bit result taken from one operand, or zero. -/
theorem lanesQ0 {w m : Nat} (hw : w = 8 * m) (hd : m = 1 ∨ m = 2 ∨ m = 4 ∨ m = 8) {a R : M256} {S T : Nat → MB}
    (h0 : SymM (env4 a a) R.lo S) (h1 : SymM (env4 a a) R.hi T) {c : Nat → Prop} [DecidablePred c] {f : Nat → Nat}
    (chk : ∀ i, i < 32 / m → ∀ j, j < m → (if i < 16 / m then S (m * i + j) else T (m * (i - 16 / m) + j)) =
      if c i then .byte (if f i < 16 / m then 0 else 1) (m * (if f i < 16 / m then f i else f i - 16 / m) + j) else .lit 0)
    {i : Nat} (hi : i < 256 / w) :
    lane256 w i R = if c i then lane256 w (f i) a else 0#w := by
  have hd1 : 128 / w = 16 / m := by subst hw; rcases hd with rfl | rfl | rfl | rfl <;> rfl
  have hd2 : 256 / w = 32 / m := by subst hw; rcases hd with rfl | rfl | rfl | rfl <;> rfl
  have hfit : ∀ k, k < 16 / m → m * k + m ≤ 16 := by rcases hd with rfl | rfl | rfl | rfl <;> omega
  have hsub : ∀ i, i < 32 / m → ¬ i < 16 / m → i - 16 / m < 16 / m := by rcases hd with rfl | rfl | rfl | rfl <;> omega
  have ck := chk i (by omega)
  have hi' : i < 32 / m := by omega
  have key : ∀ (l : M128) (U : Nat → MB) (k : Nat), SymM (env4 a a) l U → k < 16 / m →
      (∀ j, j < m → U (m * k + j) =
        if c i then .byte (if f i < 16 / m then 0 else 1) (m * (if f i < 16 / m then f i else f i - 16 / m) + j) else .lit 0) →
      lane w k l = if c i then lane256 w (f i) a else 0#w := by
    intro l U k hl hk hU
    unfold lane256
    rw [hd1]
    by_cases hc : c i
    · simp only [if_pos hc] at hU ⊢
      by_cases hf : f i < 16 / m
      · simp only [if_pos hf] at hU ⊢; exact hl.lane hw (hfit k hk) hU
      · simp only [if_neg hf] at hU ⊢; exact hl.lane hw (hfit k hk) hU
    · simp only [if_neg hc] at hU ⊢
      apply lane_bytes hw
      intro j hj
      have hk' := hfit k hk
      rw [byte_lane hw hj, extract_zero]
      exact hl (m * k + j) (by omega) _ (by rw [hU j hj]; rfl)
  by_cases hb : i < 16 / m
  · rw [lane256_lo (by omega)]
    simp only [if_pos hb] at ck
    exact key _ _ _ h0 hb ck
  · rw [lane256_hi (by omega), hd1]
    simp only [if_neg hb] at ck
    exact key _ _ _ h1 (hsub i hi' hb) ck

/-- The lanes of a 256-bit result taken from one operand. -/
theorem lanesQ1 {w m : Nat} (hw : w = 8 * m) (hd : m = 1 ∨ m = 2 ∨ m = 4 ∨ m = 8) {a R : M256} {S T : Nat → MB}
    (h0 : SymM (env4 a a) R.lo S) (h1 : SymM (env4 a a) R.hi T) {f : Nat → Nat}
    (chk : ∀ i, i < 32 / m → ∀ j, j < m → (if i < 16 / m then S (m * i + j) else T (m * (i - 16 / m) + j)) =
      .byte (if f i < 16 / m then 0 else 1) (m * (if f i < 16 / m then f i else f i - 16 / m) + j))
    {i : Nat} (hi : i < 256 / w) : lane256 w i R = lane256 w (f i) a := by
  have := lanesQ0 hw hd h0 h1 (c := fun _ => True) (f := f) (fun i hi j hj => by rw [if_pos trivial]; exact chk i hi j hj) hi
  simpa using this

/-- Computes the symbolic bytes. -/
macro "qsym" : tactic => `(tactic| repeat' with_reducible first
  | exact q_a0 | exact q_a1 | exact q_b0 | exact q_b1 | exact q_zero | exact q_zero'
  | exact m_ofBytes _ | exact m_set8 _ | exact q_of16 _
  | apply q_packOdd16 | apply q_packOdd32 | apply q_packEven16 | apply q_packEven32
  | apply q_unpacklo (m := 1) rfl (by decide) | apply q_unpacklo (m := 2) rfl (by decide)
  | apply q_unpacklo (m := 4) rfl (by decide) | apply q_unpacklo (m := 8) rfl (by decide)
  | apply q_unpackhi (m := 1) rfl (by decide) | apply q_unpackhi (m := 2) rfl (by decide)
  | apply q_unpackhi (m := 4) rfl (by decide) | apply q_unpackhi (m := 8) rfl (by decide)
  | apply q_blend (m := 2) rfl (by decide) | apply q_blend (m := 4) rfl (by decide) | apply q_blend (m := 8) rfl (by decide)
  | apply q_bcast (m := 1) rfl (by decide) | apply q_bcast (m := 2) rfl (by decide)
  | apply q_bcast (m := 4) rfl (by decide) | apply q_bcast (m := 8) rfl (by decide)
  | apply q_shufflePs | apply q_shufflePd | apply q_shuffle32 | apply q_shufflelo16 | apply q_shufflehi16
  | apply q_alignr _ (by decide) | apply q_slliBytes | apply q_srliBytes | apply q_shuffle8
  | apply q_slli16 | apply q_slli32 | apply q_srli16 | apply q_srli32 | apply q_blendv8
  | apply q_p4lo | apply q_p4hi)

/-- Evaluates the compile-time conditions. -/
macro "qstat" : tactic => `(tactic| simp only [inserti128, extracti128, permute2x128, sel128, blendQ, shufflePdQ, bcast, zero256, dup128,
  LowerHalf, UpperHalf, castsi256, ExtractBlock, ZeroExtendVector, Combine, ShiftLeftBytes, ShiftRightBytes, CombineShiftRightBytes,
  TableLookupBytes, Broadcast, ConcatLowerLower, ConcatLowerUpper, ConcatUpperLower, ConcatUpperUpper, BroadcastBlock, BroadcastLane,
  InsertBlock, SwapAdjacentBlocks, ReverseBlocks, InterleaveEvenBlocks, InterleaveOddBlocks, OddEvenBlocks,
  Shuffle2301, Shuffle1032, Shuffle01, Shuffle0321, Shuffle2103, Shuffle0123, InterleaveLower, InterleaveUpper, DupEven, DupOdd,
  IfThenElse, OddEven, InterleaveEven, InterleaveOdd, ConcatOdd, ConcatEven, InterleaveWholeLower, InterleaveWholeUpper,
  Reverse, Reverse2, Reverse4, Reverse8, SlideUpI64Lanes, SlideDownI64Lanes, SlideUpBlocks, SlideDownBlocks, Slide1Up, Slide1Down, blk1, blk2,
  Nat.reduceMul, Nat.reduceDiv, Nat.reduceSub, Nat.reduceAdd, Nat.reduceMod, Nat.reduceEqDiff, Nat.reduceLeDiff, Nat.reduceGT,
  Nat.reduceLT, Nat.reduceAnd, Nat.reducePow, Nat.reduceShiftLeft, Nat.reduceShiftRight, MM_SHUFFLE, ne_eq, not_true_eq_false, not_false_eq_true, reduceIte,
  Bool.false_eq_true, true_and, false_and, and_true, and_false, gt_iff_lt])

/-- `lanesQ` with the bytes of a lane computed from its width. -/
theorem lanesQW {w : Nat} {a b R : M256} {c : Nat → Prop} [DecidablePred c] {f g : Nat → Nat} {i : Nat} (hi : i < 256 / w)
    {S T : Nat → MB} (hw : w = 8 * (w / 8)) (hd : w / 8 = 1 ∨ w / 8 = 2 ∨ w / 8 = 4 ∨ w / 8 = 8)
    (h0 : SymM (env4 a b) R.lo S) (h1 : SymM (env4 a b) R.hi T)
    (chk : ∀ i, i < 32 / (w / 8) → ∀ j, j < w / 8 → (if i < 16 / (w / 8) then S (w / 8 * i + j) else T (w / 8 * (i - 16 / (w / 8)) + j)) =
      if c i then .byte (if f i < 16 / (w / 8) then 0 else 1) (w / 8 * (if f i < 16 / (w / 8) then f i else f i - 16 / (w / 8)) + j)
      else .byte (if g i < 16 / (w / 8) then 2 else 3) (w / 8 * (if g i < 16 / (w / 8) then g i else g i - 16 / (w / 8)) + j)) :
    lane256 w i R = if c i then lane256 w (f i) a else lane256 w (g i) b := lanesQ hw hd h0 h1 chk hi
/-- `lanesQ0` with the bytes of a lane computed from its width. -/
theorem lanesQ0W {w : Nat} {a R : M256} {c : Nat → Prop} [DecidablePred c] {f : Nat → Nat} {i : Nat} (hi : i < 256 / w)
    {S T : Nat → MB} (hw : w = 8 * (w / 8)) (hd : w / 8 = 1 ∨ w / 8 = 2 ∨ w / 8 = 4 ∨ w / 8 = 8)
    (h0 : SymM (env4 a a) R.lo S) (h1 : SymM (env4 a a) R.hi T)
    (chk : ∀ i, i < 32 / (w / 8) → ∀ j, j < w / 8 → (if i < 16 / (w / 8) then S (w / 8 * i + j) else T (w / 8 * (i - 16 / (w / 8)) + j)) =
      if c i then .byte (if f i < 16 / (w / 8) then 0 else 1) (w / 8 * (if f i < 16 / (w / 8) then f i else f i - 16 / (w / 8)) + j) else .lit 0) :
    lane256 w i R = if c i then lane256 w (f i) a else 0#w := lanesQ0 hw hd h0 h1 chk hi
/-- `lanesQ1` with the bytes of a lane computed from its width. -/
theorem lanesQ1W {w : Nat} {a R : M256} {f : Nat → Nat} {i : Nat} (hi : i < 256 / w)
    {S T : Nat → MB} (hw : w = 8 * (w / 8)) (hd : w / 8 = 1 ∨ w / 8 = 2 ∨ w / 8 = 4 ∨ w / 8 = 8)
    (h0 : SymM (env4 a a) R.lo S) (h1 : SymM (env4 a a) R.hi T)
    (chk : ∀ i, i < 32 / (w / 8) → ∀ j, j < w / 8 → (if i < 16 / (w / 8) then S (w / 8 * i + j) else T (w / 8 * (i - 16 / (w / 8)) + j)) =
      .byte (if f i < 16 / (w / 8) then 0 else 1) (w / 8 * (if f i < 16 / (w / 8) then f i else f i - 16 / (w / 8)) + j)) :
    lane256 w i R = lane256 w (f i) a := lanesQ1 hw hd h0 h1 chk hi

/-- Closes a goal about one concrete code path: lanes from two operands. -/
macro "qleaf" h:term : tactic => `(tactic| (
  apply lanesQW (hi := $h)
  · decide
  · decide
  · qsym
  · qsym
  · decide +kernel))
/-- Closes a goal about one concrete code path: lanes of one operand, or zeros. -/
macro "qleaf0" h:term : tactic => `(tactic| (
  apply lanesQ0W (hi := $h)
  · decide
  · decide
  · qsym
  · qsym
  · decide +kernel))
/-- Closes a goal about one concrete code path: lanes of one operand. -/
macro "qleaf1" h:term : tactic => `(tactic| (
  apply lanesQ1W (hi := $h)
  · decide
  · decide
  · qsym
  · qsym
  · decide +kernel))

/-- `ConcatOdd(d, hi, lo)`: the odd lanes of `lo`, then those of `hi`. -/
theorem C72_concatOdd {w : Nat} (hw : Width w) (hi lo : M256) {i : Nat} (h : i < 256 / w) :
    lane256 w i (ConcatOdd w hi lo) = if i < 128 / w then lane256 w (2 * i + 1) lo else lane256 w (2 * (i - 128 / w) + 1) hi := by
  rcases hw with rfl | rfl | rfl | rfl <;> qstat <;> qleaf h

/-- `ConcatEven(d, hi, lo)`: the even lanes of `lo`, then those of `hi`. -/
theorem C72_concatEven {w : Nat} (hw : Width w) (hi lo : M256) {i : Nat} (h : i < 256 / w) :
    lane256 w i (ConcatEven w hi lo) = if i < 128 / w then lane256 w (2 * i) lo else lane256 w (2 * (i - 128 / w)) hi := by
  rcases hw with rfl | rfl | rfl | rfl <;> qstat <;> qleaf h

/-- `ConcatLowerLower(d, hi, lo)`. -/
theorem C72_concatLowerLower {w : Nat} (hw : Width w) (hi lo : M256) {i : Nat} (h : i < 256 / w) :
    lane256 w i (ConcatLowerLower hi lo) = if i < 128 / w then lane256 w i lo else lane256 w (i - 128 / w) hi := by
  rcases hw with rfl | rfl | rfl | rfl <;> qstat <;> qleaf h
/-- `ConcatLowerUpper(d, hi, lo)`. -/
theorem C72_concatLowerUpper {w : Nat} (hw : Width w) (hi lo : M256) {i : Nat} (h : i < 256 / w) :
    lane256 w i (ConcatLowerUpper hi lo) = if i < 128 / w then lane256 w (i + 128 / w) lo else lane256 w (i - 128 / w) hi := by
  rcases hw with rfl | rfl | rfl | rfl <;> qstat <;> qleaf h
/-- `ConcatUpperLower(d, hi, lo)`. -/
theorem C72_concatUpperLower (flt : Bool) {w : Nat} (hw : Width w) (hi lo : M256) {i : Nat} (h : i < 256 / w) :
    lane256 w i (ConcatUpperLower flt w hi lo) = if i < 128 / w then lane256 w i lo else lane256 w i hi := by
  cases flt <;> rcases hw with rfl | rfl | rfl | rfl <;> qstat <;> qleaf h
/-- `ConcatUpperUpper(d, hi, lo)`. -/
theorem C72_concatUpperUpper {w : Nat} (hw : Width w) (hi lo : M256) {i : Nat} (h : i < 256 / w) :
    lane256 w i (ConcatUpperUpper hi lo) = if i < 128 / w then lane256 w (i + 128 / w) lo else lane256 w i hi := by
  rcases hw with rfl | rfl | rfl | rfl <;> qstat <;> qleaf h

/-- `LowerHalf`, `UpperHalf`, `Combine`, `ZeroExtendVector`: the lanes of the halves. -/
theorem C72_halves {w : Nat} (hw : Width w) (v : M256) {i : Nat} (h : i < 128 / w) :
    lane w i (LowerHalf v) = lane256 w i v ∧ lane w i (UpperHalf v) = lane256 w (i + 128 / w) v := by
  rw [lane256_lo h, lane256_hi (by omega), Nat.add_sub_cancel]
  exact ⟨rfl, rfl⟩
/-- `Combine(d, hi, lo)`. -/
theorem C72_combine {w : Nat} (hi lo : M128) {i : Nat} :
    lane256 w i (Combine hi lo) = if i < 128 / w then lane w i lo else lane w (i - 128 / w) hi := rfl
/-- `ZeroExtendVector(d, lo)`. -/
theorem C72_zeroExtendVector {w : Nat} (lo : M128) {i : Nat} :
    lane256 w i (ZeroExtendVector lo) = if i < 128 / w then lane w i lo else 0#w := by
  show (if i < 128 / w then lane w i lo else lane w (i - 128 / w) zero) = _
  split
  · rfl
  · exact lane_zero' _ _
/-- `ExtractBlock<k>(v)`. -/
theorem C72_extractBlock {w k : Nat} (hk : k < 2) (v : M256) {i : Nat} (h : i < 128 / w) :
    lane w i (ExtractBlock k v) = lane256 w (i + k * (128 / w)) v := by
  obtain rfl | rfl : k = 0 ∨ k = 1 := by omega
  · rw [lane256_lo (by omega)]; simp only [Nat.zero_mul, Nat.add_zero]; rfl
  · rw [lane256_hi (by omega), Nat.one_mul, Nat.add_sub_cancel]; rfl
/-- `InsertBlock<k>(v, blk)` replaces block `k`. -/
theorem C72_insertBlock (flt : Bool) {w k : Nat} (hw : Width w) (hk : k < 2) (v : M256) (blk up : M128) {i : Nat} (h : i < 256 / w) :
    lane256 w i (InsertBlock flt w k v blk up) = if i / (128 / w) = k then lane w (i - k * (128 / w)) blk else lane256 w i v := by
  have hq : i / (128 / w) = if i < 128 / w then 0 else 1 := by
    rcases hw with rfl | rfl | rfl | rfl <;> split <;> omega
  have hw' := hw
  obtain rfl | rfl : k = 0 ∨ k = 1 := by omega
  · unfold InsertBlock
    rw [if_pos rfl, C72_concatUpperLower flt hw _ _ h, hq]
    by_cases hb : i < 128 / w
    · simp only [if_pos hb, if_true, Nat.zero_mul, Nat.sub_zero]; exact lane256_lo hb _
    · simp only [if_neg hb, Nat.one_ne_zero, if_false]
  · unfold InsertBlock
    rw [if_neg (by omega), C72_concatLowerLower hw _ _ h, hq]
    by_cases hb : i < 128 / w
    · simp only [if_pos hb, Nat.zero_ne_one, if_false]
    · have : i - 128 / w < 128 / w := by rcases hw with rfl | rfl | rfl | rfl <;> omega
      simp only [if_neg hb, if_true, Nat.one_mul]; exact lane256_lo this _

/-- `ShiftLeftBytes<k>` moves the bytes of each block up by `k`, shifting in zeros. -/
theorem C72_shiftLeftBytes (k : Nat) (v : M256) {i : Nat} (h : i < 32) :
    lane256 8 i (ShiftLeftBytes k v) = if k ≤ i % 16 then lane256 8 (i - k) v else 0#8 := by
  unfold lane256 ShiftLeftBytes blk1 slliBytes
  by_cases hb : i < 128 / 8
  · have e : i % 16 = i := Nat.mod_eq_of_lt (by omega)
    rw [if_pos hb, lane_mk (by omega) (by omega), e, if_pos (show i - k < 128 / 8 by omega)]
  · have e : i % 16 = i - 16 := by omega
    rw [if_neg hb, lane_mk (by omega) (by omega), e]
    by_cases hk : k ≤ i - 16
    · rw [if_pos hk, if_pos (by omega), if_neg (show ¬ i - k < 128 / 8 by omega)]; congr 1; omega
    · rw [if_neg hk, if_neg (by omega)]
/-- `ShiftRightBytes<k>` moves the bytes of each block down by `k`, shifting in zeros. -/
theorem C72_shiftRightBytes (k : Nat) (v : M256) {i : Nat} (h : i < 32) :
    lane256 8 i (ShiftRightBytes k v) = if i % 16 + k < 16 then lane256 8 (i + k) v else 0#8 := by
  unfold lane256 ShiftRightBytes blk1 srliBytes
  by_cases hb : i < 128 / 8
  · have e : i % 16 = i := Nat.mod_eq_of_lt (by omega)
    rw [if_pos hb, lane_mk (by omega) (by omega), e]
    by_cases hk : i + k < 16
    · rw [if_pos hk, if_pos hk, if_pos (by omega)]
    · rw [if_neg hk, if_neg hk]
  · have e : i % 16 = i - 16 := by omega
    rw [if_neg hb, lane_mk (by omega) (by omega), e]
    by_cases hk : i - 16 + k < 16
    · rw [if_pos hk, if_pos (by omega), if_neg (by omega)]; congr 1; omega
    · rw [if_neg hk, if_neg (by omega)]
/-- `CombineShiftRightBytes<k>(d, hi, lo)`: in each block the bytes from `k` on of the 32 bytes `hi:lo`. -/
theorem C72_combineShiftRightBytes {k : Nat} (hk : k < 16) (hi lo : M256) {i : Nat} (h : i < 32) :
    lane256 8 i (CombineShiftRightBytes k hi lo) = if i % 16 + k < 16 then lane256 8 (i + k) lo else lane256 8 (i + k - 16) hi := by
  have key : ∀ (x y : M128) {j : Nat}, j < 16 → lane 8 j (alignr x y k) = if j + k < 16 then lane 8 (j + k) y else lane 8 (j + k - 16) x := by
    intro x y j hj
    unfold alignr
    rw [lane_mk (by omega) (by omega)]
    by_cases c : j + k < 16
    · rw [if_pos c, if_pos c]
    · rw [if_neg c, if_neg c, if_pos (by omega)]
  unfold CombineShiftRightBytes blk2
  by_cases hb : i < 16
  · have e : i % 16 = i := Nat.mod_eq_of_lt (by omega)
    rw [lane256_lo (by omega), key _ _ hb, e]
    by_cases c : i + k < 16
    · rw [if_pos c, if_pos c, lane256_lo (by omega)]
    · rw [if_neg c, if_neg c, lane256_lo (by omega)]
  · have e : i % 16 = i - 16 := by omega
    rw [lane256_hi (by omega), show (128 / 8 : Nat) = 16 from rfl, key _ _ (by omega), e]
    by_cases c : i - 16 + k < 16
    · rw [if_pos c, if_pos c, lane256_hi (by omega)]; congr 1; omega
    · rw [if_neg c, if_neg c, lane256_hi (by omega)]; congr 1; omega
/-- `TableLookupBytes(bytes, from)` with indices below 16 looks up in the same block. -/
theorem C72_tableLookupBytes (bytes from_ : M256) {i : Nat} (h : i < 32) (hidx : (lane256 8 i from_).toNat < 16) :
    lane256 8 i (TableLookupBytes bytes from_) = lane256 8 (16 * (i / 16) + (lane256 8 i from_).toNat) bytes := by
  unfold TableLookupBytes blk2
  by_cases hb : i < 16
  · have e : lane256 8 i from_ = lane 8 i from_.lo := lane256_lo (by omega) _
    rw [e] at hidx ⊢
    rw [lane256_lo (by omega), lane256_lo (by omega), show 16 * (i / 16) = 0 by omega, Nat.zero_add]
    exact C62_tableLookupBytes .avx2 hb _ _ hidx
  · have e : lane256 8 i from_ = lane 8 (i - 16) from_.hi := lane256_hi (by omega) _
    rw [e] at hidx ⊢
    rw [lane256_hi (by omega), lane256_hi (by omega), show 16 * (i / 16) = 16 by omega, show (128 / 8 : Nat) = 16 from rfl,
      Nat.add_sub_cancel_left]
    exact C62_tableLookupBytes .avx2 (by omega) _ _ hidx
/-- Indices of 128 or more give zero (`TableLookupBytesOr0`). -/
theorem C72_tableLookupBytesOr0 (bytes from_ : M256) {i : Nat} (h : i < 32) (hidx : 128 ≤ (lane256 8 i from_).toNat) :
    lane256 8 i (TableLookupBytes bytes from_) = 0#8 := by
  unfold TableLookupBytes blk2
  have key : ∀ (x y : M128) {j : Nat}, j < 16 → 128 ≤ (lane 8 j y).toNat → lane 8 j (shuffle8 x y) = 0#8 := by
    intro x y j hj hy
    have := C62_tableLookupBytesOr0 .avx2 hj x y (by omega)
    rw [if_pos (by omega)] at this
    exact this
  by_cases hb : i < 16
  · rw [lane256_lo (by omega)] at hidx ⊢
    exact key _ _ hb hidx
  · rw [lane256_hi (by omega)] at hidx ⊢
    exact key _ _ (by omega) hidx

end Hwy.X86.V256
