import Verif.Image
import Mathlib.Tactic.Linarith
import Mathlib.Tactic.Ring
import Mathlib.Tactic.IntervalCases
import Mathlib.Data.Int.ModEq

/-!
# C40: images
-/

namespace Hwy
namespace Img

open Alloc (w64)

/-! ### Specification -/

/-- What `AllocateAligned` guarantees (C30): null, or an address of `n` bytes aligned to `A`. -/
structure AllocOk (A : Nat) (alloc : Nat → Option Nat) : Prop where
  aligned : ∀ n p, alloc n = some p → A ∣ p
  bounds : ∀ n p, alloc n = some p → 0 < p ∧ 0 < n ∧ p + n ≤ 2 ^ 64

/-- The vector size and element size are possible: vectors are powers of two; in the scalar case (1) elements may be larger. -/
structure SizesOk (vec s : Nat) : Prop where
  elem : s = 1 ∨ s = 2 ∨ s = 4 ∨ s = 8
  vec_pow : ∃ k, vec = 2 ^ k
  vec_le : vec ≤ 4096
  fits : vec = 1 ∨ s ≤ vec

/-- The image as a whole, with padding, fits in the address space. -/
def Fits (vec s xsize ysize : Nat) : Prop := (xsize * s + vec + 2 * max vec 128) * ysize < 2 ^ 64

/-- The bytes of pixel `x` of row `y`. -/
def PixelByte (im : Image) (s y a : Nat) : Prop := ∃ row, im.row y = .ok row ∧ row ≤ a ∧ a < row + im.xsize * s

/-- The rows of an image are usable: aligned, disjoint, inside the memory, and large enough for a vector starting at any
pixel (one element in the scalar case). -/
structure RowsOk (vec s : Nat) (im : Image) (m : Mem) : Prop where
  row : ∀ y, y < im.ysize → ∃ a, im.row y = .ok a ∧ vec ∣ a ∧ 128 ∣ a ∧ m.base ≤ a ∧ a + im.bytesPerRow ≤ m.base + m.size
  disjoint : ∀ y y' a b, y < y' → y' < im.ysize → im.row y = .ok a → im.row y' = .ok b → a + im.bytesPerRow ≤ b
  vector : ∀ x, x < im.xsize → x * s + max vec s ≤ im.bytesPerRow
  stride : s ∣ im.bytesPerRow

/-! ### Proofs -/

theorem w64_of_lt {x : Nat} (h : x < 2 ^ 64) : w64 x = x := Nat.mod_eq_of_lt h

theorem roundUpTo_spec {what align : Nat} (ha : 0 < align) (h : what + align < 2 ^ 64) :
    align ∣ roundUpTo what align ∧ what ≤ roundUpTo what align ∧ roundUpTo what align < what + align := by
  unfold roundUpTo
  rw [w64_of_lt (x := what + align - 1) (by omega)]
  have h1 := Nat.div_mul_le_self (what + align - 1) align
  have h2 := Nat.lt_div_mul_add ha (a := what + align - 1)
  rw [w64_of_lt (by omega)]
  exact ⟨Dvd.intro_left _ rfl, by omega, by omega⟩

theorem max_dvd {vec s : Nat} (h : SizesOk vec s) : vec ∣ max vec 128 ∧ 128 ∣ max vec 128 ∧ s ∣ 128 := by
  obtain ⟨k, hk⟩ := h.vec_pow
  have hs : s ∣ 128 := by rcases h.elem with e | e | e | e <;> subst e <;> decide
  have e7 : (128 : Nat) = 2 ^ 7 := rfl
  rcases Nat.le_total vec 128 with hle | hle
  · rw [Nat.max_eq_right hle]
    refine ⟨?_, dvd_rfl, hs⟩
    rw [hk, e7] at *
    exact Nat.pow_dvd_pow 2 ((Nat.pow_le_pow_iff_right (by decide)).mp hle)
  · rw [Nat.max_eq_left hle]
    refine ⟨dvd_rfl, ?_, hs⟩
    rw [hk, e7] at *
    exact Nat.pow_dvd_pow 2 ((Nat.pow_le_pow_iff_right (by decide)).mp hle)

theorem vec_pos {vec s : Nat} (h : SizesOk vec s) : 0 < vec := by
  obtain ⟨k, hk⟩ := h.vec_pow
  rw [hk]; exact Nat.two_pow_pos k

theorem bytesPerRow_spec {vec s xsize : Nat} (h : SizesOk vec s) (hfit : xsize * s + vec + 2 * max vec 128 < 2 ^ 64) :
    ∃ b, bytesPerRow vec xsize s = .ok b ∧ max vec 128 ∣ b ∧ b ≤ xsize * s + vec + 2 * max vec 128 ∧
      (∀ x, x < xsize → x * s + max vec s ≤ b) ∧ xsize * s + vec ≤ b + s := by
  have hv := vec_pos h
  have hs : 0 < s := by rcases h.elem with e | e | e | e <;> omega
  unfold bytesPerRow kAlignment
  have e1 : w64 (xsize * s) = xsize * s := w64_of_lt (by omega)
  obtain ⟨d1, d2, d3⟩ := max_dvd h
  have key : ∀ valid, valid ≤ xsize * s + vec → (vec ≠ 1 → valid = xsize * s + (vec - s)) → (vec = 1 → valid = xsize * s) →
      ∃ b, (let align := max vec 128
        let bytesPerRow := roundUpTo valid align
        let bytesPerRow := if bytesPerRow % 128 = 0 then w64 (bytesPerRow + align) else bytesPerRow
        if bytesPerRow % align = 0 then (pure bytesPerRow : M Nat) else .error .ub) = .ok b ∧ max vec 128 ∣ b ∧
        b ≤ xsize * s + vec + 2 * max vec 128 ∧ (∀ x, x < xsize → x * s + max vec s ≤ b) ∧ xsize * s + vec ≤ b + s := by
    intro valid hle hv1 hv2
    obtain ⟨r1, r2, r3⟩ := roundUpTo_spec (what := valid) (align := max vec 128) (by omega) (by omega)
    have hmod : roundUpTo valid (max vec 128) % 128 = 0 := Nat.mod_eq_zero_of_dvd (dvd_trans d2 r1)
    refine ⟨roundUpTo valid (max vec 128) + max vec 128, ?_, Nat.dvd_add r1 dvd_rfl, by omega, ?_, ?_⟩
    · simp only [hmod, if_true]
      rw [w64_of_lt (by omega), if_pos (Nat.mod_eq_zero_of_dvd (Nat.dvd_add r1 dvd_rfl))]
      rfl
    · intro x hxx
      have : (x + 1) * s ≤ xsize * s := Nat.mul_le_mul_right s hxx
      rw [Nat.add_mul, Nat.one_mul] at this
      by_cases hv0 : vec = 1
      · have := hv2 hv0
        omega
      · have := hv1 hv0
        have := h.fits
        omega
    · by_cases hv0 : vec = 1
      · have := hv2 hv0
        omega
      · have := hv1 hv0
        have := h.fits
        omega
  by_cases hv0 : vec = 1
  · obtain ⟨b, hb⟩ := key (w64 (xsize * s)) (by omega) (fun hh => absurd hv0 hh) (fun _ => e1)
    exact ⟨b, by simpa [hv0] using hb⟩
  · have hf := h.fits.resolve_left hv0
    have e2 : w64 (w64 (xsize * s) + (vec - s)) = xsize * s + (vec - s) := by rw [e1, w64_of_lt (by omega)]
    obtain ⟨b, hb⟩ := key (w64 (w64 (xsize * s) + (vec - s))) (by omega) (fun _ => e2) (fun hh => absurd hh hv0)
    refine ⟨b, ?_⟩
    simp only [ne_eq, hv0, not_false_eq_true, if_true, hf]
    exact hb

/-- Rows of an image with sane geometry. -/
theorem row_eq {im : Image} {p : Nat} (hp : im.bytes = some p) (h64 : 64 ∣ p) (hb : 64 ∣ im.bytesPerRow) {y : Nat}
    (hlt : p + y * im.bytesPerRow < 2 ^ 64) : im.row y = .ok (p + y * im.bytesPerRow) := by
  unfold Image.row
  rw [hp]
  simp only
  rw [w64_of_lt (x := y * im.bytesPerRow) (by omega), w64_of_lt hlt, if_pos]
  exact Nat.mod_eq_zero_of_dvd (Nat.dvd_add h64 (Dvd.dvd.mul_left hb y))

theorem mul_succ_le {y n b : Nat} (h : y < n) : y * b + b ≤ n * b := by
  have : (y + 1) * b ≤ n * b := Nat.mul_le_mul_right b h
  rwa [Nat.add_mul, Nat.one_mul] at this

theorem padRows_ok {im : Image} {p : Nat} (hp : im.bytes = some p) (h64 : 64 ∣ p) (hb : 64 ∣ im.bytesPerRow)
    (hpos : 0 < im.bytesPerRow) (hlt : p + im.ysize * im.bytesPerRow ≤ 2 ^ 64) {valid init : Nat} (hvi : valid ≤ init)
    (hi : init ≤ im.bytesPerRow) : ∀ (n : Nat) (m : Mem), n ≤ im.ysize → m.base = p → m.size = im.ysize * im.bytesPerRow →
    ∃ m', padRows im valid init n m = .ok m' ∧ m'.base = p ∧ m'.size = m.size ∧
      ∀ a, m'.init a = true ↔ m.init a = true ∨ ∃ y, im.ysize - n ≤ y ∧ y < im.ysize ∧
        p + y * im.bytesPerRow + valid ≤ a ∧ a < p + y * im.bytesPerRow + init
  | 0, m, hn, hbase, hsize => ⟨m, rfl, hbase, rfl, by
      intro a
      constructor
      · exact Or.inl
      · rintro (h | ⟨y, h1, h2, -⟩)
        · exact h
        · omega⟩
  | n + 1, m, hn, hbase, hsize => by
    have hy : im.ysize - (n + 1) < im.ysize := by omega
    have hle := mul_succ_le (b := im.bytesPerRow) hy
    have hrow := row_eq hp h64 hb (y := im.ysize - (n + 1)) (by omega)
    have hz : zeroBytes m (p + (im.ysize - (n + 1)) * im.bytesPerRow + valid) (init - valid) = .ok
        { m with init := fun a => m.init a || decide (p + (im.ysize - (n + 1)) * im.bytesPerRow + valid ≤ a ∧
          a < p + (im.ysize - (n + 1)) * im.bytesPerRow + valid + (init - valid)) } := by
      unfold zeroBytes
      rw [if_pos]
      rw [hbase, hsize]
      omega
    obtain ⟨m', e1, e2, e3, e4⟩ := padRows_ok hp h64 hb hpos hlt hvi hi n
      { m with init := fun a => m.init a || decide (p + (im.ysize - (n + 1)) * im.bytesPerRow + valid ≤ a ∧
          a < p + (im.ysize - (n + 1)) * im.bytesPerRow + valid + (init - valid)) } (by omega) hbase hsize
    refine ⟨m', ?_, e2, e3, ?_⟩
    · unfold padRows
      simp only [hrow, bind, Except.bind, hz]
      exact e1
    · intro a
      rw [e4]
      simp only [Bool.or_eq_true, decide_eq_true_eq]
      constructor
      · rintro ((h | h) | ⟨y, h1, h2, h3⟩)
        · exact Or.inl h
        · exact Or.inr ⟨im.ysize - (n + 1), le_refl _, hy, by omega, by omega⟩
        · exact Or.inr ⟨y, by omega, h2, h3⟩
      · rintro (h | ⟨y, h1, h2, h3, h4⟩)
        · exact Or.inl (Or.inl h)
        · by_cases hyy : y = im.ysize - (n + 1)
          · subst hyy
            exact Or.inl (Or.inr ⟨h3, by omega⟩)
          · exact Or.inr ⟨y, by omega, h2, h3, h4⟩

/-- What `InitializePadding` does to an image with usable geometry. -/
theorem initializePadding_ok {vec s : Nat} (h : SizesOk vec s) {im : Image} {m : Mem} (hp : im.bytes = some m.base)
    (h64 : 64 ∣ m.base) (hb : max vec 128 ∣ im.bytesPerRow) (hsize : m.size = im.ysize * im.bytesPerRow)
    (hlt : m.base + m.size ≤ 2 ^ 64) (hvec : im.xsize * s + vec ≤ im.bytesPerRow + s) (hx : 0 < im.xsize) (hy : 0 < im.ysize)
    (h0 : 0 < im.bytesPerRow) (hbase : 0 < m.base) (padding : Padding) :
    ∃ m' len, initializePadding vec im s padding m = .ok m' ∧ m'.base = m.base ∧ m'.size = m.size ∧ im.xsize * s ≤ len ∧
      len ≤ im.bytesPerRow ∧
      (∀ x k, x < im.xsize → k < vec → (padding = .unaligned ∨ vec ∣ x * s) → vec ≠ 1 → x * s + k < len) ∧
      ∀ a, m'.init a = true ↔ m.init a = true ∨ ∃ y, y < im.ysize ∧
        m.base + y * im.bytesPerRow + im.xsize * s ≤ a ∧ a < m.base + y * im.bytesPerRow + len := by
  obtain ⟨d1, d2, d3⟩ := max_dvd h
  have hv := vec_pos h
  have hle := mul_succ_le (b := im.bytesPerRow) hy
  have hs : 0 < s := by rcases h.elem with e | e | e | e <;> omega
  have hs8 : s ≤ 8 := by rcases h.elem with e | e | e | e <;> omega
  have hxs : s ≤ im.xsize * s := Nat.le_mul_of_pos_left s hx
  have hmax := Nat.le_of_dvd h0 hb
  have hval : im.xsize * s ≤ im.bytesPerRow := by
    by_cases hv1 : vec = 1
    · obtain ⟨q, hq⟩ := dvd_trans (dvd_trans d3 d2) hb
      have : im.xsize * s < (q + 1) * s := by rw [Nat.add_mul, Nat.one_mul, Nat.mul_comm q s, ← hq]; omega
      have := Nat.lt_of_mul_lt_mul_right this
      rw [hq, Nat.mul_comm s q]
      exact Nat.mul_le_mul_right s (by omega)
    · have := h.fits; omega
  unfold initializePadding
  rw [if_neg (by omega)]
  by_cases hv1 : vec = 1
  · rw [if_pos hv1]
    exact ⟨m, im.xsize * s, rfl, rfl, rfl, le_refl _, hval, fun _ _ _ _ _ hh => absurd hv1 hh,
      fun a => ⟨Or.inl, by rintro (h | ⟨y, -, h1, h2⟩) <;> [exact h; omega]⟩⟩
  rw [if_neg hv1]
  have hf := h.fits.resolve_left hv1
  have e1 : w64 (im.xsize * s) = im.xsize * s := w64_of_lt (by omega)
  have h64b : 64 ∣ im.bytesPerRow := dvd_trans (dvd_trans (by decide) d2) hb
  have hsz := hsize
  obtain ⟨r1, r2, r3⟩ := roundUpTo_spec (what := im.xsize * s) (align := vec) hv (by omega)
  have hround : roundUpTo (im.xsize * s) vec ≤ im.bytesPerRow := by
    obtain ⟨q, hq⟩ := r1
    obtain ⟨t, ht⟩ := dvd_trans d1 hb
    have : vec * q < vec * (t + 1) := by rw [Nat.mul_add, Nat.mul_one, ← hq, ← ht]; omega
    rw [hq, ht]
    exact Nat.mul_le_mul_left vec (by have := Nat.lt_of_mul_lt_mul_left this; omega)
  have key : ∀ len, im.xsize * s ≤ len → len ≤ im.bytesPerRow →
      (∀ x k, x < im.xsize → k < vec → (padding = .unaligned ∨ vec ∣ x * s) → vec ≠ 1 → x * s + k < len) →
      ∃ m' len', (if w64 (im.xsize * s) = len then (.ok m : M Mem) else padRows im (w64 (im.xsize * s)) len im.ysize m) = .ok m' ∧
        m'.base = m.base ∧ m'.size = m.size ∧ im.xsize * s ≤ len' ∧ len' ≤ im.bytesPerRow ∧
      (∀ x k, x < im.xsize → k < vec → (padding = .unaligned ∨ vec ∣ x * s) → vec ≠ 1 → x * s + k < len') ∧
      ∀ a, m'.init a = true ↔ m.init a = true ∨ ∃ y, y < im.ysize ∧
        m.base + y * im.bytesPerRow + im.xsize * s ≤ a ∧ a < m.base + y * im.bytesPerRow + len' := by
    intro len hl1 hl2 hl3
    rw [e1]
    by_cases he : im.xsize * s = len
    · rw [if_pos he]
      exact ⟨m, len, rfl, rfl, rfl, hl1, hl2, hl3, fun a => ⟨Or.inl, by rintro (h | ⟨y, -, h1, h2⟩) <;> [exact h; omega]⟩⟩
    · rw [if_neg he]
      obtain ⟨m', p1, p2, p3, p4⟩ := padRows_ok hp h64 h64b h0 (by omega) hl1 hl2 im.ysize m (le_refl _) rfl hsize
      refine ⟨m', len, p1, p2, p3, hl1, hl2, hl3, fun a => ?_⟩
      rw [p4 a]
      simp
  have hlast : ∀ x, x < im.xsize → x * s + s ≤ im.xsize * s := fun x hx => mul_succ_le hx
  cases padding with
  | roundUp =>
    simp only
    rw [show roundUpTo (w64 (im.xsize * s)) vec = roundUpTo (im.xsize * s) vec by rw [e1]]
    refine key _ r2 hround ?_
    intro x k hxx hk hal _
    obtain ⟨q, hq⟩ := hal.resolve_left (by decide)
    obtain ⟨t, ht⟩ := r1
    have := hlast x hxx
    rw [hq] at this ⊢
    rw [ht] at r2 ⊢
    have h3 : vec * q < vec * t := by omega
    have h4 : q + 1 ≤ t := Nat.lt_of_mul_lt_mul_left h3
    have h5 := Nat.mul_le_mul_left vec h4
    rw [Nat.mul_add, Nat.mul_one] at h5
    omega
  | unaligned =>
    have e2 : w64 (w64 (w64 (im.xsize * s) + vec) + (2 ^ 64 - s)) = im.xsize * s + vec - s := by
      rw [e1, w64_of_lt (x := im.xsize * s + vec) (by omega)]
      unfold w64
      rw [show im.xsize * s + vec + (2 ^ 64 - s) = (im.xsize * s + vec - s) + 2 ^ 64 by omega, Nat.add_mod_right]
      exact Nat.mod_eq_of_lt (by omega)
    have key' := key (im.xsize * s + vec - s) (by omega) (by omega) ?_
    · rw [← e2] at key'
      exact key'
    intro x k hxx hk _ _
    have := hlast x hxx
    omega

/-- **C40, rows.**  For every vector size, element size and dimensions whose padded size fits in the address space, and
every allocator: the constructor either aborts because the allocator returned null, or returns an image of the requested
size whose rows are aligned, disjoint, inside of the memory and long enough for a vector starting at any pixel; the
bytes it initialised (under msan) are those an aligned vector may read beyond the pixels of its row, and no pixels. -/
theorem C40_rows (A vec s xsize ysize : Nat) (alloc : Nat → Option Nat) (h : SizesOk vec s) (hA : vec ∣ A ∧ 128 ∣ A)
    (ha : AllocOk A alloc) (hx : 0 < xsize ∧ xsize < 2 ^ 32) (hy : 0 < ysize ∧ ysize < 2 ^ 32) (hfit : Fits vec s xsize ysize) :
    (∃ n, alloc n = none ∧ construct vec alloc xsize ysize s = .error .abort) ∨
    ∃ im m, construct vec alloc xsize ysize s = .ok (im, some m) ∧ im.xsize = xsize ∧ im.ysize = ysize ∧
      RowsOk vec s im m ∧
      (∀ y a x k, im.row y = .ok a → y < ysize → x < xsize → vec ∣ x * s → k < max vec s →
        xsize * s ≤ x * s + k → m.init (a + x * s + k) = true) ∧
      (∀ y a, PixelByte im s y a → y < ysize → m.init a = false) := by
  have hsz := Nat.le_mul_of_pos_right (xsize * s + vec + 2 * max vec 128) hy.1
  unfold Fits at hfit
  obtain ⟨b, hb1, hb2, hb3, hb4, hb5⟩ := bytesPerRow_spec (xsize := xsize) h (by omega)
  obtain ⟨d1, d2, d3⟩ := max_dvd h
  have hv := vec_pos h
  have hs : 0 < s := by rcases h.elem with e | e | e | e <;> omega
  have hbpos : 0 < b := by have := hb4 0 hx.1; omega
  have hbn : b * ysize < 2 ^ 64 := Nat.lt_of_le_of_lt (Nat.mul_le_mul_right ysize hb3) hfit
  have ew : w64 (b * ysize) = b * ysize := w64_of_lt hbn
  unfold construct
  rw [if_pos h.elem, if_pos ⟨by omega, by omega⟩]
  simp only [hb1, bind, Except.bind, ew]
  cases hal : alloc (b * ysize) with
  | none => exact Or.inl ⟨_, hal, rfl⟩
  | some p =>
    right
    simp only
    have hp1 := ha.aligned _ _ hal
    obtain ⟨hp2, hp3, hp4⟩ := ha.bounds _ _ hal
    have hx' : xsize % 2 ^ 32 = xsize := Nat.mod_eq_of_lt hx.2
    have hy' : ysize % 2 ^ 32 = ysize := Nat.mod_eq_of_lt hy.2
    rw [hx', hy']
    set im : Image := { xsize := xsize, ysize := ysize, bytesPerRow := b, bytes := some p } with him
    have h64 : 64 ∣ p := dvd_trans (by decide) (dvd_trans hA.2 hp1)
    have h64b : 64 ∣ b := dvd_trans (by decide) (dvd_trans d2 hb2)
    obtain ⟨m, len, e1, e2, e3, e4, e5, e6, e7⟩ := initializePadding_ok h (im := im)
      (m := { base := p, size := b * ysize, init := fun _ => false }) rfl h64 hb2 (Nat.mul_comm _ _) hp4 hb5 hx.1 hy.1 hbpos hp2 .roundUp
    rw [e1]
    simp only at e2 e3
    have hrow : ∀ y, y < ysize → im.row y = .ok (p + y * b) := by
      intro y hyy
      have := mul_succ_le (b := b) hyy
      have hc := Nat.mul_comm b ysize
      exact row_eq (im := im) rfl h64 h64b (by simp only [him]; omega)
    refine ⟨im, m, rfl, rfl, rfl, ⟨?_, ?_, hb4, dvd_trans (dvd_trans d3 d2) hb2⟩, ?_, ?_⟩
    · intro y hyy
      have := mul_succ_le (b := b) (show y < ysize from hyy)
      have hc := Nat.mul_comm b ysize
      refine ⟨p + y * b, hrow y hyy, ?_, ?_, by omega, ?_⟩
      · exact Nat.dvd_add (dvd_trans hA.1 hp1) (Dvd.dvd.mul_left (dvd_trans d1 hb2) y)
      · exact Nat.dvd_add (dvd_trans hA.2 hp1) (Dvd.dvd.mul_left (dvd_trans d2 hb2) y)
      · rw [e2, e3]; simp only [him]; omega
    · intro y y' a a' hyy hyy' ra ra'
      rw [hrow y (Nat.lt_trans hyy hyy')] at ra
      rw [hrow y' hyy'] at ra'
      cases ra; cases ra'
      have := mul_succ_le (b := b) hyy
      simp only [him]
      omega
    · intro y a x k ra hyy hxx hal' hk hge
      rw [hrow y hyy] at ra
      cases ra
      rw [e7]
      refine Or.inr ⟨y, hyy, by simp only [him]; omega, ?_⟩
      have hxs := mul_succ_le (b := s) hxx
      by_cases hv1 : vec = 1
      · omega
      · have := h.fits
        have := e6 x k hxx (by omega) (Or.inr hal') hv1
        simp only [him]
        omega
    · rintro y a ⟨row, r1, r2, r3⟩ hyy
      rw [hrow y hyy] at r1
      cases r1
      rw [Bool.eq_false_iff]
      intro hi
      rcases (e7 a).mp hi with hf | ⟨y', h1, h2, h3⟩
      · simp at hf
      · simp only [him] at h1 h2 h3 r3 e5
        rcases Nat.lt_trichotomy y y' with hlt | heq | hgt
        · have := mul_succ_le (b := b) hlt
          omega
        · subst heq; omega
        · have := mul_succ_le (b := b) hgt
          omega

theorem construct_geom (A vec s xsize ysize : Nat) (alloc : Nat → Option Nat) (h : SizesOk vec s) (hA : vec ∣ A ∧ 128 ∣ A)
    (ha : AllocOk A alloc) (hx : 0 < xsize ∧ xsize < 2 ^ 32) (hy : 0 < ysize ∧ ysize < 2 ^ 32) (hfit : Fits vec s xsize ysize)
    {im : Image} {om : Option Mem} (hc : construct vec alloc xsize ysize s = .ok (im, om)) :
    ∃ m, om = some m ∧ im = ⟨xsize, ysize, im.bytesPerRow, some m.base⟩ ∧ 128 ∣ m.base ∧ max vec 128 ∣ im.bytesPerRow ∧
      m.size = ysize * im.bytesPerRow ∧ m.base + m.size ≤ 2 ^ 64 ∧ xsize * s + vec ≤ im.bytesPerRow + s ∧ 0 < im.bytesPerRow ∧
      0 < m.base ∧ (∀ x, x < xsize → x * s + max vec s ≤ im.bytesPerRow) ∧
      (∀ a, m.init a = true → ∃ y, y < ysize ∧ m.base + y * im.bytesPerRow + xsize * s ≤ a ∧
        a < m.base + y * im.bytesPerRow + im.bytesPerRow) := by
  have hsz := Nat.le_mul_of_pos_right (xsize * s + vec + 2 * max vec 128) hy.1
  unfold Fits at hfit
  obtain ⟨b, hb1, hb2, hb3, hb4, hb5⟩ := bytesPerRow_spec (xsize := xsize) h (by omega)
  obtain ⟨d1, d2, d3⟩ := max_dvd h
  have hbpos : 0 < b := by have := hb4 0 hx.1; have := vec_pos h; omega
  have hbn : b * ysize < 2 ^ 64 := Nat.lt_of_le_of_lt (Nat.mul_le_mul_right ysize hb3) hfit
  have ew : w64 (b * ysize) = b * ysize := w64_of_lt hbn
  unfold construct at hc
  rw [if_pos h.elem, if_pos ⟨by omega, by omega⟩] at hc
  simp only [hb1, bind, Except.bind, ew] at hc
  cases hal : alloc (b * ysize) with
  | none => rw [hal] at hc; cases hc
  | some p =>
    rw [hal] at hc
    simp only at hc
    have hp1 := ha.aligned _ _ hal
    obtain ⟨hp2, hp3, hp4⟩ := ha.bounds _ _ hal
    have hx' : xsize % 2 ^ 32 = xsize := Nat.mod_eq_of_lt hx.2
    have hy' : ysize % 2 ^ 32 = ysize := Nat.mod_eq_of_lt hy.2
    rw [hx', hy'] at hc
    have h64 : 64 ∣ p := dvd_trans (by decide) (dvd_trans hA.2 hp1)
    obtain ⟨m, len, e1, e2, e3, e4, e5, e6, e7⟩ := initializePadding_ok h
      (im := { xsize := xsize, ysize := ysize, bytesPerRow := b, bytes := some p })
      (m := { base := p, size := b * ysize, init := fun _ => false }) rfl h64 hb2 (Nat.mul_comm _ _) hp4 hb5 hx.1 hy.1 hbpos hp2 .roundUp
    rw [e1] at hc
    cases hc
    simp only at e2 e3 e5
    refine ⟨m, rfl, by rw [e2], by rw [e2]; exact dvd_trans hA.2 hp1, hb2, by rw [e3, Nat.mul_comm], by rw [e2, e3]; exact hp4, hb5, hbpos,
      by rw [e2]; exact hp2, hb4, ?_⟩
    intro a hi
    rcases (e7 a).mp hi with hf | ⟨y', h1, h2, h3⟩
    · simp at hf
    · simp only at h1 h2 h3 ⊢
      exact ⟨y', h1, by rw [e2]; exact h2, by rw [e2]; omega⟩

/-- **C40, padding for unaligned accesses.**  After `InitializePaddingForUnalignedAccesses()` (under msan), every byte of
a vector starting at any pixel is a byte of a pixel of that row or was initialised; no pixel was overwritten. -/
theorem C40_padding (A vec s xsize ysize : Nat) (alloc : Nat → Option Nat) (h : SizesOk vec s) (hA : vec ∣ A ∧ 128 ∣ A)
    (ha : AllocOk A alloc) (hx : 0 < xsize ∧ xsize < 2 ^ 32) (hy : 0 < ysize ∧ ysize < 2 ^ 32) (hfit : Fits vec s xsize ysize)
    {im : Image} {m : Mem} (hc : construct vec alloc xsize ysize s = .ok (im, some m)) :
    ∃ m', initializePadding vec im s .unaligned m = .ok m' ∧
      (∀ y a x k, im.row y = .ok a → y < ysize → x < xsize → k < max vec s →
        x * s + k < xsize * s ∨ m'.init (a + x * s + k) = true) ∧
      (∀ y a, PixelByte im s y a → y < ysize → m'.init a = false) := by
  obtain ⟨m0, g0, g1, g2, g3, g4, g5, g6, g7, g8, g9, g10⟩ := construct_geom A vec s xsize ysize alloc h hA ha hx hy hfit hc
  cases g0
  have gx : im.xsize = xsize := by rw [g1]
  have gy : im.ysize = ysize := by rw [g1]
  have gb : im.bytes = some m.base := by rw [g1]
  have h64 : 64 ∣ m.base := dvd_trans (by decide) g2
  have h64b : 64 ∣ im.bytesPerRow := dvd_trans (dvd_trans (by decide) (max_dvd h).2.1) g3
  obtain ⟨m', len, e1, e2, e3, e4, e5, e6, e7⟩ := initializePadding_ok h (im := im) (m := m) gb h64 g3 (by rw [gy]; exact g4) g5
    (by rw [gx]; exact g6) (by rw [gx]; exact hx.1) (by rw [gy]; exact hy.1) g7 g8 .unaligned
  rw [gx] at e4
  have hrow : ∀ y, y < ysize → im.row y = .ok (m.base + y * im.bytesPerRow) := by
    intro y hyy
    have := mul_succ_le (b := im.bytesPerRow) hyy
    exact row_eq gb h64 h64b (by omega)
  refine ⟨m', e1, ?_, ?_⟩
  · intro y a x k ra hyy hxx hk
    rw [hrow y hyy] at ra
    cases ra
    by_cases hin : x * s + k < xsize * s
    · exact Or.inl hin
    right
    rw [e7]
    refine Or.inr ⟨y, by rw [gy]; exact hyy, by rw [gx]; omega, ?_⟩
    have hxs := mul_succ_le (b := s) hxx
    by_cases hv1 : vec = 1
    · have : 0 < s := by rcases h.elem with e | e | e | e <;> omega
      omega
    · have := h.fits
      have := e6 x k (by rw [gx]; exact hxx) (by omega) (Or.inl rfl) hv1
      omega
  · rintro y a ⟨row, r1, r2, r3⟩ hyy
    rw [hrow y hyy] at r1
    cases r1
    rw [gx] at r3
    rw [Bool.eq_false_iff]
    intro hi
    have hcase : ∃ y', y' < ysize ∧ m.base + y' * im.bytesPerRow + xsize * s ≤ a ∧
        a < m.base + y' * im.bytesPerRow + im.bytesPerRow := by
      rcases (e7 a).mp hi with hf | ⟨y', h1, h2, h3⟩
      · exact g10 a hf
      · rw [gy] at h1
        rw [gx] at h2
        exact ⟨y', h1, h2, by omega⟩
    obtain ⟨y', h1, h2, h3⟩ := hcase
    have : xsize * s ≤ im.bytesPerRow := by omega
    rcases Nat.lt_trichotomy y y' with hlt | heq | hgt
    · have := mul_succ_le (b := im.bytesPerRow) hlt
      omega
    · subst heq; omega
    · have := mul_succ_le (b := im.bytesPerRow) hgt
      omega

/-- **C40, empty images** own no memory and report their size. -/
theorem C40_empty (vec s xsize ysize : Nat) (alloc : Nat → Option Nat) (h : SizesOk vec s) (h0 : xsize = 0 ∨ ysize = 0)
    (hx : xsize < 2 ^ 32) (hy : ysize < 2 ^ 32) :
    construct vec alloc xsize ysize s = .ok (⟨xsize, ysize, 0, none⟩, none) := by
  unfold construct
  rw [if_pos h.elem, if_neg (by omega), Nat.mod_eq_of_lt hx, Nat.mod_eq_of_lt hy]
  rfl

/-- **C40, shrinking**: the rows of a shrunk image are still usable, and at the same addresses. -/
theorem C40_shrink (vec s : Nat) (im : Image) (m : Mem) (h : RowsOk vec s im m) (xsize ysize : Nat) (hx : xsize ≤ im.xsize)
    (hy : ysize ≤ im.ysize) (hx' : im.xsize < 2 ^ 32) (hy' : im.ysize < 2 ^ 32) :
    RowsOk vec s (im.shrinkTo xsize ysize) m ∧ (im.shrinkTo xsize ysize).xsize = xsize ∧ (im.shrinkTo xsize ysize).ysize = ysize ∧
      ∀ y, (im.shrinkTo xsize ysize).row y = im.row y := by
  have e1 : (im.shrinkTo xsize ysize).xsize = xsize := Nat.mod_eq_of_lt (by omega)
  have e2 : (im.shrinkTo xsize ysize).ysize = ysize := Nat.mod_eq_of_lt (by omega)
  have er : ∀ y, (im.shrinkTo xsize ysize).row y = im.row y := fun y => rfl
  refine ⟨⟨?_, ?_, ?_, h.stride⟩, e1, e2, er⟩
  · intro y hyy
    exact h.row y (by omega)
  · intro y y' a b h1 h2 h3 h4
    exact h.disjoint y y' a b h1 (by omega) h3 h4
  · intro x hxx
    exact h.vector x (by omega)

/-- **C40, external memory**: with a row size that is a multiple of the vector size and of 64 and holds the pixels rounded up,
and memory aligned to the vector size and 64, rows are where the caller expects and hold aligned vectors. -/
theorem C40_external (vec s xsize ysize bpr p : Nat) (hv : 0 < vec) (hx : xsize < 2 ^ 32) (hy : ysize < 2 ^ 32)
    (hp : vec ∣ p ∧ 64 ∣ p) (hb : vec ∣ bpr ∧ 64 ∣ bpr) (hfit : p + ysize * bpr ≤ 2 ^ 64) (hpos : 0 < bpr) :
    ∃ im, constructExternal vec xsize ysize bpr p = .ok im ∧ im.xsize = xsize ∧ im.ysize = ysize ∧
      (∀ y, y < ysize → im.row y = .ok (p + y * bpr) ∧ vec ∣ p + y * bpr) ∧
      (xsize * s ≤ bpr → ∀ x, x < xsize → 0 < s → vec ∣ x * s → x * s + vec ≤ bpr) := by
  refine ⟨⟨xsize, ysize, bpr, some p⟩, ?_, rfl, rfl, ?_, ?_⟩
  · unfold constructExternal
    rw [if_pos (Nat.mod_eq_zero_of_dvd hb.1), if_pos (Nat.mod_eq_zero_of_dvd hp.1), Nat.mod_eq_of_lt hx, Nat.mod_eq_of_lt hy]
  · intro y hyy
    have := mul_succ_le (b := bpr) hyy
    exact ⟨row_eq (im := ⟨xsize, ysize, bpr, some p⟩) rfl hp.2 hb.2 (by simp only; omega), Nat.dvd_add hp.1 (Dvd.dvd.mul_left hb.1 y)⟩
  · rintro hle x hxx hs ⟨q, hq⟩
    have := mul_succ_le (b := s) hxx
    obtain ⟨t, ht⟩ := hb.1
    have h3 : vec * q < vec * t := by omega
    have h5 := Nat.mul_le_mul_left vec (show q + 1 ≤ t from Nat.lt_of_mul_lt_mul_left h3)
    rw [Nat.mul_add, Nat.mul_one] at h5
    omega

/-- Otherwise the constructor aborts. -/
theorem C40_external_abort (vec xsize ysize bpr p : Nat) (h : ¬ (vec ∣ bpr ∧ vec ∣ p)) :
    constructExternal vec xsize ysize bpr p = .error .abort := by
  unfold constructExternal
  split
  · rename_i h1
    rw [if_neg]
    intro h2
    exact h ⟨Nat.dvd_of_mod_eq_zero h1, Nat.dvd_of_mod_eq_zero h2⟩
  · rfl

/-- **Finding.**  External memory that meets the documented requirement (aligned to `VectorSize()`, here 16) is
undefined behaviour: `Row` tells the compiler that rows are aligned to 64. -/
theorem C40_finding_external_alignment : ∃ im, constructExternal 16 4 4 16 0x1010 = .ok im ∧ im.row 0 = .error .ub :=
  ⟨_, rfl, by decide⟩

/-- **Finding.**  `BytesPerRow` is documented not to be a multiple of 2 KiB (to avoid aliasing), but it can be: the test is
`% HWY_ALIGNMENT`, always true, instead of `% kAlias`. -/
theorem C40_finding_alias : bytesPerRow 16 1905 1 = .ok 2048 ∧ bytesPerRow 32 473 4 = .ok 2048 := by decide

/-- **Finding.**  The byte count is not checked: an image of 2^34 bytes per row and 2^30 + 1 rows gets 2^34 bytes, so that
its second row is outside of the memory. -/
theorem C40_finding_overflow (p : Nat) (hp : 128 ∣ p) (h : p + 2 ^ 35 ≤ 2 ^ 64) :
    ∃ im m, construct 1 (fun _ => some p) (2 ^ 31 - 16) (2 ^ 30 + 1) 8 = .ok (im, some m) ∧ im.ysize = 2 ^ 30 + 1 ∧
      m.size = 2 ^ 34 ∧ im.row 1 = .ok (p + m.size) := by
  have e1 : bytesPerRow 1 (2 ^ 31 - 16) 8 = .ok (2 ^ 34) := by decide
  refine ⟨⟨2 ^ 31 - 16, 2 ^ 30 + 1, 2 ^ 34, some p⟩, ⟨p, 2 ^ 34, fun _ => false⟩, ?_, rfl, rfl, ?_⟩
  · unfold construct
    simp only [e1, bind, Except.bind]
    rfl
  · exact (row_eq (im := ⟨2 ^ 31 - 16, 2 ^ 30 + 1, 2 ^ 34, some p⟩) rfl (dvd_trans (by decide) hp) (show 64 ∣ 2 ^ 34 by decide) (by simp only; omega)).trans (by simp)

/-- **Finding.**  Dimensions of 2^32 or more are truncated silently. -/
theorem C40_finding_truncated : ∃ im m, construct 1 (fun _ => some 128) (2 ^ 32 + 5) 1 1 = .ok (im, m) ∧ im.xsize = 5 := by
  have e1 : bytesPerRow 1 (2 ^ 32 + 5) 1 = .ok (2 ^ 32 + 256) := by decide
  refine ⟨⟨5, 1, 2 ^ 32 + 256, some 128⟩, some ⟨128, 2 ^ 32 + 256, fun _ => false⟩, ?_, rfl⟩
  unfold construct
  simp only [e1, bind, Except.bind]
  rfl

/-! ### Image3 -/

/-- **C40, three planes.**  If the planes have the same row size (as those of `Image3(xsize, ysize)`) and are aligned to 128,
`PlaneRow(c, y)` is row `y` of plane `c`. -/
theorem C40_image3 (im : Image3) (h : ∀ c, (im.plane c).bytesPerRow = im.plane0.bytesPerRow) (c : Fin 3) (y a : Nat)
    (hal : ∀ p, (im.plane c).bytes = some p → 128 ∣ p) (ha : (im.plane c).row y = .ok a) (h128 : 128 ∣ a) :
    im.planeRow c y = .ok a := by
  unfold Image.row at ha
  unfold Image3.planeRow
  cases hb : (im.plane c).bytes with
  | none => rw [hb] at ha; cases ha
  | some p =>
    rw [hb] at ha
    simp only at ha ⊢
    rw [← h c]
    split at ha
    · cases ha
      rw [if_pos]
      exact ⟨Nat.mod_eq_zero_of_dvd (dvd_trans (by decide) (hal p hb)), Nat.mod_eq_zero_of_dvd h128⟩
    · cases ha

/-- The planes of `Image3(xsize, ysize)` have the same row size. -/
theorem C40_image3_planes (vec s xsize ysize : Nat) (alloc0 alloc1 : Nat → Option Nat) (im0 im1 : Image) (m0 m1 : Option Mem)
    (h0 : construct vec alloc0 xsize ysize s = .ok (im0, m0)) (h1 : construct vec alloc1 xsize ysize s = .ok (im1, m1)) :
    im0.bytesPerRow = im1.bytesPerRow ∧ sameSize im0 im1 = true := by
  have key : ∀ (alloc : Nat → Option Nat) (im : Image) (m : Option Mem), construct vec alloc xsize ysize s = .ok (im, m) →
      im.xsize = xsize % 2 ^ 32 ∧ im.ysize = ysize % 2 ^ 32 ∧
      im.bytesPerRow = (if xsize ≠ 0 ∧ ysize ≠ 0 then (match bytesPerRow vec xsize s with | .ok b => b | .error _ => 0) else 0) := by
    intro alloc im m hc
    unfold construct at hc
    split at hc
    · split at hc
      · rename_i hne
        rw [if_pos hne]
        cases hb : bytesPerRow vec xsize s with
        | error e => rw [hb] at hc; cases hc
        | ok b =>
          rw [hb] at hc
          simp only [bind, Except.bind] at hc
          split at hc
          · cases hc
          · split at hc
            · cases hc
            · cases hc
              exact ⟨rfl, rfl, rfl⟩
      · rename_i hne
        rw [if_neg hne]
        cases hc
        exact ⟨rfl, rfl, rfl⟩
    · cases hc
  obtain ⟨a1, a2, a3⟩ := key _ _ _ h0
  obtain ⟨b1, b2, b3⟩ := key _ _ _ h1
  refine ⟨by rw [a3, b3], ?_⟩
  unfold sameSize
  simp [a1, a2, b1, b2]

/-- **Finding.**  The constructor from three planes checks only that their sizes agree, but `PlaneRow` uses the row size of the
first plane for all: with planes of different row sizes (here, a plane shrunk from a larger image), it returns an
address inside another row. -/
theorem C40_finding_image3_stride : ∃ a b im,
    constructExternal 16 10 2 128 0x1000 = .ok a ∧ constructExternal 16 200 2 256 0x2000 = .ok b ∧
    Image3.ofPlanes a (b.shrinkTo 10 2) a = .ok im ∧ (im.plane 1).row 1 = .ok 0x2100 ∧ im.planeRow 1 1 = .ok 0x2080 := by
  refine ⟨_, _, ⟨⟨10, 2, 128, some 0x1000⟩, ⟨10, 2, 256, some 0x2000⟩, ⟨10, 2, 128, some 0x1000⟩⟩, rfl, rfl, ?_, ?_, ?_⟩
  · rfl
  · decide
  · decide

/-! ### Rect -/

/-- Coordinates covered in one dimension. -/
def Rect.HasX (r : Rect) (x : Nat) : Prop := r.x0 ≤ x ∧ x < r.x0 + r.xsize
def Rect.HasY (r : Rect) (y : Nat) : Prop := r.y0 ≤ y ∧ y < r.y0 + r.ysize

/-- A rectangle whose far corner does not wrap. -/
def Rect.Sane (r : Rect) : Prop := r.x0 + r.xsize < 2 ^ 64 ∧ r.y0 + r.ysize < 2 ^ 64

theorem clampedSize_spec (begin sizeMax end' x : Nat) (h : begin + sizeMax < 2 ^ 64) :
    (begin ≤ x ∧ x < begin + clampedSize begin sizeMax end') ↔ (begin ≤ x ∧ x < begin + sizeMax ∧ x < end') := by
  unfold clampedSize
  rw [w64_of_lt h]
  split
  · omega
  · split <;> omega

/-- **C40, clamping**: the rectangle covers the window of at most the given size that starts at the given corner and ends
before the given end. -/
theorem C40_clamped (xbegin ybegin xmax ymax xend yend x y : Nat) (hx : xbegin + xmax < 2 ^ 64) (hy : ybegin + ymax < 2 ^ 64) :
    ((Rect.clamped xbegin ybegin xmax ymax xend yend).HasX x ↔ xbegin ≤ x ∧ x < xbegin + xmax ∧ x < xend) ∧
    ((Rect.clamped xbegin ybegin xmax ymax xend yend).HasY y ↔ ybegin ≤ y ∧ y < ybegin + ymax ∧ y < yend) :=
  ⟨clampedSize_spec _ _ _ _ hx, clampedSize_spec _ _ _ _ hy⟩

/-- **C40, sub-rectangles**: `Subrect` is the intersection of the rectangle with the window relative to its corner. -/
theorem C40_subrect (r : Rect) (h : r.Sane) (xbegin ybegin xmax ymax x y : Nat) (hx : r.x0 + xbegin + xmax < 2 ^ 64)
    (hy : r.y0 + ybegin + ymax < 2 ^ 64) :
    ((r.subrect xbegin ybegin xmax ymax).HasX x ↔ r.HasX x ∧ r.x0 + xbegin ≤ x ∧ x < r.x0 + xbegin + xmax) ∧
    ((r.subrect xbegin ybegin xmax ymax).HasY y ↔ r.HasY y ∧ r.y0 + ybegin ≤ y ∧ y < r.y0 + ybegin + ymax) := by
  obtain ⟨h1, h2⟩ := h
  unfold Rect.subrect
  rw [w64_of_lt (x := r.x0 + xbegin) (by omega), w64_of_lt (x := r.y0 + ybegin) (by omega), w64_of_lt h1, w64_of_lt h2]
  obtain ⟨c1, c2⟩ := C40_clamped (r.x0 + xbegin) (r.y0 + ybegin) xmax ymax (r.x0 + r.xsize) (r.y0 + r.ysize) x y hx hy
  rw [c1, c2]
  unfold Rect.HasX Rect.HasY
  omega

/-- **C40, `IsInside`** says whether all coordinates of a rectangle are coordinates of the image. -/
theorem C40_isInside (r : Rect) (h : r.Sane) (hne : 0 < r.xsize ∧ 0 < r.ysize) (im : Image) :
    r.isInside im = true ↔ (∀ x, r.HasX x → x < im.xsize) ∧ (∀ y, r.HasY y → y < im.ysize) := by
  obtain ⟨h1, h2⟩ := h
  unfold Rect.isInside Rect.HasX Rect.HasY
  rw [w64_of_lt h1, w64_of_lt h2]
  simp only [Bool.and_eq_true, decide_eq_true_eq]
  constructor
  · rintro ⟨a, b⟩
    exact ⟨fun x hx => by omega, fun y hy => by omega⟩
  · rintro ⟨a, b⟩
    have := a (r.x0 + r.xsize - 1) (by omega)
    have := b (r.y0 + r.ysize - 1) (by omega)
    omega

/-- **C40, rows of a rectangle** that is inside of an image: pixel (x, y) of the rectangle is pixel (x0 + x, y0 + y) of
the image, inside of the memory. -/
theorem C40_rect_row (vec s : Nat) (im : Image) (m : Mem) (h : RowsOk vec s im m) (h32 : im.ysize < 2 ^ 32) (r : Rect) (hs : r.Sane)
    (hin : r.isInside im = true) (x y : Nat) (hx : x < r.xsize) (hy : y < r.ysize) :
    ∃ a b, im.row (r.y0 + y) = .ok a ∧ r.row im s y = .ok b ∧ b + x * s = a + (r.x0 + x) * s ∧
      m.base ≤ b + x * s ∧ b + x * s + max vec s ≤ m.base + m.size := by
  obtain ⟨h1, h2⟩ := (C40_isInside r hs ⟨by omega, by omega⟩ im).mp hin
  have hxx := h1 (r.x0 + x) ⟨by omega, by omega⟩
  have hyy := h2 (r.y0 + y) ⟨by omega, by omega⟩
  obtain ⟨a, r1, r2, r3, r4, r5⟩ := h.row _ hyy
  have hv := h.vector _ hxx
  refine ⟨a, a + r.x0 * s, r1, ?_, by ring, ?_, ?_⟩
  · unfold Rect.row
    rw [w64_of_lt (by omega), Nat.add_comm y, r1]
    rfl
  · omega
  · rw [Nat.add_mul] at hv
    omega

/-- **Finding.**  With "no limit" as maximal size, the sum wraps: the rectangle is not clamped, and `IsInside` accepts it. -/
theorem C40_finding_rect_wraps (im : Image) :
    (Rect.clamped 1 1 (2 ^ 64 - 1) (2 ^ 64 - 1) 10 10) = ⟨1, 1, 2 ^ 64 - 1, 2 ^ 64 - 1⟩ ∧
      Rect.isInside ⟨1, 1, 2 ^ 64 - 1, 2 ^ 64 - 1⟩ im = true := by
  refine ⟨by decide, ?_⟩
  unfold Rect.isInside w64
  simp

/-! ### Mirror -/

/-- `r` is the coordinate that `x` is reflected to when the image is continued by mirroring, with the border repeated. -/
def Reflects (n x r : Int) : Prop := 0 ≤ r ∧ r < n ∧ (r ≡ x [ZMOD 2 * n] ∨ r ≡ -x - 1 [ZMOD 2 * n])

/-- The reflected coordinate is unique. -/
theorem reflects_unique {n x r r' : Int} (h : Reflects n x r) (h' : Reflects n x r') : r = r' := by
  obtain ⟨a1, a2, a3⟩ := h
  obtain ⟨b1, b2, b3⟩ := h'
  have hsame : ∀ {u v : Int}, 0 ≤ u → u < n → 0 ≤ v → v < n → u ≡ v [ZMOD 2 * n] → u = v := by
    intro u v u1 u2 v1 v2 huv
    have e := huv.eq
    rwa [Int.emod_eq_of_lt u1 (by omega), Int.emod_eq_of_lt v1 (by omega)] at e
  have hopp : ∀ {u v : Int}, 0 ≤ u → u < n → 0 ≤ v → v < n → u ≡ -v - 1 [ZMOD 2 * n] → False := by
    intro u v u1 u2 v1 v2 huv
    obtain ⟨c, hc⟩ := huv.dvd
    have h1 : 2 * n * c < 0 := by omega
    have h2 : -(2 * n) < 2 * n * c := by omega
    have h3 : c < 0 := by nlinarith
    nlinarith
  have hneg : ∀ {u : Int}, u ≡ -x - 1 [ZMOD 2 * n] → x ≡ -u - 1 [ZMOD 2 * n] := by
    intro u hu
    have := (hu.neg).sub_right 1
    have e : -(-x - 1) - 1 = x := by ring
    rw [e] at this
    exact this.symm
  rcases a3 with a3 | a3 <;> rcases b3 with b3 | b3
  · exact hsame a1 a2 b1 b2 (a3.trans b3.symm)
  · exact (hopp a1 a2 b1 b2 (a3.trans (hneg b3))).elim
  · exact (hopp b1 b2 a1 a2 (b3.trans (hneg a3))).elim
  · exact hsame a1 a2 b1 b2 (a3.trans b3.symm)

theorem i64_ok {x : Int} (h1 : -2 ^ 63 ≤ x) (h2 : x < 2 ^ 63) : i64 x = .ok x := if_pos ⟨h1, h2⟩

/-- The outcome of `Mirror` is unique. -/
theorem mirror_unique {n x : Int} {r r' : M Nat} (h : Mirror n x r) (h' : Mirror n x r') : r = r' := by
  induction h with
  | done a b =>
    cases h' with
    | done _ _ => rfl
    | step c _ _ => omega
    | fault c _ => omega
  | step c e _ ih =>
    cases h' with
    | done a b => omega
    | step c' e' h'' =>
      rw [e] at e'
      cases e'
      exact ih h''
    | fault c' e' => rw [e] at e'; cases e'
  | fault c e =>
    cases h' with
    | done a b => omega
    | step c' e' h'' => rw [e] at e'; cases e'
    | fault c' e' => rw [e] at e'; cases e'; rfl

/-- Every outcome for a sane size reflects; total, by induction on a bound of |x|. -/
theorem mirror_total (n : Int) (hn : 0 < n) (hn' : n < 2 ^ 62) : ∀ (k : Nat) (x : Int), -2 ^ 63 < x → x < 2 ^ 63 →
    (if x < 0 then 2 * (-x) - 1 else 2 * x) < k →
    ∃ r : Nat, Mirror n x (.ok r) ∧ Reflects n x r
  | 0, x, h1, h2, hk => by split at hk <;> omega
  | k + 1, x, h1, h2, hk => by
    by_cases hneg : x < 0
    · rw [if_pos hneg] at hk
      have hs : mirrorStep n x = .ok (-x - 1) := by
        unfold mirrorStep
        rw [if_pos hneg, i64_ok (by omega) (by omega)]
        simp only [bind, Except.bind]
        exact i64_ok (by omega) (by omega)
      obtain ⟨r, m1, m2, m3, m4⟩ := mirror_total n hn hn' k (-x - 1) (by omega) (by omega) (by rw [if_neg (by omega)]; omega)
      refine ⟨r, .step (Or.inl hneg) hs m1, m2, m3, ?_⟩
      rcases m4 with m4 | m4
      · exact Or.inr m4
      · left
        rwa [show -(-x - 1) - 1 = x by ring] at m4
    · rw [if_neg hneg] at hk
      by_cases hge : n ≤ x
      · have hs : mirrorStep n x = .ok (2 * n - 1 - x) := by
          unfold mirrorStep
          rw [if_neg hneg]
          rw [i64_ok (by omega) (by omega)]
          simp only [bind, Except.bind]
          rw [i64_ok (by omega) (by omega)]
          simp only
          exact i64_ok (by omega) (by omega)
        obtain ⟨r, m1, m2, m3, m4⟩ := mirror_total n hn hn' k (2 * n - 1 - x) (by omega) (by omega) (by split <;> omega)
        refine ⟨r, .step (Or.inr hge) hs m1, m2, m3, ?_⟩
        have e : 2 * n - 1 - x ≡ -x - 1 [ZMOD 2 * n] := by
          apply Int.modEq_iff_dvd.mpr
          exact ⟨-1, by ring⟩
        have e' : -(2 * n - 1 - x) - 1 ≡ x [ZMOD 2 * n] := by
          apply Int.modEq_iff_dvd.mpr
          exact ⟨1, by ring⟩
        rcases m4 with m4 | m4
        · exact Or.inr (m4.trans e)
        · exact Or.inl (m4.trans e')
      · exact ⟨x.toNat, .done (by omega) (by omega), by omega, by omega, Or.inl (by rw [Int.toNat_of_nonneg (by omega)])⟩

/-- **C40, mirroring**: for every size below 2^62 and every coordinate but the smallest integer, `Mirror` terminates (however far
outside of the image), without overflow, with the reflected coordinate, and no other outcome. -/
theorem C40_mirror (n x : Int) (hn : 0 < n) (hn' : n < 2 ^ 62) (h1 : -2 ^ 63 < x) (h2 : x < 2 ^ 63) :
    ∃ r : Nat, Mirror n x (.ok r) ∧ Reflects n x r ∧ ∀ r', Mirror n x r' → r' = .ok r := by
  obtain ⟨r, a, b⟩ := mirror_total n hn hn' ((if x < 0 then 2 * (-x) - 1 else 2 * x).toNat + 1) x h1 h2 (by split <;> omega)
  exact ⟨r, a, b, fun r' h => mirror_unique h a⟩

/-- Coordinates inside of the image are unchanged. -/
theorem C40_mirror_inside (n x : Int) (h0 : 0 ≤ x) (hn : x < n) : Mirror n x (.ok x.toNat) := .done h0 hn

/-- The smallest coordinate overflows; a size of zero never terminates. -/
theorem C40_mirror_limits (n : Int) : Mirror n (-2 ^ 63) (.error .ub) ∧ ¬ ∃ r, Mirror 0 0 r := by
  refine ⟨.fault (Or.inl (by decide)) (by rfl), ?_⟩
  rintro ⟨r, h⟩
  have key : ∀ (x : Int) (r : M Nat), Mirror 0 x r → (x = 0 ∨ x = -1) → False := by
    intro x r h
    induction h with
    | done a b => rintro (rfl | rfl) <;> omega
    | step c e _ ih =>
      rintro (rfl | rfl)
      · have e0 : mirrorStep 0 0 = .ok (-1) := by decide
        rw [e0] at e
        cases e
        exact ih (Or.inr rfl)
      · have e0 : mirrorStep 0 (-1) = .ok 0 := by decide
        rw [e0] at e
        cases e
        exact ih (Or.inl rfl)
    | fault c e =>
      rintro (rfl | rfl)
      · have e0 : mirrorStep 0 0 = .ok (-1) := by decide
        rw [e0] at e
        cases e
      · have e0 : mirrorStep 0 (-1) = .ok 0 := by decide
        rw [e0] at e
        cases e
  exact key 0 r h (Or.inl rfl)

/-- **C40, mirroring rows**: for a row up to `ysize` rows outside of the image, `WrapRowMirror` gives the row that `Mirror`
gives. -/
theorem C40_wrap_row (first stride : Int) (ysize : Nat) (hy : 0 < ysize) (hs : 0 < stride) (y : Int) (h1 : -ysize ≤ y)
    (h2 : y < 2 * ysize) :
    ∃ r : Nat, Reflects ysize y r ∧
      (WrapRowMirror.make (fun y => first + y * stride) ysize).call (first + y * stride) stride = first + r * stride := by
  unfold WrapRowMirror.make WrapRowMirror.call
  simp only [Nat.cast_zero, zero_mul, add_zero]
  by_cases hneg : y < 0
  · refine ⟨(-y - 1).toNat, ⟨by omega, by omega, Or.inr (by rw [Int.toNat_of_nonneg (by omega)])⟩, ?_⟩
    rw [if_pos (by nlinarith), Int.toNat_of_nonneg (by omega)]
    ring
  · rw [if_neg (by nlinarith)]
    have hc : ((ysize - 1 : Nat) : Int) = ysize - 1 := by omega
    rw [hc]
    by_cases hge : (ysize : Int) ≤ y
    · refine ⟨(2 * ysize - 1 - y).toNat, ⟨by omega, by omega, Or.inr ?_⟩, ?_⟩
      · rw [Int.toNat_of_nonneg (by omega)]
        apply Int.modEq_iff_dvd.mpr
        exact ⟨-1, by ring⟩
      · rw [if_pos (by nlinarith), Int.toNat_of_nonneg (by omega)]
        ring
    · refine ⟨y.toNat, ⟨by omega, by omega, Or.inl (by rw [Int.toNat_of_nonneg (by omega)])⟩, ?_⟩
      rw [if_neg (by nlinarith), Int.toNat_of_nonneg (by omega)]

/-- **Finding.**  One row further out, `WrapRowMirror` returns a row outside of the image, unlike `Mirror`. -/
theorem C40_finding_wrap_row (first stride : Int) (ysize : Nat) (hs : 0 < stride) :
    (WrapRowMirror.make (fun y => first + y * stride) ysize).call (first + (-(ysize + 1 : Int)) * stride) stride =
      first + ysize * stride := by
  unfold WrapRowMirror.make WrapRowMirror.call
  simp only [Nat.cast_zero, zero_mul, add_zero]
  rw [if_pos (by nlinarith)]
  ring

/-! ### Examples -/

/-- A 100 x 5 float image with 32-byte vectors meets the hypotheses of `C40_rows`. -/
theorem C40_nonvacuous : SizesOk 32 4 ∧ (32 ∣ 128 ∧ 128 ∣ 128) ∧ AllocOk 128 (fun n => if n = 3200 then some 4096 else none) ∧
    Fits 32 4 100 5 ∧ (∃ im m, construct 32 (fun n => if n = 3200 then some 4096 else none) 100 5 4 = .ok (im, some m) ∧
      im.bytesPerRow = 640 ∧ m.init (4096 + 400) = true ∧ m.init (4096 + 416) = false) ∧
    Mirror 5 (-17) (.ok 3) := by
  refine ⟨⟨by decide, ⟨5, rfl⟩, by decide, by decide⟩, by decide, ⟨?_, ?_⟩, ?_, ?_, ?_⟩
  · intro n p h
    split at h <;> cases h
    decide
  · intro n p h
    split at h
    · cases h; omega
    · cases h
  · unfold Fits; decide
  · exact ⟨_, _, rfl, rfl, by decide, by decide⟩
  · exact .step (Or.inl (by decide)) (x' := 16) (by decide) (.step (Or.inr (by decide)) (x' := -7) (by decide)
      (.step (Or.inl (by decide)) (x' := 6) (by decide) (.step (Or.inr (by decide)) (x' := 3) (by decide) (.done (by decide) (by decide)))))

end Img
end Hwy
