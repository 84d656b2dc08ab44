import Verif.GenAES
import Verif.GenLanes
import Verif.EmuMoveSpec

/-!
# C51: the AES operations compute the AES round functions of FIPS 197
-/

namespace Hwy
namespace Emu
open CInt

/-! ### Specification: FIPS 197 -/

/-- `xtime` (FIPS 197, 4.2.1): multiplication by `x` modulo `x^8 + x^4 + x^3 + x + 1`. -/
def xtime (b : BitVec 8) : BitVec 8 := if b.msb then (b <<< 1) ^^^ 0x1B else b <<< 1

/-- Multiplication in GF(2^8): the sum of the `xtime^i (a)` with bit `i` of `b` set. -/
def gmul (a b : BitVec 8) : BitVec 8 :=
  (List.range 8).foldl (fun acc i => if b.getLsbD i then acc ^^^ (xtime^[i] a) else acc) 0

/-- The multiplicative inverse, `b^254` (0 for 0); see `ginv_inverse`. -/
def ginv (b : BitVec 8) : BitVec 8 :=
  let b2 := gmul b b
  let b4 := gmul b2 b2
  let b8 := gmul b4 b4
  let b16 := gmul b8 b8
  let b32 := gmul b16 b16
  let b64 := gmul b32 b32
  let b128 := gmul b64 b64
  gmul (gmul (gmul b2 b4) (gmul b8 b16)) (gmul (gmul b32 b64) b128)

/-- The affine transformation (5.1.1); see `affine_bits`. -/
def affine (b : BitVec 8) : BitVec 8 :=
  b ^^^ b.rotateLeft 1 ^^^ b.rotateLeft 2 ^^^ b.rotateLeft 3 ^^^ b.rotateLeft 4 ^^^ 0x63

/-- The S-box (FIPS 197, 5.1.1): inverse, then the affine transformation. -/
def sbox (x : BitVec 8) : BitVec 8 := affine (ginv x)

/-- The inverse S-box (5.3.2): the inverse affine transformation, then the inverse; see `invSbox_sbox`. -/
def invSbox (x : BitVec 8) : BitVec 8 := ginv (x.rotateLeft 1 ^^^ x.rotateLeft 3 ^^^ x.rotateLeft 6 ^^^ 0x05)

/-- A state: byte `r + 4 c` is row `r`, column `c` (FIPS 197, 3.4). -/
abbrev State := Nat → BitVec 8

/-- `SubBytes()` (5.1.1). -/
def specSub (s : State) : State := fun i => sbox (s i)
/-- `InvSubBytes()` (5.3.2). -/
def specInvSub (s : State) : State := fun i => invSbox (s i)
/-- `ShiftRows()` (5.1.2): row `r` is rotated left by `r` columns. -/
def specShift (s : State) : State := fun i => s (i % 4 + 4 * ((i / 4 + i % 4) % 4))
/-- `InvShiftRows()` (5.3.1): row `r` is rotated right by `r` columns. -/
def specInvShift (s : State) : State := fun i => s (i % 4 + 4 * ((i / 4 + 4 - i % 4) % 4))
/-- Multiplication of every column by the circulant matrix whose first row is `m`. -/
def specMat (m : Nat → BitVec 8) (s : State) : State := fun i =>
  let c := i / 4
  let r := i % 4
  gmul (s (0 + 4 * c)) (m ((4 + 0 - r) % 4)) ^^^ gmul (s (1 + 4 * c)) (m ((4 + 1 - r) % 4)) ^^^
    gmul (s (2 + 4 * c)) (m ((4 + 2 - r) % 4)) ^^^ gmul (s (3 + 4 * c)) (m ((4 + 3 - r) % 4))
/-- `MixColumns()` (5.1.3): rows `02 03 01 01`, `01 02 03 01`, … -/
def specMix : State → State := specMat (fun j => [0x02, 0x03, 0x01, 0x01].getD j 0)
/-- `InvMixColumns()` (5.3.3): rows `0e 0b 0d 09`, `09 0e 0b 0d`, … -/
def specInvMix : State → State := specMat (fun j => [0x0e, 0x0b, 0x0d, 0x09].getD j 0)
/-- `AddRoundKey()` (5.1.4). -/
def specKey (k s : State) : State := fun i => s i ^^^ k i

/-- Bytes of a register. -/
def bytes (v : List Int) : State := fun i => bitsOf u8 (lane v i)

/-- Program `r` yields sixteen bytes equal to `s`. -/
def GivesState (r : M (List Int)) (s : State) : Prop := Lanes u8 16 r (fun i x => bitsOf u8 x = s i)

/-! ### Facts about the specification -/

theorem forall8 {P : BitVec 8 → Prop} (h : ∀ n < 256, P (BitVec.ofNat 8 n)) (b : BitVec 8) : P b := by
  have := h b.toNat b.isLt
  rwa [BitVec.ofNat_toNat, BitVec.setWidth_eq] at this

theorem ginv_inverse : (∀ b, b ≠ 0 → gmul b (ginv b) = 1) ∧ ginv 0 = 0 := by
  refine ⟨forall8 ?_, by decide +kernel⟩
  decide +kernel

/-- The affine transformation bit by bit (5.1.1): `b'_i = b_i ⊕ b_{i+4} ⊕ b_{i+5} ⊕ b_{i+6} ⊕ b_{i+7} ⊕ c_i`. -/
theorem affine_bits : ∀ b : BitVec 8, ∀ i < 8, (affine b).getLsbD i =
    xor (xor (xor (xor (xor (b.getLsbD i) (b.getLsbD ((i + 4) % 8)))
      (b.getLsbD ((i + 5) % 8))) (b.getLsbD ((i + 6) % 8)))
      (b.getLsbD ((i + 7) % 8))) ((0x63 : BitVec 8).getLsbD i) := by
  refine forall8 ?_
  decide +kernel

theorem invSbox_sbox : (∀ x, invSbox (sbox x) = x) ∧ ∀ x, sbox (invSbox x) = x := by
  refine ⟨forall8 ?_, forall8 ?_⟩ <;> decide +kernel

/-! ### Table lookup -/

theorem xtlb {v idx : List Int} {F G : Nat → Int} (hv : Is u8 16 v F) (hi : Is u8 16 idx G) :
    Runs u8 16 (tlb v idx) (fun i => if G i < 16 then F (G i).toNat else 0) := by
  obtain ⟨r, e, hl, h⟩ := C47_table_lookup_bytes (0 : Int) (B := 16) (BI := 16) le_rfl le_rfl
    (v := v) hv.1.len (idx := idx.map Int.toNat) (by rw [List.length_map, hi.1.len]; rfl)
  have key : ∀ i < 16, r[i]? = some (if G i < 16 then F (G i).toNat else 0) := by
    intro i hi'
    rw [h i hi']
    beta_reduce
    rw [List.getElem?_map, lane_some (by rw [hi.1.len]; exact hi'), hi.2 i hi']
    have h0 : 0 ≤ G i := by
      have := (hi.1.lane_has (i := i) hi').1
      rw [hi.2 i hi'] at this
      exact this
    simp only [Option.map_some, Option.bind_some]
    by_cases hG : G i < 16
    · rw [if_pos (by omega), if_pos hG, lane_some (by rw [hv.1.len]; show _ < 16; omega), hv.2 _ (by omega)]
    · rw [if_neg (by omega), if_neg hG]
  refine ⟨r, e, ⟨hl, fun x hx => ?_⟩, fun i hi' => lane_of_some (key i hi')⟩
  obtain ⟨j, hj, rfl⟩ := List.getElem_of_mem hx
  have := key j (by omega)
  rw [List.getElem?_eq_getElem hj, Option.some.injEq] at this
  rw [this]
  split_ifs with hG
  · have h0 : 0 ≤ G j := by
      have := (hi.1.lane_has (i := j) (show j < 16 by omega)).1
      rw [hi.2 j (by omega)] at this
      exact this
    rw [← hv.2 _ (by omega)]
    exact hv.1.lane_has (show _ < 16 by omega)
  · decide

macro_rules | `(tactic| vop) => `(tactic| vapp xtlb)

theorem nat_of_u8 {x : Int} (h : u8.Has x) : ∃ n : Nat, n < 256 ∧ x = n := by
  obtain ⟨n, rfl⟩ := Int.eq_ofNat_of_zero_le (show 0 ≤ x from h.1)
  have : (n : Int) ≤ 255 := h.2
  exact ⟨n, by omega, rfl⟩

theorem Runs.congr {t : Ty} {N : Nat} {r : M (List Int)} {F G : Nat → Int} (h : Runs t N r F)
    (e : ∀ i, i < N → F i = G i) : Runs t N r G := by
  obtain ⟨v, e1, h1, h2⟩ := h
  exact ⟨v, e1, h1, fun i hi => by rw [h2 i hi, e i hi]⟩

theorem Is.has {t : Ty} {N : Nat} {v : List Int} {F : Nat → Int} (h : Is t N v F) (hN : N ≤ cap t) {i : Nat}
    (hi : i < N) : t.Has (F i) := by
  rw [← h.2 i hi]; exact h.1.lane_has (by omega)

theorem xSubBytes {a : List Int} {F : Nat → Int} (ha : Is u8 16 a F) :
    Runs u8 16 (SubBytes a) (fun i => ((sbox (bitsOf u8 (F i))).toNat : Int)) := by
  apply Runs.congr
  · unfold SubBytes SubBytesMulInverseAndAffineLookup
    simp only [bind_assoc]
    vrun
  · intro i hi
    obtain ⟨n, hn, e⟩ := nat_of_u8 (ha.has (by decide) hi)
    rw [e]
    clear e
    revert n
    decide +kernel

theorem xInvSubBytes {a : List Int} {F : Nat → Int} (ha : Is u8 16 a F) :
    Runs u8 16 (InvSubBytes a) (fun i => ((invSbox (bitsOf u8 (F i))).toNat : Int)) := by
  apply Runs.congr
  · unfold InvSubBytes SubBytesMulInverseAndAffineLookup
    simp only [bind_assoc]
    vrun
  · intro i hi
    obtain ⟨n, hn, e⟩ := nat_of_u8 (ha.has (by decide) hi)
    rw [e]
    clear e
    revert n
    decide +kernel

theorem xMulBy2 {a : List Int} {F : Nat → Int} (ha : Is u8 16 a F) :
    Runs u8 16 (GF2P8Mod11BMulBy2 a) (fun i => ((xtime (bitsOf u8 (F i))).toNat : Int)) := by
  apply Runs.congr
  · unfold GF2P8Mod11BMulBy2
    vrun
  · intro i hi
    obtain ⟨n, hn, e⟩ := nat_of_u8 (ha.has (by decide) hi)
    rw [e]
    clear e
    revert n
    decide +kernel

/-! ### States -/

def IsS (v : List Int) (B : State) : Prop := Is u8 16 v (fun i => ((B i).toNat : Int))
def RunsS (r : M (List Int)) (B : State) : Prop := Runs u8 16 r (fun i => ((B i).toNat : Int))

theorem bitsOf_toNat8 (b : BitVec 8) : bitsOf u8 (b.toNat : Int) = b := by
  show BitVec.ofInt 8 (b.toNat : Int) = b
  rw [BitVec.ofInt_natCast, BitVec.ofNat_toNat, BitVec.setWidth_eq]

theorem IsS.refl {v : List Int} (h : Reg u8 v) : IsS v (bytes v) := by
  refine ⟨h, fun i hi => ?_⟩
  obtain ⟨n, hn, e⟩ := nat_of_u8 (h.lane_has (show i < 16 from hi))
  show _ = ((BitVec.ofInt 8 (lane v i)).toNat : Int)
  rw [e]
  rw [BitVec.ofInt_natCast, BitVec.toNat_ofNat, Nat.mod_eq_of_lt hn]

theorem RunsS.bind {r : M (List Int)} {B C : State} {f : List Int → M (List Int)} (h : RunsS r B)
    (hf : ∀ v, IsS v B → RunsS (f v) C) : RunsS (r >>= f) C := Runs.bind h hf

theorem RunsS.gives {r : M (List Int)} {B : State} (h : RunsS r B) {s : State} (e : ∀ i, i < 16 → B i = s i) :
    GivesState r s := by
  obtain ⟨v, e1, h1, h2⟩ := h
  refine ⟨v, e1, h1, fun i hi => ?_⟩
  rw [h2 i hi]
  exact (bitsOf_toNat8 _).trans (e i hi)

theorem RunsS.congr {r : M (List Int)} {B C : State} (h : RunsS r B) (e : ∀ i, i < 16 → B i = C i) :
    RunsS r C := Runs.congr h (fun i hi => by rw [e i hi])

theorem GivesState.runs {r : M (List Int)} {B : State} (h : GivesState r B) : RunsS r B := by
  obtain ⟨v, e1, h1, h2⟩ := h
  have := IsS.refl h1
  exact ⟨v, e1, h1, fun i hi => by
    have e2 : bytes v i = B i := h2 i hi
    rw [this.2 i hi]
    beta_reduce
    rw [e2]⟩

theorem sXor {a b : List Int} {B C : State} (ha : IsS a B) (hb : IsS b C) :
    RunsS (Xor u8 16 a b) (fun i => B i ^^^ C i) :=
  (xxor (by decide) (by decide) ha hb).congr (fun i hi => by
    rw [bitsOf_toNat8, bitsOf_toNat8]; rfl)

theorem sXor3 {a b c : List Int} {B C D : State} (ha : IsS a B) (hb : IsS b C) (hc : IsS c D) :
    RunsS (Xor3 u8 16 a b c) (fun i => B i ^^^ (C i ^^^ D i)) :=
  (xxor3 (by decide) (by decide) ha hb hc).congr (fun i hi => by
    rw [bitsOf_toNat8, bitsOf_toNat8, bitsOf_toNat8]; rfl)

theorem sSub {a : List Int} {B : State} (ha : IsS a B) : RunsS (SubBytes a) (specSub B) :=
  (xSubBytes ha).congr (fun i hi => by rw [bitsOf_toNat8]; rfl)

theorem sInvSub {a : List Int} {B : State} (ha : IsS a B) : RunsS (InvSubBytes a) (specInvSub B) :=
  (xInvSubBytes ha).congr (fun i hi => by rw [bitsOf_toNat8]; rfl)

theorem sMul2 {a : List Int} {B : State} (ha : IsS a B) : RunsS (GF2P8Mod11BMulBy2 a) (fun i => xtime (B i)) :=
  (xMulBy2 ha).congr (fun i hi => by rw [bitsOf_toNat8])

/-- Lookup with constant indices below 16. -/
theorem sTlb {a idx : List Int} {B : State} (ha : IsS a B) (hr : idx.length = 16)
    (hi : idx.all (fun j => decide (0 ≤ j ∧ j < 16)) = true) :
    RunsS (tlb a idx) (fun i => B (lane idx i).toNat) := by
  have hidx : ∀ x ∈ idx, 0 ≤ x ∧ x < 16 := fun x hx => by simpa using List.all_eq_true.1 hi x hx
  have hR : Reg u8 idx := ⟨hr, fun x hx => by have := hidx x hx; exact ⟨this.1, by show x ≤ 255; omega⟩⟩
  refine (xtlb ha (Is.refl hR)).congr (fun i hi' => ?_)
  have : lane idx i < 16 := by
    apply (hidx _ _).2
    have h1 : i < idx.length := by omega
    have := lane_some h1
    rw [List.getElem?_eq_getElem h1, Option.some.injEq] at this
    rw [← this]; exact List.getElem_mem h1
  rw [if_pos this]

theorem sShift {a : List Int} {B : State} (ha : IsS a B) : RunsS (ShiftRows a) (specShift B) := by
  refine (sTlb ha (by decide) (by decide)).congr (fun i hi => ?_)
  unfold specShift
  interval_cases i <;> rfl

theorem sInvShift {a : List Int} {B : State} (ha : IsS a B) : RunsS (InvShiftRows a) (specInvShift B) := by
  refine (sTlb ha (by decide) (by decide)).congr (fun i hi => ?_)
  unfold specInvShift
  interval_cases i <;> rfl

end Emu
end Hwy
