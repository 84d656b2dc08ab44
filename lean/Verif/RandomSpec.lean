import Verif.RandomPoly
import Mathlib.Tactic.Linarith
import Mathlib.Tactic.FieldSimp
import Mathlib.Tactic.NormNum

/-!
# C31: the generators of hwy/contrib/random

## Specification

One scalar generator is a state and a stream of outputs; everything else is stated in terms of the
stream of the seeded scalar generator.
-/

namespace Hwy
namespace Rnd

/-- State after `k` draws of a scalar generator in state `s`. -/
def after (k : Nat) (s : St) : St := (fun s => (Xoshiro.next s).1)^[k] s

/-- Output number `k` (from 0) of a scalar generator in state `s`. -/
def stream (s : St) (k : Nat) : W := (Xoshiro.next (after k s)).2

/-- State after `k` draws of a vector generator. -/
def vafter (k : Nat) (v : VSt) : VSt := (fun v => (VectorXoshiro.next v).1)^[k] v

/-- Number `m` of the sequence in which the generator of thread `t` with `L` lanes hands out the outputs of the
seeded scalar generator `s`: lane `m % L` of vector number `m / L`; every thread owns `2^64` subsequences
of length `2^128`, every lane uses one of them. -/
def element (L : Nat) (s : St) (t m : Nat) : W := stream s (t * 2 ^ 192 + (m % L) * 2 ^ 128 + m / L)

/-! ## Jump -/

theorem after_eq (k : Nat) (s : St) : after k s = step^[k] s := rfl

theorem and_one_shiftLeft_ne (i : W) (b : Nat) (hb : b < 64) :
    (i &&& (1#64 <<< b) ≠ 0) ↔ (i.toNat >>> b).testBit 0 = true := by
  have e : i &&& (1#64 <<< b) = if i.getLsbD b then 1#64 <<< b else 0 := by
    ext j hj
    simp only [BitVec.getElem_and, BitVec.getElem_shiftLeft, BitVec.getElem_one]
    by_cases h : j = b
    · subst h
      cases hi : i.getLsbD j
      · rw [BitVec.getLsbD_eq_getElem hj] at hi
        simp [hi]
      · rw [BitVec.getLsbD_eq_getElem hj] at hi
        simp [hi, BitVec.getElem_shiftLeft]
    · have h2 : (!decide (j < b) && decide (j - b = 0)) = false := by
        by_cases h3 : j < b
        · simp [h3]
        · have : j - b ≠ 0 := by omega
          simp [this]
      rw [h2, Bool.and_false]
      split
      · rw [BitVec.getElem_shiftLeft, BitVec.getElem_one, h2]
      · simp
  have hne : (1#64 <<< b) ≠ 0 := by
    intro h
    have := congrArg (fun x : W => x.getLsbD b) h
    simp [hb] at this
  rw [e, Nat.testBit_shiftRight, Nat.add_zero]
  cases hi : i.getLsbD b
  · simp only [Bool.false_eq_true, if_false, ne_eq, not_true_eq_false, false_iff]
    rw [BitVec.getLsbD] at hi
    rw [hi]; decide
  · simp only [if_true]
    rw [BitVec.getLsbD] at hi
    exact ⟨fun _ => hi, fun _ => hne⟩

theorem jumpWord_eq (i : W) : ∀ n b acc s, n + b ≤ 64 →
    Xoshiro.jumpWord i n b acc s = (acc.add (app n (i.toNat >>> b) s), step^[n] s) := by
  intro n
  induction n with
  | zero => intro b acc s _; simp [Xoshiro.jumpWord, app, St.add_zero]
  | succ n ih =>
    intro b acc s h
    rw [Xoshiro.jumpWord, ih (b + 1) _ _ (by omega)]
    have e : i.toNat >>> (b + 1) = i.toNat >>> b / 2 := Nat.shiftRight_succ _ _
    have e2 : app (n + 1) (i.toNat >>> b) s =
      (if (i.toNat >>> b).testBit 0 then s else St.zero).add (app n (i.toNat >>> b / 2) (step s)) := rfl
    rw [e2, e, Function.iterate_succ_apply]
    refine Prod.ext ?_ rfl
    simp only
    by_cases hb : (i.toNat >>> b).testBit 0 = true
    · rw [if_pos ((and_one_shiftLeft_ne i b (by omega)).mpr hb), if_pos hb, ← St.add_assoc]
      rfl
    · rw [if_neg (fun h => hb ((and_one_shiftLeft_ne i b (by omega)).mp h)), if_neg hb, St.zero_add]
      rfl

/-- The jump array as one polynomial. -/
def cat : List W → Nat
  | [] => 0
  | w :: l => w.toNat + 2 ^ 64 * cat l

theorem app_append (m q : Nat) : ∀ n p v, p < 2 ^ n →
    app (n + m) (p + 2 ^ n * q) v = (app n p v).add (app m q (step^[n] v)) := by
  intro n
  induction n with
  | zero =>
    intro p v h
    have : p = 0 := by simpa using h
    subst this
    simp [app, St.zero_add]
  | succ n ih =>
    intro p v h
    rw [show n + 1 + m = (n + m) + 1 by omega, app, app, Function.iterate_succ_apply]
    have e1 : (p + 2 ^ (n + 1) * q) / 2 = p / 2 + 2 ^ n * q := by
      rw [Nat.pow_succ, show 2 ^ n * 2 * q = 2 * (2 ^ n * q) by ring, Nat.add_mul_div_left _ _ (by decide)]
    have e2 : (p + 2 ^ (n + 1) * q).testBit 0 = p.testBit 0 := by
      rw [Nat.testBit_zero, Nat.testBit_zero, Nat.pow_succ, show 2 ^ n * 2 * q = 2 * (2 ^ n * q) by ring,
        Nat.add_mul_mod_self_left]
    rw [e1, e2, ih (p / 2) (step v) (by rw [Nat.pow_succ] at h; omega), St.add_assoc]

theorem jumpWords_eq : ∀ l acc s,
    Xoshiro.jumpWords l acc s = (acc.add (app (64 * l.length) (cat l) s), step^[64 * l.length] s) := by
  intro l
  induction l with
  | nil => intro acc s; simp [Xoshiro.jumpWords, app, St.add_zero]
  | cons w l ih =>
    intro acc s
    rw [Xoshiro.jumpWords, jumpWord_eq w 64 0 acc s (by omega)]
    simp only []
    rw [ih, List.length_cons, show 64 * (l.length + 1) = 64 + 64 * l.length by ring, cat,
      app_append _ _ 64 _ _ w.isLt, Nat.shiftRight_zero, ← Function.iterate_add_apply,
      Nat.add_comm (64 * l.length) 64, St.add_assoc]

theorem jumpWith_eq (l : List W) (s : St) : Xoshiro.jumpWith l s = app (64 * l.length) (cat l) s := by
  unfold Xoshiro.jumpWith
  rw [jumpWords_eq]
  exact St.zero_add _

/-- **C31 (jump).**  For every state, `Jump()` has the effect of exactly `2^128` calls of `Next()` and `LongJump()`
of `2^192`. -/
theorem C31_jump (s : St) :
    Xoshiro.jump s = after (2 ^ 128) s ∧ Xoshiro.longJump s = after (2 ^ 192) s := by
  constructor
  · unfold Xoshiro.jump
    rw [jumpWith_eq, after_eq, ← (pow_spec 129 (2 ^ 128) (by decide +kernel)).2, pow_jump]
    have : cat kJump = jumpPoly := by decide +kernel
    rw [this]; rfl
  · unfold Xoshiro.longJump
    rw [jumpWith_eq, after_eq, ← (pow_spec 193 (2 ^ 192) (by decide +kernel)).2, pow_longJump]
    have : cat kLongJump = longJumpPoly := by decide +kernel
    rw [this]; rfl

/-! ## Period -/

/-- **C31 (period).**  From every state except all zeros the states repeat with period exactly `2^256 - 1`: positions
`i` and `j` of the stream have the same state exactly if they are congruent modulo `2^256 - 1`. -/
theorem C31_period (s : St) (hs : s ≠ ⟨0, 0, 0, 0⟩) (i j : Nat) :
    after i s = after j s ↔ i % (2 ^ 256 - 1) = j % (2 ^ 256 - 1) :=
  iterate_eq_iff s hs i j

/-! ## Seeding -/

theorem xor_shift_zero (x : W) (k : Nat) (hk : 0 < k) (h : x ^^^ (x >>> k) = 0) : x = 0 := by
  have e : x = x >>> k := by
    have := congrArg (· ^^^ (x >>> k)) h
    simpa [BitVec.xor_assoc] using this
  have e2 := congrArg BitVec.toNat e
  rw [BitVec.toNat_ushiftRight, Nat.shiftRight_eq_div_pow] at e2
  apply BitVec.eq_of_toNat_eq
  by_contra hne
  have hpos : 0 < x.toNat := Nat.pos_of_ne_zero hne
  have := Nat.div_lt_self hpos (Nat.one_lt_two_pow (by omega : k ≠ 0))
  omega

theorem xor_shift_inj (x y : W) (k : Nat) (hk : 0 < k) (h : x ^^^ (x >>> k) = y ^^^ (y >>> k)) : x = y := by
  have : (x ^^^ y) ^^^ ((x ^^^ y) >>> k) = 0 := by
    rw [BitVec.ushiftRight_xor_distrib]
    have e : (x ^^^ y) ^^^ (x >>> k ^^^ y >>> k) = (x ^^^ x >>> k) ^^^ (y ^^^ y >>> k) := by
      generalize x >>> k = a
      generalize y >>> k = b
      ac_rfl
    rw [e, h, BitVec.xor_self]; rfl
  have h2 := xor_shift_zero _ k hk this
  have := congrArg (· ^^^ y) h2
  simpa [BitVec.xor_assoc] using this

theorem mul_inj (c d x y : W) (hcd : c * d = 1) (h : x * c = y * c) : x = y := by
  have := congrArg (· * d) h
  simpa [BitVec.mul_assoc, hcd] using this

/-- The output function of SplitMix64. -/
def mixOut (z : W) : W := (splitMixNext (z - 0x9e3779b97f4a7c15#64)).2

theorem splitMix_snd (s : W) : (splitMixNext s).2 = mixOut (s + 0x9e3779b97f4a7c15#64) := by
  unfold mixOut
  rw [BitVec.add_sub_cancel]

theorem mixOut_inj (x y : W) (h : mixOut x = mixOut y) : x = y := by
  simp only [mixOut, splitMixNext, BitVec.sub_add_cancel] at h
  have h1 := xor_shift_inj _ _ 31 (by decide) h
  have h2 := mul_inj 0x94d049bb133111eb#64 0x319642b2d24d8ec3#64 _ _ (by decide) h1
  have h3 := xor_shift_inj _ _ 27 (by decide) h2
  have h4 := mul_inj 0xbf58476d1ce4e5b9#64 0x96de1b173f119089#64 _ _ (by decide) h3
  exact xor_shift_inj _ _ 30 (by decide) h4

theorem mixOut_zero : mixOut 0 = 0 := by decide

/-- **C31 (seeding).**  No seed leads to the all-zero state (from which `Next` would return 0 for ever), and
different seeds give different initial states. -/
theorem C31_seed (seed seed' : W) :
    Xoshiro.ofSeed seed ≠ ⟨0, 0, 0, 0⟩ ∧ (Xoshiro.ofSeed seed = Xoshiro.ofSeed seed' → seed = seed') := by
  have e0 : ∀ x : W, (Xoshiro.ofSeed x).s0 = mixOut (x + 0x9e3779b97f4a7c15#64) := fun x => splitMix_snd x
  have e1 : ∀ x : W, (Xoshiro.ofSeed x).s1 = mixOut (x + 0x9e3779b97f4a7c15#64 + 0x9e3779b97f4a7c15#64) :=
    fun x => splitMix_snd _
  constructor
  · intro h
    have h0 : mixOut (seed + 0x9e3779b97f4a7c15#64) = mixOut 0 := by
      rw [mixOut_zero, ← e0, h]
    have h1 : mixOut (seed + 0x9e3779b97f4a7c15#64 + 0x9e3779b97f4a7c15#64) = mixOut 0 := by
      rw [mixOut_zero, ← e1, h]
    have a := mixOut_inj _ _ h0
    have b := mixOut_inj _ _ h1
    rw [a] at b
    exact absurd b (by decide)
  · intro h
    have h0 : mixOut (seed + 0x9e3779b97f4a7c15#64) = mixOut (seed' + 0x9e3779b97f4a7c15#64) := by
      rw [← e0, ← e0, h]
    have := mixOut_inj _ _ h0
    have h2 := congrArg (· - 0x9e3779b97f4a7c15#64) this
    simpa [BitVec.add_sub_cancel] using h2

/-! ## Vector lanes -/

/-- The four rows hold the states `l`, one per lane. -/
def ofStates (l : List St) : VSt := ⟨l.map St.s0, l.map St.s1, l.map St.s2, l.map St.s3⟩

theorem times_eq {α : Type} (f : α → α) (n : Nat) (a : α) : times f n a = f^[n] a := by
  induction n generalizing a with
  | zero => rfl
  | succ n ih => rw [times, ih, Function.iterate_succ_apply]

theorem iterate_after {f : St → St} {m : Nat} (h : ∀ s, f s = after m s) (n : Nat) (s : St) :
    f^[n] s = after (n * m) s := by
  induction n generalizing s with
  | zero => simp [after]
  | succ n ih =>
    rw [Function.iterate_succ_apply, ih, h, after_eq, after_eq, after_eq, ← Function.iterate_add_apply]
    congr 1; ring

theorem after_after (i j : Nat) (s : St) : after i (after j s) = after (i + j) s := by
  rw [after_eq, after_eq, after_eq, ← Function.iterate_add_apply]

theorem fill_eq (J : Nat) (hJ : ∀ s, Xoshiro.jump s = after J s) : ∀ n x l, VectorXoshiro.fill n x (ofStates l) =
    ofStates (l ++ (List.range n).map (fun i => after (i * J) x)) := by
  intro n
  induction n with
  | zero => intro x l; simp [VectorXoshiro.fill]
  | succ n ih =>
    intro x l
    rw [VectorXoshiro.fill]
    have e : (⟨(ofStates l).r0 ++ [x.s0], (ofStates l).r1 ++ [x.s1], (ofStates l).r2 ++ [x.s2],
        (ofStates l).r3 ++ [x.s3]⟩ : VSt) = ofStates (l ++ [x]) := by simp [ofStates]
    rw [e, ih, List.append_assoc, List.range_succ_eq_map]
    refine congrArg (fun r => ofStates (l ++ r)) ?_
    rw [List.map_cons, List.map_map, List.singleton_append]
    have h0 : after (0 * J) x = x := by rw [Nat.zero_mul]; rfl
    rw [h0]
    refine congrArg (List.cons x) (List.map_congr_left (fun i _ => ?_))
    show after (i * J) (Xoshiro.jump x) = after ((i + 1) * J) x
    rw [hJ, after_after]
    exact congrArg (fun n => after n x) (by ring)

theorem make_eq (L : Nat) (seed t : W) : VectorXoshiro.make L seed t =
    ofStates ((List.range L).map (fun i => after (t.toNat * 2 ^ 192 + i * 2 ^ 128) (Xoshiro.ofSeed seed))) := by
  unfold VectorXoshiro.make
  have h := fill_eq (2 ^ 128) (fun s => (C31_jump s).1) L (times Xoshiro.longJump t.toNat (Xoshiro.ofSeed seed)) []
  rw [List.nil_append] at h
  rw [show (⟨[], [], [], []⟩ : VSt) = ofStates [] from rfl, h, times_eq,
    iterate_after (fun s => (C31_jump s).2)]
  refine congrArg ofStates (List.map_congr_left (fun i _ => ?_))
  rw [after_after, Nat.add_comm]

theorem zipWith_map_same {α : Type} (f : W → W → W) (g h : α → W) (l : List α) :
    List.zipWith f (l.map g) (l.map h) = l.map (fun a => f (g a) (h a)) := by
  induction l with
  | nil => rfl
  | cons a l ih => simp [ih]

theorem rotateRight_map {α : Type} (k : Nat) (hk : 0 < k) (hk2 : k ≤ 64) (g : α → W) (l : List α) :
    rotateRight k (l.map g) = l.map (fun a => rotl (g a) (64 - k)) := by
  unfold rotateRight rotl
  rw [List.map_map, List.map_map, zipWith_map_same]
  refine List.map_congr_left (fun a _ => ?_)
  simp only [Function.comp]
  rw [show min 63 (64 - k) = 64 - k by omega, show 64 - (64 - k) = k by omega, BitVec.or_comm]

theorem update_ofStates (l : List St) : VectorXoshiro.update (ofStates l) =
    (ofStates (l.map (fun s => (Xoshiro.next s).1)), l.map (fun s => (Xoshiro.next s).2)) := by
  unfold VectorXoshiro.update
  simp only [ofStates, vadd, vxor, vshl, zipWith_map_same, List.map_map]
  rw [rotateRight_map 41 (by decide) (by decide), rotateRight_map 19 (by decide) (by decide), zipWith_map_same]
  rfl

theorem vafter_ofStates (k : Nat) (l : List St) : vafter k (ofStates l) = ofStates (l.map (after k)) := by
  induction k generalizing l with
  | zero => rw [show after 0 = id from rfl, List.map_id]; rfl
  | succ k ih =>
    rw [vafter, Function.iterate_succ_apply]
    show vafter k (VectorXoshiro.update (ofStates l)).1 = _
    rw [update_ofStates, ih, List.map_map]
    rfl

/-- **C31 (lanes).**  For every seed, thread number, number of lanes and draw number `k`: lane `i` of the `k`-th
vector is the output number `t · 2^192 + i · 2^128 + k` of the scalar generator with that seed, that is, draw
`k` of the scalar generator long-jumped `t` times and jumped `i` times. -/
theorem C31_lanes (L : Nat) (seed t : W) (k : Nat) :
    (VectorXoshiro.next (vafter k (VectorXoshiro.make L seed t))).2 =
      (List.range L).map (fun i => stream (Xoshiro.ofSeed seed) (t.toNat * 2 ^ 192 + i * 2 ^ 128 + k)) ∧
    (VectorXoshiro.next (vafter k (VectorXoshiro.make L seed t))).2 =
      (List.range L).map (fun i =>
        stream (Xoshiro.jump^[i] (Xoshiro.longJump^[t.toNat] (Xoshiro.ofSeed seed))) k) := by
  have h : (VectorXoshiro.next (vafter k (VectorXoshiro.make L seed t))).2 =
      (List.range L).map (fun i => stream (Xoshiro.ofSeed seed) (t.toNat * 2 ^ 192 + i * 2 ^ 128 + k)) := by
    rw [make_eq, vafter_ofStates]
    show (VectorXoshiro.update _).2 = _
    rw [update_ofStates]
    simp only []
    rw [List.map_map, List.map_map]
    refine List.map_congr_left (fun i _ => ?_)
    simp only [Function.comp, stream]
    rw [after_after, Nat.add_comm]
  refine ⟨h, h.trans ?_⟩
  refine List.map_congr_left (fun i _ => ?_)
  simp only [stream]
  rw [iterate_after (fun s => (C31_jump s).1), iterate_after (fun s => (C31_jump s).2), after_after, after_after]
  exact congrArg (fun n => (Xoshiro.next (after n (Xoshiro.ofSeed seed))).2) (by ring)

/-- **C31 (scalar thread constructor).**  `Xoshiro(seed, i)` starts `i · 2^128` draws after `Xoshiro(seed)`. -/
theorem C31_thread (seed i : W) : Xoshiro.ofSeedThread seed i = after (i.toNat * 2 ^ 128) (Xoshiro.ofSeed seed) := by
  unfold Xoshiro.ofSeedThread
  rw [times_eq, iterate_after (fun s => (C31_jump s).1)]

/-- **C31 (disjoint streams).**  Two generators with the same seed never come to the same state: thread `t`, lane `i`,
draw `k` and thread `t'`, lane `i'`, draw `k'` (`2^128` draws per lane, any vector length below `2^63`)
have the same scalar state only if they are the same. -/
theorem C31_disjoint (seed t t' : W) (i i' k k' : Nat) (hi : i < 2 ^ 63) (hi' : i' < 2 ^ 63)
    (hk : k < 2 ^ 128) (hk' : k' < 2 ^ 128)
    (h : after (t.toNat * 2 ^ 192 + i * 2 ^ 128 + k) (Xoshiro.ofSeed seed) =
         after (t'.toNat * 2 ^ 192 + i' * 2 ^ 128 + k') (Xoshiro.ofSeed seed)) :
    t = t' ∧ i = i' ∧ k = k' := by
  rw [C31_period _ (C31_seed seed seed).1] at h
  have ht := t.isLt
  have ht' := t'.isLt
  have b : ∀ t i k : Nat, t < 2 ^ 64 → i < 2 ^ 63 → k < 2 ^ 128 → t * 2 ^ 192 + i * 2 ^ 128 + k < 2 ^ 256 - 1 := by
    intro t i k a b c
    have e1 : (2:Nat) ^ 64 = 18446744073709551616 := by norm_num
    have e2 : (2:Nat) ^ 63 = 9223372036854775808 := by norm_num
    have e3 : (2:Nat) ^ 128 = 340282366920938463463374607431768211456 := by norm_num
    have e4 : (2:Nat) ^ 192 = 6277101735386680763835789423207666416102355444464034512896 := by norm_num
    have e5 : (2:Nat) ^ 256 = 115792089237316195423570985008687907853269984665640564039457584007913129639936 := by norm_num
    omega
  rw [Nat.mod_eq_of_lt (b _ _ _ ht hi hk), Nat.mod_eq_of_lt (b _ _ _ ht' hi' hk')] at h
  have e : ∀ t i k : Nat, t * 2 ^ 192 + i * 2 ^ 128 + k = k + 2 ^ 128 * (i + 2 ^ 64 * t) := by
    intro t i k; ring
  rw [e, e] at h
  have h1 : k = k' := by
    have := congrArg (· % 2 ^ 128) h
    simp only [Nat.add_mul_mod_self_left] at this
    rwa [Nat.mod_eq_of_lt hk, Nat.mod_eq_of_lt hk'] at this
  subst h1
  have h2 : i + 2 ^ 64 * t.toNat = i' + 2 ^ 64 * t'.toNat :=
    Nat.eq_of_mul_eq_mul_left (Nat.two_pow_pos 128) (Nat.add_left_cancel h)
  have h3 : i = i' := by
    have := congrArg (· % 2 ^ 64) h2
    simp only [Nat.add_mul_mod_self_left] at this
    rwa [Nat.mod_eq_of_lt (by omega), Nat.mod_eq_of_lt (by omega)] at this
  subst h3
  exact ⟨BitVec.eq_of_toNat_eq (by omega), rfl, rfl⟩

/-! ## Arrays -/

theorem update_length (L : Nat) (l : List St) (h : l.length = L) :
    (VectorXoshiro.update (ofStates l)).2.length = L := by rw [update_ofStates]; simp [h]

/-- The vectors that `m` calls of `Next` return, one after the other. -/
def drawsFlat (m : Nat) (v : VSt) : List W :=
  (List.range m).flatMap (fun k => (VectorXoshiro.next (vafter k v)).2)

theorem drawsFlat_succ (m : Nat) (v : VSt) :
    drawsFlat (m + 1) v = (VectorXoshiro.next v).2 ++ drawsFlat m (VectorXoshiro.next v).1 := by
  unfold drawsFlat
  rw [List.range_succ_eq_map, List.flatMap_cons, List.flatMap_map]
  rfl

theorem fillLoop_ok {β : Type} (f : List W → List β) (L : Nat) (hL : 0 < L)
    (hf : ∀ a, (f a).length = a.length) :
    ∀ m fuel (pre suf : List β) (l : List St), l.length = L → suf.length = m * L → m < fuel →
      VectorXoshiro.fillLoop f L (pre ++ suf).length fuel pre.length (ofStates l) (pre ++ suf) =
        .ok (vafter m (ofStates l), pre ++ (List.range m).flatMap (fun k => f (VectorXoshiro.next (vafter k (ofStates l))).2)) := by
  intro m
  induction m with
  | zero =>
    intro fuel pre suf l hl hs hfu
    obtain ⟨fuel, rfl⟩ : ∃ k, fuel = k + 1 := ⟨fuel - 1, by omega⟩
    have : suf = [] := by simpa using hs
    subst this
    rw [VectorXoshiro.fillLoop, if_neg (by simp)]
    simp [vafter]
  | succ m ih =>
    intro fuel pre suf l hl hs hfu
    obtain ⟨fuel, rfl⟩ : ∃ k, fuel = k + 1 := ⟨fuel - 1, by omega⟩
    have hs' : suf.length = m * L + L := by rw [hs]; ring
    rw [VectorXoshiro.fillLoop, if_pos (by rw [List.length_append]; omega)]
    have hlen : (f (VectorXoshiro.update (ofStates l)).2).length = L := by
      rw [hf, update_length L l hl]
    rw [Vec.storeU_ok _ _ _ (by rw [hlen, List.length_append]; omega)]
    simp only []
    rw [hlen, List.take_left', List.drop_append]
    · rw [List.drop_eq_nil_of_le (by omega : pre.length ≤ pre.length + L), List.nil_append,
        show pre.length + L - pre.length = L by omega]
      have h2 := ih fuel (pre ++ f (VectorXoshiro.update (ofStates l)).2) (suf.drop L)
        (l.map (fun s => (Xoshiro.next s).1)) (by simp [hl]) (by rw [List.length_drop]; omega) (by omega)
      have e1 : (pre ++ f (VectorXoshiro.update (ofStates l)).2 ++ suf.drop L).length = (pre ++ suf).length := by
        simp only [List.length_append, hlen, List.length_drop]; omega
      have e2 : (pre ++ f (VectorXoshiro.update (ofStates l)).2).length = pre.length + L := by
        rw [List.length_append, hlen]
      rw [e1, e2] at h2
      have e3 : (VectorXoshiro.update (ofStates l)).1 = ofStates (l.map (fun s => (Xoshiro.next s).1)) := by
        rw [update_ofStates]
      rw [e3, h2, List.range_succ_eq_map, List.flatMap_cons, List.flatMap_map, List.append_assoc, ← e3]
      rfl
    · rfl

theorem fillLoop_fault {β : Type} (f : List W → List β) (L : Nat) (hL : 0 < L)
    (hf : ∀ a, (f a).length = a.length) :
    ∀ m fuel (pre suf : List β) (l : List St), l.length = L → m * L < suf.length → suf.length < (m + 1) * L → m < fuel →
      VectorXoshiro.fillLoop f L (pre ++ suf).length fuel pre.length (ofStates l) (pre ++ suf) = .error .ub := by
  intro m
  induction m with
  | zero =>
    intro fuel pre suf l hl hs hs2 hfu
    obtain ⟨fuel, rfl⟩ : ∃ k, fuel = k + 1 := ⟨fuel - 1, by omega⟩
    have hlen : (f (VectorXoshiro.update (ofStates l)).2).length = L := by
      rw [hf, update_length L l hl]
    rw [VectorXoshiro.fillLoop, if_pos (by rw [List.length_append]; omega), Vec.storeU, hlen,
      if_neg (by rw [List.length_append]; omega)]
  | succ m ih =>
    intro fuel pre suf l hl hs hs2 hfu
    obtain ⟨fuel, rfl⟩ : ∃ k, fuel = k + 1 := ⟨fuel - 1, by omega⟩
    have hs' : m * L + L < suf.length := by
      have : (m + 1) * L = m * L + L := by ring
      omega
    have hs2' : suf.length < (m + 1) * L + L := by
      have : (m + 1 + 1) * L = (m + 1) * L + L := by ring
      omega
    rw [VectorXoshiro.fillLoop, if_pos (by rw [List.length_append]; omega)]
    have hlen : (f (VectorXoshiro.update (ofStates l)).2).length = L := by
      rw [hf, update_length L l hl]
    rw [Vec.storeU_ok _ _ _ (by rw [hlen, List.length_append]; omega)]
    simp only []
    rw [hlen, List.take_left', List.drop_append]
    · rw [List.drop_eq_nil_of_le (by omega : pre.length ≤ pre.length + L), List.nil_append,
        show pre.length + L - pre.length = L by omega]
      have h2 := ih fuel (pre ++ f (VectorXoshiro.update (ofStates l)).2) (suf.drop L)
        (l.map (fun s => (Xoshiro.next s).1)) (by simp [hl]) (by rw [List.length_drop]; omega)
        (by rw [List.length_drop]; omega) (by omega)
      have e1 : (pre ++ f (VectorXoshiro.update (ofStates l)).2 ++ suf.drop L).length = (pre ++ suf).length := by
        simp only [List.length_append, hlen, List.length_drop]; omega
      have e2 : (pre ++ f (VectorXoshiro.update (ofStates l)).2).length = pre.length + L := by
        rw [List.length_append, hlen]
      rw [e1, e2] at h2
      have e3 : (VectorXoshiro.update (ofStates l)).1 = ofStates (l.map (fun s => (Xoshiro.next s).1)) := by
        rw [update_ofStates]
      rw [e3, h2]
    · rfl

/-- A state of a generator on a target with `L` lanes that can occur: a constructed one after any number of draws. -/
def Reachable (L : Nat) (v : VSt) : Prop := ∃ seed t k, v = vafter k (VectorXoshiro.make L seed t)

theorem reachable_ofStates {L : Nat} {v : VSt} (h : Reachable L v) : ∃ l, v = ofStates l ∧ l.length = L := by
  obtain ⟨seed, t, k, rfl⟩ := h
  rw [make_eq, vafter_ofStates]
  exact ⟨_, rfl, by simp⟩

/-- **C31 (arrays).**  If the number of lanes divides `n`, `operator()(n)` (and `operator()<N>()`) returns the
vectors of `n / L` single draws one after the other and leaves the generator in the state after those draws.
Otherwise it writes beyond the end of the array. -/
theorem C31_draw (L n : Nat) (hL : 0 < L) (v : VSt) (hv : Reachable L v) :
    (L ∣ n → VectorXoshiro.draw L n v =
      .ok (vafter (n / L) v, (List.range (n / L)).flatMap (fun k => (VectorXoshiro.next (vafter k v)).2))) ∧
    (¬ L ∣ n → VectorXoshiro.draw L n v = .error .ub) := by
  obtain ⟨l, rfl, hl⟩ := reachable_ofStates hv
  constructor
  · rintro ⟨m, rfl⟩
    have h := fillLoop_ok (id : List W → List W) L hL (fun _ => rfl) m (L * m + 1) []
      (List.replicate (L * m) 0) l hl (by rw [List.length_replicate, Nat.mul_comm])
      (by have := Nat.le_mul_of_pos_left m hL; omega)
    rw [Nat.mul_div_cancel_left _ hL]
    simp only [List.nil_append, List.length_replicate, List.length_nil, id] at h
    exact h
  · intro hn
    have h1 : n / L * L < n := by
      have := Nat.div_add_mod n L
      have h2 : n % L ≠ 0 := fun h => hn (Nat.dvd_of_mod_eq_zero h)
      have h3 : n / L * L = L * (n / L) := Nat.mul_comm _ _
      omega
    have h := fillLoop_fault (id : List W → List W) L hL (fun _ => rfl) (n / L) (n + 1) []
      (List.replicate n 0) l hl (by rw [List.length_replicate]; exact h1)
      (by rw [List.length_replicate, Nat.mul_comm]; exact Nat.lt_mul_div_succ n hL)
      (by have := Nat.div_le_self n L; omega)
    simp only [List.nil_append, List.length_replicate, List.length_nil] at h
    exact h

theorem flatMap_range (L : Nat) (hL : 0 < L) {β : Type} (g : Nat → Nat → β) (m : Nat) :
    (List.range m).flatMap (fun k => (List.range L).map (fun i => g i k)) =
      (List.range (m * L)).map (fun j => g (j % L) (j / L)) := by
  induction m with
  | zero => simp
  | succ m ih =>
    rw [List.range_succ, List.flatMap_append, ih, show (m + 1) * L = m * L + L by ring, List.range_add,
      List.map_append]
    congr 1
    rw [List.flatMap_singleton, List.map_map]
    refine List.map_congr_left (fun i hi => ?_)
    have hi := List.mem_range.mp hi
    simp only [Function.comp]
    rw [Nat.mul_comm m L, Nat.mul_add_mod, Nat.mod_eq_of_lt hi, Nat.mul_add_div hL, Nat.div_eq_of_lt hi, Nat.add_zero]

theorem reachable_vafter {L : Nat} (seed t : W) (k : Nat) : Reachable L (vafter k (VectorXoshiro.make L seed t)) :=
  ⟨seed, t, k, rfl⟩

theorem reachable_make {L : Nat} (seed t : W) : Reachable L (VectorXoshiro.make L seed t) := ⟨seed, t, 0, rfl⟩

theorem vafter_vafter (i j : Nat) (v : VSt) : vafter i (vafter j v) = vafter (i + j) v := by
  unfold vafter
  rw [← Function.iterate_add_apply]

/-- The elements of an array drawn after `k0` vectors. -/
theorem draw_elements (L : Nat) (hL : 0 < L) (seed t : W) (k0 m : Nat) :
    (List.range m).flatMap (fun k => (VectorXoshiro.next (vafter k (vafter k0 (VectorXoshiro.make L seed t)))).2) =
      (List.range (m * L)).map (fun j => element L (Xoshiro.ofSeed seed) t.toNat (k0 * L + j)) := by
  have h : ∀ k, (VectorXoshiro.next (vafter k (vafter k0 (VectorXoshiro.make L seed t)))).2 =
      (List.range L).map (fun i => stream (Xoshiro.ofSeed seed) (t.toNat * 2 ^ 192 + i * 2 ^ 128 + (k + k0))) := by
    intro k
    rw [vafter_vafter]
    exact (C31_lanes L seed t (k + k0)).1
  simp only [h]
  rw [flatMap_range L hL (fun i k => stream (Xoshiro.ofSeed seed) (t.toNat * 2 ^ 192 + i * 2 ^ 128 + (k + k0)))]
  refine List.map_congr_left (fun j _ => ?_)
  unfold element
  rw [Nat.mul_comm k0 L, Nat.mul_add_mod, Nat.mul_add_div hL, Nat.add_comm k0]

/-- **C31 (array elements).**  Element `j` of the array drawn from a new generator is lane `j % L` of vector
`j / L`. -/
theorem C31_draw_elements (L n : Nat) (hL : 0 < L) (hn : L ∣ n) (seed t : W) :
    VectorXoshiro.draw L n (VectorXoshiro.make L seed t) =
      .ok (vafter (n / L) (VectorXoshiro.make L seed t),
        (List.range n).map (element L (Xoshiro.ofSeed seed) t.toNat)) := by
  rw [(C31_draw L n hL _ (reachable_make seed t)).1 hn]
  have h := draw_elements L hL seed t 0 (n / L)
  rw [Nat.div_mul_cancel hn] at h
  simp only [Nat.zero_mul, Nat.zero_add] at h
  exact congrArg (fun r => Except.ok (vafter (n / L) (VectorXoshiro.make L seed t), r)) h

/-! ## Uniform -/

theorem isDouble_nat (m : Nat) (hm : m < 2 ^ 53) : IsDouble (m : ℚ) :=
  ⟨m, 0, by rw [abs_of_nonneg (by omega)]; exact_mod_cast hm, by decide, by decide, by simp⟩

theorem isDouble_scaled (m : Nat) (hm : m < 2 ^ 53) : IsDouble ((m : ℚ) * kMulConst) :=
  ⟨m, -53, by rw [abs_of_nonneg (by omega)]; exact_mod_cast hm, by decide, by decide, by
    rw [kMulConst, show ((2:ℚ) ^ (-53 : Int)) = 1 / 9007199254740992 by norm_num]; push_cast; rfl⟩

/-- **C31 (uniform, one number).**  With any rounding that leaves doubles unchanged, the number made from the output
`x` is exactly the 53 high bits of `x` divided by `2^53`; it lies in `[0, 1)`. -/
theorem C31_uniform (rnd : ℚ → ℚ) (hr : ∀ q, IsDouble q → rnd q = q) (x : W) :
    toUniform rnd x = ((x.toNat / 2 ^ 11 : Nat) : ℚ) / 2 ^ 53 ∧ 0 ≤ toUniform rnd x ∧ toUniform rnd x < 1 := by
  have hlt : x.toNat / 2 ^ 11 < 2 ^ 53 := by
    have := x.isLt
    omega
  have e : toUniform rnd x = ((x.toNat / 2 ^ 11 : Nat) : ℚ) / 2 ^ 53 := by
    unfold toUniform
    rw [BitVec.toNat_ushiftRight, Nat.shiftRight_eq_div_pow, hr _ (isDouble_nat _ hlt), hr _ (isDouble_scaled _ hlt),
      kMulConst]
    norm_num
    ring
  refine ⟨e, ?_, ?_⟩
  · rw [e]; positivity
  · rw [e, div_lt_one (by positivity)]
    exact_mod_cast hlt

/-- **C31 (uniform, vectors and arrays).**  `Uniform()`, `Uniform(n)`, `Uniform<N>()` consume the same draws as the
integer versions and return the number made from each of them; `Uniform(n)` writes beyond the array exactly
if the number of lanes does not divide `n`. -/
theorem C31_uniform_draws (rnd : ℚ → ℚ) (L n : Nat) (hL : 0 < L) (v : VSt) (hv : Reachable L v) :
    VectorXoshiro.uniform rnd v = ((VectorXoshiro.next v).1, (VectorXoshiro.next v).2.map (toUniform rnd)) ∧
    (∀ v' l, VectorXoshiro.draw L n v = .ok (v', l) →
      VectorXoshiro.drawUniform rnd L n v = .ok (v', l.map (toUniform rnd))) ∧
    (VectorXoshiro.drawUniform rnd L n v = .error .ub ↔ ¬ L ∣ n) := by
  have hf : ∀ next : List W, ((vshr 11 next).map (fun b => rnd (b.toNat : ℚ))).map (fun r => rnd (r * kMulConst)) =
      next.map (toUniform rnd) := by
    intro next
    rw [vshr, List.map_map, List.map_map]
    rfl
  have hu : VectorXoshiro.drawUniform rnd L n v =
      VectorXoshiro.fillLoop (fun next => next.map (toUniform rnd)) L n (n + 1) 0 v (List.replicate n 0) := by
    unfold VectorXoshiro.drawUniform
    simp only [hf]
  have hyes : L ∣ n → VectorXoshiro.drawUniform rnd L n v =
      .ok (vafter (n / L) v, ((List.range (n / L)).flatMap (fun k => (VectorXoshiro.next (vafter k v)).2)).map (toUniform rnd)) := by
    obtain ⟨l, rfl, hl⟩ := reachable_ofStates hv
    rintro ⟨m, rfl⟩
    have h := fillLoop_ok (fun next : List W => next.map (toUniform rnd)) L hL (fun _ => by simp) m (L * m + 1) []
      (List.replicate (L * m) 0) l hl (by rw [List.length_replicate, Nat.mul_comm])
      (by have := Nat.le_mul_of_pos_left m hL; omega)
    simp only [List.nil_append, List.length_replicate, List.length_nil] at h
    rw [hu, h, Nat.mul_div_cancel_left _ hL, List.map_flatMap]
  have hno : ¬ L ∣ n → VectorXoshiro.drawUniform rnd L n v = .error .ub := by
    obtain ⟨l, rfl, hl⟩ := reachable_ofStates hv
    intro hn
    have h1 : n / L * L < n := by
      have := Nat.div_add_mod n L
      have h2 : n % L ≠ 0 := fun h => hn (Nat.dvd_of_mod_eq_zero h)
      have h3 : n / L * L = L * (n / L) := Nat.mul_comm _ _
      omega
    have h := fillLoop_fault (fun next : List W => next.map (toUniform rnd)) L hL (fun _ => by simp) (n / L) (n + 1) []
      (List.replicate n 0) l hl (by rw [List.length_replicate]; exact h1)
      (by rw [List.length_replicate, Nat.mul_comm]; exact Nat.lt_mul_div_succ n hL)
      (by have := Nat.div_le_self n L; omega)
    simp only [List.nil_append, List.length_replicate, List.length_nil] at h
    rw [hu, h]
  refine ⟨?_, ?_, ?_⟩
  · unfold VectorXoshiro.uniform
    simp only [hf]
  · intro v' l h
    by_cases hd : L ∣ n
    · rw [(C31_draw L n hL v hv).1 hd] at h
      cases h
      exact hyes hd
    · rw [(C31_draw L n hL v hv).2 hd] at h
      cases h
  · constructor
    · intro h hd
      rw [hyes hd] at h
      cases h
    · exact hno

/-! ## CachedXoshiro -/

/-- The state after `r` refills (besides the first fill) and `idx` reads of the current cache. -/
def cachedAt (L q : Nat) (seed t : W) (r idx : Nat) : Cached :=
  ⟨vafter ((r + 1) * q) (VectorXoshiro.make L seed t),
   (List.range (q * L)).map (fun j => element L (Xoshiro.ofSeed seed) t.toNat (r * q * L + j)), idx⟩

theorem draw_at (L q : Nat) (hL : 0 < L) (seed t : W) (r : Nat) :
    VectorXoshiro.draw L (q * L) (vafter (r * q) (VectorXoshiro.make L seed t)) =
      .ok (vafter ((r + 1) * q) (VectorXoshiro.make L seed t),
        (List.range (q * L)).map (fun j => element L (Xoshiro.ofSeed seed) t.toNat (r * q * L + j))) := by
  rw [(C31_draw L (q * L) hL _ (reachable_vafter seed t (r * q))).1 (Dvd.intro_left q rfl),
    Nat.mul_div_cancel _ hL, draw_elements L hL, vafter_vafter]
  rw [show q + r * q = (r + 1) * q by ring]

theorem ok_bind {α β : Type} (a : α) (f : α → M β) : ((Except.ok a : M α) >>= f) = f a := rfl

theorem cached_next (L q : Nat) (hL : 0 < L) (hq : 0 < q) (seed t : W) (r idx : Nat) (hi : idx ≤ q * L) :
    ∃ r' idx', idx' ≤ q * L ∧ r' * q * L + idx' = r * q * L + idx + 1 ∧
      Cached.next L (q * L) (cachedAt L q seed t r idx) =
        .ok (cachedAt L q seed t r' idx', element L (Xoshiro.ofSeed seed) t.toNat (r * q * L + idx)) := by
  have hpos : 0 < q * L := Nat.mul_pos hq hL
  have hread : ∀ r idx, idx < q * L → readAt (cachedAt L q seed t r idx).cache idx =
      .ok (element L (Xoshiro.ofSeed seed) t.toNat (r * q * L + idx)) := by
    intro r idx h
    simp [readAt, cachedAt, h]
  rcases Nat.lt_or_ge idx (q * L) with h | h
  · refine ⟨r, idx + 1, by omega, by omega, ?_⟩
    have hr : Cached.refill L (q * L) (cachedAt L q seed t r idx) = .ok (cachedAt L q seed t r idx) := by
      unfold Cached.refill
      rw [if_neg (by show idx ≠ q * L; omega)]; rfl
    unfold Cached.next
    rw [hr, ok_bind]
    show (readAt (cachedAt L q seed t r idx).cache idx >>= _) = _
    rw [hread r idx h, ok_bind]
    rfl
  · have e : idx = q * L := by omega
    subst e
    refine ⟨r + 1, 1, by omega, by ring, ?_⟩
    have hr : Cached.refill L (q * L) (cachedAt L q seed t r (q * L)) = .ok (cachedAt L q seed t (r + 1) 0) := by
      unfold Cached.refill
      rw [if_pos (show (cachedAt L q seed t r (q * L)).index = q * L from rfl)]
      show (VectorXoshiro.draw L (q * L) (vafter ((r + 1) * q) (VectorXoshiro.make L seed t)) >>= _) = _
      rw [draw_at L q hL, ok_bind]
      rfl
    unfold Cached.next
    rw [hr, ok_bind]
    show (readAt (cachedAt L q seed t (r + 1) 0).cache 0 >>= _) = _
    rw [hread (r + 1) 0 hpos, ok_bind]
    have e2 : (r + 1) * q * L + 0 = r * q * L + q * L := by ring
    rw [e2]
    rfl

theorem cached_draws (L q : Nat) (hL : 0 < L) (hq : 0 < q) (seed t : W) : ∀ n r idx, idx ≤ q * L →
    ∃ c, Cached.draws L (q * L) n (cachedAt L q seed t r idx) =
      .ok (c, (List.range n).map (fun m => element L (Xoshiro.ofSeed seed) t.toNat (r * q * L + idx + m))) := by
  intro n
  induction n with
  | zero => intro r idx _; exact ⟨_, rfl⟩
  | succ n ih =>
    intro r idx h
    obtain ⟨r', idx', h1, h2, h3⟩ := cached_next L q hL hq seed t r idx h
    obtain ⟨c, hc⟩ := ih r' idx' h1
    refine ⟨c, ?_⟩
    rw [Cached.draws, h3, ok_bind]
    simp only []
    rw [hc, ok_bind, List.range_succ_eq_map, List.map_cons, List.map_map]
    have e : ∀ m, element L (Xoshiro.ofSeed seed) t.toNat (r' * q * L + idx' + m) =
        element L (Xoshiro.ofSeed seed) t.toNat (r * q * L + idx + (m + 1)) := by
      intro m; rw [h2, Nat.add_assoc _ 1 m, Nat.add_comm 1 m]
    simp only [e]
    rfl

/-- **C31 (cached generator).**  `CachedXoshiro<size>` with `size = 2^b` on a target with `2^a` lanes: if `a ≤ b`, any
number `n` of calls returns the first `n` numbers of the sequence of the vector generator, across all
refills; if the vector is longer than the cache, the constructor writes beyond the cache. -/
theorem C31_cached (a b : Nat) (seed t : W) :
    (a ≤ b → ∃ c0, Cached.make (2 ^ a) (2 ^ b) seed t = .ok c0 ∧ ∀ n, ∃ c,
      Cached.draws (2 ^ a) (2 ^ b) n c0 =
        .ok (c, (List.range n).map (element (2 ^ a) (Xoshiro.ofSeed seed) t.toNat))) ∧
    (b < a → Cached.make (2 ^ a) (2 ^ b) seed t = .error .ub) := by
  constructor
  · intro h
    obtain ⟨d, rfl⟩ : ∃ d, b = d + a := ⟨b - a, by omega⟩
    rw [Nat.pow_add]
    have hL := Nat.two_pow_pos a
    have hq := Nat.two_pow_pos d
    refine ⟨cachedAt (2 ^ a) (2 ^ d) seed t 0 0, ?_, fun n => ?_⟩
    · unfold Cached.make
      have := draw_at (2 ^ a) (2 ^ d) hL seed t 0
      rw [Nat.zero_mul] at this
      have e : vafter 0 (VectorXoshiro.make (2 ^ a) seed t) = VectorXoshiro.make (2 ^ a) seed t := rfl
      rw [e] at this
      rw [this, ok_bind]
      simp only [cachedAt, Nat.zero_mul]
      rfl
    · obtain ⟨c, hc⟩ := cached_draws (2 ^ a) (2 ^ d) hL hq seed t n 0 0 (Nat.zero_le _)
      refine ⟨c, ?_⟩
      rw [hc]
      simp only [Nat.zero_mul, Nat.zero_add]
  · intro h
    unfold Cached.make
    rw [(C31_draw (2 ^ a) (2 ^ b) (Nat.two_pow_pos a) _ (reachable_make seed t)).2 ?_]
    · rfl
    · intro hd
      have := Nat.le_of_dvd (Nat.two_pow_pos b) hd
      have := Nat.pow_lt_pow_right (by decide : 1 < 2) h
      omega

/-! ## Examples -/

/-- Reference values: the first outputs of xoshiro256++ seeded by SplitMix64 with 42. -/
example : (List.range 3).map (stream (Xoshiro.ofSeed 42)) = [0xd0764d4f4476689f#64, 0x519e4174576f3791#64, 0xfbe07cfb0c24ed8c#64] := by decide +kernel

/-- A reachable state and a length that the lanes divide. -/
example : Reachable 4 (VectorXoshiro.make 4 7 3) ∧ (4 ∣ 12) ∧ ¬ (4 ∣ 10) :=
  ⟨⟨7, 3, 0, rfl⟩, by decide, by decide⟩

/-- A run of the model: 2 lanes, 4 numbers in a cache of 2. -/
example : ((Cached.make 2 2 5 0) >>= fun c => (Cached.draws 2 2 3 c) >>= fun r => pure r.2) =
    .ok ((List.range 3).map (fun m =>
      ((VectorXoshiro.next (vafter (m / 2) (VectorXoshiro.make 2 5 0))).2)[m % 2]?.getD 0)) := by decide +kernel

/-- A rounding that leaves doubles unchanged exists. -/
example : ∃ rnd : ℚ → ℚ, ∀ q, IsDouble q → rnd q = q := ⟨id, fun _ _ => rfl⟩

/-- A non-zero state. -/
example : (⟨1, 0, 0, 0⟩ : St) ≠ ⟨0, 0, 0, 0⟩ := by decide

end Rnd
end Hwy
