import Verif.X86InterleavedSpec

/-!
# C69: interleaved loads and stores, the statements
-/

namespace Hwy.X86

/-- Where lane `i` of output `c` is found in the `K` loaded blocks of `N` lanes: block and lane. -/
def src (K N c i : Nat) : Nat × Nat := ((K * i + c) / N, (K * i + c) % N)
/-- What goes to lane `off + i` of the interleaved memory: input and lane. -/
def dst (K off i : Nat) : Nat × Nat := ((off + i) % K, (off + i) / K)

/-- Reduces the static conditions. -/
macro "istat" : tactic => `(tactic| simp only [Deinterleave3, Deinterleave4, Lookup3, Xor3, Interleave3x8, Interleave3x16, Interleave3x32,
  Interleave3x2, Interleave3x8s, Interleave3x16s, OrLookup3, Nat.reduceDiv, Nat.reduceMul, Nat.reduceEqDiff, reduceIte,
  Nat.reduceLT, Nat.reduceGT, gt_iff_lt])
/-- Proves the lanes of one result, by symbolic execution. -/
macro "block" e:term "," g:term : tactic => `(tactic|
  exact lanes_from' (env := $e) (by decide) (by decide) (by msym) $g (by decide +kernel))

theorem deint3 (t : Tgt) {w sz : Nat} (h : Shape w sz) (h2 : 2 ≤ Lanes w sz) (env : Nat → M128) :
    (∀ i, i < Lanes w sz → lane w i (Deinterleave3 t w sz (env 0) (env 1) (env 2)).1
      = lane w (src 3 (Lanes w sz) 0 i).2 (env (src 3 (Lanes w sz) 0 i).1)) ∧
    (∀ i, i < Lanes w sz → lane w i (Deinterleave3 t w sz (env 0) (env 1) (env 2)).2.1
      = lane w (src 3 (Lanes w sz) 1 i).2 (env (src 3 (Lanes w sz) 1 i).1)) ∧
    (∀ i, i < Lanes w sz → lane w i (Deinterleave3 t w sz (env 0) (env 1) (env 2)).2.2
      = lane w (src 3 (Lanes w sz) 2 i).2 (env (src 3 (Lanes w sz) 2 i).1)) := by
  shapes h <;> first
    | (exfalso; revert h2; decide)
    | (istat
       refine ⟨?_, ?_, ?_⟩
       · block env, src 3 _ 0
       · block env, src 3 _ 1
       · block env, src 3 _ 2)

theorem deint4 (t : Tgt) {w sz : Nat} (h : Shape w sz) (h2 : 2 ≤ Lanes w sz) (env : Nat → M128) :
    (∀ i, i < Lanes w sz → lane w i (Deinterleave4 t w sz (env 0) (env 1) (env 2) (env 3)).1
      = lane w (src 4 (Lanes w sz) 0 i).2 (env (src 4 (Lanes w sz) 0 i).1)) ∧
    (∀ i, i < Lanes w sz → lane w i (Deinterleave4 t w sz (env 0) (env 1) (env 2) (env 3)).2.1
      = lane w (src 4 (Lanes w sz) 1 i).2 (env (src 4 (Lanes w sz) 1 i).1)) ∧
    (∀ i, i < Lanes w sz → lane w i (Deinterleave4 t w sz (env 0) (env 1) (env 2) (env 3)).2.2.1
      = lane w (src 4 (Lanes w sz) 2 i).2 (env (src 4 (Lanes w sz) 2 i).1)) ∧
    (∀ i, i < Lanes w sz → lane w i (Deinterleave4 t w sz (env 0) (env 1) (env 2) (env 3)).2.2.2
      = lane w (src 4 (Lanes w sz) 3 i).2 (env (src 4 (Lanes w sz) 3 i).1)) := by
  shapes h <;> first
    | (exfalso; revert h2; decide)
    | (istat
       refine ⟨?_, ?_, ?_, ?_⟩
       · block env, src 4 _ 0
       · block env, src 4 _ 1
       · block env, src 4 _ 2
       · block env, src 4 _ 3)

theorem deint2 (t : Tgt) {w sz : Nat} (h : Shape w sz) (h2 : 2 ≤ Lanes w sz) (env : Nat → M128) :
    (∀ i, i < Lanes w sz → lane w i (ConcatEven t w sz (env 1) (env 0))
      = lane w (src 2 (Lanes w sz) 0 i).2 (env (src 2 (Lanes w sz) 0 i).1)) ∧
    (∀ i, i < Lanes w sz → lane w i (ConcatOdd t w sz (env 1) (env 0))
      = lane w (src 2 (Lanes w sz) 1 i).2 (env (src 2 (Lanes w sz) 1 i).1)) := by
  shapes h <;> first
    | (exfalso; revert h2; decide)
    | (refine ⟨?_, ?_⟩
       · block env, src 2 _ 0
       · block env, src 2 _ 1)

/-- The lane that a deinterleaved lane comes from, in memory. -/
theorem src_mem {w sz : Nat} (h : Shape w sz) (mem : Mem w) (K c : Nat) {i : Nat} :
    lane w (src K (Lanes w sz) c i).2 (LoadU w (Lanes w sz) mem ((src K (Lanes w sz) c i).1 * Lanes w sz)) = mem (K * i + c) := by
  have hp : 0 < Lanes w sz := (lanes_le h).1
  have hm := Nat.mod_lt (K * i + c) hp
  simp only [src]
  rw [lane_LoadU (inReg_of h hm), if_pos hm, Nat.mul_comm, Nat.div_add_mod]

theorem one_mem {w sz : Nat} (h : Shape w sz) (h1 : Lanes w sz = 1) (mem : Mem w) (K c : Nat) {i : Nat} (hi : i < Lanes w sz) :
    lane w i (LoadU w (Lanes w sz) mem c) = mem (K * i + c) := by
  have e : i = 0 := by omega
  subst e
  rw [lane_LoadU (inReg_of h hi), if_pos (by omega)]; simp

/-- **C69**: `LoadInterleaved2`: lane `i` of output `c` is element `2 * i + c`. -/
theorem C69_loadInterleaved2 (t : Tgt) {w sz : Nat} (h : Shape w sz) (mem : Mem w) {i : Nat} (hi : i < Lanes w sz) :
    lane w i (LoadInterleaved2 t w sz mem).1 = mem (2 * i) ∧ lane w i (LoadInterleaved2 t w sz mem).2 = mem (2 * i + 1) := by
  by_cases h1 : Lanes w sz = 1
  · have e : LoadInterleaved2 t w sz mem = (LoadU w (Lanes w sz) mem 0, LoadU w (Lanes w sz) mem 1) := by
      unfold LoadInterleaved2; exact if_pos h1
    rw [e]
    exact ⟨one_mem h h1 mem 2 0 hi, one_mem h h1 mem 2 1 hi⟩
  · have e : LoadInterleaved2 t w sz mem =
        (ConcatEven t w sz (LoadU w (Lanes w sz) mem (1 * Lanes w sz)) (LoadU w (Lanes w sz) mem (0 * Lanes w sz)),
         ConcatOdd t w sz (LoadU w (Lanes w sz) mem (1 * Lanes w sz)) (LoadU w (Lanes w sz) mem (0 * Lanes w sz))) := by
      unfold LoadInterleaved2; rw [Nat.one_mul, Nat.zero_mul]; exact if_neg h1
    rw [e]
    have hp : 0 < Lanes w sz := (lanes_le h).1
    obtain ⟨d0, d1⟩ := deint2 t h (by omega) (fun k => LoadU w (Lanes w sz) mem (k * Lanes w sz))
    exact ⟨(d0 i hi).trans (src_mem h mem 2 0), (d1 i hi).trans (src_mem h mem 2 1)⟩

/-- **C69**: `LoadInterleaved3`: lane `i` of output `c` is element `3 * i + c`. -/
theorem C69_loadInterleaved3 (t : Tgt) {w sz : Nat} (h : Shape w sz) (mem : Mem w) {i : Nat} (hi : i < Lanes w sz) :
    lane w i (LoadInterleaved3 t w sz mem).1 = mem (3 * i) ∧ lane w i (LoadInterleaved3 t w sz mem).2.1 = mem (3 * i + 1) ∧
    lane w i (LoadInterleaved3 t w sz mem).2.2 = mem (3 * i + 2) := by
  by_cases h1 : Lanes w sz = 1
  · have e : LoadInterleaved3 t w sz mem = (LoadU w (Lanes w sz) mem 0, LoadU w (Lanes w sz) mem 1, LoadU w (Lanes w sz) mem 2) := by
      unfold LoadInterleaved3; exact if_pos h1
    rw [e]
    exact ⟨one_mem h h1 mem 3 0 hi, one_mem h h1 mem 3 1 hi, one_mem h h1 mem 3 2 hi⟩
  · have e : LoadInterleaved3 t w sz mem =
        Deinterleave3 t w sz (LoadU w (Lanes w sz) mem (0 * Lanes w sz)) (LoadU w (Lanes w sz) mem (1 * Lanes w sz))
          (LoadU w (Lanes w sz) mem (2 * Lanes w sz)) := by
      unfold LoadInterleaved3; exact if_neg h1
    rw [e]
    have hp : 0 < Lanes w sz := (lanes_le h).1
    obtain ⟨d0, d1, d2⟩ := deint3 t h (by omega) (fun k => LoadU w (Lanes w sz) mem (k * Lanes w sz))
    exact ⟨(d0 i hi).trans (src_mem h mem 3 0), (d1 i hi).trans (src_mem h mem 3 1), (d2 i hi).trans (src_mem h mem 3 2)⟩

/-- **C69**: `LoadInterleaved4`: lane `i` of output `c` is element `4 * i + c`. -/
theorem C69_loadInterleaved4 (t : Tgt) {w sz : Nat} (h : Shape w sz) (mem : Mem w) {i : Nat} (hi : i < Lanes w sz) :
    lane w i (LoadInterleaved4 t w sz mem).1 = mem (4 * i) ∧ lane w i (LoadInterleaved4 t w sz mem).2.1 = mem (4 * i + 1) ∧
    lane w i (LoadInterleaved4 t w sz mem).2.2.1 = mem (4 * i + 2) ∧ lane w i (LoadInterleaved4 t w sz mem).2.2.2 = mem (4 * i + 3) := by
  by_cases h1 : Lanes w sz = 1
  · have e : LoadInterleaved4 t w sz mem
        = (LoadU w (Lanes w sz) mem 0, LoadU w (Lanes w sz) mem 1, LoadU w (Lanes w sz) mem 2, LoadU w (Lanes w sz) mem 3) := by
      unfold LoadInterleaved4; exact if_pos h1
    rw [e]
    exact ⟨one_mem h h1 mem 4 0 hi, one_mem h h1 mem 4 1 hi, one_mem h h1 mem 4 2 hi, one_mem h h1 mem 4 3 hi⟩
  · have e : LoadInterleaved4 t w sz mem =
        Deinterleave4 t w sz (LoadU w (Lanes w sz) mem (0 * Lanes w sz)) (LoadU w (Lanes w sz) mem (1 * Lanes w sz))
          (LoadU w (Lanes w sz) mem (2 * Lanes w sz)) (LoadU w (Lanes w sz) mem (3 * Lanes w sz)) := by
      unfold LoadInterleaved4; exact if_neg h1
    rw [e]
    have hp : 0 < Lanes w sz := (lanes_le h).1
    obtain ⟨d0, d1, d2, d3⟩ := deint4 t h (by omega) (fun k => LoadU w (Lanes w sz) mem (k * Lanes w sz))
    exact ⟨(d0 i hi).trans (src_mem h mem 4 0), (d1 i hi).trans (src_mem h mem 4 1), (d2 i hi).trans (src_mem h mem 4 2),
      (d3 i hi).trans (src_mem h mem 4 3)⟩

/-! ## Stores -/

/-- Memory holds the interleaved lanes of `K` vectors up to element `lim` and is otherwise `mem`. -/
def Upto {w : Nat} (K : Nat) (env : Nat → M128) (mem : Mem w) (lim : Nat) (M : Mem w) : Prop :=
  ∀ q, M q = if q < lim then lane w (q / K) (env (q % K)) else mem q

theorem upto_zero {w K : Nat} {env : Nat → M128} {mem : Mem w} : Upto K env mem 0 mem := by
  intro q; simp
theorem upto_store {w K : Nat} {env : Nat → M128} {mem M : Mem w} {off : Nat} (h : Upto K env mem off M) {n lim : Nat} {R : M128}
    (hl : off + n = lim) (hR : ∀ i, i < n → lane w i R = lane w (dst K off i).2 (env (dst K off i).1)) :
    Upto K env mem lim (StoreAt w n R off M) := by
  subst hl
  intro q
  unfold StoreAt
  by_cases h1 : off ≤ q ∧ q < off + n
  · have e : off + (q - off) = q := by omega
    rw [if_pos h1, if_pos h1.2, hR _ (by omega), dst]
    simp only [e]
  · rw [if_neg h1, h q]
    by_cases h2 : q < off
    · rw [if_pos h2, if_pos (by omega)]
    · rw [if_neg h2, if_neg (by omega)]

/-- Proves one store. -/
macro "st" e:term "," k:term : tactic => `(tactic|
  (refine upto_store ?_ (by decide) ?_
   rotate_left
   · block $e, dst $k _))

theorem store2 (t : Tgt) {w sz : Nat} (h : Shape w sz) (env : Nat → M128) (mem : Mem w) :
    Upto 2 env mem (2 * Lanes w sz) (StoreInterleaved2 t w sz (env 0) (env 1) mem) := by
  shapes h <;> (simp only [StoreInterleaved2]; istat; repeat (first | exact upto_zero | st env, 2))
theorem store3 (t : Tgt) {w sz : Nat} (h : Shape w sz) (env : Nat → M128) (mem : Mem w) :
    Upto 3 env mem (3 * Lanes w sz) (StoreInterleaved3 t w sz (env 0) (env 1) (env 2) mem) := by
  shapes h <;> (simp only [StoreInterleaved3]; istat; repeat (first | exact upto_zero | st env, 3))
theorem store4 (t : Tgt) {w sz : Nat} (h : Shape w sz) (env : Nat → M128) (mem : Mem w) :
    Upto 4 env mem (4 * Lanes w sz) (StoreInterleaved4 t w sz (env 0) (env 1) (env 2) (env 3) mem) := by
  shapes h <;> (simp only [StoreInterleaved4]; istat; repeat (first | exact upto_zero | st env, 4))

/-- **C69**: `StoreInterleaved2` writes lane `i` of input `c` to element `2 * i + c`, and nothing else. -/
theorem C69_storeInterleaved2 (t : Tgt) {w sz : Nat} (h : Shape w sz) (v0 v1 : M128) (mem : Mem w) (q : Nat) :
    StoreInterleaved2 t w sz v0 v1 mem q =
      if q < 2 * Lanes w sz then lane w (q / 2) (if q % 2 = 0 then v0 else v1) else mem q := by
  refine (store2 t h (fun k => if k = 0 then v0 else v1) mem q).trans rfl
/-- **C69**: `StoreInterleaved3` writes lane `i` of input `c` to element `3 * i + c`, and nothing else. -/
theorem C69_storeInterleaved3 (t : Tgt) {w sz : Nat} (h : Shape w sz) (v0 v1 v2 : M128) (mem : Mem w) (q : Nat) :
    StoreInterleaved3 t w sz v0 v1 v2 mem q =
      if q < 3 * Lanes w sz then lane w (q / 3) (if q % 3 = 0 then v0 else if q % 3 = 1 then v1 else v2) else mem q := by
  refine (store3 t h (fun k => if k = 0 then v0 else if k = 1 then v1 else v2) mem q).trans rfl
/-- **C69**: `StoreInterleaved4` writes lane `i` of input `c` to element `4 * i + c`, and nothing else. -/
theorem C69_storeInterleaved4 (t : Tgt) {w sz : Nat} (h : Shape w sz) (v0 v1 v2 v3 : M128) (mem : Mem w) (q : Nat) :
    StoreInterleaved4 t w sz v0 v1 v2 v3 mem q =
      if q < 4 * Lanes w sz then
        lane w (q / 4) (if q % 4 = 0 then v0 else if q % 4 = 1 then v1 else if q % 4 = 2 then v2 else v3)
      else mem q := by
  refine (store4 t h (fun k => if k = 0 then v0 else if k = 1 then v1 else if k = 2 then v2 else v3) mem q).trans rfl

/-- **C69**: loading what was stored gives the vectors back, on the same or another target. -/
theorem C69_roundTrip2 (t t' : Tgt) {w sz : Nat} (h : Shape w sz) (v0 v1 : M128) (mem : Mem w) {i : Nat} (hi : i < Lanes w sz) :
    lane w i (LoadInterleaved2 t' w sz (StoreInterleaved2 t w sz v0 v1 mem)).1 = lane w i v0 ∧
    lane w i (LoadInterleaved2 t' w sz (StoreInterleaved2 t w sz v0 v1 mem)).2 = lane w i v1 := by
  obtain ⟨a, b⟩ := C69_loadInterleaved2 t' h (StoreInterleaved2 t w sz v0 v1 mem) hi
  rw [a, b, C69_storeInterleaved2 t h, C69_storeInterleaved2 t h, if_pos (by omega), if_pos (by omega), if_pos (by omega),
    if_neg (by omega)]
  exact ⟨by congr 1; omega, by congr 1; omega⟩
theorem C69_roundTrip3 (t t' : Tgt) {w sz : Nat} (h : Shape w sz) (v0 v1 v2 : M128) (mem : Mem w) {i : Nat} (hi : i < Lanes w sz) :
    lane w i (LoadInterleaved3 t' w sz (StoreInterleaved3 t w sz v0 v1 v2 mem)).1 = lane w i v0 ∧
    lane w i (LoadInterleaved3 t' w sz (StoreInterleaved3 t w sz v0 v1 v2 mem)).2.1 = lane w i v1 ∧
    lane w i (LoadInterleaved3 t' w sz (StoreInterleaved3 t w sz v0 v1 v2 mem)).2.2 = lane w i v2 := by
  obtain ⟨a, b, c⟩ := C69_loadInterleaved3 t' h (StoreInterleaved3 t w sz v0 v1 v2 mem) hi
  have e0 : 3 * i / 3 = i := by omega
  have e1 : (3 * i + 1) / 3 = i := by omega
  have e2 : (3 * i + 2) / 3 = i := by omega
  have f0 : 3 * i % 3 = 0 := by omega
  have f1 : (3 * i + 1) % 3 = 1 := by omega
  have f2 : (3 * i + 2) % 3 = 2 := by omega
  refine ⟨a.trans ?_, b.trans ?_, c.trans ?_⟩
  · rw [C69_storeInterleaved3 t h, if_pos (by omega), e0, f0]; rfl
  · rw [C69_storeInterleaved3 t h, if_pos (by omega), e1, f1]; rfl
  · rw [C69_storeInterleaved3 t h, if_pos (by omega), e2, f2]; rfl
theorem C69_roundTrip4 (t t' : Tgt) {w sz : Nat} (h : Shape w sz) (v0 v1 v2 v3 : M128) (mem : Mem w) {i : Nat} (hi : i < Lanes w sz) :
    lane w i (LoadInterleaved4 t' w sz (StoreInterleaved4 t w sz v0 v1 v2 v3 mem)).1 = lane w i v0 ∧
    lane w i (LoadInterleaved4 t' w sz (StoreInterleaved4 t w sz v0 v1 v2 v3 mem)).2.1 = lane w i v1 ∧
    lane w i (LoadInterleaved4 t' w sz (StoreInterleaved4 t w sz v0 v1 v2 v3 mem)).2.2.1 = lane w i v2 ∧
    lane w i (LoadInterleaved4 t' w sz (StoreInterleaved4 t w sz v0 v1 v2 v3 mem)).2.2.2 = lane w i v3 := by
  obtain ⟨a, b, c, d⟩ := C69_loadInterleaved4 t' h (StoreInterleaved4 t w sz v0 v1 v2 v3 mem) hi
  have e0 : 4 * i / 4 = i := by omega
  have e1 : (4 * i + 1) / 4 = i := by omega
  have e2 : (4 * i + 2) / 4 = i := by omega
  have e3 : (4 * i + 3) / 4 = i := by omega
  have f0 : 4 * i % 4 = 0 := by omega
  have f1 : (4 * i + 1) % 4 = 1 := by omega
  have f2 : (4 * i + 2) % 4 = 2 := by omega
  have f3 : (4 * i + 3) % 4 = 3 := by omega
  refine ⟨a.trans ?_, b.trans ?_, c.trans ?_, d.trans ?_⟩
  · rw [C69_storeInterleaved4 t h, if_pos (by omega), e0, f0]; rfl
  · rw [C69_storeInterleaved4 t h, if_pos (by omega), e1, f1]; rfl
  · rw [C69_storeInterleaved4 t h, if_pos (by omega), e2, f2]; rfl
  · rw [C69_storeInterleaved4 t h, if_pos (by omega), e3, f3]; rfl

end Hwy.X86
