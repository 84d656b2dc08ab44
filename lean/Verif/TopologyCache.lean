import Verif.TopologyTotal
import Mathlib.Data.Nat.GCD.Basic

/-!
# C45: data caches
-/

namespace Hwy
namespace Topo

/-! ### Number of sets -/

/-- Rounding: with `n` cores sharing a cache of `s` KiB, the sets computed from the rounded size are at most the rounded number
of sets, and less by at most one, if the bytes per set are at least 1024 (less their common factor). -/
theorem sets_round (s n W S : Nat) (hn : 0 < n) (hW : 0 < W) (h : s * 1024 = W * S) :
    s / n * 1024 / W ≤ S / n ∧ (1024 ≤ W + Nat.gcd 1024 W → S / n ≤ s / n * 1024 / W + 1) := by
  have e1 : n * (s / n) + s % n = s := Nat.div_add_mod s n
  have e2 : W * (s / n * 1024 / W) + s / n * 1024 % W = s / n * 1024 := Nat.div_add_mod _ W
  have hr : s % n < n := Nat.mod_lt _ hn
  constructor
  · rw [Nat.le_div_iff_mul_le hn]
    have h1 : W * (s / n * 1024 / W * n) ≤ W * S := by
      calc W * (s / n * 1024 / W * n) = (W * (s / n * 1024 / W)) * n := by ring
        _ ≤ (s / n * 1024) * n := Nat.mul_le_mul_right n (by omega)
        _ = (n * (s / n)) * 1024 := by ring
        _ ≤ s * 1024 := Nat.mul_le_mul_right _ (by omega)
        _ = W * S := h
    exact Nat.le_of_mul_le_mul_left h1 hW
  · intro hg
    by_contra hc
    have hc : s / n * 1024 / W + 2 ≤ S / n := by omega
    rw [Nat.le_div_iff_mul_le hn] at hc
    generalize hcc : s / n * 1024 / W = c at *
    generalize hq : s / n = q at *
    generalize hrr : s % n = r at *
    -- the remainder is a multiple of the common factor
    have hgW : Nat.gcd 1024 W ∣ W := Nat.gcd_dvd_right _ _
    have hg1 : Nat.gcd 1024 W ∣ q * 1024 % W :=
      (Nat.dvd_mod_iff hgW).mpr (Dvd.dvd.mul_left (Nat.gcd_dvd_left _ _) q)
    have hlt : q * 1024 % W < W := Nat.mod_lt _ hW
    have hrem : q * 1024 % W + Nat.gcd 1024 W ≤ W := by
      obtain ⟨a, ha⟩ := hg1
      obtain ⟨b, hb⟩ := hgW
      rw [ha] at hlt ⊢
      generalize Nat.gcd 1024 W = g at *
      rw [hb] at hlt ⊢
      have : a < b := Nat.lt_of_mul_lt_mul_left hlt
      calc g * a + g = g * (a + 1) := by ring
        _ ≤ g * b := Nat.mul_le_mul_left g this
    have h2 : W * ((c + 2) * n) ≤ W * S := Nat.mul_le_mul_left W hc
    rw [← h, ← e1] at h2
    have h3 : n * (q * 1024) = n * (W * c + q * 1024 % W) := by rw [e2]
    generalize q * 1024 % W = m at *
    generalize Nat.gcd 1024 W = g at *
    have h4 : n * m + n * g ≤ n * W := by rw [← Nat.mul_add]; exact Nat.mul_le_mul_left n hrem
    have h5 : n * 1024 ≤ n * W + n * g := by rw [← Nat.mul_add]; exact Nat.mul_le_mul_left n hg
    nlinarith

/-- C45: a cache with the given parameters is described consistently: from `size_kib * 1024 = bytes_per_line * ways * sets`,
shared by `n` cores, the per-core values are rounded down, the line size is exact, and the check of `ComputeSets` passes and
keeps the number of sets. -/
theorem C45_sets (s line ways S n : Nat) (hline : 0 < line) (hl16 : line < 2 ^ 16) (hways : 0 < ways) (hS : 0 < S)
    (h32 : ways * S < 2 ^ 32) (h : s * 1024 = line * ways * S) (hn : 0 < n) (hn16 : n < 2 ^ 16) (hsn : n ≤ s)
    (hSn : n ≤ S) (hg : 1024 ≤ line * ways + Nat.gcd 1024 (line * ways)) :
    (initCache s ways S n >>= computeSets) = .ok ⟨s / n, S / n, line, ways, n⟩ := by
  have hd : divByFactor (s * 1024) (ways * S) = .ok line := by
    unfold divByFactor
    have hpos : 0 < ways * S := Nat.mul_pos hways hS
    have hdiv : s * 1024 / (ways * S) = line := by
      rw [h, Nat.mul_assoc]
      exact Nat.mul_div_cancel _ hpos
    rw [if_neg (by omega)]
    simp only [hdiv]
    rw [if_neg (by rw [h]; simp [Nat.mul_assoc])]
  unfold initCache
  simp only [Nat.mod_eq_of_lt h32]
  rw [hd, ok_bind', if_neg (by omega), Nat.mod_eq_of_lt hl16, Nat.mod_eq_of_lt hn16]
  show computeSets ⟨s / n, S / n, line, ways, n⟩ = _
  unfold computeSets
  have hW : 0 < line * ways := Nat.mul_pos hline hways
  have q0 : 0 < s / n := Nat.div_pos hsn hn
  have S0 : 0 < S / n := Nat.div_pos hSn hn
  obtain ⟨r1, r2⟩ := sets_round s n (line * ways) S hn hW h
  have r2 := r2 hg
  simp only
  rw [if_neg (by omega), if_neg (by omega), if_neg (by omega), Nat.div_div_eq_div_mul, if_neg (by omega)]

/-- Per-core sets never exceed the capacity of the cache. -/
theorem C45_capacity (s line ways S n : Nat) (h : s * 1024 = line * ways * S) :
    n * (S / n) * (line * ways) ≤ s * 1024 := by
  rw [h, Nat.mul_comm (line * ways)]
  exact Nat.mul_le_mul_right _ (Nat.mul_div_le S n)

/-- Finding: without the condition on the bytes per set the program aborts: 64-byte lines, four ways, 4 cores, 1027 KiB. -/
theorem C45_finding_abort : (1027 : Nat) * 1024 = 64 * 4 * 4108 ∧
    (initCache 1027 4 4108 4 >>= computeSets) = .error .abort := ⟨by decide, by decide⟩

/-- Finding: so does a ten-way cache of 1035 KiB. -/
theorem C45_finding_abort_10way : (1035 : Nat) * 1024 = 64 * 10 * 1656 ∧
    (initCache 1035 10 1656 4 >>= computeSets) = .error .abort := ⟨by decide, by decide⟩

/-- Finding: lines of 64 KiB (one line per cache) are stored as zero and lead to a division by zero. -/
theorem C45_finding_div0 : (initCache 64 1 1 1 >>= computeSets) = .error .ub := by decide

/-- Non-vacuity: 32 MiB, 16 ways, shared by 6 cores. -/
theorem C45_sets_nonvacuous : (32768 : Nat) * 1024 = 64 * 16 * 32768 ∧ 1024 ≤ 64 * 16 + Nat.gcd 1024 (64 * 16) ∧
    (initCache 32768 16 32768 6 >>= computeSets) = .ok ⟨5461, 5461, 64, 16, 6⟩ := ⟨by decide, by decide, by decide⟩

/-! ### Total number of processors -/

/-- C45: between 1 and 1024 processors, and exactly what the system reports if in this range. -/
theorem C45_total (ret : Int) : 1 ≤ totalLogicalProcessors ret ∧ totalLogicalProcessors ret ≤ 1024 ∧
    (1 ≤ ret → ret ≤ 1024 → (totalLogicalProcessors ret : Int) = ret) := by
  unfold totalLogicalProcessors kMaxLogicalProcessors
  simp only
  generalize ht : (if ret < 0 then 0 else ret.toNat) = t
  refine ⟨?_, ?_, ?_⟩
  · split
    · omega
    · split <;> omega
  · split
    · omega
    · split <;> omega
  · intro h1 h2
    rw [if_neg (by omega)] at ht
    rw [if_neg (by omega), if_neg (by omega)]
    omega

/-! ### All caches: specification -/

/-- A cache as Linux describes it. -/
structure CacheDesc where
  type : List Char
  level : Numeral
  size : Numeral
  ways : Numeral
  sets : Numeral
  shared : List Term

/-- The contents of its files. -/
def CacheDesc.files (d : CacheDesc) : CacheFiles where
  type := some (d.type ++ ['\n'])
  level := some (numFile d.level)
  size := some (sizeFile (d.size, ['K']))
  ways := some (numFile d.ways)
  sets := some (numFile d.sets)
  shared := some (renderList d.shared ++ ['\n'])

/-- Data caches are those of type "Data" or "Unified". -/
def CacheDesc.IsData (d : CacheDesc) : Prop := d.type = "Data".toList ∨ d.type = "Unified".toList

instance (d : CacheDesc) : Decidable d.IsData := inferInstanceAs (Decidable (_ ∨ _))

/-- Is this the first processor of its core? -/
def Machine.First (m : Machine) (i : Nat) : Prop :=
  ∀ j < i, ¬ ((m.pkg j).value = (m.pkg i).value ∧ (m.core j).value = (m.core i).value)

instance (m : Machine) (i : Nat) : Decidable (m.First i) := inferInstanceAs (Decidable (∀ j < i, _))

/-- Number of cores sharing a cache. -/
def CacheDesc.cores (m : Machine) (d : CacheDesc) : Nat :=
  ((d.shared.map Term.cpus).flatten.filter (fun i => decide (m.First i))).length

/-- Well-formed and within the limits of the implementation. `line` is the line size. -/
structure CacheDesc.Ok (m : Machine) (d : CacheDesc) (line : Nat) : Prop where
  level : Digits9 d.level
  size : Digits9 d.size
  ways : Digits9 d.ways
  sets : Digits9 d.sets
  shared : d.shared ≠ [] ∧ (∀ t ∈ d.shared, t.Ok (m.total - 1)) ∧ (renderList d.shared).length ≤ 198
  linePos : 0 < line
  line16 : line < 2 ^ 16
  waysPos : 0 < d.ways.value
  ways16 : d.ways.value < 2 ^ 16
  setsPos : 0 < d.sets.value
  lines : d.ways.value * d.sets.value < 2 ^ 32
  exact : d.size.value * 1024 = line * d.ways.value * d.sets.value
  round : 1024 ≤ line * d.ways.value + Nat.gcd 1024 (line * d.ways.value)
  coresPos : 0 < d.cores m
  cores16 : d.cores m < 2 ^ 16
  coresSize : d.cores m ≤ d.size.value
  coresSets : d.cores m ≤ d.sets.value

/-- The per-core cache. -/
def CacheDesc.perCore (m : Machine) (d : CacheDesc) (line : Nat) : Cache :=
  ⟨d.size.value / d.cores m, d.sets.value / d.cores m, line, d.ways.value, d.cores m⟩

/-- The first data cache of a level. -/
def firstOf (ds : List (CacheDesc × Nat)) (level : Nat) : Option (CacheDesc × Nat) :=
  ds.find? (fun d => decide (d.1.IsData ∧ d.1.level.value = level))

/-! ### Proofs -/

theorem readString_body (body : List Char) (h : body.length ≤ 198) (hb : ∀ c ∈ body, c ≠ '\x00' ∧ c ≠ '\n') :
    readString (some (body ++ ['\n'])) = .ok body := by
  unfold readString
  simp only
  rw [C44_read [] _ (by simp; omega)]
  simp only [bind, Except.bind, pure, Except.pure]
  congr 1
  rw [List.append_assoc, List.reverse_append]
  show ((['\x00', '\n'] ++ body.reverse).dropWhile _).reverse = body
  have e : ∀ (p : Char → Bool), p '\x00' = true → p '\n' = true → (∀ c ∈ body.reverse, p c = false) →
      (['\x00', '\n'] ++ body.reverse).dropWhile p = body.reverse := by
    intro p p1 p2 p3
    simp only [List.cons_append, List.nil_append, List.dropWhile_cons, p1, p2, if_true]
    cases hr : body.reverse with
    | nil => rfl
    | cons x r =>
      rw [List.dropWhile_cons, p3 x (by rw [hr]; simp)]
      rfl
  rw [e _ (by simp) (by simp), List.reverse_reverse]
  intro c hc
  have := hb c (List.mem_reverse.mp hc)
  simp [this.1, this.2]

theorem writeSysfs_num (bits : Nat) (n : Numeral) (hd : Digits9 n) (suffix : List Char) (hs : suffix = [] ∨ suffix = ['K']) :
    writeSysfs bits (some (n.render ++ suffix ++ ['\n'])) = .ok (some (n.value % 2 ^ bits)) := by
  have hl : n.render.length = n.length := by simp [Numeral.render]
  have h9 := hd.2
  unfold writeSysfs
  rw [readString_body (n.render ++ suffix) (by rcases hs with rfl | rfl <;> simp [hl] <;> omega) (by
    intro c hc
    rw [List.mem_append] at hc
    rcases hc with hc | hc
    · exact ⟨(render_ne0 n c hc).2.2.1, (render_ne0 n c hc).2.2.2⟩
    · rcases hs with rfl | rfl
      · simp at hc
      · simp at hc
        subst hc
        decide), ok_bind']
  have hst : Stops (suffix ++ ['\x00']) := by
    rcases hs with rfl | rfl
    · exact stops_cons _ _ (by decide)
    · exact stops_cons _ _ (by decide)
  have e := parseDigits_spec [] (suffix ++ ['\x00']) n (n.render ++ suffix).length hst hd.2 (by have := hd.1; simpa using this)
    (by simp [hl])
  simp only [List.nil_append, List.length_nil, Nat.zero_add] at e
  rw [List.append_assoc, e, ok_bind']
  simp only [Bool.not_true, Bool.false_eq_true, if_false]
  rw [if_neg (by simp [hl])]
  rfl

theorem Digits9.value_lt {n : Numeral} (h : Digits9 n) : n.value < 2 ^ 32 := by
  have key : ∀ (ds : Numeral) (a : Nat), ds.foldl (fun (n : Nat) (d : Fin 10) => n * 10 + d.val) a < (a + 1) * 10 ^ ds.length := by
    intro ds
    induction ds with
    | nil => intro a; simp
    | cons d ds ih =>
      intro a
      rw [List.foldl_cons]
      refine Nat.lt_of_lt_of_le (ih _) ?_
      rw [List.length_cons, Nat.pow_succ, Nat.mul_comm (10 ^ _) 10, ← Nat.mul_assoc]
      exact Nat.mul_le_mul_right _ (by have := d.isLt; omega)
  have h1 := key n 0
  have h2 : (0 + 1) * 10 ^ n.length ≤ 10 ^ 9 := by
    rw [Nat.zero_add, Nat.one_mul]
    exact Nat.pow_le_pow_right (by omega) h.2
  have : n.value = _ := rfl
  unfold Numeral.value
  omega

theorem cacheParams_ok {m : Machine} {d : CacheDesc} {line : Nat} (h : d.Ok m line) :
    cacheParams d.files = .ok (some (d.size.value, d.ways.value, d.sets.value)) := by
  unfold cacheParams CacheDesc.files
  have e1 : writeSysfs 32 (some (sizeFile (d.size, ['K']))) = .ok (some d.size.value) := by
    have := writeSysfs_num 32 d.size h.size ['K'] (Or.inr rfl)
    rw [Nat.mod_eq_of_lt h.size.value_lt, List.append_assoc] at this
    exact this
  have e2 : writeSysfs 16 (some (numFile d.ways)) = .ok (some d.ways.value) := by
    have := writeSysfs_num 16 d.ways h.ways [] (Or.inl rfl)
    rw [Nat.mod_eq_of_lt h.ways16, List.append_nil] at this
    exact this
  have e3 : writeSysfs 32 (some (numFile d.sets)) = .ok (some d.sets.value) := by
    have := writeSysfs_num 32 d.sets h.sets [] (Or.inl rfl)
    rw [Nat.mod_eq_of_lt h.sets.value_lt, List.append_nil] at this
    exact this
  simp only
  rw [e1, ok_bind']
  simp only
  rw [e2, ok_bind']
  simp only
  rw [e3, ok_bind']
  rfl

theorem renderList_ne (ts : List Term) : ∀ c ∈ renderList ts, c ≠ '\x00' ∧ c ≠ '\n' := by
  have ht : ∀ (t : Term), ∀ c ∈ t.render, c ≠ '\x00' ∧ c ≠ '\n' := by
    intro t c hc
    cases t with
    | one n => exact (Topo.render_ne0 n c hc).2.2
    | range a b =>
      simp only [Term.render, List.mem_append, List.mem_cons] at hc
      rcases hc with hc | rfl | hc
      · exact (Topo.render_ne0 a c hc).2.2
      · decide
      · exact (Topo.render_ne0 b c hc).2.2
  induction ts with
  | nil => intro c hc; simp [renderList] at hc
  | cons t ts ih =>
    cases ts with
    | nil => exact ht t
    | cons t' ts =>
      intro c hc
      simp only [renderList_cons2, List.mem_append, List.mem_cons] at hc
      rcases hc with hc | rfl | hc
      · exact ht t c hc
      · decide
      · exact ih c hc

/-- The first processor of each core has number 0. -/
theorem smt_zero_iff {T : Topology} {total : Nat} {pid cid : Nat → Nat} {kid : Nat → Option Nat}
    (h : Consistent T total pid cid kid) {i : Nat} (hi : i < total) :
    (lpAt T.lps i).smt = 0 ↔ ∀ j < i, ¬ (pid j = pid i ∧ cid j = cid i) := by
  obtain ⟨P, C, hP, hC, hs⟩ := h.smt i hi
  obtain ⟨_, hsort, hmem⟩ := h.coreSet _ P _ C hP hC
  obtain ⟨hlt, hget⟩ := List.getElem?_eq_some_iff.mp hs
  have hin : ∀ j, j < total → (j ∈ C.lps ↔ pid j = pid i ∧ cid j = cid i) := by
    intro j hj
    rw [hmem j]
    constructor
    · rintro ⟨_, h1, h2⟩
      have := (h.package j i hj hi).mp h1
      exact ⟨this, (h.core j i hj hi this).mp h2⟩
    · rintro ⟨h1, h2⟩
      exact ⟨hj, (h.package j i hj hi).mpr h1, (h.core j i hj hi h1).mpr h2⟩
  constructor
  · intro h0 j hj hc
    have hjm := (hin j (by omega)).mpr hc
    obtain ⟨k, hk, e⟩ := List.getElem_of_mem hjm
    rcases Nat.eq_zero_or_pos k with rfl | hpos
    · have : C.lps[0] = i := by
        have := hget
        simp only [h0] at this
        exact this
      omega
    · have := List.pairwise_iff_getElem.mp hsort ((lpAt T.lps i).smt) k hlt hk (by omega)
      omega
  · intro hno
    by_contra h0
    have h00 : 0 < C.lps.length := by omega
    have := List.pairwise_iff_getElem.mp hsort 0 ((lpAt T.lps i).smt) h00 hlt (by omega)
    rw [hget] at this
    exact hno C.lps[0] this ((hin _ (by omega)).mp (List.getElem_mem h00))

theorem sharedCores_ok (riscv : Bool) {m : Machine} {d : CacheDesc} {line : Nat} (h : d.Ok m line) (lps : List LP)
    (hlen : lps.length = m.total) (hpos : 0 < m.total) (hsmt : ∀ i, i < m.total → ((lpAt lps i).smt = 0 ↔ m.First i)) :
    sharedCores riscv lps d.files = .ok (d.cores m) := by
  obtain ⟨s1, s2, s3⟩ := h.shared
  have hbody := readString_body (renderList d.shared) s3 (renderList_ne d.shared)
  unfold sharedCores CacheDesc.files
  simp only
  rw [hbody, ok_bind', if_neg (by
    intro e
    have := Term.render_pos
    match hd : d.shared, s1 with
    | [t], _ =>
      rw [hd] at e
      have := t.render_pos _ (s2 t (by rw [hd]; simp))
      simp only [renderList] at e
      rw [e] at this
      simp at this
    | t :: t' :: ts, _ =>
      rw [hd, renderList_cons2] at e
      simp at e)]
  rw [C37_expand riscv d.shared s1 (lps.length - 1) (by rw [hlen]; exact s2) ['\x00'] ⟨[], Or.inl rfl⟩ _ (by omega) (by simp),
    ok_bind']
  have hcount : ((d.shared.map Term.cpus).flatten.filter
      (fun lp => decide (lp < lps.length ∧ (lps.getD lp {}).smt = 0))).length = d.cores m := by
    unfold CacheDesc.cores
    congr 1
    apply List.filter_congr
    intro x hx
    have hlt : x < m.total := by
      rw [List.mem_flatten] at hx
      obtain ⟨l, hl, hx⟩ := hx
      rw [List.mem_map] at hl
      obtain ⟨t, ht, rfl⟩ := hl
      have := s2 t ht
      cases t with
      | one n =>
        simp [Term.cpus] at hx
        have := this.2.2
        omega
      | range a b =>
        simp only [Term.cpus, List.mem_map, List.mem_range] at hx
        obtain ⟨k, hk, rfl⟩ := hx
        have := this.2.1.2.2
        omega
    have := hsmt x hlt
    unfold lpAt at this
    simp only [hlen, hlt, true_and, this]
  simp only [hcount]
  rw [if_neg (by have := h.coresPos; omega)]
  rfl

theorem initCache_ok {m : Machine} {d : CacheDesc} {line : Nat} (h : d.Ok m line) :
    initCache d.size.value d.ways.value d.sets.value (d.cores m) = .ok (d.perCore m line) ∧
    computeSets (d.perCore m line) = .ok (d.perCore m line) := by
  have hs := C45_sets d.size.value line d.ways.value d.sets.value (d.cores m) h.linePos h.line16 h.waysPos h.setsPos h.lines
    h.exact h.coresPos h.cores16 h.coresSize h.coresSets h.round
  have hi : initCache d.size.value d.ways.value d.sets.value (d.cores m) = .ok (d.perCore m line) := by
    unfold initCache divByFactor
    have hpos : 0 < d.ways.value * d.sets.value := Nat.mul_pos h.waysPos h.setsPos
    have hdiv : d.size.value * 1024 / (d.ways.value * d.sets.value) = line := by
      rw [h.exact, Nat.mul_assoc]
      exact Nat.mul_div_cancel _ hpos
    simp only [Nat.mod_eq_of_lt h.lines, hdiv]
    rw [if_neg (by omega), if_neg (by rw [h.exact]; simp [Nat.mul_assoc]), ok_bind', if_neg (by have := h.coresPos; omega),
      Nat.mod_eq_of_lt h.line16, Nat.mod_eq_of_lt h.cores16]
    rfl
  refine ⟨hi, ?_⟩
  rw [hi, ok_bind'] at hs
  exact hs

/-- All entries have a type; data caches are well-formed and of level 1 to 3. -/
def DescOk (m : Machine) (d : CacheDesc × Nat) : Prop :=
  d.1.type ≠ [] ∧ d.1.type.length ≤ 198 ∧ (∀ c ∈ d.1.type, c ≠ '\x00' ∧ c ≠ '\n') ∧
  (d.1.IsData → d.1.Ok m d.2)

/-- The caches after the loop, where `caches` were found before. -/
def expected (m : Machine) (ds : List (CacheDesc × Nat)) (caches : List Cache) (level : Nat) : Cache :=
  if (caches.getD level {}).sizeKib ≠ 0 then caches.getD level {}
  else match firstOf ds level with
    | none => caches.getD level {}
    | some d => d.1.perCore m d.2

theorem perCore_pos {m : Machine} {d : CacheDesc} {line : Nat} (h : d.Ok m line) : (d.perCore m line).sizeKib ≠ 0 := by
  have := Nat.div_pos h.coresSize h.coresPos
  show d.size.value / d.cores m ≠ 0
  omega

theorem cacheLoop_ok (riscv : Bool) {m : Machine} (lps : List LP) (hlen : lps.length = m.total) (hpos : 0 < m.total)
    (hsmt : ∀ i, i < m.total → ((lpAt lps i).smt = 0 ↔ m.First i)) :
    ∀ (ds : List (CacheDesc × Nat)) (caches : List Cache), (∀ d ∈ ds, DescOk m d) → caches.length = 4 →
    ∃ caches', cacheLoop riscv lps (ds.map (fun d : CacheDesc × Nat => d.1.files)) caches = .ok caches' ∧ caches'.length = 4 ∧
      ∀ level, 1 ≤ level → level ≤ 3 → caches'.getD level {} = expected m ds caches level
  | [], caches, _, h4 => by
    refine ⟨caches, rfl, h4, ?_⟩
    intro level _ _
    unfold expected firstOf
    simp
  | d :: ds, caches, hok, h4 => by
    obtain ⟨t1, t2, t3, t4⟩ := hok d (by simp)
    have hrest := fun x hx => hok x (List.mem_cons_of_mem d hx)
    rw [List.map_cons, cacheLoop]
    have ht : readString d.1.files.type = .ok d.1.type := readString_body d.1.type t2 t3
    rw [ht, ok_bind', if_neg t1]
    -- skipped entries
    have skip : cacheEntry riscv lps caches d.1.type d.1.files = .ok caches →
        (∀ level, 1 ≤ level → level ≤ 3 → (caches.getD level {}).sizeKib = 0 → ¬ (d.1.IsData ∧ d.1.level.value = level)) →
        ∃ caches', (do
          let caches ← cacheEntry riscv lps caches d.1.type d.1.files
          cacheLoop riscv lps (ds.map (fun d : CacheDesc × Nat => d.1.files)) caches) = .ok caches' ∧ caches'.length = 4 ∧
          ∀ level, 1 ≤ level → level ≤ 3 → caches'.getD level {} = expected m (d :: ds) caches level := by
      intro e hno
      obtain ⟨caches', r1, r2, r3⟩ := cacheLoop_ok riscv lps hlen hpos hsmt ds caches hrest h4
      refine ⟨caches', by rw [e, ok_bind']; exact r1, r2, ?_⟩
      intro level l1 l3
      rw [r3 level l1 l3]
      unfold expected firstOf
      by_cases h0 : (caches.getD level {}).sizeKib ≠ 0
      · rw [if_pos h0, if_pos h0]
      · rw [if_neg h0, if_neg h0, List.find?_cons]
        have := hno level l1 l3 (by omega)
        simp only [this, decide_false]
    by_cases hdata : d.1.IsData
    · have hd := t4 hdata
      have hlv : writeSysfs 32 d.1.files.level = .ok (some d.1.level.value) := by
        have := writeSysfs_num 32 d.1.level hd.level [] (Or.inl rfl)
        rw [Nat.mod_eq_of_lt hd.level.value_lt, List.append_nil] at this
        exact this
      have hty : ¬ (d.1.type ≠ "Data".toList ∧ d.1.type ≠ "Unified".toList) := by
        intro hc
        rcases hdata with h | h
        · exact hc.1 h
        · exact hc.2 h
      by_cases hl : d.1.level.value ≠ 1 ∧ d.1.level.value ≠ 2 ∧ d.1.level.value ≠ 3
      · apply skip
        · unfold cacheEntry
          rw [if_neg hty, hlv, ok_bind']
          simp only
          rw [if_pos hl]
          rfl
        · intro level l1 l3 _ hc
          omega
      · have hlt : d.1.level.value < caches.length := by omega
        have hget : caches.getD d.1.level.value {} = caches[d.1.level.value] := by
          simp [List.getD, List.getElem?_eq_getElem hlt]
        by_cases h0 : caches[d.1.level.value].sizeKib ≠ 0
        · apply skip
          · unfold cacheEntry
            rw [if_neg hty, hlv, ok_bind']
            simp only
            rw [if_neg hl, readAt_of_lt hlt, ok_bind', if_pos h0]
            rfl
          · intro level l1 l3 hz hc
            rw [← hc.2, hget] at hz
            exact h0 hz
        · have e : cacheEntry riscv lps caches d.1.type d.1.files =
              .ok (caches.set d.1.level.value (d.1.perCore m d.2)) := by
            unfold cacheEntry
            rw [if_neg hty, hlv, ok_bind']
            simp only
            rw [if_neg hl, readAt_of_lt hlt, ok_bind', if_neg h0, cacheParams_ok hd, ok_bind']
            simp only
            rw [sharedCores_ok riscv hd lps hlen hpos hsmt, ok_bind', (initCache_ok hd).1, ok_bind', writeAt_of_lt _ hlt]
          obtain ⟨caches', r1, r2, r3⟩ := cacheLoop_ok riscv lps hlen hpos hsmt ds
            (caches.set d.1.level.value (d.1.perCore m d.2)) hrest (by simp [h4])
          refine ⟨caches', by rw [e, ok_bind']; exact r1, r2, ?_⟩
          intro level l1 l3
          rw [r3 level l1 l3]
          unfold expected firstOf
          by_cases hlev : level = d.1.level.value
          · subst hlev
            have g : (caches.set d.1.level.value (d.1.perCore m d.2)).getD d.1.level.value {} = d.1.perCore m d.2 := by
              simp [List.getD, hlt]
            rw [g, if_pos (perCore_pos hd), hget, if_neg h0, List.find?_cons]
            simp [hdata]
          · have g : (caches.set d.1.level.value (d.1.perCore m d.2)).getD level {} = caches.getD level {} := by
              simp only [List.getD]
              rw [List.getElem?_set_ne (by omega)]
            rw [g, List.find?_cons]
            have : ¬ (d.1.IsData ∧ d.1.level.value = level) := fun hc => hlev hc.2.symm
            simp only [this, decide_false]
    · apply skip
      · unfold cacheEntry
        rw [if_pos (by
          constructor
          · exact fun h => hdata (Or.inl h)
          · exact fun h => hdata (Or.inr h))]
        rfl
      · intro level _ _ _ hc
        exact hdata hc.1

theorem firstOf_ok {m : Machine} {ds : List (CacheDesc × Nat)} (h : ∀ d ∈ ds, DescOk m d) {level : Nat} {d : CacheDesc × Nat}
    (hf : firstOf ds level = some d) : d.1.Ok m d.2 := by
  unfold firstOf at hf
  have h1 := List.mem_of_find?_eq_some hf
  have h2 := List.find?_some hf
  simp only [decide_eq_true_eq] at h2
  exact (h d h1).2.2.2 h2.1

/-- C45: `DataCaches()` reports the first data (or unified) cache of levels 1 to 3, with size and number of sets per core, the
exact line size and associativity, and the number of cores sharing it. A level 3 of at most 512 KiB per core that is shared by
16 or more cores is ignored; a missing one is all zero. -/
theorem C45_data_caches (riscv : Bool) (m : Machine) (fs : Sysfs) (hd : Describes m fs) (hl : Limits m)
    (ds : List (CacheDesc × Nat)) (hok : ∀ d ∈ ds, DescOk m d) (d1 d2 : CacheDesc × Nat) (h1 : firstOf ds 1 = some d1)
    (h2 : firstOf ds 2 = some d2) :
    dataCaches riscv fs m.total (ds.map (fun d : CacheDesc × Nat => d.1.files)) = .ok (some [{}, d1.1.perCore m d1.2, d2.1.perCore m d2.2,
      match firstOf ds 3 with
      | none => {}
      | some d3 => if 16 ≤ d3.1.cores m ∧ d3.1.size.value / d3.1.cores m ≤ 512 then {} else d3.1.perCore m d3.2]) := by
  obtain ⟨T, hT, det⟩ := C43_detects riscv m fs hd hl
  -- the processors after detection
  unfold topology at hT
  obtain ⟨o, g1, hT⟩ := bind_ok hT
  cases o with
  | none =>
    cases hT
    exact absurd rfl det.consistent.packages
  | some o =>
  obtain ⟨sizes, lps⟩ := o
  simp only at hT
  obtain ⟨lps4, g4, hT⟩ := bind_ok hT
  obtain ⟨ps5, g5, hT⟩ := bind_ok hT
  obtain ⟨ps6, g6, hT⟩ := bind_ok hT
  cases hT
  have sn := setNodes_inv riscv fs _ _ _ _ g4
  have hlen : lps.length = m.total := sn.1.symm.trans det.consistent.len
  have hsmt : ∀ i, i < m.total → ((lpAt lps i).smt = 0 ↔ m.First i) := by
    intro i hi
    rw [← (mk_fields (sn.2 i)).2.2.2]
    exact smt_zero_iff det.consistent hi
  obtain ⟨caches, c1, c2, c3⟩ := cacheLoop_ok riscv lps hlen hl.pos hsmt ds (List.replicate 4 {}) hok (by simp)
  unfold dataCaches
  rw [g1, ok_bind']
  simp only
  rw [c1, ok_bind']
  have hz : ∀ level, ((List.replicate 4 ({} : Cache)).getD level {}) = {} := by
    intro level
    simp only [List.getD, List.getElem?_replicate]
    split <;> rfl
  have read : ∀ level, 1 ≤ level → level ≤ 3 → readAt caches level =
      .ok (match firstOf ds level with | none => {} | some d => d.1.perCore m d.2) := by
    intro level l1 l3
    have hlt : level < caches.length := by omega
    rw [readAt_of_lt hlt]
    have := c3 level l1 l3
    unfold expected at this
    rw [hz, if_neg (by simp)] at this
    rw [← this]
    simp [List.getD, List.getElem?_eq_getElem hlt]
  rw [read 1 (by omega) (by omega), ok_bind', read 2 (by omega) (by omega), ok_bind', read 3 (by omega) (by omega), ok_bind']
  rw [h1, h2]
  simp only
  have o1 := firstOf_ok hok h1
  have o2 := firstOf_ok hok h2
  have p1 := perCore_pos o1
  have p2 := perCore_pos o2
  rw [if_neg (by tauto), (initCache_ok o1).2, ok_bind', (initCache_ok o2).2, ok_bind']
  cases h3 : firstOf ds 3 with
  | none => rfl
  | some d3 =>
    simp only
    rw [(initCache_ok (firstOf_ok hok h3)).2, ok_bind']
    rfl

/-- If the first or second level is missing, the result is null. -/
theorem C45_missing (riscv : Bool) (m : Machine) (fs : Sysfs) (hd : Describes m fs) (hl : Limits m)
    (ds : List (CacheDesc × Nat)) (hok : ∀ d ∈ ds, DescOk m d) (h : firstOf ds 1 = none ∨ firstOf ds 2 = none) :
    dataCaches riscv fs m.total (ds.map (fun d : CacheDesc × Nat => d.1.files)) = .ok none := by
  obtain ⟨T, hT, det⟩ := C43_detects riscv m fs hd hl
  unfold topology at hT
  obtain ⟨o, g1, hT⟩ := bind_ok hT
  cases o with
  | none =>
    cases hT
    exact absurd rfl det.consistent.packages
  | some o =>
  obtain ⟨sizes, lps⟩ := o
  simp only at hT
  obtain ⟨lps4, g4, hT⟩ := bind_ok hT
  obtain ⟨ps5, g5, hT⟩ := bind_ok hT
  obtain ⟨ps6, g6, hT⟩ := bind_ok hT
  cases hT
  have sn := setNodes_inv riscv fs _ _ _ _ g4
  have hlen : lps.length = m.total := sn.1.symm.trans det.consistent.len
  have hsmt : ∀ i, i < m.total → ((lpAt lps i).smt = 0 ↔ m.First i) := by
    intro i hi
    rw [← (mk_fields (sn.2 i)).2.2.2]
    exact smt_zero_iff det.consistent hi
  obtain ⟨caches, c1, c2, c3⟩ := cacheLoop_ok riscv lps hlen hl.pos hsmt ds (List.replicate 4 {}) hok (by simp)
  unfold dataCaches
  rw [g1, ok_bind']
  simp only
  rw [c1, ok_bind']
  have hz : ∀ level, ((List.replicate 4 ({} : Cache)).getD level {}) = {} := by
    intro level
    simp only [List.getD, List.getElem?_replicate]
    split <;> rfl
  have read : ∀ level, 1 ≤ level → level ≤ 3 → readAt caches level =
      .ok (match firstOf ds level with | none => {} | some d => d.1.perCore m d.2) := by
    intro level l1 l3
    have hlt : level < caches.length := by omega
    rw [readAt_of_lt hlt]
    have := c3 level l1 l3
    unfold expected at this
    rw [hz, if_neg (by simp)] at this
    rw [← this]
    simp [List.getD, List.getElem?_eq_getElem hlt]
  rw [read 1 (by omega) (by omega), ok_bind', read 2 (by omega) (by omega), ok_bind', read 3 (by omega) (by omega), ok_bind']
  rw [if_pos (by
    rcases h with h | h
    · left; rw [h]
    · right; rw [h])]
  rfl

/-- Non-vacuity: the caches of `exampleMachine`: 32 KiB L1 per core, 1 MiB L2 shared by both cores of a package. -/
def exampleCaches : List (CacheDesc × Nat) :=
  [(⟨"Data".toList, [1], [3, 2], [8], [6, 4], [.one [0], .one [4]]⟩, 64),
   (⟨"Instruction".toList, [1], [3, 2], [8], [6, 4], [.one [0], .one [4]]⟩, 64),
   (⟨"Unified".toList, [2], [1, 0, 2, 4], [1, 6], [1, 0, 2, 4], [.range [0] [1], .range [4] [5]]⟩, 64)]

theorem C45_nonvacuous : (∀ d ∈ exampleCaches, DescOk exampleMachine d) ∧
    (firstOf exampleCaches 1).map (fun d => d.1.perCore exampleMachine d.2) = some ⟨32, 64, 64, 8, 1⟩ ∧
    (firstOf exampleCaches 2).map (fun d => d.1.perCore exampleMachine d.2) = some ⟨512, 512, 64, 16, 2⟩ := by
  refine ⟨?_, by decide, by decide⟩
  intro d hd
  simp only [exampleCaches, List.mem_cons, List.not_mem_nil, or_false] at hd
  rcases hd with rfl | rfl | rfl
  · refine ⟨by decide, by decide, by decide, fun _ => ?_⟩
    refine ⟨⟨by decide, by decide⟩, ⟨by decide, by decide⟩, ⟨by decide, by decide⟩, ⟨by decide, by decide⟩,
      ⟨by decide, ?_, by decide⟩, by decide, by decide, by decide, by decide, by decide, by decide, by decide, by decide,
      by decide, by decide, by decide, by decide⟩
    intro t ht
    simp only [List.mem_cons, List.not_mem_nil, or_false] at ht
    rcases ht with rfl | rfl <;> exact ⟨by decide, by decide, by decide⟩
  · refine ⟨by decide, by decide, by decide, fun h => ?_⟩
    rcases h with h | h
    · exact absurd h (by decide)
    · exact absurd h (by decide)
  · refine ⟨by decide, by decide, by decide, fun _ => ?_⟩
    refine ⟨⟨by decide, by decide⟩, ⟨by decide, by decide⟩, ⟨by decide, by decide⟩, ⟨by decide, by decide⟩,
      ⟨by decide, ?_, by decide⟩, by decide, by decide, by decide, by decide, by decide, by decide, by decide, by decide,
      by decide, by decide, by decide, by decide⟩
    intro t ht
    simp only [List.mem_cons, List.not_mem_nil, or_false] at ht
    rcases ht with rfl | rfl <;>
      exact ⟨⟨by decide, by decide, by decide⟩, ⟨by decide, by decide, by decide⟩, by decide⟩

end Topo
end Hwy
