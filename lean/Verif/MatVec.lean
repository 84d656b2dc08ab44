import Verif.Dot

/-!
# Model of hwy/contrib/matvec/matvec-inl.h

`R` is the type in which products are accumulated; its arithmetic is exact (a semiring in the theorems).  `size_t` is `Nat`.
`row` is the index in `mat` of the first element of a row, so that loads are checked against the bounds of the whole matrix.
The tasks of `pool.Run` only read `mat`, `vec` and `add` and a private buffer, and write `out` with `Stream`; a task is
therefore the list of its stores, and an execution of all tasks by any number of workers is an order of all those stores.
-/

namespace Hwy
namespace MatVecP

open Vec DotP

section
variable {R α γ : Type} [Add R] [Mul R] [Zero R]

/-- `AddScalar(a, b)` (matvec-inl.h:35-39): `toF` is the conversion of `a` to `float` and the rounding of the float sum, `q` the
conversion of `b` to `float`; the conversion of the sum back to the type of `a` is exact for `float` and `double`; its rounding for `float16_t` is ignored like other rounding. -/
def addScalar (toF : R → R) (q : γ → R) (a : R) (b : γ) : R := toF (toF a + q b)

/-! ### Rows -/

/-- Main loop for equal types (matvec-inl.h:82-98). -/
def same4 (N : Nat) (mat : List R) (row : Nat) (vec : List R) (kInner : Nat) : Nat → Nat → Sums R → M (Nat × Sums R)
  | 0, _, _ => .error .abort
  | fuel + 1, i, s =>
    if i + 4 * N ≤ kInner then do
      let a0 ← loadU N mat (row + i + 0 * N)
      let v0 ← loadU N vec (i + 0 * N)
      let s0 := mulAdd a0 v0 s.s0
      let a1 ← loadU N mat (row + i + 1 * N)
      let v1 ← loadU N vec (i + 1 * N)
      let s1 := mulAdd a1 v1 s.s1
      let a2 ← loadU N mat (row + i + 2 * N)
      let v2 ← loadU N vec (i + 2 * N)
      let s2 := mulAdd a2 v2 s.s2
      let a3 ← loadU N mat (row + i + 3 * N)
      let v3 ← loadU N vec (i + 3 * N)
      let s3 := mulAdd a3 v3 s.s3
      same4 N mat row vec kInner fuel (i + 4 * N) ⟨s0, s1, s2, s3⟩
    else .ok (i, s)

/-- Main loop for a bf16 matrix and a float vector (matvec-inl.h:235-255). -/
def mixed4 (p : α → R) (N : Nat) (mat : List α) (row : Nat) (vec : List R) (kInner : Nat) :
    Nat → Nat → Sums R → M (Nat × Sums R)
  | 0, _, _ => .error .abort
  | fuel + 1, i, s =>
    if i + 4 * N ≤ kInner then do
      let b0 ← loadU (2 * N) mat (row + i + 0 * N)
      let a0 := promoteLower p b0
      let a1 := promoteUpper p b0
      let b1 ← loadU (2 * N) mat (row + i + 2 * N)
      let a2 := promoteLower p b1
      let a3 := promoteUpper p b1
      let v0 ← loadU N vec (i + 0 * N)
      let s0 := mulAdd a0 v0 s.s0
      let v1 ← loadU N vec (i + 1 * N)
      let s1 := mulAdd a1 v1 s.s1
      let v2 ← loadU N vec (i + 2 * N)
      let s2 := mulAdd a2 v2 s.s2
      let v3 ← loadU N vec (i + 3 * N)
      let s3 := mulAdd a3 v3 s.s3
      mixed4 p N mat row vec kInner fuel (i + 4 * N) ⟨s0, s1, s2, s3⟩
    else .ok (i, s)

/-- Last entire vectors (matvec-inl.h:100-104 and 134-138 with `p` the identity, 257-262 and 293-298 with `p` the
conversion from bf16). -/
def whole (p : α → R) (N : Nat) (mat : List α) (row : Nat) (vec : List R) (kInner : Nat) :
    Nat → Nat → List R → M (Nat × List R)
  | 0, _, _ => .error .abort
  | fuel + 1, i, s0 =>
    if i + N ≤ kInner then do
      let a0 ← loadU N mat (row + i)
      let v0 ← loadU N vec i
      whole p N mat row vec kInner fuel (i + N) (mulAdd (a0.map p) v0 s0)
    else .ok (i, s0)

/-- Remainder (matvec-inl.h:105-110, 139-144, 263-269, 299-305): returns the updated accumulator. `zero` is the element
of the matrix with all bits zero. -/
def rest (p : α → R) (zero : α) (N : Nat) (mat : List α) (row : Nat) (vec : List R) (kInner i : Nat) (s : List R) :
    M (List R) :=
  let remainder := kInner - i
  if remainder ≠ 0 then do
    let a0 ← loadN N zero mat (row + i) remainder
    let v0 ← loadN N 0 vec i remainder
    return mulAdd (a0.map p) v0 s
  else .ok s

/-- After the main loop (matvec-inl.h:99-115, 256-274): the remainder is added to `sum1`. -/
def finish (p : α → R) (zero : α) (N : Nat) (mat : List α) (row : Nat) (vec : List R) (kInner i : Nat) (s : Sums R) :
    M R := do
  let (i, s0) ← whole p N mat row vec kInner (kInner + 1) i s.s0
  let s1 ← rest p zero N mat row vec kInner i s.s1
  let s2 := vadd s.s2 s.s3
  let s0 := vadd s0 s1
  let s0 := vadd s0 s2
  return reduceSum s0

/-- One row within a chunk, equal types (matvec-inl.h:71-115). -/
def rowSame (N : Nat) (mat : List R) (row : Nat) (vec : List R) (kInner : Nat) : M R := do
  let (i, s) ← same4 N mat row vec kInner (kInner + 1) 0 ⟨vzero N, vzero N, vzero N, vzero N⟩
  finish id 0 N mat row vec kInner i s

/-- One row within a chunk, bf16 matrix and float vector (matvec-inl.h:223-274). -/
def rowMixed (p : α → R) (zero : α) (N : Nat) (mat : List α) (row : Nat) (vec : List R) (kInner : Nat) : M R := do
  let (i, s) ← mixed4 p N mat row vec kInner (kInner + 1) 0 ⟨vzero N, vzero N, vzero N, vzero N⟩
  finish p zero N mat row vec kInner i s

/-- One of the remaining rows (matvec-inl.h:129-145, 288-306). -/
def rowTail (p : α → R) (zero : α) (N : Nat) (mat : List α) (row : Nat) (vec : List R) (kInner : Nat) : M R := do
  let (i, s0) ← whole p N mat row vec kInner (kInner + 1) 0 (vzero N)
  let s0 ← rest p zero N mat row vec kInner i s0
  return reduceSum s0

/-- Main loop, matrix and vector both bf16 (matvec-inl.h:369-376); `N` is the number of bf16 lanes. -/
def wide2 (rwma : Rwma α R) (N : Nat) (mat : List α) (row : Nat) (vec : List α) (kInner : Nat) :
    Nat → Nat → Sums R → M (Nat × Sums R)
  | 0, _, _ => .error .abort
  | fuel + 1, i, s =>
    if i + 2 * N ≤ kInner then do
      let b0 ← loadU N mat (row + i + 0 * N)
      let b1 ← loadU N mat (row + i + 1 * N)
      let v0 ← loadU N vec (i + 0 * N)
      let v1 ← loadU N vec (i + 1 * N)
      let (s0, s1) := rwma b0 v0 s.s0 s.s1
      let (s2, s3) := rwma b1 v1 s.s2 s.s3
      wide2 rwma N mat row vec kInner fuel (i + 2 * N) ⟨s0, s1, s2, s3⟩
    else .ok (i, s)

/-- Last entire vector (matvec-inl.h:378-382, 413-417). -/
def wide1 (rwma : Rwma α R) (N : Nat) (mat : List α) (row : Nat) (vec : List α) (kInner : Nat) :
    Nat → Nat → List R × List R → M (Nat × (List R × List R))
  | 0, _, _ => .error .abort
  | fuel + 1, i, s =>
    if i + N ≤ kInner then do
      let b0 ← loadU N mat (row + i)
      let v0 ← loadU N vec i
      wide1 rwma N mat row vec kInner fuel (i + N) (rwma b0 v0 s.1 s.2)
    else .ok (i, s)

/-- Remainder (matvec-inl.h:383-388, 418-423). -/
def wideRest (zero : α) (rwma : Rwma α R) (N : Nat) (mat : List α) (row : Nat) (vec : List α) (kInner i : Nat)
    (s : List R × List R) : M (List R × List R) :=
  let remainder := kInner - i
  if remainder ≠ 0 then do
    let b0 ← loadN N zero mat (row + i) remainder
    let v0 ← loadN N zero vec i remainder
    return rwma b0 v0 s.1 s.2
  else .ok s

/-- One row within a chunk, both bf16 (matvec-inl.h:358-393); `L` is the number of float lanes. -/
def rowWide (zero : α) (rwma : Rwma α R) (N L : Nat) (mat : List α) (row : Nat) (vec : List α) (kInner : Nat) : M R := do
  let (i, s) ← wide2 rwma N mat row vec kInner (kInner + 1) 0 ⟨vzero L, vzero L, vzero L, vzero L⟩
  let (i, s01) ← wide1 rwma N mat row vec kInner (kInner + 1) i (s.s0, s.s1)
  let s23 ← wideRest zero rwma N mat row vec kInner i (s.s2, s.s3)
  let s0 := vadd s01.1 s01.2
  let s2 := vadd s23.1 s23.2
  let s0 := vadd s0 s2
  return reduceSum s0

/-- One of the remaining rows, both bf16 (matvec-inl.h:407-424). -/
def rowWideTail (zero : α) (rwma : Rwma α R) (N L : Nat) (mat : List α) (row : Nat) (vec : List α) (kInner : Nat) :
    M R := do
  let (i, s) ← wide1 rwma N mat row vec kInner (kInner + 1) 0 (vzero L, vzero L)
  let s ← wideRest zero rwma N mat row vec kInner i s
  return reduceSum (vadd s.1 s.2)

/-! ### Chunks, streaming stores and remaining rows; common to the three overloads -/

/-- `kAdd` (matvec-inl.h:116-118, 146, 275-277, 307, 394-396, 425). -/
def applyAdd (toF : R → R) (q : γ → R) (add : Option (List γ)) (r : Nat) (x : R) : M R :=
  match add with
  | none => .ok x
  | some add => do return addScalar toF q x (← readAt add r)

/-- A `Stream` of the vector `v` to `out + pos`. -/
structure Store (R : Type) where
  pos : Nat
  v : List R
deriving DecidableEq, Repr

/-- The buffer of a chunk (matvec-inl.h:70-119, 222-278, 357-397); `kernel row` computes the sum for the row that starts at
`mat[row]`. -/
def fillBuf (kernel : Nat → M R) (toF : R → R) (q : γ → R) (add : Option (List γ)) (kInner begin : Nat) :
    Nat → Nat → List R → M (List R)
  | 0, _, buf => .ok buf
  | todo + 1, idxRow, buf => do
    let x ← kernel ((begin + idxRow) * kInner)
    let x ← applyAdd toF q add (begin + idxRow) x
    let buf ← writeAt buf idxRow x
    fillBuf kernel toF q add kInner begin todo (idxRow + 1) buf

/-- `for (i = 0; i != kChunkSize; i += L) Stream(Load(d, buf + i), d, out + begin + i)` (matvec-inl.h:121-123, 280-282,
399-401), `L` the lanes of the float type. -/
def streams (L kChunk begin : Nat) (buf : List R) : Nat → Nat → M (List (Store R))
  | 0, _ => .error .abort
  | fuel + 1, i =>
    if i ≠ kChunk then do
      let v ← loadU L buf i
      let rest ← streams L kChunk begin buf fuel (i + L)
      return ⟨begin + i, v⟩ :: rest
    else .ok []

/-- A task of `pool.Run` (matvec-inl.h:59-124, 211-283, 346-402): its stores. The initial contents of `buf` do not matter. -/
def chunkTask (kernel : Nat → M R) (toF : R → R) (q : γ → R) (add : Option (List γ)) (kInner L kChunk chunk : Nat) :
    M (List (Store R)) := do
  let begin := chunk * kChunk
  let buf ← fillBuf kernel toF q add kInner begin kChunk 0 (List.replicate kChunk 0)
  streams L kChunk begin buf (kChunk + 1) 0

/-- `Stream(v, d, out + pos)`: the address must be a multiple of the vector size. `outAddr` is the address of `out` in units of
its elements. -/
def stream (L outAddr : Nat) (out : List R) (s : Store R) : M (List R) :=
  if L ∣ outAddr + s.pos then storeU s.v out s.pos else .error .ub

/-- The stores of all tasks, in the order given. -/
def runStores (L outAddr : Nat) : List (Store R) → List R → M (List R)
  | [], out => .ok out
  | s :: ss, out => do runStores L outAddr ss (← stream L outAddr out s)

/-- Remaining rows (matvec-inl.h:128-147, 287-308, 406-426). -/
def tailRows (kernelTail : Nat → M R) (toF : R → R) (q : γ → R) (add : Option (List γ)) (kInner : Nat) :
    Nat → Nat → List R → M (List R)
  | 0, _, out => .ok out
  | todo + 1, r, out => do
    let x ← kernelTail (r * kInner)
    let x ← applyAdd toF q add r x
    let out ← writeAt out r x
    tailRows kernelTail toF q add kInner todo (r + 1) out

/-- `mapM` of the chunks. -/
def allTasks (task : Nat → M (List (Store R))) : Nat → Nat → M (List (List (Store R)))
  | 0, _ => .ok []
  | todo + 1, chunk => do
    let t ← task chunk
    let ts ← allTasks task todo (chunk + 1)
    return t :: ts

/-- `MatVecAddImpl` (matvec-inl.h:41-148, 185-309, 327-427). `sched` is the schedule: it orders the stores of all tasks. The
debug assertion `kChunkSize >= N` is left out. -/
def matVecImpl (kernel kernelTail : Nat → M R) (toF : R → R) (q : γ → R) (add : Option (List γ))
    (sched : List (List (Store R)) → List (Store R)) (kOuter kInner L kChunk outAddr : Nat) (out : List R) :
    M (List R) := do
  let numChunks := kOuter / kChunk
  let tasks ← allTasks (chunkTask kernel toF q add kInner L kChunk) numChunks 0
  let out ← runStores L outAddr (sched tasks) out
  tailRows kernelTail toF q add kInner (kOuter - numChunks * kChunk) (numChunks * kChunk) out

end

/-- `kChunkSize = 64 / sizeof(T)` (matvec-inl.h:51, 196, 336). -/
def chunkSize (sizeofT : Nat) : Nat := 64 / sizeofT

section
variable {R α : Type} [Add R] [Mul R] [Zero R]

/-- `MatVec` (`add = none`) and `MatVecAdd` for equal types of `sizeofT` bytes (matvec-inl.h:41-183). -/
def matVecSame (toF : R → R) (sizeofT N : Nat) (kOuter kInner : Nat) (mat vec : List R) (add : Option (List R))
    (sched : List (List (Store R)) → List (Store R)) (outAddr : Nat) (out : List R) : M (List R) :=
  matVecImpl (fun row => rowSame N mat row vec kInner) (fun row => rowTail id 0 N mat row vec kInner) toF toF add sched
    kOuter kInner N (chunkSize sizeofT) outAddr out

/-- bf16 matrix, float vector (matvec-inl.h:185-325). -/
def matVecMixed (p : α → R) (zero : α) (N : Nat) (kOuter kInner : Nat) (mat : List α) (vec : List R)
    (add : Option (List R)) (sched : List (List (Store R)) → List (Store R)) (outAddr : Nat) (out : List R) : M (List R) :=
  matVecImpl (fun row => rowMixed p zero N mat row vec kInner) (fun row => rowTail p zero N mat row vec kInner) id id add
    sched kOuter kInner N (chunkSize 4) outAddr out

/-- Both bf16 (matvec-inl.h:327-444): `N` bf16 lanes, `N / 2` float lanes. -/
def matVecWide (p : α → R) (zero : α) (rwma : Rwma α R) (N : Nat) (kOuter kInner : Nat) (mat vec : List α)
    (add : Option (List α)) (sched : List (List (Store R)) → List (Store R)) (outAddr : Nat) (out : List R) : M (List R) :=
  matVecImpl (fun row => rowWide zero rwma N (N / 2) mat row vec kInner)
    (fun row => rowWideTail zero rwma N (N / 2) mat row vec kInner) id p add sched kOuter kInner (N / 2) (chunkSize 2)
    outAddr out

end

end MatVecP
end Hwy
