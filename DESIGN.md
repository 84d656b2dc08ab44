# Formal model of google/highway in Lean 4

## Trusted base
* Lean 4.33.0 kernel. Allowed axioms: `propext`, `Classical.choice`, `Quot.sound` only.
* Reading of the C++ source: nothing is executed; every definition cites the lines it models.
* Modelling conventions
  * `size_t`/`uint64_t` are `BitVec 64` / `Nat` reduced mod 2^64 where wrap-around matters, else `Nat`
    with the no-overflow side condition stated as a hypothesis of the theorem.
  * arrays are `Nat → α` plus a length, or `List α`; an out-of-bounds access is a distinct outcome
    (`none` / explicit in-bounds obligation) wherever the property is about bounds.
  * vectors of `N` lanes are lists/functions on `Fin N`/`Nat`; N is an arbitrary parameter.
  * threads: sequentially consistent interleaving of atomic steps.

## Plan per property (see properties.jsonl)
| id | model | proof |
|----|-------|-------|
| C01,C02 | `Verif/BitSet*.lean`: words as `BitVec 64`, two-level set | refinement to `Nat → Bool`, induction over histories |
| C03,C04 | `Verif/Divisor*.lean`: exact 32/64-bit wrapping code | multiply-high error bound over Nat |
| C05-C08 | `Verif/BaseArith*.lean` | Nat/BitVec arithmetic |
| C09,C10 | `Verif/Float16*.lean`: bit-level conversion, value as rational | case analysis on exponent, nearest-even spec |
| C11-C13 | `Verif/Pool*.lean`: small-step transition system, N threads | inductive invariants over all schedules |
| C14,C15 | `Verif/PoolTasks*.lean` | induction, gcd |
| C16 | `Verif/AutoTune*.lean` | linked-list invariant |
| C17-C25 | `Verif/Sort*.lean`: HeapSort, networks (0-1 principle + bit-sliced kernel check), Partition, Recurse | invariants, induction on levels |
| C26 | `Verif/BitPack*.lean` | shift/or algebra per bit count |
| C27-C29 | `Verif/Algo*.lean` | loop invariants |
| C30,C40 | `Verif/Alloc*.lean`, `Verif/Image*.lean` | arithmetic |
| C31 | `Verif/Random*.lean` | stream induction |
| C32,C33 | `Verif/Stats*.lean` | exact rational arithmetic |
| C34 | `Verif/Targets*.lean` | bit arithmetic, history induction |
| C35,C36 | `Verif/Dot*.lean` | sums over a commutative semiring |
| C37, C43-C45 | `Verif/Topology*.lean` | parser correctness, invariants of the detection phases, safety by a no-UB calculus |
| C38 | `Verif/CInt.lean`, `Verif/Emu*.lean` | C++ integer semantics; loop rule; per-lane theorems |
| C46,C47 | `Verif/EmuMask*.lean`, `Verif/EmuMove*.lean` | loop invariants over bounds-checked arrays |
| C48 | `Verif/EmuFloat*.lean` | bit patterns versus rationals; exactness of the additions and conversions used |
| C49 | `Verif/EmuConv*.lean` | type-pair case analysis for integers; exponent-field threshold versus the truncated rational; nearest-value lemma over the rationals; registers as one little-endian number for `BitCast` |
| C50 | `Verif/GenCLMul*.lean` | products of the four bit classes as column sums; a column sum of at most 15 does not reach the next column, a sum of 16 does |
| C51 | `Verif/GenAES*.lean` | byte-level facts by kernel evaluation over all 256 bytes; state-level rules; linearity of the column matrices; induction over the round keys |
| C52 | `Verif/GenBits*.lean`, `Verif/GenLzcntSpec.lean` | per-lane rules; the exponent field of the rounded conversion is bounded for every integer, and exact when the bit 24 below the highest is clear |
| C53 | `Verif/GenDiv*.lean` | per-lane rules; error bound of the rounded quotient, correction steps, per width; 64-bit by two rounded estimates |
| C54 | `Verif/EmuFArith*.lean` | bit patterns versus rationals; the rounding of the exact result is characterised by a specification that does not mention the encoder |
| C39 | `Verif/GenArith*.lean` | per-lane rules; wrapped sums by cases on the signs; mask rules |
| C55 | `Verif/GenDot*.lean` | per-lane rules; the only overflowing pair of products is treated as a separate case |
| C56 | `Verif/GenMem*.lean` | loop invariant: memory after the first n lanes; arbitrary element type, bytes for the offset variants |
| C57 | `Verif/GenFloat*.lean` | MulByPow2 as three multiplications by exact powers of two, of which at most one is inexact; arbitrary lanes |
| C58 | `Verif/GenRot*.lean`, `Verif/GenBytes.lean` | shifts by the masked count and its negation; byte lookups followed by rotates or 16-bit shifts; arbitrary lanes |
| C59 | `Verif/GenShuf*.lean` | the tag dispatch and every special case; lanes as groups of bytes; arbitrary lanes and indices |
| C60 | `Verif/GenHalf*.lean` | every operation of the bit-trick algorithms on arbitrary lanes; the rounding increment is shown to align the mantissa by the rounding rule of floating-point addition |
| C61 | `Verif/Unroller*.lean` | a rule for the unrolled loops with invariants over the four rotating accumulators, applied to the three kinds of units |
| C62 | `Verif/X86Reg.lean`, `X86Intrin.lean`, `X86Ops*.lean` | registers as 128-bit words, lanes as bit fields; each emulation is reduced to a fact about one or two lanes |
| C63 | `Verif/X86Intrin2.lean`, `X86Perm*.lean`, `X86Sym.lean` | each code path is evaluated on symbolic bytes (constant, byte of an input, sign of a byte) with a rule per instruction proved for all contents |
| C64 | `Verif/X86Intrin3.lean`, `X86Mul*.lean` | lane rules of C62/C63 plus integer identities for split products (Knuth, sign correction) |
| C65 | `Verif/X86Conv*.lean` | symbolic byte execution (C63) for the shuffles, lane rules of C62 for shifts/compare/min, interval arguments for the clamps |
| C66 | `Verif/X86Lookup*.lean` | symbolic bytes with a symbolic shift amount for the slides; byte-index arithmetic and lane rules of C62/C63 for the lookups |
| C67 | `Verif/X86Reg256*.lean`, `Verif/X86Shift*.lean` | 256-bit registers as two blocks; float exponents as powers of two, multiplication lemmas, value ranges through saturating demotions, lane rules of C62-C65 |
| C68 | `Verif/X86Mask*.lean`, `Verif/X86Compress*.lean` | tables as lists checked row by row in the kernel against `selected`/`rankOf` (filters of the lane indices), then lookup lemmas C62/C66 |
| C69 | `Verif/X86Interleaved*.lean` | a symbolic byte engine for several inputs (`SymM`), whose rules are the lane theorems C62/C63; block equations `K*i+c` by kernel evaluation of the symbolic bytes, then induction-free composition of stores |
| C70 | `Verif/X86First*.lean` | 128-bit numbers as two 64-bit lanes, lane theorems C62/C63; masks bit by bit through `BitVec.getLsbD_neg` (a bit of `-x` flips iff a lower bit is set), then back to lanes |
| C71 | `Verif/X86Reduce*.lean` | the functors are associative-commutative, so every shuffle ladder is a fold of the lanes (`ac_rfl`); the fold is then shown to be the sum, a least or a greatest lane; widening paths through exactness of 16-bit extension |
| C72 | `Verif/X86V256*.lean` | the byte-symbolic engine extended to two-block registers: each instruction has a rule saying where every result byte comes from, the composition is compared with the documented lane map by kernel evaluation for each width and constant |
| C73 | `Verif/X86V256Spec3.lean`, `X86V256Spec4.lean` | byte-level law of the two-half lookup (index bits 4, 5 and 7), index conversions proved to give the scaled indices, runtime slides as lookups of an Iota, constant paths by the symbolic engine |
| C74 | `Verif/X86V256Mask*.lean`, `Verif/X86V256CompressSpec.lean` | tables extracted from the source by `tools/compress256.py`, each table entry compared with the order of selected lanes by the kernel over all 256/16 masks, the data-dependent merge of 16-bit and 8-bit lanes proved by ranks |
| C75 | `Verif/X86V256Conv*.lean` | per-block lemmas of C65 lifted to 256 bits, cross-block permutations by the symbolic byte engine, saturation as in C65 |
| C76 | `Verif/X86V256Ops*.lean` | every operation is shown equal to the 128-bit AVX2 model on each block, C62 is lifted lane by lane |
| C77 | `Verif/X86V256Mul*.lean` | every operation is shown equal to the 128-bit AVX2 model on each block (`mul128_blk`, `mulEven_blk`, …), then C64 is lifted; the 16-bit shifts go through widened lanes |
| C78 | `Verif/X86V256First*.lean` | each block is the 128-bit operation of C70 plus a carry of the last bit of the lower block; SetOnlyFirst by the lanes of the suppressing register |
| C79 | `Verif/X86V256Reduce*.lean` | each block is the 128-bit reduction of C71 of the pairwise results across blocks; a reduction of pairs is a reduction of all |
| C80 | `Verif/X86Bits*.lean` | bytes by kernel evaluation over all 256 values, wider lanes by adding the halves; one bit of each ReverseBits step |
| C81 | `Verif/X86Pairwise*.lean` | interleavings of C63 and promotions of C65; the block permutation by the symbolic evaluator, its SSE2 form through the saturating narrowing of C65 |
| C82 | `Verif/X86Pairwise.lean`, `X86SatWideSpec.lean` | sign analysis of the overflow mask; `fix32`: clearing the upper half turns the wrapped pair sum into the exact 64-bit value |
| C83 | `Verif/X86Lane*.lean` | case split per lane width and target; the blend by the lane-wise comparison of C62, bytes as halves of 16-bit lanes |

## Thread pool (C11-C15): scope of the model
`PoolModel.lean` is a transition system of main plus `n` threads, one shared-memory access per step.
Simplifications: sequential consistency; stores main makes while all threads are provably blocked are
merged into one step; `func_`/`opaque_` are one variable; spin policy dropped; epochs are unbounded
(fewer than 2^32 phases); `Run` obligations begin <= end and end + NumWorkers < 2^64; n <= 60.
Not modelled: thread creation/affinity, profiler, auto-tuning cost measurement (a `Run` with tuning is a
`Run` followed by an arbitrary configuration change, which the model allows).
Findings recorded while modelling:
* with 61..63 threads the `BarrierCounter` shards (`workers[63 - i]`) are the barrier words of real
  threads, so a change from a counter to an ordered/group barrier finds a stale count there. The theorems need n <= 60, and
  `PoolFinding.lean` proves they fail for n = 63: after two `SetWaitMode` calls and five auto-tuned `Run`s the count 16 in the
  word of thread 62 is taken for its arrival in phase 16 (`C13_finding_63_threads_early_return`); then, with spinning waits, the
  pool deadlocks (`C13_finding_63_threads_deadlock`), and with blocking waits `Run` calls the closure twice for task 62
  (`C11_finding_63_threads_called_twice`);
* `my_begin_` is incremented past `my_end_` by thieves, and `WorkerRunSingle` computes `begin + worker`,
  so ranges ending within NumWorkers of 2^64 wrap.

## Algorithms (C27-C29)
`VecOps.lean` gives list semantics to LoadU/StoreU/LoadN/StoreN/CompressStore/FindFirstTrue for any lane count
`N`; an access outside the list is the outcome `.error .ub`. `func` is assumed lane-wise (documented contract).

## Aligned allocator (C30, C41)
`Alloc.lean`: address arithmetic of AllocateAlignedBytes (wrapping 64 bit), the group counter, headers, and a
transition system of concurrent allocate/free/write steps over byte memory. The underlying malloc is assumed to
return a block disjoint from live blocks that does not wrap around the address space.

## Bit packing (C26)
`tools/bitpack2lean.py` translates the straight-line Pack8/Pack16 code into statement lists
(`BitPackPrograms.lean`); the translator is trusted for that reading. Pack32/Pack64 come from the recursive
template and are hand modelled. Findings: `Pack16<11>::Unpack` (element 15 polluted by elements 13/14) and
`Pack16<13>::Unpack` (wrong registers) do not invert Pack; both have proved counterexamples.

## Scalar float conversions (C09, C10, C42)
`Float16.lean` models the bit manipulation of the software paths (`!HWY_HAVE_SCALAR_F16_OPERATORS`, no native
bf16). `FloatRound.lean` specifies "nearest, ties to even" (`IsNearestEven`) on exact values, independently of the
code. Float multiplication and the double-to-float cast are assumed to be IEEE round to nearest even
(`f32Mul`, `f32OfF64`); NaN payloads are modelled as quieted truncation but only "NaN stays NaN" is claimed.

## Sorting (C17-C25)
Indices count keys, not lanes; a vector is a list of `N` keys. Files, bottom up:
* `SortSpec.lean`: sorted, selected, partially sorted (specification only). `Heap.lean`/`HeapProof.lean`: heapsort.
* `SortNet.lean`, `NetPrograms.lean` (generated from sorting_networks-inl.h by `tools/networks2lean.py`, trusted reading),
  `NetCheck*.lean`, `NetSort.lean`: 0-1 principle; the finitely many 0-1 inputs are reduced by merge structure and evaluated
  in the kernel; result lifted to every order and every key type.
* `BaseCase*.lean`, `Partition*.lean`, `FastPath*.lean`: in-place vector code, all lengths.
* `Recurse.lean` (model of pivot choice, `Recurse`, `Sort`, `PartialSort`, `Select`), `PivotProof*.lean`, `RecurseProof.lean`,
  `SortTop.lean` (NaN handling, C17, C18, C22-C24), `SortTraits.lean`/`SortKeys.lean` (key types, float neighbours, vector
  sizes), `SortNaN.lean` (what is left of C24 for Select/PartialSort, counterexamples, examples).
The random generator state is an arbitrary parameter, so the theorems hold for all pivots. `Sort` of floats works on numbers
up to the sign of zero; denormals flushed to zero (Armv7) are not modelled. `SortPairsDistance1` of 64-bit keys before AVX3 and
of 128-bit keys is modelled by its meaning (compare-exchange of neighbours). Vectors: power of two keys, at most 64 bytes.
Findings, all proved: heapsort of 0 keys and heap partial sort with k = 0 or k = num are out of bounds (these are used if
vqsort is disabled); `PartialSort` with k = 0 violates an assertion; Select/PartialSort lose keys if there are NaN;
-0/+0 can be merged; Partition writes after the array on targets with read-modify-write CompressBlendedStore. Not a defect but
noted: `ChoosePivotForEqualSamples` re-reads the sample from the buffer after it was overwritten.

## Auto-tuner (C16)

`Verif.AutoTune*` models contrib/auto_tune.h: `NextWithSkip` as its index array, the cost accumulators, and
the elimination rounds. `double` is an arbitrary linearly ordered field (exact arithmetic); `sqrt` is an arbitrary
function. The debug assertion `M1 >= Lower` is not modelled. Finding (proved): `Candidates()`/`HasCandidates()` assert in
debug builds once `Best()` is set.

## Statistics (C32, C33)

`Verif.Stats*` models stats.h / stats.cc: `Stats` over a linearly ordered field, `log` an arbitrary function, and `Bins`.
Skewness/kurtosis roots and printing are not modelled. Finding (proved): the count is cast to `int` in the variance, wrong
from 2^31 values on. `Verif.RobustStats` models robust_statistics.h over unsigned `T` of any width, with `std::sort` trusted
to sort. Findings (proved): the average of two medians overflows in the upper half of 32/64-bit ranges; `MinRange` can return
0, outside of its range; the mode of [1,5,5] is 3.

## Random numbers (C31)

`Verif.Random` models contrib/random/random-inl.h on `BitVec 64`: SplitMix64, Xoshiro (Next, Jump, LongJump), VectorXoshiro
(one generator per lane, `AlignedNDArray` as four rows), CachedXoshiro. `Verif.RandomPoly` proves by F2-linear algebra that
the jump constants step 2^128 and 2^192 states and, using Pratt certificates for the factors of 2^256-1
(`Verif.RandomPrimes`), that the period from any non-zero state is exactly 2^256-1. Doubles are rationals; `MulByPow2`-style
exact operations are identities on them. Findings (proved): filling n elements with n not a multiple of the lane count, or
a cache smaller than the lane count, writes out of bounds.

## Dynamic dispatch (C34)

`Verif.Targets` models targets.h (`ChosenTarget`, table layout of the six architecture families), highway.h (`HWY_EXPORT`
tables, `FunctionCache`, `HWY_DYNAMIC_DISPATCH`), targets.cc (`SupportedTargets`, `DisableTargets`,
`SetSupportedTargetsForTest`, x86 `DetectTargets` and `FlagsFromCPUID`) and x86_cpuid.h. The result of `DetectTargets` is an
arbitrary mask at each call on other architectures; on x86 it is a function of an arbitrary CPUID function and XCR0. Histories
are arbitrary lists of calls; the concurrent model interleaves every atomic load and store of the mask by any number of
threads (sequentially consistent, as `std::atomic` defaults). Non-modelled: the map from function names to tables used with
HWY_DISPATCH_MAP, and detection for Arm, PPC, S390X, RISC-V and LoongArch (the last does not compile: it reads `hwcap` but
declares `hw`, targets.cc:714-716). Findings (proved): `SupportedTargets()` stores the unmasked detection result in the
chosen target, so calling it after `DisableTargets` re-enables disabled targets for all later dispatches, and another
thread can run a disabled target during the first dispatch; `min_avx3` omits AVX10_2_512.

## Dot product (C35)

`Verif.Dot` models the four overloads of contrib/dot/dot-inl.h (float, f32*bf16, bf16, i16), every assumption flag, any lane
count. Floats are an arbitrary semiring (exact arithmetic; `p : bf16 -> R` is an arbitrary conversion). `size_t` is `Nat`.
`ReorderWidenMulAccumulate` is any function meeting its documentation (`RwmaOk`), and EMU128's is shown to meet it. Loads are
bounds checked. `Verif.DotSpec`: specification `dot`, theorems. Finding (proved): signed overflow in the scalar i16 loop.

## Matrix-vector product (C36)

`Verif.MatVec` models the three overloads of contrib/matvec/matvec-inl.h with and without `add`. Exact arithmetic as in C35. A
pool task reads shared constant inputs and a private buffer, so it is modelled by the list of its `Stream` stores; a schedule
is any permutation of the stores of all tasks (every interleaving for every number of workers, given C11: each task runs exactly
once). Specification: `product` is a `Finset` sum over the columns. Findings: see the theorems `C36_finding_*`.

## Topology (C37, C43, C44, C45)

`Verif.Topology` models the Linux part of contrib/thread_pool/topology.cc: `File::Read` (any sequence of short reads and
EINTR), `ParseDigits`/`ParseNumberWithOptionalSuffix`, `ExpandList`, `Remapper`, `DetectPackages`, `DetectClusterAndCore`,
`SetNodes`, the counting and bit-set phases of the `Topology` constructor, `DataCaches` and `ComputeSets`, and the result of
`TotalLogicalProcessors`. The file system is an arbitrary function from (file, index) to optional contents; buffers are lists
with bounds-checked accesses, `HWY_ASSERT`/`HWY_ABORT` is `.error .abort`, out-of-bounds and signed overflow `.error .ub`.
Specification: `Term`/`Numeral` (an abstract syntax of CPU lists with `render`), `Machine`/`Describes`/`Limits`, `Consistent`.
Not modelled: macOS/Windows/RISC-V-specific sources (a flag selects the RISC-V tolerance in `ExpandList`), thread affinity.
Findings (proved): see `C37_finding_*`, `C44_finding_overflow`, `C45_finding_*`. Unproved remark: `File` treats descriptor 0
as failure.

## Images (C40)

`Verif.Image` models contrib/image/image.h and image.cc: `BytesPerRow`, both constructors, `InitializePadding` (as under msan),
`VoidRow`, `ShrinkTo`, `Image3`, `Rect`, `Mirror` (an inductive relation, so that non-termination is expressible) and
`WrapRowMirror`. Addresses and sizes are natural numbers with explicit 64-bit wrapping; the allocator is any function meeting
`AllocOk` (what C30 proves); only initialisation of bytes is modelled, not their values. Move and swap are not modelled.
Findings: `C40_finding_*`.

## Reference vector operations (C38)

`Verif/CInt.lean` models the C++ integer rules (promotion to `int`, usual arithmetic conversions, modular
conversion and unsigned arithmetic, undefined signed overflow and shift counts). `Verif/EmuArith.lean` is
`hwy/ops/emu128-inl.h` loop by loop: a register is the array `raw[16 / sizeof(T)]` including padding, and
each loop body evaluates the C++ expression with its casts. The theorems (`EmuArithSpec*.lean`) are stated
for registers (`Reg`), lanes (`lane`), two's complement bits (`bitsOf`), integers and congruences only.
Assumptions: `int` is 32 bits, conversion to a narrower signed type is modular, `>>` of a negative `int` is
arithmetic (both branches of `ScalarShr` are proved, the second never shifts a negative value).
`Mul128` uses the model of its portable code (C01..). `HWY_MIN/HWY_MAX` are modelled with the promotion of
the conditional operator. Floats are in C48, conversions and `BitCast` in C49.

### Masks and data movement (C46, C47)
`EmuMask.lean`: masks are the arrays `bits[16 / sizeof(T)]` of all-ones/zero lanes with arbitrary padding; mask bit
bytes and memory are lists with bounds-checked access. `EmuMove.lean`: lanes are of an arbitrary type, because their
contents are only moved. `CopyBytes` of whole lanes is a loop of lane copies.

### Float lanes (C48)
`EmuFloat.lean`: a float lane is its bit pattern, a register of floats the register of the unsigned type of the same
size. IEEE comparison, addition, int/float conversions are definitions over `Fmt` (round to nearest even, trusted like
`CInt`); float to integer conversion out of range is undefined behaviour. Specification: `Fmt.real` (rational value of a
pattern), `extOf` (with infinities), `IsRne`, `truncQ`, floor and ceiling of ℚ. `float16_t`/`bfloat16_t` lanes,
`Add/Sub/Mul/Div/Sqrt/MulAdd` on floats (single IEEE operations) and approximate reciprocals are not modelled.
Excluded inputs of `C48_nearest_int` and `C48_demote_to_nearest_int` are code defects (`C48_finding_*`).

### Conversions (C49)

Modelled: all integer, float/integer, float/double, `bfloat16_t`/`float16_t` conversions of emu128-inl.h, `BitCast`
between any lane sizes (little-endian), and the even/odd widening of inside-inl.h with its integer users. Hardware
conversions are modelled as IEEE 754 defines them (round to nearest even; a conversion to an integer type that does not
fit is undefined behaviour, so the theorems show that the guards in the code exclude it). `IsNearestF` is the
specification of rounding: no finite value of the format is nearer, ties go to the even mantissa. Not modelled:
big-endian variants, the bf16 dot product `WidenMulPairwiseAdd` to float. Code defect: `C49_finding_reorder_demote2_nan`.

### Generic operations on the reference target (`Verif/Gen*.lean`, C50 onwards)

hwy/ops/generic_ops-inl.h implements operations in terms of a target's primitive operations. The models run these
programs on the modelled primitives of emu128-inl.h (C38, C46-C49); `Verif/GenLanes.lean` holds one rule per primitive
operation, each derived from the corresponding C38/C47/C49 theorem, so the generic theorems rest on what was proved
about the primitives and not on a second model of them.

* **Arithmetic and masks (C39).** `GenArith.lean` transcribes the fallbacks of generic_ops-inl.h on integer lanes that
  the reference target uses (branches for other targets are dropped, as cited). `Sel`/`SelZ` in `GenArithSpec4.lean`
  say what a masked operation yields. Division under a mask constrains only selected lanes with a non-zero divisor.
* **CLMul (C50).** `clBit x y k` is the specification: parity of the number of pairs with set bits `i` of `x` and
  `k - i` of `y`. Code defect `C50_finding_clmul_carry`: the masks leave four-bit gaps, which hold column sums up
  to 15, but two operands with a fully set class (bits `r`, `r + 4`, …, `r + 60` and `s`, `s + 4`, …, `s + 60`) have
  the column sum 16 at bit `60 + r + s`, and its carry inverts bit `64 + r + s` (and 68). `C50_clmul_lower/upper` give
  the result for all operands.
* **AES (C51).** The specification in `GenAESSpec.lean` transcribes FIPS 197: `xtime`, field multiplication, inverse
  (`ginv_inverse` shows it is one), affine map bit by bit (`affine_bits`), `ShiftRows`, the column matrices. The code
  computes the S-box by tower-field table lookups. The round functions are proved for all states and keys;
  `C51_decrypt_encrypt` composes them for arbitrary lists of round keys.
* **Bit counts and reversal (C52).** `LeadingZeroCount`, `TrailingZeroCount` and `HighestSetBitIndex` read the biased
  exponent of the lane converted to `float`. `code_bounds` bounds the rounded conversion of every integer below
  `2^64`; `normal_top` shows that `v & ~(v >> 24)` keeps the highest bit and never rounds up, for every `v`. The lane
  counts are those of the vector types (`VecLanes`: powers of two up to the capacity), because the code selects the
  promotion path by the vector size.
* **Dot products (C55).** `GenDot.lean` transcribes the integer fallbacks of `SumsOf4`, `WidenMulAccumulate`,
  `SatWidenMul*` and `SumOfMulQuadAccumulate`. The specification is the exact integer sum of products, clamped once for
  the saturating operations and taken modulo the accumulator width otherwise.
* **Memory (C56).** `GenMem.lean` transcribes the generic gather and scatter fallbacks (used by the reference target), with
  memory as an array and the pointer as a position in it; every access is bounds-checked, so a theorem that says the call
  returns also says that inactive lanes are not accessed. `Scattered` is the last-writer-wins specification.
* **Float scaling (C57).** `GenFloat.lean` transcribes the exponent-clamping and three-factor algorithm of `MulByPow2` on the
  reference target (TExpMinMax = TI, TExpSatSub = TU). The theorem compares the lane with the exact rational `v * 2^e` rounded
  once (`IsRoundedF`), so a double rounding would refute it.
* **Rotations (C58).** `GenRot.lean` transcribes the rotations of `inside-inl.h` and the byte-lookup algorithms of `BitShuffle` and
  `MultiRotateRight` (little-endian branches). `GenBytes.lean` relates lanes to their bytes, so the theorems speak about bits of
  whole 64-bit lanes. `Dup128VecFromValues` is the literal list of its arguments.
* **Shuffles and slides (C59).** `GenShuf.lean` transcribes the tag dispatch of `Per4LaneBlockShuffle` (every overload that the
  128-bit reference target selects) and the index computation of the general case, the lane slides (on whole typed lanes, through
  their bytes), the mask slides, `PairwiseAdd128`, the two quad-difference sums and some small operations. `TwoTablesLookup` based
  overloads for larger vectors are not instantiated on this target.
* **Half-precision conversions (C60).** `GenHalf.lean` transcribes the generic `float16_t` and `bfloat16_t` conversions on the
  reference target's operations (including its floating-point addition and multiplication, C54). The `bfloat16_t` demotions are
  replaced by native ones on that target; the model runs the generic code on its operations.
* **Unroller (C61).** `Unroller.lean` transcribes `unroller-inl.h`; a unit is a record of its functions, the inputs one list or
  a list of pairs. Vectors have `ActualLanes()` lanes; masked accesses touch all lanes if `HWY_MEM_OPS_MIGHT_FAULT`. The vectors
  from `X0Init`, which are overwritten before use, are left out. The reducers assume an associative and commutative operation, so
  floating-point sums are out of scope. The library ships only the two loops and the default units; the reducer and search units
  are those of its test.
* **x86 integer operations (C62).** `X86Reg.lean` models a register as a 128-bit word and its lanes as bit fields, `X86Intrin.lean`
  the instructions (trusted, from the Intel manual), `X86Ops.lean` the code of `x86_128-inl.h` with the preprocessor conditions on
  `HWY_TARGET` kept as comparisons. Masks are registers. Not modelled: float lanes, the `__builtin_constant_p` branches of the
  `*Same` shifts, AVX-512 (mask registers), and 256-bit vectors.
* **x86 rearranging operations (C63).** `X86Perm.lean` models the code; `X86Sym.lean` gives each instruction a rule on symbolic
  bytes, proved for all register contents, so that a code path is checked by evaluating its symbolic result. The statements
  (`X86PermSpec.lean`) are about lanes and mention neither bytes nor instructions.
* **x86 multiplications (C64).** `X86Mul.lean` models the native and emulated products; statements are about integer products
  `val signed x * val signed y`, with `/ 2^w` for upper halves.
* **x86 conversions (C65).** `X86Conv.lean` models promotion, demotion and truncation per target; statements compare
  `val` of the result lane with the (clamped) `val` of the source lane.
* **x86 runtime permutations (C66).** `X86Lookup.lean` models slides and one/two-table lookups per target; the statements
  name the source lane as a function of the index lane.
* **x86 variable shifts (C67).** `X86Reg256.lean` models 256-bit registers and cross-block permutations, `X86Shift.lean` every
  `<<`, `>>`, `Rol`, `Ror` and `Rotate*` overload per target; the statements are the scalar shift/rotate of each lane.
* **x86 masks, Compress, Expand (C68).** `X86CompressTables.lean` is generated from the tables in the sources
  (`tools/compress2lean.py`), `X86Mask.lean` models the functions; the statements speak of `selected` (the ascending list of
  lanes with a true mask) and `rankOf` (how many there are below a lane).
* **x86 interleaved loads and stores (C69).** `X86Interleaved.lean` models the generic implementations the 128-bit x86 targets use;
  the statements only mention lanes and memory elements.
* **x86 128-bit comparisons and masks relative to the first true lane (C70).** `X86First.lean`.
* **x86 reductions (C71).** `X86Reduce.lean`.
* **AVX2 256-bit rearrangements (C72, C73).** `X86V256.lean`: a register is a pair of 128-bit blocks; the instructions added here (`vinserti128`, `vperm2i128`, `vpermq`, `vpermd`, 256-bit blends) are trusted. Lookups and slides by runtime amounts are C73.
* **AVX2 256-bit lookups and slides (C73).** The compiler knowledge (`__builtin_constant_p`) is three universally quantified Booleans.
* **AVX2 256-bit masks, Compress and Expand (C74).** `X86V256Mask.lean`, with the tables of `X86V256Tables.lean` copied from the source by `tools/compress256.py`. `vpmaskmov`, `vpsrlv`, `pext` and `vpermd` are trusted instruction definitions; the uninitialised arrays of the byte versions are universally quantified.
* **AVX2 256-bit integer conversions (C75).** `X86V256Conv.lean`; block-wise operations reuse the 128-bit model at target AVX2, the cross-block ones (`vpermq`, `vpermd`, half combination) are modelled on whole registers. Also closes the two AVX2 cases C65 leaves out.
* **AVX2 256-bit lane-wise integer operations (C76).** `X86V256Ops.lean`; modelled from `x86_256-inl.h` on whole registers (`blk1/blk2` = the same instruction on both blocks). FINDING: `ZeroIfNegative` (x86_256-inl.h:1182-1189) of 16/32/64-bit integers uses the byte-wise blend with the vector itself as mask.
* **AVX2 256-bit multiplications and shifts by a count per lane (C77).** `X86V256Mul.lean`: `x86_256-inl.h` and the shared templates of `x86_128-inl.h`/`generic_ops-inl.h`, on whole registers.
* **AVX2 256-bit Set*First masks and 128-bit comparisons (C78).** `X86V256First.lean`: `x86_256-inl.h:8777-8844` and the `u64` templates `x86_128-inl.h:13751-13871`.
* **AVX2 256-bit reductions (C79).** `X86V256Reduce.lean`: the generic reductions `generic_ops-inl.h:911-1140` as instantiated for 256-bit integer vectors.
* **x86 population count, byte and bit reversal (C80).** `X86Bits.lean`: `generic_ops-inl.h:4481-4551, 6820-6930` for 128-bit vectors of the four x86 targets below AVX3 and 256-bit AVX2 vectors.
* **x86 pairwise sums (C81).** `X86Pairwise.lean`: `PairwiseAdd`, `PairwiseSub`, `PairwiseAdd128`, `PairwiseSub128`, `SumsOf2`, `SumsOf4` of integer lanes; horizontal add/subtract are specified from the Intel manual (trusted).
* **x86 saturating wide addition and product sums (C82).** `X86Pairwise.lean`: `generic_ops-inl.h:3184-3280, 5586-5830` (integer) as instantiated for the four x86 targets below AVX3; `X86V256Pairwise.lean`: the same operations and those of C81 of 256-bit AVX2 vectors.
* **x86 ExtractLane/InsertLane (C83).** `X86Lane.lean`: `x86_128-inl.h:381-416, 6376-6809`, `x86_256-inl.h:4098-4120`; the extract/insert instructions are specified from the Intel manual (trusted); the `Store` and array read of a run-time `ExtractLane` is abstracted to reading lane `i`.
* **Integer division (C53).** `Div` converts to `float` (8 and 16 bit), `double` (32 bit) or two rounds of `double`
  estimates with integer remainders (64 bit). `GenDivReal*.lean` bounds the errors over the rationals; `GenDiv64*.lean`
  shows that the remainder arithmetic, which wraps, is exact. Nothing is assumed about divisors: a zero divisor gives
  some value of the lane type and is not undefined.
* **Float arithmetic (C54).** `fadd`, `fmul`, `fdiv` (`EmuFloat.lean`, `EmuFArith.lean`) model the C++ operators on
  `float`/`double` under the usual assumption of IEEE 754 evaluation (`FLT_EVAL_METHOD` 0, no contraction, default
  rounding). `SumRule`, `ProdRule`, `QuotRule` state the IEEE rules over the rationals. Code finding
  `C54_finding_div_zero`: `Div` on this target returns zero for a zero divisor.
