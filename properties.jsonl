{"id": "C01", "title": "BitSet64 behaves as a set of integers in [0,64)", "statement": "After any sequence of Set/Clear/SetNonzeroBitsFrom64, Get(i) is true iff i was last set and not cleared since; Any/Count/First/Get64 agree with that set; Foreach calls its functor exactly once for each member, in ascending order.", "quantifier": "every finite history of operations, every index < 64, every 64-bit word", "why_tests_cant": "2^64 states and unbounded histories; tests sample a few patterns", "anchors": ["hwy/bit_set.h:BitSet64"]}
{"id": "C02", "title": "BitSet4096 behaves as a set of integers in [0,kMaxSize)", "statement": "For kMaxSize a multiple of 64 (<= 4096), the two-level set answers Get/Any/First/Count/Foreach exactly like an abstract set under any history, and no access leaves the storage array. (For other kMaxSize the storage array is too short: the last partial word is out of bounds.)", "quantifier": "every history, every kMaxSize <= 4096 that is a multiple of 64, every index < kMaxSize", "why_tests_cant": "the summary word and 64 leaf words must stay consistent over unbounded histories", "anchors": ["hwy/bit_set.h:BitSet4096"]}
{"id": "C03", "title": "Divisor computes exact 32-bit quotient and remainder", "statement": "Divisor(d).Divide(n) == n / d and Remainder(n) == n % d.", "quantifier": "all d in [1, 2^32), all n in [0, 2^32)", "why_tests_cant": "2^64 pairs; multiply-high rounding error appears only for rare pairs", "anchors": ["hwy/base.h:Divisor"]}
{"id": "C04", "title": "Divisor64 computes exact 64-bit quotient and remainder", "statement": "Divisor64(d).Divide(n) == n / d and Remainder(n) == n % d.", "quantifier": "all d in [1, 2^64), all n in [0, 2^64)", "why_tests_cant": "2^128 pairs", "anchors": ["hwy/base.h:Divisor64"]}
{"id": "C05", "title": "Mul128 portable fallback returns the full product", "statement": "The 32x32 decomposition used without __int128 yields lower/upper words whose combination is the exact 128-bit unsigned (resp. signed) product.", "quantifier": "all pairs of 64-bit inputs", "why_tests_cant": "2^128 pairs; carries between partial products", "anchors": ["hwy/base.h:Mul128"]}
{"id": "C06", "title": "Portable bit-count fallbacks are exact", "statement": "The SWAR PopCount fallbacks return the number of set bits; FloorLog2/CeilLog2 return the mathematical logs; 64-bit leading/trailing zero counts assembled from 32-bit scans are exact.", "quantifier": "all 32/64-bit inputs (nonzero for scans/logs)", "why_tests_cant": "2^64 inputs", "anchors": ["hwy/base.h:PopCount", "hwy/base.h:FloorLog2", "hwy/base.h:CeilLog2", "hwy/base.h:Num0BitsBelowLS1Bit_Nonzero64", "hwy/base.h:Num0BitsAboveMS1Bit_Nonzero64"]}
{"id": "C07", "title": "DivCeil / RoundUpTo / RoundDownTo", "statement": "DivCeil is the ceiling of the quotient, RoundUpTo/RoundDownTo return the nearest multiple above/below, provided what + align - 1 does not exceed SIZE_MAX; beyond that bound the result wraps.", "quantifier": "all size_t values and all nonzero align", "why_tests_cant": "2^128 pairs; wrap only at the top of the range", "anchors": ["hwy/base.h:DivCeil", "hwy/base.h:RoundUpTo", "hwy/base.h:RoundDownTo"]}
{"id": "C08", "title": "Scalar integer helpers wrap and shift as documented", "statement": "AddWithWraparound adds modulo 2^bits; ScalarShr is an arithmetic shift for signed types even when written without signed >>; ScalarAbs returns |x| (and INT_MIN for INT_MIN); float classification helpers agree with the IEEE field definition.", "quantifier": "all lane values and shift amounts", "why_tests_cant": "2^64 values", "anchors": ["hwy/base.h:AddWithWraparound", "hwy/base.h:ScalarShr", "hwy/base.h:ScalarAbs", "hwy/base.h:ScalarIsNaN", "hwy/base.h:ScalarIsInf", "hwy/base.h:ScalarIsFinite", "hwy/base.h:ScalarCopySign", "hwy/base.h:ScalarSignBit"]}
{"id": "C09", "title": "float16 <-> float32 scalar conversion", "statement": "F32FromF16 is exact for every float16; F16FromF32 rounds the real value to the nearest float16, ties to even, overflow to infinity; converting to float32 and back is the identity on non-NaN float16.", "quantifier": "all 2^32 / 2^16 bit patterns", "why_tests_cant": "rounding corner cases at every exponent incl. subnormals", "anchors": ["hwy/base.h:F32FromF16", "hwy/base.h:F16FromF32"]}
{"id": "C10", "title": "bfloat16 <-> float32 scalar conversion", "statement": "F32FromBF16 is exact; BF16FromF32 rounds to nearest, ties to even, never turns NaN into infinity; round trip through float32 is the identity on non-NaN values.", "quantifier": "all bit patterns", "why_tests_cant": "2^32 patterns, carry into exponent", "anchors": ["hwy/base.h:F32FromBF16", "hwy/base.h:BF16FromF32", "hwy/base.h:F32BitsToBF16Bits"]}
{"id": "C11", "title": "ThreadPool::Run calls the closure exactly once per task", "statement": "For every interleaving of the main and worker threads, a completed Run(begin,end,closure) has called closure(task, worker) exactly once for each task in [begin,end), for no other task, and with worker < NumWorkers().", "quantifier": "all thread counts, all task ranges (with end + NumWorkers < 2^64), all schedules", "why_tests_cant": "schedules and range sizes are unbounded; stealing races", "anchors": ["hwy/contrib/thread_pool/thread_pool.h:ThreadPool::Run", "hwy/contrib/thread_pool/thread_pool.h:Tasks"]}
{"id": "C12", "title": "Run returns only after all its tasks finished", "statement": "No call to the closure is still executing or pending when Run returns, for each wait type and barrier type, and across configuration switches.", "quantifier": "all schedules, all sequences of Run/SetWaitMode, every Config; num_threads up to the point where barrier counters alias worker slots", "why_tests_cant": "barrier protocol over unbounded histories and schedules", "anchors": ["hwy/contrib/thread_pool/thread_pool.h:BarrierCounter", "hwy/contrib/thread_pool/thread_pool.h:BarrierOrdered", "hwy/contrib/thread_pool/thread_pool.h:BarrierGroup", "hwy/contrib/thread_pool/thread_pool.h:MainAdapter", "hwy/contrib/thread_pool/thread_pool.h:ThreadFunc"]}
{"id": "C13", "title": "ThreadPool never deadlocks and SetWaitMode/destructor hand over the configuration consistently", "statement": "In every reachable state some thread can step until the operation completes; whenever main wakes workers, every worker waits with the same wait type as main signals, and arrives at the barrier type main waits on; after the destructor all threads exited.", "quantifier": "all schedules and histories of Run/SetWaitMode followed by destruction", "why_tests_cant": "liveness over all schedules", "anchors": ["hwy/contrib/thread_pool/thread_pool.h:SendConfig", "hwy/contrib/thread_pool/thread_pool.h:WaitBlock", "hwy/contrib/thread_pool/thread_pool.h:WaitSpin1", "hwy/contrib/thread_pool/thread_pool.h:WaitSpinSeparate"]}
{"id": "C14", "title": "Static task ranges partition [begin,end) evenly", "statement": "DivideRangeAmongWorkers gives consecutive disjoint ranges covering [begin,end) whose sizes differ by at most one, larger ones first.", "quantifier": "all begin <= end, all worker counts >= 1", "why_tests_cant": "unbounded sizes", "anchors": ["hwy/contrib/thread_pool/thread_pool.h:Tasks::DivideRangeAmongWorkers"]}
{"id": "C15", "title": "Work-stealing victim order", "statement": "CoprimeNonzero(a,b) is true iff gcd(a,b)=1; FindAnotherCoprime always finds one before its bound (never reaches HWY_UNREACHABLE); ShuffledIota with that step visits every worker exactly once per NumWorkers steps, so no victim repeats and no worker steals from itself.", "quantifier": "all nonzero 32-bit a,b; all sizes/starts without overflow", "why_tests_cant": "2^64 pairs; tests stop at 40", "anchors": ["hwy/contrib/thread_pool/thread_pool.h:ShuffledIota", "hwy/contrib/thread_pool/thread_pool.h:Worker::Worker"]}
{"id": "C16", "title": "Auto-tuner candidate ring", "statement": "NextWithSkip enumerates non-skipped positions cyclically in ascending order; Skip removes exactly its argument and never the last remaining one; AutoTune always terminates with a candidate after a bounded number of NotifyCost calls.", "quantifier": "all candidate counts < 2^14, all skip histories, all cost sequences", "why_tests_cant": "unbounded histories", "anchors": ["hwy/auto_tune.h:NextWithSkip", "hwy/auto_tune.h:AutoTune"]}
{"id": "C17", "title": "VQSort result is sorted", "statement": "After VQSort the keys are in the requested order.", "quantifier": "all array lengths, all contents, all vector lengths, all random generator states", "why_tests_cant": "unbounded inputs and random pivots", "anchors": ["hwy/contrib/sort/vqsort-inl.h:Sort", "hwy/contrib/sort/vqsort-inl.h:Recurse"]}
{"id": "C18", "title": "VQSort result is a permutation of its input", "statement": "Every key (with its value, for key-value types) occurs as often after sorting as before.", "quantifier": "all inputs, lengths, vector lengths, pivots", "why_tests_cant": "in-place vector stores that overlap could lose keys only for rare sizes", "anchors": ["hwy/contrib/sort/vqsort-inl.h:Partition", "hwy/contrib/sort/vqsort-inl.h:BaseCase"]}
{"id": "C19", "title": "Partition splits around the pivot in place", "statement": "Partition returns the number of keys not after the pivot, moves exactly those to the front, is a permutation, and touches neither memory outside keys[0,num) nor beyond the documented buffer size.", "quantifier": "all num > 2N, all keys, pivots, N", "why_tests_cant": "the overlap argument depends on counts; unbounded", "anchors": ["hwy/contrib/sort/vqsort-inl.h:Partition", "hwy/contrib/sort/vqsort-inl.h:PartitionRightmost", "hwy/contrib/sort/vqsort-inl.h:StoreLeftRight"]}
{"id": "C20", "title": "Sorting-network base case sorts every small array", "statement": "BaseCase sorts (and permutes) every array of up to BaseCaseNumLanes lanes for every supported vector length.", "quantifier": "all key values, all lengths", "why_tests_cant": "0-1 inputs alone are 2^256", "anchors": ["hwy/contrib/sort/sorting_networks-inl.h:Sort8", "hwy/contrib/sort/sorting_networks-inl.h:Sort16", "hwy/contrib/sort/sorting_networks-inl.h:Merge16x16", "hwy/contrib/sort/vqsort-inl.h:BaseCase"]}
{"id": "C21", "title": "HeapSort fallback sorts", "statement": "HeapSort yields a sorted permutation for every non-empty array.", "quantifier": "all arrays, all sizes >= 1", "why_tests_cant": "unbounded", "anchors": ["hwy/contrib/sort/vqsort-inl.h:HeapSort", "hwy/contrib/sort/vqsort-inl.h:SiftDown"]}
{"id": "C22", "title": "VQSelect / HeapSelect place the k-th key", "statement": "Afterwards keys[k] is the k-th in order, no earlier key comes after it and no later key comes before it.", "quantifier": "all arrays, all k < num", "why_tests_cant": "unbounded", "anchors": ["hwy/contrib/sort/vqsort-inl.h:Select", "hwy/contrib/sort/vqsort-inl.h:HeapSelect"]}
{"id": "C23", "title": "VQPartialSort sorts the first k", "statement": "Afterwards keys[0,k) are the first k keys in order, and the array is a permutation of the input.", "quantifier": "all arrays, all k <= num", "why_tests_cant": "unbounded; edge cases k = 0 and k = num", "anchors": ["hwy/contrib/sort/vqsort-inl.h:PartialSort", "hwy/contrib/sort/vqsort-inl.h:HeapPartialSort"]}
{"id": "C24", "title": "NaN handling when sorting floats", "statement": "VQSort moves all NaN to the back as canonical NaN and sorts the rest, preserving the multiset of non-NaN keys. (The same postcondition fails for VQSelect and VQPartialSort on large inputs.)", "quantifier": "all float arrays", "why_tests_cant": "depends on number and position of NaN together with algorithm path", "anchors": ["hwy/contrib/sort/vqsort-inl.h:CountAndReplaceNaN", "hwy/contrib/sort/vqsort-inl.h:Sort", "hwy/contrib/sort/vqsort-inl.h:Select"]}
{"id": "C25", "title": "Two-value and all-equal fast paths preserve keys", "statement": "AllEqual, MaybePartitionTwoValue and MaybePartitionTwoValueR return true only if the result is a sorted permutation, and on failure leave a permutation of the input and report a genuine third key.", "quantifier": "all arrays, lengths, alignments, N", "why_tests_cant": "overwrites keys speculatively; rare undo paths", "anchors": ["hwy/contrib/sort/vqsort-inl.h:MaybePartitionTwoValue", "hwy/contrib/sort/vqsort-inl.h:MaybePartitionTwoValueR", "hwy/contrib/sort/vqsort-inl.h:AllEqual"]}
{"id": "C26", "title": "Pack/Unpack bit packing round trip", "statement": "For Pack8<1..8>, Pack16<1..16> except 11 and 13, Pack32<1..32> and Pack64<1..64> (the latter two with any frame of reference): Unpack after Pack returns the original values whenever they (minus the frame of reference) fit in that many bits; Pack writes only kBits vectors, Unpack only 8/16/32/64 vectors. For Pack16<11> and Pack16<13> the round trip fails on values that fit (defects in the code; the project's test only draws values `random & kBits`, so it misses them).", "quantifier": "all vectors of values, all vector lengths, all bit counts", "why_tests_cant": "2^(bits*lanes) inputs per width; the existing random test does not even draw all bits", "anchors": ["hwy/contrib/bit_pack/bit_pack-inl.h:Pack8", "hwy/contrib/bit_pack/bit_pack-inl.h:Pack16", "hwy/contrib/bit_pack/bit_pack-inl.h:Pack32", "hwy/contrib/bit_pack/bit_pack-inl.h:Pack64"]}
{"id": "C27", "title": "Transform/Generate/Replace/Foreach equal the scalar loop", "statement": "Each output element i < count is the lane-wise function of input element i; no element at or beyond count is read or written, for any remainder.", "quantifier": "all counts, vector lengths, lane-wise functions", "why_tests_cant": "unbounded counts and remainders", "anchors": ["hwy/contrib/algo/transform-inl.h:Transform", "hwy/contrib/algo/transform-inl.h:Generate", "hwy/contrib/algo/transform-inl.h:Foreach", "hwy/contrib/algo/transform-inl.h:Replace"]}
{"id": "C28", "title": "Find/FindIf return the first match", "statement": "Result is the least index whose element matches, or count if none; nothing outside [0,count) is inspected.", "quantifier": "all arrays, counts, predicates, vector lengths", "why_tests_cant": "unbounded", "anchors": ["hwy/contrib/algo/find-inl.h:Find", "hwy/contrib/algo/find-inl.h:FindIf"]}
{"id": "C29", "title": "Copy/Fill/CopyIf", "statement": "Copy and Fill write exactly [0,count); CopyIf appends exactly the elements satisfying the predicate, in order, each once, returning the end.", "quantifier": "all arrays, counts, predicates, vector lengths", "why_tests_cant": "unbounded; overlapping last vector", "anchors": ["hwy/contrib/algo/copy-inl.h:Copy", "hwy/contrib/algo/copy-inl.h:Fill", "hwy/contrib/algo/copy-inl.h:CopyIf"]}
{"id": "C30", "title": "Aligned allocation layout", "statement": "AllocateAlignedBytes returns a pointer aligned to HWY_ALIGNMENT whose header and payload lie inside the underlying allocation without overlap, for every address malloc may return and every prior number of allocations; FreeAlignedBytes passes back exactly the pointer malloc returned; sizes that would overflow are rejected.", "quantifier": "all payload sizes, base addresses, allocation histories, thread interleavings of the offset counter", "why_tests_cant": "address and size arithmetic over 2^64", "anchors": ["hwy/aligned_allocator.cc:AllocateAlignedBytes", "hwy/aligned_allocator.cc:FreeAlignedBytes", "hwy/aligned_allocator.cc:NextAlignedOffset", "hwy/aligned_allocator.h:AllocateAlignedItems"]}
{"id": "C31", "title": "Vectorised Xoshiro equals scalar streams", "statement": "Jump and LongJump equal exactly 2^128 and 2^192 draws for every state; the period is exactly 2^256-1 from every non-zero state and no seed gives the zero state; lane i of VectorXoshiro(seed, t) produces exactly the sequence of the scalar generator long-jumped t times and jumped i times; streams of different threads and lanes never visit the same state; array fills equal consecutive single draws when the lane count divides n, and write past the array otherwise; CachedXoshiro returns the same sequence across refills; Uniform results are the 53 high bits divided by 2^53, in [0,1).", "quantifier": "all seeds, thread numbers, states, positions, vector lengths, array lengths and numbers of draws", "why_tests_cant": "unbounded streams", "anchors": ["hwy/contrib/random/random-inl.h:Xoshiro", "hwy/contrib/random/random-inl.h:VectorXoshiro"]}
{"id": "C32", "title": "Stats accumulation", "statement": "After any history of Notify/Assimilate the count, min, max, mean and central moments equal those of the multiset of all notified values (over exact arithmetic).", "quantifier": "all histories and tree shapes of Assimilate", "why_tests_cant": "unbounded histories", "anchors": ["hwy/stats.h:Stats"]}
{"id": "C33", "title": "robust_statistics CountingSort / MinRange / Mode / Median", "statement": "CountingSort sorts; MinRange returns the start of a shortest window; Median returns the documented middle value.", "quantifier": "all arrays", "why_tests_cant": "unbounded", "anchors": ["hwy/robust_statistics.h"]}
{"id": "C34", "title": "Dynamic dispatch selects the best supported target", "statement": "The function pointer chosen corresponds to the best (lowest-bit) target that is both compiled in and supported after masking, initialises once, and after DisableTargets/SetSupportedTargetsForTest + re-init follows the new mask; falls back to a baseline when nothing remains.", "quantifier": "all masks of compiled/supported/disabled targets", "why_tests_cant": "2^64 masks and call histories", "anchors": ["hwy/targets.h:ChosenTarget", "hwy/targets.cc:SupportedTargets", "hwy/highway.h:FunctionCache"]}
{"id": "C35", "title": "Dot product covers each element exactly once", "statement": "With any assumption flags that hold, Dot::Compute multiplies each pair of elements exactly once and reads only in-bounds (or declared padded) memory; over exact arithmetic the result is the dot product.", "quantifier": "all lengths, vector lengths, flag combinations", "why_tests_cant": "unbounded lengths and remainders", "anchors": ["hwy/contrib/dot/dot-inl.h:Dot"]}
{"id": "C36", "title": "MatVec computes the matrix-vector product", "statement": "For every rows x cols, MatVec writes out[r] = sum_c mat[r,c]*vec[c] for every row, in exact arithmetic, with each row written by exactly one task.", "quantifier": "all shapes, vector lengths, worker counts", "why_tests_cant": "unbounded shapes and schedules", "anchors": ["hwy/contrib/matvec/matvec-inl.h:MatVec"]}
{"id": "C37", "title": "CPU-list parsing in Topology", "statement": "Parsing a sysfs CPU list such as 0-3,8 yields exactly the listed CPUs in order; accepted lists consist of comma separated terms and never name a CPU above the maximum; parsing never reads outside the buffer. Parsing a number with optional size suffix yields its value.", "quantifier": "all strings", "why_tests_cant": "unbounded strings", "anchors": ["hwy/contrib/thread_pool/topology.cc"]}
{"id": "C38", "title": "Integer lane semantics of the reference (EMU128) vector operations", "statement": "For each of the eight integer lane types, arithmetic, logical, shift, rotate, saturating, averaging, min/max, widening and high multiplication, comparison, 128-bit comparison, mask logic and reduction operations compute, in every lane, the value documented in g3doc/quick_reference.md, without undefined behaviour.", "quantifier": "all lane types, all vector lengths up to a full vector, all lane and padding contents, all shift counts below the lane width", "why_tests_cant": "2^128 to 2^384 argument combinations per operation", "anchors": ["hwy/ops/emu128-inl.h: Add, Sub, Mul, MulHigh, MulEven, MulFixedPoint15, SaturatedAdd, AverageRound, Abs, Min, ShiftLeft, RotateRight, IfThenElse, Lt, Lt128, Min128, SumsOf8, ReduceSum, Iota", "hwy/base.h: ScalarShr, ScalarAbs, Mul128, AddWithWraparound"]}
{"id": "C39", "title": "Generic integer arithmetic, masked operations and mask conversions compute the documented value", "statement": "On the reference target, the target-independent implementations in generic_ops-inl.h of Clamp, RotateLeft, BitwiseIfThenElse, IsNegative and IfNegative*, MinMagnitude/MaxMagnitude, AddSub, SaturatedAdd/Sub of 32/64-bit lanes, SaturatedNeg/SaturatedAbs, AbsDiff, SumsOf8AbsDiff, RoundingShiftRight/RoundingShiftRightSame/RoundingShr, PairwiseAdd/PairwiseSub, the Masked* and Masked*Or operations and comparisons, MaskedReduceSum/Min/Max, PromoteMaskTo, DemoteMaskTo, OrderedDemote2MasksTo, CombineMasks, LowerHalfOfMask and UpperHalfOfMask give, in every lane, the documented integer (saturated, rounded or modulo 2^bits), never undefined behaviour, and lanes that are not selected are zero or the given fallback.", "quantifier": "all integer lane types, lane counts, lane values, masks and shift counts", "why_tests_cant": "2^128 register values per operand; edge cases (minimum value, carries, padding lanes) are sparse", "anchors": ["hwy/ops/generic_ops-inl.h:Clamp", "hwy/ops/generic_ops-inl.h:SaturatedAdd", "hwy/ops/generic_ops-inl.h:SaturatedNeg", "hwy/ops/generic_ops-inl.h:RoundingShr", "hwy/ops/generic_ops-inl.h:MaskedAddOr", "hwy/ops/generic_ops-inl.h:MaskedReduceMin", "hwy/ops/generic_ops-inl.h:PromoteMaskTo"]}
{"id": "C40", "title": "Image rows are aligned, disjoint and in bounds", "statement": "For dimensions whose padded size fits in size_t, Row(y) pointers are aligned to the vector size and 128 bytes, rows are disjoint and inside the allocation, and each row has room for a vector starting at any pixel; padding initialisation covers what such loads read and overwrites no pixel; Rect::Subrect/IsInside are intersection/containment; Mirror terminates with the reflected coordinate and WrapRowMirror agrees with it.", "quantifier": "all xsize, ysize, element and vector sizes, allocators, rectangles, coordinates", "why_tests_cant": "size arithmetic", "anchors": ["hwy/contrib/image/image.h", "hwy/contrib/image/image.cc"]}
{"id": "C41", "title": "AlignedNDArray rows are disjoint, aligned and inside the buffer", "statement": "For a shape whose padded size fits in size_t, the innermost arrays returned by operator[] for distinct in-range indices lie inside the buffer, do not overlap, and start at a multiple of VectorBytes() elements; without that assumption the size computation can wrap and rows lie outside the buffer.", "quantifier": "all numbers of axes, shapes, index tuples, vector sizes", "why_tests_cant": "unbounded shapes and axes", "anchors": ["hwy/aligned_allocator.h:AlignedNDArray", "hwy/aligned_allocator.h:ComputeSizes"]}
{"id": "C42", "title": "double to float16/bfloat16 does not double round", "statement": "F16FromF64 and BF16FromF64 return the 16-bit value nearest to the double, ties to even, overflow to infinity, NaN to NaN and sign preserved, although they go through an intermediate float.", "quantifier": "all 2^64 bit patterns", "why_tests_cant": "2^64 inputs; double-rounding errors occur only for doubles within a float ulp of a 16-bit midpoint", "anchors": ["hwy/base.h:F16FromF64", "hwy/base.h:BF16FromF64"]}
{"id": "C43", "title": "Detected topology is consistent and complete", "statement": "On Linux, for every machine that sysfs describes with at most 1024 logical processors, 255 packages and 16 SMT siblings per core, Topology assigns every logical processor to exactly one package, cluster, core and SMT slot; two processors get the same package/core/cluster if and only if their sysfs ids are equal; the LP set of each core and cluster contains exactly its members; node ids match the node cpulists; and whatever the files contain, detection never accesses memory out of bounds and any topology it returns is consistent.", "quantifier": "all contents of all sysfs files, processor counts, id assignments", "why_tests_cant": "tests see only the machine they run on", "anchors": ["hwy/contrib/thread_pool/topology.cc:InitLPs", "hwy/contrib/thread_pool/topology.cc:DetectPackageAndCore", "hwy/contrib/thread_pool/topology.cc:DetectClusterAndCore", "hwy/contrib/thread_pool/topology.cc:Topology::Topology"]}
{"id": "C44", "title": "Reading a sysfs file is complete and bounded", "statement": "Reading a file of at most 199 bytes through any sequence of short reads and interruptions yields its whole contents, null terminated, inside the buffer.", "quantifier": "all contents, all sequences of partial reads and EINTR", "why_tests_cant": "short reads and signals are scheduled by the kernel", "anchors": ["hwy/contrib/thread_pool/topology.cc:File::Read", "hwy/contrib/thread_pool/topology.cc:ReadSysfs"]}
{"id": "C45", "title": "Reported data caches are per-core shares", "statement": "For machines described by sysfs, DataCaches() reports for each level the first data or unified cache with its size divided by the number of cores sharing it, with sets * associativity * line size equal to the size; missing levels are zero; TotalLogicalProcessors() is between 1 and 1024.", "quantifier": "all cache descriptions, sharing lists and results of sysconf", "why_tests_cant": "tests see only the machine they run on", "anchors": ["hwy/contrib/thread_pool/topology.cc:DataCaches", "hwy/contrib/thread_pool/topology.cc:ComputeSets", "hwy/contrib/thread_pool/topology.cc:TotalLogicalProcessors"]}
{"id": "C46", "title": "Mask operations of the reference vector target", "statement": "FirstN, BitsFromMask, LoadMaskBits, StoreMaskBits, Dup128MaskFromMaskBits, AllTrue, AllFalse, CountTrue, FindFirstTrue, FindLastTrue, SetBeforeFirst, SetOnlyFirst, SetAtOrBeforeFirst, SetAtOrAfterFirst compute the documented function of the mask lanes; Compress, CompressNot, CompressStore, CompressBitsStore, Expand and LoadExpand keep the order of lanes, write no element beyond those documented and read only as many elements as lanes are true; storing and reloading mask bits is the identity, and Expand inverts Compress.", "quantifier": "all lane types, all vector lengths up to a full vector, all masks, all lane and padding contents, all memory contents", "why_tests_cant": "2^16 masks times all lane and memory contents", "anchors": ["hwy/ops/emu128-inl.h: FirstN, BitsFromMask, LoadMaskBits, StoreMaskBits, CountTrue, FindFirstTrue, SetBeforeFirst, Compress, CompressStore, Expand, LoadExpand"]}
{"id": "C47", "title": "Memory and data movement operations of the reference vector target", "statement": "Load, LoadN, LoadNOr, Store, StoreN, BlendedStore, LoadInterleaved2/3/4 and StoreInterleaved2/3/4 transfer exactly the documented elements, leaving all other memory untouched and never accessing memory beyond them; Combine, Concat*, Lower/UpperHalf, Slide*, Shift*Lanes, Shift*Bytes, CombineShiftRightBytes, TableLookupBytes, TableLookupLanes, TwoTablesLookupLanes, Reverse*, Shuffle*, Interleave*, Dup*, OddEven, Broadcast and ZipLower move each lane to the documented position.", "quantifier": "all lane types, vector lengths, lane contents, memory contents, counts, shift amounts and table indices", "why_tests_cant": "all contents, counts and positions in memory", "anchors": ["hwy/ops/emu128-inl.h: LoadN, StoreN, BlendedStore, LoadInterleaved3, StoreInterleaved4, ConcatUpperLower, CombineShiftRightBytes, TableLookupBytes, TwoTablesLookupLanes, Reverse8, InterleaveUpper, SlideUpLanes"]}
{"id": "C48", "title": "Floating-point lanes of the reference vector target", "statement": "For float and double lanes, Round, Trunc, Ceil and Floor return the nearest-even, truncated, next-higher and next-lower integer of each finite lane and leave NaN and infinities unchanged; NearestInt and DemoteToNearestInt return the nearest-even integer saturated to the target type; Abs, Neg, CopySign and CopySignToAbs change only the sign bit; comparisons, IsNaN, Min and Max follow the order of the extended reals with NaN unordered and ignored by Min/Max when the other operand is a number. None of them executes undefined behaviour.", "quantifier": "all vectors of float and double bit patterns including NaN, infinities, subnormals and signed zeros, and all vector lengths", "why_tests_cant": "2^32 or 2^64 patterns per lane, pairs of them for binary operations", "anchors": ["hwy/ops/emu128-inl.h: Round, NearestInt, DemoteToNearestInt, Trunc, Ceil, Floor, IsNaN, Abs, Neg, CopySign, Min, Max", "hwy/base.h: ScalarAbs, ScalarIsNaN, MantissaEnd, ExponentMask"]}
{"id": "C49", "title": "Conversions of the reference vector target", "statement": "PromoteTo keeps every value; DemoteTo and OrderedDemote2To clamp integers to the destination type; TruncateTo and OrderedTruncate2To keep the low bits; float-to-integer conversions truncate toward zero and saturate (infinities and NaN by their sign bit), and their in-range forms are exact whenever the result is representable; integer-to-float and double-to-float conversions return the nearest-even float, the latter saturating at the largest finite float; bfloat16 and float16 conversions are nearest-even and keep NaN; BitCast keeps all bytes; PromoteEvenTo/PromoteOddTo, SumsOf2, WidenMulPairwiseAdd and ReorderWidenMulAccumulate combine exactly the even and odd lanes. No conversion executes undefined behaviour.", "quantifier": "all input vectors (every bit pattern), all source and destination lane types, all vector lengths", "why_tests_cant": "2^32 or 2^64 patterns per lane and dozens of type pairs; boundaries lie at rounding and saturation limits", "anchors": ["hwy/ops/emu128-inl.h: CastValueForF2IConv, CastValueForInRangeF2IConv, PromoteTo, DemoteTo, ReorderDemote2To, OrderedDemote2To, ConvertTo, TruncateTo, OrderedTruncate2To, U8FromU32, BitCast, WidenMulPairwiseAdd, ReorderWidenMulAccumulate", "hwy/ops/inside-inl.h: PromoteEvenTo, PromoteOddTo", "hwy/ops/generic_ops-inl.h: SumsOf2, MulAdd"]}
{"id": "C50", "title": "Carry-less multiplication of the generic implementation", "statement": "CLMulLower and CLMulUpper multiply the even, respectively odd, 64-bit lanes as polynomials over GF(2): the even result lane always holds bits 0..63 of the product, and the odd result lane holds bits 64..127 whenever no residue class modulo 4 of the bits is fully set in each operand; otherwise exactly two bits of the upper half are inverted per pair of full classes.", "quantifier": "all pairs of 64-bit operands", "why_tests_cant": "2^128 operand pairs; the failing operands are a 2^-28 fraction that random tests do not hit", "anchors": ["hwy/ops/generic_ops-inl.h: CLMulLower, CLMulUpper"]}
{"id": "C51", "title": "AES operations of the generic implementation", "statement": "AESRound, AESLastRound, AESRoundInv, AESLastRoundInv, AESInvMixColumns and AESKeyGenAssist return exactly the corresponding FIPS 197 round functions of the state and round key (S-box defined by the field inverse and affine map, row shifts, column matrix); a block encrypted with AESRound/AESLastRound is recovered by AESRoundInv/AESLastRoundInv with the same round keys in reverse order through AESInvMixColumns, for every number of rounds.", "quantifier": "all 128-bit states and round keys, every round constant, every number of rounds", "why_tests_cant": "2^256 (state, key) pairs per round and unbounded round-key lists", "anchors": ["hwy/ops/generic_ops-inl.h: detail::SubBytesMulInverseAndAffineLookup, SubBytes, InvSubBytes, ShiftRows, InvShiftRows, GF2P8Mod11BMulBy2, MixColumns, InvMixColumns, AESRound, AESLastRound, AESInvMixColumns, AESRoundInv, AESLastRoundInv, AESKeyGenAssist"]}
{"id": "C52", "title": "Counting and reversing bits", "statement": "For every lane: PopulationCount returns the number of set bits; LeadingZeroCount and TrailingZeroCount return the number of zero bits above the highest / below the lowest set bit, and the lane width for zero lanes; MaskedLeadingZeroCount is the same with zeros in unselected lanes; HighestSetBitIndex returns the index of the highest set bit, and for zero lanes a negative (signed) or above-signed-maximum (unsigned) value; ReverseBits and ReverseLaneBytes reverse the bits / bytes of every lane.", "quantifier": "all lane types, all lane values, all vector sizes of the reference target", "why_tests_cant": "the counts go through the exponent of a float conversion, which is wrong exactly for the inputs that round up to the next power of two; 2^64 values per lane", "anchors": ["hwy/ops/generic_ops-inl.h: PopulationCount, detail::UIntToF32BiasedExp, detail::NormalizeForUIntTruncConvToF32, HighestSetBitIndex, LeadingZeroCount, TrailingZeroCount, MaskedLeadingZeroCount, ReverseBits, ReverseLaneBytes, detail::UI8ReverseBitsStep"]}
{"id": "C53", "title": "Integer Div and Mod", "statement": "For every lane with a non-zero divisor whose quotient is representable, Div returns the quotient truncated toward zero and Mod the remainder with the sign of the dividend; no lane value, including zero divisors and the minimum divided by -1, makes the call undefined.", "quantifier": "all eight lane types, all pairs of lane values, all vector sizes of the reference target", "why_tests_cant": "the quotient goes through one or two float or double divisions with correction steps, wrong only for particular pairs near a rounding boundary; 2^128 pairs per lane", "anchors": ["hwy/ops/generic_ops-inl.h: Div (integer), Mod, detail::IntDiv, detail::IntMod, detail::IntDivUsingFloatDiv, detail::IntDivConvFloatToInt, detail::IntDivConvIntToFloat, NegMulAdd, IfNegativeThenNegOrUndefIfZero"]}
{"id": "C54", "title": "Floating-point arithmetic of the reference target", "statement": "Add, Sub, Mul and Div return the exact result rounded to nearest-even, with the IEEE rules for signs of zeros, infinities and NaN; MulAdd, MulSub, NegMulAdd and NegMulSub round the product and then the sum; AbsDiff is the rounded difference without its sign; ApproximateReciprocal is the rounded reciprocal.", "quantifier": "float and double lanes, all bit patterns, all vector sizes", "why_tests_cant": "2^128 operand pairs; ties, subnormals and overflow boundaries are sparse", "anchors": ["hwy/ops/emu128-inl.h: operator+, operator-, operator*, operator/, AbsDiff, MulAdd, MulSub, NegMulAdd, NegMulSub, ApproximateReciprocal"]}
{"id": "C55", "title": "Widening dot products", "statement": "Per lane: SumsOf4 is the exact sum of four adjacent lanes; WidenMulAccumulate adds the products of the lower halves to low and of the upper halves to high, modulo the wide width; SatWidenMulPairwiseAdd, SatWidenMulPairwiseAccumulate and SatWidenMulAccumFixedPoint return the exact mathematical result saturated once, including pairs of minimum values whose product sum overflows the accumulator; SumOfMulQuadAccumulate returns sum plus four adjacent products modulo the width of the accumulator, for all signedness combinations.", "quantifier": "all lane values of both operands and the accumulator, all vector sizes of the reference target", "why_tests_cant": "intermediate overflow happens for single operand patterns (all four factors the minimum) out of 2^96 per lane", "anchors": ["hwy/ops/generic_ops-inl.h: SumsOf4, WidenMulAccumulate, SatWidenMulPairwiseAdd, SatWidenMulPairwiseAccumulate, SatWidenMulAccumFixedPoint, SumOfMulQuadAccumulate"]}
{"id": "C56", "title": "Gather, scatter and partial memory accesses", "statement": "ScatterIndex, MaskedScatterIndex, ScatterIndexN and ScatterOffset store exactly the active lanes to base[index[i]] (or base + byte offset), the highest lane winning for equal destinations, and change nothing else; GatherIndex, MaskedGatherIndex(Or), GatherIndexN(Or) and GatherOffset return exactly the addressed elements in active lanes and the default elsewhere; inactive lanes never access memory, so their indices may be out of bounds (non-negative for the masked gathers); MaskedLoad(Or) selects by mask, SafeFillN and SafeCopyN touch exactly num elements, TruncateStore stores the low bits of each lane.", "quantifier": "all lane contents, indices with duplicates and negative values, masks, counts, memory sizes and base positions, all vector sizes of the reference target", "why_tests_cant": "memory safety and last-writer rules for every index vector and mask; out-of-bounds accesses by inactive lanes are invisible unless they fault", "anchors": ["hwy/ops/generic_ops-inl.h: ScatterOffset, ScatterIndex, MaskedScatterIndex, ScatterIndexN, GatherOffset, GatherIndex, MaskedGatherIndex, MaskedGatherIndexOr, GatherIndexN, GatherIndexNOr, SafeFillN, SafeCopyN, TruncateStore", "hwy/ops/emu128-inl.h: MaskedLoad, MaskedLoadOr"]}
{"id": "C57", "title": "Floating-point scaling, exponents and classification", "statement": "MulByPow2(v, e) returns, for every lane and every integer exponent, the exact product v*2^e rounded once to nearest-even (no double rounding, gradual underflow and overflow to infinity included), keeping signs, infinities and NaN; MulByFloorPow2 does the same with the exponent rounded down, with NaN exactly for NaN inputs and 0*inf cases; GetBiasedExponent and GetExponent return the exponent field and the binary logarithm rounded down; IsInf, IsFinite and IsEitherNaN classify exactly; CeilInt and FloorInt saturate; MinMagnitude and MaxMagnitude compare absolute values and break ties by sign; AddSub, MulAddSub and MulSubAdd alternate between difference and sum.", "quantifier": "all bit patterns of all lanes of float and double vectors, all 32- and 64-bit exponents, all vector sizes of the reference target, arithmetic and logical right shifts", "why_tests_cant": "2^64 (value, exponent) pairs per float lane; a second rounding in the subnormal range shows up only for rare mantissas", "anchors": ["hwy/ops/generic_ops-inl.h: MulByPow2, MulByFloorPow2, GetBiasedExponent, GetExponent, IsInf, IsFinite, IsEitherNaN, CeilInt, FloorInt, MinMagnitude, MaxMagnitude, IfNegativeThenNegOrUndefIfZero, AddSub, MulAddSub, MulSubAdd", "hwy/base.h: MaxExponentTimes2"]}
{"id": "C58", "title": "Rotations and bit shuffles", "statement": "Rol, Ror, RotateLeftSame and RotateRightSame rotate the bits of every lane by the given count modulo the lane size, for any count including negative ones and multiples of the lane size; BitShuffle(v, idx) gathers, into bit k of each 64-bit lane, bit idx[8*i+k] modulo 64 of the same lane of v and clears the other bits; MultiRotateRight(v, idx) puts into byte k of each lane the low byte of that lane of v rotated right by idx[8*i+k] modulo 64.", "quantifier": "all lane values and all counts or indices (all int for the same-count forms), all lane types of 8 to 64 bits, all vector sizes of the reference target, arithmetic and logical right shifts", "why_tests_cant": "each 64-bit lane with eight index bytes has 2^128 inputs, and a wrong wrap-around byte or an unmasked shift count shows only for particular counts", "anchors": ["hwy/ops/generic_ops-inl.h: BitShuffle, MultiRotateRight", "hwy/ops/inside-inl.h: Rol, Ror, RotateLeftSame, RotateRightSame", "hwy/ops/emu128-inl.h: ResizeBitCast, TableLookupBytes, SumsOf8"]}
{"id": "C59", "title": "Shuffles, slides and quad differences built from other operations", "statement": "Per4LaneBlockShuffle<i3,i2,i1,i0> gives, in lane k of every group of four lanes, lane ik of the same group of the argument, whichever special-case algorithm the indices select (for one- and two-lane vectors, where the index names an existing lane); ShiftLeftLanes, ShiftRightLanes, CombineShiftRightLanes, Slide1Up and Slide1Down move lanes of every type by the given number of places, bringing in zeros or the other vector's lanes; sliding a mask moves its truth values and brings in false; PairwiseAdd128 and PairwiseSub128 put the pair sums of the first argument in the lower and those of the second in the upper half of a block; InsertIntoUpper, MaskedSet, MaskedSetOr, MaskedOr, SignBit, AllBits0 and AllBits1 do what their names say; SumsOfAdjQuadAbsDiff and SumsOfShuffledQuadAbsDiff return exact sums of four absolute byte differences at the documented offsets.", "quantifier": "all lane values, all shuffle indices 0..3, all shift distances up to the vector size, all offsets the functions admit, all lane types of 8 to 64 bits (8-bit for the quad differences), all vector sizes of the reference target", "why_tests_cant": "256 index combinations times every lane type and vector size times all values, with a dozen special-cased algorithms of which a test may exercise only some", "anchors": ["hwy/ops/generic_ops-inl.h: Per4LaneBlockShuffle, detail::Per4LaneBlockShuffle, PairwiseAdd128, PairwiseSub128, Slide1Up, Slide1Down, SlideMask1Up, SlideMaskUpLanes, SumsOfAdjQuadAbsDiff, SumsOfShuffledQuadAbsDiff, InsertIntoUpper, MaskedSetOr, AllBits1", "hwy/ops/emu128-inl.h: ShiftLeftLanes, ShiftRightLanes, ResizeBitCast, TableLookupLanes"]}
{"id": "C60", "title": "Vector float16 and bfloat16 conversions round correctly", "statement": "PromoteTo float16 to float or double is exact for every finite value and keeps the sign; DemoteTo float or double to float16 gives the nearest float16, ties to even, with overflow to infinity and gradual underflow, keeps signs, infinities and NaN-ness, and is not affected by the intermediate rounding to float; demoting a promoted finite float16 gives it back; the generic DemoteTo, OrderedDemote2To and ReorderDemote2To to bfloat16 give the nearest bfloat16 of each lane, ties to even, in the documented order; PromoteInRangeLower/Upper/Even/OddTo truncate exactly the documented lanes; MulEvenAdd, MulOddAdd and ReorderWidenMulAccumulate of bfloat16 lanes add each rounded product exactly once.", "quantifier": "all 2^32 float, 2^64 double and 2^16 half patterns in every lane, every vector size of the reference target", "why_tests_cant": "2^64 double inputs and the interaction of two roundings; a bit-trick algorithm whose correctness rests on floating-point addition aligning the mantissa", "anchors": ["hwy/ops/generic_ops-inl.h: PromoteTo(float16), DemoteTo(float16), detail::RoundF32ForDemoteToBF16, OrderedDemote2To, ReorderDemote2To, PromoteInRangeLowerTo, PromoteInRangeUpperTo, PromoteInRangeEvenTo, PromoteInRangeOddTo, MulEvenAdd, MulOddAdd, ReorderWidenMulAccumulate"]}
{"id": "C61", "title": "Unroller applies a unit to every element exactly once", "statement": "Unroller with a lane-wise unit stores g(k, x[k]) to y[k] for all k < n and leaves the rest of y unchanged; with a reducer whose operation is associative and commutative it stores the combination of all n elements, each counted once, to y[0]; with a search unit it stores the first matching position or -1. This holds for one and two inputs, for arrays shorter than a vector, and whether or not masked accesses can fault; no element at or beyond n is read or written.", "quantifier": "all array sizes, numbers of lanes, array contents, units of the three kinds, both settings of HWY_MEM_OPS_MIGHT_FAULT", "why_tests_cant": "the tests use fourteen sizes and a few units; the four-fold unrolled loop, the single loop and the masked remainder that overlaps previous elements must fit together for every size", "anchors": ["hwy/contrib/unroller/unroller-inl.h: UnrollerUnit, UnrollerUnit2D, Unroller, MaskLoadImpl, MaskStoreImpl", "hwy/contrib/unroller/unroller_test.cc: FindUnit, AccumulateUnit, MinUnit, DotUnit"]}
{"id": "C62", "title": "x86 128-bit integer operations match their lane-wise definition on SSE2, SSSE3, SSE4 and AVX2", "statement": "On each of the four x86 targets without mask registers, the 128-bit integer operations comparison, selection, mask logic, shifts (compile-time and run-time uniform counts), rotation, Min/Max, Abs, SaturatedAbs, SaturatedAdd/Sub, AverageRound, SumsOf8, SumsOf8AbsDiff, TableLookupBytes(Or0), Iota, FirstN, BroadcastSignBit and IfNegativeThenElse return, in every lane, the value the operation is documented to return; so the targets agree with each other although some have no instruction for the operation or the lane type and emulate it.", "quantifier": "all 128-bit register contents, lane widths 8/16/32/64, both signednesses, all lanes, shift counts and the four targets", "why_tests_cant": "the tests sample register contents and run on one machine; the emulations (64-bit compare from 32-bit pieces, 8-bit shifts from 16-bit ones, unsigned compare by flipping sign bits, minimum via saturated subtraction) must be right for all 2^128 contents and each target", "anchors": ["hwy/ops/x86_128-inl.h: operator==, Gt, operator>=, IfThenElse, ShiftLeft, ShiftRight, RotateRight, ShiftLeftSame, ShiftRightSame, BroadcastSignBit, Min, Max, Abs, SaturatedAbs, SaturatedAdd, SaturatedSub, AverageRound, SumsOf8, SumsOf8AbsDiff, TableLookupBytes, TableLookupBytesOr0, Iota, FirstN, IfNegativeThenElse, IfNegativeThenNegOrUndefIfZero"]}
{"id": "C63", "title": "x86 128-bit rearranging operations move exactly the documented lanes on SSE2, SSSE3, SSE4 and AVX2", "statement": "InterleaveLower/Upper, UpperHalf, Combine, ZeroExtendVector, ConcatLowerLower/UpperUpper/LowerUpper/UpperLower/Odd/Even, DupEven/Odd, OddEven, InterleaveEven/Odd, Shuffle*, Reverse/2/4/8, Broadcast, ShiftLeft/RightBytes/Lanes and CombineShiftRightBytes return, in lane i of the result, the lane (or zero) their documentation names, for full and partial vectors; bytes of the register beyond a partial vector never reach a lane of the result.", "quantifier": "all register contents (including the bytes above partial vectors), every lane width and vector size the operation accepts, every lane, every shift distance, and the four targets", "why_tests_cant": "each target has its own instruction sequence per width and size (packs with saturation, byte shuffles, shuffles of two registers); tests run one target at a time and zero or repeat the unused bytes", "anchors": ["hwy/ops/x86_128-inl.h: InterleaveLower, InterleaveUpper, UpperHalf, Combine, ZeroExtendVector, ConcatLowerLower, ConcatUpperUpper, ConcatLowerUpper, ConcatUpperLower, ConcatOdd, ConcatEven, DupEven, DupOdd, OddEven, InterleaveEven, InterleaveOdd, Shuffle1032, Shuffle01, Shuffle0321, Shuffle2103, Shuffle0123, ShuffleTwo2301, ShuffleTwo1230, ShuffleTwo3012, Reverse, Reverse2, Reverse4, Reverse8, Broadcast, ShiftLeftBytes, ShiftLeftLanes, ShiftRightBytes, ShiftRightLanes, CombineShiftRightBytes"]}
{"id": "C64", "title": "x86 128-bit integer multiplications return the mathematical product on SSE2, SSSE3, SSE4 and AVX2", "statement": "a * b of 16-, 32- and 64-bit lanes is the product modulo 2^w; MulHigh (8 to 64 bits) its upper half rounded down; MulEven and MulOdd the full product of the even or odd lanes (two lanes for 64-bit factors); WidenMulPairwiseAdd and ReorderWidenMulAccumulate the sum of two products; MulFixedPoint15 the product of two Q1.15 numbers rounded to nearest unless both are -1. Signed and unsigned, full and partial vectors, native and emulated instruction sequences.", "quantifier": "all register contents, every lane width, signedness and vector size the operation accepts, every lane, the four targets, and 64-bit as well as 32-bit x86 for 64-bit factors", "why_tests_cant": "the emulations combine partial products with carries and sign corrections that show only for particular operand pairs, of which there are up to 2^128; tests run one target at a time", "anchors": ["hwy/ops/x86_128-inl.h: operator*, MulHigh, MulEven, MulOdd, detail::SSE2Mul128, WidenMulPairwiseAdd, ReorderWidenMulAccumulate, RearrangeToOddPlusEven, MulFixedPoint15", "hwy/ops/generic_ops-inl.h: operator* (64-bit)", "hwy/base.h: Mul128"]}
{"id": "C65", "title": "x86 128-bit integer conversions preserve or saturate the value of every lane on SSE2, SSSE3, SSE4 and AVX2", "statement": "PromoteTo (and PromoteLowerTo/UpperTo/EvenTo/OddTo) keeps the value of the selected lane; DemoteTo and OrderedDemote2To/ReorderDemote2To return the value clamped to the range of the narrow type, for every combination of signednesses and 64- to 8-bit widths, in source order; TruncateTo returns the value modulo 2^n; 8-bit multiplication is the product modulo 256; SatWidenMulPairwiseAdd the saturated sum of two u8*i8 products.", "quantifier": "all register contents, all pairs of integer lane types the operation accepts, every vector size and lane, the four targets", "why_tests_cant": "each target clamps with different tricks (biased minima, masks built from shifts, byte shuffles) that fail only for particular values near the 2^8, 2^16, 2^32 and 2^63 boundaries; tests sample values and run one target", "anchors": ["hwy/ops/x86_128-inl.h: PromoteTo, DemoteTo, TruncateTo, ReorderDemote2To, OrderedDemote2To, detail::DemoteFromU64Saturate, detail::PromoteEvenTo, detail::PromoteOddTo, SatWidenMulPairwiseAdd", "hwy/ops/generic_ops-inl.h: DemoteTo and ReorderDemote2To (unsigned to signed), PromoteLowerTo, PromoteUpperTo, operator* (8-bit), SatWidenMulPairwiseAdd", "hwy/ops/inside-inl.h: detail::PromoteEvenTo, detail::PromoteOddTo"]}
{"id": "C66", "title": "x86 128-bit slides and table lookups move the lanes named by runtime amounts and indices on SSE2, SSSE3, SSE4 and AVX2", "statement": "SlideUpLanes(d, v, amt) puts lane i - amt into lane i and zeros below, SlideDownLanes lane i + amt and zeros above, for every amt < Lanes(d), whether or not the compiler knows amt; Slide1Up/Slide1Down likewise also for one lane; TableLookupLanes with IndicesFromVec returns v[idx[i]] for every index below Lanes(d), and TwoTablesLookupLanes the lane of the concatenation of a and b for every index below 2*Lanes(d).", "quantifier": "all register contents (including the unspecified upper part of partial vectors and indices of other lanes), all amounts and indices in range, every integer lane width and vector size, the four targets", "why_tests_cant": "indices and amounts are runtime data expanded into byte indices with shifts and additions that differ per target and size; there are more than 2^64 index vectors", "anchors": ["hwy/ops/x86_128-inl.h: SlideUpLanes, detail::SlideUpLanes, SlideDownLanes, detail::SlideDownLanes, IndicesFromVec, TableLookupLanes, TwoTablesLookupLanes", "hwy/ops/generic_ops-inl.h: Slide1Up, Slide1Down"]}
{"id": "C67", "title": "x86 128-bit shifts and rotates by a count per lane equal the scalar shift of each lane on SSE2, SSSE3, SSE4 and AVX2", "statement": "v << bits and v >> bits shift every lane by the count in the same lane whenever that count is less than the lane width (>> rounds towards minus infinity for signed lanes and fills with zeros for unsigned ones); Rol and Ror rotate each lane by its own count modulo the lane width, for every count; RotateLeftSame/RotateRightSame rotate by any int modulo the lane width, and RotateLeft<k> by the constant k.", "quantifier": "all register contents (also the unspecified part of partial vectors and out-of-range counts in other lanes), all counts in range, every integer lane type and vector size, the four targets, GCC and other compilers", "why_tests_cant": "without variable-shift instructions the code multiplies by powers of two built from float exponents, converts them with rounding or truncation, fixes up zero counts, or goes through 256-bit registers and saturating demotions; each lane/count pair is a separate case and tests sample a handful of the 2^256 inputs", "anchors": ["hwy/ops/x86_128-inl.h: operator<<, operator>>, detail::Pow2, detail::Shl, detail::SignedShr", "hwy/ops/inside-inl.h: Rol, Ror, RotateLeftSame, RotateRightSame", "hwy/ops/generic_ops-inl.h: RotateLeft", "hwy/ops/x86_256-inl.h: TruncateTo, DemoteTo, OrderedDemote2To"]}
{"id": "C68", "title": "x86 128-bit mask bits, mask tests, Compress* and Expand* follow the mask lane by lane on SSE2, SSSE3, SSE4 and AVX2", "statement": "BitsFromMask/StoreMaskBits put mask lane i into bit i and clear the unused bits; LoadMaskBits and Dup128MaskFromMaskBits are the inverse and ignore the unused bits; AllFalse, AllTrue, CountTrue, Find(Known)First/LastTrue answer the question about the mask lanes of the vector only. Compress and CompressBits put the lanes with a true mask first in order (and, for lanes wider than a byte, the others after them in order), CompressNot those with a false mask; CompressStore/CompressBitsStore write those lanes, return their number and write nothing beyond Lanes(d); BlendedStore and CompressBlendedStore write exactly the selected lanes. Expand and LoadExpand give each lane with a true mask the next unused input lane and zero the others, so that Expand(Compress(v, m), m) is v where m is true. For byte vectors of fewer than eight lanes the number returned by CompressBitsStore also counts the unused bits.", "quantifier": "all register contents and masks (with arbitrary contents above a partial vector), all bit arrays, all memory contents, every lane width and vector size, the four targets", "why_tests_cant": "the code uses tables of up to 256 rows of 8 to 16 indices, PSHUFB with zeroing indices, nibble tables and packed masks; a wrong table entry shows for a single mask and a single lane, and stray writes depend on what is in memory", "anchors": ["hwy/ops/x86_128-inl.h: LoadMaskBits, Dup128MaskFromMaskBits, BitsFromMask, StoreMaskBits, AllFalse, AllTrue, CountTrue, FindFirstTrue, FindLastTrue, FindKnownFirstTrue, FindKnownLastTrue, Compress, CompressNot, CompressBits, CompressStore, CompressBlendedStore, CompressBitsStore, BlendedStore", "hwy/ops/generic_ops-inl.h: CompressBitsStore, CompressStore, CompressBlendedStore, Compress, CompressBits, CompressNot, Expand, LoadExpand"]}
{"id": "C69", "title": "x86 128-bit LoadInterleaved2/3/4 and StoreInterleaved2/3/4 transpose exactly, for every lane size and vector size", "statement": "LoadInterleavedK(d, p, v0, ..) sets lane i of v_c to p[K*i + c]; StoreInterleavedK(v0, .., d, p) sets p[K*i + c] to lane i of v_c for all i < Lanes(d) and leaves every other element of memory unchanged; loading what was stored gives the vectors back, also if the store was made by code for another target.", "quantifier": "all memory contents, all register contents (with arbitrary contents above a partial vector), K = 2, 3, 4, every 8/16/32/64-bit lane size and vector size of 1 to 16 bytes, and SSE2, SSSE3, SSE4, AVX2", "why_tests_cant": "Dozens of shuffle tables and unpack sequences, one set per lane size, vector size and target; a wrong index that repeats a neighbouring lane, or a store that spills past a partial vector, is only seen for the inputs and memory contents a test happens to use", "anchors": ["hwy/ops/generic_ops-inl.h: LoadInterleaved2, LoadInterleaved3, LoadInterleaved4, StoreInterleaved2, StoreInterleaved3, StoreInterleaved4", "hwy/ops/x86_128-inl.h: OddEven, ConcatEven, InterleaveUpper"]}
{"id": "C70", "title": "x86 128-bit comparisons of u64 pairs and the Set*First mask operations mean what they say on SSE2, SSSE3, SSE4 and AVX2", "statement": "Lt128, Eq128 and Ne128 set both lanes of a pair to the truth of a < b, a = b, a != b of the 128-bit numbers formed by lane 1 (high) and lane 0; the Upper variants compare lane 1 only; Min128/Max128 return the smaller/larger number, Min128Upper/Max128Upper the first argument if its upper lane is strictly smaller/larger and otherwise the second. For a mask, SetAtOrAfterFirst is true exactly from the first true lane on, SetBeforeFirst exactly before it, SetAtOrBeforeFirst exactly up to it and SetOnlyFirst exactly for it; with no true lane, SetBeforeFirst and SetAtOrBeforeFirst are all true and the others all false.", "quantifier": "all register contents, all masks with arbitrary contents above a partial vector, every 8/16/32/64-bit lane size and vector size of 1 to 16 bytes, and SSE2, SSSE3, SSE4, AVX2", "why_tests_cant": "2^256 pairs; equal upper halves and numbers on both sides of 2^63 and 2^127 are measure zero under random tests. The mask operations rest on carries of 64-bit negation across lanes and a manual carry into the upper half, for each of the masks of up to 16 lanes and any garbage above a partial vector", "anchors": ["hwy/ops/x86_128-inl.h: Lt128, Eq128, Ne128, Lt128Upper, Eq128Upper, Ne128Upper, Min128, Max128, Min128Upper, Max128Upper", "hwy/ops/x86_128-inl.h: SetAtOrAfterFirst, SetBeforeFirst, SetOnlyFirst, SetAtOrBeforeFirst"]}
{"id": "C71", "title": "x86 reductions: SumOfLanes, MinOfLanes, MaxOfLanes, ReduceSum/Min/Max and their masked forms are exact on SSE2, SSSE3, SSE4 and AVX2", "statement": "SumOfLanes puts the sum of all lanes, wrapped to the lane type, into every lane; MinOfLanes/MaxOfLanes put into every lane a lane of the vector that is at most/at least every other one (signed or unsigned as the type says); ReduceSum/ReduceMin/ReduceMax return that value. MaskedReduceSum is the sum over the lanes whose mask is set; MaskedReduceMin/Max the least/greatest of those lanes, and the greatest/least value of the type if there are none. Lanes above a partial vector never contribute. Reverse2, Reverse4 and Reverse8 reverse every group of two, four or eight lanes, bytes included.", "quantifier": "all register contents (including arbitrary contents above a partial vector), all masks, signed and unsigned lanes of 8/16/32/64 bits, every vector size of 1 to 16 bytes, and SSE2, SSSE3, SSE4, AVX2", "why_tests_cant": "There are up to 2^128 vectors per type; the code chooses among psadbw, phminposuw, complement tricks, widening to 16 bits and shuffle ladders by type, size and target, and an error in one ladder step only shows when the affected lane decides the result", "anchors": ["hwy/ops/generic_ops-inl.h: detail::ReduceWithinBlocks, SumOfLanes, MinOfLanes, MaxOfLanes, ReduceSum, ReduceMin, ReduceMax, MaskedReduceSum, MaskedReduceMin, MaskedReduceMax, Reverse2, Reverse4, Reverse8", "hwy/ops/x86_128-inl.h: SumOfLanes (SumsOf8), MinOfLanes, MaxOfLanes (minpos_epu16)"]}
{"id": "C72", "title": "AVX2 256-bit fixed rearrangements move exactly the documented lanes across both 128-bit blocks", "statement": "On AVX2 each of Concat{Odd,Even,LowerLower,LowerUpper,UpperLower,UpperUpper}, LowerHalf, UpperHalf, Combine, ZeroExtendVector, ExtractBlock, InsertBlock, ShiftLeft/RightBytes, CombineShiftRightBytes, TableLookupBytes(Or0), Broadcast, BroadcastLane, BroadcastBlock, SwapAdjacentBlocks, ReverseBlocks, Interleave{Even,Odd}Blocks, OddEvenBlocks, Shuffle2301/1032/0321/2103/0123/01, Interleave{Lower,Upper,WholeLower,WholeUpper,Even,Odd}, DupEven, DupOdd, OddEven, Reverse2, Reverse4, Slide1Up, Slide1Down, SlideUpBlocks, SlideDownBlocks yields a 256-bit vector each of whose lanes is exactly the lane of the operands (or zero) that the reference documents, including the per-block behaviour of the operations documented as per-block.", "quantifier": "all 256-bit register contents, all lanes, lane widths 8/16/32/64, integer and floating-point overloads, every legal template argument (lane, block, byte count)", "why_tests_cant": "AVX2 instructions act on 128-bit halves, so each operation is a combination of per-block shuffles and cross-block permutes chosen by type, size and constant; a wrong immediate moves one lane of one block for one constant, over 2^512 operand pairs", "anchors": ["hwy/ops/x86_256-inl.h: ConcatOdd, ConcatEven, ConcatLowerUpper, BroadcastLane, InsertBlock, SwapAdjacentBlocks, InterleaveWholeLower, OddEven, DupEven, Slide1Up, SlideUpBlocks", "hwy/ops/x86_128-inl.h: DupEven, DupOdd, InterleaveEven, InterleaveOdd, Reverse2"]}
{"id": "C73", "title": "AVX2 256-bit lane lookups and slides by runtime amounts are exact across blocks", "statement": "TableLookupLanes(v, IndicesFromVec(d, idx)) has in lane i the lane idx[i] of v; TwoTablesLookupLanes the lane idx[i] of the concatenation of both tables; Reverse and Reverse8 reverse all lanes / groups of eight; Iota is first+i wrapped; SlideUpLanes(v, amt) and SlideDownLanes(v, amt) move every lane by amt and fill with zeros, on every code path the compiler may choose (amt a known constant, known to be at least a block, or unknown).", "quantifier": "all 256-bit register contents, all index vectors within the documented range, all amounts below the number of lanes, lane widths 8/16/32/64, all compiler knowledge", "why_tests_cant": "The lookup of 16 and 64-bit lanes converts lane indices to byte or dword indices and merges two half lookups by index bits; the slide has seven paths chosen by __builtin_constant_p, which a test compiled one way never exercises the other way, for 2^256 vectors and indices", "anchors": ["hwy/ops/x86_256-inl.h: IndicesFromVec, TableLookupLanes, TwoTablesLookupLanes, Reverse, Reverse8, Iota, detail::TableLookupSlideUpLanes, SlideUpLanes, detail::TableLookupSlideDownLanes, SlideDownLanes, detail::SlideUpI64Lanes"]}
{"id": "C74", "title": "AVX2 256-bit masks: bit conversions, counting, FirstN, Compress, Expand and the blended stores agree with the mask predicate", "statement": "On AVX2, for a 256-bit mask whose lane i is true iff p(i): BitsFromMask has exactly the bits p(i); StoreMaskBits writes (Lanes+7)/8 bytes with those bits, zero beyond the last lane and leaves the rest; LoadMaskBits ignores unused bits and inverts StoreMaskBits; Dup128MaskFromMaskBits repeats the bits per block; AllFalse, AllTrue, CountTrue, FindFirst/LastTrue, FindKnownFirst/LastTrue, FirstN and BlendedStore follow p; Compress, CompressNot, CompressBlocksNot and CompressBits return the selected lanes in order (and for lanes of 16 bits and more the rest after them, also in order); CompressStore/CompressBitsStore return the number selected and touch no lane past the vector; CompressBlendedStore writes only the selected lanes; Expand and LoadExpand place consecutive lanes at the true positions and zero elsewhere, and Expand undoes Compress.", "quantifier": "all masks and predicates, all 256-bit vectors, all memory contents, lane widths 8/16/32/64, with and without BMI2", "why_tests_cant": "each operation looks up one of 256 (or 16) packed table entries, or splits the mask into halves whose results are merged at a data-dependent offset; one wrong nibble shows only for one mask and one lane out of 2^32 masks", "anchors": ["hwy/ops/x86_256-inl.h: LoadMaskBits256, BitsFromMask, StoreMaskBits, AllTrue, CountTrue, FindLastTrue, FirstN, IndicesFromBits256, IndicesFromNotBits256, Compress, CompressNot, CompressBlendedStore, CompressBitsStore, Expand, LoadExpand", "hwy/ops/generic_ops-inl.h: CompressBitsStore, CompressStore, CompressBlendedStore, Compress (8-bit)"]}
{"id": "C75", "title": "AVX2 256-bit integer conversions keep values: promotions are exact, truncations keep the low bits, demotions saturate, in the documented lane order", "statement": "On AVX2, PromoteTo/PromoteLowerTo/PromoteUpperTo/PromoteEvenTo/PromoteOddTo into a 256-bit vector give every lane the value of its source lane; TruncateTo (64/32/16 to any narrower width) and U8FromU32 keep the low bits; DemoteTo gives the nearest representable value for every signed/unsigned pair; ReorderDemote2To does so with the lanes of each block of a followed by those of the same block of b, OrderedDemote2To with all lanes of a followed by all of b; 128-bit ReorderDemote2To from 64-bit lanes and the 8-bit product of 128- and 256-bit vectors (which go through 256-bit registers on AVX2) satisfy the same contracts.", "quantifier": "all vectors, all integer lane types and all pairs of wide and narrow types, every lane", "why_tests_cant": "2^256 inputs per operation and a separate instruction sequence for each of the type pairs; saturation of 64-bit lanes is emulated with shifts, compares and inversions that differ only at the range boundaries", "anchors": ["hwy/ops/x86_256-inl.h: PromoteTo, PromoteEvenTo, PromoteOddTo, DemoteTo, ReorderDemote2To, OrderedDemote2To, TruncateTo, LookupAndConcatHalves, LookupAndConcatQuarters, U8FromU32", "hwy/ops/x86_128-inl.h: DemoteFromU64Saturate, DemoteTo, ReorderDemote2To", "hwy/ops/generic_ops-inl.h: DemoteTo, ReorderDemote2To, PromoteLowerTo, PromoteUpperTo, operator* (8-bit)", "hwy/ops/inside-inl.h: PromoteEvenTo, PromoteOddTo"]}
{"id": "C76", "title": "AVX2 256-bit lane-wise integer operations compute the documented value in every lane", "statement": "On AVX2, for 256-bit vectors of 8/16/32/64-bit integers: logic (And, AndNot, Or, Xor, Not, Xor3, Or3, OrAnd), mask logic, IfThenElse/IfThenElseZero/IfThenZeroElse, all six signed and unsigned comparisons, Min/Max, +, -, Neg, SaturatedAdd/Sub and AverageRound (8/16-bit), SumsOf8/SumsOf8AbsDiff, ShiftLeft/Right/RotateRight by constants, ShiftLeftSame/ShiftRightSame by run-time counts (known or unknown to the compiler), BroadcastSignBit, IfNegativeThenElse, IfNegativeThenNegOrUndefIfZero, Abs and SaturatedAbs give in every lane the exact documented value; ZeroIfNegative does so for float, double and int8 lanes, but for int16/int32/int64 lanes it zeroes single bytes whose top bit is set (finding: int32 128 becomes 0, -129 becomes 127).", "quantifier": "all vectors, all integer lane types, both signednesses, all shift counts below the lane width, every lane", "why_tests_cant": "2^512 inputs; the unit test of ZeroIfNegative passes because its small values never have a byte with the top bit set in positive lanes", "anchors": ["hwy/ops/x86_256-inl.h: operator==, operator>, Min, Max, Abs, ShiftLeft, ShiftRight, RotateRight, ShiftLeftSame, ShiftRightSame, BroadcastSignBit, IfNegativeThenElse, IfNegativeThenNegOrUndefIfZero, ZeroIfNegative, SaturatedAdd, SaturatedSub, AverageRound, SumsOf8, SumsOf8AbsDiff", "hwy/ops/x86_128-inl.h: SaturatedAbs, Abs (64-bit), SumsOf8 (signed)"]}
{"id": "C77", "title": "AVX2 256-bit integer multiplications, per-lane shifts and rotates are exact", "statement": "On AVX2, for 256-bit vectors: operator* (16/32/64-bit) is the product modulo 2^w; MulEven/MulOdd (8/16/32-bit) are the full double-width products of the even/odd lanes; MulHigh (8/16/32/64-bit) is the upper half of each product; 64-bit MulEven/MulOdd give both halves of the products of even/odd lanes; WidenMulPairwiseAdd and ReorderWidenMulAccumulate followed by RearrangeToOddPlusEven give the exact sums modulo 2^32; MulFixedPoint15 is the product rounded to nearest and scaled by 2^-15 except for (-1)*(-1); v << bits and v >> bits with a separate count per lane shift each lane by its own count below the lane width (8/16/32/64-bit, arithmetic for signed lanes, floor division by 2^count); Rol and Ror rotate each lane by its own count modulo the lane width.", "quantifier": "all vectors, all lane types, both signednesses, all counts (below the lane width for shifts, any for rotates), every lane", "why_tests_cant": "2^512 pairs of inputs; the 8/16-bit shifts and 64-bit products are emulated with 32-bit ones, even/odd splits and carries", "anchors": ["hwy/ops/x86_256-inl.h: operator*, MulHigh, MulFixedPoint15, MulEven, WidenMulPairwiseAdd, ReorderWidenMulAccumulate, RearrangeToOddPlusEven, operator<<, operator>>, detail::AVX2ShlU16Vec256, detail::AVX2ShrU16Vec256, detail::SignedShr", "hwy/ops/x86_128-inl.h: MulEven, MulOdd, MulHigh, detail::SSE2Mul128, Ror, Rol", "hwy/ops/generic_ops-inl.h: operator* (64-bit), Rol, Ror"]}
{"id": "C78", "title": "AVX2 256-bit Set*First mask operations and 128-bit comparisons are exact across blocks", "statement": "On AVX2, for every 256-bit mask of 8/16/32/64-bit lanes: SetAtOrAfterFirst is true exactly from the first true lane on, SetBeforeFirst exactly before it (everywhere if there is none), SetOnlyFirst exactly at it, and SetAtOrBeforeFirst exactly up to and including it, also if the first true lane lies in the other 128-bit block or 64-bit word; Lt128/Eq128/Ne128, their Upper forms, Min128/Max128 and Min128Upper/Max128Upper act on each 128-bit block as documented.", "quantifier": "all masks, all vectors of pairs of 64-bit lanes, all lane widths, every lane", "why_tests_cant": "2^32 masks of bytes and 2^512 pairs of vectors; carries between 64-bit words and blocks are propagated by shuffles", "anchors": ["hwy/ops/x86_256-inl.h: SetAtOrAfterFirst, SetBeforeFirst, SetOnlyFirst, SetAtOrBeforeFirst", "hwy/ops/x86_128-inl.h: Lt128, Eq128, Ne128, Lt128Upper, Eq128Upper, Ne128Upper, Min128, Max128, Min128Upper, Max128Upper"]}
{"id": "C79", "title": "AVX2 256-bit reductions are exact over both blocks", "statement": "On AVX2, for every 256-bit vector of signed or unsigned 8/16/32/64-bit integers: SumOfLanes puts the sum of all lanes of both 128-bit blocks modulo 2^w into every lane, MinOfLanes/MaxOfLanes put the least/greatest lane into every lane, ReduceSum/ReduceMin/ReduceMax return it; MaskedReduceSum/Min/Max reduce exactly the lanes whose mask is set (and return 0, the greatest, the least value of the type if none is); the 8-bit Reverse2/Reverse4/Reverse8 reverse every group of bytes.", "quantifier": "all vectors and masks, all integer lane types, every lane", "why_tests_cant": "2^256 vectors; the shuffle network that folds lanes is different per lane width, bytes are reduced in 16-bit lanes, and a dropped or doubled lane shows only for particular values", "anchors": ["hwy/ops/generic_ops-inl.h: ReduceAcrossBlocks, ReduceWithinBlocks, SumOfLanes, MinOfLanes, MaxOfLanes, ReduceSum, ReduceMin, ReduceMax, MaskedReduceSum, MaskedReduceMin, MaskedReduceMax, Reverse2, Reverse4, Reverse8", "hwy/ops/x86_256-inl.h: SwapAdjacentBlocks"]}
{"id": "C80", "title": "x86 PopulationCount, ReverseLaneBytes and ReverseBits are exact", "statement": "On SSE2, SSSE3, SSE4 and AVX2, for every vector of 8/16/32/64-bit lanes (128 bits and shorter, and 256 bits on AVX2): each lane of PopulationCount(v) is the number of set bits of that lane of v; byte j of each lane of ReverseLaneBytes(v) is byte w/8-1-j of that lane of v; bit k of each lane of ReverseBits(v) is bit w-1-k of that lane of v.", "quantifier": "all vectors, all lane widths and vector sizes, every lane, byte and bit", "why_tests_cant": "2^128 and 2^256 vectors; bytes are shifted in 16-bit lanes and the bits that cross the byte boundary must be masked for every neighbour; short vectors use a different algorithm", "anchors": ["hwy/ops/generic_ops-inl.h: PopulationCount, ReverseLaneBytes, ReverseBits, detail::UI8ReverseBitsStep"]}
{"id": "C81", "title": "x86 PairwiseAdd/Sub(128) and SumsOf2/SumsOf4 add exactly the adjacent lanes", "statement": "On SSE2, SSSE3, SSE4 and AVX2, for every integer vector of 128 bits or fewer with at least two lanes, and for 256-bit AVX2 vectors: PairwiseAdd(a,b) has the sums (modulo 2^w) of adjacent lanes of a in the even lanes and those of b in the odd lanes, PairwiseSub the differences odd minus even; PairwiseAdd128/PairwiseSub128 have, in every 128-bit block, those of a first, then those of b. SumsOf2 and SumsOf4 have in every wider lane the exact sum, without overflow, of the two or four narrow lanes, signed and unsigned.", "quantifier": "all pairs of vectors, all lane widths, vector sizes and targets, every lane", "why_tests_cant": "2^256 inputs; native horizontal instructions subtract in the opposite order and the SSE2 fallback goes through a saturating narrowing", "anchors": ["hwy/ops/generic_ops-inl.h: PairwiseAdd, PairwiseSub, PairwiseAdd128, PairwiseSub128, SumsOf2, SumsOf4", "hwy/ops/x86_128-inl.h: PairwiseAdd128, PairwiseSub128", "hwy/ops/x86_256-inl.h: PairwiseAdd128, PairwiseSub128"]}
{"id": "C82", "title": "x86 saturating addition of 32/64-bit lanes and sums of products are exact or clamped", "statement": "On SSE2, SSSE3, SSE4 and AVX2 and vectors of 128 bits or fewer, and for 256-bit AVX2 vectors: SaturatedAdd/SaturatedSub of 32- and 64-bit lanes, signed and unsigned, give the value of the lane type nearest to the exact sum/difference. SatWidenMulPairwiseAccumulate(a,b,sum) gives the 32-bit value nearest to sum + a[2i]*b[2i] + a[2i+1]*b[2i+1], also when the two products alone overflow. SatWidenMulPairwiseAdd (256-bit) gives the 16-bit value nearest to the sum of the two products. SumOfMulQuadAccumulate for i8*i8, u8*u8, u8*i8, i16*i16 and u16*u16 adds the exact sum of the four products to the accumulator lane modulo 2^32 (2^64 for 16-bit factors), also when a pair of 16-bit products overflows 32 bits.", "quantifier": "all operand and accumulator vectors, every lane, all targets and vector sizes", "why_tests_cant": "2^96 to 2^192 inputs per lane; the only pair sum that overflows needs four factors of -32768, and the fix-ups for it interact with the sign of the accumulator", "anchors": ["hwy/ops/generic_ops-inl.h: SaturatedAdd, SaturatedSub, SatWidenMulPairwiseAccumulate, SumOfMulQuadAccumulate", "hwy/ops/x86_256-inl.h: SatWidenMulPairwiseAdd"]}
{"id": "C83", "title": "x86 ExtractLane and InsertLane read and replace exactly one lane", "statement": "On SSE2, SSSE3, SSE4 and AVX2, for every vector of 256 bits or fewer, every integer and floating-point lane width: ExtractLane(v, i) returns exactly the bits of lane i, and InsertLane(v, i, x) returns v with lane i replaced by the bits of x and all other lanes unchanged; the result does not depend on whether the compiler knows i at compile time.", "quantifier": "all vectors, values and lane indices in range, all lane types, vector sizes and targets, both outcomes of __builtin_constant_p", "why_tests_cant": "2^128 to 2^256 vectors; which of the compile-time and run-time implementations is executed depends on the optimizer, and each target has its own instruction choice per lane width", "anchors": ["hwy/ops/x86_128-inl.h: GetLane, ExtractLane, InsertLane, detail::InsertLaneUsingBroadcastAndBlend", "hwy/ops/x86_256-inl.h: ExtractLane, InsertLane"]}
