{
 "claims": [
  {
   "property": "C01",
   "status": "proved",
   "theorems": [
    "Hwy.BitSetSpec.C01_bitset64",
    "Hwy.BitSetSpec.C01_out_of_range"
   ],
   "note": "any history of in-range calls; ctz/popcount intrinsics trusted (fallbacks proved in C06)"
  },
  {
   "property": "C02",
   "status": "proved",
   "theorems": [
    "Hwy.BitSetSpec.C02_bitset4096",
    "Hwy.BitSetSpec.C02_partial_word_out_of_bounds"
   ],
   "note": "kMaxSize = 64n; second theorem is the negative result for other kMaxSize (a code defect)"
  },
  {
   "property": "C03",
   "status": "proved",
   "theorems": [
    "Hwy.C03_divisor",
    "Hwy.C03_divisor_zero"
   ],
   "note": ""
  },
  {
   "property": "C04",
   "status": "proved",
   "theorems": [
    "Hwy.C04_divisor64"
   ],
   "note": ""
  },
  {
   "property": "C05",
   "status": "proved",
   "theorems": [
    "Hwy.C05_mul128_unsigned",
    "Hwy.C05_mul128_signed"
   ],
   "note": ""
  },
  {
   "property": "C06",
   "status": "proved",
   "theorems": [
    "Hwy.C06_popCount32",
    "Hwy.C06_popCount64",
    "Hwy.C06_ctz64_via32",
    "Hwy.C06_clz64_via32",
    "Hwy.C06_floorLog2",
    "Hwy.C06_ceilLog2"
   ],
   "note": ""
  },
  {
   "property": "C07",
   "status": "proved",
   "theorems": [
    "Hwy.C07_divCeil",
    "Hwy.C07_roundUpTo",
    "Hwy.C07_roundUpTo_wraps",
    "Hwy.C07_roundDownTo"
   ],
   "note": ""
  },
  {
   "property": "C08",
   "status": "proved",
   "theorems": [
    "Hwy.C08_scalarShr",
    "Hwy.C08_addWithWraparound",
    "Hwy.C08_scalarAbsInt",
    "Hwy.C08_float_class",
    "Hwy.C08_copySign"
   ],
   "note": ""
  },
  {
   "property": "C09",
   "status": "proved",
   "theorems": [
    "Hwy.Flt.C09_f16FromF32",
    "Hwy.Flt.C09_f32FromF16",
    "Hwy.Flt.C09_roundTrip"
   ],
   "note": "software path; float multiplication by powers of two modelled as IEEE round to nearest even"
  },
  {
   "property": "C10",
   "status": "proved",
   "theorems": [
    "Hwy.Flt.C10_bf16FromF32",
    "Hwy.Flt.C10_f32FromBF16",
    "Hwy.Flt.C10_roundTrip"
   ],
   "note": ""
  },
  {
   "property": "C11",
   "status": "proved",
   "theorems": [
    "Hwy.Pool.C11_exactly_once",
    "Hwy.Pool.C11_nonvacuous",
    "Hwy.Pool.C11_finding_63_threads_called_twice"
   ],
   "note": "all interleavings (SC), n <= 60 threads (kMaxThreads is 63; 61..63 alias barrier counters: with 63 threads the claim is false of the code, C11_finding_63_threads_called_twice), end + NumWorkers < 2^64"
  },
  {
   "property": "C12",
   "status": "proved",
   "theorems": [
    "Hwy.Pool.C12_run_is_synchronous",
    "Hwy.Pool.C12_finished_le_started"
   ],
   "note": "same scope as C11"
  },
  {
   "property": "C13",
   "status": "proved",
   "theorems": [
    "Hwy.Pool.C13_no_deadlock",
    "Hwy.Pool.C13_no_lost_wakeup",
    "Hwy.Pool.C13_config_agreement",
    "Hwy.Pool.C13_config_handed_over",
    "Hwy.Pool.C13_threads_exit",
    "Hwy.Pool.C13_threads_alive",
    "Hwy.Pool.C13_finding_63_threads_early_return",
    "Hwy.Pool.C13_finding_63_threads_deadlock"
   ],
   "note": "n <= 60 threads; with 63 threads the pool can deadlock (C13_finding_63_threads_deadlock). no deadlock = from every reachable state the operation can complete; fairness-based termination not modelled"
  },
  {
   "property": "C14",
   "status": "proved",
   "theorems": [
    "Hwy.Pool.C14_divideRange",
    "Hwy.Pool.C14_tasks"
   ],
   "note": ""
  },
  {
   "property": "C15",
   "status": "proved",
   "theorems": [
    "Hwy.Pool.C15_coprimeNonzero",
    "Hwy.Pool.C15_findAnotherCoprime",
    "Hwy.Pool.C15_visits_each_once",
    "Hwy.Pool.C15_victims"
   ],
   "note": ""
  },
  {
   "property": "C16",
   "status": "proved",
   "theorems": [
    "Hwy.Tune.C16_ring",
    "Hwy.Tune.C16_ring_too_many",
    "Hwy.Tune.C16_autotune",
    "Hwy.Tune.C16_candidates_after_best"
   ],
   "note": "double modelled as an ordered field (exact arithmetic), sqrt abstract; the assertion M1 >= Lower of line 206 is not modelled; last theorem: Candidates() asserts in debug builds after Best() is set (code defect)"
  },
  {
   "property": "C17",
   "status": "proved",
   "theorems": [
    "Hwy.VQ.C17_sort",
    "Hwy.VQ.C17_C18_int_ascending",
    "Hwy.VQ.C17_C18_int_descending",
    "Hwy.VQ.C17_C18_kv64",
    "Hwy.VQ.C17_C18_u128",
    "Hwy.VQ.C17_C18_kv128"
   ],
   "note": "all key types except floats (see C24); both with vqsort and with the heapsort fallback (there only num > 0, see C21_heapSort_empty); vectors up to 64 bytes, compress-stores as in C19"
  },
  {
   "property": "C18",
   "status": "proved",
   "theorems": [
    "Hwy.VQ.C18_sort",
    "Hwy.VQ.C17_C18_int_ascending",
    "Hwy.VQ.C17_C18_int_descending",
    "Hwy.VQ.C17_C18_kv64",
    "Hwy.VQ.C17_C18_u128",
    "Hwy.VQ.C17_C18_kv128"
   ],
   "note": "as C17"
  },
  {
   "property": "C19",
   "status": "proved",
   "theorems": [
    "Hwy.VQ.C19_partition",
    "Hwy.VQ.C19_partition_overrun"
   ],
   "note": "second theorem: on targets whose CompressBlendedStore rewrites a whole vector, Partition accesses memory after keys[num) (code defect)"
  },
  {
   "property": "C20",
   "status": "proved",
   "theorems": [
    "Hwy.VQ.C20_baseCase",
    "Hwy.VQ.C20_signed_zero_loss"
   ],
   "note": "network programs generated from source text by tools/networks2lean.py; needs keys that compare equal to be identical (all bits compared), which fails for float -0/+0: second theorem"
  },
  {
   "property": "C21",
   "status": "proved",
   "theorems": [
    "Hwy.VQ.C21_heapSort",
    "Hwy.VQ.C21_heapSort_empty"
   ],
   "note": "second theorem: num == 0 is out-of-bounds (code defect)"
  },
  {
   "property": "C22",
   "status": "proved",
   "theorems": [
    "Hwy.VQ.C22_select",
    "Hwy.VQ.C22_heapSelect"
   ],
   "note": ""
  },
  {
   "property": "C23",
   "status": "proved",
   "theorems": [
    "Hwy.VQ.C23_partialSort",
    "Hwy.VQ.C23_partialSort_zero_debug",
    "Hwy.VQ.C23_heapPartialSort",
    "Hwy.VQ.C23_heapPartialSort_zero",
    "Hwy.VQ.C23_heapPartialSort_all"
   ],
   "note": "code defects proved: k = 0 aborts in debug builds and is out of bounds without vqsort; k = num is out of bounds without vqsort"
  },
  {
   "property": "C24",
   "status": "proved",
   "theorems": [
    "Hwy.VQ.C24_sort",
    "Hwy.VQ.C24_float",
    "Hwy.VQ.C24_select_kth",
    "Hwy.VQ.C24_partialSort_prefix",
    "Hwy.VQ.C24_select_loses_key",
    "Hwy.VQ.C24_partialSort_loses_key",
    "Hwy.VQ.smaller_val",
    "Hwy.VQ.larger_val"
   ],
   "note": "numbers up to the sign of zero; VQSelect and VQPartialSort lose keys (code defect, proved)"
  },
  {
   "property": "C25",
   "status": "proved",
   "theorems": [
    "Hwy.VQ.C25_twoValue",
    "Hwy.VQ.C25_twoValueR",
    "Hwy.VQ.C25_allEqual",
    "Hwy.VQ.C25_existsAny",
    "Hwy.VQ.orXor_spec"
   ],
   "note": "keys that compare equal are assumed identical for the two-value paths (not run for key-value types); for floats this merges -0/+0"
  },
  {
   "property": "C26",
   "status": "proved",
   "theorems": [
    "Hwy.BitPack.C26_pack8",
    "Hwy.BitPack.C26_pack16",
    "Hwy.BitPack.C26_pack32",
    "Hwy.BitPack.C26_pack64",
    "Hwy.BitPack.C26_pack16_11_fails",
    "Hwy.BitPack.C26_pack16_13_fails"
   ],
   "note": "Pack16<11> and Pack16<13> do not round-trip: counterexamples proved; programs generated from source text by tools/bitpack2lean.py"
  },
  {
   "property": "C27",
   "status": "proved",
   "theorems": [
    "Hwy.Algo.C27_transform",
    "Hwy.Algo.C27_transform1",
    "Hwy.Algo.C27_transform2",
    "Hwy.Algo.C27_replaceIf",
    "Hwy.Algo.C27_replace",
    "Hwy.Algo.C27_generate",
    "Hwy.Algo.C27_foreach"
   ],
   "note": "func is assumed lane-wise (the documented contract)"
  },
  {
   "property": "C28",
   "status": "proved",
   "theorems": [
    "Hwy.Algo.C28_findIf",
    "Hwy.Algo.C28_find"
   ],
   "note": ""
  },
  {
   "property": "C29",
   "status": "proved",
   "theorems": [
    "Hwy.Algo.C29_fill",
    "Hwy.Algo.C29_copy",
    "Hwy.Algo.C29_copyIf"
   ],
   "note": ""
  },
  {
   "property": "C30",
   "status": "proved",
   "theorems": [
    "Hwy.Alloc.C30_layout",
    "Hwy.Alloc.C30_histories",
    "Hwy.Alloc.C30_free",
    "Hwy.Alloc.C30_checkSize",
    "Hwy.Alloc.C30_itemsBytes",
    "Hwy.Alloc.C30_nonvacuous"
   ],
   "note": "all interleavings of reserve/malloc/header/write/free steps; the underlying allocator is assumed to return disjoint, non-wrapping blocks"
  },
  {
   "property": "C31",
   "status": "proved",
   "theorems": [
    "Hwy.Rnd.C31_jump",
    "Hwy.Rnd.C31_period",
    "Hwy.Rnd.C31_seed",
    "Hwy.Rnd.C31_thread",
    "Hwy.Rnd.C31_lanes",
    "Hwy.Rnd.C31_disjoint",
    "Hwy.Rnd.C31_draw",
    "Hwy.Rnd.C31_draw_elements",
    "Hwy.Rnd.C31_uniform",
    "Hwy.Rnd.C31_uniform_draws",
    "Hwy.Rnd.C31_cached"
   ],
   "note": "SplitMix64, Xoshiro (Next, Jump, LongJump, period), VectorXoshiro, CachedXoshiro; n not a multiple of the lanes writes past the array (proved)."
  },
  {
   "property": "C32",
   "status": "proved",
   "theorems": [
    "Hwy.Stats.C32_accumulate",
    "Hwy.Stats.C32_queries",
    "Hwy.Stats.C32_variance_int_cast",
    "Hwy.Stats.C32_bins",
    "Hwy.Stats.C32_bins_abort"
   ],
   "note": "float/double modelled as an ordered field (exact arithmetic), log abstract; skewness (pow/sqrt) and ToString not modelled; third theorem: the count is cast to int, so >= 2^31 values give wrong variances (code defect)"
  },
  {
   "property": "C33",
   "status": "proved",
   "theorems": [
    "Hwy.Robust.C33_countingSort",
    "Hwy.Robust.C33_median",
    "Hwy.Robust.C33_median_overflow",
    "Hwy.Robust.C33_mad",
    "Hwy.Robust.C33_minRange",
    "Hwy.Robust.C33_minRange_outside",
    "Hwy.Robust.C33_mode",
    "Hwy.Robust.C33_mode_majority",
    "Hwy.Robust.C33_mode_odd",
    "Hwy.Robust.C33_mode_overflow"
   ],
   "note": "unsigned T; std::sort trusted; code defects proved: the average overflows for 32/64-bit values in the upper half of the range; MinRange can return an index outside of its range"
  },
  {
   "property": "C34",
   "status": "proved",
   "theorems": [
    "Hwy.Tgt.C34_dispatch",
    "Hwy.Tgt.C34_best_unique",
    "Hwy.Tgt.C34_table",
    "Hwy.Tgt.C34_never_disabled",
    "Hwy.Tgt.C34_concurrent",
    "Hwy.Tgt.C34_concurrent_default",
    "Hwy.Tgt.C34_concurrent_mock",
    "Hwy.Tgt.C34_detect_x86",
    "Hwy.Tgt.C34_detect_chain",
    "Hwy.Tgt.C34_detect_os",
    "Hwy.Tgt.C34_runs_supported",
    "Hwy.Tgt.C34_disable_replaces",
    "Hwy.Tgt.C34_finding_supported_reenables",
    "Hwy.Tgt.C34_finding_concurrent_disabled",
    "Hwy.Tgt.C34_finding_avx10_without_zmm"
   ],
   "note": "detection modelled for x86, an arbitrary input elsewhere; code defects proved: calling SupportedTargets() re-enables disabled targets, as does a race between two first dispatches; AVX10_2_512 is reported although the OS does not preserve ZMM registers"
  },
  {
   "property": "C35",
   "status": "proved",
   "theorems": [
    "Hwy.DotP.C35_float",
    "Hwy.DotP.C35_mixed",
    "Hwy.DotP.C35_bf16",
    "Hwy.DotP.C35_i16",
    "Hwy.DotP.C35_i16_vector",
    "Hwy.DotP.rwmaEvenOdd_ok",
    "Hwy.DotP.C35_finding_i16_overflow",
    "Hwy.DotP.C35_nonvacuous"
   ],
   "note": "exact arithmetic (any semiring) for floats; i16 exact if the magnitudes sum to less than 2^31, modulo 2^32 on the vector path; code defect proved: the scalar i16 path has signed overflow where the vector path wraps"
  },
  {
   "property": "C36",
   "status": "proved",
   "theorems": [
    "Hwy.MatVecP.C36_same",
    "Hwy.MatVecP.C36_same_add",
    "Hwy.MatVecP.C36_same_add_exact",
    "Hwy.MatVecP.C36_mixed",
    "Hwy.MatVecP.C36_mixed_add",
    "Hwy.MatVecP.C36_wide",
    "Hwy.MatVecP.C36_wide_add",
    "Hwy.MatVecP.C36_each_row_once",
    "Hwy.MatVecP.C36_finding_large_vectors",
    "Hwy.MatVecP.C36_finding_out_alignment",
    "Hwy.MatVecP.C36_finding_double_add",
    "Hwy.MatVecP.C36_nonvacuous"
   ],
   "note": "exact arithmetic; every order of the stores of all tasks; vectors of at most 64 bytes and aligned out. Code defects proved: larger vectors read out of bounds in release builds, out must be aligned (undocumented), MatVecAdd of double adds in float"
  },
  {
   "property": "C37",
   "status": "proved",
   "theorems": [
    "Hwy.Topo.C37_expand",
    "Hwy.Topo.C37_accepts",
    "Hwy.Topo.C37_in_bounds",
    "Hwy.Topo.C37_number",
    "Hwy.Topo.C37_nonvacuous",
    "Hwy.Topo.C37_finding_missing_number",
    "Hwy.Topo.C37_finding_descending",
    "Hwy.Topo.C37_finding_empty_list",
    "Hwy.Topo.C37_finding_above_max",
    "Hwy.Topo.C37_finding_ten_digits"
   ],
   "note": "malformed input: accepted lists are characterised exactly; code defects proved: missing numbers read as 0, descending ranges accepted, an empty list (memory-only NUMA node) aborts, ids of ten digits abort"
  },
  {
   "property": "C38",
   "status": "proved",
   "theorems": [
    "Hwy.Emu.C38_add",
    "Hwy.Emu.C38_sub",
    "Hwy.Emu.C38_neg",
    "Hwy.Emu.C38_mul",
    "Hwy.Emu.C38_not",
    "Hwy.Emu.C38_and",
    "Hwy.Emu.C38_or",
    "Hwy.Emu.C38_xor",
    "Hwy.Emu.C38_and_not",
    "Hwy.Emu.C38_xor3",
    "Hwy.Emu.C38_or3",
    "Hwy.Emu.C38_or_and",
    "Hwy.Emu.C38_if_vec_then_else",
    "Hwy.Emu.C38_if_then_else",
    "Hwy.Emu.C38_if_then_else_zero",
    "Hwy.Emu.C38_if_then_zero_else",
    "Hwy.Emu.C38_if_negative_then_else",
    "Hwy.Emu.C38_mask_logic",
    "Hwy.Emu.C38_shift_right",
    "Hwy.Emu.C38_shr",
    "Hwy.Emu.C38_broadcast_sign_bit",
    "Hwy.Emu.C38_shift_left",
    "Hwy.Emu.C38_shl",
    "Hwy.Emu.C38_saturated_add",
    "Hwy.Emu.C38_saturated_sub",
    "Hwy.Emu.C38_average_round",
    "Hwy.Emu.C38_abs",
    "Hwy.Emu.C38_min",
    "Hwy.Emu.C38_max",
    "Hwy.Emu.C38_mul_high",
    "Hwy.Emu.C38_mul_even",
    "Hwy.Emu.C38_mul_odd",
    "Hwy.Emu.C38_mul_high64",
    "Hwy.Emu.C38_mul_widen64",
    "Hwy.Emu.C38_mul_fixed_point15",
    "Hwy.Emu.C38_rotate_right",
    "Hwy.Emu.C38_compare",
    "Hwy.Emu.C38_test_bit",
    "Hwy.Emu.C38_compare128",
    "Hwy.Emu.C38_minmax128",
    "Hwy.Emu.C38_minmax128_upper",
    "Hwy.Emu.C38_set",
    "Hwy.Emu.C38_iota",
    "Hwy.Emu.C38_reduce_sum",
    "Hwy.Emu.C38_reduce_sum_overflow",
    "Hwy.Emu.C38_reduce_min",
    "Hwy.Emu.C38_reduce_max",
    "Hwy.Emu.C38_of_lanes",
    "Hwy.Emu.C38_sums_of_8"
   ],
   "note": "all eight integer lane types; integer arithmetic follows an explicit model of C++ promotion, conversion and overflow (Verif/CInt.lean); code defect proved: ReduceSum of int32/int64 lanes overflows (undefined) where vector addition wraps"
  },
  {
   "property": "C39",
   "status": "proved",
   "theorems": [
    "Hwy.Emu.C39_clamp",
    "Hwy.Emu.C39_bitwise_if_then_else",
    "Hwy.Emu.C39_rotate_left",
    "Hwy.Emu.C39_is_negative",
    "Hwy.Emu.C39_if_negative",
    "Hwy.Emu.C39_if_negative_then_neg",
    "Hwy.Emu.C39_min_magnitude",
    "Hwy.Emu.C39_max_magnitude",
    "Hwy.Emu.C39_abs_diff",
    "Hwy.Emu.C39_saturated_add",
    "Hwy.Emu.C39_saturated_sub",
    "Hwy.Emu.C39_saturated_neg",
    "Hwy.Emu.C39_saturated_abs",
    "Hwy.Emu.C39_rounding_shift_right",
    "Hwy.Emu.C39_rounding_shift_right_same",
    "Hwy.Emu.C39_rounding_shr",
    "Hwy.Emu.C39_add_sub",
    "Hwy.Emu.C39_pairwise_add",
    "Hwy.Emu.C39_pairwise_sub",
    "Hwy.Emu.C39_sums_of_8_abs_diff",
    "Hwy.Emu.C39_masked_or",
    "Hwy.Emu.C39_masked_div",
    "Hwy.Emu.C39_masked_shift",
    "Hwy.Emu.C39_masked_zero",
    "Hwy.Emu.C39_masked_compare",
    "Hwy.Emu.C39_masked_mul_fixed_point15",
    "Hwy.Emu.C39_masked_widen_mul_pairwise_add",
    "Hwy.Emu.C39_masked_reduce_sum",
    "Hwy.Emu.C39_masked_reduce_min",
    "Hwy.Emu.C39_masked_reduce_max",
    "Hwy.Emu.C39_promote_mask",
    "Hwy.Emu.C39_demote_mask",
    "Hwy.Emu.C39_ordered_demote2_masks",
    "Hwy.Emu.C39_combine_masks",
    "Hwy.Emu.C39_half_of_mask",
    "Hwy.Emu.C39_mask_false"
   ],
   "note": "reference target; all integer lane types; ReduceSum of i32/i64 needs partial sums in range, as in C38"
  },
  {
   "property": "C40",
   "status": "proved",
   "theorems": [
    "Hwy.Img.C40_rows",
    "Hwy.Img.C40_padding",
    "Hwy.Img.C40_empty",
    "Hwy.Img.C40_shrink",
    "Hwy.Img.C40_external",
    "Hwy.Img.C40_external_abort",
    "Hwy.Img.C40_image3",
    "Hwy.Img.C40_image3_planes",
    "Hwy.Img.C40_clamped",
    "Hwy.Img.C40_subrect",
    "Hwy.Img.C40_isInside",
    "Hwy.Img.C40_rect_row",
    "Hwy.Img.C40_mirror",
    "Hwy.Img.C40_mirror_inside",
    "Hwy.Img.C40_mirror_limits",
    "Hwy.Img.C40_wrap_row",
    "Hwy.Img.C40_nonvacuous",
    "Hwy.Img.C40_finding_external_alignment",
    "Hwy.Img.C40_finding_alias",
    "Hwy.Img.C40_finding_overflow",
    "Hwy.Img.C40_finding_truncated",
    "Hwy.Img.C40_finding_image3_stride",
    "Hwy.Img.C40_finding_rect_wraps",
    "Hwy.Img.C40_finding_wrap_row"
   ],
   "note": "code defects proved: BytesPerRow can be a multiple of 2 KiB although documented otherwise; byte count overflow and dimension truncation are not checked; external memory aligned as documented is UB; Image3 accepts planes with different strides; Rect arithmetic wraps"
  },
  {
   "property": "C41",
   "status": "proved",
   "theorems": [
    "Hwy.Alloc.C41_ndarray",
    "Hwy.Alloc.C41_overflow"
   ],
   "note": "second theorem: shapes whose product wraps get a buffer that is too small (code defect)"
  },
  {
   "property": "C42",
   "status": "proved",
   "theorems": [
    "Hwy.Flt.C42_f16FromF64",
    "Hwy.Flt.C42_bf16FromF64"
   ],
   "note": "double to float cast modelled as IEEE round to nearest even"
  },
  {
   "property": "C43",
   "status": "proved",
   "theorems": [
    "Hwy.Topo.C43_consistent_any",
    "Hwy.Topo.C43_no_ub",
    "Hwy.Topo.C43_detects",
    "Hwy.Topo.C43_nonvacuous"
   ],
   "note": "Linux; file contents arbitrary; CPUs offline are outside of the model"
  },
  {
   "property": "C44",
   "status": "proved",
   "theorems": [
    "Hwy.Topo.C44_read",
    "Hwy.Topo.C44_finding_overflow"
   ],
   "note": "code defect proved: a file of 200 bytes or more makes the terminator be written past the buffer"
  },
  {
   "property": "C45",
   "status": "proved",
   "theorems": [
    "Hwy.Topo.C45_sets",
    "Hwy.Topo.C45_capacity",
    "Hwy.Topo.C45_total",
    "Hwy.Topo.C45_data_caches",
    "Hwy.Topo.C45_missing",
    "Hwy.Topo.C45_nonvacuous",
    "Hwy.Topo.C45_sets_nonvacuous",
    "Hwy.Topo.C45_finding_abort",
    "Hwy.Topo.C45_finding_abort_10way",
    "Hwy.Topo.C45_finding_div0"
   ],
   "note": "code defects proved: ComputeSets aborts for some consistent caches, and divides by zero for 64 KiB lines"
  },
  {
   "property": "C46",
   "status": "proved",
   "theorems": [
    "Hwy.Emu.C46_first_n",
    "Hwy.Emu.C46_bits_from_mask",
    "Hwy.Emu.C46_load_mask_bits",
    "Hwy.Emu.C46_dup128_mask",
    "Hwy.Emu.C46_store_mask_bits",
    "Hwy.Emu.C46_mask_bits_roundtrip",
    "Hwy.Emu.C46_all_false",
    "Hwy.Emu.C46_all_true",
    "Hwy.Emu.C46_count_true",
    "Hwy.Emu.C46_find_first",
    "Hwy.Emu.C46_find_last",
    "Hwy.Emu.C46_set_at_or_after_first",
    "Hwy.Emu.C46_set_before_first",
    "Hwy.Emu.C46_set_only_first",
    "Hwy.Emu.C46_set_at_or_before_first",
    "Hwy.Emu.C46_compress",
    "Hwy.Emu.C46_compress_not",
    "Hwy.Emu.C46_compress_store",
    "Hwy.Emu.C46_expand",
    "Hwy.Emu.C46_load_expand",
    "Hwy.Emu.C46_expand_compress",
    "Hwy.Emu.C46_compress_bits_store",
    "Hwy.Emu.C46_example_mask",
    "Hwy.Emu.C46_nonvacuous"
   ],
   "note": "all eight integer lane types; every memory access is bounds-checked in the model"
  },
  {
   "property": "C47",
   "status": "proved",
   "theorems": [
    "Hwy.Emu.C47_load",
    "Hwy.Emu.C47_load_n",
    "Hwy.Emu.C47_load_n_or",
    "Hwy.Emu.C47_store",
    "Hwy.Emu.C47_store_n",
    "Hwy.Emu.C47_blended_store",
    "Hwy.Emu.C47_lower_half",
    "Hwy.Emu.C47_upper_half",
    "Hwy.Emu.C47_zero_extend",
    "Hwy.Emu.C47_combine",
    "Hwy.Emu.C47_concat",
    "Hwy.Emu.C47_concat_even_odd",
    "Hwy.Emu.C47_combine_shift_right_bytes",
    "Hwy.Emu.C47_shift_left_bytes",
    "Hwy.Emu.C47_shift_right_bytes",
    "Hwy.Emu.C47_shift_left_lanes",
    "Hwy.Emu.C47_shift_right_lanes",
    "Hwy.Emu.C47_finding_shift_bytes_partial",
    "Hwy.Emu.C47_table_lookup_bytes",
    "Hwy.Emu.C47_insert_extract",
    "Hwy.Emu.C47_dup_even",
    "Hwy.Emu.C47_dup_odd",
    "Hwy.Emu.C47_odd_even",
    "Hwy.Emu.C47_interleave_even",
    "Hwy.Emu.C47_interleave_odd",
    "Hwy.Emu.C47_indices_from_vec",
    "Hwy.Emu.C47_table_lookup_lanes",
    "Hwy.Emu.C47_two_tables_lookup_lanes",
    "Hwy.Emu.C47_reverse",
    "Hwy.Emu.C47_reverse2",
    "Hwy.Emu.C47_reverse4",
    "Hwy.Emu.C47_reverse8",
    "Hwy.Emu.C47_slide_up",
    "Hwy.Emu.C47_slide_down",
    "Hwy.Emu.C47_shuffle",
    "Hwy.Emu.C47_broadcast",
    "Hwy.Emu.C47_interleave_lower",
    "Hwy.Emu.C47_interleave_upper",
    "Hwy.Emu.C47_load_interleaved",
    "Hwy.Emu.C47_store_interleaved",
    "Hwy.Emu.C47_interleaved_roundtrip",
    "Hwy.Emu.C47_nonvacuous"
   ],
   "note": "lanes of arbitrary type; code defect proved: byte shifts of partial vectors by more than their size are documented but copy almost 2^64 bytes"
  },
  {
   "property": "C48",
   "status": "proved",
   "theorems": [
    "Hwy.Emu.C48_round",
    "Hwy.Emu.C48_trunc",
    "Hwy.Emu.C48_ceil",
    "Hwy.Emu.C48_floor",
    "Hwy.Emu.C48_nearest_int",
    "Hwy.Emu.C48_demote_to_nearest_int",
    "Hwy.Emu.C48_abs",
    "Hwy.Emu.C48_neg",
    "Hwy.Emu.C48_copy_sign",
    "Hwy.Emu.C48_copy_sign_to_abs",
    "Hwy.Emu.C48_is_nan",
    "Hwy.Emu.C48_compare",
    "Hwy.Emu.C48_min",
    "Hwy.Emu.C48_max",
    "Hwy.Emu.C48_finding_round_sign",
    "Hwy.Emu.C48_finding_nearest_int",
    "Hwy.Emu.C48_finding_demote_to_nearest_int",
    "Hwy.Emu.C48_finding_zeros"
   ],
   "note": "NearestInt and DemoteToNearestInt exclude the inputs on which the code is wrong, shown by the finding theorems: NearestInt(2^31 / 2^63) is undefined, DemoteToNearestInt is off by one in (-2147483647.5, -2147483647), Round turns negative lanes that round to zero into +0.0"
  },
  {
   "property": "C49",
   "status": "proved",
   "theorems": [
    "Hwy.Emu.C49_promote",
    "Hwy.Emu.C49_demote",
    "Hwy.Emu.C49_ordered_demote2",
    "Hwy.Emu.C49_truncate",
    "Hwy.Emu.C49_ordered_truncate2",
    "Hwy.Emu.C49_u8_from_u32",
    "Hwy.Emu.C49_float_to_int",
    "Hwy.Emu.C49_float_to_int_in_range",
    "Hwy.Emu.C49_int_to_float",
    "Hwy.Emu.C49_int32_to_double",
    "Hwy.Emu.C49_promote_f32",
    "Hwy.Emu.C49_demote_f64",
    "Hwy.Emu.C49_promote_bf16",
    "Hwy.Emu.C49_demote_bf16",
    "Hwy.Emu.C49_ordered_demote2_bf16",
    "Hwy.Emu.C49_ordered_demote2_f16",
    "Hwy.Emu.C49_bit_cast",
    "Hwy.Emu.C49_promote_odd",
    "Hwy.Emu.C49_promote_even",
    "Hwy.Emu.C49_sums_of_2",
    "Hwy.Emu.C49_widen_mul_pairwise_add",
    "Hwy.Emu.C49_reorder_widen_mul_accumulate",
    "Hwy.Emu.C49_rearrange_to_odd_plus_even",
    "Hwy.Emu.C49_promote_even_bf16",
    "Hwy.Emu.C49_promote_odd_bf16",
    "Hwy.Emu.C49_reorder_demote2_bf16",
    "Hwy.Emu.C49_finding_reorder_demote2_nan"
   ],
   "note": "little-endian; float-type WidenMulPairwiseAdd (bf16) not modelled; code defect proved: ReorderDemote2To to bfloat16 turns some NaN into infinity"
  },
  {
   "property": "C50",
   "status": "proved",
   "theorems": [
    "Hwy.Emu.C50_clmul_lower",
    "Hwy.Emu.C50_clmul_upper",
    "Hwy.Emu.C50_clmul_exact",
    "Hwy.Emu.C50_finding_clmul_carry"
   ],
   "note": "code defect proved: the generic CLMul is wrong for operands that each have a fully set bit class modulo 4 (for example 0x1111111111111111 squared); the theorems give the exact result for all operands, including those"
  },
  {
   "property": "C51",
   "status": "proved",
   "theorems": [
    "Hwy.Emu.C51_aes_round",
    "Hwy.Emu.C51_aes_last_round",
    "Hwy.Emu.C51_aes_inv_mix_columns",
    "Hwy.Emu.C51_aes_round_inv",
    "Hwy.Emu.C51_aes_last_round_inv",
    "Hwy.Emu.C51_aes_key_gen_assist",
    "Hwy.Emu.C51_decrypt_encrypt"
   ],
   "note": "one 128-bit block per vector, as on the reference target"
  },
  {
   "property": "C52",
   "status": "proved",
   "theorems": [
    "Hwy.Emu.C52_population_count",
    "Hwy.Emu.C52_leading_zero_count",
    "Hwy.Emu.C52_trailing_zero_count",
    "Hwy.Emu.C52_masked_leading_zero_count",
    "Hwy.Emu.C52_highest_set_bit_index",
    "Hwy.Emu.C52_reverse_bits",
    "Hwy.Emu.C52_reverse_lane_bytes"
   ],
   "note": "reference target; all lane types and vector sizes"
  },
  {
   "property": "C53",
   "status": "proved",
   "theorems": [
    "Hwy.Emu.C53_div",
    "Hwy.Emu.C53_mod"
   ],
   "note": "reference target; all lane types and vector sizes; the float operations inside are the IEEE operations of C54"
  },
  {
   "property": "C54",
   "status": "proved",
   "theorems": [
    "Hwy.Emu.C54_add",
    "Hwy.Emu.C54_sub",
    "Hwy.Emu.C54_mul",
    "Hwy.Emu.C54_div",
    "Hwy.Emu.C54_abs_diff",
    "Hwy.Emu.C54_mul_add",
    "Hwy.Emu.C54_mul_sub",
    "Hwy.Emu.C54_neg_mul_add",
    "Hwy.Emu.C54_neg_mul_sub",
    "Hwy.Emu.C54_approximate_reciprocal",
    "Hwy.Emu.C54_finding_div_zero"
   ],
   "note": "C++ float and double arithmetic is taken to be IEEE 754 round-to-nearest-even without contraction; code finding: Div by a zero gives +0 instead of infinity or NaN"
  },
  {
   "property": "C55",
   "status": "proved",
   "theorems": [
    "Hwy.Emu.C55_sums_of_4",
    "Hwy.Emu.C55_widen_mul_accumulate",
    "Hwy.Emu.C55_sat_widen_mul_pairwise_add",
    "Hwy.Emu.C55_sat_widen_mul_pairwise_accumulate",
    "Hwy.Emu.C55_sat_widen_mul_accum_fixed_point",
    "Hwy.Emu.C55_sum_of_mul_quad_i8",
    "Hwy.Emu.C55_sum_of_mul_quad_u8",
    "Hwy.Emu.C55_sum_of_mul_quad_u8_i8",
    "Hwy.Emu.C55_sum_of_mul_quad_i16",
    "Hwy.Emu.C55_sum_of_mul_quad_u16"
   ],
   "note": "integer overloads on the reference target; the floating-point overloads are not modelled"
  },
  {
   "property": "C56",
   "status": "proved",
   "theorems": [
    "Hwy.Emu.C56_scatter_index",
    "Hwy.Emu.C56_masked_scatter_index",
    "Hwy.Emu.C56_scatter_index_n",
    "Hwy.Emu.C56_scatter_offset",
    "Hwy.Emu.C56_gather_index",
    "Hwy.Emu.C56_masked_gather_index_or",
    "Hwy.Emu.C56_masked_gather_index",
    "Hwy.Emu.C56_gather_index_n_or",
    "Hwy.Emu.C56_gather_index_n",
    "Hwy.Emu.C56_gather_offset",
    "Hwy.Emu.C56_masked_load",
    "Hwy.Emu.C56_masked_load_or",
    "Hwy.Emu.C56_safe_fill_n",
    "Hwy.Emu.C56_safe_copy_n",
    "Hwy.Emu.C56_truncate_store",
    "Hwy.Emu.C56_finding_masked_gather_negative"
   ],
   "note": "code finding: the generic masked gathers assert non-negative indices even in lanes whose mask is false, although the documentation says such lanes do not fault"
  },
  {
   "property": "C57",
   "status": "proved",
   "theorems": [
    "Hwy.Emu.C57_mul_by_pow2",
    "Hwy.Emu.C57_get_biased_exponent",
    "Hwy.Emu.C57_get_exponent",
    "Hwy.Emu.C57_classify",
    "Hwy.Emu.C57_ceil_int",
    "Hwy.Emu.C57_floor_int",
    "Hwy.Emu.C57_mul_by_floor_pow2",
    "Hwy.Emu.C57_min_magnitude",
    "Hwy.Emu.C57_max_magnitude",
    "Hwy.Emu.C57_if_negative_then_neg",
    "Hwy.Emu.C57_add_sub",
    "Hwy.Emu.C57_mul_add_sub",
    "Hwy.Emu.C57_mul_sub_add"
   ],
   "note": "single rounding of MulByPow2 proved for all exponents including subnormal results"
  },
  {
   "property": "C58",
   "status": "proved",
   "theorems": [
    "Hwy.Emu.C58_rol",
    "Hwy.Emu.C58_ror",
    "Hwy.Emu.C58_rotate_left_same",
    "Hwy.Emu.C58_rotate_right_same",
    "Hwy.Emu.C58_bit_shuffle",
    "Hwy.Emu.C58_multi_rotate_right"
   ],
   "note": "rotation stated with BitVec.rotateLeft/rotateRight; BitShuffle and MultiRotateRight for both vector sizes"
  },
  {
   "property": "C59",
   "status": "proved",
   "theorems": [
    "Hwy.Emu.C59_per4_lane_block_shuffle",
    "Hwy.Emu.C59_shift_lanes",
    "Hwy.Emu.C59_slide1",
    "Hwy.Emu.C59_slide_mask",
    "Hwy.Emu.C59_broadcast_lane",
    "Hwy.Emu.C59_masked_set",
    "Hwy.Emu.C59_sign_bit",
    "Hwy.Emu.C59_all_bits",
    "Hwy.Emu.C59_pairwise_128",
    "Hwy.Emu.C59_insert_into_upper",
    "Hwy.Emu.C59_sums_of_adj_quad_abs_diff",
    "Hwy.Emu.C59_sums_of_shuffled_quad_abs_diff"
   ],
   "note": "full for integer lanes; floating-point lanes of the shuffles are the same bits under BitCast"
  },
  {
   "property": "C60",
   "status": "proved",
   "theorems": [
    "Hwy.Emu.C60_promote_f16",
    "Hwy.Emu.C60_finding_promote_f16_inf",
    "Hwy.Emu.C60_promote_f16_f64",
    "Hwy.Emu.C60_demote_f16",
    "Hwy.Emu.C60_round_trip",
    "Hwy.Emu.C60_demote_f16_f64",
    "Hwy.Emu.C60_demote_bf16",
    "Hwy.Emu.C60_ordered_demote2_bf16",
    "Hwy.Emu.C60_reorder_demote2_bf16",
    "Hwy.Emu.C60_promote_in_range_lower",
    "Hwy.Emu.C60_promote_in_range_upper",
    "Hwy.Emu.C60_promote_in_range_even",
    "Hwy.Emu.C60_promote_in_range_odd",
    "Hwy.Emu.C60_mul_even_add_bf16",
    "Hwy.Emu.C60_mul_odd_add_bf16",
    "Hwy.Emu.C60_reorder_widen_mul_acc_bf16"
   ],
   "note": "full; finding: the generic float16 PromoteTo maps infinity and NaN to finite values (the library's tests call this implementation-defined)"
  },
  {
   "property": "C61",
   "status": "proved",
   "theorems": [
    "Hwy.Unroll.C61_elementwise",
    "Hwy.Unroll.C61_elementwise2",
    "Hwy.Unroll.C61_reduce",
    "Hwy.Unroll.C61_reduce2",
    "Hwy.Unroll.C61_find"
   ],
   "note": "full; the search needs n > 0 on targets where masked accesses cannot fault (otherwise nothing is written)"
  },
  {
   "property": "C62",
   "status": "proved",
   "theorems": [
    "Hwy.X86.C62_eq",
    "Hwy.X86.C62_ne",
    "Hwy.X86.C62_gt",
    "Hwy.X86.C62_ge",
    "Hwy.X86.C62_lt",
    "Hwy.X86.C62_le",
    "Hwy.X86.C62_testBit",
    "Hwy.X86.C62_ifThenElse",
    "Hwy.X86.C62_ifThenElseZero",
    "Hwy.X86.C62_ifThenZeroElse",
    "Hwy.X86.C62_mask_logic",
    "Hwy.X86.C62_shiftLeft",
    "Hwy.X86.C62_shiftRight_unsigned",
    "Hwy.X86.C62_broadcastSignBit",
    "Hwy.X86.C62_shiftRight_signed",
    "Hwy.X86.C62_rotateRight",
    "Hwy.X86.C62_shiftLeftSame",
    "Hwy.X86.C62_shiftRightSame_unsigned",
    "Hwy.X86.C62_shiftRightSame_signed",
    "Hwy.X86.C62_min",
    "Hwy.X86.C62_max",
    "Hwy.X86.C62_ifNegativeThenElse",
    "Hwy.X86.C62_abs",
    "Hwy.X86.C62_saturatedAbs",
    "Hwy.X86.C62_ifNegativeThenNegOrUndefIfZero",
    "Hwy.X86.C62_saturatedAdd",
    "Hwy.X86.C62_saturatedSub",
    "Hwy.X86.C62_averageRound",
    "Hwy.X86.C62_sumsOf8",
    "Hwy.X86.C62_sumsOf8AbsDiff",
    "Hwy.X86.C62_tableLookupBytes",
    "Hwy.X86.C62_tableLookupBytesOr0",
    "Hwy.X86.C62_iota",
    "Hwy.X86.C62_firstN"
   ],
   "note": "full for the listed integer operations; the semantics of the instructions themselves (X86Intrin.lean) is trusted"
  },
  {
   "property": "C63",
   "status": "proved",
   "theorems": [
    "Hwy.X86.C63_interleaveLower",
    "Hwy.X86.C63_interleaveUpper",
    "Hwy.X86.C63_upperHalf",
    "Hwy.X86.C63_combine",
    "Hwy.X86.C63_zeroExtendVector",
    "Hwy.X86.C63_concatLowerLower",
    "Hwy.X86.C63_concatUpperUpper",
    "Hwy.X86.C63_concatLowerUpper",
    "Hwy.X86.C63_concatUpperLower",
    "Hwy.X86.C63_concatOdd",
    "Hwy.X86.C63_concatEven",
    "Hwy.X86.C63_dupEven",
    "Hwy.X86.C63_dupOdd",
    "Hwy.X86.C63_oddEven",
    "Hwy.X86.C63_interleaveEven",
    "Hwy.X86.C63_interleaveOdd",
    "Hwy.X86.C63_shuffle1032",
    "Hwy.X86.C63_shuffle0321",
    "Hwy.X86.C63_shuffle2103",
    "Hwy.X86.C63_shuffle0123",
    "Hwy.X86.C63_shuffle2301",
    "Hwy.X86.C63_shuffle01",
    "Hwy.X86.C63_shuffleTwo2301",
    "Hwy.X86.C63_shuffleTwo1230",
    "Hwy.X86.C63_shuffleTwo3012",
    "Hwy.X86.C63_reverse",
    "Hwy.X86.C63_reverse2",
    "Hwy.X86.C63_reverse4",
    "Hwy.X86.C63_reverse8",
    "Hwy.X86.C63_broadcast",
    "Hwy.X86.C63_shiftLeftBytes",
    "Hwy.X86.C63_shiftLeftLanes",
    "Hwy.X86.C63_shiftRightBytes",
    "Hwy.X86.C63_shiftRightLanes",
    "Hwy.X86.C63_combineShiftRightBytes"
   ],
   "note": "full for integer lanes; DupOdd is stated for at least two lanes (a single 16/32-bit lane would receive bytes from above the vector). The semantics of the instructions (X86Intrin2.lean) is trusted"
  },
  {
   "property": "C64",
   "status": "proved",
   "theorems": [
    "Hwy.X86.C64_mul",
    "Hwy.X86.C64_mulEven",
    "Hwy.X86.C64_mulOdd",
    "Hwy.X86.C64_mulHigh",
    "Hwy.X86.C64_mulEven64",
    "Hwy.X86.C64_mulOdd64",
    "Hwy.X86.C64_mulHigh64",
    "Hwy.X86.C64_widenMulPairwiseAdd",
    "Hwy.X86.C64_reorderWidenMulAccumulate",
    "Hwy.X86.C64_mulFixedPoint15"
   ],
   "note": "full for integer lanes of 16 bits and more (operator* of 8-bit lanes needs PromoteTo/TruncateTo, see C65). MulFixedPoint15 excludes both factors -32768, where the targets differ (shown in the examples file; documented as implementation-defined). The semantics of the instructions (X86Intrin3.lean) is trusted"
  },
  {
   "property": "C65",
   "status": "proved",
   "theorems": [
    "Hwy.X86.C65_promoteTo",
    "Hwy.X86.C65_promoteLowerTo",
    "Hwy.X86.C65_promoteUpperTo",
    "Hwy.X86.C65_promoteEvenTo",
    "Hwy.X86.C65_promoteOddTo",
    "Hwy.X86.C65_truncateTo",
    "Hwy.X86.C65_demoteTo",
    "Hwy.X86.C65_demote2To",
    "Hwy.X86.C65_mul8",
    "Hwy.X86.C65_satWidenMulPairwiseAdd"
   ],
   "note": "full for integer lanes on 128-bit registers. On AVX2 the 16-byte 8-bit product and the 16-byte 64-to-32-bit two-vector demotion go through 256-bit registers: those cases are C75_mul8_128 and C75_demote2To128 (hypothesis t \u2260 avx2 here). Float conversions are not part of this claim. The semantics of PMOVZX/PMOVSX/PACKSS/PACKUS is trusted"
  },
  {
   "property": "C66",
   "status": "proved",
   "theorems": [
    "Hwy.X86.C66_slideUpLanes",
    "Hwy.X86.C66_slideDownLanes",
    "Hwy.X86.C66_slide1Up",
    "Hwy.X86.C66_slide1Down",
    "Hwy.X86.C66_tableLookupLanes",
    "Hwy.X86.C66_twoTablesLookupLanes"
   ],
   "note": "full for integer lanes of 128-bit and smaller vectors; the float overloads (same instructions on other register types), AVX-512 and the GCC __builtin_shuffle variant of the SSE2 loop are not modelled. VPERMILPS/VPERMILPD semantics trusted"
  },
  {
   "property": "C67",
   "status": "proved",
   "theorems": [
    "Hwy.X86.C67_shl",
    "Hwy.X86.C67_shr",
    "Hwy.X86.C67_shr_value",
    "Hwy.X86.C67_rol",
    "Hwy.X86.C67_ror",
    "Hwy.X86.C67_rotateLeftSame",
    "Hwy.X86.C67_rotateRightSame",
    "Hwy.X86.C67_rotateLeft"
   ],
   "note": "full for integer lanes of 128-bit and smaller vectors on SSE2/SSSE3/SSE4/AVX2; AVX-512 variants are not modelled. CVTPS2DQ/CVTTPS2DQ are modelled bit by bit (round to nearest even / truncate), the VPSLLV/VPSRLV/VPSRAV and VPERMQ semantics are trusted"
  },
  {
   "property": "C68",
   "status": "proved",
   "theorems": [
    "Hwy.X86.C68_bitsFromMask",
    "Hwy.X86.C68_bits_lt",
    "Hwy.X86.C68_storeMaskBits",
    "Hwy.X86.C68_loadMaskBits",
    "Hwy.X86.C68_dup128MaskFromMaskBits",
    "Hwy.X86.C68_roundtrip",
    "Hwy.X86.C68_allFalse",
    "Hwy.X86.C68_allTrue",
    "Hwy.X86.C68_countTrue",
    "Hwy.X86.C68_findFirstTrue",
    "Hwy.X86.C68_findLastTrue",
    "Hwy.X86.C68_compress",
    "Hwy.X86.C68_compressNot",
    "Hwy.X86.C68_compressBits",
    "Hwy.X86.C68_compressStore",
    "Hwy.X86.C68_compressBitsStore",
    "Hwy.X86.C68_blendedStore",
    "Hwy.X86.C68_compressBlendedStore",
    "Hwy.X86.C68_compressBitsStore8",
    "Hwy.X86.C68_compressBitsStore8_count",
    "Hwy.X86.C68_compressBits8",
    "Hwy.X86.C68_compressStore8",
    "Hwy.X86.C68_compress8",
    "Hwy.X86.C68_compressNot8",
    "Hwy.X86.C68_compressBlendedStore8",
    "Hwy.X86.C68_expand",
    "Hwy.X86.C68_loadExpand",
    "Hwy.X86.C68_expand_compress"
   ],
   "note": "full for integer lanes of 128-bit and smaller vectors on SSE2/SSSE3/SSE4/AVX2; the tables are extracted by tools/compress2lean.py. MOVMSK, PACKSS, VPMASKMOV and popcount semantics are trusted. CompressBlocksNot (two 64-bit lanes, a no-op) and AVX-512 variants are not modelled"
  },
  {
   "property": "C69",
   "status": "proved",
   "theorems": [
    "Hwy.X86.C69_loadInterleaved2",
    "Hwy.X86.C69_loadInterleaved3",
    "Hwy.X86.C69_loadInterleaved4",
    "Hwy.X86.C69_storeInterleaved2",
    "Hwy.X86.C69_storeInterleaved3",
    "Hwy.X86.C69_storeInterleaved4",
    "Hwy.X86.C69_roundTrip2",
    "Hwy.X86.C69_roundTrip3",
    "Hwy.X86.C69_roundTrip4"
   ],
   "note": "full for integer lanes of vectors of 1 to 16 bytes on SSE2/SSSE3/SSE4/AVX2; memory is a function from element offsets to lanes, C++ pointer alignment and the number of bytes read by the loads of partial vectors are not modelled. The 256-bit and AVX-512 block transposes are not modelled"
  },
  {
   "property": "C70",
   "status": "proved",
   "theorems": [
    "Hwy.X86.C70_lt128",
    "Hwy.X86.C70_eq128",
    "Hwy.X86.C70_ne128",
    "Hwy.X86.C70_lt128Upper",
    "Hwy.X86.C70_eq128Upper",
    "Hwy.X86.C70_minmax128",
    "Hwy.X86.C70_minmax128Upper",
    "Hwy.X86.C70_setAtOrAfterFirst",
    "Hwy.X86.C70_setBeforeFirst",
    "Hwy.X86.C70_setAtOrBeforeFirst",
    "Hwy.X86.C70_setOnlyFirst"
   ],
   "note": "full for one 128-bit block and integer lane masks on SSE2/SSSE3/SSE4/AVX2; the AVX-512 k-mask versions and 256-bit vectors are not modelled"
  },
  {
   "property": "C71",
   "status": "proved",
   "theorems": [
    "Hwy.X86.C71_sumOfLanes",
    "Hwy.X86.C71_minOfLanes",
    "Hwy.X86.C71_maxOfLanes",
    "Hwy.X86.C71_reduceSum",
    "Hwy.X86.C71_reduceMin",
    "Hwy.X86.C71_reduceMax",
    "Hwy.X86.C71_maskedReduceSum",
    "Hwy.X86.C71_maskedReduceMin",
    "Hwy.X86.C71_maskedReduceMax",
    "Hwy.X86.C71_reverse2",
    "Hwy.X86.C71_reverse4",
    "Hwy.X86.C71_reverse8"
   ],
   "note": "full for integer lanes of one 128-bit block on SSE2/SSSE3/SSE4/AVX2; floating-point reductions (whose order of additions is unspecified) and 256-bit vectors are not modelled"
  },
  {
   "property": "C72",
   "status": "proved",
   "theorems": [
    "Hwy.X86.V256.C72_concatOdd",
    "Hwy.X86.V256.C72_concatEven",
    "Hwy.X86.V256.C72_concatLowerLower",
    "Hwy.X86.V256.C72_concatLowerUpper",
    "Hwy.X86.V256.C72_concatUpperLower",
    "Hwy.X86.V256.C72_concatUpperUpper",
    "Hwy.X86.V256.C72_halves",
    "Hwy.X86.V256.C72_combine",
    "Hwy.X86.V256.C72_zeroExtendVector",
    "Hwy.X86.V256.C72_extractBlock",
    "Hwy.X86.V256.C72_insertBlock",
    "Hwy.X86.V256.C72_shiftLeftBytes",
    "Hwy.X86.V256.C72_shiftRightBytes",
    "Hwy.X86.V256.C72_combineShiftRightBytes",
    "Hwy.X86.V256.C72_tableLookupBytes",
    "Hwy.X86.V256.C72_tableLookupBytesOr0",
    "Hwy.X86.V256.C72_broadcastBlock",
    "Hwy.X86.V256.C72_broadcast",
    "Hwy.X86.V256.C72_broadcastLane",
    "Hwy.X86.V256.C72_swapAdjacentBlocks",
    "Hwy.X86.V256.C72_reverseBlocks",
    "Hwy.X86.V256.C72_interleaveEvenBlocks",
    "Hwy.X86.V256.C72_interleaveOddBlocks",
    "Hwy.X86.V256.C72_oddEvenBlocks",
    "Hwy.X86.V256.C72_shuffles",
    "Hwy.X86.V256.C72_shuffle01",
    "Hwy.X86.V256.C72_interleaveLower",
    "Hwy.X86.V256.C72_interleaveUpper",
    "Hwy.X86.V256.C72_interleaveWholeLower",
    "Hwy.X86.V256.C72_interleaveWholeUpper",
    "Hwy.X86.V256.C72_dupEven",
    "Hwy.X86.V256.C72_dupOdd",
    "Hwy.X86.V256.C72_oddEven",
    "Hwy.X86.V256.C72_interleaveEven",
    "Hwy.X86.V256.C72_interleaveOdd",
    "Hwy.X86.V256.C72_reverse2",
    "Hwy.X86.V256.C72_reverse4",
    "Hwy.X86.V256.C72_slide1Up",
    "Hwy.X86.V256.C72_slide1Down",
    "Hwy.X86.V256.C72_slideUpBlocks",
    "Hwy.X86.V256.C72_slideDownBlocks"
   ],
   "note": "full for the AVX2 branches on 256-bit vectors; AVX3 branches are not modelled"
  },
  {
   "property": "C73",
   "status": "proved",
   "theorems": [
    "Hwy.X86.V256.C73_tableLookupLanes",
    "Hwy.X86.V256.C73_twoTablesLookupLanes",
    "Hwy.X86.V256.C73_reverse",
    "Hwy.X86.V256.C73_reverse8",
    "Hwy.X86.V256.C73_iota",
    "Hwy.X86.V256.C73_slideUpLanes",
    "Hwy.X86.V256.C73_slideDownLanes"
   ],
   "note": "full for the AVX2 branches on 256-bit integer vectors; the slides of float vectors are the integer ones after a bit cast; AVX3 branches are not modelled"
  },
  {
   "property": "C74",
   "status": "proved",
   "theorems": [
    "Hwy.X86.V256.C74_bitsFromMask",
    "Hwy.X86.V256.C74_bits_lt",
    "Hwy.X86.V256.C74_storeMaskBits",
    "Hwy.X86.V256.C74_loadMaskBits",
    "Hwy.X86.V256.C74_roundtrip",
    "Hwy.X86.V256.C74_dup128MaskFromMaskBits",
    "Hwy.X86.V256.C74_allFalse",
    "Hwy.X86.V256.C74_allTrue",
    "Hwy.X86.V256.C74_countTrue",
    "Hwy.X86.V256.C74_findFirstTrue",
    "Hwy.X86.V256.C74_findLastTrue",
    "Hwy.X86.V256.C74_firstN",
    "Hwy.X86.V256.C74_blendedStore",
    "Hwy.X86.V256.C74_compress",
    "Hwy.X86.V256.C74_compressNot",
    "Hwy.X86.V256.C74_compressBlocksNot",
    "Hwy.X86.V256.C74_compressBits",
    "Hwy.X86.V256.C74_compressStore",
    "Hwy.X86.V256.C74_compressBitsStore",
    "Hwy.X86.V256.C74_compressBlendedStore",
    "Hwy.X86.V256.C74_compressBitsStore8",
    "Hwy.X86.V256.C74_compressBits8",
    "Hwy.X86.V256.C74_compressStore8",
    "Hwy.X86.V256.C74_compress8",
    "Hwy.X86.V256.C74_compressNot8",
    "Hwy.X86.V256.C74_compressBlendedStore8",
    "Hwy.X86.V256.C74_expand",
    "Hwy.X86.V256.C74_loadExpand",
    "Hwy.X86.V256.C74_expand_compress"
   ],
   "note": "full for the AVX2 branches on 256-bit vectors; MSAN branches and AVX3 are not modelled; the order of unselected bytes after Compress of 8-bit lanes is unspecified and not claimed"
  },
  {
   "property": "C75",
   "status": "proved",
   "theorems": [
    "Hwy.X86.V256.C75_promoteTo",
    "Hwy.X86.V256.C75_promoteLowerTo",
    "Hwy.X86.V256.C75_promoteUpperTo",
    "Hwy.X86.V256.C75_promoteEvenTo",
    "Hwy.X86.V256.C75_promoteOddTo",
    "Hwy.X86.V256.C75_truncateTo",
    "Hwy.X86.V256.C75_u8FromU32",
    "Hwy.X86.V256.C75_demoteTo",
    "Hwy.X86.V256.C75_reorderDemote2To",
    "Hwy.X86.V256.C75_orderedDemote2To",
    "Hwy.X86.V256.C75_demote2To128",
    "Hwy.X86.V256.C75_mul8_128",
    "Hwy.X86.V256.C75_mul8"
   ],
   "note": "full for the AVX2 branches between integer types; conversions from and to floating point on 256-bit vectors are not modelled"
  },
  {
   "property": "C76",
   "status": "proved",
   "theorems": [
    "Hwy.X86.V256.C76_logic",
    "Hwy.X86.V256.C76_ifThenElse",
    "Hwy.X86.V256.C76_mask_logic",
    "Hwy.X86.V256.C76_compare",
    "Hwy.X86.V256.C76_minMax",
    "Hwy.X86.V256.C76_addSub",
    "Hwy.X86.V256.C76_saturated",
    "Hwy.X86.V256.C76_sumsOf8",
    "Hwy.X86.V256.C76_shift",
    "Hwy.X86.V256.C76_shiftSame",
    "Hwy.X86.V256.C76_ifNegative",
    "Hwy.X86.V256.C76_abs",
    "Hwy.X86.V256.C76_zeroIfNegative",
    "Hwy.X86.V256.C76_zeroIfNegative_bytes",
    "Hwy.X86.V256.C76_finding_zeroIfNegative"
   ],
   "note": "full for the AVX2 branches; the ZeroIfNegative defect of 16/32/64-bit integers is proved as a finding; floating-point arithmetic is not modelled"
  },
  {
   "property": "C77",
   "status": "proved",
   "theorems": [
    "Hwy.X86.V256.C77_mul",
    "Hwy.X86.V256.C77_mulEven",
    "Hwy.X86.V256.C77_mulOdd",
    "Hwy.X86.V256.C77_mulHigh",
    "Hwy.X86.V256.C77_mul64",
    "Hwy.X86.V256.C77_widenMul",
    "Hwy.X86.V256.C77_mulFixedPoint15",
    "Hwy.X86.V256.C77_shl",
    "Hwy.X86.V256.C77_shr",
    "Hwy.X86.V256.C77_shr_value",
    "Hwy.X86.V256.C77_rotate"
   ],
   "note": "full for the AVX2 branches; instruction semantics (vpmulld, vpmulhw, vpsllvd, vpsravd \u2026) are part of the model of the intrinsics"
  },
  {
   "property": "C78",
   "status": "proved",
   "theorems": [
    "Hwy.X86.V256.C78_compare128",
    "Hwy.X86.V256.C78_compare128Upper",
    "Hwy.X86.V256.C78_minMax128",
    "Hwy.X86.V256.C78_setAtOrAfterFirst",
    "Hwy.X86.V256.C78_setBeforeFirst",
    "Hwy.X86.V256.C78_setOnlyFirst",
    "Hwy.X86.V256.C78_setAtOrBeforeFirst"
   ],
   "note": "full for the AVX2 branches"
  },
  {
   "property": "C79",
   "status": "proved",
   "theorems": [
    "Hwy.X86.V256.C79_sumOfLanes",
    "Hwy.X86.V256.C79_minOfLanes",
    "Hwy.X86.V256.C79_maxOfLanes",
    "Hwy.X86.V256.C79_reduceSum",
    "Hwy.X86.V256.C79_reduceMin",
    "Hwy.X86.V256.C79_reduceMax",
    "Hwy.X86.V256.C79_maskedReduceSum",
    "Hwy.X86.V256.C79_maskedReduceMin",
    "Hwy.X86.V256.C79_maskedReduceMax",
    "Hwy.X86.V256.C79_reverseBytes"
   ],
   "note": "full for integer lanes; floating-point reductions are not associative and not modelled"
  },
  {
   "property": "C80",
   "status": "proved",
   "theorems": [
    "Hwy.X86.C80_populationCount",
    "Hwy.X86.C80_reverseLaneBytes",
    "Hwy.X86.C80_reverseBits",
    "Hwy.X86.V256.C80_populationCount",
    "Hwy.X86.V256.C80_reverseLaneBytes",
    "Hwy.X86.V256.C80_reverseBits"
   ],
   "note": "full for the targets SSE2, SSSE3, SSE4, AVX2; also Hwy.X86.V256 versions"
  },
  {
   "property": "C81",
   "status": "proved",
   "theorems": [
    "Hwy.X86.C81_pairwiseAdd",
    "Hwy.X86.C81_pairwiseSub",
    "Hwy.X86.C81_pairwiseAdd128",
    "Hwy.X86.C81_pairwiseSub128",
    "Hwy.X86.C81_sumsOf2",
    "Hwy.X86.C81_sumsOf4",
    "Hwy.X86.V256.C81_pairwiseAdd",
    "Hwy.X86.V256.C81_pairwiseSub",
    "Hwy.X86.V256.C81_pairwiseAdd128",
    "Hwy.X86.V256.C81_pairwiseSub128",
    "Hwy.X86.V256.C81_sumsOf2",
    "Hwy.X86.V256.C81_sumsOf4"
   ],
   "note": "full for integer lanes on the targets SSE2, SSSE3, SSE4, AVX2"
  },
  {
   "property": "C82",
   "status": "proved",
   "theorems": [
    "Hwy.X86.C82_saturatedAdd",
    "Hwy.X86.C82_saturatedSub",
    "Hwy.X86.C82_satWidenMulPairwiseAccumulate",
    "Hwy.X86.C82_sumOfMulQuadAccumulate_i8",
    "Hwy.X86.C82_sumOfMulQuadAccumulate_u8",
    "Hwy.X86.C82_sumOfMulQuadAccumulate_u8i8",
    "Hwy.X86.C82_sumOfMulQuadAccumulate_i16",
    "Hwy.X86.C82_sumOfMulQuadAccumulate_u16",
    "Hwy.X86.V256.C82_saturatedAdd",
    "Hwy.X86.V256.C82_saturatedSub",
    "Hwy.X86.V256.C82_satWidenMulPairwiseAdd",
    "Hwy.X86.V256.C82_satWidenMulPairwiseAccumulate",
    "Hwy.X86.V256.C82_sumOfMulQuadAccumulate_i8",
    "Hwy.X86.V256.C82_sumOfMulQuadAccumulate_u8",
    "Hwy.X86.V256.C82_sumOfMulQuadAccumulate_u8i8",
    "Hwy.X86.V256.C82_sumOfMulQuadAccumulate_i16",
    "Hwy.X86.V256.C82_sumOfMulQuadAccumulate_u16"
   ],
   "note": "full for the targets SSE2, SSSE3, SSE4, AVX2 (AVX3 has native versions, not modelled)"
  },
  {
   "property": "C83",
   "status": "proved",
   "theorems": [
    "Hwy.X86.C83_extractLane",
    "Hwy.X86.C83_insertLane",
    "Hwy.X86.V256.C83_extractLane",
    "Hwy.X86.V256.C83_insertLane"
   ],
   "note": "full for the targets SSE2, SSSE3, SSE4, AVX2 in 64-bit mode (AVX3 and HWY_ARCH_X86_32 are not modelled)"
  }
 ]
}