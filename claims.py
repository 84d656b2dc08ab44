#!/usr/bin/env python3
"""Regenerates MANIFEST.json from the table below. Properties not listed are 'todo' and are left out."""
import json
C = {}
def claim(p, status, theorems, note=""):
    C[p] = {"property": p, "status": status, "theorems": theorems, "note": note}
S = "Hwy.BitSetSpec."
claim("C01", "proved", [S+"C01_bitset64", S+"C01_out_of_range"], "any history of in-range calls; ctz/popcount intrinsics trusted (fallbacks proved in C06)")
claim("C02", "proved", [S+"C02_bitset4096", S+"C02_partial_word_out_of_bounds"], "kMaxSize = 64n; second theorem is the negative result for other kMaxSize (a code defect)")
claim("C03", "proved", ["Hwy.C03_divisor", "Hwy.C03_divisor_zero"])
claim("C04", "proved", ["Hwy.C04_divisor64"])
claim("C05", "proved", ["Hwy.C05_mul128_unsigned", "Hwy.C05_mul128_signed"])
claim("C06", "proved", ["Hwy.C06_popCount32", "Hwy.C06_popCount64", "Hwy.C06_ctz64_via32", "Hwy.C06_clz64_via32", "Hwy.C06_floorLog2", "Hwy.C06_ceilLog2"])
claim("C07", "proved", ["Hwy.C07_divCeil", "Hwy.C07_roundUpTo", "Hwy.C07_roundUpTo_wraps", "Hwy.C07_roundDownTo"])
claim("C08", "proved", ["Hwy.C08_scalarShr", "Hwy.C08_addWithWraparound", "Hwy.C08_scalarAbsInt", "Hwy.C08_float_class", "Hwy.C08_copySign"])
P = "Hwy.Pool."
claim("C14", "proved", [P+"C14_divideRange", P+"C14_tasks"])
claim("C15", "proved", [P+"C15_coprimeNonzero", P+"C15_findAnotherCoprime", P+"C15_visits_each_once", P+"C15_victims"])
claim("C11", "proved", [P+"C11_exactly_once", P+"C11_nonvacuous", P+"C11_finding_63_threads_called_twice"], "all interleavings (SC), n <= 60 threads (kMaxThreads is 63; 61..63 alias barrier counters: with 63 threads the claim is false of the code, C11_finding_63_threads_called_twice), end + NumWorkers < 2^64")
claim("C12", "proved", [P+"C12_run_is_synchronous", P+"C12_finished_le_started"], "same scope as C11")
claim("C13", "proved", [P+"C13_no_deadlock", P+"C13_no_lost_wakeup", P+"C13_config_agreement", P+"C13_config_handed_over", P+"C13_threads_exit", P+"C13_threads_alive", P+"C13_finding_63_threads_early_return", P+"C13_finding_63_threads_deadlock"], "n <= 60 threads; with 63 threads the pool can deadlock (C13_finding_63_threads_deadlock). no deadlock = from every reachable state the operation can complete; fairness-based termination not modelled")
A = "Hwy.Algo."
claim("C27", "proved", [A+"C27_transform", A+"C27_transform1", A+"C27_transform2", A+"C27_replaceIf", A+"C27_replace", A+"C27_generate", A+"C27_foreach"], "func is assumed lane-wise (the documented contract)")
claim("C28", "proved", [A+"C28_findIf", A+"C28_find"])
claim("C29", "proved", [A+"C29_fill", A+"C29_copy", A+"C29_copyIf"])
L = "Hwy.Alloc."
claim("C30", "proved", [L+"C30_layout", L+"C30_histories", L+"C30_free", L+"C30_checkSize", L+"C30_itemsBytes", L+"C30_nonvacuous"], "all interleavings of reserve/malloc/header/write/free steps; the underlying allocator is assumed to return disjoint, non-wrapping blocks")
claim("C41", "proved", [L+"C41_ndarray", L+"C41_overflow"], "second theorem: shapes whose product wraps get a buffer that is too small (code defect)")
B = "Hwy.BitPack."
claim("C26", "proved", [B+"C26_pack8", B+"C26_pack16", B+"C26_pack32", B+"C26_pack64", B+"C26_pack16_11_fails", B+"C26_pack16_13_fails"], "Pack16<11> and Pack16<13> do not round-trip: counterexamples proved; programs generated from source text by tools/bitpack2lean.py")
F = "Hwy.Flt."
claim("C09", "proved", [F+"C09_f16FromF32", F+"C09_f32FromF16", F+"C09_roundTrip"], "software path; float multiplication by powers of two modelled as IEEE round to nearest even")
claim("C10", "proved", [F+"C10_bf16FromF32", F+"C10_f32FromBF16", F+"C10_roundTrip"])
claim("C42", "proved", [F+"C42_f16FromF64", F+"C42_bf16FromF64"], "double to float cast modelled as IEEE round to nearest even")
V = "Hwy.VQ."
claim("C20", "proved", [V+"C20_baseCase", V+"C20_signed_zero_loss"], "network programs generated from source text by tools/networks2lean.py; needs keys that compare equal to be identical (all bits compared), which fails for float -0/+0: second theorem")
claim("C21", "proved", [V+"C21_heapSort", V+"C21_heapSort_empty"], "second theorem: num == 0 is out-of-bounds (code defect)")
claim("C19", "proved", [V+"C19_partition", V+"C19_partition_overrun"], "second theorem: on targets whose CompressBlendedStore rewrites a whole vector, Partition accesses memory after keys[num) (code defect)")
claim("C25", "proved", [V+"C25_twoValue", V+"C25_twoValueR", V+"C25_allEqual", V+"C25_existsAny", V+"orXor_spec"], "keys that compare equal are assumed identical for the two-value paths (not run for key-value types); for floats this merges -0/+0")
K = [V+"C17_C18_int_ascending", V+"C17_C18_int_descending", V+"C17_C18_kv64", V+"C17_C18_u128", V+"C17_C18_kv128"]
claim("C17", "proved", [V+"C17_sort"]+K, "all key types except floats (see C24); both with vqsort and with the heapsort fallback (there only num > 0, see C21_heapSort_empty); vectors up to 64 bytes, compress-stores as in C19")
claim("C18", "proved", [V+"C18_sort"]+K, "as C17")
claim("C22", "proved", [V+"C22_select", V+"C22_heapSelect"])
claim("C23", "proved", [V+"C23_partialSort", V+"C23_partialSort_zero_debug", V+"C23_heapPartialSort", V+"C23_heapPartialSort_zero", V+"C23_heapPartialSort_all"], "code defects proved: k = 0 aborts in debug builds and is out of bounds without vqsort; k = num is out of bounds without vqsort")
claim("C24", "proved", [V+"C24_sort", V+"C24_float", V+"C24_select_kth", V+"C24_partialSort_prefix", V+"C24_select_loses_key", V+"C24_partialSort_loses_key", V+"smaller_val", V+"larger_val"], "numbers up to the sign of zero; VQSelect and VQPartialSort lose keys (code defect, proved)")
U = "Hwy.Tune."
claim("C16", "proved", [U+"C16_ring", U+"C16_ring_too_many", U+"C16_autotune", U+"C16_candidates_after_best"], "double modelled as an ordered field (exact arithmetic), sqrt abstract; the assertion M1 >= Lower of line 206 is not modelled; last theorem: Candidates() asserts in debug builds after Best() is set (code defect)")
T = "Hwy.Stats."
claim("C32", "proved", [T+"C32_accumulate", T+"C32_queries", T+"C32_variance_int_cast", T+"C32_bins", T+"C32_bins_abort"], "float/double modelled as an ordered field (exact arithmetic), log abstract; skewness (pow/sqrt) and ToString not modelled; third theorem: the count is cast to int, so >= 2^31 values give wrong variances (code defect)")
R = "Hwy.Robust."
claim("C33", "proved", [R+"C33_countingSort", R+"C33_median", R+"C33_median_overflow", R+"C33_mad", R+"C33_minRange", R+"C33_minRange_outside", R+"C33_mode", R+"C33_mode_majority", R+"C33_mode_odd", R+"C33_mode_overflow"], "unsigned T; std::sort trusted; code defects proved: the average overflows for 32/64-bit values in the upper half of the range; MinRange can return an index outside of its range")
claim("C31", "proved", ["Hwy.Rnd.C31_jump","Hwy.Rnd.C31_period","Hwy.Rnd.C31_seed","Hwy.Rnd.C31_thread","Hwy.Rnd.C31_lanes","Hwy.Rnd.C31_disjoint","Hwy.Rnd.C31_draw","Hwy.Rnd.C31_draw_elements","Hwy.Rnd.C31_uniform","Hwy.Rnd.C31_uniform_draws","Hwy.Rnd.C31_cached"], "SplitMix64, Xoshiro (Next, Jump, LongJump, period), VectorXoshiro, CachedXoshiro; n not a multiple of the lanes writes past the array (proved).")
G = "Hwy.Tgt."
claim("C34", "proved", [G+"C34_dispatch", G+"C34_best_unique", G+"C34_table", G+"C34_never_disabled", G+"C34_concurrent", G+"C34_concurrent_default", G+"C34_concurrent_mock", G+"C34_detect_x86", G+"C34_detect_chain", G+"C34_detect_os", G+"C34_runs_supported", G+"C34_disable_replaces", G+"C34_finding_supported_reenables", G+"C34_finding_concurrent_disabled", G+"C34_finding_avx10_without_zmm"], "detection modelled for x86, an arbitrary input elsewhere; code defects proved: calling SupportedTargets() re-enables disabled targets, as does a race between two first dispatches; AVX10_2_512 is reported although the OS does not preserve ZMM registers")
D = "Hwy.DotP."
claim("C35", "proved", [D+"C35_float", D+"C35_mixed", D+"C35_bf16", D+"C35_i16", D+"C35_i16_vector", D+"rwmaEvenOdd_ok", D+"C35_finding_i16_overflow", D+"C35_nonvacuous"], "exact arithmetic (any semiring) for floats; i16 exact if the magnitudes sum to less than 2^31, modulo 2^32 on the vector path; code defect proved: the scalar i16 path has signed overflow where the vector path wraps")
N = "Hwy.MatVecP."
claim("C36", "proved", [N+x for x in ["C36_same","C36_same_add","C36_same_add_exact","C36_mixed","C36_mixed_add","C36_wide","C36_wide_add","C36_each_row_once","C36_finding_large_vectors","C36_finding_out_alignment","C36_finding_double_add","C36_nonvacuous"]], "exact arithmetic; every order of the stores of all tasks; vectors of at most 64 bytes and aligned out. Code defects proved: larger vectors read out of bounds in release builds, out must be aligned (undocumented), MatVecAdd of double adds in float")
O = "Hwy.Topo."
claim("C37", "proved", [O+"C37_"+x for x in ["expand","accepts","in_bounds","number","nonvacuous","finding_missing_number","finding_descending","finding_empty_list","finding_above_max","finding_ten_digits"]], "malformed input: accepted lists are characterised exactly; code defects proved: missing numbers read as 0, descending ranges accepted, an empty list (memory-only NUMA node) aborts, ids of ten digits abort")
claim("C43", "proved", [O+"C43_"+x for x in ["consistent_any","no_ub","detects","nonvacuous"]], "Linux; file contents arbitrary; CPUs offline are outside of the model")
claim("C44", "proved", [O+"C44_read", O+"C44_finding_overflow"], "code defect proved: a file of 200 bytes or more makes the terminator be written past the buffer")
claim("C45", "proved", [O+"C45_"+x for x in ["sets","capacity","total","data_caches","missing","nonvacuous","sets_nonvacuous","finding_abort","finding_abort_10way","finding_div0"]], "code defects proved: ComputeSets aborts for some consistent caches, and divides by zero for 64 KiB lines")
I = "Hwy.Img."
claim("C40", "proved", [I+"C40_"+x for x in ["rows","padding","empty","shrink","external","external_abort","image3","image3_planes","clamped","subrect","isInside","rect_row","mirror","mirror_inside","mirror_limits","wrap_row","nonvacuous","finding_external_alignment","finding_alias","finding_overflow","finding_truncated","finding_image3_stride","finding_rect_wraps","finding_wrap_row"]], "code defects proved: BytesPerRow can be a multiple of 2 KiB although documented otherwise; byte count overflow and dimension truncation are not checked; external memory aligned as documented is UB; Image3 accepts planes with different strides; Rect arithmetic wraps")
E = "Hwy.Emu."
claim("C38", "proved", [E+"C38_"+x for x in ["add","sub","neg","mul","not","and","or","xor","and_not","xor3","or3","or_and","if_vec_then_else","if_then_else","if_then_else_zero","if_then_zero_else","if_negative_then_else","mask_logic","shift_right","shr","broadcast_sign_bit","shift_left","shl","saturated_add","saturated_sub","average_round","abs","min","max","mul_high","mul_even","mul_odd","mul_high64","mul_widen64","mul_fixed_point15","rotate_right","compare","test_bit","compare128","minmax128","minmax128_upper","set","iota","reduce_sum","reduce_sum_overflow","reduce_min","reduce_max","of_lanes","sums_of_8"]], "all eight integer lane types; integer arithmetic follows an explicit model of C++ promotion, conversion and overflow (Verif/CInt.lean); code defect proved: ReduceSum of int32/int64 lanes overflows (undefined) where vector addition wraps")
claim("C46", "proved", [E+"C46_"+x for x in ["first_n","bits_from_mask","load_mask_bits","dup128_mask","store_mask_bits","mask_bits_roundtrip","all_false","all_true","count_true","find_first","find_last","set_at_or_after_first","set_before_first","set_only_first","set_at_or_before_first","compress","compress_not","compress_store","expand","load_expand","expand_compress","compress_bits_store","example_mask","nonvacuous"]], "all eight integer lane types; every memory access is bounds-checked in the model")
claim("C47", "proved", [E+"C47_"+x for x in ["load","load_n","load_n_or","store","store_n","blended_store","lower_half","upper_half","zero_extend","combine","concat","concat_even_odd","combine_shift_right_bytes","shift_left_bytes","shift_right_bytes","shift_left_lanes","shift_right_lanes","finding_shift_bytes_partial","table_lookup_bytes","insert_extract","dup_even","dup_odd","odd_even","interleave_even","interleave_odd","indices_from_vec","table_lookup_lanes","two_tables_lookup_lanes","reverse","reverse2","reverse4","reverse8","slide_up","slide_down","shuffle","broadcast","interleave_lower","interleave_upper","load_interleaved","store_interleaved","interleaved_roundtrip","nonvacuous"]], "lanes of arbitrary type; code defect proved: byte shifts of partial vectors by more than their size are documented but copy almost 2^64 bytes")
claim("C48", "proved", [E+"C48_"+x for x in ["round","trunc","ceil","floor","nearest_int","demote_to_nearest_int","abs","neg","copy_sign","copy_sign_to_abs","is_nan","compare","min","max","finding_round_sign","finding_nearest_int","finding_demote_to_nearest_int","finding_zeros"]], "NearestInt and DemoteToNearestInt exclude the inputs on which the code is wrong, shown by the finding theorems: NearestInt(2^31 / 2^63) is undefined, DemoteToNearestInt is off by one in (-2147483647.5, -2147483647), Round turns negative lanes that round to zero into +0.0")
claim("C49", "proved", [E+"C49_"+x for x in ["promote", "demote", "ordered_demote2", "truncate", "ordered_truncate2", "u8_from_u32", "float_to_int", "float_to_int_in_range", "int_to_float", "int32_to_double", "promote_f32", "demote_f64", "promote_bf16", "demote_bf16", "ordered_demote2_bf16", "ordered_demote2_f16", "bit_cast", "promote_odd", "promote_even", "sums_of_2", "widen_mul_pairwise_add", "reorder_widen_mul_accumulate", "rearrange_to_odd_plus_even", "promote_even_bf16", "promote_odd_bf16", "reorder_demote2_bf16", "finding_reorder_demote2_nan"]], "little-endian; float-type WidenMulPairwiseAdd (bf16) not modelled; code defect proved: ReorderDemote2To to bfloat16 turns some NaN into infinity")
claim("C50", "proved", [E+"C50_"+x for x in ["clmul_lower","clmul_upper","clmul_exact","finding_clmul_carry"]], "code defect proved: the generic CLMul is wrong for operands that each have a fully set bit class modulo 4 (for example 0x1111111111111111 squared); the theorems give the exact result for all operands, including those")
claim("C51", "proved", [E+"C51_"+x for x in ["aes_round","aes_last_round","aes_inv_mix_columns","aes_round_inv","aes_last_round_inv","aes_key_gen_assist","decrypt_encrypt"]], "one 128-bit block per vector, as on the reference target")
claim("C52", "proved", [E+"C52_"+x for x in ["population_count","leading_zero_count","trailing_zero_count","masked_leading_zero_count","highest_set_bit_index","reverse_bits","reverse_lane_bytes"]], "reference target; all lane types and vector sizes")
claim("C53", "proved", [E+"C53_"+x for x in ["div","mod"]], "reference target; all lane types and vector sizes; the float operations inside are the IEEE operations of C54")
claim("C54", "proved", [E+"C54_"+x for x in ["add","sub","mul","div","abs_diff","mul_add","mul_sub","neg_mul_add","neg_mul_sub","approximate_reciprocal","finding_div_zero"]], "C++ float and double arithmetic is taken to be IEEE 754 round-to-nearest-even without contraction; code finding: Div by a zero gives +0 instead of infinity or NaN")
claim("C39", "proved", [E+"C39_"+x for x in ["clamp", "bitwise_if_then_else", "rotate_left", "is_negative", "if_negative", "if_negative_then_neg", "min_magnitude", "max_magnitude", "abs_diff", "saturated_add", "saturated_sub", "saturated_neg", "saturated_abs", "rounding_shift_right", "rounding_shift_right_same", "rounding_shr", "add_sub", "pairwise_add", "pairwise_sub", "sums_of_8_abs_diff", "masked_or", "masked_div", "masked_shift", "masked_zero", "masked_compare", "masked_mul_fixed_point15", "masked_widen_mul_pairwise_add", "masked_reduce_sum", "masked_reduce_min", "masked_reduce_max", "promote_mask", "demote_mask", "ordered_demote2_masks", "combine_masks", "half_of_mask", "mask_false"]], "reference target; all integer lane types; ReduceSum of i32/i64 needs partial sums in range, as in C38")
claim("C55", "proved", [E+"C55_"+x for x in ["sums_of_4","widen_mul_accumulate","sat_widen_mul_pairwise_add","sat_widen_mul_pairwise_accumulate","sat_widen_mul_accum_fixed_point","sum_of_mul_quad_i8","sum_of_mul_quad_u8","sum_of_mul_quad_u8_i8","sum_of_mul_quad_i16","sum_of_mul_quad_u16"]], "integer overloads on the reference target; the floating-point overloads are not modelled")
claim("C56", "proved", [E+"C56_"+x for x in ["scatter_index", "masked_scatter_index", "scatter_index_n", "scatter_offset", "gather_index", "masked_gather_index_or", "masked_gather_index", "gather_index_n_or", "gather_index_n", "gather_offset", "masked_load", "masked_load_or", "safe_fill_n", "safe_copy_n", "truncate_store", "finding_masked_gather_negative"]], "code finding: the generic masked gathers assert non-negative indices even in lanes whose mask is false, although the documentation says such lanes do not fault")
claim("C57", "proved", [E+"C57_"+x for x in ["mul_by_pow2", "get_biased_exponent", "get_exponent", "classify", "ceil_int", "floor_int", "mul_by_floor_pow2", "min_magnitude", "max_magnitude", "if_negative_then_neg", "add_sub", "mul_add_sub", "mul_sub_add"]], "single rounding of MulByPow2 proved for all exponents including subnormal results")
claim("C58", "proved", [E+"C58_"+x for x in ["rol", "ror", "rotate_left_same", "rotate_right_same", "bit_shuffle", "multi_rotate_right"]], "rotation stated with BitVec.rotateLeft/rotateRight; BitShuffle and MultiRotateRight for both vector sizes")
claim("C59", "proved", [E+"C59_"+x for x in ["per4_lane_block_shuffle", "shift_lanes", "slide1", "slide_mask", "broadcast_lane", "masked_set", "sign_bit", "all_bits", "pairwise_128", "insert_into_upper", "sums_of_adj_quad_abs_diff", "sums_of_shuffled_quad_abs_diff"]], "full for integer lanes; floating-point lanes of the shuffles are the same bits under BitCast")
claim("C60", "proved", [E+"C60_"+x for x in ["promote_f16", "finding_promote_f16_inf", "promote_f16_f64", "demote_f16", "round_trip", "demote_f16_f64", "demote_bf16", "ordered_demote2_bf16", "reorder_demote2_bf16", "promote_in_range_lower", "promote_in_range_upper", "promote_in_range_even", "promote_in_range_odd", "mul_even_add_bf16", "mul_odd_add_bf16", "reorder_widen_mul_acc_bf16"]], "full; finding: the generic float16 PromoteTo maps infinity and NaN to finite values (the library's tests call this implementation-defined)")
claim("C61", "proved", ["Hwy.Unroll."+"C61_"+x for x in ["elementwise", "elementwise2", "reduce", "reduce2", "find"]], "full; the search needs n > 0 on targets where masked accesses cannot fault (otherwise nothing is written)")
claim("C62", "proved", ["Hwy.X86."+"C62_"+x for x in ["eq", "ne", "gt", "ge", "lt", "le", "testBit", "ifThenElse", "ifThenElseZero", "ifThenZeroElse", "mask_logic", "shiftLeft", "shiftRight_unsigned", "broadcastSignBit", "shiftRight_signed", "rotateRight", "shiftLeftSame", "shiftRightSame_unsigned", "shiftRightSame_signed", "min", "max", "ifNegativeThenElse", "abs", "saturatedAbs", "ifNegativeThenNegOrUndefIfZero", "saturatedAdd", "saturatedSub", "averageRound", "sumsOf8", "sumsOf8AbsDiff", "tableLookupBytes", "tableLookupBytesOr0", "iota", "firstN"]], "full for the listed integer operations; the semantics of the instructions themselves (X86Intrin.lean) is trusted")
claim("C63", "proved", ["Hwy.X86."+"C63_"+x for x in ["interleaveLower", "interleaveUpper", "upperHalf", "combine", "zeroExtendVector", "concatLowerLower", "concatUpperUpper", "concatLowerUpper", "concatUpperLower", "concatOdd", "concatEven", "dupEven", "dupOdd", "oddEven", "interleaveEven", "interleaveOdd", "shuffle1032", "shuffle0321", "shuffle2103", "shuffle0123", "shuffle2301", "shuffle01", "shuffleTwo2301", "shuffleTwo1230", "shuffleTwo3012", "reverse", "reverse2", "reverse4", "reverse8", "broadcast", "shiftLeftBytes", "shiftLeftLanes", "shiftRightBytes", "shiftRightLanes", "combineShiftRightBytes"]], "full for integer lanes; DupOdd is stated for at least two lanes (a single 16/32-bit lane would receive bytes from above the vector). The semantics of the instructions (X86Intrin2.lean) is trusted")
claim("C64", "proved", ["Hwy.X86."+"C64_"+x for x in ["mul", "mulEven", "mulOdd", "mulHigh", "mulEven64", "mulOdd64", "mulHigh64", "widenMulPairwiseAdd", "reorderWidenMulAccumulate", "mulFixedPoint15"]], "full for integer lanes of 16 bits and more (operator* of 8-bit lanes needs PromoteTo/TruncateTo, see C65). MulFixedPoint15 excludes both factors -32768, where the targets differ (shown in the examples file; documented as implementation-defined). The semantics of the instructions (X86Intrin3.lean) is trusted")
claim("C65", "proved", ["Hwy.X86."+"C65_"+x for x in ["promoteTo", "promoteLowerTo", "promoteUpperTo", "promoteEvenTo", "promoteOddTo", "truncateTo", "demoteTo", "demote2To", "mul8", "satWidenMulPairwiseAdd"]], "full for integer lanes on 128-bit registers. On AVX2 the 16-byte 8-bit product and the 16-byte 64-to-32-bit two-vector demotion go through 256-bit registers: those cases are C75_mul8_128 and C75_demote2To128 (hypothesis t \u2260 avx2 here). Float conversions are not part of this claim. The semantics of PMOVZX/PMOVSX/PACKSS/PACKUS is trusted")
claim("C66", "proved", ["Hwy.X86."+"C66_"+x for x in ["slideUpLanes", "slideDownLanes", "slide1Up", "slide1Down", "tableLookupLanes", "twoTablesLookupLanes"]], "full for integer lanes of 128-bit and smaller vectors; the float overloads (same instructions on other register types), AVX-512 and the GCC __builtin_shuffle variant of the SSE2 loop are not modelled. VPERMILPS/VPERMILPD semantics trusted")
claim("C67", "proved", ["Hwy.X86."+"C67_"+x for x in ["shl", "shr", "shr_value", "rol", "ror", "rotateLeftSame", "rotateRightSame", "rotateLeft"]], "full for integer lanes of 128-bit and smaller vectors on SSE2/SSSE3/SSE4/AVX2; AVX-512 variants are not modelled. CVTPS2DQ/CVTTPS2DQ are modelled bit by bit (round to nearest even / truncate), the VPSLLV/VPSRLV/VPSRAV and VPERMQ semantics are trusted")
claim("C68", "proved", ["Hwy.X86."+"C68_"+x for x in ["bitsFromMask", "bits_lt", "storeMaskBits", "loadMaskBits", "dup128MaskFromMaskBits", "roundtrip", "allFalse", "allTrue", "countTrue", "findFirstTrue", "findLastTrue", "compress", "compressNot", "compressBits", "compressStore", "compressBitsStore", "blendedStore", "compressBlendedStore", "compressBitsStore8", "compressBitsStore8_count", "compressBits8", "compressStore8", "compress8", "compressNot8", "compressBlendedStore8", "expand", "loadExpand", "expand_compress"]], "full for integer lanes of 128-bit and smaller vectors on SSE2/SSSE3/SSE4/AVX2; the tables are extracted by tools/compress2lean.py. MOVMSK, PACKSS, VPMASKMOV and popcount semantics are trusted. CompressBlocksNot (two 64-bit lanes, a no-op) and AVX-512 variants are not modelled")
claim("C69", "proved", ["Hwy.X86."+"C69_"+x for x in ["loadInterleaved2", "loadInterleaved3", "loadInterleaved4", "storeInterleaved2", "storeInterleaved3", "storeInterleaved4", "roundTrip2", "roundTrip3", "roundTrip4"]], "full for integer lanes of vectors of 1 to 16 bytes on SSE2/SSSE3/SSE4/AVX2; memory is a function from element offsets to lanes, C++ pointer alignment and the number of bytes read by the loads of partial vectors are not modelled. The 256-bit and AVX-512 block transposes are not modelled")
claim("C70", "proved", ["Hwy.X86."+"C70_"+x for x in ["lt128", "eq128", "ne128", "lt128Upper", "eq128Upper", "minmax128", "minmax128Upper", "setAtOrAfterFirst", "setBeforeFirst", "setAtOrBeforeFirst", "setOnlyFirst"]], "full for one 128-bit block and integer lane masks on SSE2/SSSE3/SSE4/AVX2; the AVX-512 k-mask versions and 256-bit vectors are not modelled")
claim("C71", "proved", ["Hwy.X86."+"C71_"+x for x in ["sumOfLanes", "minOfLanes", "maxOfLanes", "reduceSum", "reduceMin", "reduceMax", "maskedReduceSum", "maskedReduceMin", "maskedReduceMax", "reverse2", "reverse4", "reverse8"]], "full for integer lanes of one 128-bit block on SSE2/SSSE3/SSE4/AVX2; floating-point reductions (whose order of additions is unspecified) and 256-bit vectors are not modelled")
claim("C72", "proved", ["Hwy.X86.V256."+"C72_"+x for x in ["concatOdd", "concatEven", "concatLowerLower", "concatLowerUpper", "concatUpperLower", "concatUpperUpper", "halves", "combine", "zeroExtendVector", "extractBlock", "insertBlock", "shiftLeftBytes", "shiftRightBytes", "combineShiftRightBytes", "tableLookupBytes", "tableLookupBytesOr0", "broadcastBlock", "broadcast", "broadcastLane", "swapAdjacentBlocks", "reverseBlocks", "interleaveEvenBlocks", "interleaveOddBlocks", "oddEvenBlocks", "shuffles", "shuffle01", "interleaveLower", "interleaveUpper", "interleaveWholeLower", "interleaveWholeUpper", "dupEven", "dupOdd", "oddEven", "interleaveEven", "interleaveOdd", "reverse2", "reverse4", "slide1Up", "slide1Down", "slideUpBlocks", "slideDownBlocks"]], "full for the AVX2 branches on 256-bit vectors; AVX3 branches are not modelled")
claim("C73", "proved", ["Hwy.X86.V256."+"C73_"+x for x in ["tableLookupLanes", "twoTablesLookupLanes", "reverse", "reverse8", "iota", "slideUpLanes", "slideDownLanes"]], "full for the AVX2 branches on 256-bit integer vectors; the slides of float vectors are the integer ones after a bit cast; AVX3 branches are not modelled")
claim("C74", "proved", ["Hwy.X86.V256."+"C74_"+x for x in ["bitsFromMask", "bits_lt", "storeMaskBits", "loadMaskBits", "roundtrip", "dup128MaskFromMaskBits", "allFalse", "allTrue", "countTrue", "findFirstTrue", "findLastTrue", "firstN", "blendedStore", "compress", "compressNot", "compressBlocksNot", "compressBits", "compressStore", "compressBitsStore", "compressBlendedStore", "compressBitsStore8", "compressBits8", "compressStore8", "compress8", "compressNot8", "compressBlendedStore8", "expand", "loadExpand", "expand_compress"]], "full for the AVX2 branches on 256-bit vectors; MSAN branches and AVX3 are not modelled; the order of unselected bytes after Compress of 8-bit lanes is unspecified and not claimed")
claim("C75", "proved", ["Hwy.X86.V256."+"C75_"+x for x in ["promoteTo", "promoteLowerTo", "promoteUpperTo", "promoteEvenTo", "promoteOddTo", "truncateTo", "u8FromU32", "demoteTo", "reorderDemote2To", "orderedDemote2To", "demote2To128", "mul8_128", "mul8"]], "full for the AVX2 branches between integer types; conversions from and to floating point on 256-bit vectors are not modelled")
claim("C76", "proved", ["Hwy.X86.V256."+"C76_"+x for x in ["logic", "ifThenElse", "mask_logic", "compare", "minMax", "addSub", "saturated", "sumsOf8", "shift", "shiftSame", "ifNegative", "abs", "zeroIfNegative", "zeroIfNegative_bytes", "finding_zeroIfNegative"]], "full for the AVX2 branches; the ZeroIfNegative defect of 16/32/64-bit integers is proved as a finding; floating-point arithmetic is not modelled")
claim("C77", "proved", ["Hwy.X86.V256."+"C77_"+x for x in ["mul", "mulEven", "mulOdd", "mulHigh", "mul64", "widenMul", "mulFixedPoint15", "shl", "shr", "shr_value", "rotate"]], "full for the AVX2 branches; instruction semantics (vpmulld, vpmulhw, vpsllvd, vpsravd \u2026) are part of the model of the intrinsics")
claim("C78", "proved", ["Hwy.X86.V256."+"C78_"+x for x in ["compare128", "compare128Upper", "minMax128", "setAtOrAfterFirst", "setBeforeFirst", "setOnlyFirst", "setAtOrBeforeFirst"]], "full for the AVX2 branches")
claim("C79", "proved", ["Hwy.X86.V256."+"C79_"+x for x in ["sumOfLanes", "minOfLanes", "maxOfLanes", "reduceSum", "reduceMin", "reduceMax", "maskedReduceSum", "maskedReduceMin", "maskedReduceMax", "reverseBytes"]], "full for integer lanes; floating-point reductions are not associative and not modelled")
claim("C80", "proved", ["Hwy.X86."+"C80_"+x for x in ["populationCount", "reverseLaneBytes", "reverseBits"]]+["Hwy.X86.V256.C80_"+x for x in ["populationCount", "reverseLaneBytes", "reverseBits"]], "full for the targets SSE2, SSSE3, SSE4, AVX2; also Hwy.X86.V256 versions")
claim("C81", "proved", ["Hwy.X86."+"C81_"+x for x in ["pairwiseAdd", "pairwiseSub", "pairwiseAdd128", "pairwiseSub128", "sumsOf2", "sumsOf4"]]+["Hwy.X86.V256.C81_"+x for x in ["pairwiseAdd", "pairwiseSub", "pairwiseAdd128", "pairwiseSub128", "sumsOf2", "sumsOf4"]], "full for integer lanes on the targets SSE2, SSSE3, SSE4, AVX2")
claim("C82", "proved", ["Hwy.X86."+"C82_"+x for x in ["saturatedAdd", "saturatedSub", "satWidenMulPairwiseAccumulate", "sumOfMulQuadAccumulate_i8", "sumOfMulQuadAccumulate_u8", "sumOfMulQuadAccumulate_u8i8", "sumOfMulQuadAccumulate_i16", "sumOfMulQuadAccumulate_u16"]]+["Hwy.X86.V256.C82_"+x for x in ["saturatedAdd", "saturatedSub", "satWidenMulPairwiseAdd", "satWidenMulPairwiseAccumulate", "sumOfMulQuadAccumulate_i8", "sumOfMulQuadAccumulate_u8", "sumOfMulQuadAccumulate_u8i8", "sumOfMulQuadAccumulate_i16", "sumOfMulQuadAccumulate_u16"]], "full for the targets SSE2, SSSE3, SSE4, AVX2 (AVX3 has native versions, not modelled)")
claim("C83", "proved", ["Hwy.X86."+"C83_"+x for x in ["extractLane", "insertLane"]]+["Hwy.X86.V256.C83_"+x for x in ["extractLane", "insertLane"]], "full for the targets SSE2, SSSE3, SSE4, AVX2 in 64-bit mode (AVX3 and HWY_ARCH_X86_32 are not modelled)")
json.dump({"claims": [C[k] for k in sorted(C)]}, open("/verif/MANIFEST.json", "w"), indent=1)
