{
 "claims": [
  {
   "property": "C01",
   "status": "proved",
   "theorems": [
    "Cnine.C01_decode_then_encode",
    "Cnine.C01_encode_then_decode",
    "Cnine.C01_decode_zero_dim"
   ],
   "note": "Full statement; zero extents give undefined behaviour (division by zero)."
  },
  {
   "property": "C02",
   "status": "partial",
   "theorems": [
    "Cnine.C02_foreach_index_partial",
    "Cnine.C02_foreach_index_rank0_fails"
   ],
   "note": "False at rank 0 (callback never called, proved); proved for every rank >= 1."
  },
  {
   "property": "C03",
   "status": "proved",
   "theorems": [
    "Cnine.C03_row_major_strides",
    "Cnine.C03_base_stride",
    "Cnine.C03_offs_refuses"
   ],
   "note": "Full statement."
  },
  {
   "property": "C04",
   "status": "partial",
   "theorems": [
    "Cnine.C04_offs_lead_value",
    "Cnine.C04_offs_lead_partial",
    "Cnine.C04_offs_lead_fails"
   ],
   "note": "False in general (loop variable shadows the argument; witness proved); value characterised exactly; agreement proved for i=1."
  },
  {
   "property": "C05",
   "status": "partial",
   "theorems": [
    "Cnine.C05_memsize_bound_partial",
    "Cnine.C05_memsize_row_major",
    "Cnine.C05_memsize_bound_fails",
    "Cnine.C05_memsize_broadcast_zero"
   ],
   "note": "False in general (takes the largest stride*dim, not the span; witness proved); bound proved for nested strides."
  },
  {
   "property": "C06",
   "status": "partial",
   "theorems": [
    "Cnine.C06_ordering",
    "Cnine.C06_descending_ordering_partial",
    "Cnine.C06_descending_ordering_fails",
    "Cnine.C06_ordering_sentinel_fails"
   ],
   "note": "Ascending ordering proved for all strides below INT_MAX; the descending ordering is wrong with zero strides (witness), proved for positive strides."
  },
  {
   "property": "C07",
   "status": "partial",
   "theorems": [
    "Cnine.C07_contiguous_sound_partial",
    "Cnine.C07_contiguous_complete",
    "Cnine.C07_contiguous_broadcast_fails"
   ],
   "note": "False for broadcast (zero-stride) views (witness); soundness proved for positive strides, completeness proved."
  },
  {
   "property": "C08",
   "status": "partial",
   "theorems": [
    "Cnine.C08_fuser_partial",
    "Cnine.C08_fuser_undefined"
   ],
   "note": "Coverage proved when the chunk is non-empty and fusable; undefined behaviour on an empty chunk proved."
  },
  {
   "property": "C09",
   "status": "proved",
   "theorems": [
    "Cnine.C09_insert_remove",
    "Cnine.C09_insert_size",
    "Cnine.C09_remove_insert",
    "Cnine.C09_chunk_cat",
    "Cnine.C09_chunk_negative",
    "Cnine.C09_remove_many",
    "Cnine.C09_remove_many_unsorted_ub",
    "Cnine.C09_permute_inverse"
   ],
   "note": "Full statement; the unsorted removal is proved undefined."
  },
  {
   "property": "C10",
   "status": "partial",
   "theorems": [
    "Cnine.C10_disjoint",
    "Cnine.C10_covers",
    "Cnine.C10_covers3_ignores_third",
    "Cnine.C10_covers3_fails",
    "Cnine.C10_contiguous_fails"
   ],
   "note": "covers(n,a,b,c) and is_contiguous are wrong (witnesses proved); disjoint and two-set covers exact."
  },
  {
   "property": "C11",
   "status": "proved",
   "theorems": [
    "Cnine.C11_reshape",
    "Cnine.C11_reshape_back",
    "Cnine.C11_reshape_refuses"
   ],
   "note": "Full statement."
  },
  {
   "property": "C12",
   "status": "partial",
   "theorems": [
    "Cnine.C12_permute",
    "Cnine.C12_permute_refuses",
    "Cnine.C12_transp",
    "Cnine.C12_transp_refuses",
    "Cnine.C12_transp_axes",
    "Cnine.C12_transp_axes_refuses",
    "Cnine.C12_decreasing_strides_partial",
    "Cnine.C12_decreasing_strides_fails"
   ],
   "note": "Permutation and transposition exact; with_decreasing_strides is wrong with zero strides (witness proved), proved for positive strides."
  },
  {
   "property": "C13",
   "status": "partial",
   "theorems": [
    "Cnine.C13_slice",
    "Cnine.C13_slice_unchecked_fails",
    "Cnine.C13_slices",
    "Cnine.C13_slice_prefix",
    "Cnine.C13_row",
    "Cnine.C13_rows",
    "Cnine.C13_col",
    "Cnine.C13_cols",
    "Cnine.C13_row_refuses",
    "Cnine.C13_row_negative_fails",
    "Cnine.C13_block",
    "Cnine.C13_block_dims_partial",
    "Cnine.C13_block_dims_fails",
    "Cnine.C13_diag",
    "Cnine.C13_squeeze",
    "Cnine.C13_squeeze_refuses",
    "Cnine.C13_insert_dim",
    "Cnine.C13_unsqueeze_partial",
    "Cnine.C13_unsqueeze_zero_fails",
    "Cnine.C13_cinflate"
   ],
   "note": "Each sub-view proved; slice is unchecked, row accepts negative indices, block(dims) uses the lexicographic order, unsqueeze(0) is undefined (witnesses proved)."
  },
  {
   "property": "C14",
   "status": "partial",
   "theorems": [
    "Cnine.C14_split",
    "Cnine.C14_split_refuses",
    "Cnine.C14_split01",
    "Cnine.C14_fuse",
    "Cnine.C14_fuse_split",
    "Cnine.C14_fuse01_partial",
    "Cnine.C14_fuse01_fails",
    "Cnine.C14_fuse_chunk"
   ],
   "note": "split and fuse exact; fuse01 makes no check (witness proved), proved when the two axes continue each other."
  },
  {
   "property": "C15",
   "status": "proved",
   "theorems": [
    "Cnine.C15_scrunch",
    "Cnine.C15_co_scrunch",
    "Cnine.C15_co_scrunch_refuses"
   ],
   "note": "Full statement."
  },
  {
   "property": "C16",
   "status": "partial",
   "theorems": [
    "Cnine.C16_assign_partial",
    "Cnine.C16_assign_refuses",
    "Cnine.C16_assign_zero_strides_fails",
    "Cnine.C16_copy"
   ],
   "note": "Proved on every internal path; false when all strides are zero (bulk path copies memsize()=0 cells, witness proved)."
  },
  {
   "property": "C17",
   "status": "partial",
   "theorems": [
    "Cnine.C17_add_partial",
    "Cnine.C17_add_refuses",
    "Cnine.C17_add_zero_strides_fails",
    "Cnine.C17_add_scaled"
   ],
   "note": "Proved on every internal path of add(x); false when all strides are zero (witness proved); scaled addition and subtraction proved in full."
  },
  {
   "property": "C18",
   "status": "partial",
   "theorems": [
    "Cnine.C18_equality_partial",
    "Cnine.C18_equality_dims",
    "Cnine.C18_equality_irregular",
    "Cnine.C18_equality_irregular_fails"
   ],
   "note": "Exact for row-major views; irregular views always compare equal when the dims agree (witness proved)."
  },
  {
   "property": "C19",
   "status": "partial",
   "theorems": [
    "Cnine.C19_sum_partial",
    "Cnine.C19_norm2_partial",
    "Cnine.C19_max_partial",
    "Cnine.C19_min_partial",
    "Cnine.C19_inp",
    "Cnine.C19_diff2_partial",
    "Cnine.C19_diff2_shape_fails",
    "Cnine.C19_sum_broadcast_fails",
    "Cnine.TFun.C19_max_function_partial"
   ],
   "note": "Proved for sum, norm2, max, min, diff2 without broadcast axes and for inp in full; broadcast sums and mismatched diff2 shapes are wrong (witnesses proved)."
  },
  {
   "property": "C20",
   "status": "partial",
   "theorems": [
    "Cnine.C20_visit_partial",
    "Cnine.C20_visit_trace_partial",
    "Cnine.C20_visit_scalar_fails",
    "Cnine.C20_add_scalar_partial",
    "Cnine.C20_add_scalar_rank0_fails"
   ],
   "note": "False at rank 0 (proved); proved for every rank >= 1."
  },
  {
   "property": "C21",
   "status": "partial",
   "theorems": [
    "Cnine.C21_mvprod",
    "Cnine.C21_mvprod_refuses",
    "Cnine.C21_mvprod_T_partial",
    "Cnine.C21_mvprod_T_wide_fails",
    "Cnine.C21_mvprod_T_tall_fails"
   ],
   "note": "Matrix-vector product proved; the transposed product uses the wrong extent (witnesses proved), proved for square matrices."
  },
  {
   "property": "C22",
   "status": "proved",
   "theorems": [
    "Cnine.C22_kron_bijection",
    "Cnine.C22_tprod",
    "Cnine.C22_tprod_other_ranks"
   ],
   "note": "Full statement."
  },
  {
   "property": "C23",
   "status": "proved",
   "theorems": [
    "Cnine.Einsum.C23_split",
    "Cnine.Einsum.C23_no_arrow",
    "Cnine.Einsum.C23_ids",
    "Cnine.Einsum.C23_groups",
    "Cnine.Einsum.C23_partition"
   ],
   "note": "Full statement."
  },
  {
   "property": "C24",
   "status": "partial",
   "theorems": [
    "Cnine.Einsum.C24_add_einsum_four_partial",
    "Cnine.Einsum.C24_add_einsum",
    "Cnine.Einsum.C24_too_many",
    "Cnine.Einsum.C24_four_transfers_fails",
    "Cnine.Einsum.C24_result_dims",
    "Cnine.Einsum.C24_result_dims_conflict"
   ],
   "note": "At most three transfer letters: full statement proved, result extents too. With four letters the fourth uses the wrong stride (witness proved); proved when the two strides agree."
  },
  {
   "property": "C25",
   "status": "partial",
   "theorems": [
    "Cnine.Einsum.C25_back_partial",
    "Cnine.Einsum.C25_adjoint_partial",
    "Cnine.Einsum.C25_gather_fails",
    "Cnine.Einsum.C25_four_transfers_fails"
   ],
   "note": "Transpose identity proved for at most three transfer letters and no gather letter; both excluded cases are wrong in the code (witnesses proved)."
  },
  {
   "property": "C26",
   "status": "proved",
   "theorems": [
    "Cnine.Einsum.C26_split",
    "Cnine.Einsum.C26_malformed",
    "Cnine.Einsum.C26_groups",
    "Cnine.Einsum.C26_ids",
    "Cnine.Einsum.C26_partition"
   ],
   "note": "Full statement."
  },
  {
   "property": "C27",
   "status": "partial",
   "theorems": [
    "Cnine.Einsum.C27_add_einsum_four_partial",
    "Cnine.Einsum.C27_add_einsum",
    "Cnine.Einsum.C27_four_transfers_fails",
    "Cnine.Einsum.C27_gather_fails",
    "Cnine.Einsum.C27_triple_fails",
    "Cnine.Einsum.C27_too_many",
    "Cnine.Einsum.C27_result_dims"
   ],
   "note": "At most three transfer letters: full statement, result extents and refusals proved. Four transfer letters, a gather letter S shared with one operand and '*' are wrong in the code (witnesses proved); four letters proved when the strides agree."
  },
  {
   "property": "C28",
   "status": "partial",
   "theorems": [
    "Cnine.Einsum.C28_back0_partial",
    "Cnine.Einsum.C28_back1_conv_partial",
    "Cnine.Einsum.C28_back1_partial",
    "Cnine.Einsum.C28_adjoint_partial",
    "Cnine.Einsum.C28_back0_overflow_fails",
    "Cnine.Einsum.C28_back0_four_contractions_fails",
    "Cnine.Einsum.C28_back1_four_contractions_fails"
   ],
   "note": "Formulas and adjointness proved when each pass has at most three transfer and three contracted letters; beyond that the passes accept the string and overflow or compute wrong values (witnesses proved)."
  },
  {
   "property": "C29",
   "status": "partial",
   "theorems": [
    "Cnine.Einsum.C29_back0_partial",
    "Cnine.Einsum.C29_forward_partial",
    "Cnine.Einsum.C29_forward_1d",
    "Cnine.Einsum.C29_back0_1d",
    "Cnine.Einsum.C29_back1_1d",
    "Cnine.Einsum.C29_forward_unchecked_fails",
    "Cnine.Einsum.C29_back0_long_kernel_fails"
   ],
   "note": "Forward and both backward passes proved for every size with r of extent dim(x)-dim(y)+1 (forward: at most that) and, for the pass into x, a kernel no longer than r; extents are unchecked and a longer kernel is wrong (witnesses proved)."
  },
  {
   "property": "C30",
   "status": "proved",
   "theorems": [
    "Cnine.C30_live_blocks",
    "Cnine.C30_live_distinct"
   ],
   "note": "Proved for every history, given that the two undefined reads inside free are harmless (see C33)."
  },
  {
   "property": "C31",
   "status": "proved",
   "theorems": [
    "Cnine.C31_tiling",
    "Cnine.C31_all_free"
   ],
   "note": "Proved for every history, given that the two undefined reads inside free are harmless (see C33)."
  },
  {
   "property": "C32",
   "status": "proved",
   "theorems": [
    "Cnine.C32_malloc_throws",
    "Cnine.C32_malloc_overflow",
    "Cnine.C32_malloc_first_fit"
   ],
   "note": "Full statement."
  },
  {
   "property": "C33",
   "status": "partial",
   "theorems": [
    "Cnine.C33_free_fails",
    "Cnine.C33_free_partial",
    "Cnine.C33_double_free"
   ],
   "note": "False: every call of free uses an erased map node (and may read the list sentinel); under the assumption that both reads are harmless release always succeeds."
  },
  {
   "property": "C34",
   "status": "partial",
   "theorems": [
    "Cnine.C34_zero_request",
    "Cnine.C34_negative_aliases_fails",
    "Cnine.C34_very_negative_partial"
   ],
   "note": "malloc(0) proved; requests from -254 to -127 alias the next block (proved), lower ones fail."
  },
  {
   "property": "C35",
   "status": "proved",
   "theorems": [
    "Cnine.C35_roundup_pos",
    "Cnine.C35_roundup_zero",
    "Cnine.C35_roundup_nonpos"
   ],
   "note": "Full statement."
  },
  {
   "property": "C36",
   "status": "partial",
   "theorems": [
    "Cnine.Pool.C36_history",
    "Cnine.Pool.C36_history_shape",
    "Cnine.Pool.C36_negative_index_fails",
    "Cnine.Pool.C36_negative_length_fails",
    "Cnine.Pool.C36_append_no_room"
   ],
   "note": "History refinement proved for all histories with nonnegative lengths and indices (out-of-precondition operations throw and leave the pool unchanged); negative index and negative length witnesses proved (undefined behaviour, not reported)."
  },
  {
   "property": "C37",
   "status": "partial",
   "theorems": [
    "Cnine.HL.C37_toTensor_room_fails",
    "Cnine.Pool.C37_cat_holds",
    "Cnine.Pool.C37_cat",
    "Cnine.Pool.C37_toTensor",
    "Cnine.Pool.C37_toTensor_history"
   ],
   "note": "cat proved for pools in which every row was reached by pushes; to_tensor proved when the rows are full; to_tensor with spare room copies unwritten cells (witness)."
  },
  {
   "property": "C38",
   "status": "partial",
   "theorems": [
    "Cnine.HL.C38_ofLengths",
    "Cnine.HL.C38_ofLengths_throw",
    "Cnine.HL.C38_ofMap",
    "Cnine.HL.C38_history_partial",
    "Cnine.HL.C38_history_lengths_partial",
    "Cnine.HL.C38_pairs_partial",
    "Cnine.HL.C38_ofMap_pairs",
    "Cnine.HL.C38_pushSet_small",
    "Cnine.HL.C38_pushSet_fails",
    "Cnine.HL.C38_total_room_fails"
   ],
   "note": "Pairs read back after any history of vector pushes, element appends and sets; construction from lengths and from a map proved. False for sets with more than one element (witness), total() counts reserved room (witness)."
  },
  {
   "property": "C39",
   "status": "partial",
   "theorems": [
    "Cnine.IntPool.C39_addVec_partial",
    "Cnine.IntPool.C39_addVec_fails",
    "Cnine.IntPool.C39_header_fails",
    "Cnine.IntPool.C39_ofRows_fails"
   ],
   "note": "False (first add_vec overwrites the start offset of list 0; witnesses, also for the header and the row constructor); lists added after the first are proved readable."
  },
  {
   "property": "C40",
   "status": "partial",
   "theorems": [
    "Cnine.AutoArray.C40_history_partial",
    "Cnine.AutoArray.C40_history_empty_partial",
    "Cnine.AutoArray.C40_copy_fails",
    "Cnine.AutoArray.C40_get_beyond_fails"
   ],
   "note": "Histories of set/resize/reserve proved to keep values; copy constructor does not copy (witness), reading beyond the end reads an unwritten cell (witness)."
  },
  {
   "property": "C41",
   "status": "partial",
   "theorems": [
    "Cnine.GMap.C41_ofMatrix",
    "Cnine.GMap.C41_ofMatrix_throw",
    "Cnine.GMap.C41_ofMap",
    "Cnine.GMap.C41_ofArrays_fails",
    "Cnine.GMap.C41_ofArrays_empty",
    "Cnine.GMap.C41_empty_bound_fails",
    "Cnine.GMap.C41_negative_fails",
    "Cnine.GMap.C41_nOps"
   ],
   "note": "Proved for the edge-matrix and map constructors and for n_ops. False for the constructor from arrays of sources and targets (throws as soon as there is one edge: C41_ofArrays_fails); the bounds are -1 for an empty matrix and negative indices pass."
  },
  {
   "property": "C42",
   "status": "partial",
   "theorems": [
    "Cnine.GMap.C42_inv",
    "Cnine.GMap.C42_inv_inv",
    "Cnine.GMap.C42_cached",
    "Cnine.GMap.C42_cached_sort",
    "Cnine.GMap.C42_stale_fails",
    "Cnine.GMap.C42_stale"
   ],
   "note": "Proved for maps made by the constructors, appending, inverting and sorting, including the cached inverse under sort. The stated staleness after push_back is proved (C42_stale, C42_stale_fails)."
  },
  {
   "property": "C43",
   "status": "proved",
   "theorems": [
    "Cnine.GMap.C43_sort",
    "Cnine.GMap.C43_sort_edges"
   ],
   "note": "Full statement."
  },
  {
   "property": "C44",
   "status": "partial",
   "theorems": [
    "Cnine.GatherRows.C44_gather_partial",
    "Cnine.GatherRows.C44_gather_rows_partial",
    "Cnine.GatherRows.C44_width_throw",
    "Cnine.GatherRows.C44_padded_fails",
    "Cnine.GatherRows.C44_range_fails",
    "Cnine.GatherRows.C44_adjoint",
    "Cnine.GatherRows.C44_fixedk_partial",
    "Cnine.GatherRows.C44_weighted",
    "Cnine.GatherRows.C44_weighted_fails",
    "Cnine.GatherRows.C44_pack_partial",
    "Cnine.GatherRows.C44_pack_columns_fails"
   ],
   "note": "C44_gather_partial/_rows_partial: unweighted maps without fixed-k maps, one block per row or rows without padding, indices in range, source and target apart. Missing: padded rows with several blocks (false: C44_padded_fails), out-of-range indices (undefined: C44_range_fails), weighted maps (false: C44_weighted_fails; the weighted pass alone: C44_weighted), packs with several blocks per row (false: C44_pack_columns_fails), parallel order of the pack rounds. The adjoint identity is full."
  },
  {
   "property": "C45",
   "status": "partial",
   "theorems": [
    "Cnine.WMap.C45_inv_partial",
    "Cnine.WMap.C45_inv_inv",
    "Cnine.WMap.C45_inv_columns_fails",
    "Cnine.WMap.C45_sort_partial",
    "Cnine.WMap.C45_sort_fails",
    "Cnine.WMap.C45_sort_ub_fails",
    "Cnine.WMap.C45_ofArrays_fails",
    "Cnine.WMap.C45_nOps_fails"
   ],
   "note": "Inversion keeps weighted edges but not the column counts (C45_inv_columns_fails); sort turns weights into integers (C45_sort_fails) or is undefined (C45_sort_ub_fails); the constructor from arrays throws (C45_ofArrays_fails)."
  },
  {
   "property": "C46",
   "status": "partial",
   "theorems": [
    "Cnine.GPack.C46_ofVec",
    "Cnine.GPack.C46_ofVec_throw",
    "Cnine.GPack.C46_single_fails",
    "Cnine.GPack.C46_pushBack_partial",
    "Cnine.GPack.C46_pushBack_fails",
    "Cnine.GPack.C46_pushBack_throw_fails",
    "Cnine.GPack.C46_pushBack_empty_fails"
   ],
   "note": "Proved for the constructor from a vector. False for the single-map constructor and for push_back."
  },
  {
   "property": "C47",
   "status": "proved",
   "theorems": [
    "Cnine.C47_get",
    "Cnine.C47_accepts",
    "Cnine.C47_visitor",
    "Cnine.C47_transp",
    "Cnine.C47_dense"
   ],
   "note": "Full statement."
  },
  {
   "property": "C48",
   "status": "proved",
   "theorems": [
    "Cnine.C48_eq",
    "Cnine.C48_complete"
   ],
   "note": "Full statement."
  },
  {
   "property": "C49",
   "status": "proved",
   "theorems": [
    "Cnine.C49_csrmatrix",
    "Cnine.C49_ofDense",
    "Cnine.C49_roundtrip"
   ],
   "note": "Full statement."
  },
  {
   "property": "C50",
   "status": "partial",
   "theorems": [
    "Cnine.C50_stored_partial",
    "Cnine.C50_dense_partial",
    "Cnine.C50_absent_fails"
   ],
   "note": "Proved: a stored entry is found. The rest is false: lookup of an absent entry returns an entry of the next row or reads past the end (C50_absent_fails)."
  },
  {
   "property": "C51",
   "status": "proved",
   "theorems": [
    "Cnine.C51_transp",
    "Cnine.C51_dense"
   ],
   "note": "Full statement."
  },
  {
   "property": "C52",
   "status": "proved",
   "theorems": [
    "Cnine.TGroup.C52_limit",
    "Cnine.TGroup.C52_at_most_once",
    "Cnine.TGroup.C52_done",
    "Cnine.TGroup.C52_terminates"
   ],
   "note": "Full statement."
  },
  {
   "property": "C53",
   "status": "partial",
   "theorems": [
    "Cnine.TGroup.C53_lost_wakeup_fails",
    "Cnine.TGroup.C53_only_lost_partial",
    "Cnine.TGroup.C53_zero_threads_fails"
   ],
   "note": "False: C53_lost_wakeup_fails is a schedule that loses the wake-up (maxthreads 1, two tasks); with maxthreads 0 no schedule runs the first task (C53_zero_threads_fails). C53_only_lost_partial shows there is no other way to stop before the end. C98 proves progress when nobody has to wait."
  },
  {
   "property": "C54",
   "status": "proved",
   "theorems": [
    "Cnine.C54_each_once",
    "Cnine.C54_sequential",
    "Cnine.C54_commuting"
   ],
   "note": "Full statement."
  },
  {
   "property": "C55",
   "status": "partial",
   "theorems": [
    "Cnine.C55_race_fails"
   ],
   "note": "False with two threads: C55_race_fails is a schedule in which the callback of batch 0 receives the cell of batch 1. What is true (one callback per batch and cell; right cells when sequential) is C99."
  },
  {
   "property": "C56",
   "status": "partial",
   "theorems": [
    "Cnine.BMap.C56_guarded_partial",
    "Cnine.BMap.C56_rebind_key_fails",
    "Cnine.BMap.C56_rebind_value_fails"
   ],
   "note": "False in general: rebinding a key uses an invalidated iterator (C56_rebind_key_fails, from every consistent state) and binding a value to a second key breaks the inverse (C56_rebind_value_fails). Proved for all histories without rebinding; exact behaviour of insert in C100."
  },
  {
   "property": "C57",
   "status": "proved",
   "theorems": [
    "Cnine.PBank.C57_ptr",
    "Cnine.ABank.C57_ptr_arg",
    "Cnine.PPBank.C57_ptr_pair",
    "Cnine.TBank.C57_ptr_triple",
    "Cnine.LBank.C57_ptr_list",
    "Cnine.BSpec.C57_same_object",
    "Cnine.BSpec.C57_dead_key"
   ],
   "note": "Full statement for banks and caches indexed by one pointer, pointer and argument, two pointers, three pointers (and argument) and lists of pointers, for all histories of lookups, insertions and key deaths and all makers, including makers that throw. Makers that call the same bank again are not modelled. object_bank and once: C107, C108."
  },
  {
   "property": "C58",
   "status": "proved",
   "theorems": [
    "Cnine.OWorld.C58_links",
    "Cnine.OWorld.C58_notified"
   ],
   "note": "Full statement for all legal histories; copies and assignments: C106."
  },
  {
   "property": "C59",
   "status": "proved",
   "theorems": [
    "Cnine.IMap.C59_lookup",
    "Cnine.IMap.C59_distinct",
    "Cnine.IMap.C59_read_inserts"
   ],
   "note": "Full statement: lookup after any insertions (the last pointer with a key wins), agreement for distinct keys, reading an absent key inserts the null pointer."
  },
  {
   "property": "C60",
   "status": "proved",
   "theorems": [
    "Cnine.MoM.C60_get",
    "Cnine.MoM.C60_forEach",
    "Cnine.MoM.C60_size",
    "Cnine.MoM.C60_eq"
   ],
   "note": "Full statement."
  },
  {
   "property": "C61",
   "status": "proved",
   "theorems": [
    "Cnine.PrimeTable.C61_primes"
   ],
   "note": "Full statement."
  },
  {
   "property": "C62",
   "status": "proved",
   "theorems": [
    "Cnine.Fact.C62_factorial",
    "Cnine.Fact.C62_overflow"
   ],
   "note": "Full statement."
  },
  {
   "property": "C63",
   "status": "proved",
   "theorems": [
    "Cnine.Frat.C63_ofInt",
    "Cnine.Frat.C63_mul",
    "Cnine.Frat.C63_div",
    "Cnine.Frat.C63_ofInts",
    "Cnine.Frat.C63_eq"
   ],
   "note": "Full statement."
  },
  {
   "property": "C64",
   "status": "partial",
   "theorems": [
    "Cnine.Cyc.C64_add_neg_partial",
    "Cnine.Cyc.C64_sub_exact",
    "Cnine.Cyc.C64_sub_fails"
   ],
   "note": "Sums and negatives are proved congruent and in range. Differences are congruent but negative when the first operand is the smaller one; C64_sub_exact says exactly when, C64_sub_fails is a witness."
  },
  {
   "property": "C65",
   "status": "proved",
   "theorems": [
    "Cnine.C65_det",
    "Cnine.C65_mul_alt",
    "Cnine.C65_shape"
   ],
   "note": "Full statement."
  },
  {
   "property": "C66",
   "status": "partial",
   "theorems": [
    "Cnine.PObj.C66_group_partial",
    "Cnine.PObj.C66_laws_partial",
    "Cnine.PObj.C66_mul_assign",
    "Cnine.PObj.C66_mul_assign_fails"
   ],
   "note": "The group laws are proved for operator*, identity, inv, inverse, but operator*= composes in the other order (C66_mul_assign says exactly when it agrees, C66_mul_assign_fails gives a witness)."
  },
  {
   "property": "C67",
   "status": "proved",
   "theorems": [
    "Cnine.PObj.C67_ordering_by",
    "Cnine.PObj.C67_ordering",
    "Cnine.PObj.C67_reverse",
    "Cnine.PObj.C67_sorts"
   ],
   "note": "Full statement."
  },
  {
   "property": "C68",
   "status": "partial",
   "theorems": [
    "Cnine.C68_for_each_partial"
   ],
   "note": "for_each and the count of what it lists are proved for every n, k>=1 and every history of requests; getN is wrong (C117_getN_fails). k<=0 is not modelled."
  },
  {
   "property": "C69",
   "status": "proved",
   "theorems": [
    "Cnine.PT.C69_find",
    "Cnine.PT.C69_maximal",
    "Cnine.PT.C69_copy"
   ],
   "note": "Full statement."
  },
  {
   "property": "C70",
   "status": "partial",
   "theorems": [
    "Cnine.SGraph.C70_weight",
    "Cnine.SGraph.C70_edges",
    "Cnine.SGraph.C70_neighbors",
    "Cnine.SGraph.C70_nedges",
    "Cnine.SGraph.C70_nedges_fails",
    "Cnine.SGraph.C70_eq",
    "Cnine.SGraph.C70_query_fails"
   ],
   "note": "Weights, edge visitor, neighbours and the edge count are proved for all histories. False parts shown: a self-loop counts half an edge, and read-only queries insert empty rows which make equality fail."
  },
  {
   "property": "C71",
   "status": "partial",
   "theorems": [
    "Cnine.SGraph.C71_pack",
    "Cnine.SGraph.C71_loop_fails",
    "Cnine.SGraph.C71_roundtrip"
   ],
   "note": "Packing writes exactly the buffer, and reads back, when the number of self-loops is even; with an odd number the buffer is one word short (C71_loop_fails)."
  },
  {
   "property": "C72",
   "status": "proved",
   "theorems": [
    "Cnine.SGraph.C72_tree"
   ],
   "note": "Full statement."
  },
  {
   "property": "C73",
   "status": "proved",
   "theorems": [
    "Cnine.C73_rows",
    "Cnine.C73_unique"
   ],
   "note": "Full statement."
  },
  {
   "property": "C74",
   "status": "proved",
   "theorems": [
    "Cnine.C74_batch2",
    "Cnine.C74_batch3",
    "Cnine.C74_batch4",
    "Cnine.C74_grid2",
    "Cnine.C74_grid3",
    "Cnine.C74_grid4"
   ],
   "note": "Full statement; C74_grid3 and C74_grid4 state exactly that the third operand's grid is ignored (C144 is the negation of what was meant)."
  },
  {
   "property": "C75",
   "status": "proved",
   "theorems": [
    "Cnine.C75_labels",
    "Cnine.C75_nbatch",
    "Cnine.C75_split_join",
    "Cnine.C75_join_split",
    "Cnine.C75_builders",
    "Cnine.C75_batch_lost",
    "Cnine.C75_outside"
   ],
   "note": "Full statement."
  },
  {
   "property": "C76",
   "status": "partial",
   "theorems": [
    "Cnine.Js.C76_vec_partial",
    "Cnine.Js.C76_vec_vec_partial",
    "Cnine.Js.C76_string",
    "Cnine.Js.C76_int",
    "Cnine.Js.C76_empty_fails",
    "Cnine.Js.C76_empty_vec_vec_fails",
    "Cnine.Js.C76_inner_empty_fails",
    "Cnine.Js.C76_keys"
   ],
   "note": "Proved for non-empty vectors of int (negative ones too) and non-empty vectors of non-empty vectors with a text shorter than 2^31 characters; strings read back whatever they contain. False for empty vectors: the one element read is uninitialised, an empty vector of vectors reads back with one element (negations proved)."
  },
  {
   "property": "C77",
   "status": "partial",
   "theorems": [
    "Cnine.C77_result",
    "Cnine.C77_mulEq_partial",
    "Cnine.C77_mulEq_fails"
   ],
   "note": "False: operator*= computes the imaginary part from the already overwritten real part. C77_result states what it computes for all arguments, C77_mulEq_partial when this is the product, C77_mulEq_fails a counterexample."
  },
  {
   "property": "C78",
   "status": "partial",
   "theorems": [
    "Cnine.C78_set_zero_partial",
    "Cnine.C78_set_zero_strided_fails",
    "Cnine.C78_set_zero_broadcast_fails"
   ],
   "note": "Proved for contiguous views; false for strided and broadcast views (witnesses proved)."
  },
  {
   "property": "C79",
   "status": "proved",
   "theorems": [
    "Cnine.C79_inplace_times"
   ],
   "note": "Full statement."
  },
  {
   "property": "C80",
   "status": "proved",
   "theorems": [
    "Cnine.C80_add_prod"
   ],
   "note": "Full statement."
  },
  {
   "property": "C81",
   "status": "partial",
   "theorems": [
    "Cnine.C81_add_sum_partial",
    "Cnine.C81_add_sum_refuses"
   ],
   "note": "Proved except for results all of whose strides are zero."
  },
  {
   "property": "C82",
   "status": "partial",
   "theorems": [
    "Cnine.C82_add_broadcast_actual",
    "Cnine.C82_add_broadcast_partial",
    "Cnine.C82_add_broadcast_fails"
   ],
   "note": "False; exact behaviour for axis 0 proved, expected result only when axis 0 has extent 1."
  },
  {
   "property": "C83",
   "status": "partial",
   "theorems": [
    "Cnine.C83_columns_partial",
    "Cnine.C83_columns_strided_fails"
   ],
   "note": "Proved for row-major operands; strides are ignored (witness proved)."
  },
  {
   "property": "C84",
   "status": "partial",
   "theorems": [
    "Cnine.C84_column_inps_actual",
    "Cnine.C84_column_inps_partial",
    "Cnine.C84_column_inps_fails"
   ],
   "note": "False: overwrites (witness and exact behaviour proved); agrees for a zero start."
  },
  {
   "property": "C85",
   "status": "partial",
   "theorems": [
    "Cnine.C85_relu_partial",
    "Cnine.C85_relu_strided_fails",
    "Cnine.C85_relu_back_fails"
   ],
   "note": "Proved for equal contiguous strides; false for other strides, gradient ignores x (witnesses proved)."
  },
  {
   "property": "C86",
   "status": "partial",
   "theorems": [
    "Cnine.Einsum.C86_gather",
    "Cnine.Einsum.C86_operator_fails"
   ],
   "note": "add_einsum(r,x,gmap) proved for at most three further common letters; operator()(x,gmap) is undefined for every input with a gather letter (proved)."
  },
  {
   "property": "C87",
   "status": "partial",
   "theorems": [
    "Cnine.C87_reoffs_partial",
    "Cnine.C87_reoffs_row_major",
    "Cnine.C87_reoffs_fails",
    "Cnine.C87_reoffs_zero_fails"
   ],
   "note": "Proved for source layouts with nested decreasing strides (row-major in particular); false for a column-major source (witness) and undefined for zero source strides (proved)."
  },
  {
   "property": "C88",
   "status": "partial",
   "theorems": [
    "Cnine.GMap.C88_grade_partial",
    "Cnine.GMap.C88_grade_zero",
    "Cnine.GMap.C88_grade_fails"
   ],
   "note": "False of the code: edges moved into fixed-k maps become (0,0) (C88_grade_zero, C88_grade_fails). C88_grade_partial covers the case in which nothing is moved."
  },
  {
   "property": "C89",
   "status": "partial",
   "theorems": [
    "Cnine.C89_vec_partial",
    "Cnine.C89_vec_fails"
   ],
   "note": "False as stated: C89_vec_fails. C89_vec_partial says what it does decide."
  },
  {
   "property": "C90",
   "status": "partial",
   "theorems": [
    "Cnine.C90_fromList_fails",
    "Cnine.C90_ofDense_partial"
   ],
   "note": "Dense constructor proved; from_list always throws on non-empty lists (C90_fromList_fails)."
  },
  {
   "property": "C91",
   "status": "partial",
   "theorems": [
    "Cnine.C91_negative_fails"
   ],
   "note": "False: C91_negative_fails."
  },
  {
   "property": "C92",
   "status": "partial",
   "theorems": [
    "Cnine.C92_eq_values_fails"
   ],
   "note": "False: C92_eq_values_fails."
  },
  {
   "property": "C93",
   "status": "partial",
   "theorems": [
    "Cnine.C93_csrmatrix_shape_fails"
   ],
   "note": "False: C93_csrmatrix_shape_fails, for every matrix with an entry."
  },
  {
   "property": "C94",
   "status": "partial",
   "theorems": [
    "Cnine.C94_stale_fails",
    "Cnine.C94_cached_partial"
   ],
   "note": "False: C94_stale_fails; without changes the cached transpose is right (C94_cached_partial)."
  },
  {
   "property": "C95",
   "status": "partial",
   "theorems": [
    "Cnine.C95_pushBack_fails"
   ],
   "note": "False: C95_pushBack_fails."
  },
  {
   "property": "C96",
   "status": "proved",
   "theorems": [
    "Cnine.C96_setAt"
   ],
   "note": "Full statement."
  },
  {
   "property": "C97",
   "status": "proved",
   "theorems": [
    "Cnine.C97_nested_budget"
   ],
   "note": "Full statement."
  },
  {
   "property": "C98",
   "status": "proved",
   "theorems": [
    "Cnine.TGroup.C98_few_tasks"
   ],
   "note": "Full statement."
  },
  {
   "property": "C99",
   "status": "proved",
   "theorems": [
    "Cnine.C99_sequential",
    "Cnine.C99_once"
   ],
   "note": "Full statement."
  },
  {
   "property": "C100",
   "status": "proved",
   "theorems": [
    "Cnine.BMap.C100_insert_exact"
   ],
   "note": "Full statement."
  },
  {
   "property": "C101",
   "status": "proved",
   "theorems": [
    "Cnine.IMap.C101_copy"
   ],
   "note": "Full statement."
  },
  {
   "property": "C102",
   "status": "partial",
   "theorems": [
    "Cnine.MoM.C102_hash_fails",
    "Cnine.MoM.C102_hash_same_order_partial"
   ],
   "note": "False: C102_hash_fails with insertion-order iteration. Proved only for maps that list their entries in the same order."
  },
  {
   "property": "C103",
   "status": "proved",
   "theorems": [
    "Cnine.MoL.C103_lists",
    "Cnine.MoL.C103_str",
    "Cnine.MoL.C103_str_empty"
   ],
   "note": "Full statement."
  },
  {
   "property": "C104",
   "status": "proved",
   "theorems": [
    "Cnine.MVec.C104_rows",
    "Cnine.MVec.C104_sequential",
    "Cnine.MVec.C104_wrong_length",
    "Cnine.MVec.C104_empty_rows"
   ],
   "note": "Full statement."
  },
  {
   "property": "C105",
   "status": "partial",
   "theorems": [
    "Cnine.IMap.C105_self_assign_fails",
    "Cnine.IMap.C105_double_insert_fails",
    "Cnine.IMap.C105_foreign_key_fails"
   ],
   "note": "All three claims are false; each has a theorem with the negation."
  },
  {
   "property": "C106",
   "status": "partial",
   "theorems": [
    "Cnine.OWorld.C106_copied_observer_fails",
    "Cnine.OWorld.C106_assigned_target_fails"
   ],
   "note": "Both claims are false (one theorem each)."
  },
  {
   "property": "C107",
   "status": "proved",
   "theorems": [
    "Cnine.OBank.C107_object_bank",
    "Cnine.OBank.C107_default_maker"
   ],
   "note": "Full statement."
  },
  {
   "property": "C108",
   "status": "proved",
   "theorems": [
    "Cnine.C108_once",
    "Cnine.C108_oncep"
   ],
   "note": "Full statement."
  },
  {
   "property": "C109",
   "status": "proved",
   "theorems": [
    "Cnine.Frat.C109_num_den"
   ],
   "note": "Full statement."
  },
  {
   "property": "C110",
   "status": "partial",
   "theorems": [
    "Cnine.Frat.C110_zero_fails",
    "Cnine.Frat.C110_negative_fails"
   ],
   "note": "Witnesses that the claim is false of the code."
  },
  {
   "property": "C111",
   "status": "proved",
   "theorems": [
    "Cnine.FFact.C111_ffactorial"
   ],
   "note": "Full statement."
  },
  {
   "property": "C112",
   "status": "partial",
   "theorems": [
    "Cnine.PObj.C112_square_fails",
    "Cnine.PObj.C112_square_exact"
   ],
   "note": "False of the code: p*=p is a permutation only for the identity (C112_square_exact)."
  },
  {
   "property": "C113",
   "status": "partial",
   "theorems": [
    "Cnine.PObj.C113_copy_partial",
    "Cnine.PObj.C113_self_fails"
   ],
   "note": "Copy and assignment from another object are proved; self-assignment is undefined (C113_self_fails)."
  },
  {
   "property": "C114",
   "status": "partial",
   "theorems": [
    "Cnine.PObj.C114_exact",
    "Cnine.PObj.C114_fails"
   ],
   "note": "False of the code except for a=0, b=n (C114_exact); C114_fails is the witness."
  },
  {
   "property": "C115",
   "status": "proved",
   "theorems": [
    "Cnine.PObj.C115_random"
   ],
   "note": "Full statement."
  },
  {
   "property": "C116",
   "status": "proved",
   "theorems": [
    "Cnine.PObj.C116_is_valid",
    "Cnine.PObj.C116_inv_at",
    "Cnine.PObj.C116_inv_throws",
    "Cnine.PObj.C116_eq",
    "Cnine.PObj.C116_transposition",
    "Cnine.PObj.C116_reorder"
   ],
   "note": "Full statement."
  },
  {
   "property": "C117",
   "status": "partial",
   "theorems": [
    "Cnine.C117_positions_partial",
    "Cnine.C117_pairs_partial",
    "Cnine.C117_getN_fails"
   ],
   "note": "index and operator[] are right where the sub-objects hold the right numbers, which is shown for k<=2; getN is wrong (C117_getN_fails)."
  },
  {
   "property": "C118",
   "status": "proved",
   "theorems": [
    "Cnine.PT.C118_depth_first_ix",
    "Cnine.PT.C118_labels"
   ],
   "note": "Full statement."
  },
  {
   "property": "C119",
   "status": "partial",
   "theorems": [
    "Cnine.PT.C119_str",
    "Cnine.PT.C119_empty_fails"
   ],
   "note": "Proved for trees with a non-empty path; the empty tree is undefined behaviour (C119_empty_fails)."
  },
  {
   "property": "C120",
   "status": "partial",
   "theorems": [
    "Cnine.SGraph.C120_root_fails",
    "Cnine.SGraph.C120_vertex_fails"
   ],
   "note": "Shown: undefined behaviour for every root out of range, and for a graph with a vertex out of range."
  },
  {
   "property": "C121",
   "status": "proved",
   "theorems": [
    "Cnine.SGraph.C121_ofPairs",
    "Cnine.SGraph.C121_ofPairsMax",
    "Cnine.SGraph.C121_complete",
    "Cnine.SGraph.C121_star",
    "Cnine.SGraph.C121_cycle"
   ],
   "note": "Full statement."
  },
  {
   "property": "C122",
   "status": "partial",
   "theorems": [
    "Cnine.SGraph.C122_short_cycle_fails",
    "Cnine.SGraph.C122_small"
   ],
   "note": "Shown: the one-cycle is a loop and cannot be packed."
  },
  {
   "property": "C123",
   "status": "proved",
   "theorems": [
    "Cnine.SGraph.C123_dense",
    "Cnine.SGraph.C123_ofDense"
   ],
   "note": "Full statement."
  },
  {
   "property": "C124",
   "status": "proved",
   "theorems": [
    "Cnine.SGraph.C124_insert"
   ],
   "note": "Full statement."
  },
  {
   "property": "C125",
   "status": "partial",
   "theorems": [
    "Cnine.PT.C125_forest",
    "Cnine.LTree.C125_contains",
    "Cnine.LTree.C125_maximal",
    "Cnine.LTree.C125_tree",
    "Cnine.LTree.C125_repeated_fails",
    "Cnine.LTree.C125_distinct"
   ],
   "note": "All parts proved; the failing case is two children with the same label made by push_back."
  },
  {
   "property": "C126",
   "status": "proved",
   "theorems": [
    "Cnine.LTree.C126_labels",
    "Cnine.LTree.C126_parents",
    "Cnine.LTree.C126_length"
   ],
   "note": "Full statement."
  },
  {
   "property": "C127",
   "status": "partial",
   "theorems": [
    "Cnine.IntTree.C127_roundtrip",
    "Cnine.IntTree.C127_copy_fails"
   ],
   "note": "Round trip proved for all trees; false part shown: the copy constructor of auto_array does not copy the entries."
  },
  {
   "property": "C128",
   "status": "proved",
   "theorems": [
    "Cnine.Planted.C128_find"
   ],
   "note": "Full statement."
  },
  {
   "property": "C129",
   "status": "partial",
   "theorems": [
    "Cnine.Planted.C129_disconnected_fails",
    "Cnine.Planted.C129_loop_fails",
    "Cnine.Planted.C129_column_fails"
   ],
   "note": "Each expectation is refuted by a concrete graph."
  },
  {
   "property": "C130",
   "status": "proved",
   "theorems": [
    "Cnine.C130_assign",
    "Cnine.C130_set",
    "Cnine.C130_fill",
    "Cnine.C130_broadcast",
    "Cnine.C130_broadcast_refuses",
    "Cnine.C130_addConst",
    "Cnine.C130_add",
    "Cnine.C130_addScaled",
    "Cnine.C130_sum",
    "Cnine.C130_refuses",
    "Cnine.C130_block",
    "Cnine.C130_reluBack"
   ],
   "note": "Full statement."
  },
  {
   "property": "C131",
   "status": "partial",
   "theorems": [
    "Cnine.C131_relu_partial",
    "Cnine.C131_relu_fails",
    "Cnine.C131_relu_ub_fails"
   ],
   "note": "False: the value is read with the stride of the target (C131_relu_fails, C131_relu_ub_fails). Proved for equal strides."
  },
  {
   "property": "C132",
   "status": "partial",
   "theorems": [
    "Cnine.C132_tadd_partial",
    "Cnine.C132_strided_overwrites",
    "Cnine.C132_strided_fails"
   ],
   "note": "False for strided views: the target is overwritten (C132_strided_overwrites, C132_strided_fails). Proved for contiguous ones."
  },
  {
   "property": "C133",
   "status": "proved",
   "theorems": [
    "Cnine.C133_fill",
    "Cnine.C133_addConst",
    "Cnine.C133_set",
    "Cnine.C133_add",
    "Cnine.C133_addScaled",
    "Cnine.C133_addOuter",
    "Cnine.C133_refuses"
   ],
   "note": "Full statement."
  },
  {
   "property": "C134",
   "status": "proved",
   "theorems": [
    "Cnine.C134_AA",
    "Cnine.C134_AT",
    "Cnine.C134_TA",
    "Cnine.C134_refuses",
    "Cnine.C134_mprodTo"
   ],
   "note": "Full statement."
  },
  {
   "property": "C135",
   "status": "partial",
   "theorems": [
    "Cnine.C135_mprod_partial",
    "Cnine.C135_mprod_silent",
    "Cnine.C135_mprod_fails"
   ],
   "note": "False: outside three layouts the call silently does nothing (C135_mprod_silent, C135_mprod_fails). Proved for the handled layouts."
  },
  {
   "property": "C136",
   "status": "proved",
   "theorems": [
    "Cnine.C136_sum0",
    "Cnine.C136_avg0",
    "Cnine.C136_sum1",
    "Cnine.C136_sum",
    "Cnine.C136_refuses"
   ],
   "note": "Full statement."
  },
  {
   "property": "C137",
   "status": "partial",
   "theorems": [
    "Cnine.C137_sum1_const_partial",
    "Cnine.C137_sum1_const_refused",
    "Cnine.C137_sum1_const_fails"
   ],
   "note": "False for every non-square matrix: the right target is refused, a wrong one accepted and overrun. Proved for square ones."
  },
  {
   "property": "C138",
   "status": "proved",
   "theorems": [
    "Cnine.C138_transp",
    "Cnine.C138_slices",
    "Cnine.C138_diag",
    "Cnine.C138_block",
    "Cnine.C138_split",
    "Cnine.C138_repeat"
   ],
   "note": "Full statement."
  },
  {
   "property": "C139",
   "status": "partial",
   "theorems": [
    "Cnine.C139_fuse_partial",
    "Cnine.C139_fuse_iff",
    "Cnine.C139_fuse_fails"
   ],
   "note": "False for views with gaps between rows, C139_fuse_iff gives the exact condition."
  },
  {
   "property": "C140",
   "status": "partial",
   "theorems": [
    "Cnine.C140_reduce0_partial",
    "Cnine.C140_one_row_doubled",
    "Cnine.C140_reduce0_fails",
    "Cnine.C140_no_rows_fails",
    "Cnine.C140_reduce0Into_partial",
    "Cnine.C140_reduce1Into_partial"
   ],
   "note": "False for regular views with exactly one row (doubled, C140_one_row_doubled) and strided views with none (C140_no_rows_fails). Proved for all others."
  },
  {
   "property": "C141",
   "status": "partial",
   "theorems": [
    "Cnine.C141_broadcast0_partial",
    "Cnine.C141_broadcast0_fails",
    "Cnine.C141_broadcast1"
   ],
   "note": "False for regular views without rows (C141_broadcast0_fails). Proved for all others and for broadcast1."
  },
  {
   "property": "C142",
   "status": "partial",
   "theorems": [
    "Cnine.C142_addBroadcast0_adds",
    "Cnine.C142_addBroadcast0_partial",
    "Cnine.C142_addBroadcast0_fails"
   ],
   "note": "False: alpha is ignored (C142_addBroadcast0_adds, C142_addBroadcast0_fails). Proved for alpha=1."
  },
  {
   "property": "C143",
   "status": "proved",
   "theorems": [
    "Cnine.C143_ops",
    "Cnine.C143_mul"
   ],
   "note": "Full statement."
  },
  {
   "property": "C144",
   "status": "partial",
   "theorems": [
    "Cnine.C144_agree_partial",
    "Cnine.C144_grid_fails"
   ],
   "note": "False: line 109 (and 141) reads the grid of y again instead of z. C144_agree_partial: correct if another operand has the common grid. C144_grid_fails: the grid of the third operand is lost, or a conflict unnoticed."
  },
  {
   "property": "C145",
   "status": "proved",
   "theorems": [
    "Cnine.BG.C145_parts",
    "Cnine.BG.C145_make",
    "Cnine.BG.C145_ofView",
    "Cnine.BG.C145_batch",
    "Cnine.BG.C145_cell",
    "Cnine.BG.C145_cellAt",
    "Cnine.BG.C145_transp"
   ],
   "note": "Full statement."
  },
  {
   "property": "C146",
   "status": "proved",
   "theorems": [
    "Cnine.BG.C146_visits",
    "Cnine.BG.C146_scalar"
   ],
   "note": "Full statement."
  },
  {
   "property": "C147",
   "status": "proved",
   "theorems": [
    "Cnine.BG.C147_add_prod",
    "Cnine.BG.C147_mul",
    "Cnine.BG.C147_refuses"
   ],
   "note": "Full statement."
  },
  {
   "property": "C148",
   "status": "partial",
   "theorems": [
    "Cnine.BG.C148_scalars_fails"
   ],
   "note": "False: the code prints an unimplemented message and returns the zero tensor, for all such operands (C148_scalars_fails)."
  },
  {
   "property": "C149",
   "status": "proved",
   "theorems": [
    "Cnine.BG.C149_div",
    "Cnine.BG.C149_refuses"
   ],
   "note": "Full statement."
  },
  {
   "property": "C150",
   "status": "proved",
   "theorems": [
    "Cnine.BG.C150_mprod",
    "Cnine.BG.C150_refuses"
   ],
   "note": "Full statement."
  },
  {
   "property": "C151",
   "status": "proved",
   "theorems": [
    "Cnine.BG.C151_back0"
   ],
   "note": "Full statement."
  },
  {
   "property": "C152",
   "status": "partial",
   "theorems": [
    "Cnine.BG.C152_back1_partial",
    "Cnine.BG.C152_back1_fails",
    "Cnine.BG.C152_square_fails"
   ],
   "note": "False: the code is the same as for the first operand (C152_back1_partial), so legal shapes are refused (C152_back1_fails) and square cells get rg times the transpose of x (C152_square_fails). Nothing else is missing."
  },
  {
   "property": "C153",
   "status": "proved",
   "theorems": [
    "Cnine.View.C153_zero",
    "Cnine.View.C153_ones",
    "Cnine.View.C153_sequential",
    "Cnine.View.C153_gaussian",
    "Cnine.View.C153_raw",
    "Cnine.View.C153_constant",
    "Cnine.View.C153_identity",
    "Cnine.View.C153_identity_refuses",
    "Cnine.View.C153_unit",
    "Cnine.View.C153_vec",
    "Cnine.View.C153_vec_refuses",
    "Cnine.View.C153_matrix"
   ],
   "note": "Full statement."
  },
  {
   "property": "C154",
   "status": "partial",
   "theorems": [
    "Cnine.View.C154_ragged_fails",
    "Cnine.View.C154_overrun_fails",
    "Cnine.View.C154_unit_fails",
    "Cnine.View.C154_ltensor_ones_fails"
   ],
   "note": "False: a long row of a nested list overwrites the next row or runs past the block, unit(n,i) writes outside for i=n, and Ltensor::ones passes the fill code for uninitialised memory. Proved as negations with concrete witnesses (the last for all shapes)."
  },
  {
   "property": "C155",
   "status": "proved",
   "theorems": [
    "Cnine.View.C155_stack",
    "Cnine.View.C155_stack_refuses"
   ],
   "note": "Full statement."
  },
  {
   "property": "C156",
   "status": "partial",
   "theorems": [
    "Cnine.View.C156_init_axis_fails",
    "Cnine.View.C156_init_witness_fails",
    "Cnine.View.C156_refs_fails"
   ],
   "note": "False: the initializer-list forms always stack along axis 0, and the form for references removes the axis from the shape of the result and then throws (or writes past the shape when the axis is the last one). Proved for all lists."
  },
  {
   "property": "C157",
   "status": "proved",
   "theorems": [
    "Cnine.Js.C157_roundtrip",
    "Cnine.Js.C157_plain",
    "Cnine.Js.C157_spaces"
   ],
   "note": "Full statement."
  },
  {
   "property": "C158",
   "status": "partial",
   "theorems": [
    "Cnine.Js.C158_blank_fails",
    "Cnine.Js.C158_carriage_return_fails",
    "Cnine.Js.C158_brace_fails",
    "Cnine.Js.C158_quote_fails",
    "Cnine.Js.C158_limit_fails",
    "Cnine.Js.C158_hang_fails"
   ],
   "note": "False: a string is cut at its first blank or brace and ended by a quote, entries after the thousandth are dropped with valid still set (proved for all such objects), and end_of_clause searches forever in a text such as [[[1 (proved for every number of steps)."
  },
  {
   "property": "C159",
   "status": "proved",
   "theorems": [
    "Cnine.LT.C159_make",
    "Cnine.LT.C159_named"
   ],
   "note": "Full statement."
  },
  {
   "property": "C160",
   "status": "partial",
   "theorems": [
    "Cnine.LT.C160_default_batch_fails",
    "Cnine.LT.C160_default_grid_fails",
    "Cnine.LT.C160_each_batch_fails",
    "Cnine.LT.C160_batch_unchecked_fails",
    "Cnine.LT.C160_no_grid_fails",
    "Cnine.LT.C160_cell_batched_fails"
   ],
   "note": "Refuted: without a batch argument the tensor has a batch axis of size 0; for_each_batch throws on unbatched tensors; batch(i) is unchecked; for_each_cell makes no call without grid; cell(ix) always throws for batched tensors."
  },
  {
   "property": "C161",
   "status": "proved",
   "theorems": [
    "Cnine.LT.C161_batch",
    "Cnine.LT.C161_each_batch",
    "Cnine.LT.C161_cell",
    "Cnine.LT.C161_cell_at",
    "Cnine.LT.C161_batched_cell",
    "Cnine.LT.C161_refuses",
    "Cnine.LT.C161_each_cell",
    "Cnine.LT.C161_each_batch_cell"
   ],
   "note": "Full statement."
  },
  {
   "property": "C162",
   "status": "proved",
   "theorems": [
    "Cnine.LT.C162_fused2",
    "Cnine.LT.C162_fused3",
    "Cnine.LT.C162_made"
   ],
   "note": "Full statement."
  },
  {
   "property": "C163",
   "status": "proved",
   "theorems": [
    "Cnine.LT.C163_mult"
   ],
   "note": "Full statement."
  },
  {
   "property": "C164",
   "status": "partial",
   "theorems": [
    "Cnine.LT.C164_transposed_grid_fails",
    "Cnine.LT.C164_empty_cells_fails",
    "Cnine.LT.C164_mult_transposed_fails",
    "Cnine.LT.C164_mult_empty_fails"
   ],
   "note": "Refuted: transposed grids give wrong rows, transposed cells wrong products, empty cells a division by zero."
  },
  {
   "property": "C165",
   "status": "proved",
   "theorems": [
    "Cnine.View.C165_col",
    "Cnine.View.C165_cols",
    "Cnine.View.C165_col_refuses",
    "Cnine.View.C165_unsqueeze",
    "Cnine.View.C165_diag"
   ],
   "note": "Full statement."
  },
  {
   "property": "C166",
   "status": "partial",
   "theorems": [
    "Cnine.View.C166_diag_order_fails",
    "Cnine.View.C166_diag_unsorted_fails",
    "Cnine.View.C166_fuse_fails"
   ],
   "note": "Refuted: diag writes the stride to a wrong axis or out of range, fuse keeps the first axis's stride and runs past the end."
  },
  {
   "property": "C167",
   "status": "proved",
   "theorems": [
    "Cnine.C167_plain",
    "Cnine.C167_channels"
   ],
   "note": "Full statement."
  },
  {
   "property": "C168",
   "status": "partial",
   "theorems": [
    "Cnine.C168_batches_fails",
    "Cnine.C168_make1_fails",
    "Cnine.C168_make2_fails"
   ],
   "note": "False: rank four has no case (C168_batches_fails shows nothing is computed; rank five loops over rank four), and convolve1d/convolve2d build a result of the wrong rank and throw (C168_make1_fails, C168_make2_fails). Convolve2D on given tensors with batches is right: C169_batches."
  },
  {
   "property": "C169",
   "status": "proved",
   "theorems": [
    "Cnine.C169_plain",
    "Cnine.C169_channels",
    "Cnine.C169_batches"
   ],
   "note": "Full statement."
  },
  {
   "property": "C170",
   "status": "proved",
   "theorems": [
    "Cnine.C170_channels",
    "Cnine.C170_channels2",
    "Cnine.C170_batches2",
    "Cnine.C170_transpose"
   ],
   "note": "Full statement."
  },
  {
   "property": "C171",
   "status": "partial",
   "theorems": [
    "Cnine.C171_channels1_partial",
    "Cnine.C171_odd_fails"
   ],
   "note": "C171_channels1_partial says what is added for every size; C171_odd_fails: for an odd total (e.g. a filter of two and the default padding) the gradient is shifted by one. The even case is C170."
  },
  {
   "property": "C172",
   "status": "partial",
   "theorems": [
    "Cnine.C172_input1_partial",
    "Cnine.C172_input2_partial",
    "Cnine.C172_filter1_partial",
    "Cnine.C172_filter2_partial",
    "Cnine.C172_input_fails",
    "Cnine.C172_filter_fails"
   ],
   "note": "The sums are right but overwrite what was in the gradient (C172_*_partial); C172_input_fails and C172_filter_fails are witnesses that earlier contributions are lost."
  },
  {
   "property": "C173",
   "status": "proved",
   "theorems": [
    "Cnine.C173_channels1",
    "Cnine.C173_batches1",
    "Cnine.C173_channels2",
    "Cnine.C173_batches2",
    "Cnine.C173_transpose"
   ],
   "note": "Full statement."
  },
  {
   "property": "C174",
   "status": "proved",
   "theorems": [
    "Cnine.C174_vector",
    "Cnine.C174_channels1",
    "Cnine.C174_matrix",
    "Cnine.C174_channels2"
   ],
   "note": "Full statement."
  },
  {
   "property": "C175",
   "status": "proved",
   "theorems": [
    "Cnine.RConv.C175_gains",
    "Cnine.RConv.C175_convolve2D"
   ],
   "note": "Full statement."
  },
  {
   "property": "C176",
   "status": "partial",
   "theorems": [
    "Cnine.RConv.C176_layout_fails",
    "Cnine.RConv.C176_overrun_fails",
    "Cnine.RConv.C176_padded_partial"
   ],
   "note": "False: with padding 0 the filter row is read as one vector, which is wrong for other layouts (C176_layout_fails) and runs past the end of x for a result one longer than the unpadded one (C176_overrun_fails). Proved for nonzero padding along the second axis (C176_padded_partial)."
  },
  {
   "property": "C177",
   "status": "partial",
   "theorems": [
    "Cnine.RConv.C177_zero_fails",
    "Cnine.RConv.C177_batches_fails",
    "Cnine.RConv.C177_blocks_fails",
    "Cnine.RConv.C177_channels_partial"
   ],
   "note": "False: add_mprod does nothing for layouts it does not know, and the slices of a packed filter with more than one position have such a layout; the result is zero (C177_zero_fails, C177_batches_fails, C177_blocks_fails). Proved when the slices have known layouts (C177_channels_partial)."
  },
  {
   "property": "C178",
   "status": "proved",
   "theorems": [
    "Cnine.RConv.C178_gains",
    "Cnine.RConv.C178_convolve3D"
   ],
   "note": "Full statement."
  },
  {
   "property": "C179",
   "status": "partial",
   "theorems": [
    "Cnine.RConv.C179_short_fails",
    "Cnine.RConv.C179_long_fails",
    "Cnine.RConv.C179_short_partial"
   ],
   "note": "False: line 55 bounds the third filter index by the length of the second axis (C179_short_fails, C179_long_fails). Proved what is computed when that is the shorter one (C179_short_partial)."
  },
  {
   "property": "C180",
   "status": "partial",
   "theorems": [
    "Cnine.RConv.C180_zero_fails",
    "Cnine.RConv.C180_batches_fails",
    "Cnine.RConv.C180_channels_partial"
   ],
   "note": "False as C177 (C180_zero_fails, C180_batches_fails). Proved when the slices have known layouts (C180_channels_partial)."
  },
  {
   "property": "C181",
   "status": "proved",
   "theorems": [
    "Cnine.RConv.C181_gains"
   ],
   "note": "Full statement."
  },
  {
   "property": "C182",
   "status": "partial",
   "theorems": [
    "Cnine.RConv.C182_full_fails",
    "Cnine.RConv.C182_channels_fails",
    "Cnine.RConv.C182_channels_partial"
   ],
   "note": "False: with the largest padding the reversed filter is read as though its positions followed each other (C182_full_fails); with a further axis nothing is added for packed filters of more than one position (C182_channels_fails). Proved for known layouts (C182_channels_partial)."
  },
  {
   "property": "C183",
   "status": "proved",
   "theorems": [
    "Cnine.RConv.C183_gains",
    "Cnine.RConv.C183_channels",
    "Cnine.RConv.C183_batches",
    "Cnine.RConv.C183_blocks"
   ],
   "note": "Full statement."
  },
  {
   "property": "C184",
   "status": "proved",
   "theorems": [
    "Cnine.RConv.C184_gains",
    "Cnine.RConv.C184_channels",
    "Cnine.RConv.C184_batches"
   ],
   "note": "Full statement."
  },
  {
   "property": "C185",
   "status": "proved",
   "theorems": [
    "Cnine.RConv.C185_2D",
    "Cnine.RConv.C185_2D_channels",
    "Cnine.RConv.C185_2D_batches",
    "Cnine.RConv.C185_2D_blocks",
    "Cnine.RConv.C185_3D",
    "Cnine.RConv.C185_3D_channels",
    "Cnine.RConv.C185_3D_batches"
   ],
   "note": "Full statement."
  },
  {
   "property": "C186",
   "status": "proved",
   "theorems": [
    "Cnine.RConv.C186_2D",
    "Cnine.RConv.C186_2D_channels",
    "Cnine.RConv.C186_3D"
   ],
   "note": "Full statement."
  },
  {
   "property": "C187",
   "status": "proved",
   "theorems": [
    "Cnine.Slices.C187_pairs",
    "Cnine.Slices.C187_refuses"
   ],
   "note": "Full statement."
  },
  {
   "property": "C188",
   "status": "partial",
   "theorems": [
    "Cnine.Slices.C188_last_fails",
    "Cnine.Slices.C188_gather_fails",
    "Cnine.Slices.C188_sizes_fails",
    "Cnine.Slices.C188_strided_fails",
    "Cnine.Slices.C188_three_fails",
    "Cnine.Slices.C188_four_fails"
   ],
   "note": "False of the code in six ways, each proved: the last axis is always refused (C188_last_fails, C188_gather_fails); the plain version compares no sizes and writes outside the target (C188_sizes_fails); the fast version exchanges target and source for strided slices (C188_strided_fails), is wrong with three remaining axes (C188_three_fails) and does nothing for more (C188_four_fails). The true part is C189, C190."
  },
  {
   "property": "C189",
   "status": "proved",
   "theorems": [
    "Cnine.Slices.C189_naive",
    "Cnine.Slices.C189_rank_throw"
   ],
   "note": "Full statement."
  },
  {
   "property": "C190",
   "status": "proved",
   "theorems": [
    "Cnine.Slices.C190_gather",
    "Cnine.Slices.C190_rows"
   ],
   "note": "Full statement."
  },
  {
   "property": "C191",
   "status": "proved",
   "theorems": [
    "Cnine.Slices.C191_naive",
    "Cnine.Slices.C191_refuses"
   ],
   "note": "Full statement."
  },
  {
   "property": "C192",
   "status": "proved",
   "theorems": [
    "Cnine.TProg.C192_run",
    "Cnine.TProg.C192_unwritten",
    "Cnine.TProg.C192_refuses",
    "Cnine.TProg.C192_addVar"
   ],
   "note": "Full statement."
  },
  {
   "property": "C193",
   "status": "proved",
   "theorems": [
    "Cnine.TProg.C193_adjoint"
   ],
   "note": "Full statement."
  },
  {
   "property": "C194",
   "status": "proved",
   "theorems": [
    "Cnine.TProg.C194_involutive"
   ],
   "note": "Full statement."
  },
  {
   "property": "C195",
   "status": "partial",
   "theorems": [
    "Cnine.TProg.C195_leak_fails",
    "Cnine.TProg.C195_shared_fails"
   ],
   "note": "False: C195_leak_fails shows that every run leaves the first two objects (copies of input and output) undeleted; C195_shared_fails that three are left when one variable is both input and output. Memory of temporaries is released (C192)."
  },
  {
   "property": "C196",
   "status": "proved",
   "theorems": [
    "Cnine.TFun.C196_plus",
    "Cnine.TFun.C196_plus_refuses",
    "Cnine.TFun.C196_minus",
    "Cnine.TFun.C196_times",
    "Cnine.TFun.C196_neg"
   ],
   "note": "Full statement."
  },
  {
   "property": "C197",
   "status": "partial",
   "theorems": [
    "Cnine.TFun.C197_plus_partial",
    "Cnine.TFun.C197_minus_partial",
    "Cnine.TFun.C197_minus_from_partial",
    "Cnine.TFun.C197_rank0_fails"
   ],
   "note": "Rank 0 is false (the number is dropped); all other ranks proved."
  },
  {
   "property": "C198",
   "status": "partial",
   "theorems": [
    "Cnine.TFun.C198_minus_partial",
    "Cnine.TFun.C198_minus_fails"
   ],
   "note": "False for shapes with equally many elements (2\u00d73 minus 3\u00d72); differing numbers of elements are refused."
  },
  {
   "property": "C199",
   "status": "proved",
   "theorems": [
    "Cnine.TFun.C199_mprod",
    "Cnine.TFun.C199_mprod_refuses"
   ],
   "note": "Full statement."
  },
  {
   "property": "C200",
   "status": "partial",
   "theorems": [
    "Cnine.TFun.C200_ranks_fails",
    "Cnine.TFun.C200_double_fails",
    "Cnine.TFun.C200_double_refuses_partial",
    "Cnine.TFun.C200_few_axes_partial",
    "Cnine.TFun.C200_double_partial"
   ],
   "note": "False: a matrix times a vector reads past the end of the shapes, and doubles with zero lower halves (1.0, 2.0, \u2026) have product 0.  Only empty results of doubles are right."
  },
  {
   "property": "C201",
   "status": "proved",
   "theorems": [
    "Cnine.TFun.C201_kron",
    "Cnine.TFun.C201_kron_all",
    "Cnine.TFun.C201_kron_refuses"
   ],
   "note": "Full statement."
  },
  {
   "property": "C202",
   "status": "partial",
   "theorems": [
    "Cnine.TFun.C202_kron_fails",
    "Cnine.TFun.C202_kron_partial"
   ],
   "note": "False: these ranks give zeroes."
  },
  {
   "property": "C203",
   "status": "proved",
   "theorems": [
    "Cnine.TFun.C203_oplus",
    "Cnine.TFun.C203_oplus_refuses"
   ],
   "note": "Full statement."
  },
  {
   "property": "C204",
   "status": "partial",
   "theorems": [
    "Cnine.TFun.C204_min_partial",
    "Cnine.TFun.C204_min_fails"
   ],
   "note": "False: min(x) calls max().  Right when all elements are equal."
  },
  {
   "property": "C205",
   "status": "partial",
   "theorems": [
    "Cnine.TFun.C205_odot_partial",
    "Cnine.TFun.C205_odot_refuses",
    "Cnine.TFun.C205_odot_fails"
   ],
   "note": "Rank 0 is false (gives 0); all other ranks proved."
  },
  {
   "property": "C206",
   "status": "proved",
   "theorems": [
    "Cnine.TFun.C206_sum"
   ],
   "note": "Full statement."
  },
  {
   "property": "C207",
   "status": "proved",
   "theorems": [
    "Cnine.TFun.C207_pool",
    "Cnine.TFun.C207_pool_refuses"
   ],
   "note": "Full statement."
  },
  {
   "property": "C208",
   "status": "proved",
   "theorems": [
    "Cnine.TFun.C208_identity",
    "Cnine.TFun.C208_unit",
    "Cnine.TFun.C208_identity_times"
   ],
   "note": "Full statement."
  },
  {
   "property": "C209",
   "status": "proved",
   "theorems": [
    "Cnine.RConv.C209_two",
    "Cnine.RConv.C209_two_further",
    "Cnine.RConv.C209_three",
    "Cnine.RConv.C209_three_further",
    "Cnine.RConv.C209_back",
    "Cnine.RConv.C209_back_further",
    "Cnine.RConv.C209_sparse_two",
    "Cnine.RConv.C209_sparse_two_further",
    "Cnine.RConv.C209_sparse_three",
    "Cnine.RConv.C209_sparse_three_further",
    "Cnine.RConv.C209_batches",
    "Cnine.RConv.C209_blocks",
    "Cnine.RConv.C209_batches_three",
    "Cnine.RConv.C209_sparse_batches",
    "Cnine.RConv.C209_sparse_blocks",
    "Cnine.RConv.C209_sparse_batches_three",
    "Cnine.RConv.C209_convolve2D",
    "Cnine.RConv.C209_convolve2D_rank",
    "Cnine.RConv.C209_convolve3D",
    "Cnine.RConv.C209_convolve3D_rank",
    "Cnine.RConv.C209_sparse_convolve2D",
    "Cnine.RConv.C209_sparse_convolve3D"
   ],
   "note": "Full statement."
  },
  {
   "property": "C210",
   "status": "proved",
   "theorems": [
    "Cnine.Space.C210_orthonormal",
    "Cnine.Space.C210_refuses"
   ],
   "note": "Full statement."
  },
  {
   "property": "C211",
   "status": "proved",
   "theorems": [
    "Cnine.Space.C211_span",
    "Cnine.Space.C211_exact"
   ],
   "note": "Full statement."
  },
  {
   "property": "C212",
   "status": "partial",
   "theorems": [
    "Cnine.Space.C212_left_partial",
    "Cnine.Space.C212_argument_fails"
   ],
   "note": "C212_left_partial: only the new tensor and the argument change, and the argument's columns become what is left after the projections; C212_argument_fails: whenever the first column exceeds the threshold and a later one is not orthogonal to it, the argument does change."
  },
  {
   "property": "C213",
   "status": "partial",
   "theorems": [
    "Cnine.Space.C213_complex_fails"
   ],
   "note": "C213_complex_fails: columns (1,0) and (i,0) give two columns that are not orthogonal, since the inner product is taken in the wrong order."
  },
  {
   "property": "C214",
   "status": "partial",
   "theorems": [
    "Cnine.Space.C214_complement_fails",
    "Cnine.Space.C214_intersection_fails",
    "Cnine.Space.C214_eigenspace_fails",
    "Cnine.Space.C214_throws_fails"
   ],
   "note": "False of the code: an assignment to a default-constructed tensor throws. C214_complement_fails, C214_intersection_fails, C214_eigenspace_fails: none of the constructors returns; C214_throws_fails: ComplementSpace throws for every real matrix."
  },
  {
   "property": "C215",
   "status": "proved",
   "theorems": [
    "Cnine.Space.C215_partition",
    "Cnine.Space.C215_connected"
   ],
   "note": "Full statement."
  },
  {
   "property": "C216",
   "status": "partial",
   "theorems": [
    "Cnine.Space.C216_reach_partial",
    "Cnine.Space.C216_directed_fails"
   ],
   "note": "C216_reach_partial: each list is what can be reached from its first node among the nodes left; C216_directed_fails: a condition holding in one direction only separates nodes."
  },
  {
   "property": "C217",
   "status": "proved",
   "theorems": [
    "Cnine.SliceOps.C217_scale2",
    "Cnine.SliceOps.C217_scale3",
    "Cnine.SliceOps.C217_lengths"
   ],
   "note": "Full statement."
  },
  {
   "property": "C218",
   "status": "proved",
   "theorems": [
    "Cnine.SliceOps.C218_rotations",
    "Cnine.SliceOps.C218_lengths"
   ],
   "note": "Full statement."
  },
  {
   "property": "C219",
   "status": "proved",
   "theorems": [
    "Cnine.SliceOps.C219_matrix",
    "Cnine.SliceOps.C219_three"
   ],
   "note": "Full statement."
  },
  {
   "property": "C220",
   "status": "proved",
   "theorems": [
    "Cnine.SliceOps.C220_matrix",
    "Cnine.SliceOps.C220_three"
   ],
   "note": "Full statement."
  },
  {
   "property": "C221",
   "status": "partial",
   "theorems": [
    "Cnine.SliceOps.C221_reflections_partial",
    "Cnine.SliceOps.C221_overloads_fails"
   ],
   "note": "False: line 84 has an extra minus sign, so the overload for three axes applies reflections (C221_reflections_partial says exactly which) and not rotations (C221_overloads_fails)."
  },
  {
   "property": "C222",
   "status": "partial",
   "theorems": [
    "Cnine.SliceOps.C222_same_partial",
    "Cnine.SliceOps.C222_inner_fails"
   ],
   "note": "False: a slice paired with itself is multiplied by c-s (C222_same_partial), which does not keep inner products (C222_inner_fails)."
  },
  {
   "property": "C223",
   "status": "partial",
   "theorems": [
    "Cnine.SliceOps.C223_inside_partial",
    "Cnine.SliceOps.C223_outside_fails"
   ],
   "note": "Proved for indices in range (C223_inside_partial); indices are not checked and an index equal to the number of slices changes the cells behind the view (C223_outside_fails)."
  },
  {
   "property": "C224",
   "status": "proved",
   "theorems": [
    "Cnine.EinsumFn.C224_real",
    "Cnine.EinsumFn.C224_complex"
   ],
   "note": "Full statement."
  },
  {
   "property": "C225",
   "status": "proved",
   "theorems": [
    "Cnine.EinsumFn.C225_complex"
   ],
   "note": "Full statement."
  },
  {
   "property": "C226",
   "status": "proved",
   "theorems": [
    "Cnine.EinsumFn.C226_products"
   ],
   "note": "Full statement."
  },
  {
   "property": "C227",
   "status": "partial",
   "theorems": [
    "Cnine.EinsumFn.C227_square_partial",
    "Cnine.EinsumFn.C227_product_fails",
    "Cnine.EinsumFn.C227_trace_fails"
   ],
   "note": "False of the code: the loops over summed letters take sizes and strides from the result instead of the operands. C227_product_fails: row times column adds the first term only. C227_trace_fails: with a result without axes the sizes are read outside the array. C227_square_partial: right when all axes have one size and the three views share their strides."
  },
  {
   "property": "C228",
   "status": "partial",
   "theorems": [
    "Cnine.EinsumFn.C228_three_partial",
    "Cnine.EinsumFn.C228_three_fails"
   ],
   "note": "False of the code: in the nest for three summed letters the branch for a conjugated first operand swaps the cases of the second. C228_three_fails is a witness, C228_three_partial says exactly what is computed; all other cases are C225."
  },
  {
   "property": "C229",
   "status": "partial",
   "theorems": [
    "Cnine.EinsumFn.C229_second_partial",
    "Cnine.EinsumFn.C229_second_fails"
   ],
   "note": "False of the code: such letters are never looked at. C229_second_fails is a witness for both functors, C229_second_partial says that the entry at index zero is used."
  },
  {
   "property": "C230",
   "status": "partial",
   "theorems": [
    "Cnine.EinsumFn.C230_many_partial",
    "Cnine.EinsumFn.C230_many_fails"
   ],
   "note": "False of the code: the functors return without effect. C230_many_partial proves that for all such strings, C230_many_fails is a witness."
  },
  {
   "property": "C231",
   "status": "partial",
   "theorems": [
    "Cnine.EinsumFn.C231_malformed_fails",
    "Cnine.EinsumFn.C231_scalar_fails"
   ],
   "note": "False of the code: both statements are for all strings of the kind. The real functor multiplies the first entries, the complex one branches on flags that have no value or reads in front of an empty part."
  },
  {
   "property": "C232",
   "status": "partial",
   "theorems": [
    "Cnine.EinsumFn.C232_placeholder_partial",
    "Cnine.EinsumFn.C232_placeholder_fails"
   ],
   "note": "False of the code: x marks used letters. C232_placeholder_partial says for all strings that axes called x are left out, C232_placeholder_fails is a witness."
  },
  {
   "property": "C233",
   "status": "partial",
   "theorems": [
    "Cnine.EinsumFn.C233_sizes_fails",
    "Cnine.EinsumFn.C233_axes_partial"
   ],
   "note": "False of the code for sizes: C233_sizes_fails reads behind the first operand. C233_axes_partial: too few axes of the first operand are refused when one letter is shared (assert on the position)."
  },
  {
   "property": "C234",
   "status": "proved",
   "theorems": [
    "Cnine.C234_fill",
    "Cnine.C234_set",
    "Cnine.C234_add"
   ],
   "note": "Full statement."
  },
  {
   "property": "C235",
   "status": "partial",
   "theorems": [
    "Cnine.C235_scaled_partial",
    "Cnine.C235_scaled_fails"
   ],
   "note": "False of the code for regular views: the flat path calls stdadd without the factor. Proved what each path adds, and a counterexample."
  },
  {
   "property": "C236",
   "status": "partial",
   "theorems": [
    "Cnine.C236_sizes_fails",
    "Cnine.C236_corner_partial"
   ],
   "note": "Sizes are not compared: counterexample with a larger x; the corner update is proved for smaller x."
  },
  {
   "property": "C237",
   "status": "proved",
   "theorems": [
    "Cnine.C237_mprod",
    "Cnine.C237_refuses"
   ],
   "note": "Full statement."
  },
  {
   "property": "C238",
   "status": "partial",
   "theorems": [
    "Cnine.C238_cube_partial",
    "Cnine.C238_rows_fails",
    "Cnine.C238_refuses_fails"
   ],
   "note": "Proved for cubes; counterexample with missing rows, refusal of all non-square results."
  },
  {
   "property": "C239",
   "status": "proved",
   "theorems": [
    "Cnine.C239_sum0",
    "Cnine.C239_sum1",
    "Cnine.C239_sum2",
    "Cnine.C239_sum01",
    "Cnine.C239_refuses"
   ],
   "note": "Full statement."
  },
  {
   "property": "C240",
   "status": "partial",
   "theorems": [
    "Cnine.C240_reduce0_partial",
    "Cnine.C240_reduce1_partial",
    "Cnine.C240_reduce2_partial",
    "Cnine.C240_reduce0Into_partial",
    "Cnine.C240_reduce1Into_partial",
    "Cnine.C240_reduce2Into_partial",
    "Cnine.C240_single_doubled_fails",
    "Cnine.C240_irregular_fails"
   ],
   "note": "Missing and false: one slice (doubled, proved for all contents), irregular views along axes 0 and 2 (refused), single cells along axis 2."
  },
  {
   "property": "C241",
   "status": "partial",
   "theorems": [
    "Cnine.C241_broadcast0_partial",
    "Cnine.C241_broadcast1_partial",
    "Cnine.C241_broadcast2_partial",
    "Cnine.C241_transposed_fails",
    "Cnine.C241_transposed2_fails",
    "Cnine.C241_no_rows_fails",
    "Cnine.C241_refuses"
   ],
   "note": "Missing and false: transposed sources along axes 0 and 2 (counterexamples), slices without rows along axis 1."
  },
  {
   "property": "C242",
   "status": "proved",
   "theorems": [
    "Cnine.C242_slices",
    "Cnine.C242_transp",
    "Cnine.C242_diags",
    "Cnine.C242_fuse",
    "Cnine.C242_block",
    "Cnine.C242_split",
    "Cnine.C242_repeat"
   ],
   "note": "Full statement."
  },
  {
   "property": "C243",
   "status": "proved",
   "theorems": [
    "Cnine.CT.C243_reads",
    "Cnine.CT.C243_unique",
    "Cnine.CT.C243_refused"
   ],
   "note": "Full statement."
  },
  {
   "property": "C244",
   "status": "proved",
   "theorems": [
    "Cnine.CT.C244_contraction",
    "Cnine.CT.C244_convolution",
    "Cnine.CT.C244_transfers",
    "Cnine.CT.C244_summations"
   ],
   "note": "Full statement."
  },
  {
   "property": "C245",
   "status": "partial",
   "theorems": [
    "Cnine.CT.C245_operands_partial",
    "Cnine.CT.C245_operands_fails"
   ],
   "note": "C245_operands_partial needs a last part that is not empty; C245_operands_fails shows that a scalar operand written last is lost."
  },
  {
   "property": "C246",
   "status": "proved",
   "theorems": [
    "Cnine.CT.C246_value",
    "Cnine.CT.C246_done"
   ],
   "note": "Full statement."
  },
  {
   "property": "C247",
   "status": "partial",
   "theorems": [
    "Cnine.CT.C247_root_partial",
    "Cnine.CT.C247_root_fails",
    "Cnine.CT.C247_no_root_fails",
    "Cnine.CT.C247_kept_root_fails"
   ],
   "note": "C247_root_partial needs that only the root and the result are left open; C247_root_fails, C247_no_root_fails and C247_kept_root_fails give strings where the root is only a part, is missing, or depends on the order."
  },
  {
   "property": "C248",
   "status": "proved",
   "theorems": [
    "Cnine.CT.C248_indices",
    "Cnine.CT.C248_level"
   ],
   "note": "Full statement."
  },
  {
   "property": "C249",
   "status": "proved",
   "theorems": [
    "Cnine.CT.C249_orders",
    "Cnine.CT.C249_levels"
   ],
   "note": "Full statement."
  },
  {
   "property": "C250",
   "status": "proved",
   "theorems": [
    "Cnine.CT.C250_same"
   ],
   "note": "Full statement."
  },
  {
   "property": "C251",
   "status": "partial",
   "theorems": [
    "Cnine.CT.C251_args_partial",
    "Cnine.CT.C251_args_fails"
   ],
   "note": "C251_args_partial gives the numbers as they are, one too high; C251_args_fails shows number and name wrong for ij,jk->ik."
  },
  {
   "property": "C252",
   "status": "proved",
   "theorems": [
    "Cnine.CT.C252_order"
   ],
   "note": "Full statement."
  },
  {
   "property": "C253",
   "status": "proved",
   "theorems": [
    "Cnine.C253_get1",
    "Cnine.C253_set1",
    "Cnine.C253_inc1",
    "Cnine.C253_get2",
    "Cnine.C253_set2",
    "Cnine.C253_inc2",
    "Cnine.C253_get3",
    "Cnine.C253_set3",
    "Cnine.C253_inc3",
    "Cnine.C253_get4",
    "Cnine.C253_set4",
    "Cnine.C253_inc4"
   ],
   "note": "Full statement."
  },
  {
   "property": "C254",
   "status": "proved",
   "theorems": [
    "Cnine.C254_add",
    "Cnine.C254_addC",
    "Cnine.C254_assign"
   ],
   "note": "Full statement."
  },
  {
   "property": "C255",
   "status": "proved",
   "theorems": [
    "Cnine.C255_add"
   ],
   "note": "Full statement."
  },
  {
   "property": "C256",
   "status": "proved",
   "theorems": [
    "Cnine.C256_AA",
    "Cnine.C256_AH",
    "Cnine.C256_HA",
    "Cnine.C256_NA",
    "Cnine.C256_complex"
   ],
   "note": "Full statement."
  },
  {
   "property": "C257",
   "status": "partial",
   "theorems": [
    "Cnine.C257_sizes_partial",
    "Cnine.C257_sizes_fails"
   ],
   "note": "AH, HA and NA refuse wrong sizes (_partial); AA compares nothing and reads past the second factor (_fails)."
  },
  {
   "property": "C258",
   "status": "proved",
   "theorems": [
    "Cnine.C258_slices2",
    "Cnine.C258_slices3",
    "Cnine.C258_slices4",
    "Cnine.C258_split0",
    "Cnine.C258_unsqueeze"
   ],
   "note": "Full statement."
  },
  {
   "property": "C259",
   "status": "partial",
   "theorems": [
    "Cnine.C259_fuse_partial",
    "Cnine.C259_fuse_fails"
   ],
   "note": "Right if the outer stride is the inner stride times the inner size (_partial); this is not checked, and Ctensor2_view::fuse01 has n0*s0 entries instead of n0*n1 (_fails)."
  },
  {
   "property": "C260",
   "status": "partial",
   "theorems": [
    "Cnine.C260_unsqueeze1_partial",
    "Cnine.C260_unsqueeze1_fails"
   ],
   "note": "The first stride is taken from the second axis (_fails); right for at most one row or equal strides (_partial)."
  },
  {
   "property": "C261",
   "status": "proved",
   "theorems": [
    "Cnine.C261_add"
   ],
   "note": "Full statement."
  },
  {
   "property": "C262",
   "status": "partial",
   "theorems": [
    "Cnine.C262_sizes_partial",
    "Cnine.C262_sizes_fails"
   ],
   "note": "First and second sizes are compared (_partial), the third is not: entries are lost or cells outside the result written (_fails)."
  },
  {
   "property": "C263",
   "status": "proved",
   "theorems": [
    "Cnine.C263_mix10",
    "Cnine.C263_mix1H"
   ],
   "note": "Full statement."
  },
  {
   "property": "C264",
   "status": "proved",
   "theorems": [
    "Cnine.C264_mix20",
    "Cnine.C264_mix2H"
   ],
   "note": "Full statement."
  },
  {
   "property": "C265",
   "status": "partial",
   "theorems": [
    "Cnine.C265_mix2_partial",
    "Cnine.C265_mix2_fails"
   ],
   "note": "On the fused views the result is exact (_partial); for slices of larger tensors cells outside the result are written, and sizes are compared only as a product or not at all (_fails)."
  },
  {
   "property": "C266",
   "status": "proved",
   "theorems": [
    "Cnine.C266_mix1",
    "Cnine.C266_mix3"
   ],
   "note": "Full statement."
  },
  {
   "property": "C267",
   "status": "partial",
   "theorems": [
    "Cnine.C267_contract_partial",
    "Cnine.C267_contract_fails"
   ],
   "note": "The sums are stored, not added (_fails); what is stored, and that sizes are checked, is proved (_partial)."
  },
  {
   "property": "C268",
   "status": "partial",
   "theorems": [
    "Cnine.C268_expand_partial",
    "Cnine.C268_expand_fails"
   ],
   "note": "The products are stored, not added (_fails); what is stored, and that sizes are checked, is proved (_partial)."
  },
  {
   "property": "C269",
   "status": "partial",
   "theorems": [
    "Cnine.C269_contract_partial",
    "Cnine.C269_contract_fails"
   ],
   "note": "The sums are stored, not added (_fails); what is stored is proved for fitting sizes (_partial)."
  },
  {
   "property": "C270",
   "status": "partial",
   "theorems": [
    "Cnine.C270_cover",
    "Cnine.C270_split2_partial",
    "Cnine.C270_split2_fails"
   ],
   "note": "Number and size of tiles and that every entry is covered hold for all sizes (C270_cover); exactly the entries of the view only if the tile size divides the axis (_partial); otherwise the last tile reads past the view, and an empty axis has one tile (_fails)."
  },
  {
   "property": "C271",
   "status": "proved",
   "theorems": [
    "Cnine.C271_flip"
   ],
   "note": "Full statement."
  },
  {
   "property": "C272",
   "status": "proved",
   "theorems": [
    "Cnine.C272_double_map"
   ],
   "note": "Full statement."
  },
  {
   "property": "C273",
   "status": "proved",
   "theorems": [
    "Cnine.C273_in_row"
   ],
   "note": "Full statement."
  },
  {
   "property": "C274",
   "status": "partial",
   "theorems": [
    "Cnine.C274_row_offsets_partial",
    "Cnine.C274_row_offsets_fails"
   ],
   "note": "Proved for tables made by set; false after for_each_in_row of an absent row, which leaves an empty row whose first element is then read."
  },
  {
   "property": "C275",
   "status": "proved",
   "theorems": [
    "Cnine.C275_constructor",
    "Cnine.C275_sizes"
   ],
   "note": "Full statement."
  },
  {
   "property": "C276",
   "status": "proved",
   "theorems": [
    "Cnine.C276_block"
   ],
   "note": "Full statement."
  },
  {
   "property": "C277",
   "status": "proved",
   "theorems": [
    "Cnine.C277_apply"
   ],
   "note": "Full statement."
  },
  {
   "property": "C278",
   "status": "partial",
   "theorems": [
    "Cnine.C278_refuses_partial",
    "Cnine.C278_negative_fails"
   ],
   "note": "Wrong sizes and too large indices are refused; a negative index in the mask is not, and the product is then added to memory before r."
  },
  {
   "property": "C279",
   "status": "proved",
   "theorems": [
    "Cnine.C279_apply_transp",
    "Cnine.C279_refuses"
   ],
   "note": "Full statement."
  },
  {
   "property": "C280",
   "status": "proved",
   "theorems": [
    "Cnine.C280_mul_tensor"
   ],
   "note": "Full statement."
  },
  {
   "property": "C281",
   "status": "partial",
   "theorems": [
    "Cnine.C281_block_product_fails",
    "Cnine.C281_block_product_partial"
   ],
   "note": "The members nblocks and mblocks of the result are read by block() before they have a value, so the product is undefined behaviour whenever two blocks meet (C281_block_product_fails); proved exact if these members happen to hold large enough numbers."
  },
  {
   "property": "C282",
   "status": "proved",
   "theorems": [
    "Cnine.C282_push"
   ],
   "note": "Full statement."
  },
  {
   "property": "C283",
   "status": "proved",
   "theorems": [
    "Cnine.C283_inverse"
   ],
   "note": "Full statement."
  },
  {
   "property": "C284",
   "status": "proved",
   "theorems": [
    "Cnine.C284_matrix"
   ],
   "note": "Full statement."
  },
  {
   "property": "C285",
   "status": "partial",
   "theorems": [
    "Cnine.C285_matrix_sizes_fails",
    "Cnine.C285_matrix_sizes_partial"
   ],
   "note": "False: the sizes are only those up to the last row and column with a nonzero entry. Proved when these are the last ones."
  },
  {
   "property": "C286",
   "status": "partial",
   "theorems": [
    "Cnine.C286_copy_fails",
    "Cnine.C286_copy_partial"
   ],
   "note": "False: N0 and M0 of the copy are 0. Proved: lists and inverse are the same."
  },
  {
   "property": "C287",
   "status": "proved",
   "theorems": [
    "Cnine.C287_aggregate"
   ],
   "note": "Full statement."
  },
  {
   "property": "C288",
   "status": "proved",
   "theorems": [
    "Cnine.C288_aggregate_inverse"
   ],
   "note": "Full statement."
  },
  {
   "property": "C289",
   "status": "partial",
   "theorems": [
    "Cnine.C289_aggregate_axes_fails",
    "Cnine.C289_aggregate_three_partial",
    "Cnine.C289_aggregate_four_partial"
   ],
   "note": "False for layouts whose last axes cannot be fused: fuse12 ignores the middle stride. Proved for three and four axes that can be fused."
  },
  {
   "property": "C290",
   "status": "partial",
   "theorems": [
    "Cnine.C290_refuses_fails",
    "Cnine.C290_refuses_partial"
   ],
   "note": "False: an index outside the result writes other memory. Proved: rows of different length are refused when the mask is not empty."
  },
  {
   "property": "C291",
   "status": "proved",
   "theorems": [
    "Cnine.C291_block"
   ],
   "note": "Full statement."
  },
  {
   "property": "C292",
   "status": "proved",
   "theorems": [
    "Cnine.C292_tiles"
   ],
   "note": "Full statement."
  },
  {
   "property": "C293",
   "status": "proved",
   "theorems": [
    "Cnine.C293_for_each"
   ],
   "note": "Full statement."
  },
  {
   "property": "C294",
   "status": "partial",
   "theorems": [
    "Cnine.C294_for_each_two_fails"
   ],
   "note": "False: the base class function is not overridden because of a missing const, so the lambda is never called."
  },
  {
   "property": "C295",
   "status": "partial",
   "theorems": [
    "Cnine.C295_absent_fails",
    "Cnine.C295_absent_partial"
   ],
   "note": "False: a pair that is not listed gives the first block, as do one and three indices. Proved: multi-indices of other lengths are refused."
  },
  {
   "property": "C296",
   "status": "partial",
   "theorems": [
    "Cnine.C296_constructor_fails",
    "Cnine.C296_constructor_partial"
   ],
   "note": "False: indices are not compared with the sizes, a sparse axis behind the dense ones is undefined behaviour. Proved: tensors without dense axes are refused."
  },
  {
   "property": "C297",
   "status": "proved",
   "theorems": [
    "Cnine.Delta.C297_squared"
   ],
   "note": "Full statement."
  },
  {
   "property": "C298",
   "status": "partial",
   "theorems": [
    "Cnine.Delta.C298_no_triangle_fails",
    "Cnine.Delta.C298_no_triangle_all_fails"
   ],
   "note": "False: the factorial of the negative number is looked up in the vector without a check, which is undefined behaviour (C298_no_triangle_fails for (1,1,5), C298_no_triangle_all_fails for every such triple with a+b+c \u2265 -1). There is no case left in which the claim holds, except a triple already in the cache, which cannot happen."
  },
  {
   "property": "C299",
   "status": "proved",
   "theorems": [
    "Cnine.GT.C299_get",
    "Cnine.GT.C299_set",
    "Cnine.GT.C299_inc",
    "Cnine.GT.C299_new",
    "Cnine.GT.C299_vector"
   ],
   "note": "Full statement."
  },
  {
   "property": "C300",
   "status": "proved",
   "theorems": [
    "Cnine.GT.C300_new",
    "Cnine.GT.C300_get",
    "Cnine.GT.C300_set"
   ],
   "note": "Full statement."
  },
  {
   "property": "C301",
   "status": "partial",
   "theorems": [
    "Cnine.GT.C301_scalar_fails",
    "Cnine.GT.C301_slice_fails"
   ],
   "note": "False: each of the three reads or writes outside a vector of strides (proved as undefined behaviour)."
  },
  {
   "property": "C302",
   "status": "partial",
   "theorems": [
    "Cnine.GT.C302_copy_fails",
    "Cnine.GT.C302_copy_partial",
    "Cnine.GT.C302_convert_partial"
   ],
   "note": "False for arrays of tensors: the copy allocates the entries without the padding and writes all of it. Proved for tensors without array axes."
  },
  {
   "property": "C303",
   "status": "partial",
   "theorems": [
    "Cnine.GT.C303_assign_fails",
    "Cnine.GT.C303_assign_partial",
    "Cnine.GT.C303_assign_array_partial"
   ],
   "note": "False when both sides are the same object: the array is deleted first. Proved for different objects, with and without array axes."
  },
  {
   "property": "C304",
   "status": "proved",
   "theorems": [
    "Cnine.GT.C304_map",
    "Cnine.GT.C304_zip"
   ],
   "note": "Full statement."
  },
  {
   "property": "C305",
   "status": "partial",
   "theorems": [
    "Cnine.GT.C305_arrays_fails"
   ],
   "note": "False: the loops go over the first cells of the padded memory, so the last entries are not computed (witness)."
  },
  {
   "property": "C306",
   "status": "partial",
   "theorems": [
    "Cnine.GT.C306_eq_fails",
    "Cnine.GT.C306_eq_partial"
   ],
   "note": "False: only the number of entries is compared, not the dims (witness). Proved for equal dims."
  },
  {
   "property": "C307",
   "status": "proved",
   "theorems": [
    "Cnine.GT.C307_update",
    "Cnine.GT.C307_scale",
    "Cnine.GT.C307_add_odot"
   ],
   "note": "Full statement."
  },
  {
   "property": "C308",
   "status": "proved",
   "theorems": [
    "Cnine.GT.C308_sums"
   ],
   "note": "Full statement."
  },
  {
   "property": "C309",
   "status": "proved",
   "theorems": [
    "Cnine.GT.C309_mul",
    "Cnine.GT.C309_mul_vec",
    "Cnine.GT.C309_mul_TA"
   ],
   "note": "Full statement."
  },
  {
   "property": "C310",
   "status": "proved",
   "theorems": [
    "Cnine.GT.C310_add_matmul"
   ],
   "note": "Full statement."
  },
  {
   "property": "C311",
   "status": "partial",
   "theorems": [
    "Cnine.GT.C311_add_matmul_vec_fails"
   ],
   "note": "False: the stride before the first is read (undefined behaviour)."
  },
  {
   "property": "C312",
   "status": "proved",
   "theorems": [
    "Cnine.GT.C312_AH",
    "Cnine.GT.C312_HA"
   ],
   "note": "Full statement."
  },
  {
   "property": "C313",
   "status": "proved",
   "theorems": [
    "Cnine.GT.C313_slice",
    "Cnine.GT.C313_slice_array",
    "Cnine.GT.C313_set_slice"
   ],
   "note": "Full statement."
  },
  {
   "property": "C314",
   "status": "proved",
   "theorems": [
    "Cnine.GT.C314_reshape",
    "Cnine.GT.C314_refused",
    "Cnine.GT.C314_flat"
   ],
   "note": "Full statement."
  },
  {
   "property": "C315",
   "status": "partial",
   "theorems": [
    "Cnine.GT.C315_view_of_array_fails"
   ],
   "note": "False: the padding is shown in place of entries (witness)."
  },
  {
   "property": "C316",
   "status": "partial",
   "theorems": [
    "Cnine.GT.C316_str_fails",
    "Cnine.GT.C316_str_partial"
   ],
   "note": "False: with seven axes one loop tests the wrong variable and never ends, with eight nothing is printed. Proved for one to six axes."
  },
  {
   "property": "C317",
   "status": "proved",
   "theorems": [
    "Cnine.GT.C317_zeros",
    "Cnine.GT.C317_sequential",
    "Cnine.GT.C317_identity"
   ],
   "note": "Full statement."
  },
  {
   "property": "C318",
   "status": "partial",
   "theorems": [
    "Cnine.GT.C318_relu_fails"
   ],
   "note": "False: the function is not implemented and returns memory that was never written."
  },
  {
   "property": "C319",
   "status": "proved",
   "theorems": [
    "Cnine.GT.C319_entries",
    "Cnine.GT.C319_matrices",
    "Cnine.GT.C319_add_matmul"
   ],
   "note": "Full statement."
  },
  {
   "property": "C320",
   "status": "proved",
   "theorems": [
    "Cnine.Mem.C320_refines"
   ],
   "note": "Full statement."
  },
  {
   "property": "C321",
   "status": "proved",
   "theorems": [
    "Cnine.Mem.C321_live",
    "Cnine.Mem.C321_no_leak"
   ],
   "note": "Full statement."
  },
  {
   "property": "C322",
   "status": "proved",
   "theorems": [
    "Cnine.Mem.C322_wrapped"
   ],
   "note": "Full statement."
  },
  {
   "property": "C323",
   "status": "partial",
   "theorems": [
    "Cnine.Mem.C323_dangling_fails",
    "Cnine.Mem.C323_wrap_partial"
   ],
   "note": "False: the wrapped pointer dangles when the other object is destroyed or assigned to, or the owner frees the array (C323_dangling_fails). Proved: the wrapping object reads what the other reads while both exist."
  },
  {
   "property": "C324",
   "status": "proved",
   "theorems": [
    "Cnine.Mem.C324_shared"
   ],
   "note": "Full statement."
  },
  {
   "property": "C325",
   "status": "partial",
   "theorems": [
    "Cnine.Mem.C325_empty_fails",
    "Cnine.Mem.C325_cells_partial"
   ],
   "note": "False for objects made without arguments: they have no blob and every access is undefined (C325_empty_fails). Proved for objects made from n elements, which have at least one cell."
  },
  {
   "property": "C326",
   "status": "proved",
   "theorems": [
    "Cnine.Mem.C326_nested"
   ],
   "note": "Full statement."
  },
  {
   "property": "C327",
   "status": "partial",
   "theorems": [
    "Cnine.Mem.C327_order_fails",
    "Cnine.Mem.C327_restore_partial"
   ],
   "note": "False: guards destroyed in another order leave the manager of a destroyed guard in place (C327_order_fails). Proved: a guard puts back the manager there was when it was made; C326 has the nested case."
  },
  {
   "property": "C328",
   "status": "partial",
   "theorems": [
    "Cnine.Mem.C328_bytes_partial",
    "Cnine.Mem.C328_bytes_fails"
   ],
   "note": "False: malloc takes an int, so that 2^30 floats ask for 0 bytes (C328_bytes_fails). Proved below 2^31 bytes."
  },
  {
   "property": "C329",
   "status": "proved",
   "theorems": [
    "Cnine.Assoc.C329_values"
   ],
   "note": "Full statement."
  },
  {
   "property": "C330",
   "status": "proved",
   "theorems": [
    "Cnine.Assoc.C330_owned"
   ],
   "note": "Full statement."
  },
  {
   "property": "C331",
   "status": "partial",
   "theorems": [
    "Cnine.Assoc.C331_share_fails",
    "Cnine.Assoc.C331_share_partial"
   ],
   "note": "False: insert(key, pointer) with a pointer taken from an entry gives it two owners and the destructor deletes it twice; first() of an empty container is undefined. Proved: what the insertion itself does."
  },
  {
   "property": "C332",
   "status": "partial",
   "theorems": [
    "Cnine.Cached.C332_cached_partial",
    "Cnine.Cached.C332_copied_fails"
   ],
   "note": "False for wrappers copied after their first call (double delete, use after free) and for wrappers made from a function that returns a value (dangling reference). Proved for all other programs."
  },
  {
   "property": "C333",
   "status": "proved",
   "theorems": [
    "Cnine.Cached.C333_again"
   ],
   "note": "Full statement."
  },
  {
   "property": "C334",
   "status": "proved",
   "theorems": [
    "Cnine.Pack.C334_byValue"
   ],
   "note": "Full statement."
  },
  {
   "property": "C335",
   "status": "partial",
   "theorems": [
    "Cnine.Pack.C335_shared_partial",
    "Cnine.Pack.C335_shared_fails"
   ],
   "note": "False if an object occurs twice in the first pack or in both packs, and the const operator[] does not refuse a negative index. Proved for packs without common objects and indices in range."
  },
  {
   "property": "C336",
   "status": "proved",
   "theorems": [
    "Cnine.Keys.C336_keys"
   ],
   "note": "Full statement."
  },
  {
   "property": "C337",
   "status": "proved",
   "theorems": [
    "Cnine.C337_get",
    "Cnine.C337_set",
    "Cnine.C337_inc",
    "Cnine.C337_slice",
    "Cnine.C337_slice_entries",
    "Cnine.C337_slice2",
    "Cnine.C337_slice2_entries",
    "Cnine.C337_block"
   ],
   "note": "Full statement."
  },
  {
   "property": "C338",
   "status": "proved",
   "theorems": [
    "Cnine.C338_get",
    "Cnine.C338_set",
    "Cnine.C338_inc",
    "Cnine.C338_slice_entries"
   ],
   "note": "Full statement."
  },
  {
   "property": "C339",
   "status": "partial",
   "theorems": [
    "Cnine.C339_slice5_partial",
    "Cnine.C339_slice5_fails"
   ],
   "note": "The imaginary part moves by i*s4 instead of i*s5: right for i=0 or equal strides, else wrong."
  },
  {
   "property": "C340",
   "status": "proved",
   "theorems": [
    "Cnine.C340_real",
    "Cnine.C340_real_refused",
    "Cnine.C340_complex"
   ],
   "note": "Full statement."
  },
  {
   "property": "C341",
   "status": "partial",
   "theorems": [
    "Cnine.C341_refused_fails",
    "Cnine.C341_outside_fails",
    "Cnine.C341_never_partial"
   ],
   "note": "False: the checks compare with one axis too few, so the right number of axes is refused and one fewer reads past the end."
  },
  {
   "property": "C342",
   "status": "partial",
   "theorems": [
    "Cnine.C342_fuse_partial",
    "Cnine.C342_cfuse_partial",
    "Cnine.C342_unlinked_fails"
   ],
   "note": "Right when a step along the first axis is as long as the second axis; false for every other view with all sizes positive."
  },
  {
   "property": "C343",
   "status": "proved",
   "theorems": [
    "Cnine.C343_split",
    "Cnine.C343_inverse",
    "Cnine.C343_refused"
   ],
   "note": "Full statement."
  },
  {
   "property": "C344",
   "status": "proved",
   "theorems": [
    "Cnine.C344_add",
    "Cnine.C344_refused"
   ],
   "note": "Full statement."
  },
  {
   "property": "C345",
   "status": "proved",
   "theorems": [
    "Cnine.C345_gtensor",
    "Cnine.C345_cgtensor"
   ],
   "note": "Full statement."
  },
  {
   "property": "C346",
   "status": "partial",
   "theorems": [
    "Cnine.C346_refused_fails",
    "Cnine.C346_empty_partial"
   ],
   "note": "False: the new tensor has six axes, so every view with an entry is refused."
  },
  {
   "property": "C347",
   "status": "partial",
   "theorems": [
    "Cnine.C347_reduce_partial",
    "Cnine.C347_loose_partial",
    "Cnine.C347_single_fails",
    "Cnine.C347_strides_fails"
   ],
   "note": "Proved for compact views and, for inner axes, views whose outer axes and inner axes lie close. False for one slice (doubled) and other strides."
  },
  {
   "property": "C348",
   "status": "partial",
   "theorems": [
    "Cnine.C348_into_partial",
    "Cnine.C348_loose_partial",
    "Cnine.C348_single_fails"
   ],
   "note": "Proved as for the reductions in place, for results apart from the view. False for one slice (added twice)."
  },
  {
   "property": "C349",
   "status": "partial",
   "theorems": [
    "Cnine.C349_broadcast_partial",
    "Cnine.C349_refused_partial",
    "Cnine.C349_no_slices_fails",
    "Cnine.C349_strides_fails"
   ],
   "note": "Proved for compact views with at least one slice. False without slices (writes outside) and for other strides."
  },
  {
   "property": "C350",
   "status": "partial",
   "theorems": [
    "Cnine.C350_slice_partial",
    "Cnine.C350_slice_fails",
    "Cnine.C350_cslice_partial",
    "Cnine.C350_cslice_fails",
    "Cnine.C350_lead_partial",
    "Cnine.C350_lead_fails"
   ],
   "note": "Right when the index is 0 or the stride equals the size; in all other cases every entry is misplaced."
  },
  {
   "property": "C351",
   "status": "partial",
   "theorems": [
    "Cnine.C351_fuse_partial",
    "Cnine.C351_fuse23_fails"
   ],
   "note": "fuse(i), fuse01, fuse12 are right when a step along the first axis is as long as the second axis. fuse23 has the wrong size unless sizes agree."
  },
  {
   "property": "C352",
   "status": "partial",
   "theorems": [
    "Cnine.C352_matricize_partial",
    "Cnine.C352_matricize_fails",
    "Cnine.C352_flatten_partial",
    "Cnine.C352_flatten_fails",
    "Cnine.C352_leading_partial"
   ],
   "note": "Proved for compact views (matricize) and views in which every step is as long as the next axis. False otherwise."
  },
  {
   "property": "C353",
   "status": "partial",
   "theorems": [
    "Cnine.C353_set_partial",
    "Cnine.C353_ignored_fails",
    "Cnine.C353_set_fails"
   ],
   "note": "The last index is ignored: right only when it is 0."
  },
  {
   "property": "C354",
   "status": "partial",
   "theorems": [
    "Cnine.C354_gtensor_partial",
    "Cnine.C354_gtensor_fails"
   ],
   "note": "Right for compact strides (CtensorView) or twice those (CtensorD_view). False for the interleaved layout of CtensorView and for split arrays of CtensorD_view."
  },
  {
   "property": "C355",
   "status": "partial",
   "theorems": [
    "Cnine.C355_cell_partial",
    "Cnine.C355_large_fails"
   ],
   "note": "Right for offsets below 2^31. False for larger strides, which are cut to 32 bits, and larger offsets."
  },
  {
   "property": "C356",
   "status": "partial",
   "theorems": [
    "Cnine.C356_cell_partial",
    "Cnine.C356_strides_fails",
    "Cnine.C356_scalar_fails"
   ],
   "note": "Right when the template strides are those of the view; strides are never compared, and a vector of any size is taken for a scalar."
  },
  {
   "property": "C357",
   "status": "proved",
   "theorems": [
    "Cnine.C357_calls",
    "Cnine.C357_blocks",
    "Cnine.C357_refused"
   ],
   "note": "Full statement."
  },
  {
   "property": "C358",
   "status": "proved",
   "theorems": [
    "Cnine.C358_as_real",
    "Cnine.C358_refused"
   ],
   "note": "Full statement."
  },
  {
   "property": "C359",
   "status": "partial",
   "theorems": [
    "Cnine.C359_fuse0X_partial",
    "Cnine.C359_one_partial",
    "Cnine.C359_gap_fails"
   ],
   "note": "Right when every step is as long as the next axis. With gaps the number of columns is wrong."
  },
  {
   "property": "C360",
   "status": "partial",
   "theorems": [
    "Cnine.C360_six_fails"
   ],
   "note": "False for all arguments: the sixth number is written past the end."
  },
  {
   "property": "C361",
   "status": "proved",
   "theorems": [
    "Cnine.C361_refused",
    "Cnine.C361_scalar",
    "Cnine.C361_zero"
   ],
   "note": "Full statement."
  },
  {
   "property": "C362",
   "status": "proved",
   "theorems": [
    "Cnine.C362_raw",
    "Cnine.C362_no_axes",
    "Cnine.C362_reserved",
    "Cnine.C362_array",
    "Cnine.C362_distinct"
   ],
   "note": "Full statement."
  },
  {
   "property": "C363",
   "status": "proved",
   "theorems": [
    "Cnine.C363_filled",
    "Cnine.C363_zero",
    "Cnine.C363_ones",
    "Cnine.C363_sequential",
    "Cnine.C363_ofPtr",
    "Cnine.C363_mapped",
    "Cnine.C363_ofFn"
   ],
   "note": "Full statement."
  },
  {
   "property": "C364",
   "status": "proved",
   "theorems": [
    "Cnine.C364_identity",
    "Cnine.C364_not_square"
   ],
   "note": "Full statement."
  },
  {
   "property": "C365",
   "status": "partial",
   "theorems": [
    "Cnine.C365_what_it_does_partial",
    "Cnine.C365_stack_fails",
    "Cnine.C365_empty_fails"
   ],
   "note": "False: only the first matrix of the stack is an identity, and with an empty leading axis ones are written past the array. Proved: what the constructor does for every stack with entries."
  },
  {
   "property": "C366",
   "status": "proved",
   "theorems": [
    "Cnine.C366_copy",
    "Cnine.C366_views"
   ],
   "note": "Full statement."
  },
  {
   "property": "C367",
   "status": "partial",
   "theorems": [
    "Cnine.C367_view_of_array_fails",
    "Cnine.C367_batch_fails"
   ],
   "note": "False: views of padded tensors have compact strides and read other cells; copies and views forget the number of batches (witnesses)."
  },
  {
   "property": "C368",
   "status": "proved",
   "theorems": [
    "Cnine.C368_reshape",
    "Cnine.C368_reshape_refused"
   ],
   "note": "Full statement."
  },
  {
   "property": "C369",
   "status": "proved",
   "theorems": [
    "Cnine.C369_get",
    "Cnine.C369_set",
    "Cnine.C369_inc",
    "Cnine.C369_wrong_number",
    "Cnine.C369_scalar"
   ],
   "note": "Full statement."
  },
  {
   "property": "C370",
   "status": "proved",
   "theorems": [
    "Cnine.C370_setZero",
    "Cnine.C370_mapSelf",
    "Cnine.C370_times",
    "Cnine.C370_div",
    "Cnine.C370_setT",
    "Cnine.C370_setT_self",
    "Cnine.C370_zip",
    "Cnine.C370_zip_refused",
    "Cnine.C370_add",
    "Cnine.C370_addScaled",
    "Cnine.C370_addDivide",
    "Cnine.C370_subtract",
    "Cnine.C370_addReLU",
    "Cnine.C370_addPlus",
    "Cnine.C370_addMinus",
    "Cnine.C370_addReLUback",
    "Cnine.C370_addSum",
    "Cnine.C370_plus"
   ],
   "note": "Full statement."
  },
  {
   "property": "C371",
   "status": "proved",
   "theorems": [
    "Cnine.C371_norm2",
    "Cnine.C371_inp",
    "Cnine.C371_diff2",
    "Cnine.C371_max",
    "Cnine.C371_max_empty"
   ],
   "note": "Full statement."
  },
  {
   "property": "C372",
   "status": "proved",
   "theorems": [
    "Cnine.C372_viewK",
    "Cnine.C372_viewK_refused",
    "Cnine.C372_viewx",
    "Cnine.C372_flattened",
    "Cnine.C372_block2",
    "Cnine.C372_block3",
    "Cnine.C372_picking",
    "Cnine.C372_picking_first"
   ],
   "note": "Full statement."
  },
  {
   "property": "C373",
   "status": "partial",
   "theorems": [
    "Cnine.C373_window2_fails",
    "Cnine.C373_window3_fails",
    "Cnine.C373_refused_partial"
   ],
   "note": "False for every tensor: the strides of a window are the list holding the device number, so a second index reads outside it. Proved: fewer axes are refused."
  },
  {
   "property": "C374",
   "status": "proved",
   "theorems": [
    "Cnine.C374_toChunk",
    "Cnine.C374_refused",
    "Cnine.C374_chunk"
   ],
   "note": "Full statement."
  },
  {
   "property": "C375",
   "status": "partial",
   "theorems": [
    "Cnine.C375_addChunkOf_partial",
    "Cnine.C375_addChunkOf_fails"
   ],
   "note": "False: the number of rounds is computed from the size of the other tensor, and the second round writes past the end (witness). Proved: right when the number of rounds happens to be right."
  },
  {
   "property": "C376",
   "status": "proved",
   "theorems": [
    "Cnine.C376_addToSlice",
    "Cnine.C376_addToSlices",
    "Cnine.C376_addSliceOf",
    "Cnine.C376_slice",
    "Cnine.C376_viewOfSlice0"
   ],
   "note": "Full statement."
  },
  {
   "property": "C377",
   "status": "partial",
   "theorems": [
    "Cnine.C377_chunk_past_end_fails",
    "Cnine.C377_empty_fails",
    "Cnine.C377_slice_of_vector_fails"
   ],
   "note": "False: a chunk past the end of its axis is written over the next rows, empty tensors divide by zero, a slice of a vector has no axes (witnesses)."
  },
  {
   "property": "C378",
   "status": "proved",
   "theorems": [
    "Cnine.C378_combinedSize",
    "Cnine.C378_combinedSize_refused",
    "Cnine.C378_transp",
    "Cnine.C378_addTransp"
   ],
   "note": "Full statement."
  },
  {
   "property": "C379",
   "status": "partial",
   "theorems": [
    "Cnine.C379_combinedSize_fails",
    "Cnine.C379_transp_fails"
   ],
   "note": "False: the size 2 of the first axis of [2,0] is answered as 0, and the transpose divides by zero (witnesses)."
  },
  {
   "property": "C380",
   "status": "proved",
   "theorems": [
    "Cnine.C380_AA",
    "Cnine.C380_AT",
    "Cnine.C380_TA",
    "Cnine.C380_mulVec",
    "Cnine.C380_tensorProduct"
   ],
   "note": "Full statement."
  },
  {
   "property": "C381",
   "status": "proved",
   "theorems": [
    "Cnine.C381_addColNorms",
    "Cnine.C381_addDivideCols",
    "Cnine.C381_addColNormsBack",
    "Cnine.C381_addDivideColsBack1"
   ],
   "note": "Full statement."
  },
  {
   "property": "C382",
   "status": "partial",
   "theorems": [
    "Cnine.C382_divideCols_partial",
    "Cnine.C382_divideCols_fails",
    "Cnine.C382_normalizeCols_partial",
    "Cnine.C382_normalizeCols_fails"
   ],
   "note": "False: divide_cols divides a new tensor of zeros; normalize_cols divides rows by their norms (witnesses). Proved: what both do for all tensors."
  },
  {
   "property": "C383",
   "status": "proved",
   "theorems": [
    "Cnine.C383_reduceDestr"
   ],
   "note": "Full statement."
  },
  {
   "property": "C384",
   "status": "partial",
   "theorems": [
    "Cnine.C384_first_axis_fails",
    "Cnine.C384_first_axis_witness_fails",
    "Cnine.C384_one_entry_fails"
   ],
   "note": "False: the first axis is refused for every tensor, and an axis with one entry is doubled (witnesses)."
  },
  {
   "property": "C385",
   "status": "proved",
   "theorems": [
    "Cnine.C385_sound",
    "Cnine.C385_no_leak",
    "Cnine.C385_destroy"
   ],
   "note": "Full statement."
  },
  {
   "property": "C386",
   "status": "proved",
   "theorems": [
    "Cnine.C386_values",
    "Cnine.C386_refused",
    "Cnine.C386_slice"
   ],
   "note": "Full statement."
  },
  {
   "property": "C387",
   "status": "proved",
   "theorems": [
    "Cnine.C387_grow",
    "Cnine.C387_grow_from_empty"
   ],
   "note": "Full statement."
  },
  {
   "property": "C388",
   "status": "partial",
   "theorems": [
    "Cnine.C388_assign_self_fails",
    "Cnine.C388_assign_view_fails",
    "Cnine.C388_move_self_fails",
    "Cnine.C388_move_to_view_fails",
    "Cnine.C388_push_own_fails",
    "Cnine.C388_empty_rows_fails",
    "Cnine.C388_reshape_fails"
   ],
   "note": "False of the code: assigning a tensor to itself or a view of itself, and appending a slice of itself when it must grow, read a released array; self move-assignment loses the entries; move-assignment to a view does not write through; slices of no entries divide by zero; after growth, reshape records more room than the array has and later slices are written past its end. C386 and C387 give the arguments for which the claim holds."
  },
  {
   "property": "C389",
   "status": "proved",
   "theorems": [
    "Cnine.C389_broadcast_copy"
   ],
   "note": "Full statement."
  },
  {
   "property": "C390",
   "status": "partial",
   "theorems": [
    "Cnine.C390_broadcast_add_partial",
    "Cnine.C390_add_fails"
   ],
   "note": "Proved when the destination holds zeros. False otherwise: later blocks also get what earlier blocks held before."
  },
  {
   "property": "C391",
   "status": "partial",
   "theorems": [
    "Cnine.C391_reduce_partial",
    "Cnine.C391_one_fails"
   ],
   "note": "Proved for all n but 1. For n=1 the block is added to itself first, so the destination gets it twice."
  },
  {
   "property": "C392",
   "status": "partial",
   "theorems": [
    "Cnine.C392_reduce_two_partial",
    "Cnine.C392_one_fails",
    "Cnine.C392_three_fails"
   ],
   "note": "Proved for n=2. For n=1 it writes into a buffer of no cells; from n=3 on it adds the imaginary buffer to the real one."
  },
  {
   "property": "C393",
   "status": "proved",
   "theorems": [
    "Cnine.C393_symmetric",
    "Cnine.C393_range",
    "Cnine.C393_injective",
    "Cnine.C393_surjective"
   ],
   "note": "Full statement."
  },
  {
   "property": "C394",
   "status": "partial",
   "theorems": [
    "Cnine.C394_short_partial",
    "Cnine.C394_long_fails"
   ],
   "note": "Proved for lengths 1 and 2. All triples get place 0, and of four or more indices only the first counts."
  },
  {
   "property": "C395",
   "status": "proved",
   "theorems": [
    "Cnine.C395_fused"
   ],
   "note": "Full statement."
  },
  {
   "property": "C396",
   "status": "proved",
   "theorems": [
    "Cnine.C396_copy"
   ],
   "note": "Full statement."
  },
  {
   "property": "C397",
   "status": "proved",
   "theorems": [
    "Cnine.C397_add",
    "Cnine.C397_refused",
    "Cnine.C397_plus",
    "Cnine.C397_zip"
   ],
   "note": "Full statement."
  },
  {
   "property": "C398",
   "status": "partial",
   "theorems": [
    "Cnine.C398_subtract_fails",
    "Cnine.C398_minus_fails",
    "Cnine.C398_zero_partial"
   ],
   "note": "C398_subtract_fails: for all packs, subtract runs over x.tensors instead of its own, so it takes every part of x from itself (x becomes zero) and leaves the target as it was; C398_minus_fails gives numbers. C398_zero_partial: right when y is zero."
  },
  {
   "property": "C399",
   "status": "proved",
   "theorems": [
    "Cnine.C399_insert",
    "Cnine.C399_refused",
    "Cnine.C399_remove"
   ],
   "note": "Full statement."
  },
  {
   "property": "C400",
   "status": "partial",
   "theorems": [
    "Cnine.C400_replace_fails"
   ],
   "note": "C400_replace_fails: map::emplace does nothing when the key is in use, for all packs; the new part is dropped silently."
  },
  {
   "property": "C401",
   "status": "partial",
   "theorems": [
    "Cnine.C401_assign_partial",
    "Cnine.C401_assign_fails"
   ],
   "note": "C401_assign_partial: when every key of the target is in x and the arrays are separate. C401_assign_fails: a key x does not have reads a null pointer (and adds the key to x); keys only x has are not taken over."
  },
  {
   "property": "C402",
   "status": "partial",
   "theorems": [
    "Cnine.C402_gradient_partial",
    "Cnine.C402_first_fails"
   ],
   "note": "C402_gradient_partial: for classes whose copy constructor copies the array, or if the first command is add_to_grad(x,c) or get_grad(). C402_first_fails: for TensorView the copy constructor shares the array, so the first add_to_grad(x) makes the gradient an alias of x; the next additions overwrite x."
  },
  {
   "property": "C403",
   "status": "proved",
   "theorems": [
    "Cnine.C403_no_races",
    "Cnine.C403_only_written",
    "Cnine.C403_races"
   ],
   "note": "Full statement."
  },
  {
   "property": "C404",
   "status": "proved",
   "theorems": [
    "Cnine.C404_copy",
    "Cnine.C404_add",
    "Cnine.C404_add_scaled",
    "Cnine.C404_increment"
   ],
   "note": "Full statement."
  },
  {
   "property": "C405",
   "status": "partial",
   "theorems": [
    "Cnine.C405_large_fails"
   ],
   "note": "False: a matrix with more than 1024 rows and more than 65535 columns is left as it is (C405_large_fails); the error of the launch is not looked at."
  },
  {
   "property": "C406",
   "status": "partial",
   "theorems": [
    "Cnine.C406_vector_partial",
    "Cnine.C406_multiple_partial",
    "Cnine.C406_short_fails"
   ],
   "note": "False: the kernels for the entries after the last multiple of 1024 are launched with no block, so those entries are left as they are; in particular all vectors shorter than 1024 (C406_short_fails). The partial theorems say what happens for every length."
  },
  {
   "property": "C407",
   "status": "proved",
   "theorems": [
    "Cnine.C407_copy",
    "Cnine.C407_add",
    "Cnine.C407_add_scaled"
   ],
   "note": "Full statement."
  },
  {
   "property": "C408",
   "status": "partial",
   "theorems": [
    "Cnine.C408_last_axis_fails",
    "Cnine.C408_strides_fails"
   ],
   "note": "False: with at most 1024 entries but more than 64 along the last axis nothing happens, and if no two sizes have a product of at most 1024, strides are mixed up and some entry of a compact target is never touched."
  },
  {
   "property": "C409",
   "status": "proved",
   "theorems": [
    "Cnine.C409_batches"
   ],
   "note": "Full statement."
  },
  {
   "property": "C410",
   "status": "proved",
   "theorems": [
    "Cnine.C410_reduce"
   ],
   "note": "Full statement."
  },
  {
   "property": "C411",
   "status": "partial",
   "theorems": [
    "Cnine.C411_one_fails"
   ],
   "note": "False: the entries are doubled."
  },
  {
   "property": "C412",
   "status": "partial",
   "theorems": [
    "Cnine.C412_reduce_partial",
    "Cnine.C412_tail_fails"
   ],
   "note": "Holds if a batch has at most 2048 entries or rows have a multiple of 1024 entries; otherwise the last launch folds the wrong entries (C412_tail_fails)."
  },
  {
   "property": "C413",
   "status": "proved",
   "theorems": [
    "Cnine.C413_sum",
    "Cnine.C413_sum_scaled",
    "Cnine.C413_refused"
   ],
   "note": "Full statement."
  },
  {
   "property": "C414",
   "status": "proved",
   "theorems": [
    "Cnine.C414_sum"
   ],
   "note": "Full statement."
  },
  {
   "property": "C415",
   "status": "proved",
   "theorems": [
    "Cnine.C415_rows"
   ],
   "note": "Full statement."
  },
  {
   "property": "C416",
   "status": "proved",
   "theorems": [
    "Cnine.C416_slices"
   ],
   "note": "Full statement."
  },
  {
   "property": "C417",
   "status": "proved",
   "theorems": [
    "Cnine.C417_rows",
    "Cnine.C417_slices"
   ],
   "note": "Full statement."
  },
  {
   "property": "C418",
   "status": "partial",
   "theorems": [
    "Cnine.C418_large_fails"
   ],
   "note": "False for compact tensors when the kernel _bt is used with rows as blocks: it takes blockIdx.x for blockIdx.y, so only the first row is rotated."
  },
  {
   "property": "C419",
   "status": "partial",
   "theorems": [
    "Cnine.C419_relu_partial",
    "Cnine.C419_back_partial",
    "Cnine.C419_add_fails"
   ],
   "note": "False: the kernels assign. The partial theorems say which values."
  },
  {
   "property": "C420",
   "status": "partial",
   "theorems": [
    "Cnine.C420_batched_fails",
    "Cnine.C420_sum_fails",
    "Cnine.C420_rows_fails",
    "Cnine.C420_slices_fails"
   ],
   "note": "False: for large sizes nothing happens and no error is raised."
  },
  {
   "property": "C421",
   "status": "partial",
   "theorems": [
    "Cnine.C421_twice_fails"
   ],
   "note": "False: there is an order of the threads that loses a factor."
  },
  {
   "property": "C422",
   "status": "proved",
   "theorems": [
    "Cnine.C422_assign",
    "Cnine.C422_add",
    "Cnine.C422_inc"
   ],
   "note": "Full statement."
  },
  {
   "property": "C423",
   "status": "partial",
   "theorems": [
    "Cnine.C423_block_fails",
    "Cnine.C423_tail_fails"
   ],
   "note": "C423_block_fails: a vector of exactly 1024 entries is left as it is, neither branch has it; C423_tail_fails: beyond the last multiple of 1024 nothing is changed, for the second launch starts at the first entry again (and adds there once more). Lengths below 1024 and multiples above are C422."
  },
  {
   "property": "C424",
   "status": "proved",
   "theorems": [
    "Cnine.C424_assign",
    "Cnine.C424_add",
    "Cnine.C424_inc"
   ],
   "note": "Full statement."
  },
  {
   "property": "C425",
   "status": "partial",
   "theorems": [
    "Cnine.C425_tail_fails"
   ],
   "note": "C425_tail_fails: columns beyond the last multiple of 1024 are left as they are, for the last launch starts at the first column. Other lengths are C424."
  },
  {
   "property": "C426",
   "status": "proved",
   "theorems": [
    "Cnine.C426_assign",
    "Cnine.C426_add",
    "Cnine.C426_inc"
   ],
   "note": "Full statement."
  },
  {
   "property": "C427",
   "status": "partial",
   "theorems": [
    "Cnine.C427_last_axis_fails",
    "Cnine.C427_tail_fails"
   ],
   "note": "C427_last_axis_fails: with fewer than 128 entries and a last axis over 64 the launch is refused by the hardware (64 threads along z) and nothing is done; C427_tail_fails: entries beyond the last multiple of 1024 of a long last axis are left as they are. Other shapes are C426."
  },
  {
   "property": "C428",
   "status": "proved",
   "theorems": [
    "Cnine.C428_four",
    "Cnine.C428_five"
   ],
   "note": "Full statement."
  },
  {
   "property": "C429",
   "status": "proved",
   "theorems": [
    "Cnine.C429_four",
    "Cnine.C429_five",
    "Cnine.C429_six"
   ],
   "note": "Full statement."
  },
  {
   "property": "C430",
   "status": "partial",
   "theorems": [
    "Cnine.C430_overrun_fails",
    "Cnine.C430_large_fails"
   ],
   "note": "False. C430_overrun_fails: when output minus input plus filter minus 1 is 1 the padding is rounded to 0 and the kernel without tests reads beyond the input (shown with a run that reads an unallocated cell). C430_large_fails: with more than 1024 pairs of output channel and further index RtensorConvolve3d launches nothing and leaves the output as it was. The cases that work are C428 and C429."
  },
  {
   "property": "C431",
   "status": "proved",
   "theorems": [
    "Cnine.C431_five",
    "Cnine.C431_six"
   ],
   "note": "Full statement."
  },
  {
   "property": "C432",
   "status": "partial",
   "theorems": [
    "Cnine.C432_channels_fails"
   ],
   "note": "False. C432_channels_fails: the grid has one block along y, the kernel writes to channel blockIdx.y=0, so all other channels of the output are never written, in every interleaving."
  },
  {
   "property": "C433",
   "status": "partial",
   "theorems": [
    "Cnine.C433_padded_fails"
   ],
   "note": "False. C433_padded_fails: the kernel reads x at output plus filter position without taking the padding off; shown on three positions and padding 1. Without padding see C431."
  },
  {
   "property": "C434",
   "status": "proved",
   "theorems": [
    "Cnine.C434_programs",
    "Cnine.C434_throws",
    "Cnine.C434_no_leak"
   ],
   "note": "Full statement."
  },
  {
   "property": "C435",
   "status": "partial",
   "theorems": [
    "Cnine.C435_first_partial",
    "Cnine.C435_stale_fails"
   ],
   "note": "Proved for the first call. False later: the copy is kept after push_back, set and assignments (C435_stale_fails)."
  },
  {
   "property": "C436",
   "status": "partial",
   "theorems": [
    "Cnine.C436_self_fails",
    "Cnine.C436_view_fails",
    "Cnine.C436_moved_fails",
    "Cnine.C436_gpu_copy_fails",
    "Cnine.C436_view_leak_fails"
   ],
   "note": "All five fail, shown by programs: self-assignment, views that grow, moved-from pools, copies on the GPU, the GPU copy of a view is never released."
  },
  {
   "property": "C437",
   "status": "proved",
   "theorems": [
    "Cnine.C437_equal"
   ],
   "note": "Full statement."
  },
  {
   "property": "C438",
   "status": "proved",
   "theorems": [
    "Cnine.C438_visits"
   ],
   "note": "Full statement."
  },
  {
   "property": "C439",
   "status": "proved",
   "theorems": [
    "Cnine.C439_programs",
    "Cnine.C439_throws",
    "Cnine.C439_no_leak"
   ],
   "note": "Full statement."
  },
  {
   "property": "C440",
   "status": "partial",
   "theorems": [
    "Cnine.C440_self_fails",
    "Cnine.C440_assign_fails",
    "Cnine.C440_devices_fails",
    "Cnine.C440_back_fails",
    "Cnine.C440_stale_fails",
    "Cnine.C440_moved_fails",
    "Cnine.C440_push_gpu_fails",
    "Cnine.C440_view_fails"
   ],
   "note": "Fails: self-assignment, assignment to a tensor with an array on the GPU, assignment across devices, the way back from the GPU, stale arrays on the GPU, moved-from tensors, push_back on the GPU, rows appended to a view share cells with the owner's."
  },
  {
   "property": "C441",
   "status": "partial",
   "theorems": [
    "Cnine.C441_equal_partial",
    "Cnine.C441_capacity_fails"
   ],
   "note": "Proved when neither tensor has spare capacity (for example copies). False otherwise: other capacities are called different, and equal capacities compare cells never written."
  },
  {
   "property": "C442",
   "status": "proved",
   "theorems": [
    "Cnine.C442_00",
    "Cnine.C442_10",
    "Cnine.C442_20",
    "Cnine.C442_01",
    "Cnine.C442_11",
    "Cnine.C442_21",
    "Cnine.C442_12",
    "Cnine.C442_22"
   ],
   "note": "Full statement."
  },
  {
   "property": "C443",
   "status": "partial",
   "theorems": [
    "Cnine.C443_31_partial",
    "Cnine.C443_31_fails"
   ],
   "note": "Proved when tensors with at most 1024 entries have at most 64 along the last index. Otherwise the launch asks for more than 64 threads along z and nothing happens (C443_31_fails)."
  },
  {
   "property": "C444",
   "status": "partial",
   "theorems": [
    "Cnine.C444_large_partial",
    "Cnine.C444_column_partial",
    "Cnine.C444_fails"
   ],
   "note": "Proved for more than 1024 entries and for tensors with one entry along the last two axes. For other small tensors the launch has n0*n1 threads along x instead of n0*n1*n2 ones, so entries are left out and cells behind the result are changed (C444_fails)."
  },
  {
   "property": "C445",
   "status": "partial",
   "theorems": [
    "Cnine.C445_02_partial",
    "Cnine.C445_02_fails"
   ],
   "note": "Proved when the second strides of the factors agree. The kernel uses the stride of x for y (C445_02_fails)."
  },
  {
   "property": "C446",
   "status": "partial",
   "theorems": [
    "Cnine.C446_large_partial",
    "Cnine.C446_fourfold",
    "Cnine.C446_fails"
   ],
   "note": "Proved for more than 1024 entries along the last index and equal last strides. The kernel uses the last stride of x for y, and since the branches do not return, the sum is added four times to small tensors (C446_fourfold, C446_fails); two or three times to those in between, for which no theorem is stated."
  },
  {
   "property": "C447",
   "status": "proved",
   "theorems": [
    "Cnine.Dev.C447_ctor",
    "Cnine.Dev.C447_copy",
    "Cnine.Dev.C447_move",
    "Cnine.Dev.C447_filled"
   ],
   "note": "Full statement."
  },
  {
   "property": "C448",
   "status": "proved",
   "theorems": [
    "Cnine.Dev.C448_home",
    "Cnine.Dev.C448_gpu",
    "Cnine.Dev.C448_copy",
    "Cnine.Dev.C448_small"
   ],
   "note": "Full statement."
  },
  {
   "property": "C449",
   "status": "partial",
   "theorems": [
    "Cnine.Dev.C449_never_fails",
    "Cnine.Dev.C449_upload_partial",
    "Cnine.Dev.C449_complex_fails"
   ],
   "note": "Proved for row-major tensors. False otherwise: line 69 builds a tensor on the GPU from the source, whose constructor assigns the source again, without end (C449_never_fails). For types other than int, float and double nothing is copied (C449_complex_fails)."
  },
  {
   "property": "C450",
   "status": "partial",
   "theorems": [
    "Cnine.Dev.C450_move_partial",
    "Cnine.Dev.C450_strides_fails",
    "Cnine.Dev.C450_transposed_fails"
   ],
   "note": "Proved for row-major tensors. False otherwise: the entries are put in row-major order but the old strides are kept (C450_strides_fails, C450_transposed_fails)."
  },
  {
   "property": "C451",
   "status": "proved",
   "theorems": [
    "Cnine.Dev.C451_flat"
   ],
   "note": "Full statement."
  },
  {
   "property": "C452",
   "status": "partial",
   "theorems": [
    "Cnine.Dev.C452_gpu_partial",
    "Cnine.Dev.C452_four_fails"
   ],
   "note": "Proved when the sizes after merging are ones the kernels handle. False for four axes or more that do not merge: nothing is copied (C452_four_fails)."
  },
  {
   "property": "C453",
   "status": "partial",
   "theorems": [
    "Cnine.Dev.C453_gaps_fails"
   ],
   "note": "False: from the host to the GPU a vector with gaps is assigned without end (C453_gaps_fails). What holds is C451."
  },
  {
   "property": "C454",
   "status": "proved",
   "theorems": [
    "Cnine.C454_AA",
    "Cnine.C454_AT",
    "Cnine.C454_TA",
    "Cnine.C454_same",
    "Cnine.C454_refuses",
    "Cnine.C454_mprod"
   ],
   "note": "Full statement."
  },
  {
   "property": "C455",
   "status": "partial",
   "theorems": [
    "Cnine.C455_empty_fails"
   ],
   "note": "False of the code: the leading dimension of an empty factor is 0, which cuBLAS refuses, and CUBLAS_SAFE ends the program. C455_empty_fails shows it for every regular factor with no columns."
  },
  {
   "property": "C456",
   "status": "proved",
   "theorems": [
    "Cnine.C456_batched"
   ],
   "note": "Full statement."
  },
  {
   "property": "C457",
   "status": "partial",
   "theorems": [
    "Cnine.C457_strides_fails"
   ],
   "note": "False of the code: the last strides of result and batch are not used, and a factor that is neither regular nor transposed does nothing. C457_strides_fails has both; C456 proves the rest."
  },
  {
   "property": "C458",
   "status": "proved",
   "theorems": [
    "Cnine.C458_AA",
    "Cnine.C458_AH",
    "Cnine.C458_HA",
    "Cnine.C458_refuses"
   ],
   "note": "Full statement."
  },
  {
   "property": "C459",
   "status": "partial",
   "theorems": [
    "Cnine.C459_strides_fails"
   ],
   "note": "False of the code: the strides of the factors are not used. C459_strides_fails; C458 proves regular factors."
  },
  {
   "property": "C460",
   "status": "proved",
   "theorems": [
    "Cnine.C460_mix10"
   ],
   "note": "Full statement."
  },
  {
   "property": "C461",
   "status": "proved",
   "theorems": [
    "Cnine.C461_scaled",
    "Cnine.C461_vector",
    "Cnine.C461_matrix",
    "Cnine.C461_three",
    "Cnine.C461_refuses"
   ],
   "note": "Full statement."
  },
  {
   "property": "C462",
   "status": "partial",
   "theorems": [
    "Cnine.C462_reduce_partial",
    "Cnine.C462_negative_fails"
   ],
   "note": "cublasSasum adds absolute values. C462_reduce_partial proves the sum for entries that are their own absolute value, C462_negative_fails is a vector with another."
  },
  {
   "property": "C463",
   "status": "partial",
   "theorems": [
    "Cnine.C463_twice_fails",
    "Cnine.C463_times_fails",
    "Cnine.C463_gaps_fails"
   ],
   "note": "False of the code: axpy of the tensor with itself adds c times the entry. C463_twice_fails proves what is computed for tensors without gaps, C463_times_fails and C463_gaps_fails are examples."
  },
  {
   "property": "C464",
   "status": "proved",
   "theorems": [
    "Cnine.C464_zero",
    "Cnine.C464_same"
   ],
   "note": "Full statement."
  },
  {
   "property": "C465",
   "status": "proved",
   "theorems": [
    "Cnine.C465_add",
    "Cnine.C465_refuses"
   ],
   "note": "Full statement."
  },
  {
   "property": "C466",
   "status": "partial",
   "theorems": [
    "Cnine.C466_columns_fails"
   ],
   "note": "False of the code: r(i,j) is multiplied by y(j) and x is not used. C466_columns_fails."
  },
  {
   "property": "C467",
   "status": "proved",
   "theorems": [
    "Cnine.C467_broadcast",
    "Cnine.C467_refuses"
   ],
   "note": "Full statement."
  },
  {
   "property": "C468",
   "status": "partial",
   "theorems": [
    "Cnine.C468_half_fails"
   ],
   "note": "False of the code: n0*n1 floats of 2*n0*n1 are added. C468_half_fails; Ctensor3_view has the same call."
  },
  {
   "property": "C469",
   "status": "proved",
   "theorems": [
    "Cnine.RA.C469_scaled",
    "Cnine.RA.C469_add",
    "Cnine.RA.C469_subtract",
    "Cnine.RA.C469_refuses",
    "Cnine.RA.C469_sum",
    "Cnine.RA.C469_two"
   ],
   "note": "Full statement."
  },
  {
   "property": "C470",
   "status": "partial",
   "theorems": [
    "Cnine.RA.C470_own_fails"
   ],
   "note": "False: on the GPU x is added to r first and then r is subtracted from itself, so zeros remain; on the CPU x remains (C470_own_fails)."
  },
  {
   "property": "C471",
   "status": "partial",
   "theorems": [
    "Cnine.RA.C471_twice_fails",
    "Cnine.RA.C471_times_fails"
   ],
   "note": "False: the GPU branch calls axpy of the array onto itself, which gives (1+c) times the entry; C471_twice_fails says so for all inputs, C471_times_fails shows both results for c=2."
  },
  {
   "property": "C472",
   "status": "proved",
   "theorems": [
    "Cnine.RA.C472_norm2",
    "Cnine.RA.C472_inp",
    "Cnine.RA.C472_refuses"
   ],
   "note": "Full statement."
  },
  {
   "property": "C473",
   "status": "proved",
   "theorems": [
    "Cnine.RA.C473_AA_same",
    "Cnine.RA.C473_AT_same",
    "Cnine.RA.C473_TA_same",
    "Cnine.RA.C473_products"
   ],
   "note": "Full statement."
  },
  {
   "property": "C474",
   "status": "proved",
   "theorems": [
    "Cnine.RA.C474_addTransp",
    "Cnine.RA.C474_refuses"
   ],
   "note": "Full statement."
  },
  {
   "property": "C475",
   "status": "partial",
   "theorems": [
    "Cnine.RA.C475_square_partial",
    "Cnine.RA.C475_shape_fails"
   ],
   "note": "False unless the two groups of axes have the same sizes: the GPU branch creates the result with the dims of the argument (C475_shape_fails). C475_square_partial proves the equal case."
  },
  {
   "property": "C476",
   "status": "proved",
   "theorems": [
    "Cnine.CA.C476_raw",
    "Cnine.CA.C476_no_axes",
    "Cnine.CA.C476_filled",
    "Cnine.CA.C476_ones",
    "Cnine.CA.C476_zero",
    "Cnine.CA.C476_sequential",
    "Cnine.CA.C476_mapped"
   ],
   "note": "Full statement."
  },
  {
   "property": "C477",
   "status": "partial",
   "theorems": [
    "Cnine.CA.C477_stack_fails",
    "Cnine.CA.C477_empty_fails",
    "Cnine.CA.C477_matrix_partial"
   ],
   "note": "Refuted for stacks: only the first matrix gets ones, with sizes 0,6,6 a one is written to the imaginary parts. C477_matrix_partial proves a single matrix."
  },
  {
   "property": "C478",
   "status": "proved",
   "theorems": [
    "Cnine.CA.C478_view",
    "Cnine.CA.C478_reshape",
    "Cnine.CA.C478_reshape_refused"
   ],
   "note": "Full statement."
  },
  {
   "property": "C479",
   "status": "partial",
   "theorems": [
    "Cnine.CA.C479_move_partial",
    "Cnine.CA.C479_move_assign_fails",
    "Cnine.CA.C479_delete_fails"
   ],
   "note": "Refuted: after move assignment the pointer to the imaginary parts is null (x.arr is copied after it was cleared), and both assignments use delete for an array. C479_move_partial proves the moving constructor."
  },
  {
   "property": "C480",
   "status": "proved",
   "theorems": [
    "Cnine.CA.C480_get",
    "Cnine.CA.C480_set",
    "Cnine.CA.C480_inc",
    "Cnine.CA.C480_wrong_number",
    "Cnine.CA.C480_elements"
   ],
   "note": "Full statement."
  },
  {
   "property": "C481",
   "status": "proved",
   "theorems": [
    "Cnine.CA.C481_setZero",
    "Cnine.CA.C481_add",
    "Cnine.CA.C481_addScaled",
    "Cnine.CA.C481_addDivide",
    "Cnine.CA.C481_addConj",
    "Cnine.CA.C481_subtract",
    "Cnine.CA.C481_refused",
    "Cnine.CA.C481_addPlus",
    "Cnine.CA.C481_addMinus",
    "Cnine.CA.C481_times",
    "Cnine.CA.C481_addC",
    "Cnine.CA.C481_addReLU",
    "Cnine.CA.C481_addReLUback"
   ],
   "note": "Full statement."
  },
  {
   "property": "C482",
   "status": "partial",
   "theorems": [
    "Cnine.CA.C482_add_self_fails",
    "Cnine.CA.C482_add_conj_fails",
    "Cnine.CA.C482_add_conj_partial",
    "Cnine.CA.C482_relu_back_fails",
    "Cnine.CA.C482_norm2_fails",
    "Cnine.CA.C482_norm2_partial"
   ],
   "note": "Refuted: add(x,c) with itself uses the new real parts, add_conj(x,c) conjugates c instead of x, add_ReLU_back adds the real part of g to the imaginary part, norm2 of i is -1. The partial theorems say what add_conj(x,c) and norm2 compute."
  },
  {
   "property": "C483",
   "status": "proved",
   "theorems": [
    "Cnine.CA.C483_inp",
    "Cnine.CA.C483_refused",
    "Cnine.CA.C483_into"
   ],
   "note": "Full statement."
  },
  {
   "property": "C484",
   "status": "proved",
   "theorems": [
    "Cnine.CA.C484_copy",
    "Cnine.CA.C484_set",
    "Cnine.CA.C484_assign_view",
    "Cnine.CA.C484_plus",
    "Cnine.CA.C484_addSum",
    "Cnine.CA.C484_conj",
    "Cnine.CA.C484_ofFn"
   ],
   "note": "Full statement."
  },
  {
   "property": "C485",
   "status": "proved",
   "theorems": [
    "Cnine.CA.C485_toChunk",
    "Cnine.CA.C485_chunk",
    "Cnine.CA.C485_addToSlice",
    "Cnine.CA.C485_addToSlices",
    "Cnine.CA.C485_addSliceOf",
    "Cnine.CA.C485_slice"
   ],
   "note": "Full statement."
  },
  {
   "property": "C486",
   "status": "partial",
   "theorems": [
    "Cnine.CA.C486_addChunkOf_fails",
    "Cnine.CA.C486_addChunkOf_past_end_fails",
    "Cnine.CA.C486_addChunkOf_partial"
   ],
   "note": "Refuted: the number of rounds is computed from the size of x and the axes of this tensor. C486_addChunkOf_partial proves it when that number is right."
  },
  {
   "property": "C487",
   "status": "proved",
   "theorems": [
    "Cnine.CA.C487_transp",
    "Cnine.CA.C487_herm",
    "Cnine.CA.C487_addTransp",
    "Cnine.CA.C487_addHerm"
   ],
   "note": "Full statement."
  },
  {
   "property": "C488",
   "status": "partial",
   "theorems": [
    "Cnine.CA.C488_empty_fails",
    "Cnine.CA.C488_slice_past_end_fails"
   ],
   "note": "Refuted: transp and herm of an empty tensor divide by zero; the slice after the last is taken from the next row."
  },
  {
   "property": "C489",
   "status": "proved",
   "theorems": [
    "Cnine.CA.C489_AA",
    "Cnine.CA.C489_AT",
    "Cnine.CA.C489_TA"
   ],
   "note": "Full statement."
  },
  {
   "property": "C490",
   "status": "proved",
   "theorems": [
    "Cnine.C490_cellwise",
    "Cnine.C490_outer",
    "Cnine.C490_plus",
    "Cnine.C490_refuses"
   ],
   "note": "Full statement."
  },
  {
   "property": "C491",
   "status": "proved",
   "theorems": [
    "Cnine.C491_cellwise",
    "Cnine.C491_left",
    "Cnine.C491_right",
    "Cnine.C491_outer",
    "Cnine.C491_broadcast",
    "Cnine.C491_plus"
   ],
   "note": "Full statement."
  },
  {
   "property": "C492",
   "status": "proved",
   "theorems": [
    "Cnine.C492_inner",
    "Cnine.C492_mprod"
   ],
   "note": "Full statement."
  },
  {
   "property": "C493",
   "status": "proved",
   "theorems": [
    "Cnine.C493_mvprod",
    "Cnine.C493_empty"
   ],
   "note": "Full statement."
  },
  {
   "property": "C494",
   "status": "partial",
   "theorems": [
    "Cnine.C494_vmprod_partial",
    "Cnine.C494_empty_fails",
    "Cnine.C494_junk_fails"
   ],
   "note": "Proved when there is at least one term. With no terms and add_flag false the result cells keep what they held (C494_empty_fails, C494_junk_fails)."
  },
  {
   "property": "C495",
   "status": "partial",
   "theorems": [
    "Cnine.C495_add_partial",
    "Cnine.C495_inner_fails",
    "Cnine.C495_witness_fails",
    "Cnine.C495_gpu_fails"
   ],
   "note": "Proved with add_flag. Without it every round overwrites the result, so only the last pair of cells counts (C495_inner_fails, C495_witness_fails); on the GPU nothing is done (C495_gpu_fails)."
  },
  {
   "property": "C496",
   "status": "proved",
   "theorems": [
    "Cnine.C496_convolve",
    "Cnine.C496_refuses",
    "Cnine.C496_bi"
   ],
   "note": "Full statement."
  },
  {
   "property": "C497",
   "status": "partial",
   "theorems": [
    "Cnine.C497_convolve1_partial",
    "Cnine.C497_sizes_fails"
   ],
   "note": "The check asks for one cell more than a convolution has: with the right sizes the map throws (C497_sizes_fails); with one cell too many the result is right."
  },
  {
   "property": "C498",
   "status": "partial",
   "theorems": [
    "Cnine.C498_unary_fails",
    "Cnine.C498_broadcast_fails",
    "Cnine.C498_accumulate_fails",
    "Cnine.C498_push_fails",
    "Cnine.C498_other_partial"
   ],
   "note": "CellwiseUCmap throws for every array on the CPU, BroadcastBinaryCmap reads an unset member, CellMask2r::push reads through an empty list's end, the accumulator without add_flag throws. What works besides is in C498_other_partial."
  },
  {
   "property": "C499",
   "status": "proved",
   "theorems": [
    "Cnine.C499_cellwise",
    "Cnine.C499_outer"
   ],
   "note": "Full statement."
  },
  {
   "property": "C500",
   "status": "proved",
   "theorems": [
    "Cnine.C500_mvprod",
    "Cnine.C500_vmprod",
    "Cnine.C500_convolve"
   ],
   "note": "Full statement."
  },
  {
   "property": "C501",
   "status": "proved",
   "theorems": [
    "Cnine.C501_table",
    "Cnine.C501_length",
    "Cnine.C501_accumulate"
   ],
   "note": "Full statement."
  },
  {
   "property": "C502",
   "status": "partial",
   "theorems": [
    "Cnine.C502_imag_fails",
    "Cnine.C502_real_partial",
    "Cnine.C502_race_fails"
   ],
   "note": "The real parts are right; to the imaginary parts the real part of y is added (C502_imag_fails); with MprodBiCmap an addition can be lost (C502_race_fails)."
  },
  {
   "property": "C503",
   "status": "partial",
   "theorems": [
    "Cnine.C503_mvprod_fails",
    "Cnine.C503_vmprod_fails",
    "Cnine.C503_convolve_fails",
    "Cnine.C503_grid_fails"
   ],
   "note": "False: the launches are commented out, or the grid has no block along y and the launch is refused."
  },
  {
   "property": "C504",
   "status": "proved",
   "theorems": [
    "Cnine.CA.C504_addColNorms",
    "Cnine.CA.C504_addDivideCols",
    "Cnine.CA.C504_addColNormsBack",
    "Cnine.CA.C504_addDivideColsBack0",
    "Cnine.CA.C504_addDivideColsBack1"
   ],
   "note": "Full statement."
  },
  {
   "property": "C505",
   "status": "proved",
   "theorems": [
    "Cnine.CA.C505_divideCols",
    "Cnine.CA.C505_unit"
   ],
   "note": "Full statement."
  },
  {
   "property": "C506",
   "status": "proved",
   "theorems": [
    "Cnine.C506_each",
    "Cnine.C506_dominant"
   ],
   "note": "Full statement."
  },
  {
   "property": "C507",
   "status": "partial",
   "theorems": [
    "Cnine.C507_twice_fails",
    "Cnine.C507_first_partial",
    "Cnine.C507_sum_fails"
   ],
   "note": "False: there is no return after the branch for one batch, so the function is called a second time for each batch, with slices of x that do not exist (C507_twice_fails, C507_sum_fails). Proved: the first calls are the right ones."
  },
  {
   "property": "C508",
   "status": "partial",
   "theorems": [
    "Cnine.CA.C508_normalizeCols_partial",
    "Cnine.CA.C508_normalizeCols_fails"
   ],
   "note": "False: the rows are divided by their norms instead (C508_normalizeCols_fails). Proved: what it does to the rows, and that the rest is kept."
  },
  {
   "property": "C509",
   "status": "proved",
   "theorems": [
    "Cnine.CA.C509_add",
    "Cnine.CA.C509_addScaled",
    "Cnine.CA.C509_addConj",
    "Cnine.CA.C509_subtract",
    "Cnine.CA.C509_refuses",
    "Cnine.CA.C509_addC",
    "Cnine.CA.C509_addSum",
    "Cnine.CA.C509_addPair",
    "Cnine.CA.C509_conj"
   ],
   "note": "Full statement."
  },
  {
   "property": "C510",
   "status": "partial",
   "theorems": [
    "Cnine.CA.C510_partial",
    "Cnine.CA.C510_fails"
   ],
   "note": "False: the GPU branch flips the sign of the imaginary part of c twice and adds c times x (C510_fails); the CPU branch adds conj(c) times x (C482). Proved: what the GPU branch adds."
  },
  {
   "property": "C511",
   "status": "partial",
   "theorems": [
    "Cnine.CA.C511_partial",
    "Cnine.CA.C511_fails"
   ],
   "note": "False: axpy adds the product to the old value, and the imaginary part uses the new real part (C511_fails). Proved: the exact result."
  },
  {
   "property": "C512",
   "status": "proved",
   "theorems": [
    "Cnine.CA.C512_AA",
    "Cnine.CA.C512_AT",
    "Cnine.CA.C512_TA"
   ],
   "note": "Full statement."
  },
  {
   "property": "C513",
   "status": "proved",
   "theorems": [
    "Cnine.CA.C513_addTransp",
    "Cnine.CA.C513_addHerm",
    "Cnine.CA.C513_refuses"
   ],
   "note": "Full statement."
  },
  {
   "property": "C514",
   "status": "partial",
   "theorems": [
    "Cnine.CA.C514_square_partial",
    "Cnine.CA.C514_shape_fails"
   ],
   "note": "False: the result keeps the sizes of the argument (C514_shape_fails). Proved: right when both groups of axes have the same sizes."
  },
  {
   "property": "C515",
   "status": "proved",
   "theorems": [
    "Cnine.RAA.C515_raw",
    "Cnine.RAA.C515_raw_empty",
    "Cnine.RAA.C515_zeros",
    "Cnine.RAA.C515_filled",
    "Cnine.RAA.C515_sequential",
    "Cnine.RAA.C515_repeated"
   ],
   "note": "Full statement."
  },
  {
   "property": "C516",
   "status": "proved",
   "theorems": [
    "Cnine.RAA.C516_cell",
    "Cnine.RAA.C516_cell2",
    "Cnine.RAA.C516_apart",
    "Cnine.RAA.C516_copyCellInto",
    "Cnine.RAA.C516_addCellInto",
    "Cnine.RAA.C516_setCell",
    "Cnine.RAA.C516_addToCell"
   ],
   "note": "Full statement."
  },
  {
   "property": "C517",
   "status": "partial",
   "theorems": [
    "Cnine.RAA.C517_getCell_fails",
    "Cnine.RAA.C517_getCell_large_fails",
    "Cnine.RAA.C517_getCell_partial"
   ],
   "note": "False: nbu (-1) is put before the sizes, so that the result has an axis of size -1; with more than 30 entries one number is allocated and the copy overruns it (`C517_getCell_fails`, `C517_getCell_large_fails`). `C517_getCell_partial`: up to 30 entries the numbers are copied."
  },
  {
   "property": "C518",
   "status": "partial",
   "theorems": [
    "Cnine.RAA.C518_single_fails",
    "Cnine.RAA.C518_single_large_fails",
    "Cnine.RAA.C518_addBroadcast_fails"
   ],
   "note": "False: `Gdims(1)` is one axis of size 0, so there is no tensor; more than 32 entries overrun the memory, and add_broadcast always throws."
  },
  {
   "property": "C519",
   "status": "partial",
   "theorems": [
    "Cnine.RAA.C519_ofFn_fails",
    "Cnine.RAA.C519_zero_fails",
    "Cnine.RAA.C519_broaden_fails"
   ],
   "note": "False: the sizes get a first axis of size nbu = -1; the function is never called, and from 31 to 62 entries the code divides by zero."
  },
  {
   "property": "C520",
   "status": "proved",
   "theorems": [
    "Cnine.RAA.C520_copy",
    "Cnine.RAA.C520_viewOf"
   ],
   "note": "Full statement."
  },
  {
   "property": "C521",
   "status": "proved",
   "theorems": [
    "Cnine.RAA.C521_broadcastCopy",
    "Cnine.RAA.C521_broadcastUpd",
    "Cnine.RAA.C521_plus",
    "Cnine.RAA.C521_plusOne"
   ],
   "note": "Full statement."
  },
  {
   "property": "C522",
   "status": "partial",
   "theorems": [
    "Cnine.RAA.C522_fails",
    "Cnine.RAA.C522_asArrayshape_fails"
   ],
   "note": "False: the constructors do not set k, so cell(i), cell_combined_size and as_arrayshape use an uninitialised number."
  },
  {
   "property": "C523",
   "status": "partial",
   "theorems": [
    "Cnine.RAA.C523_changeArrayshape_partial",
    "Cnine.RAA.C523_longer_fails",
    "Cnine.RAA.C523_shorter_fails"
   ],
   "note": "False unless the array gets as many axes as the tensors have (`C523_changeArrayshape_partial`): the loop over the strides of a tensor runs to the number of axes of the array. With more axes strides outside the vector are read, with fewer the last strides are zero."
  },
  {
   "property": "C524",
   "status": "proved",
   "theorems": [
    "Cnine.RAA.C524_scatterTimes"
   ],
   "note": "Full statement."
  },
  {
   "property": "C525",
   "status": "partial",
   "theorems": [
    "Cnine.RAA.C525_scatterDiv_fails",
    "Cnine.RAA.C525_scatterAdd_fails"
   ],
   "note": "False: inplace_scatter_div multiplies, and the other two compare the sizes of the array with all sizes of x and always throw."
  },
  {
   "property": "C526",
   "status": "proved",
   "theorems": [
    "Cnine.RAA.C526_AA",
    "Cnine.RAA.C526_AT",
    "Cnine.RAA.C526_combinedSize",
    "Cnine.RAA.C526_broadcastAA",
    "Cnine.RAA.C526_broadcastAT"
   ],
   "note": "Full statement."
  },
  {
   "property": "C527",
   "status": "partial",
   "theorems": [
    "Cnine.RAA.C527_first_fails"
   ],
   "note": "False: one product is computed; only the first tensor of the array gets it."
  },
  {
   "property": "C528",
   "status": "proved",
   "theorems": [
    "Cnine.RAA.C528_gBroadcastCopy"
   ],
   "note": "Full statement."
  },
  {
   "property": "C529",
   "status": "partial",
   "theorems": [
    "Cnine.RAA.C529_broadcastCopy",
    "Cnine.RAA.C529_broadcastAdd",
    "Cnine.RAA.C529_zero_fails"
   ],
   "note": "Proved for arrays without axes of size 0; with such an axis, not the first, the code divides by zero (`C529_zero_fails`)."
  },
  {
   "property": "C530",
   "status": "proved",
   "theorems": [
    "Cnine.RAA.C530_addReduce"
   ],
   "note": "Full statement."
  },
  {
   "property": "C531",
   "status": "proved",
   "theorems": [
    "Cnine.TV.C531_hash",
    "Cnine.TV.C531_equal"
   ],
   "note": "Full statement."
  },
  {
   "property": "C532",
   "status": "proved",
   "theorems": [
    "Cnine.TV.C532_last"
   ],
   "note": "Full statement."
  },
  {
   "property": "C533",
   "status": "partial",
   "theorems": [
    "Cnine.TV.C533_equal_partial",
    "Cnine.TV.C533_strides_fails"
   ],
   "note": "True of regular tensors (C533_equal_partial). False in general: operator== compares memory, so a matrix and its transpose over the same memory are called equal, but their hashes differ (C533_strides_fails)."
  },
  {
   "property": "C534",
   "status": "proved",
   "theorems": [
    "Cnine.TV.C534_views",
    "Cnine.TV.C534_refuses"
   ],
   "note": "Full statement."
  },
  {
   "property": "C535",
   "status": "proved",
   "theorems": [
    "Cnine.TV.C535_views"
   ],
   "note": "Full statement."
  },
  {
   "property": "C536",
   "status": "proved",
   "theorems": [
    "Cnine.TV.C536_flat"
   ],
   "note": "Full statement."
  },
  {
   "property": "C537",
   "status": "proved",
   "theorems": [
    "Cnine.TV.C537_unitary",
    "Cnine.TV.C537_refuses"
   ],
   "note": "Full statement."
  },
  {
   "property": "C538",
   "status": "proved",
   "theorems": [
    "Cnine.TV.C538_error"
   ],
   "note": "Full statement."
  },
  {
   "property": "C539",
   "status": "proved",
   "theorems": [
    "Cnine.TV.C539_normalize"
   ],
   "note": "Full statement."
  },
  {
   "property": "C540",
   "status": "proved",
   "theorems": [
    "Cnine.TV.C540_max_abs"
   ],
   "note": "Full statement."
  },
  {
   "property": "C541",
   "status": "partial",
   "theorems": [
    "Cnine.TV.C541_complex_fails"
   ],
   "note": "False: the matrix is multiplied by its transpose and not by the conjugate of its transpose, so the unitary 1 by 1 matrix (i) has error 2 (C541_complex_fails)."
  },
  {
   "property": "C542",
   "status": "partial",
   "theorems": [
    "Cnine.GpuC.C542_expand_partial",
    "Cnine.GpuC.C542_expand_fails",
    "Cnine.GpuC.C542_devices_fails"
   ],
   "note": "Proved where the launch is allowed by the GPU; tensors with n3>64 and n1*n2*n3<=1024 launch nothing (C542_expand_fails), too large tensors are left unchanged, and the CPU version stores where the GPU version adds (C542_devices_fails)."
  },
  {
   "property": "C543",
   "status": "partial",
   "theorems": [
    "Cnine.GpuC.C543_contract_partial",
    "Cnine.GpuC.C543_contract_fails",
    "Cnine.GpuC.C543_devices_fails"
   ],
   "note": "Proved for at most 1024 columns or entries; a row of 1025 columns is left unchanged (C543_contract_fails), and the CPU version stores where the GPU version adds (C543_devices_fails)."
  },
  {
   "property": "C544",
   "status": "partial",
   "theorems": [
    "Cnine.GpuC.C544_otimes_partial",
    "Cnine.GpuC.C544_otimes_fails"
   ],
   "note": "Proved for matrices with at least one column; without columns every thread divides by zero (C544_otimes_fails)."
  },
  {
   "property": "C545",
   "status": "partial",
   "theorems": [
    "Cnine.GpuC.C545_accumulate_partial",
    "Cnine.GpuC.C545_accumulate_fails"
   ],
   "note": "Proved for the first half of the floats of each row; the other half is left out because the number of complex entries is passed as the number of floats (C545_accumulate_fails)."
  },
  {
   "property": "C546",
   "status": "partial",
   "theorems": [
    "Cnine.GpuC.C546_relu_partial",
    "Cnine.GpuC.C546_relu_back_partial",
    "Cnine.GpuC.C546_relu_fails",
    "Cnine.GpuC.C546_relu_back_fails",
    "Cnine.GpuC.C546_relu_cpu",
    "Cnine.GpuC.C546_relu_back_cpu"
   ],
   "note": "The CPU version adds (C546_relu_cpu); the GPU version replaces the cells by the rectified values (C546_relu_partial, C546_relu_fails)."
  },
  {
   "property": "C547",
   "status": "proved",
   "theorems": [
    "Cnine.GDM.C547_mprod",
    "Cnine.GDM.C547_no_axes"
   ],
   "note": "Full statement."
  },
  {
   "property": "C548",
   "status": "proved",
   "theorems": [
    "Cnine.GDM.C548_mvprod"
   ],
   "note": "Full statement."
  },
  {
   "property": "C549",
   "status": "proved",
   "theorems": [
    "Cnine.GDM.C549_combined",
    "Cnine.GDM.C549_negative",
    "Cnine.GDM.C549_split"
   ],
   "note": "Full statement."
  },
  {
   "property": "C550",
   "status": "proved",
   "theorems": [
    "Cnine.GDM.C550_select",
    "Cnine.GDM.C550_unite",
    "Cnine.GDM.C550_all"
   ],
   "note": "Full statement."
  },
  {
   "property": "C551",
   "status": "partial",
   "theorems": [
    "Cnine.GDM.C551_dims",
    "Cnine.GDM.C551_index",
    "Cnine.GDM.C551_negative_fails"
   ],
   "note": "Proved for both checks; the constructor of an index from a vector drops negative entries, so a vector outside the range can pass (C551_negative_fails)."
  },
  {
   "property": "C552",
   "status": "proved",
   "theorems": [
    "Cnine.GDM.C552_lex",
    "Cnine.GDM.C552_order"
   ],
   "note": "Full statement."
  },
  {
   "property": "C553",
   "status": "proved",
   "theorems": [
    "Cnine.GDM.C553_access",
    "Cnine.GDM.C553_set_back",
    "Cnine.GDM.C553_max_min",
    "Cnine.GDM.C553_insert"
   ],
   "note": "Full statement."
  },
  {
   "property": "C554",
   "status": "partial",
   "theorems": [
    "Cnine.GDM.C554_convolve_partial",
    "Cnine.GDM.C554_throws",
    "Cnine.GDM.C554_convolve_fails"
   ],
   "note": "Proved for windows at most one larger than the image; for larger windows the size is negative (C554_convolve_fails)."
  },
  {
   "property": "C555",
   "status": "partial",
   "theorems": [
    "Cnine.GDM.C555_hash_partial",
    "Cnine.GDM.C555_hash_fails"
   ],
   "note": "Proved for indices with entries; the hash of the index without entries reads an entry that does not exist (C555_hash_fails)."
  },
  {
   "property": "C556",
   "status": "partial",
   "theorems": [
    "Cnine.C556_apply_partial",
    "Cnine.C556_rows_fails",
    "Cnine.C556_blocks_fails",
    "Cnine.C556_sizes_fails",
    "Cnine.C556_wide_fails"
   ],
   "note": "Proved for a single block of one entry and fewer than 1024 columns. Wrong otherwise: the kernel reads the table of rows in a layout that to_tensor no longer writes, takes the strides of the block tensor for those of a matrix, visits as many blocks as there are rows, and nothing is launched from 1024 threads on."
  },
  {
   "property": "C557",
   "status": "partial",
   "theorems": [
    "Cnine.C557_transp_partial",
    "Cnine.C557_transp_fails"
   ],
   "note": "The GPU branch calls the function of the product that is not transposed; proved for a single block of one entry on the diagonal."
  },
  {
   "property": "C558",
   "status": "proved",
   "theorems": [
    "Cnine.CAA.C558_raw",
    "Cnine.CAA.C558_raw_empty",
    "Cnine.CAA.C558_zeros",
    "Cnine.CAA.C558_filled",
    "Cnine.CAA.C558_sequential",
    "Cnine.CAA.C558_repeated"
   ],
   "note": "Full statement."
  },
  {
   "property": "C559",
   "status": "proved",
   "theorems": [
    "Cnine.CAA.C559_setCell",
    "Cnine.CAA.C559_addToCell",
    "Cnine.CAA.C559_copyCellInto",
    "Cnine.CAA.C559_addCellInto",
    "Cnine.CAA.C559_cell",
    "Cnine.CAA.C559_cell2",
    "Cnine.CAA.C559_apart"
   ],
   "note": "Full statement."
  },
  {
   "property": "C560",
   "status": "proved",
   "theorems": [
    "Cnine.CAA.C560_copy",
    "Cnine.CAA.C560_broadcastCopy",
    "Cnine.CAA.C560_broadcastUpd",
    "Cnine.CAA.C560_plus",
    "Cnine.CAA.C560_plusOne"
   ],
   "note": "Full statement."
  },
  {
   "property": "C561",
   "status": "partial",
   "theorems": [
    "Cnine.CAA.C561_copy_fails",
    "Cnine.CAA.C561_single_fails",
    "Cnine.CAA.C561_addBroadcast_fails",
    "Cnine.CAA.C561_scatterAdd_fails",
    "Cnine.CAA.C561_cellwise_fails"
   ],
   "note": "False: the member k is not set in a copy, so cell() reads it uninitialised (also in cell-wise products); Gdims(1) is a list of one zero, so the array has no cell and add_broadcast always throws; the sizes of the array are compared with all sizes of x, so scatter_add throws."
  },
  {
   "property": "C562",
   "status": "partial",
   "theorems": [
    "Cnine.CAA.C562_broadcastCopy",
    "Cnine.CAA.C562_broadcastAdd",
    "Cnine.CAA.C562_addReduce",
    "Cnine.CAA.C562_zero_fails"
   ],
   "note": "Proved when no size is zero. When the axis has size 0 and is not the first the code divides by zero (C562_zero_fails)."
  },
  {
   "property": "C563",
   "status": "proved",
   "theorems": [
    "Cnine.CAA.C563_scatterTimes"
   ],
   "note": "Full statement."
  },
  {
   "property": "C564",
   "status": "partial",
   "theorems": [
    "Cnine.CAA.C564_scatterDiv_fails"
   ],
   "note": "False: the operation multiplies (C564_scatterDiv_fails)."
  },
  {
   "property": "C565",
   "status": "partial",
   "theorems": [
    "Cnine.CAA.C565_conj_fails",
    "Cnine.CAA.C565_conj_partial",
    "Cnine.CAA.C565_conj_cells_fails",
    "Cnine.CAA.C565_gpu_fails"
   ],
   "note": "False: the cells of the result get all sizes of the array. Proved: the conjugates are stored, at the distances of the argument (C565_conj_partial). On the GPU only the first cell is handled (C565_gpu_fails)."
  },
  {
   "property": "C566",
   "status": "proved",
   "theorems": [
    "Cnine.CAA.C566_AA",
    "Cnine.CAA.C566_AT"
   ],
   "note": "Full statement."
  },
  {
   "property": "C567",
   "status": "proved",
   "theorems": [
    "Cnine.CAA.C567_AA",
    "Cnine.CAA.C567_AT"
   ],
   "note": "Full statement."
  },
  {
   "property": "C568",
   "status": "partial",
   "theorems": [
    "Cnine.TPk.C568_empty",
    "Cnine.TPk.C568_raw",
    "Cnine.TPk.C568_fill",
    "Cnine.TPk.C568_zeros",
    "Cnine.TPk.C568_pool_partial",
    "Cnine.TPk.C568_pool_fails"
   ],
   "note": "C568_pool_partial needs a list that is not empty; C568_pool_fails shows the pack of an empty list"
  },
  {
   "property": "C569",
   "status": "proved",
   "theorems": [
    "Cnine.TPk.C569_push",
    "Cnine.TPk.C569_zero",
    "Cnine.TPk.C569_raw"
   ],
   "note": "Full statement."
  },
  {
   "property": "C570",
   "status": "proved",
   "theorems": [
    "Cnine.TPk.C570_size",
    "Cnine.TPk.C570_dims",
    "Cnine.TPk.C570_dim",
    "Cnine.TPk.C570_tensor",
    "Cnine.TPk.C570_beyond",
    "Cnine.TPk.C570_view1",
    "Cnine.TPk.C570_view2",
    "Cnine.TPk.C570_view3"
   ],
   "note": "Full statement."
  },
  {
   "property": "C571",
   "status": "partial",
   "theorems": [
    "Cnine.TPk.C571_copy",
    "Cnine.TPk.C571_fillLike",
    "Cnine.TPk.C571_zerosLike",
    "Cnine.TPk.C571_assign_partial",
    "Cnine.TPk.C571_assign_fails",
    "Cnine.TPk.C571_self_fails"
   ],
   "note": "C571_assign_partial needs a source with an array; C571_assign_fails and C571_self_fails show the other cases"
  },
  {
   "property": "C572",
   "status": "partial",
   "theorems": [
    "Cnine.TPk.C572_cat_partial",
    "Cnine.TPk.C572_cat_fails"
   ],
   "note": "C572_cat_partial needs at least one pack and equal numbers of sizes; C572_cat_fails shows the other cases"
  },
  {
   "property": "C573",
   "status": "partial",
   "theorems": [
    "Cnine.TPk.C573_ofTensor",
    "Cnine.TPk.C573_none",
    "Cnine.TPk.C573_view_partial",
    "Cnine.TPk.C573_move_fails"
   ],
   "note": "C573_view_partial covers temporaries that are views; C573_move_fails shows that all others throw"
  },
  {
   "property": "C574",
   "status": "proved",
   "theorems": [
    "Cnine.TPk.C574_add",
    "Cnine.TPk.C574_addC",
    "Cnine.TPk.C574_subpack",
    "Cnine.TPk.C574_inp",
    "Cnine.TPk.C574_diff2"
   ],
   "note": "Full statement."
  },
  {
   "property": "C575",
   "status": "partial",
   "theorems": [
    "Cnine.TPk.C575_equal_partial",
    "Cnine.TPk.C575_copies",
    "Cnine.TPk.C575_equal_fails"
   ],
   "note": "C575_equal_partial needs directories without spare rows; C575_equal_fails shows packs after push_back"
  },
  {
   "property": "C576",
   "status": "partial",
   "theorems": [
    "Cnine.TPk.C576_own_partial",
    "Cnine.TPk.C576_own_fails"
   ],
   "note": "C576_own_partial needs room; C576_own_fails shows the other case"
  },
  {
   "property": "C577",
   "status": "partial",
   "theorems": [
    "Cnine.TPk.C577_reserve_partial",
    "Cnine.TPk.C577_reserve_fails",
    "Cnine.TPk.C577_reserveZero"
   ],
   "note": "C577_reserve_partial needs n>0; C577_reserve_fails shows n=0"
  },
  {
   "property": "C578",
   "status": "partial",
   "theorems": [
    "Cnine.TPk.C578_new_partial",
    "Cnine.TPk.C578_old_fails"
   ],
   "note": "C578_new_partial is about the new pack; C578_old_fails about the old one"
  },
  {
   "property": "C579",
   "status": "partial",
   "theorems": [
    "Cnine.Interp.C579_bilinear_partial",
    "Cnine.Interp.C579_bilinear_fails"
   ],
   "note": "Proved for n0=n1. For other grids false: the stride of the first coordinate is n0 instead of n1 (witness: 2x3 grid, the row of point (1,0) gives the value at (0,2))."
  },
  {
   "property": "C580",
   "status": "proved",
   "theorems": [
    "Cnine.Interp.C580_bilinear_domain"
   ],
   "note": "Full statement."
  },
  {
   "property": "C581",
   "status": "partial",
   "theorems": [
    "Cnine.Interp.C581_trilinear_partial",
    "Cnine.Interp.C581_trilinear_fails"
   ],
   "note": "Proved for cubes. For other grids false: the strides are n0*n1 and n1 instead of n1*n2 and n2 (witness: 1x2x3 grid)."
  },
  {
   "property": "C582",
   "status": "proved",
   "theorems": [
    "Cnine.Interp.C582_trilinear_domain"
   ],
   "note": "Full statement."
  },
  {
   "property": "C583",
   "status": "partial",
   "theorems": [
    "Cnine.Interp.C583_transpose_partial",
    "Cnine.Interp.C583_transpose_fails"
   ],
   "note": "Proved for bilinear matrices of square grids. False for trilinear ones: they are declared with n0*n1 columns, so counting the columns writes outside the array (witness: 2x2x2 grid, one point)."
  },
  {
   "property": "C584",
   "status": "proved",
   "theorems": [
    "Cnine.Interp.C584_spherical"
   ],
   "note": "Full statement."
  },
  {
   "property": "C585",
   "status": "partial",
   "theorems": [
    "Cnine.Interp.C585_directions_partial",
    "Cnine.Interp.C585_directions_fails"
   ],
   "note": "Polar angle proved. The azimuth is wrong: M_2_PI is 2/pi, not 2*pi (witness: two directions)."
  },
  {
   "property": "C586",
   "status": "partial",
   "theorems": [
    "Cnine.CB.C586_raw_partial",
    "Cnine.CB.C586_no_axes_partial",
    "Cnine.CB.C586_filled_partial",
    "Cnine.CB.C586_zero_partial",
    "Cnine.CB.C586_sequential_partial",
    "Cnine.CB.C586_identity_partial",
    "Cnine.CB.C586_identity_throws_partial",
    "Cnine.CB.C586_ones_fails",
    "Cnine.CB.C586_ones_entry_fails"
   ],
   "note": "Everything but ones is proved; ones_fails: every entry is 1+i, whatever the sizes."
  },
  {
   "property": "C587",
   "status": "partial",
   "theorems": [
    "Cnine.CB.C587_copy_partial",
    "Cnine.CB.C587_assign_partial",
    "Cnine.CB.C587_assign_fails",
    "Cnine.CB.C587_move_fails",
    "Cnine.CB.C587_witness_fails"
   ],
   "note": "Proved for copies and for assigning to a view or an empty object; assigning to a tensor that owns its array deletes with the wrong form of delete, undefined for every such tensor."
  },
  {
   "property": "C588",
   "status": "partial",
   "theorems": [
    "Cnine.CB.C588_ofParts_partial",
    "Cnine.CB.C588_ofParts_fails",
    "Cnine.CB.C588_real_partial",
    "Cnine.CB.C588_imag_partial"
   ],
   "note": "Proved for parts of the same sizes; other sizes are not refused (ofParts_fails)."
  },
  {
   "property": "C589",
   "status": "proved",
   "theorems": [
    "Cnine.CB.C589_get",
    "Cnine.CB.C589_set",
    "Cnine.CB.C589_inc",
    "Cnine.CB.C589_get2",
    "Cnine.CB.C589_set2",
    "Cnine.CB.C589_inc2"
   ],
   "note": "Full statement."
  },
  {
   "property": "C590",
   "status": "partial",
   "theorems": [
    "Cnine.CB.C590_view_partial",
    "Cnine.CB.C590_shape_partial",
    "Cnine.CB.C590_shape_fails",
    "Cnine.CB.C590_fuse_partial",
    "Cnine.CB.C590_pick_first_partial",
    "Cnine.CB.C590_pick_last_partial",
    "Cnine.CB.C590_pick_middle_partial"
   ],
   "note": "Proved when the number of entries agrees; a view with more entries is not refused and reads past the end (shape_fails)."
  },
  {
   "property": "C591",
   "status": "partial",
   "theorems": [
    "Cnine.CB.C591_conj_partial",
    "Cnine.CB.C591_conjG_fails",
    "Cnine.CB.C591_conjG_one_fails",
    "Cnine.CB.C591_transp_fails"
   ],
   "note": "Proved on the CPU; on the GPU the real parts change sign instead; transp returns an untransposed copy."
  },
  {
   "property": "C592",
   "status": "partial",
   "theorems": [
    "Cnine.CB.C592_add_partial",
    "Cnine.CB.C592_subtract_partial",
    "Cnine.CB.C592_addScaled_partial",
    "Cnine.CB.C592_sizes_partial",
    "Cnine.CB.C592_addC_fails",
    "Cnine.CB.C592_addC_entry_fails",
    "Cnine.CB.C592_set_partial",
    "Cnine.CB.C592_setZero_partial",
    "Cnine.CB.C592_plus_partial",
    "Cnine.CB.C592_minus_partial"
   ],
   "note": "All proved but the complex multiple, which does nothing (addC_fails)."
  },
  {
   "property": "C593",
   "status": "proved",
   "theorems": [
    "Cnine.CB.C593_addConj",
    "Cnine.CB.C593_addConjS",
    "Cnine.CB.C593_addConjC"
   ],
   "note": "Full statement."
  },
  {
   "property": "C594",
   "status": "partial",
   "theorems": [
    "Cnine.CB.C594_div_partial",
    "Cnine.CB.C594_div_fails"
   ],
   "note": "Proved: whatever complex division is, the result has the quotients of the parts; div_fails is a wrong quotient."
  },
  {
   "property": "C595",
   "status": "partial",
   "theorems": [
    "Cnine.CB.C595_inp_partial",
    "Cnine.CB.C595_addInpInto_partial",
    "Cnine.CB.C595_norm2_partial",
    "Cnine.CB.C595_diff2_partial",
    "Cnine.CB.C595_addNorm2_partial",
    "Cnine.CB.C595_addNorm2_fails"
   ],
   "note": "Proved for inp, norm2, diff2, add_inp_into; add_norm2_into adds the sum of squares, -1 for the number i."
  },
  {
   "property": "C596",
   "status": "partial",
   "theorems": [
    "Cnine.CB.C596_mprod_partial",
    "Cnine.CB.C596_sizes_partial",
    "Cnine.CB.C596_conj_fails"
   ],
   "note": "Proved for selector 0 (the same product is added for every selector); conj_fails: with selector 2 nothing is conjugated."
  },
  {
   "property": "C597",
   "status": "proved",
   "theorems": [
    "Cnine.CB.C597_relu",
    "Cnine.CB.C597_sizes"
   ],
   "note": "Full statement."
  },
  {
   "property": "C598",
   "status": "partial",
   "theorems": [
    "Cnine.CB.C598_of_partial",
    "Cnine.CB.C598_of_fails",
    "Cnine.CB.C598_view_partial",
    "Cnine.CB.C598_view_fails",
    "Cnine.CB.C598_torch_partial"
   ],
   "note": "Proved for contiguous tensors, for reading through views with any strides, and for torch(); of_fails: other strides write past the end; view_fails: adding through a transposed view is wrong."
  },
  {
   "property": "C599",
   "status": "partial",
   "theorems": [
    "Cnine.Scal.C599_single_partial",
    "Cnine.Scal.C599_filled_partial",
    "Cnine.Scal.C599_map_partial",
    "Cnine.Scal.C599_copy_partial",
    "Cnine.Scal.C599_assign_partial",
    "Cnine.Scal.C599_move_partial",
    "Cnine.Scal.C599_vector_partial",
    "Cnine.Scal.C599_to_vector_partial",
    "Cnine.Scal.C599_round_trip_partial",
    "Cnine.Scal.C599_self_fails",
    "Cnine.Scal.C599_random_fails",
    "Cnine.Scal.C599_random_partial"
   ],
   "note": "False for the object itself: assigning a bundle to itself frees the array and copies the new array onto itself (undefined, C599_self_fails). A single random complex number made with nbu=-1 has imaginary part 0 (C599_random_fails). Everything else is proved."
  },
  {
   "property": "C600",
   "status": "proved",
   "theorems": [
    "Cnine.Scal.C600_value",
    "Cnine.Scal.C600_set_value",
    "Cnine.Scal.C600_zero",
    "Cnine.Scal.C600_eq"
   ],
   "note": "Full statement."
  },
  {
   "property": "C601",
   "status": "partial",
   "theorems": [
    "Cnine.Scal.C601_add_partial",
    "Cnine.Scal.C601_add_multiple_partial",
    "Cnine.Scal.C601_subtract_partial",
    "Cnine.Scal.C601_norm2_partial",
    "Cnine.Scal.C601_minus_partial",
    "Cnine.Scal.C601_prod_partial",
    "Cnine.Scal.C601_div_partial",
    "Cnine.Scal.C601_abs_partial",
    "Cnine.Scal.C601_pow_partial",
    "Cnine.Scal.C601_exp_partial",
    "Cnine.Scal.C601_unchecked_fails"
   ],
   "note": "Proved for equal shapes, and refusal for the functions that check. add_abs, add_pow, add_exp, the rectifiers and the sigmoid do not check, and mixing a number with a bundle reads a null pointer or an unset number (C601_unchecked_fails)."
  },
  {
   "property": "C602",
   "status": "proved",
   "theorems": [
    "Cnine.Scal.C602_real",
    "Cnine.Scal.C602_imag",
    "Cnine.Scal.C602_conj",
    "Cnine.Scal.C602_set_real",
    "Cnine.Scal.C602_set_imag",
    "Cnine.Scal.C602_add_conj",
    "Cnine.Scal.C602_add_real_to",
    "Cnine.Scal.C602_add_imag_to",
    "Cnine.Scal.C602_add_to_real",
    "Cnine.Scal.C602_add_to_imag",
    "Cnine.Scal.C602_prod",
    "Cnine.Scal.C602_prodc",
    "Cnine.Scal.C602_prodcc",
    "Cnine.Scal.C602_prod_real",
    "Cnine.Scal.C602_norm2"
   ],
   "note": "Full statement."
  },
  {
   "property": "C603",
   "status": "partial",
   "theorems": [
    "Cnine.Scal.C603_add_sum_partial",
    "Cnine.Scal.C603_sum_partial",
    "Cnine.Scal.C603_bundles_fails"
   ],
   "note": "Right for single numbers. For bundles add_sum adds nothing and sum returns the number 0 (C603_bundles_fails)."
  },
  {
   "property": "C604",
   "status": "proved",
   "theorems": [
    "Cnine.Scal.C604_norm2",
    "Cnine.Scal.C604_div0",
    "Cnine.Scal.C604_div1",
    "Cnine.Scal.C604_div1_throws",
    "Cnine.Scal.C604_abs",
    "Cnine.Scal.C604_relu",
    "Cnine.Scal.C604_sigmoid",
    "Cnine.Scal.C604_sigmoid_forward",
    "Cnine.Scal.C604_pow"
   ],
   "note": "Full statement."
  },
  {
   "property": "C605",
   "status": "partial",
   "theorems": [
    "Cnine.Scal.C605_relu_partial",
    "Cnine.Scal.C605_norm2_partial",
    "Cnine.Scal.C605_norm2_fails",
    "Cnine.Scal.C605_abs_fails"
   ],
   "note": "The rectifier is right. add_norm2_back adds only the derivative by the real part (C605_norm2_partial, C605_norm2_fails); add_abs_back adds plus or minus the gradient, which is not the derivative of the modulus (C605_abs_fails)."
  },
  {
   "property": "C606",
   "status": "partial",
   "theorems": [
    "Cnine.SpTen.C606_for_each_partial",
    "Cnine.SpTen.C606_nfilled_partial",
    "Cnine.SpTen.C606_is_filled_partial",
    "Cnine.SpTen.C606_get2_partial",
    "Cnine.SpTen.C606_get_partial",
    "Cnine.SpTen.C606_set_partial",
    "Cnine.SpTen.C606_get_fails"
   ],
   "note": "False for operator()(Gindex) on tensors with two axes: it searches the map that such tensors never use and always returns 0 (C606_get_fails). Everything else is proved."
  },
  {
   "property": "C607",
   "status": "proved",
   "theorems": [
    "Cnine.SpTen.C607_mask",
    "Cnine.SpTen.C607_throws"
   ],
   "note": "Full statement."
  },
  {
   "property": "C608",
   "status": "proved",
   "theorems": [
    "Cnine.CBA.C608_raw",
    "Cnine.CBA.C608_filled",
    "Cnine.CBA.C608_sequential",
    "Cnine.CBA.C608_ofTensor",
    "Cnine.CBA.C608_copy",
    "Cnine.CBA.C608_view",
    "Cnine.CBA.C608_shape",
    "Cnine.CBA.C608_get",
    "Cnine.CBA.C608_set"
   ],
   "note": "Full statement."
  },
  {
   "property": "C609",
   "status": "proved",
   "theorems": [
    "Cnine.CBA.C609_cell",
    "Cnine.CBA.C609_apart",
    "Cnine.CBA.C609_cell2",
    "Cnine.CBA.C609_copyCell",
    "Cnine.CBA.C609_getCell",
    "Cnine.CBA.C609_addCell",
    "Cnine.CBA.C609_setCell",
    "Cnine.CBA.C609_addToCell"
   ],
   "note": "Full statement."
  },
  {
   "property": "C610",
   "status": "partial",
   "theorems": [
    "Cnine.CBA.C610_cell_partial",
    "Cnine.CBA.C610_copyCell_partial",
    "Cnine.CBA.C610_addCell_partial",
    "Cnine.CBA.C610_setCell_partial",
    "Cnine.CBA.C610_addToCell_partial",
    "Cnine.CBA.C610_cell_fails",
    "Cnine.CBA.C610_witness_fails"
   ],
   "note": "False in general: get_cellstride() returns the stride of the first axis of the tensors, not the distance between tensors (C610_cell_fails: every tensor but the first is looked for at the wrong place whenever the first tensor axis does not have size 1; C610_witness_fails: 0,1 and 2,3 give 1,2 as the second vector). Proved when that axis has size 1."
  },
  {
   "property": "C611",
   "status": "partial",
   "theorems": [
    "Cnine.CBA.C611_broadcast_partial",
    "Cnine.CBA.C611_sizes_partial",
    "Cnine.CBA.C611_broadcast_fails"
   ],
   "note": "False in general for the same reason (C611_broadcast_fails: 0,1 copied to two vectors gives 0,0 and 1,3). Proved when the first tensor axis has size 1, with the refusal of other sizes."
  },
  {
   "property": "C612",
   "status": "partial",
   "theorems": [
    "Cnine.CBA.C612_plus_partial",
    "Cnine.CBA.C612_one_fails",
    "Cnine.CBA.C612_witness_fails"
   ],
   "note": "plus of two arrays is proved. plus(y) and minus(y) with one tensor return an unchanged copy, since their bodies are commented out (C612_one_fails for all inputs, C612_witness_fails)."
  },
  {
   "property": "C613",
   "status": "partial",
   "theorems": [
    "Cnine.CBA.C613_broadcast_partial",
    "Cnine.CBA.C613_sizes_partial",
    "Cnine.CBA.C613_empty_fails",
    "Cnine.CBA.C613_witness_fails"
   ],
   "note": "Proved, with the refusal of other sizes, except for arrays that are empty from the axis on: there every axis but the first makes the function divide by zero (C613_empty_fails for all such arrays, C613_witness_fails)."
  },
  {
   "property": "C614",
   "status": "partial",
   "theorems": [
    "Cnine.CBA.C614_reduce_partial",
    "Cnine.CBA.C614_sizes_fails",
    "Cnine.CBA.C614_empty_fails"
   ],
   "note": "The sum is proved for matching sizes. False: line 580 compares each size with itself and the last size is never compared, so other sizes pass the check and the function writes behind the end (C614_sizes_fails); empty arrays divide by zero along every axis but the first (C614_empty_fails)."
  },
  {
   "property": "C615",
   "status": "proved",
   "theorems": [
    "Cnine.MV.C615_copy",
    "Cnine.MV.C615_transport"
   ],
   "note": "Full statement."
  },
  {
   "property": "C616",
   "status": "proved",
   "theorems": [
    "Cnine.MV.C616_move_to_device"
   ],
   "note": "Full statement."
  },
  {
   "property": "C617",
   "status": "proved",
   "theorems": [
    "Cnine.MV.C617_get",
    "Cnine.MV.C617_set",
    "Cnine.MV.C617_inc",
    "Cnine.MV.C617_on_gpu",
    "Cnine.MV.C617_outside"
   ],
   "note": "Full statement."
  },
  {
   "property": "C618",
   "status": "partial",
   "theorems": [
    "Cnine.MV.C618_move_partial",
    "Cnine.MV.C618_move_fails"
   ],
   "note": "Holds on the host (C618_move_partial). C618_move_fails: the moving constructor leaves dev at its default 0, so for every vector on the GPU the new one claims to lie on the host, does not hold the list there, and its destructor calls delete[] on a GPU pointer."
  },
  {
   "property": "C619",
   "status": "partial",
   "theorems": [
    "Cnine.MV.C619_filled_partial",
    "Cnine.MV.C619_filled_fails"
   ],
   "note": "Holds when the unset member happens to be 0 (C619_filled_partial). C619_filled_fails: line 51 passes the member dev, not yet set, instead of the argument; with any other content the fill goes through a GPU pointer."
  },
  {
   "property": "C620",
   "status": "partial",
   "theorems": [
    "Cnine.MV.C620_ownership_partial",
    "Cnine.MV.C620_ownership_fails"
   ],
   "note": "Holds for all programs that name only devices 0 and 1 and do not move from a vector on the GPU (C620_ownership_partial). C620_ownership_fails: a vector made on the GPU, moved from and destroyed is undefined."
  },
  {
   "property": "C621",
   "status": "proved",
   "theorems": [
    "Cnine.Mon.C621_made_once",
    "Cnine.Mon.C621_null"
   ],
   "note": "Full statement."
  },
  {
   "property": "C622",
   "status": "partial",
   "theorems": [
    "Cnine.Mon.C622_copy_partial",
    "Cnine.Mon.C622_copy_unmade_fails",
    "Cnine.Mon.C622_copy_not_watched_fails"
   ],
   "note": "Copies of objects already made give that object (C622_copy_partial). C622_copy_unmade_fails: make_obj is not copied, so every use of a copy of an object not made yet throws. C622_copy_not_watched_fails: a copy of an object already made never reaches the monitor it points to."
  },
  {
   "property": "C623",
   "status": "partial",
   "theorems": [
    "Cnine.GB.C623_push_partial",
    "Cnine.GB.C623_push_refused",
    "Cnine.GB.C623_push_fails"
   ],
   "note": "Holds for positions that are not negative (C623_push_partial, C623_push_refused). C623_push_fails: the check is done in size_t, so every negative position whose end lies inside the buffer passes and the write starts before the buffer."
  },
  {
   "property": "C624",
   "status": "partial",
   "theorems": [
    "Cnine.GB.C624_reset_partial",
    "Cnine.GB.C624_reset_fails"
   ],
   "note": "Holds for numbers that are not negative (C624_reset_partial). C624_reset_fails: a negative number, compared as size_t, replaces every buffer by one of a single cell."
  },
  {
   "property": "C625",
   "status": "partial",
   "theorems": [
    "Cnine.GB.C625_copy_partial",
    "Cnine.GB.C625_copy_fails"
   ],
   "note": "Holds for buffers without memory (C625_copy_partial). C625_copy_fails: the implicit copy has the same pointer, and destroying both is undefined for every buffer with memory."
  },
  {
   "property": "C626",
   "status": "proved",
   "theorems": [
    "Cnine.GB.C626_push_sync"
   ],
   "note": "Full statement."
  },
  {
   "property": "C627",
   "status": "partial",
   "theorems": [
    "Cnine.GB.C627_no_leak_partial",
    "Cnine.GB.C627_no_leak_fails"
   ],
   "note": "Holds for buffers made empty and then given a size (C627_no_leak_partial). C627_no_leak_fails: the constructor with a size allocates the host side twice and forgets the first block, for every size."
  },
  {
   "property": "C628",
   "status": "partial",
   "theorems": [
    "Cnine.GB.C628_min_size_partial",
    "Cnine.GB.C628_min_size_fails",
    "Cnine.GB.C628_min_size_shrinks_fails"
   ],
   "note": "Room for n cells holds only when the buffer already had it (C628_min_size_partial). The comparison is the wrong way round: C628_min_size_fails (asking for more does nothing) and C628_min_size_shrinks_fails (asking for less throws the cells away)."
  },
  {
   "property": "C629",
   "status": "partial",
   "theorems": [
    "Cnine.IV2.C629_set_partial",
    "Cnine.IV2.C629_set_fails",
    "Cnine.IV2.C629_mixed_fails"
   ],
   "note": "Proved on the host for all strides and on the GPU for regular matrices; proved that on the GPU nothing is copied and nothing reported when one of them is not regular, since the line for that case is commented out, and that a host matrix set from such a GPU matrix is filled with zeros (C629_mixed_fails)."
  },
  {
   "property": "C630",
   "status": "partial",
   "theorems": [
    "Cnine.IV2.C630_add_partial",
    "Cnine.IV2.C630_add_fails",
    "Cnine.IV2.C630_scaled",
    "Cnine.IV2.C630_overflow_fails"
   ],
   "note": "Proved on the host when all products and sums fit into an int; proved that add on the GPU never changes anything, and that a sum that does not fit is undefined."
  },
  {
   "property": "C631",
   "status": "partial",
   "theorems": [
    "Cnine.IV2.C631_matmul_partial",
    "Cnine.IV2.C631_matmul_fails"
   ],
   "note": "Proved on the host when all products, partial sums and results fit; false in general: with rows (65536,65536) and (65536,-65536) the product is 0 but the first term overflows."
  },
  {
   "property": "C632",
   "status": "partial",
   "theorems": [
    "Cnine.IV2.C632_block_partial",
    "Cnine.IV2.C632_block_fails"
   ],
   "note": "Proved for sizes of -1 and above; for every smaller number the overload for views that can be changed returns a view of negative size."
  },
  {
   "property": "C633",
   "status": "partial",
   "theorems": [
    "Cnine.IV1.C633_add_partial",
    "Cnine.IV1.C633_add_fails"
   ],
   "note": "Proved on the host when both strides are 1 and the sums fit; proved that with any other strides the target is overwritten by x, since the loop calls set in place of inc."
  },
  {
   "property": "C634",
   "status": "partial",
   "theorems": [
    "Cnine.IV1.C634_scaled_partial",
    "Cnine.IV1.C634_scaled_fails"
   ],
   "note": "Proved on the host for all strides when products and sums fit; proved that on the GPU nothing is added and nothing is reported."
  },
  {
   "property": "C635",
   "status": "partial",
   "theorems": [
    "Cnine.IV1.C635_reduce_partial",
    "Cnine.IV1.C635_reduce_fails"
   ],
   "note": "Proved on the host when all partial sums fit; proved that the result on the GPU is always 0."
  },
  {
   "property": "C636",
   "status": "partial",
   "theorems": [
    "Cnine.IV3.C636_matmul_partial",
    "Cnine.IV3.C636_refused_fails",
    "Cnine.IV3.C636_rows_fails"
   ],
   "note": "Proved for targets whose three sizes are equal, when everything fits; the loops over rows and columns run to n0 and n1 in place of n1 and n2, and n1 is compared with the columns of y: proved that targets with n1 different from n2 are refused and that one matrix of two rows gets only the first."
  },
  {
   "property": "C637",
   "status": "partial",
   "theorems": [
    "Cnine.IPM.C637_copy_partial",
    "Cnine.IPM.C637_copy_fails"
   ],
   "note": "Proved on the host; proved that copying any pool on the GPU is undefined, since std::copy reads the GPU pointer on the host."
  },
  {
   "property": "C638",
   "status": "partial",
   "theorems": [
    "Cnine.IPM.C638_destroy_partial",
    "Cnine.IPM.C638_destroy_fails"
   ],
   "note": "Proved on the host; proved that the end of every pool on the GPU is undefined, since delete[] is called on memory from cudaMalloc."
  },
  {
   "property": "C639",
   "status": "proved",
   "theorems": [
    "Cnine.IPM.C639_move_to_device"
   ],
   "note": "Full statement."
  },
  {
   "property": "C640",
   "status": "partial",
   "theorems": [
    "Cnine.IPM.C640_move_partial",
    "Cnine.IPM.C640_move_fails"
   ],
   "note": "Proved on the host; dev is not handed over: proved that a pool on the GPU says it is on the host afterwards, is not brought back by move_to_device(0), and that its end is undefined."
  },
  {
   "property": "C641",
   "status": "proved",
   "theorems": [
    "Cnine.PV.C641_copy"
   ],
   "note": "Full statement."
  },
  {
   "property": "C642",
   "status": "proved",
   "theorems": [
    "Cnine.PV.C642_destroy",
    "Cnine.PV.C642_stale"
   ],
   "note": "Full statement."
  },
  {
   "property": "C643",
   "status": "proved",
   "theorems": [
    "Cnine.PV.C643_move"
   ],
   "note": "Full statement."
  },
  {
   "property": "C644",
   "status": "partial",
   "theorems": [
    "Cnine.PV.C644_assign_partial",
    "Cnine.PV.C644_return_fails",
    "Cnine.PV.C644_assign_fails"
   ],
   "note": "Proved for the body of the assignment into a vector without elements. False in general: both functions lack a return statement, and the old pointers stay in the vector after their objects are deleted, so that its end is undefined (proved for every vector with an element)."
  },
  {
   "property": "C645",
   "status": "proved",
   "theorems": [
    "Cnine.PV.C645_remove",
    "Cnine.PV.C645_refused"
   ],
   "note": "Full statement."
  },
  {
   "property": "C646",
   "status": "proved",
   "theorems": [
    "Cnine.Frat.C646_double",
    "Cnine.Frat.C646_log",
    "Cnine.Frat.C646_quotient"
   ],
   "note": "Full statement."
  },
  {
   "property": "C647",
   "status": "proved",
   "theorems": [
    "Cnine.Frat.C647_ops",
    "Cnine.Frat.C647_mulInt"
   ],
   "note": "Full statement."
  },
  {
   "property": "C648",
   "status": "partial",
   "theorems": [
    "Cnine.IV1.C648_set_partial",
    "Cnine.IV1.C648_set_fails",
    "Cnine.IV1.C648_refuses"
   ],
   "note": "Holds on the host and for stride 1 on the GPU. False for strided views on the GPU: the line is commented out, nothing is copied and nothing reported (C648_set_fails)."
  },
  {
   "property": "C649",
   "status": "proved",
   "theorems": [
    "Cnine.IV1.C649_broadcast"
   ],
   "note": "Full statement."
  },
  {
   "property": "C650",
   "status": "partial",
   "theorems": [
    "Cnine.IV1.C650_block",
    "Cnine.IV1.C650_gtensor_partial",
    "Cnine.IV1.C650_gtensor_fails"
   ],
   "note": "Blocks are proved, and lists of vectors on the host. False on the GPU: the list is all zeros (C650_gtensor_fails)."
  },
  {
   "property": "C651",
   "status": "partial",
   "theorems": [
    "Cnine.VH.C651_entries",
    "Cnine.VH.C651_refuses",
    "Cnine.VH.C651_outside_fails",
    "Cnine.VH.C651_twice"
   ],
   "note": "Proved for positions inside the vector. False outside: nothing checks the positions, the access is undefined (C651_outside_fails)."
  },
  {
   "property": "C652",
   "status": "proved",
   "theorems": [
    "Cnine.VH.C652_one",
    "Cnine.VH.C652_two",
    "Cnine.VH.C652_refuses"
   ],
   "note": "Full statement."
  },
  {
   "property": "C653",
   "status": "proved",
   "theorems": [
    "Cnine.VH.C653_restored",
    "Cnine.VH.C653_lines",
    "Cnine.VH.C653_block",
    "Cnine.VH.C653_seq"
   ],
   "note": "Full statement."
  },
  {
   "property": "C654",
   "status": "proved",
   "theorems": [
    "Cnine.TM.C654_copy"
   ],
   "note": "Full statement."
  },
  {
   "property": "C655",
   "status": "partial",
   "theorems": [
    "Cnine.TM.C655_destroy",
    "Cnine.TM.C655_independent",
    "Cnine.TM.C655_move",
    "Cnine.TM.C655_shared_fails"
   ],
   "note": "Proved for trees whose nodes are all different. False when push_back was given one pointer twice: the end of the tree is undefined (C655_shared_fails)."
  },
  {
   "property": "C656",
   "status": "proved",
   "theorems": [
    "Cnine.TM.C656_branch"
   ],
   "note": "Full statement."
  },
  {
   "property": "C657",
   "status": "proved",
   "theorems": [
    "Cnine.IMap.C657_finish"
   ],
   "note": "Full statement."
  },
  {
   "property": "C658",
   "status": "partial",
   "theorems": [
    "Cnine.IMap.C658_ctor",
    "Cnine.IMap.C658_assign_partial",
    "Cnine.IMap.C658_self_fails",
    "Cnine.IMap.C658_old_fails"
   ],
   "note": "Proved for the move constructor and for the move assignment of indexed_mapB into another map. False: moved into itself a map loses everything (C658_self_fails); the move assignment of indexed_map has no return, and its body does not delete the former objects (C658_old_fails)."
  }
 ]
}