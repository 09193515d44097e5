# Axioms of the theorems in MANIFEST.json

Made by `tools/audit.py` from `#print axioms`.

## No axioms (60 theorems)

* `Cnine.C02_foreach_index_rank0_fails`
* `Cnine.C09_remove_many_unsorted_ub`
* `Cnine.GPack.C46_single_fails`
* `Cnine.BMap.C56_rebind_key_fails`
* `Cnine.BMap.C56_rebind_value_fails`
* `Cnine.IMap.C59_read_inserts`
* `Cnine.Cyc.C64_sub_fails`
* `Cnine.SGraph.C70_nedges_fails`
* `Cnine.SGraph.C71_loop_fails`
* `Cnine.MoL.C103_str_empty`
* `Cnine.MVec.C104_empty_rows`
* `Cnine.IMap.C105_foreign_key_fails`
* `Cnine.PObj.C114_fails`
* `Cnine.PT.C119_empty_fails`
* `Cnine.SGraph.C122_short_cycle_fails`
* `Cnine.LTree.C125_repeated_fails`
* `Cnine.LTree.C125_distinct`
* `Cnine.LT.C160_default_grid_fails`
* `Cnine.Space.C216_directed_fails`
* `Cnine.C258_slices2`
* `Cnine.GT.C301_scalar_fails`
* `Cnine.GT.C303_assign_fails`
* `Cnine.C358_refused`
* `Cnine.C360_six_fails`
* `Cnine.C361_refused`
* `Cnine.C362_no_axes`
* `Cnine.C367_batch_fails`
* `Cnine.C371_max_empty`
* `Cnine.C392_one_fails`
* `Cnine.C413_refused`
* `Cnine.C423_block_fails`
* `Cnine.RA.C471_times_fails`
* `Cnine.RA.C472_refuses`
* `Cnine.CA.C476_no_axes`
* `Cnine.CA.C479_move_partial`
* `Cnine.C490_refuses`
* `Cnine.C495_gpu_fails`
* `Cnine.C498_broadcast_fails`
* `Cnine.C498_accumulate_fails`
* `Cnine.CA.C509_refuses`
* `Cnine.CA.C510_fails`
* `Cnine.CA.C511_fails`
* `Cnine.GDM.C554_throws`
* `Cnine.GDM.C554_convolve_fails`
* `Cnine.TPk.C568_empty`
* `Cnine.TPk.C570_size`
* `Cnine.TPk.C571_assign_fails`
* `Cnine.TPk.C578_new_partial`
* `Cnine.CB.C586_no_axes_partial`
* `Cnine.CB.C587_assign_fails`
* `Cnine.CB.C587_move_fails`
* `Cnine.CB.C588_ofParts_fails`
* `Cnine.CB.C592_addC_entry_fails`
* `Cnine.SpTen.C607_throws`
* `Cnine.GB.C625_copy_partial`
* `Cnine.IV2.C630_add_fails`
* `Cnine.IV1.C635_reduce_fails`
* `Cnine.IPM.C638_destroy_partial`
* `Cnine.IPM.C640_move_partial`
* `Cnine.TM.C655_shared_fails`

## `propext` (338 theorems)

* `Cnine.C03_offs_refuses`
* `Cnine.C04_offs_lead_fails`
* `Cnine.C08_fuser_undefined`
* `Cnine.C09_insert_size`
* `Cnine.C12_permute_refuses`
* `Cnine.C12_transp_refuses`
* `Cnine.C12_decreasing_strides_fails`
* `Cnine.C13_row_refuses`
* `Cnine.C13_diag`
* `Cnine.C13_squeeze_refuses`
* `Cnine.C18_equality_dims`
* `Cnine.C20_visit_scalar_fails`
* `Cnine.C20_add_scalar_rank0_fails`
* `Cnine.C21_mvprod_T_tall_fails`
* `Cnine.Pool.C36_negative_index_fails`
* `Cnine.Pool.C36_negative_length_fails`
* `Cnine.HL.C37_toTensor_room_fails`
* `Cnine.HL.C38_ofLengths_throw`
* `Cnine.HL.C38_pushSet_small`
* `Cnine.HL.C38_pushSet_fails`
* `Cnine.HL.C38_total_room_fails`
* `Cnine.IntPool.C39_header_fails`
* `Cnine.IntPool.C39_ofRows_fails`
* `Cnine.AutoArray.C40_get_beyond_fails`
* `Cnine.GMap.C41_ofArrays_empty`
* `Cnine.GMap.C41_empty_bound_fails`
* `Cnine.GMap.C41_negative_fails`
* `Cnine.GMap.C42_cached`
* `Cnine.GMap.C42_stale_fails`
* `Cnine.GMap.C42_stale`
* `Cnine.GatherRows.C44_padded_fails`
* `Cnine.GatherRows.C44_range_fails`
* `Cnine.GatherRows.C44_weighted_fails`
* `Cnine.GatherRows.C44_pack_columns_fails`
* `Cnine.WMap.C45_inv_columns_fails`
* `Cnine.WMap.C45_sort_fails`
* `Cnine.WMap.C45_sort_ub_fails`
* `Cnine.WMap.C45_nOps_fails`
* `Cnine.GPack.C46_ofVec_throw`
* `Cnine.GPack.C46_pushBack_partial`
* `Cnine.GPack.C46_pushBack_fails`
* `Cnine.GPack.C46_pushBack_throw_fails`
* `Cnine.GPack.C46_pushBack_empty_fails`
* `Cnine.C50_absent_fails`
* `Cnine.C54_sequential`
* `Cnine.BSpec.C57_same_object`
* `Cnine.BSpec.C57_dead_key`
* `Cnine.PObj.C66_mul_assign_fails`
* `Cnine.C75_builders`
* `Cnine.C81_add_sum_refuses`
* `Cnine.C82_add_broadcast_fails`
* `Cnine.C85_relu_back_fails`
* `Cnine.C87_reoffs_fails`
* `Cnine.C87_reoffs_zero_fails`
* `Cnine.GMap.C88_grade_fails`
* `Cnine.C91_negative_fails`
* `Cnine.C92_eq_values_fails`
* `Cnine.C94_stale_fails`
* `Cnine.C94_cached_partial`
* `Cnine.C95_pushBack_fails`
* `Cnine.MVec.C104_wrong_length`
* `Cnine.IMap.C105_self_assign_fails`
* `Cnine.OBank.C107_default_maker`
* `Cnine.C108_oncep`
* `Cnine.PObj.C112_square_fails`
* `Cnine.PT.C118_labels`
* `Cnine.SGraph.C120_vertex_fails`
* `Cnine.LTree.C126_labels`
* `Cnine.LTree.C126_length`
* `Cnine.C130_broadcast_refuses`
* `Cnine.C130_block`
* `Cnine.C135_mprod_silent`
* `Cnine.C136_refuses`
* `Cnine.C138_transp`
* `Cnine.C138_slices`
* `Cnine.C138_block`
* `Cnine.C138_split`
* `Cnine.C138_repeat`
* `Cnine.C139_fuse_partial`
* `Cnine.C140_no_rows_fails`
* `Cnine.C141_broadcast0_fails`
* `Cnine.BG.C152_back1_partial`
* `Cnine.BG.C152_back1_fails`
* `Cnine.BG.C152_square_fails`
* `Cnine.View.C153_vec_refuses`
* `Cnine.View.C154_ragged_fails`
* `Cnine.View.C154_overrun_fails`
* `Cnine.View.C154_unit_fails`
* `Cnine.View.C156_init_axis_fails`
* `Cnine.View.C156_init_witness_fails`
* `Cnine.LT.C159_named`
* `Cnine.LT.C164_mult_transposed_fails`
* `Cnine.LT.C164_mult_empty_fails`
* `Cnine.View.C166_diag_unsorted_fails`
* `Cnine.Slices.C188_sizes_fails`
* `Cnine.Slices.C188_four_fails`
* `Cnine.Slices.C191_refuses`
* `Cnine.TProg.C192_addVar`
* `Cnine.TProg.C195_shared_fails`
* `Cnine.TFun.C200_ranks_fails`
* `Cnine.TFun.C201_kron_refuses`
* `Cnine.TFun.C203_oplus_refuses`
* `Cnine.TFun.C204_min_fails`
* `Cnine.TFun.C205_odot_fails`
* `Cnine.RConv.C209_convolve2D`
* `Cnine.RConv.C209_convolve2D_rank`
* `Cnine.RConv.C209_convolve3D`
* `Cnine.RConv.C209_convolve3D_rank`
* `Cnine.RConv.C209_sparse_convolve2D`
* `Cnine.RConv.C209_sparse_convolve3D`
* `Cnine.Space.C214_complement_fails`
* `Cnine.Space.C214_intersection_fails`
* `Cnine.Space.C214_eigenspace_fails`
* `Cnine.SliceOps.C221_overloads_fails`
* `Cnine.C235_scaled_fails`
* `Cnine.C240_irregular_fails`
* `Cnine.C241_no_rows_fails`
* `Cnine.C242_slices`
* `Cnine.C242_transp`
* `Cnine.C242_diags`
* `Cnine.C242_fuse`
* `Cnine.C242_block`
* `Cnine.C242_split`
* `Cnine.C242_repeat`
* `Cnine.C257_sizes_fails`
* `Cnine.C258_slices3`
* `Cnine.C258_slices4`
* `Cnine.C259_fuse_fails`
* `Cnine.C260_unsqueeze1_fails`
* `Cnine.C267_contract_fails`
* `Cnine.C268_expand_fails`
* `Cnine.C269_contract_fails`
* `Cnine.C270_split2_fails`
* `Cnine.C274_row_offsets_fails`
* `Cnine.C278_negative_fails`
* `Cnine.C285_matrix_sizes_fails`
* `Cnine.C286_copy_fails`
* `Cnine.C294_for_each_two_fails`
* `Cnine.C295_absent_fails`
* `Cnine.C295_absent_partial`
* `Cnine.C296_constructor_fails`
* `Cnine.Delta.C298_no_triangle_fails`
* `Cnine.GT.C301_slice_fails`
* `Cnine.GT.C302_copy_fails`
* `Cnine.GT.C305_arrays_fails`
* `Cnine.GT.C306_eq_fails`
* `Cnine.GT.C311_add_matmul_vec_fails`
* `Cnine.GT.C315_view_of_array_fails`
* `Cnine.GT.C316_str_fails`
* `Cnine.GT.C318_relu_fails`
* `Cnine.GT.C319_entries`
* `Cnine.Mem.C323_dangling_fails`
* `Cnine.Mem.C325_empty_fails`
* `Cnine.Mem.C327_order_fails`
* `Cnine.Mem.C327_restore_partial`
* `Cnine.Mem.C328_bytes_fails`
* `Cnine.Assoc.C331_share_fails`
* `Cnine.Assoc.C331_share_partial`
* `Cnine.Cached.C332_copied_fails`
* `Cnine.Pack.C335_shared_fails`
* `Cnine.C337_get`
* `Cnine.C337_set`
* `Cnine.C337_inc`
* `Cnine.C340_real_refused`
* `Cnine.C341_refused_fails`
* `Cnine.C343_refused`
* `Cnine.C344_refused`
* `Cnine.C347_single_fails`
* `Cnine.C348_single_fails`
* `Cnine.C349_refused_partial`
* `Cnine.C349_no_slices_fails`
* `Cnine.C350_lead_fails`
* `Cnine.C351_fuse23_fails`
* `Cnine.C352_matricize_fails`
* `Cnine.C352_flatten_fails`
* `Cnine.C353_set_partial`
* `Cnine.C353_ignored_fails`
* `Cnine.C353_set_fails`
* `Cnine.C354_gtensor_fails`
* `Cnine.C355_large_fails`
* `Cnine.C356_cell_partial`
* `Cnine.C356_scalar_fails`
* `Cnine.C357_refused`
* `Cnine.C359_one_partial`
* `Cnine.C359_gap_fails`
* `Cnine.C365_stack_fails`
* `Cnine.C365_empty_fails`
* `Cnine.C367_view_of_array_fails`
* `Cnine.C368_reshape_refused`
* `Cnine.C369_wrong_number`
* `Cnine.C370_zip_refused`
* `Cnine.C372_viewK_refused`
* `Cnine.C372_flattened`
* `Cnine.C372_picking_first`
* `Cnine.C375_addChunkOf_fails`
* `Cnine.C377_chunk_past_end_fails`
* `Cnine.C377_empty_fails`
* `Cnine.C377_slice_of_vector_fails`
* `Cnine.C379_combinedSize_fails`
* `Cnine.C379_transp_fails`
* `Cnine.C382_divideCols_fails`
* `Cnine.C384_first_axis_witness_fails`
* `Cnine.C384_one_entry_fails`
* `Cnine.C388_assign_self_fails`
* `Cnine.C388_assign_view_fails`
* `Cnine.C388_move_self_fails`
* `Cnine.C388_move_to_view_fails`
* `Cnine.C388_push_own_fails`
* `Cnine.C388_empty_rows_fails`
* `Cnine.C388_reshape_fails`
* `Cnine.C390_add_fails`
* `Cnine.C391_one_fails`
* `Cnine.C392_three_fails`
* `Cnine.C394_long_fails`
* `Cnine.C398_minus_fails`
* `Cnine.C401_assign_fails`
* `Cnine.C402_first_fails`
* `Cnine.C435_stale_fails`
* `Cnine.C436_self_fails`
* `Cnine.C436_view_fails`
* `Cnine.C436_moved_fails`
* `Cnine.C436_gpu_copy_fails`
* `Cnine.C436_view_leak_fails`
* `Cnine.C440_self_fails`
* `Cnine.C440_assign_fails`
* `Cnine.C440_devices_fails`
* `Cnine.C440_back_fails`
* `Cnine.C440_stale_fails`
* `Cnine.C440_moved_fails`
* `Cnine.C440_push_gpu_fails`
* `Cnine.C440_view_fails`
* `Cnine.C441_capacity_fails`
* `Cnine.C459_strides_fails`
* `Cnine.C461_refuses`
* `Cnine.C462_negative_fails`
* `Cnine.C464_same`
* `Cnine.C465_refuses`
* `Cnine.C467_refuses`
* `Cnine.RA.C469_refuses`
* `Cnine.RA.C474_refuses`
* `Cnine.RA.C475_shape_fails`
* `Cnine.CA.C477_stack_fails`
* `Cnine.CA.C477_empty_fails`
* `Cnine.CA.C478_view`
* `Cnine.CA.C478_reshape_refused`
* `Cnine.CA.C479_move_assign_fails`
* `Cnine.CA.C479_delete_fails`
* `Cnine.CA.C480_wrong_number`
* `Cnine.CA.C481_refused`
* `Cnine.CA.C482_add_self_fails`
* `Cnine.CA.C482_add_conj_fails`
* `Cnine.CA.C482_relu_back_fails`
* `Cnine.CA.C482_norm2_fails`
* `Cnine.CA.C483_refused`
* `Cnine.CA.C486_addChunkOf_fails`
* `Cnine.CA.C486_addChunkOf_past_end_fails`
* `Cnine.CA.C488_empty_fails`
* `Cnine.CA.C488_slice_past_end_fails`
* `Cnine.C493_empty`
* `Cnine.C494_empty_fails`
* `Cnine.C494_junk_fails`
* `Cnine.C495_witness_fails`
* `Cnine.C507_sum_fails`
* `Cnine.CA.C513_refuses`
* `Cnine.CA.C514_shape_fails`
* `Cnine.RAA.C515_raw_empty`
* `Cnine.RAA.C516_cell2`
* `Cnine.RAA.C520_viewOf`
* `Cnine.RAA.C522_fails`
* `Cnine.RAA.C522_asArrayshape_fails`
* `Cnine.TV.C534_refuses`
* `Cnine.GpuC.C542_expand_fails`
* `Cnine.GpuC.C543_contract_fails`
* `Cnine.GpuC.C544_otimes_fails`
* `Cnine.GDM.C547_no_axes`
* `Cnine.GDM.C551_negative_fails`
* `Cnine.C556_rows_fails`
* `Cnine.C556_sizes_fails`
* `Cnine.CAA.C558_raw_empty`
* `Cnine.CAA.C559_cell2`
* `Cnine.CAA.C565_conj_cells_fails`
* `Cnine.CAA.C565_gpu_fails`
* `Cnine.TPk.C570_dims`
* `Cnine.TPk.C570_dim`
* `Cnine.TPk.C570_beyond`
* `Cnine.TPk.C572_cat_fails`
* `Cnine.TPk.C573_none`
* `Cnine.TPk.C573_move_fails`
* `Cnine.CB.C586_ones_entry_fails`
* `Cnine.CB.C587_witness_fails`
* `Cnine.CB.C590_shape_fails`
* `Cnine.CB.C591_conjG_one_fails`
* `Cnine.CB.C591_transp_fails`
* `Cnine.CB.C592_sizes_partial`
* `Cnine.CB.C592_addC_fails`
* `Cnine.CB.C594_div_fails`
* `Cnine.CB.C595_addNorm2_fails`
* `Cnine.CB.C596_sizes_partial`
* `Cnine.CB.C596_conj_fails`
* `Cnine.CB.C597_sizes`
* `Cnine.CB.C598_of_fails`
* `Cnine.CB.C598_view_fails`
* `Cnine.Scal.C599_single_partial`
* `Cnine.Scal.C599_move_partial`
* `Cnine.Scal.C599_random_fails`
* `Cnine.Scal.C600_value`
* `Cnine.Scal.C600_set_value`
* `Cnine.Scal.C601_unchecked_fails`
* `Cnine.Scal.C603_sum_partial`
* `Cnine.Scal.C603_bundles_fails`
* `Cnine.SpTen.C606_set_partial`
* `Cnine.CBA.C610_witness_fails`
* `Cnine.CBA.C611_sizes_partial`
* `Cnine.CBA.C611_broadcast_fails`
* `Cnine.CBA.C612_witness_fails`
* `Cnine.CBA.C613_witness_fails`
* `Cnine.CBA.C614_sizes_fails`
* `Cnine.MV.C617_on_gpu`
* `Cnine.MV.C618_move_partial`
* `Cnine.MV.C618_move_fails`
* `Cnine.MV.C620_ownership_fails`
* `Cnine.Mon.C621_null`
* `Cnine.Mon.C622_copy_partial`
* `Cnine.Mon.C622_copy_unmade_fails`
* `Cnine.Mon.C622_copy_not_watched_fails`
* `Cnine.GB.C625_copy_fails`
* `Cnine.IV3.C636_rows_fails`
* `Cnine.IPM.C638_destroy_fails`
* `Cnine.IPM.C640_move_fails`
* `Cnine.PV.C642_stale`
* `Cnine.PV.C643_move`
* `Cnine.PV.C644_return_fails`
* `Cnine.VH.C651_refuses`
* `Cnine.VH.C652_one`
* `Cnine.VH.C652_refuses`
* `Cnine.VH.C653_restored`
* `Cnine.VH.C653_seq`
* `Cnine.IMap.C658_ctor`

## `Quot.sound`, `propext` (424 theorems)

* `Cnine.C01_decode_zero_dim`
* `Cnine.C05_memsize_row_major`
* `Cnine.C05_memsize_broadcast_zero`
* `Cnine.C07_contiguous_broadcast_fails`
* `Cnine.C09_remove_insert`
* `Cnine.C09_remove_many`
* `Cnine.C09_permute_inverse`
* `Cnine.C10_disjoint`
* `Cnine.C10_covers`
* `Cnine.C10_covers3_ignores_third`
* `Cnine.C10_covers3_fails`
* `Cnine.C10_contiguous_fails`
* `Cnine.C12_transp_axes_refuses`
* `Cnine.C13_slice_unchecked_fails`
* `Cnine.C13_slice_prefix`
* `Cnine.C13_rows`
* `Cnine.C13_cols`
* `Cnine.C13_row_negative_fails`
* `Cnine.C13_block_dims_partial`
* `Cnine.C13_block_dims_fails`
* `Cnine.C13_unsqueeze_zero_fails`
* `Cnine.C14_split_refuses`
* `Cnine.C15_co_scrunch_refuses`
* `Cnine.C16_assign_refuses`
* `Cnine.C16_assign_zero_strides_fails`
* `Cnine.C17_add_refuses`
* `Cnine.C17_add_zero_strides_fails`
* `Cnine.C18_equality_irregular`
* `Cnine.C18_equality_irregular_fails`
* `Cnine.C19_diff2_shape_fails`
* `Cnine.C19_sum_broadcast_fails`
* `Cnine.C20_visit_partial`
* `Cnine.C20_visit_trace_partial`
* `Cnine.C21_mvprod_refuses`
* `Cnine.C21_mvprod_T_wide_fails`
* `Cnine.Einsum.C25_gather_fails`
* `Cnine.Einsum.C29_forward_unchecked_fails`
* `Cnine.Einsum.C29_back0_long_kernel_fails`
* `Cnine.C32_malloc_throws`
* `Cnine.C32_malloc_overflow`
* `Cnine.C33_free_fails`
* `Cnine.C34_negative_aliases_fails`
* `Cnine.C35_roundup_pos`
* `Cnine.C35_roundup_zero`
* `Cnine.C35_roundup_nonpos`
* `Cnine.IntPool.C39_addVec_partial`
* `Cnine.IntPool.C39_addVec_fails`
* `Cnine.AutoArray.C40_copy_fails`
* `Cnine.GMap.C41_ofMatrix_throw`
* `Cnine.GatherRows.C44_fixedk_partial`
* `Cnine.GPack.C46_ofVec`
* `Cnine.C47_get`
* `Cnine.C47_accepts`
* `Cnine.C47_visitor`
* `Cnine.C48_eq`
* `Cnine.C48_complete`
* `Cnine.C50_stored_partial`
* `Cnine.TGroup.C53_lost_wakeup_fails`
* `Cnine.C55_race_fails`
* `Cnine.BMap.C56_guarded_partial`
* `Cnine.PBank.C57_ptr`
* `Cnine.ABank.C57_ptr_arg`
* `Cnine.PPBank.C57_ptr_pair`
* `Cnine.TBank.C57_ptr_triple`
* `Cnine.LBank.C57_ptr_list`
* `Cnine.IMap.C59_lookup`
* `Cnine.IMap.C59_distinct`
* `Cnine.MoM.C60_get`
* `Cnine.MoM.C60_forEach`
* `Cnine.MoM.C60_eq`
* `Cnine.Cyc.C64_add_neg_partial`
* `Cnine.PObj.C66_group_partial`
* `Cnine.PObj.C66_mul_assign`
* `Cnine.PT.C69_find`
* `Cnine.PT.C69_maximal`
* `Cnine.PT.C69_copy`
* `Cnine.SGraph.C70_weight`
* `Cnine.SGraph.C70_edges`
* `Cnine.SGraph.C70_neighbors`
* `Cnine.SGraph.C70_eq`
* `Cnine.SGraph.C70_query_fails`
* `Cnine.C74_batch4`
* `Cnine.C74_grid4`
* `Cnine.Js.C76_empty_fails`
* `Cnine.Js.C76_empty_vec_vec_fails`
* `Cnine.Js.C76_inner_empty_fails`
* `Cnine.Js.C76_keys`
* `Cnine.C78_set_zero_strided_fails`
* `Cnine.C78_set_zero_broadcast_fails`
* `Cnine.C83_columns_strided_fails`
* `Cnine.C84_column_inps_fails`
* `Cnine.C85_relu_strided_fails`
* `Cnine.C89_vec_partial`
* `Cnine.C89_vec_fails`
* `Cnine.C96_setAt`
* `Cnine.C97_nested_budget`
* `Cnine.C99_sequential`
* `Cnine.C99_once`
* `Cnine.BMap.C100_insert_exact`
* `Cnine.MoM.C102_hash_fails`
* `Cnine.MoM.C102_hash_same_order_partial`
* `Cnine.MoL.C103_lists`
* `Cnine.MoL.C103_str`
* `Cnine.IMap.C105_double_insert_fails`
* `Cnine.OWorld.C106_copied_observer_fails`
* `Cnine.OWorld.C106_assigned_target_fails`
* `Cnine.OBank.C107_object_bank`
* `Cnine.C108_once`
* `Cnine.PObj.C112_square_exact`
* `Cnine.PObj.C113_copy_partial`
* `Cnine.PObj.C113_self_fails`
* `Cnine.PObj.C116_inv_throws`
* `Cnine.PObj.C116_eq`
* `Cnine.PObj.C116_reorder`
* `Cnine.C117_getN_fails`
* `Cnine.PT.C118_depth_first_ix`
* `Cnine.PT.C119_str`
* `Cnine.SGraph.C120_root_fails`
* `Cnine.SGraph.C122_small`
* `Cnine.LTree.C125_contains`
* `Cnine.LTree.C125_maximal`
* `Cnine.LTree.C126_parents`
* `Cnine.IntTree.C127_copy_fails`
* `Cnine.Planted.C129_disconnected_fails`
* `Cnine.Planted.C129_loop_fails`
* `Cnine.Planted.C129_column_fails`
* `Cnine.C130_sum`
* `Cnine.C130_refuses`
* `Cnine.C131_relu_fails`
* `Cnine.C131_relu_ub_fails`
* `Cnine.C132_strided_fails`
* `Cnine.C134_refuses`
* `Cnine.C135_mprod_fails`
* `Cnine.C137_sum1_const_refused`
* `Cnine.C137_sum1_const_fails`
* `Cnine.C138_diag`
* `Cnine.C139_fuse_iff`
* `Cnine.C140_reduce0_fails`
* `Cnine.C142_addBroadcast0_fails`
* `Cnine.C144_agree_partial`
* `Cnine.C144_grid_fails`
* `Cnine.BG.C145_ofView`
* `Cnine.View.C153_identity_refuses`
* `Cnine.LT.C160_each_batch_fails`
* `Cnine.LT.C160_batch_unchecked_fails`
* `Cnine.LT.C160_cell_batched_fails`
* `Cnine.LT.C161_refuses`
* `Cnine.LT.C164_transposed_grid_fails`
* `Cnine.View.C166_diag_order_fails`
* `Cnine.C170_transpose`
* `Cnine.C171_odd_fails`
* `Cnine.C172_input_fails`
* `Cnine.C172_filter_fails`
* `Cnine.C173_transpose`
* `Cnine.RConv.C176_layout_fails`
* `Cnine.RConv.C176_overrun_fails`
* `Cnine.RConv.C177_zero_fails`
* `Cnine.RConv.C179_short_fails`
* `Cnine.RConv.C179_long_fails`
* `Cnine.RConv.C180_zero_fails`
* `Cnine.RConv.C182_full_fails`
* `Cnine.RConv.C182_channels_fails`
* `Cnine.Slices.C187_refuses`
* `Cnine.Slices.C188_last_fails`
* `Cnine.Slices.C188_gather_fails`
* `Cnine.Slices.C188_strided_fails`
* `Cnine.Slices.C188_three_fails`
* `Cnine.Slices.C189_rank_throw`
* `Cnine.TProg.C192_unwritten`
* `Cnine.TProg.C192_refuses`
* `Cnine.TFun.C198_minus_fails`
* `Cnine.TFun.C200_double_fails`
* `Cnine.TFun.C200_few_axes_partial`
* `Cnine.TFun.C200_double_partial`
* `Cnine.TFun.C205_odot_refuses`
* `Cnine.RConv.C209_two`
* `Cnine.RConv.C209_two_further`
* `Cnine.RConv.C209_three`
* `Cnine.RConv.C209_three_further`
* `Cnine.RConv.C209_back_further`
* `Cnine.RConv.C209_sparse_two`
* `Cnine.RConv.C209_sparse_two_further`
* `Cnine.RConv.C209_sparse_three`
* `Cnine.RConv.C209_sparse_three_further`
* `Cnine.RConv.C209_batches`
* `Cnine.RConv.C209_blocks`
* `Cnine.RConv.C209_batches_three`
* `Cnine.RConv.C209_sparse_batches`
* `Cnine.RConv.C209_sparse_blocks`
* `Cnine.RConv.C209_sparse_batches_three`
* `Cnine.Space.C210_refuses`
* `Cnine.EinsumFn.C231_malformed_fails`
* `Cnine.C236_sizes_fails`
* `Cnine.C237_refuses`
* `Cnine.C238_rows_fails`
* `Cnine.C238_refuses_fails`
* `Cnine.C239_refuses`
* `Cnine.C241_refuses`
* `Cnine.CT.C243_unique`
* `Cnine.CT.C251_args_partial`
* `Cnine.C253_get1`
* `Cnine.C253_set1`
* `Cnine.C253_inc1`
* `Cnine.C253_get2`
* `Cnine.C253_set2`
* `Cnine.C253_inc2`
* `Cnine.C253_get3`
* `Cnine.C253_set3`
* `Cnine.C253_inc3`
* `Cnine.C253_get4`
* `Cnine.C253_set4`
* `Cnine.C253_inc4`
* `Cnine.C257_sizes_partial`
* `Cnine.C258_split0`
* `Cnine.C258_unsqueeze`
* `Cnine.C260_unsqueeze1_partial`
* `Cnine.C262_sizes_fails`
* `Cnine.C265_mix2_fails`
* `Cnine.C270_cover`
* `Cnine.C270_split2_partial`
* `Cnine.C271_flip`
* `Cnine.C272_double_map`
* `Cnine.C273_in_row`
* `Cnine.C274_row_offsets_partial`
* `Cnine.C279_refuses`
* `Cnine.C281_block_product_fails`
* `Cnine.C282_push`
* `Cnine.C285_matrix_sizes_partial`
* `Cnine.C286_copy_partial`
* `Cnine.C296_constructor_partial`
* `Cnine.GT.C299_new`
* `Cnine.GT.C299_vector`
* `Cnine.GT.C302_copy_partial`
* `Cnine.GT.C303_assign_partial`
* `Cnine.GT.C303_assign_array_partial`
* `Cnine.GT.C306_eq_partial`
* `Cnine.GT.C308_sums`
* `Cnine.GT.C314_refused`
* `Cnine.GT.C317_zeros`
* `Cnine.GT.C319_matrices`
* `Cnine.GT.C319_add_matmul`
* `Cnine.Mem.C322_wrapped`
* `Cnine.Mem.C323_wrap_partial`
* `Cnine.Mem.C326_nested`
* `Cnine.Mem.C328_bytes_partial`
* `Cnine.Assoc.C329_values`
* `Cnine.Assoc.C330_owned`
* `Cnine.Cached.C332_cached_partial`
* `Cnine.Keys.C336_keys`
* `Cnine.C337_block`
* `Cnine.C338_get`
* `Cnine.C338_set`
* `Cnine.C338_inc`
* `Cnine.C340_real`
* `Cnine.C340_complex`
* `Cnine.C341_outside_fails`
* `Cnine.C341_never_partial`
* `Cnine.C346_refused_fails`
* `Cnine.C356_strides_fails`
* `Cnine.C357_calls`
* `Cnine.C358_as_real`
* `Cnine.C362_distinct`
* `Cnine.C370_setT_self`
* `Cnine.C371_norm2`
* `Cnine.C371_inp`
* `Cnine.C371_diff2`
* `Cnine.C371_max`
* `Cnine.C373_refused_partial`
* `Cnine.C378_combinedSize_refused`
* `Cnine.C393_symmetric`
* `Cnine.C395_fused`
* `Cnine.C397_add`
* `Cnine.C397_refused`
* `Cnine.C397_zip`
* `Cnine.C398_subtract_fails`
* `Cnine.C399_refused`
* `Cnine.C399_remove`
* `Cnine.C400_replace_fails`
* `Cnine.C401_assign_partial`
* `Cnine.C402_gradient_partial`
* `Cnine.C403_only_written`
* `Cnine.C405_large_fails`
* `Cnine.C406_short_fails`
* `Cnine.C408_last_axis_fails`
* `Cnine.C408_strides_fails`
* `Cnine.C412_tail_fails`
* `Cnine.C418_large_fails`
* `Cnine.C420_batched_fails`
* `Cnine.C420_sum_fails`
* `Cnine.C420_rows_fails`
* `Cnine.C423_tail_fails`
* `Cnine.C425_tail_fails`
* `Cnine.C427_last_axis_fails`
* `Cnine.C427_tail_fails`
* `Cnine.C430_large_fails`
* `Cnine.C434_programs`
* `Cnine.C434_throws`
* `Cnine.C434_no_leak`
* `Cnine.C435_first_partial`
* `Cnine.C454_refuses`
* `Cnine.C457_strides_fails`
* `Cnine.C458_refuses`
* `Cnine.C462_reduce_partial`
* `Cnine.C463_times_fails`
* `Cnine.C463_gaps_fails`
* `Cnine.C466_columns_fails`
* `Cnine.C468_half_fails`
* `Cnine.RA.C472_norm2`
* `Cnine.RA.C472_inp`
* `Cnine.CA.C482_norm2_partial`
* `Cnine.CA.C483_inp`
* `Cnine.CA.C483_into`
* `Cnine.C490_plus`
* `Cnine.C491_plus`
* `Cnine.C492_inner`
* `Cnine.C495_add_partial`
* `Cnine.C496_refuses`
* `Cnine.C497_sizes_fails`
* `Cnine.C498_unary_fails`
* `Cnine.C498_push_fails`
* `Cnine.C501_length`
* `Cnine.C501_accumulate`
* `Cnine.RAA.C517_getCell_fails`
* `Cnine.RAA.C519_ofFn_fails`
* `Cnine.RAA.C519_zero_fails`
* `Cnine.RAA.C519_broaden_fails`
* `Cnine.RAA.C523_longer_fails`
* `Cnine.RAA.C525_scatterAdd_fails`
* `Cnine.TV.C533_strides_fails`
* `Cnine.GDM.C549_negative`
* `Cnine.GDM.C550_select`
* `Cnine.GDM.C550_unite`
* `Cnine.GDM.C550_all`
* `Cnine.GDM.C553_access`
* `Cnine.GDM.C553_set_back`
* `Cnine.GDM.C553_max_min`
* `Cnine.GDM.C554_convolve_partial`
* `Cnine.GDM.C555_hash_partial`
* `Cnine.GDM.C555_hash_fails`
* `Cnine.C556_wide_fails`
* `Cnine.CAA.C561_copy_fails`
* `Cnine.CAA.C561_scatterAdd_fails`
* `Cnine.CAA.C561_cellwise_fails`
* `Cnine.TPk.C568_raw`
* `Cnine.TPk.C568_fill`
* `Cnine.TPk.C568_zeros`
* `Cnine.TPk.C568_pool_fails`
* `Cnine.TPk.C571_copy`
* `Cnine.TPk.C571_fillLike`
* `Cnine.TPk.C571_zerosLike`
* `Cnine.TPk.C571_assign_partial`
* `Cnine.TPk.C571_self_fails`
* `Cnine.TPk.C572_cat_partial`
* `Cnine.TPk.C574_inp`
* `Cnine.TPk.C574_diff2`
* `Cnine.TPk.C575_copies`
* `Cnine.TPk.C578_old_fails`
* `Cnine.CB.C586_raw_partial`
* `Cnine.CB.C589_get2`
* `Cnine.CB.C590_view_partial`
* `Cnine.CB.C595_inp_partial`
* `Cnine.CB.C595_addInpInto_partial`
* `Cnine.CB.C595_norm2_partial`
* `Cnine.CB.C595_diff2_partial`
* `Cnine.CB.C595_addNorm2_partial`
* `Cnine.CB.C598_view_partial`
* `Cnine.Scal.C599_to_vector_partial`
* `Cnine.Scal.C599_self_fails`
* `Cnine.Scal.C600_eq`
* `Cnine.Scal.C603_add_sum_partial`
* `Cnine.SpTen.C606_for_each_partial`
* `Cnine.SpTen.C606_is_filled_partial`
* `Cnine.SpTen.C606_get2_partial`
* `Cnine.SpTen.C606_get_partial`
* `Cnine.SpTen.C606_get_fails`
* `Cnine.CBA.C608_raw`
* `Cnine.CBA.C608_view`
* `Cnine.MV.C617_get`
* `Cnine.MV.C617_set`
* `Cnine.MV.C617_inc`
* `Cnine.MV.C617_outside`
* `Cnine.MV.C619_filled_fails`
* `Cnine.Mon.C621_made_once`
* `Cnine.GB.C623_push_partial`
* `Cnine.GB.C623_push_refused`
* `Cnine.GB.C623_push_fails`
* `Cnine.GB.C624_reset_partial`
* `Cnine.GB.C624_reset_fails`
* `Cnine.GB.C626_push_sync`
* `Cnine.GB.C627_no_leak_partial`
* `Cnine.GB.C627_no_leak_fails`
* `Cnine.GB.C628_min_size_partial`
* `Cnine.GB.C628_min_size_fails`
* `Cnine.GB.C628_min_size_shrinks_fails`
* `Cnine.IV2.C629_set_fails`
* `Cnine.IV2.C630_overflow_fails`
* `Cnine.IV2.C632_block_partial`
* `Cnine.IV1.C634_scaled_fails`
* `Cnine.IV1.C635_reduce_partial`
* `Cnine.IV3.C636_refused_fails`
* `Cnine.IPM.C637_copy_partial`
* `Cnine.IPM.C637_copy_fails`
* `Cnine.IPM.C639_move_to_device`
* `Cnine.PV.C641_copy`
* `Cnine.PV.C642_destroy`
* `Cnine.PV.C644_assign_partial`
* `Cnine.PV.C644_assign_fails`
* `Cnine.PV.C645_refused`
* `Cnine.IV1.C648_set_fails`
* `Cnine.IV1.C648_refuses`
* `Cnine.IV1.C650_block`
* `Cnine.IV1.C650_gtensor_partial`
* `Cnine.IV1.C650_gtensor_fails`
* `Cnine.VH.C651_entries`
* `Cnine.VH.C651_twice`
* `Cnine.VH.C652_two`
* `Cnine.VH.C653_lines`
* `Cnine.VH.C653_block`
* `Cnine.TM.C655_destroy`
* `Cnine.TM.C656_branch`
* `Cnine.IMap.C657_finish`
* `Cnine.IMap.C658_assign_partial`
* `Cnine.IMap.C658_self_fails`
* `Cnine.IMap.C658_old_fails`

## `Classical.choice`, `Quot.sound`, `propext` (1232 theorems)

* `Cnine.C01_decode_then_encode`
* `Cnine.C01_encode_then_decode`
* `Cnine.C02_foreach_index_partial`
* `Cnine.C03_row_major_strides`
* `Cnine.C03_base_stride`
* `Cnine.C04_offs_lead_value`
* `Cnine.C04_offs_lead_partial`
* `Cnine.C05_memsize_bound_partial`
* `Cnine.C05_memsize_bound_fails`
* `Cnine.C06_ordering`
* `Cnine.C06_descending_ordering_partial`
* `Cnine.C06_descending_ordering_fails`
* `Cnine.C06_ordering_sentinel_fails`
* `Cnine.C07_contiguous_sound_partial`
* `Cnine.C07_contiguous_complete`
* `Cnine.C08_fuser_partial`
* `Cnine.C09_insert_remove`
* `Cnine.C09_chunk_cat`
* `Cnine.C09_chunk_negative`
* `Cnine.C11_reshape`
* `Cnine.C11_reshape_back`
* `Cnine.C11_reshape_refuses`
* `Cnine.C12_permute`
* `Cnine.C12_transp`
* `Cnine.C12_transp_axes`
* `Cnine.C12_decreasing_strides_partial`
* `Cnine.C13_slice`
* `Cnine.C13_slices`
* `Cnine.C13_row`
* `Cnine.C13_col`
* `Cnine.C13_block`
* `Cnine.C13_squeeze`
* `Cnine.C13_insert_dim`
* `Cnine.C13_unsqueeze_partial`
* `Cnine.C13_cinflate`
* `Cnine.C14_split`
* `Cnine.C14_split01`
* `Cnine.C14_fuse`
* `Cnine.C14_fuse_split`
* `Cnine.C14_fuse01_partial`
* `Cnine.C14_fuse01_fails`
* `Cnine.C14_fuse_chunk`
* `Cnine.C15_scrunch`
* `Cnine.C15_co_scrunch`
* `Cnine.C16_assign_partial`
* `Cnine.C16_copy`
* `Cnine.C17_add_partial`
* `Cnine.C17_add_scaled`
* `Cnine.C18_equality_partial`
* `Cnine.C19_sum_partial`
* `Cnine.C19_norm2_partial`
* `Cnine.C19_max_partial`
* `Cnine.C19_min_partial`
* `Cnine.C19_inp`
* `Cnine.C19_diff2_partial`
* `Cnine.TFun.C19_max_function_partial`
* `Cnine.C20_add_scalar_partial`
* `Cnine.C21_mvprod`
* `Cnine.C21_mvprod_T_partial`
* `Cnine.C22_kron_bijection`
* `Cnine.C22_tprod`
* `Cnine.C22_tprod_other_ranks`
* `Cnine.Einsum.C23_split`
* `Cnine.Einsum.C23_no_arrow`
* `Cnine.Einsum.C23_ids`
* `Cnine.Einsum.C23_groups`
* `Cnine.Einsum.C23_partition`
* `Cnine.Einsum.C24_add_einsum_four_partial`
* `Cnine.Einsum.C24_add_einsum`
* `Cnine.Einsum.C24_too_many`
* `Cnine.Einsum.C24_four_transfers_fails`
* `Cnine.Einsum.C24_result_dims`
* `Cnine.Einsum.C24_result_dims_conflict`
* `Cnine.Einsum.C25_back_partial`
* `Cnine.Einsum.C25_adjoint_partial`
* `Cnine.Einsum.C25_four_transfers_fails`
* `Cnine.Einsum.C26_split`
* `Cnine.Einsum.C26_malformed`
* `Cnine.Einsum.C26_groups`
* `Cnine.Einsum.C26_ids`
* `Cnine.Einsum.C26_partition`
* `Cnine.Einsum.C27_add_einsum_four_partial`
* `Cnine.Einsum.C27_add_einsum`
* `Cnine.Einsum.C27_four_transfers_fails`
* `Cnine.Einsum.C27_gather_fails`
* `Cnine.Einsum.C27_triple_fails`
* `Cnine.Einsum.C27_too_many`
* `Cnine.Einsum.C27_result_dims`
* `Cnine.Einsum.C28_back0_partial`
* `Cnine.Einsum.C28_back1_conv_partial`
* `Cnine.Einsum.C28_back1_partial`
* `Cnine.Einsum.C28_adjoint_partial`
* `Cnine.Einsum.C28_back0_overflow_fails`
* `Cnine.Einsum.C28_back0_four_contractions_fails`
* `Cnine.Einsum.C28_back1_four_contractions_fails`
* `Cnine.Einsum.C29_back0_partial`
* `Cnine.Einsum.C29_forward_partial`
* `Cnine.Einsum.C29_forward_1d`
* `Cnine.Einsum.C29_back0_1d`
* `Cnine.Einsum.C29_back1_1d`
* `Cnine.C30_live_blocks`
* `Cnine.C30_live_distinct`
* `Cnine.C31_tiling`
* `Cnine.C31_all_free`
* `Cnine.C32_malloc_first_fit`
* `Cnine.C33_free_partial`
* `Cnine.C33_double_free`
* `Cnine.C34_zero_request`
* `Cnine.C34_very_negative_partial`
* `Cnine.Pool.C36_history`
* `Cnine.Pool.C36_history_shape`
* `Cnine.Pool.C36_append_no_room`
* `Cnine.Pool.C37_cat_holds`
* `Cnine.Pool.C37_cat`
* `Cnine.Pool.C37_toTensor`
* `Cnine.Pool.C37_toTensor_history`
* `Cnine.HL.C38_ofLengths`
* `Cnine.HL.C38_ofMap`
* `Cnine.HL.C38_history_partial`
* `Cnine.HL.C38_history_lengths_partial`
* `Cnine.HL.C38_pairs_partial`
* `Cnine.HL.C38_ofMap_pairs`
* `Cnine.AutoArray.C40_history_partial`
* `Cnine.AutoArray.C40_history_empty_partial`
* `Cnine.GMap.C41_ofMatrix`
* `Cnine.GMap.C41_ofMap`
* `Cnine.GMap.C41_ofArrays_fails`
* `Cnine.GMap.C41_nOps`
* `Cnine.GMap.C42_inv`
* `Cnine.GMap.C42_inv_inv`
* `Cnine.GMap.C42_cached_sort`
* `Cnine.GMap.C43_sort`
* `Cnine.GMap.C43_sort_edges`
* `Cnine.GatherRows.C44_gather_partial`
* `Cnine.GatherRows.C44_gather_rows_partial`
* `Cnine.GatherRows.C44_width_throw`
* `Cnine.GatherRows.C44_adjoint`
* `Cnine.GatherRows.C44_weighted`
* `Cnine.GatherRows.C44_pack_partial`
* `Cnine.WMap.C45_inv_partial`
* `Cnine.WMap.C45_inv_inv`
* `Cnine.WMap.C45_sort_partial`
* `Cnine.WMap.C45_ofArrays_fails`
* `Cnine.C47_transp`
* `Cnine.C47_dense`
* `Cnine.C49_csrmatrix`
* `Cnine.C49_ofDense`
* `Cnine.C49_roundtrip`
* `Cnine.C50_dense_partial`
* `Cnine.C51_transp`
* `Cnine.C51_dense`
* `Cnine.TGroup.C52_limit`
* `Cnine.TGroup.C52_at_most_once`
* `Cnine.TGroup.C52_done`
* `Cnine.TGroup.C52_terminates`
* `Cnine.TGroup.C53_only_lost_partial`
* `Cnine.TGroup.C53_zero_threads_fails`
* `Cnine.C54_each_once`
* `Cnine.C54_commuting`
* `Cnine.OWorld.C58_links`
* `Cnine.OWorld.C58_notified`
* `Cnine.MoM.C60_size`
* `Cnine.PrimeTable.C61_primes`
* `Cnine.Fact.C62_factorial`
* `Cnine.Fact.C62_overflow`
* `Cnine.Frat.C63_ofInt`
* `Cnine.Frat.C63_mul`
* `Cnine.Frat.C63_div`
* `Cnine.Frat.C63_ofInts`
* `Cnine.Frat.C63_eq`
* `Cnine.Cyc.C64_sub_exact`
* `Cnine.C65_det`
* `Cnine.C65_mul_alt`
* `Cnine.C65_shape`
* `Cnine.PObj.C66_laws_partial`
* `Cnine.PObj.C67_ordering_by`
* `Cnine.PObj.C67_ordering`
* `Cnine.PObj.C67_reverse`
* `Cnine.PObj.C67_sorts`
* `Cnine.C68_for_each_partial`
* `Cnine.SGraph.C70_nedges`
* `Cnine.SGraph.C71_pack`
* `Cnine.SGraph.C71_roundtrip`
* `Cnine.SGraph.C72_tree`
* `Cnine.C73_rows`
* `Cnine.C73_unique`
* `Cnine.C74_batch2`
* `Cnine.C74_batch3`
* `Cnine.C74_grid2`
* `Cnine.C74_grid3`
* `Cnine.C75_labels`
* `Cnine.C75_nbatch`
* `Cnine.C75_split_join`
* `Cnine.C75_join_split`
* `Cnine.C75_batch_lost`
* `Cnine.C75_outside`
* `Cnine.Js.C76_vec_partial`
* `Cnine.Js.C76_vec_vec_partial`
* `Cnine.Js.C76_string`
* `Cnine.Js.C76_int`
* `Cnine.C77_result`
* `Cnine.C77_mulEq_partial`
* `Cnine.C77_mulEq_fails`
* `Cnine.C78_set_zero_partial`
* `Cnine.C79_inplace_times`
* `Cnine.C80_add_prod`
* `Cnine.C81_add_sum_partial`
* `Cnine.C82_add_broadcast_actual`
* `Cnine.C82_add_broadcast_partial`
* `Cnine.C83_columns_partial`
* `Cnine.C84_column_inps_actual`
* `Cnine.C84_column_inps_partial`
* `Cnine.C85_relu_partial`
* `Cnine.Einsum.C86_gather`
* `Cnine.Einsum.C86_operator_fails`
* `Cnine.C87_reoffs_partial`
* `Cnine.C87_reoffs_row_major`
* `Cnine.GMap.C88_grade_partial`
* `Cnine.GMap.C88_grade_zero`
* `Cnine.C90_fromList_fails`
* `Cnine.C90_ofDense_partial`
* `Cnine.C93_csrmatrix_shape_fails`
* `Cnine.TGroup.C98_few_tasks`
* `Cnine.IMap.C101_copy`
* `Cnine.MVec.C104_rows`
* `Cnine.MVec.C104_sequential`
* `Cnine.Frat.C109_num_den`
* `Cnine.Frat.C110_zero_fails`
* `Cnine.Frat.C110_negative_fails`
* `Cnine.FFact.C111_ffactorial`
* `Cnine.PObj.C114_exact`
* `Cnine.PObj.C115_random`
* `Cnine.PObj.C116_is_valid`
* `Cnine.PObj.C116_inv_at`
* `Cnine.PObj.C116_transposition`
* `Cnine.C117_positions_partial`
* `Cnine.C117_pairs_partial`
* `Cnine.SGraph.C121_ofPairs`
* `Cnine.SGraph.C121_ofPairsMax`
* `Cnine.SGraph.C121_complete`
* `Cnine.SGraph.C121_star`
* `Cnine.SGraph.C121_cycle`
* `Cnine.SGraph.C123_dense`
* `Cnine.SGraph.C123_ofDense`
* `Cnine.SGraph.C124_insert`
* `Cnine.PT.C125_forest`
* `Cnine.LTree.C125_tree`
* `Cnine.IntTree.C127_roundtrip`
* `Cnine.Planted.C128_find`
* `Cnine.C130_assign`
* `Cnine.C130_set`
* `Cnine.C130_fill`
* `Cnine.C130_broadcast`
* `Cnine.C130_addConst`
* `Cnine.C130_add`
* `Cnine.C130_addScaled`
* `Cnine.C130_reluBack`
* `Cnine.C131_relu_partial`
* `Cnine.C132_tadd_partial`
* `Cnine.C132_strided_overwrites`
* `Cnine.C133_fill`
* `Cnine.C133_addConst`
* `Cnine.C133_set`
* `Cnine.C133_add`
* `Cnine.C133_addScaled`
* `Cnine.C133_addOuter`
* `Cnine.C133_refuses`
* `Cnine.C134_AA`
* `Cnine.C134_AT`
* `Cnine.C134_TA`
* `Cnine.C134_mprodTo`
* `Cnine.C135_mprod_partial`
* `Cnine.C136_sum0`
* `Cnine.C136_avg0`
* `Cnine.C136_sum1`
* `Cnine.C136_sum`
* `Cnine.C137_sum1_const_partial`
* `Cnine.C139_fuse_fails`
* `Cnine.C140_reduce0_partial`
* `Cnine.C140_one_row_doubled`
* `Cnine.C140_reduce0Into_partial`
* `Cnine.C140_reduce1Into_partial`
* `Cnine.C141_broadcast0_partial`
* `Cnine.C141_broadcast1`
* `Cnine.C142_addBroadcast0_adds`
* `Cnine.C142_addBroadcast0_partial`
* `Cnine.C143_ops`
* `Cnine.C143_mul`
* `Cnine.BG.C145_parts`
* `Cnine.BG.C145_make`
* `Cnine.BG.C145_batch`
* `Cnine.BG.C145_cell`
* `Cnine.BG.C145_cellAt`
* `Cnine.BG.C145_transp`
* `Cnine.BG.C146_visits`
* `Cnine.BG.C146_scalar`
* `Cnine.BG.C147_add_prod`
* `Cnine.BG.C147_mul`
* `Cnine.BG.C147_refuses`
* `Cnine.BG.C148_scalars_fails`
* `Cnine.BG.C149_div`
* `Cnine.BG.C149_refuses`
* `Cnine.BG.C150_mprod`
* `Cnine.BG.C150_refuses`
* `Cnine.BG.C151_back0`
* `Cnine.View.C153_zero`
* `Cnine.View.C153_ones`
* `Cnine.View.C153_sequential`
* `Cnine.View.C153_gaussian`
* `Cnine.View.C153_raw`
* `Cnine.View.C153_constant`
* `Cnine.View.C153_identity`
* `Cnine.View.C153_unit`
* `Cnine.View.C153_vec`
* `Cnine.View.C153_matrix`
* `Cnine.View.C154_ltensor_ones_fails`
* `Cnine.View.C155_stack`
* `Cnine.View.C155_stack_refuses`
* `Cnine.View.C156_refs_fails`
* `Cnine.Js.C157_roundtrip`
* `Cnine.Js.C157_plain`
* `Cnine.Js.C157_spaces`
* `Cnine.Js.C158_blank_fails`
* `Cnine.Js.C158_carriage_return_fails`
* `Cnine.Js.C158_brace_fails`
* `Cnine.Js.C158_quote_fails`
* `Cnine.Js.C158_limit_fails`
* `Cnine.Js.C158_hang_fails`
* `Cnine.LT.C159_make`
* `Cnine.LT.C160_default_batch_fails`
* `Cnine.LT.C160_no_grid_fails`
* `Cnine.LT.C161_batch`
* `Cnine.LT.C161_each_batch`
* `Cnine.LT.C161_cell`
* `Cnine.LT.C161_cell_at`
* `Cnine.LT.C161_batched_cell`
* `Cnine.LT.C161_each_cell`
* `Cnine.LT.C161_each_batch_cell`
* `Cnine.LT.C162_fused2`
* `Cnine.LT.C162_fused3`
* `Cnine.LT.C162_made`
* `Cnine.LT.C163_mult`
* `Cnine.LT.C164_empty_cells_fails`
* `Cnine.View.C165_col`
* `Cnine.View.C165_cols`
* `Cnine.View.C165_col_refuses`
* `Cnine.View.C165_unsqueeze`
* `Cnine.View.C165_diag`
* `Cnine.View.C166_fuse_fails`
* `Cnine.C167_plain`
* `Cnine.C167_channels`
* `Cnine.C168_batches_fails`
* `Cnine.C168_make1_fails`
* `Cnine.C168_make2_fails`
* `Cnine.C169_plain`
* `Cnine.C169_channels`
* `Cnine.C169_batches`
* `Cnine.C170_channels`
* `Cnine.C170_channels2`
* `Cnine.C170_batches2`
* `Cnine.C171_channels1_partial`
* `Cnine.C172_input1_partial`
* `Cnine.C172_input2_partial`
* `Cnine.C172_filter1_partial`
* `Cnine.C172_filter2_partial`
* `Cnine.C173_channels1`
* `Cnine.C173_batches1`
* `Cnine.C173_channels2`
* `Cnine.C173_batches2`
* `Cnine.C174_vector`
* `Cnine.C174_channels1`
* `Cnine.C174_matrix`
* `Cnine.C174_channels2`
* `Cnine.RConv.C175_gains`
* `Cnine.RConv.C175_convolve2D`
* `Cnine.RConv.C176_padded_partial`
* `Cnine.RConv.C177_batches_fails`
* `Cnine.RConv.C177_blocks_fails`
* `Cnine.RConv.C177_channels_partial`
* `Cnine.RConv.C178_gains`
* `Cnine.RConv.C178_convolve3D`
* `Cnine.RConv.C179_short_partial`
* `Cnine.RConv.C180_batches_fails`
* `Cnine.RConv.C180_channels_partial`
* `Cnine.RConv.C181_gains`
* `Cnine.RConv.C182_channels_partial`
* `Cnine.RConv.C183_gains`
* `Cnine.RConv.C183_channels`
* `Cnine.RConv.C183_batches`
* `Cnine.RConv.C183_blocks`
* `Cnine.RConv.C184_gains`
* `Cnine.RConv.C184_channels`
* `Cnine.RConv.C184_batches`
* `Cnine.RConv.C185_2D`
* `Cnine.RConv.C185_2D_channels`
* `Cnine.RConv.C185_2D_batches`
* `Cnine.RConv.C185_2D_blocks`
* `Cnine.RConv.C185_3D`
* `Cnine.RConv.C185_3D_channels`
* `Cnine.RConv.C185_3D_batches`
* `Cnine.RConv.C186_2D`
* `Cnine.RConv.C186_2D_channels`
* `Cnine.RConv.C186_3D`
* `Cnine.Slices.C187_pairs`
* `Cnine.Slices.C189_naive`
* `Cnine.Slices.C190_gather`
* `Cnine.Slices.C190_rows`
* `Cnine.Slices.C191_naive`
* `Cnine.TProg.C192_run`
* `Cnine.TProg.C193_adjoint`
* `Cnine.TProg.C194_involutive`
* `Cnine.TProg.C195_leak_fails`
* `Cnine.TFun.C196_plus`
* `Cnine.TFun.C196_plus_refuses`
* `Cnine.TFun.C196_minus`
* `Cnine.TFun.C196_times`
* `Cnine.TFun.C196_neg`
* `Cnine.TFun.C197_plus_partial`
* `Cnine.TFun.C197_minus_partial`
* `Cnine.TFun.C197_minus_from_partial`
* `Cnine.TFun.C197_rank0_fails`
* `Cnine.TFun.C198_minus_partial`
* `Cnine.TFun.C199_mprod`
* `Cnine.TFun.C199_mprod_refuses`
* `Cnine.TFun.C200_double_refuses_partial`
* `Cnine.TFun.C201_kron`
* `Cnine.TFun.C201_kron_all`
* `Cnine.TFun.C202_kron_fails`
* `Cnine.TFun.C202_kron_partial`
* `Cnine.TFun.C203_oplus`
* `Cnine.TFun.C204_min_partial`
* `Cnine.TFun.C205_odot_partial`
* `Cnine.TFun.C206_sum`
* `Cnine.TFun.C207_pool`
* `Cnine.TFun.C207_pool_refuses`
* `Cnine.TFun.C208_identity`
* `Cnine.TFun.C208_unit`
* `Cnine.TFun.C208_identity_times`
* `Cnine.RConv.C209_back`
* `Cnine.Space.C210_orthonormal`
* `Cnine.Space.C211_span`
* `Cnine.Space.C211_exact`
* `Cnine.Space.C212_left_partial`
* `Cnine.Space.C212_argument_fails`
* `Cnine.Space.C213_complex_fails`
* `Cnine.Space.C214_throws_fails`
* `Cnine.Space.C215_partition`
* `Cnine.Space.C215_connected`
* `Cnine.Space.C216_reach_partial`
* `Cnine.SliceOps.C217_scale2`
* `Cnine.SliceOps.C217_scale3`
* `Cnine.SliceOps.C217_lengths`
* `Cnine.SliceOps.C218_rotations`
* `Cnine.SliceOps.C218_lengths`
* `Cnine.SliceOps.C219_matrix`
* `Cnine.SliceOps.C219_three`
* `Cnine.SliceOps.C220_matrix`
* `Cnine.SliceOps.C220_three`
* `Cnine.SliceOps.C221_reflections_partial`
* `Cnine.SliceOps.C222_same_partial`
* `Cnine.SliceOps.C222_inner_fails`
* `Cnine.SliceOps.C223_inside_partial`
* `Cnine.SliceOps.C223_outside_fails`
* `Cnine.EinsumFn.C224_real`
* `Cnine.EinsumFn.C224_complex`
* `Cnine.EinsumFn.C225_complex`
* `Cnine.EinsumFn.C226_products`
* `Cnine.EinsumFn.C227_square_partial`
* `Cnine.EinsumFn.C227_product_fails`
* `Cnine.EinsumFn.C227_trace_fails`
* `Cnine.EinsumFn.C228_three_partial`
* `Cnine.EinsumFn.C228_three_fails`
* `Cnine.EinsumFn.C229_second_partial`
* `Cnine.EinsumFn.C229_second_fails`
* `Cnine.EinsumFn.C230_many_partial`
* `Cnine.EinsumFn.C230_many_fails`
* `Cnine.EinsumFn.C231_scalar_fails`
* `Cnine.EinsumFn.C232_placeholder_partial`
* `Cnine.EinsumFn.C232_placeholder_fails`
* `Cnine.EinsumFn.C233_sizes_fails`
* `Cnine.EinsumFn.C233_axes_partial`
* `Cnine.C234_fill`
* `Cnine.C234_set`
* `Cnine.C234_add`
* `Cnine.C235_scaled_partial`
* `Cnine.C236_corner_partial`
* `Cnine.C237_mprod`
* `Cnine.C238_cube_partial`
* `Cnine.C239_sum0`
* `Cnine.C239_sum1`
* `Cnine.C239_sum2`
* `Cnine.C239_sum01`
* `Cnine.C240_reduce0_partial`
* `Cnine.C240_reduce1_partial`
* `Cnine.C240_reduce2_partial`
* `Cnine.C240_reduce0Into_partial`
* `Cnine.C240_reduce1Into_partial`
* `Cnine.C240_reduce2Into_partial`
* `Cnine.C240_single_doubled_fails`
* `Cnine.C241_broadcast0_partial`
* `Cnine.C241_broadcast1_partial`
* `Cnine.C241_broadcast2_partial`
* `Cnine.C241_transposed_fails`
* `Cnine.C241_transposed2_fails`
* `Cnine.CT.C243_reads`
* `Cnine.CT.C243_refused`
* `Cnine.CT.C244_contraction`
* `Cnine.CT.C244_convolution`
* `Cnine.CT.C244_transfers`
* `Cnine.CT.C244_summations`
* `Cnine.CT.C245_operands_partial`
* `Cnine.CT.C245_operands_fails`
* `Cnine.CT.C246_value`
* `Cnine.CT.C246_done`
* `Cnine.CT.C247_root_partial`
* `Cnine.CT.C247_root_fails`
* `Cnine.CT.C247_no_root_fails`
* `Cnine.CT.C247_kept_root_fails`
* `Cnine.CT.C248_indices`
* `Cnine.CT.C248_level`
* `Cnine.CT.C249_orders`
* `Cnine.CT.C249_levels`
* `Cnine.CT.C250_same`
* `Cnine.CT.C251_args_fails`
* `Cnine.CT.C252_order`
* `Cnine.C254_add`
* `Cnine.C254_addC`
* `Cnine.C254_assign`
* `Cnine.C255_add`
* `Cnine.C256_AA`
* `Cnine.C256_AH`
* `Cnine.C256_HA`
* `Cnine.C256_NA`
* `Cnine.C256_complex`
* `Cnine.C259_fuse_partial`
* `Cnine.C261_add`
* `Cnine.C262_sizes_partial`
* `Cnine.C263_mix10`
* `Cnine.C263_mix1H`
* `Cnine.C264_mix20`
* `Cnine.C264_mix2H`
* `Cnine.C265_mix2_partial`
* `Cnine.C266_mix1`
* `Cnine.C266_mix3`
* `Cnine.C267_contract_partial`
* `Cnine.C268_expand_partial`
* `Cnine.C269_contract_partial`
* `Cnine.C275_constructor`
* `Cnine.C275_sizes`
* `Cnine.C276_block`
* `Cnine.C277_apply`
* `Cnine.C278_refuses_partial`
* `Cnine.C279_apply_transp`
* `Cnine.C280_mul_tensor`
* `Cnine.C281_block_product_partial`
* `Cnine.C283_inverse`
* `Cnine.C284_matrix`
* `Cnine.C287_aggregate`
* `Cnine.C288_aggregate_inverse`
* `Cnine.C289_aggregate_axes_fails`
* `Cnine.C289_aggregate_three_partial`
* `Cnine.C289_aggregate_four_partial`
* `Cnine.C290_refuses_fails`
* `Cnine.C290_refuses_partial`
* `Cnine.C291_block`
* `Cnine.C292_tiles`
* `Cnine.C293_for_each`
* `Cnine.Delta.C297_squared`
* `Cnine.Delta.C298_no_triangle_all_fails`
* `Cnine.GT.C299_get`
* `Cnine.GT.C299_set`
* `Cnine.GT.C299_inc`
* `Cnine.GT.C300_new`
* `Cnine.GT.C300_get`
* `Cnine.GT.C300_set`
* `Cnine.GT.C302_convert_partial`
* `Cnine.GT.C304_map`
* `Cnine.GT.C304_zip`
* `Cnine.GT.C307_update`
* `Cnine.GT.C307_scale`
* `Cnine.GT.C307_add_odot`
* `Cnine.GT.C309_mul`
* `Cnine.GT.C309_mul_vec`
* `Cnine.GT.C309_mul_TA`
* `Cnine.GT.C310_add_matmul`
* `Cnine.GT.C312_AH`
* `Cnine.GT.C312_HA`
* `Cnine.GT.C313_slice`
* `Cnine.GT.C313_slice_array`
* `Cnine.GT.C313_set_slice`
* `Cnine.GT.C314_reshape`
* `Cnine.GT.C314_flat`
* `Cnine.GT.C316_str_partial`
* `Cnine.GT.C317_sequential`
* `Cnine.GT.C317_identity`
* `Cnine.Mem.C320_refines`
* `Cnine.Mem.C321_live`
* `Cnine.Mem.C321_no_leak`
* `Cnine.Mem.C324_shared`
* `Cnine.Mem.C325_cells_partial`
* `Cnine.Cached.C333_again`
* `Cnine.Pack.C334_byValue`
* `Cnine.Pack.C335_shared_partial`
* `Cnine.C337_slice`
* `Cnine.C337_slice_entries`
* `Cnine.C337_slice2`
* `Cnine.C337_slice2_entries`
* `Cnine.C338_slice_entries`
* `Cnine.C339_slice5_partial`
* `Cnine.C339_slice5_fails`
* `Cnine.C342_fuse_partial`
* `Cnine.C342_cfuse_partial`
* `Cnine.C342_unlinked_fails`
* `Cnine.C343_split`
* `Cnine.C343_inverse`
* `Cnine.C344_add`
* `Cnine.C345_gtensor`
* `Cnine.C345_cgtensor`
* `Cnine.C346_empty_partial`
* `Cnine.C347_reduce_partial`
* `Cnine.C347_loose_partial`
* `Cnine.C347_strides_fails`
* `Cnine.C348_into_partial`
* `Cnine.C348_loose_partial`
* `Cnine.C349_broadcast_partial`
* `Cnine.C349_strides_fails`
* `Cnine.C350_slice_partial`
* `Cnine.C350_slice_fails`
* `Cnine.C350_cslice_partial`
* `Cnine.C350_cslice_fails`
* `Cnine.C350_lead_partial`
* `Cnine.C351_fuse_partial`
* `Cnine.C352_matricize_partial`
* `Cnine.C352_flatten_partial`
* `Cnine.C352_leading_partial`
* `Cnine.C354_gtensor_partial`
* `Cnine.C355_cell_partial`
* `Cnine.C357_blocks`
* `Cnine.C359_fuse0X_partial`
* `Cnine.C361_scalar`
* `Cnine.C361_zero`
* `Cnine.C362_raw`
* `Cnine.C362_reserved`
* `Cnine.C362_array`
* `Cnine.C363_filled`
* `Cnine.C363_zero`
* `Cnine.C363_ones`
* `Cnine.C363_sequential`
* `Cnine.C363_ofPtr`
* `Cnine.C363_mapped`
* `Cnine.C363_ofFn`
* `Cnine.C364_identity`
* `Cnine.C364_not_square`
* `Cnine.C365_what_it_does_partial`
* `Cnine.C366_copy`
* `Cnine.C366_views`
* `Cnine.C368_reshape`
* `Cnine.C369_get`
* `Cnine.C369_set`
* `Cnine.C369_inc`
* `Cnine.C369_scalar`
* `Cnine.C370_setZero`
* `Cnine.C370_mapSelf`
* `Cnine.C370_times`
* `Cnine.C370_div`
* `Cnine.C370_setT`
* `Cnine.C370_zip`
* `Cnine.C370_add`
* `Cnine.C370_addScaled`
* `Cnine.C370_addDivide`
* `Cnine.C370_subtract`
* `Cnine.C370_addReLU`
* `Cnine.C370_addPlus`
* `Cnine.C370_addMinus`
* `Cnine.C370_addReLUback`
* `Cnine.C370_addSum`
* `Cnine.C370_plus`
* `Cnine.C372_viewK`
* `Cnine.C372_viewx`
* `Cnine.C372_block2`
* `Cnine.C372_block3`
* `Cnine.C372_picking`
* `Cnine.C373_window2_fails`
* `Cnine.C373_window3_fails`
* `Cnine.C374_toChunk`
* `Cnine.C374_refused`
* `Cnine.C374_chunk`
* `Cnine.C375_addChunkOf_partial`
* `Cnine.C376_addToSlice`
* `Cnine.C376_addToSlices`
* `Cnine.C376_addSliceOf`
* `Cnine.C376_slice`
* `Cnine.C376_viewOfSlice0`
* `Cnine.C378_combinedSize`
* `Cnine.C378_transp`
* `Cnine.C378_addTransp`
* `Cnine.C380_AA`
* `Cnine.C380_AT`
* `Cnine.C380_TA`
* `Cnine.C380_mulVec`
* `Cnine.C380_tensorProduct`
* `Cnine.C381_addColNorms`
* `Cnine.C381_addDivideCols`
* `Cnine.C381_addColNormsBack`
* `Cnine.C381_addDivideColsBack1`
* `Cnine.C382_divideCols_partial`
* `Cnine.C382_normalizeCols_partial`
* `Cnine.C382_normalizeCols_fails`
* `Cnine.C383_reduceDestr`
* `Cnine.C384_first_axis_fails`
* `Cnine.C385_sound`
* `Cnine.C385_no_leak`
* `Cnine.C385_destroy`
* `Cnine.C386_values`
* `Cnine.C386_refused`
* `Cnine.C386_slice`
* `Cnine.C387_grow`
* `Cnine.C387_grow_from_empty`
* `Cnine.C389_broadcast_copy`
* `Cnine.C390_broadcast_add_partial`
* `Cnine.C391_reduce_partial`
* `Cnine.C392_reduce_two_partial`
* `Cnine.C393_range`
* `Cnine.C393_injective`
* `Cnine.C393_surjective`
* `Cnine.C394_short_partial`
* `Cnine.C396_copy`
* `Cnine.C397_plus`
* `Cnine.C398_zero_partial`
* `Cnine.C399_insert`
* `Cnine.C403_no_races`
* `Cnine.C403_races`
* `Cnine.C404_copy`
* `Cnine.C404_add`
* `Cnine.C404_add_scaled`
* `Cnine.C404_increment`
* `Cnine.C406_vector_partial`
* `Cnine.C406_multiple_partial`
* `Cnine.C407_copy`
* `Cnine.C407_add`
* `Cnine.C407_add_scaled`
* `Cnine.C409_batches`
* `Cnine.C410_reduce`
* `Cnine.C411_one_fails`
* `Cnine.C412_reduce_partial`
* `Cnine.C413_sum`
* `Cnine.C413_sum_scaled`
* `Cnine.C414_sum`
* `Cnine.C415_rows`
* `Cnine.C416_slices`
* `Cnine.C417_rows`
* `Cnine.C417_slices`
* `Cnine.C419_relu_partial`
* `Cnine.C419_back_partial`
* `Cnine.C419_add_fails`
* `Cnine.C420_slices_fails`
* `Cnine.C421_twice_fails`
* `Cnine.C422_assign`
* `Cnine.C422_add`
* `Cnine.C422_inc`
* `Cnine.C424_assign`
* `Cnine.C424_add`
* `Cnine.C424_inc`
* `Cnine.C426_assign`
* `Cnine.C426_add`
* `Cnine.C426_inc`
* `Cnine.C428_four`
* `Cnine.C428_five`
* `Cnine.C429_four`
* `Cnine.C429_five`
* `Cnine.C429_six`
* `Cnine.C430_overrun_fails`
* `Cnine.C431_five`
* `Cnine.C431_six`
* `Cnine.C432_channels_fails`
* `Cnine.C433_padded_fails`
* `Cnine.C437_equal`
* `Cnine.C438_visits`
* `Cnine.C439_programs`
* `Cnine.C439_throws`
* `Cnine.C439_no_leak`
* `Cnine.C441_equal_partial`
* `Cnine.C442_00`
* `Cnine.C442_10`
* `Cnine.C442_20`
* `Cnine.C442_01`
* `Cnine.C442_11`
* `Cnine.C442_21`
* `Cnine.C442_12`
* `Cnine.C442_22`
* `Cnine.C443_31_partial`
* `Cnine.C443_31_fails`
* `Cnine.C444_large_partial`
* `Cnine.C444_column_partial`
* `Cnine.C444_fails`
* `Cnine.C445_02_partial`
* `Cnine.C445_02_fails`
* `Cnine.C446_large_partial`
* `Cnine.C446_fourfold`
* `Cnine.C446_fails`
* `Cnine.Dev.C447_ctor`
* `Cnine.Dev.C447_copy`
* `Cnine.Dev.C447_move`
* `Cnine.Dev.C447_filled`
* `Cnine.Dev.C448_home`
* `Cnine.Dev.C448_gpu`
* `Cnine.Dev.C448_copy`
* `Cnine.Dev.C448_small`
* `Cnine.Dev.C449_never_fails`
* `Cnine.Dev.C449_upload_partial`
* `Cnine.Dev.C449_complex_fails`
* `Cnine.Dev.C450_move_partial`
* `Cnine.Dev.C450_strides_fails`
* `Cnine.Dev.C450_transposed_fails`
* `Cnine.Dev.C451_flat`
* `Cnine.Dev.C452_gpu_partial`
* `Cnine.Dev.C452_four_fails`
* `Cnine.Dev.C453_gaps_fails`
* `Cnine.C454_AA`
* `Cnine.C454_AT`
* `Cnine.C454_TA`
* `Cnine.C454_same`
* `Cnine.C454_mprod`
* `Cnine.C455_empty_fails`
* `Cnine.C456_batched`
* `Cnine.C458_AA`
* `Cnine.C458_AH`
* `Cnine.C458_HA`
* `Cnine.C460_mix10`
* `Cnine.C461_scaled`
* `Cnine.C461_vector`
* `Cnine.C461_matrix`
* `Cnine.C461_three`
* `Cnine.C463_twice_fails`
* `Cnine.C464_zero`
* `Cnine.C465_add`
* `Cnine.C467_broadcast`
* `Cnine.RA.C469_scaled`
* `Cnine.RA.C469_add`
* `Cnine.RA.C469_subtract`
* `Cnine.RA.C469_sum`
* `Cnine.RA.C469_two`
* `Cnine.RA.C470_own_fails`
* `Cnine.RA.C471_twice_fails`
* `Cnine.RA.C473_AA_same`
* `Cnine.RA.C473_AT_same`
* `Cnine.RA.C473_TA_same`
* `Cnine.RA.C473_products`
* `Cnine.RA.C474_addTransp`
* `Cnine.RA.C475_square_partial`
* `Cnine.CA.C476_raw`
* `Cnine.CA.C476_filled`
* `Cnine.CA.C476_ones`
* `Cnine.CA.C476_zero`
* `Cnine.CA.C476_sequential`
* `Cnine.CA.C476_mapped`
* `Cnine.CA.C477_matrix_partial`
* `Cnine.CA.C478_reshape`
* `Cnine.CA.C480_get`
* `Cnine.CA.C480_set`
* `Cnine.CA.C480_inc`
* `Cnine.CA.C480_elements`
* `Cnine.CA.C481_setZero`
* `Cnine.CA.C481_add`
* `Cnine.CA.C481_addScaled`
* `Cnine.CA.C481_addDivide`
* `Cnine.CA.C481_addConj`
* `Cnine.CA.C481_subtract`
* `Cnine.CA.C481_addPlus`
* `Cnine.CA.C481_addMinus`
* `Cnine.CA.C481_times`
* `Cnine.CA.C481_addC`
* `Cnine.CA.C481_addReLU`
* `Cnine.CA.C481_addReLUback`
* `Cnine.CA.C482_add_conj_partial`
* `Cnine.CA.C484_copy`
* `Cnine.CA.C484_set`
* `Cnine.CA.C484_assign_view`
* `Cnine.CA.C484_plus`
* `Cnine.CA.C484_addSum`
* `Cnine.CA.C484_conj`
* `Cnine.CA.C484_ofFn`
* `Cnine.CA.C485_toChunk`
* `Cnine.CA.C485_chunk`
* `Cnine.CA.C485_addToSlice`
* `Cnine.CA.C485_addToSlices`
* `Cnine.CA.C485_addSliceOf`
* `Cnine.CA.C485_slice`
* `Cnine.CA.C486_addChunkOf_partial`
* `Cnine.CA.C487_transp`
* `Cnine.CA.C487_herm`
* `Cnine.CA.C487_addTransp`
* `Cnine.CA.C487_addHerm`
* `Cnine.CA.C489_AA`
* `Cnine.CA.C489_AT`
* `Cnine.CA.C489_TA`
* `Cnine.C490_cellwise`
* `Cnine.C490_outer`
* `Cnine.C491_cellwise`
* `Cnine.C491_left`
* `Cnine.C491_right`
* `Cnine.C491_outer`
* `Cnine.C491_broadcast`
* `Cnine.C492_mprod`
* `Cnine.C493_mvprod`
* `Cnine.C494_vmprod_partial`
* `Cnine.C495_inner_fails`
* `Cnine.C496_convolve`
* `Cnine.C496_bi`
* `Cnine.C497_convolve1_partial`
* `Cnine.C498_other_partial`
* `Cnine.C499_cellwise`
* `Cnine.C499_outer`
* `Cnine.C500_mvprod`
* `Cnine.C500_vmprod`
* `Cnine.C500_convolve`
* `Cnine.C501_table`
* `Cnine.C502_imag_fails`
* `Cnine.C502_real_partial`
* `Cnine.C502_race_fails`
* `Cnine.C503_mvprod_fails`
* `Cnine.C503_vmprod_fails`
* `Cnine.C503_convolve_fails`
* `Cnine.C503_grid_fails`
* `Cnine.CA.C504_addColNorms`
* `Cnine.CA.C504_addDivideCols`
* `Cnine.CA.C504_addColNormsBack`
* `Cnine.CA.C504_addDivideColsBack0`
* `Cnine.CA.C504_addDivideColsBack1`
* `Cnine.CA.C505_divideCols`
* `Cnine.CA.C505_unit`
* `Cnine.C506_each`
* `Cnine.C506_dominant`
* `Cnine.C507_twice_fails`
* `Cnine.C507_first_partial`
* `Cnine.CA.C508_normalizeCols_partial`
* `Cnine.CA.C508_normalizeCols_fails`
* `Cnine.CA.C509_add`
* `Cnine.CA.C509_addScaled`
* `Cnine.CA.C509_addConj`
* `Cnine.CA.C509_subtract`
* `Cnine.CA.C509_addC`
* `Cnine.CA.C509_addSum`
* `Cnine.CA.C509_addPair`
* `Cnine.CA.C509_conj`
* `Cnine.CA.C510_partial`
* `Cnine.CA.C511_partial`
* `Cnine.CA.C512_AA`
* `Cnine.CA.C512_AT`
* `Cnine.CA.C512_TA`
* `Cnine.CA.C513_addTransp`
* `Cnine.CA.C513_addHerm`
* `Cnine.CA.C514_square_partial`
* `Cnine.RAA.C515_raw`
* `Cnine.RAA.C515_zeros`
* `Cnine.RAA.C515_filled`
* `Cnine.RAA.C515_sequential`
* `Cnine.RAA.C515_repeated`
* `Cnine.RAA.C516_cell`
* `Cnine.RAA.C516_apart`
* `Cnine.RAA.C516_copyCellInto`
* `Cnine.RAA.C516_addCellInto`
* `Cnine.RAA.C516_setCell`
* `Cnine.RAA.C516_addToCell`
* `Cnine.RAA.C517_getCell_large_fails`
* `Cnine.RAA.C517_getCell_partial`
* `Cnine.RAA.C518_single_fails`
* `Cnine.RAA.C518_single_large_fails`
* `Cnine.RAA.C518_addBroadcast_fails`
* `Cnine.RAA.C520_copy`
* `Cnine.RAA.C521_broadcastCopy`
* `Cnine.RAA.C521_broadcastUpd`
* `Cnine.RAA.C521_plus`
* `Cnine.RAA.C521_plusOne`
* `Cnine.RAA.C523_changeArrayshape_partial`
* `Cnine.RAA.C523_shorter_fails`
* `Cnine.RAA.C524_scatterTimes`
* `Cnine.RAA.C525_scatterDiv_fails`
* `Cnine.RAA.C526_AA`
* `Cnine.RAA.C526_AT`
* `Cnine.RAA.C526_combinedSize`
* `Cnine.RAA.C526_broadcastAA`
* `Cnine.RAA.C526_broadcastAT`
* `Cnine.RAA.C527_first_fails`
* `Cnine.RAA.C528_gBroadcastCopy`
* `Cnine.RAA.C529_broadcastCopy`
* `Cnine.RAA.C529_broadcastAdd`
* `Cnine.RAA.C529_zero_fails`
* `Cnine.RAA.C530_addReduce`
* `Cnine.TV.C531_hash`
* `Cnine.TV.C531_equal`
* `Cnine.TV.C532_last`
* `Cnine.TV.C533_equal_partial`
* `Cnine.TV.C534_views`
* `Cnine.TV.C535_views`
* `Cnine.TV.C536_flat`
* `Cnine.TV.C537_unitary`
* `Cnine.TV.C537_refuses`
* `Cnine.TV.C538_error`
* `Cnine.TV.C539_normalize`
* `Cnine.TV.C540_max_abs`
* `Cnine.TV.C541_complex_fails`
* `Cnine.GpuC.C542_expand_partial`
* `Cnine.GpuC.C542_devices_fails`
* `Cnine.GpuC.C543_contract_partial`
* `Cnine.GpuC.C543_devices_fails`
* `Cnine.GpuC.C544_otimes_partial`
* `Cnine.GpuC.C545_accumulate_partial`
* `Cnine.GpuC.C545_accumulate_fails`
* `Cnine.GpuC.C546_relu_partial`
* `Cnine.GpuC.C546_relu_back_partial`
* `Cnine.GpuC.C546_relu_fails`
* `Cnine.GpuC.C546_relu_back_fails`
* `Cnine.GpuC.C546_relu_cpu`
* `Cnine.GpuC.C546_relu_back_cpu`
* `Cnine.GDM.C547_mprod`
* `Cnine.GDM.C548_mvprod`
* `Cnine.GDM.C549_combined`
* `Cnine.GDM.C549_split`
* `Cnine.GDM.C551_dims`
* `Cnine.GDM.C551_index`
* `Cnine.GDM.C552_lex`
* `Cnine.GDM.C552_order`
* `Cnine.GDM.C553_insert`
* `Cnine.C556_apply_partial`
* `Cnine.C556_blocks_fails`
* `Cnine.C557_transp_partial`
* `Cnine.C557_transp_fails`
* `Cnine.CAA.C558_raw`
* `Cnine.CAA.C558_zeros`
* `Cnine.CAA.C558_filled`
* `Cnine.CAA.C558_sequential`
* `Cnine.CAA.C558_repeated`
* `Cnine.CAA.C559_setCell`
* `Cnine.CAA.C559_addToCell`
* `Cnine.CAA.C559_copyCellInto`
* `Cnine.CAA.C559_addCellInto`
* `Cnine.CAA.C559_cell`
* `Cnine.CAA.C559_apart`
* `Cnine.CAA.C560_copy`
* `Cnine.CAA.C560_broadcastCopy`
* `Cnine.CAA.C560_broadcastUpd`
* `Cnine.CAA.C560_plus`
* `Cnine.CAA.C560_plusOne`
* `Cnine.CAA.C561_single_fails`
* `Cnine.CAA.C561_addBroadcast_fails`
* `Cnine.CAA.C562_broadcastCopy`
* `Cnine.CAA.C562_broadcastAdd`
* `Cnine.CAA.C562_addReduce`
* `Cnine.CAA.C562_zero_fails`
* `Cnine.CAA.C563_scatterTimes`
* `Cnine.CAA.C564_scatterDiv_fails`
* `Cnine.CAA.C565_conj_fails`
* `Cnine.CAA.C565_conj_partial`
* `Cnine.CAA.C566_AA`
* `Cnine.CAA.C566_AT`
* `Cnine.CAA.C567_AA`
* `Cnine.CAA.C567_AT`
* `Cnine.TPk.C568_pool_partial`
* `Cnine.TPk.C569_push`
* `Cnine.TPk.C569_zero`
* `Cnine.TPk.C569_raw`
* `Cnine.TPk.C570_tensor`
* `Cnine.TPk.C570_view1`
* `Cnine.TPk.C570_view2`
* `Cnine.TPk.C570_view3`
* `Cnine.TPk.C573_ofTensor`
* `Cnine.TPk.C573_view_partial`
* `Cnine.TPk.C574_add`
* `Cnine.TPk.C574_addC`
* `Cnine.TPk.C574_subpack`
* `Cnine.TPk.C575_equal_partial`
* `Cnine.TPk.C575_equal_fails`
* `Cnine.TPk.C576_own_partial`
* `Cnine.TPk.C576_own_fails`
* `Cnine.TPk.C577_reserve_partial`
* `Cnine.TPk.C577_reserve_fails`
* `Cnine.TPk.C577_reserveZero`
* `Cnine.Interp.C579_bilinear_partial`
* `Cnine.Interp.C579_bilinear_fails`
* `Cnine.Interp.C580_bilinear_domain`
* `Cnine.Interp.C581_trilinear_partial`
* `Cnine.Interp.C581_trilinear_fails`
* `Cnine.Interp.C582_trilinear_domain`
* `Cnine.Interp.C583_transpose_partial`
* `Cnine.Interp.C583_transpose_fails`
* `Cnine.Interp.C584_spherical`
* `Cnine.Interp.C585_directions_partial`
* `Cnine.Interp.C585_directions_fails`
* `Cnine.CB.C586_filled_partial`
* `Cnine.CB.C586_zero_partial`
* `Cnine.CB.C586_sequential_partial`
* `Cnine.CB.C586_identity_partial`
* `Cnine.CB.C586_identity_throws_partial`
* `Cnine.CB.C586_ones_fails`
* `Cnine.CB.C587_copy_partial`
* `Cnine.CB.C587_assign_partial`
* `Cnine.CB.C588_ofParts_partial`
* `Cnine.CB.C588_real_partial`
* `Cnine.CB.C588_imag_partial`
* `Cnine.CB.C589_get`
* `Cnine.CB.C589_set`
* `Cnine.CB.C589_inc`
* `Cnine.CB.C589_set2`
* `Cnine.CB.C589_inc2`
* `Cnine.CB.C590_shape_partial`
* `Cnine.CB.C590_fuse_partial`
* `Cnine.CB.C590_pick_first_partial`
* `Cnine.CB.C590_pick_last_partial`
* `Cnine.CB.C590_pick_middle_partial`
* `Cnine.CB.C591_conj_partial`
* `Cnine.CB.C591_conjG_fails`
* `Cnine.CB.C592_add_partial`
* `Cnine.CB.C592_subtract_partial`
* `Cnine.CB.C592_addScaled_partial`
* `Cnine.CB.C592_set_partial`
* `Cnine.CB.C592_setZero_partial`
* `Cnine.CB.C592_plus_partial`
* `Cnine.CB.C592_minus_partial`
* `Cnine.CB.C593_addConj`
* `Cnine.CB.C593_addConjS`
* `Cnine.CB.C593_addConjC`
* `Cnine.CB.C594_div_partial`
* `Cnine.CB.C596_mprod_partial`
* `Cnine.CB.C597_relu`
* `Cnine.CB.C598_of_partial`
* `Cnine.CB.C598_torch_partial`
* `Cnine.Scal.C599_filled_partial`
* `Cnine.Scal.C599_map_partial`
* `Cnine.Scal.C599_copy_partial`
* `Cnine.Scal.C599_assign_partial`
* `Cnine.Scal.C599_vector_partial`
* `Cnine.Scal.C599_round_trip_partial`
* `Cnine.Scal.C599_random_partial`
* `Cnine.Scal.C600_zero`
* `Cnine.Scal.C601_add_partial`
* `Cnine.Scal.C601_add_multiple_partial`
* `Cnine.Scal.C601_subtract_partial`
* `Cnine.Scal.C601_norm2_partial`
* `Cnine.Scal.C601_minus_partial`
* `Cnine.Scal.C601_prod_partial`
* `Cnine.Scal.C601_div_partial`
* `Cnine.Scal.C601_abs_partial`
* `Cnine.Scal.C601_pow_partial`
* `Cnine.Scal.C601_exp_partial`
* `Cnine.Scal.C602_real`
* `Cnine.Scal.C602_imag`
* `Cnine.Scal.C602_conj`
* `Cnine.Scal.C602_set_real`
* `Cnine.Scal.C602_set_imag`
* `Cnine.Scal.C602_add_conj`
* `Cnine.Scal.C602_add_real_to`
* `Cnine.Scal.C602_add_imag_to`
* `Cnine.Scal.C602_add_to_real`
* `Cnine.Scal.C602_add_to_imag`
* `Cnine.Scal.C602_prod`
* `Cnine.Scal.C602_prodc`
* `Cnine.Scal.C602_prodcc`
* `Cnine.Scal.C602_prod_real`
* `Cnine.Scal.C602_norm2`
* `Cnine.Scal.C604_norm2`
* `Cnine.Scal.C604_div0`
* `Cnine.Scal.C604_div1`
* `Cnine.Scal.C604_div1_throws`
* `Cnine.Scal.C604_abs`
* `Cnine.Scal.C604_relu`
* `Cnine.Scal.C604_sigmoid`
* `Cnine.Scal.C604_sigmoid_forward`
* `Cnine.Scal.C604_pow`
* `Cnine.Scal.C605_relu_partial`
* `Cnine.Scal.C605_norm2_partial`
* `Cnine.Scal.C605_norm2_fails`
* `Cnine.Scal.C605_abs_fails`
* `Cnine.SpTen.C606_nfilled_partial`
* `Cnine.SpTen.C607_mask`
* `Cnine.CBA.C608_filled`
* `Cnine.CBA.C608_sequential`
* `Cnine.CBA.C608_ofTensor`
* `Cnine.CBA.C608_copy`
* `Cnine.CBA.C608_shape`
* `Cnine.CBA.C608_get`
* `Cnine.CBA.C608_set`
* `Cnine.CBA.C609_cell`
* `Cnine.CBA.C609_apart`
* `Cnine.CBA.C609_cell2`
* `Cnine.CBA.C609_copyCell`
* `Cnine.CBA.C609_getCell`
* `Cnine.CBA.C609_addCell`
* `Cnine.CBA.C609_setCell`
* `Cnine.CBA.C609_addToCell`
* `Cnine.CBA.C610_cell_partial`
* `Cnine.CBA.C610_copyCell_partial`
* `Cnine.CBA.C610_addCell_partial`
* `Cnine.CBA.C610_setCell_partial`
* `Cnine.CBA.C610_addToCell_partial`
* `Cnine.CBA.C610_cell_fails`
* `Cnine.CBA.C611_broadcast_partial`
* `Cnine.CBA.C612_plus_partial`
* `Cnine.CBA.C612_one_fails`
* `Cnine.CBA.C613_broadcast_partial`
* `Cnine.CBA.C613_sizes_partial`
* `Cnine.CBA.C613_empty_fails`
* `Cnine.CBA.C614_reduce_partial`
* `Cnine.CBA.C614_empty_fails`
* `Cnine.MV.C615_copy`
* `Cnine.MV.C615_transport`
* `Cnine.MV.C616_move_to_device`
* `Cnine.MV.C619_filled_partial`
* `Cnine.MV.C620_ownership_partial`
* `Cnine.IV2.C629_set_partial`
* `Cnine.IV2.C629_mixed_fails`
* `Cnine.IV2.C630_add_partial`
* `Cnine.IV2.C630_scaled`
* `Cnine.IV2.C631_matmul_partial`
* `Cnine.IV2.C631_matmul_fails`
* `Cnine.IV2.C632_block_fails`
* `Cnine.IV1.C633_add_partial`
* `Cnine.IV1.C633_add_fails`
* `Cnine.IV1.C634_scaled_partial`
* `Cnine.IV3.C636_matmul_partial`
* `Cnine.PV.C645_remove`
* `Cnine.Frat.C646_double`
* `Cnine.Frat.C646_log`
* `Cnine.Frat.C646_quotient`
* `Cnine.Frat.C647_ops`
* `Cnine.Frat.C647_mulInt`
* `Cnine.IV1.C648_set_partial`
* `Cnine.IV1.C649_broadcast`
* `Cnine.VH.C651_outside_fails`
* `Cnine.TM.C654_copy`
* `Cnine.TM.C655_independent`
* `Cnine.TM.C655_move`
