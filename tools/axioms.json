{
"Gov1.C01_bits_left": [
"P",
"Q"
],
"Gov1.C01_fixed_width_roundtrip": [
"P",
"C",
"Q"
],
"Gov1.C01_fixed_width_total": [
"P",
"Q"
],
"Gov1.C02_su_range": [
"P",
"C",
"Q"
],
"Gov1.C02_su_roundtrip": [
"P",
"C",
"Q"
],
"Gov1.C03_ns_negative_hangs": [
"P",
"Q"
],
"Gov1.C03_ns_range": [
"P",
"C",
"Q"
],
"Gov1.C03_ns_roundtrip": [
"P",
"C",
"Q"
],
"Gov1.C04_leb128_bounds": [
"P",
"C",
"Q"
],
"Gov1.C04_leb128_roundtrip": [
"P",
"C",
"Q"
],
"Gov1.C05_le_roundtrip": [
"P",
"C",
"Q"
],
"Gov1.C06_uvlc_roundtrip": [
"P",
"C",
"Q"
],
"Gov1.C06_uvlc_saturates": [
"P",
"Q"
],
"Gov1.C06_uvlc_terminates": [
"P",
"Q"
],
"Gov1.C07_colorConfig_streaming": [
"P",
"C",
"Q"
],
"Gov1.C07_descriptors_streaming": [
"P",
"C",
"Q"
],
"Gov1.C07_header_streaming": [
"P",
"C",
"Q"
],
"Gov1.C07_sequenceHeader_anywhere": [
"P",
"C",
"Q"
],
"Gov1.C07_sequenceHeader_streaming": [
"P",
"C",
"Q"
],
"Gov1.C07_tileInfo_streaming": [
"P",
"C",
"Q"
],
"Gov1.C07_uncompressedHeader_anywhere": [
"P",
"C",
"Q"
],
"Gov1.C07_uncompressedHeader_streaming": [
"P",
"C",
"Q"
],
"Gov1.C07_uvlc_streaming": [
"P",
"C",
"Q"
],
"Gov1.C08_byte_alignment": [
"P",
"C",
"Q"
],
"Gov1.C08_byte_alignment_inside": [
"P",
"C",
"Q"
],
"Gov1.C08_trailing_bits": [
"P",
"Q"
],
"Gov1.C08_trailing_bits_nonpositive": [
"P",
"Q"
],
"Gov1.C09_ceilLog2_least": [
"P",
"C",
"Q"
],
"Gov1.C09_floorLog2_edge": [
"P",
"Q"
],
"Gov1.C09_floorLog2_exact": [
"P",
"Q"
],
"Gov1.C09_tileLog2_least": [
"P",
"C",
"Q"
],
"Gov1.C100_in_set": [
"P",
"Q"
],
"Gov1.C100_type_allowed": [
"P",
"C",
"Q"
],
"Gov1.C100_type_codable": [
"P",
"C",
"Q"
],
"Gov1.C101_contexts": [
"P",
"C",
"Q"
],
"Gov1.C102_limit_partial": [
"P",
"Q"
],
"Gov1.C102_limit_refuted": [
"P",
"Q"
],
"Gov1.C102_masks": [
"P",
"C",
"Q"
],
"Gov1.C103_size_partial": [
"P",
"Q"
],
"Gov1.C103_size_refuted": [
"P",
"Q"
],
"Gov1.C104_filtered_refuted": [
"P",
"C",
"Q"
],
"Gov1.C104_identity_refuted": [
"P",
"Q"
],
"Gov1.C104_inside_partial": [
"P",
"C",
"Q"
],
"Gov1.C104_panics_refuted": [
"P",
"Q"
],
"Gov1.C104_selected_partial": [
"P",
"Q"
],
"Gov1.C105_direction": [
"P",
"C",
"Q"
],
"Gov1.C105_directional": [
"P",
"C",
"Q"
],
"Gov1.C105_flat": [
"P",
"C",
"Q"
],
"Gov1.C105_offsets": [
"P",
"Q"
],
"Gov1.C106_filter_partial": [
"P",
"C",
"Q"
],
"Gov1.C106_taps_refuted": [
"P",
"C",
"Q"
],
"Gov1.C107_copied": [
"P",
"C",
"Q"
],
"Gov1.C107_damping_refuted": [
"P",
"C",
"Q"
],
"Gov1.C107_filtered_partial": [
"P",
"C",
"Q"
],
"Gov1.C108_frame_partial": [
"P",
"C",
"Q"
],
"Gov1.C108_off": [
"P",
"C",
"Q"
],
"Gov1.C108_size_refuted": [
"P",
"Q"
],
"Gov1.C108_skips_refuted": [
"P",
"Q"
],
"Gov1.C109_bits_refuted": [
"P",
"Q"
],
"Gov1.C109_clear128_refuted": [
"P",
"Q"
],
"Gov1.C109_clear_partial": [
"P",
"Q"
],
"Gov1.C109_columns_refuted": [
"P",
"Q"
],
"Gov1.C109_read_partial": [
"P",
"C",
"Q"
],
"Gov1.C109_unchanged": [
"P",
"Q"
],
"Gov1.C109_wide_refuted": [
"P",
"Q"
],
"Gov1.C10_round2Signed_partial": [
"P",
"Q"
],
"Gov1.C10_round2Signed_refuted": [
"P",
"Q"
],
"Gov1.C10_round2_nearest": [
"P",
"C",
"Q"
],
"Gov1.C10_round2_unique": [
"P",
"Q"
],
"Gov1.C110_all_zero_array": [
"P",
"Q"
],
"Gov1.C110_all_zero_chroma": [
"P",
"C",
"Q"
],
"Gov1.C110_all_zero_luma": [
"P",
"C",
"Q"
],
"Gov1.C110_base": [
"P",
"C",
"Q"
],
"Gov1.C110_base_array": [
"P",
"C",
"Q"
],
"Gov1.C110_br": [
"P",
"C",
"Q"
],
"Gov1.C110_br_array": [
"P",
"C",
"Q"
],
"Gov1.C110_dc_sign": [
"P",
"C",
"Q"
],
"Gov1.C110_eob_array": [
"P",
"Q"
],
"Gov1.C110_eob_extra_array": [
"P",
"Q"
],
"Gov1.C110_last": [
"P",
"Q"
],
"Gov1.C110_sign_array": [
"P",
"C",
"Q"
],
"Gov1.C111_filter_partial": [
"P"
],
"Gov1.C111_flat_partial": [
"P",
"Q"
],
"Gov1.C111_identity_refuted": [
"P",
"C",
"Q"
],
"Gov1.C111_position_partial": [
"P",
"C",
"Q"
],
"Gov1.C111_size_refuted": [
"P",
"C",
"Q"
],
"Gov1.C111_sum_partial": [
"P",
"Q"
],
"Gov1.C111_value_refuted": [
"P",
"C",
"Q"
],
"Gov1.C112_copy_partial": [
"P",
"C",
"Q"
],
"Gov1.C112_grain_refuted": [
"P"
],
"Gov1.C112_hidden_partial": [
"P",
"C",
"Q"
],
"Gov1.C112_shown_refuted": [
"P",
"C",
"Q"
],
"Gov1.C112_size_refuted": [
"P",
"C",
"Q"
],
"Gov1.C113_box_partial": [
"P",
"C",
"Q"
],
"Gov1.C113_cover_partial": [
"P",
"C",
"Q"
],
"Gov1.C113_flat_partial": [
"P"
],
"Gov1.C113_none_partial": [
"P",
"Q"
],
"Gov1.C113_off_partial": [
"P"
],
"Gov1.C113_sample_partial": [
"P",
"C",
"Q"
],
"Gov1.C113_sgr_refuted": [
"P",
"C",
"Q"
],
"Gov1.C113_stripe_partial": [
"P",
"Q"
],
"Gov1.C113_wiener_refuted": [
"P",
"Q"
],
"Gov1.C113_wiener_symmetric_refuted": [
"P",
"C",
"Q"
],
"Gov1.C113_wiener_taps_refuted": [
"P"
],
"Gov1.C113_window_partial": [
"P",
"Q"
],
"Gov1.C114_luma_refuted": [
"P",
"Q"
],
"Gov1.C114_range_refuted": [
"P",
"C",
"Q"
],
"Gov1.C114_sgr_partial": [
"P",
"C",
"Q"
],
"Gov1.C114_subexp_partial": [
"P",
"C",
"Q"
],
"Gov1.C114_subexp_refuted": [
"P",
"C",
"Q"
],
"Gov1.C114_type_refuted": [
"P"
],
"Gov1.C114_units_partial": [
"P",
"C",
"Q"
],
"Gov1.C114_wiener_refuted": [
"P"
],
"Gov1.C115_above_partial": [
"P",
"Q"
],
"Gov1.C115_depth_partial": [
"P",
"C",
"Q"
],
"Gov1.C115_edge_refuted": [
"P",
"Q"
],
"Gov1.C115_inter_skip_refuted": [
"P"
],
"Gov1.C115_intra_skip_refuted": [
"P",
"C",
"Q"
],
"Gov1.C115_largest_partial": [
"P",
"C",
"Q"
],
"Gov1.C115_left_partial": [
"P",
"Q"
],
"Gov1.C115_left_refuted": [
"P",
"Q"
],
"Gov1.C115_lossless_partial": [
"P",
"C",
"Q"
],
"Gov1.C115_size_refuted": [
"P",
"C",
"Q"
],
"Gov1.C115_tables_partial": [
"P"
],
"Gov1.C115_tree_refuted": [
"P",
"Q"
],
"Gov1.C116_cover": [
"P",
"C",
"Q"
],
"Gov1.C117_order_partial": [
"P",
"C",
"Q"
],
"Gov1.C117_order_refuted": [
"P",
"C",
"Q"
],
"Gov1.C118_column_refuted": [
"P",
"Q"
],
"Gov1.C118_marks_partial": [
"P",
"C",
"Q"
],
"Gov1.C118_mask_refuted": [
"P",
"C",
"Q"
],
"Gov1.C118_plane": [
"P",
"C",
"Q"
],
"Gov1.C118_size_refuted": [
"P",
"C",
"Q"
],
"Gov1.C119_chroma_refuted": [
"P",
"Q"
],
"Gov1.C119_luma_partial": [
"P",
"C",
"Q"
],
"Gov1.C11_clip1_partial": [
"P",
"C",
"Q"
],
"Gov1.C11_clip1_refuted": [],
"Gov1.C11_clip3_id": [
"P",
"Q"
],
"Gov1.C11_clip3_nearest": [
"P",
"Q"
],
"Gov1.C120_luma_partial": [
"P",
"C",
"Q"
],
"Gov1.C120_result_refuted": [
"P",
"Q"
],
"Gov1.C121_loop_filter": [
"P",
"C",
"Q"
],
"Gov1.C121_loop_filter_keep": [
"P"
],
"Gov1.C121_qindex": [
"P",
"C",
"Q"
],
"Gov1.C121_qindex_keep": [
"P"
],
"Gov1.C122_clip_refuted": [
"P",
"C",
"Q"
],
"Gov1.C122_context_partial": [
"P",
"C",
"Q"
],
"Gov1.C122_id_partial": [
"P",
"C",
"Q"
],
"Gov1.C122_same_refuted": [
"P",
"C",
"Q"
],
"Gov1.C123_angle": [
"P",
"C",
"Q"
],
"Gov1.C123_cfl_inter_frame": [
"P"
],
"Gov1.C123_cfl_intra_frame_partial": [
"P",
"C",
"Q"
],
"Gov1.C123_cfl_refuted": [
"P",
"C",
"Q"
],
"Gov1.C123_y_mode": [
"P",
"C",
"Q"
],
"Gov1.C124_context_refuted": [
"P",
"Q"
],
"Gov1.C124_panic_refuted": [
"P",
"Q"
],
"Gov1.C124_partial": [
"P",
"Q"
],
"Gov1.C124_segment": [
"P",
"Q"
],
"Gov1.C125_availability": [
"P",
"C",
"Q"
],
"Gov1.C126_fits_partial": [
"P",
"Q"
],
"Gov1.C126_modes_partial": [
"P",
"C",
"Q"
],
"Gov1.C126_mvs_refuted": [
"P",
"Q"
],
"Gov1.C126_panic_refuted": [
"P",
"C",
"Q"
],
"Gov1.C126_records_partial": [
"P",
"C",
"Q"
],
"Gov1.C126_segment_refuted": [
"P",
"Q"
],
"Gov1.C127_refuted": [
"P",
"C",
"Q"
],
"Gov1.C127_reset_partial": [
"P",
"C",
"Q"
],
"Gov1.C128_partial": [
"P",
"C",
"Q"
],
"Gov1.C128_sign_refuted": [
"P",
"C",
"Q"
],
"Gov1.C129_reference_refuted": [
"P",
"C",
"Q"
],
"Gov1.C129_tools_refuted": [
"P",
"C",
"Q"
],
"Gov1.C129_total_partial": [
"P",
"C",
"Q"
],
"Gov1.C129_uv_mode_refuted": [
"P",
"C",
"Q"
],
"Gov1.C12_inverseRecenter_range": [
"P",
"C",
"Q"
],
"Gov1.C12_inverseRecenter_roundtrip": [
"P",
"C",
"Q"
],
"Gov1.C12_recenter_inverse": [
"P",
"C",
"Q"
],
"Gov1.C130_idempotent": [
"P",
"C",
"Q"
],
"Gov1.C130_precision": [
"P",
"C",
"Q"
],
"Gov1.C131_global_partial": [
"P",
"C",
"Q"
],
"Gov1.C131_positive_refuted": [
"P",
"C",
"Q"
],
"Gov1.C132_modes_partial": [
"P"
],
"Gov1.C132_nearest_refuted": [
"P"
],
"Gov1.C133_assign_partial": [
"P",
"C",
"Q"
],
"Gov1.C133_intrabc_refuted": [
"P",
"Q"
],
"Gov1.C134_terminates": [
"P",
"C",
"Q"
],
"Gov1.C135_candidates_refuted": [
"P",
"C",
"Q"
],
"Gov1.C136_contexts": [
"P",
"C",
"Q"
],
"Gov1.C137_bounds": [
"P",
"C",
"Q"
],
"Gov1.C137_padding": [
"P",
"C",
"Q"
],
"Gov1.C138_corner_partial": [
"P",
"Q"
],
"Gov1.C138_foreign_refuted": [
"P",
"C",
"Q"
],
"Gov1.C138_own_refuted": [
"P",
"Q"
],
"Gov1.C139_above_refuted": [
"P",
"Q"
],
"Gov1.C139_swap_refuted": [
"P",
"Q"
],
"Gov1.C139_temporal_refuted": [
"P",
"Q"
],
"Gov1.C13_negDeinterleave_injective": [
"P",
"Q"
],
"Gov1.C13_negDeinterleave_partial": [
"P",
"Q"
],
"Gov1.C13_negDeinterleave_range": [
"P",
"C",
"Q"
],
"Gov1.C13_negDeinterleave_refuted": [],
"Gov1.C140_context_partial": [
"P",
"Q"
],
"Gov1.C140_global_refuted": [
"P"
],
"Gov1.C140_segment_partial": [
"P"
],
"Gov1.C141_code_partial": [
"P",
"C",
"Q"
],
"Gov1.C141_contexts_partial": [
"P",
"C",
"Q"
],
"Gov1.C141_contexts_refuted": [
"P",
"Q"
],
"Gov1.C141_missing_refuted": [
"P",
"Q"
],
"Gov1.C142_least": [
"P",
"Q"
],
"Gov1.C143_id_partial": [
"P"
],
"Gov1.C143_update_refuted": [
"P"
],
"Gov1.C144_intra_partial": [
"P",
"C",
"Q"
],
"Gov1.C144_tools_refuted": [
"P",
"C",
"Q"
],
"Gov1.C144_y_mode": [
"P",
"Q"
],
"Gov1.C145_near_refuted": [
"P",
"C",
"Q"
],
"Gov1.C145_new_partial": [
"P",
"C",
"Q"
],
"Gov1.C145_segment_partial": [
"P"
],
"Gov1.C146_skip_mode_refuted": [
"P",
"Q"
],
"Gov1.C146_tools_refuted": [
"P",
"C",
"Q"
],
"Gov1.C147_block_partial": [
"P",
"C",
"Q"
],
"Gov1.C147_missing_refuted": [
"P",
"C",
"Q"
],
"Gov1.C147_neighbours_partial": [
"P",
"C",
"Q"
],
"Gov1.C148_candidate_partial": [
"P",
"C",
"Q"
],
"Gov1.C148_near_partial": [
"P",
"Q"
],
"Gov1.C148_pair_partial": [
"P",
"Q"
],
"Gov1.C148_pair_precision_refuted": [
"P"
],
"Gov1.C148_precision_partial": [
"P",
"C",
"Q"
],
"Gov1.C148_scans_partial": [
"P",
"C",
"Q"
],
"Gov1.C149_above": [
"P",
"C",
"Q"
],
"Gov1.C149_far": [
"P",
"C",
"Q"
],
"Gov1.C149_left": [
"P",
"C",
"Q"
],
"Gov1.C14_sort_out_of_range": [
"P",
"Q"
],
"Gov1.C14_sort_segment": [
"P",
"Q"
],
"Gov1.C150_pixels": [
"P",
"C",
"Q"
],
"Gov1.C151_block": [
"P",
"C",
"Q"
],
"Gov1.C152_above_partial": [
"P",
"C",
"Q"
],
"Gov1.C152_above_refuted": [
"P",
"C",
"Q"
],
"Gov1.C152_left_refuted": [
"P",
"C",
"Q"
],
"Gov1.C152_none_refuted": [
"P",
"Q"
],
"Gov1.C153_filter_refuted": [
"P",
"Q"
],
"Gov1.C153_large_refuted": [
"P",
"C",
"Q"
],
"Gov1.C153_small_partial": [
"P",
"C",
"Q"
],
"Gov1.C154_above_refuted": [
"P",
"C",
"Q"
],
"Gov1.C154_between_refuted": [
"P",
"C",
"Q"
],
"Gov1.C154_derivative": [
"P",
"Q"
],
"Gov1.C154_horizontal_refuted": [
"P",
"C",
"Q"
],
"Gov1.C154_left_partial": [
"P",
"C",
"Q"
],
"Gov1.C154_vertical_partial": [
"P",
"C",
"Q"
],
"Gov1.C155_chroma_partial": [
"P",
"Q"
],
"Gov1.C155_chroma_refuted": [
"P",
"C",
"Q"
],
"Gov1.C155_corner": [
"P",
"C",
"Q"
],
"Gov1.C155_filter_refuted": [
"P",
"C",
"Q"
],
"Gov1.C155_strength_partial": [
"P",
"Q"
],
"Gov1.C155_strength_refuted": [
"P",
"C",
"Q"
],
"Gov1.C155_type_partial": [
"P",
"Q"
],
"Gov1.C155_type_refuted": [
"P",
"Q"
],
"Gov1.C156_chroma_partial": [
"P",
"Q"
],
"Gov1.C156_chroma_refuted": [
"P",
"Q"
],
"Gov1.C156_context_refuted": [],
"Gov1.C156_neighbours": [
"P",
"C",
"Q"
],
"Gov1.C156_once": [
"P",
"C",
"Q"
],
"Gov1.C156_onscreen": [
"P",
"C",
"Q"
],
"Gov1.C157_residual_refuted": [
"P",
"C",
"Q"
],
"Gov1.C158_pixels": [
"P",
"C",
"Q"
],
"Gov1.C159_outside": [
"P",
"C",
"Q"
],
"Gov1.C15_brev_partial": [
"P",
"C",
"Q"
],
"Gov1.C15_brev_refuted": [
"P"
],
"Gov1.C15_brev_value": [
"P",
"Q"
],
"Gov1.C15_cos128_partial": [
"P",
"Q"
],
"Gov1.C15_cos128_refuted": [
"P"
],
"Gov1.C160_chroma_refuted": [
"P",
"Q"
],
"Gov1.C160_corners": [
"P",
"Q"
],
"Gov1.C160_extent": [
"P",
"Q"
],
"Gov1.C160_luma_refuted": [
"P",
"C",
"Q"
],
"Gov1.C160_mode": [
"P",
"C",
"Q"
],
"Gov1.C160_partial": [
"P",
"C",
"Q"
],
"Gov1.C161_checks": [
"P",
"C",
"Q"
],
"Gov1.C161_intrabc_refuted": [
"P"
],
"Gov1.C161_scaling_partial": [
"P",
"C",
"Q"
],
"Gov1.C161_scaling_refuted": [
"P",
"C",
"Q"
],
"Gov1.C161_step_refuted": [
"P",
"Q"
],
"Gov1.C162_block_refuted": [
"P",
"C",
"Q"
],
"Gov1.C162_flat_partial": [
"P",
"C",
"Q"
],
"Gov1.C162_values_partial": [
"P",
"C",
"Q"
],
"Gov1.C163_identity": [
"P"
],
"Gov1.C163_shape": [],
"Gov1.C163_symmetric": [
"P"
],
"Gov1.C163_taps_sum": [
"P"
],
"Gov1.C164_divisor_partial": [
"P",
"C",
"Q"
],
"Gov1.C164_divisor_refuted": [
"P",
"C",
"Q"
],
"Gov1.C164_table_refuted": [
"P"
],
"Gov1.C164_total": [
"P",
"C",
"Q"
],
"Gov1.C165_diagonal_refuted": [
"P",
"Q"
],
"Gov1.C165_range": [
"P",
"C",
"Q"
],
"Gov1.C166_classes_refuted": [
"P",
"C",
"Q"
],
"Gov1.C166_no_warp_partial": [
"P",
"C",
"Q"
],
"Gov1.C166_place_refuted": [
"P",
"C",
"Q"
],
"Gov1.C166_predict_partial": [
"P",
"C",
"Q"
],
"Gov1.C166_warp_refuted": [
"P",
"C",
"Q"
],
"Gov1.C167_blend": [
"P",
"C",
"Q"
],
"Gov1.C167_left_refuted": [
"P",
"Q"
],
"Gov1.C167_luma_refuted": [
"P",
"C",
"Q"
],
"Gov1.C167_weights": [
"P",
"C",
"Q"
],
"Gov1.C168_interintra": [
"P",
"Q"
],
"Gov1.C168_intra_idle": [
"P",
"Q"
],
"Gov1.C168_near": [
"P",
"C",
"Q"
],
"Gov1.C168_partial": [
"P",
"C",
"Q"
],
"Gov1.C168_planes": [
"P"
],
"Gov1.C168_sub8_refuted": [
"P",
"C",
"Q"
],
"Gov1.C169_isScaled": [
"P",
"Q"
],
"Gov1.C16_header_roundtrip": [
"P",
"C",
"Q"
],
"Gov1.C16_header_total": [
"P",
"Q"
],
"Gov1.C170_identity": [
"P"
],
"Gov1.C170_range": [
"P",
"C",
"Q"
],
"Gov1.C170_round_partial": [
"P",
"C",
"Q"
],
"Gov1.C170_round_refuted": [
"P",
"C",
"Q"
],
"Gov1.C171_ends": [
"P",
"C",
"Q"
],
"Gov1.C171_plane": [
"P",
"C",
"Q"
],
"Gov1.C172_ends": [
"P",
"Q"
],
"Gov1.C172_found_refuted": [
"P",
"C",
"Q"
],
"Gov1.C172_looks_partial": [
"P",
"C",
"Q"
],
"Gov1.C172_none_refuted": [
"P",
"C",
"Q"
],
"Gov1.C172_search_partial": [
"P",
"C",
"Q"
],
"Gov1.C173_codebook": [
"P"
],
"Gov1.C173_master_partial": [
"P",
"C",
"Q"
],
"Gov1.C173_monotone": [
"P"
],
"Gov1.C173_nil_refuted": [
"P"
],
"Gov1.C173_shape": [
"P"
],
"Gov1.C173_sizes": [
"P"
],
"Gov1.C173_symmetric": [
"P"
],
"Gov1.C174_frame_partial": [
"P",
"C",
"Q"
],
"Gov1.C174_tile_partial": [
"P",
"C",
"Q"
],
"Gov1.C175_records": [
"P",
"C",
"Q"
],
"Gov1.C175_size_refuted": [
"P",
"C",
"Q"
],
"Gov1.C176_outside": [
"P",
"C",
"Q"
],
"Gov1.C177_pixels": [
"P",
"C",
"Q"
],
"Gov1.C178_tile": [
"P",
"C",
"Q"
],
"Gov1.C179_128_refuted": [
"P",
"Q"
],
"Gov1.C179_horz_refuted": [
"P",
"C",
"Q"
],
"Gov1.C179_partial": [
"P",
"C",
"Q"
],
"Gov1.C17_frame_header": [
"P",
"C",
"Q"
],
"Gov1.C17_sequence_header": [
"P",
"C",
"Q"
],
"Gov1.C17_temporal_delimiter": [
"P",
"C",
"Q"
],
"Gov1.C180_complete": [
"P",
"C",
"Q"
],
"Gov1.C181_context": [
"P",
"C",
"Q"
],
"Gov1.C182_leftovers": [
"P",
"Q"
],
"Gov1.C183_content_refuted": [
"P",
"C",
"Q"
],
"Gov1.C183_hidden": [
"P",
"C",
"Q"
],
"Gov1.C183_size_partial": [
"P",
"C",
"Q"
],
"Gov1.C184_refuted": [
"P",
"C",
"Q"
],
"Gov1.C185_complete": [
"P",
"C",
"Q"
],
"Gov1.C185_sound": [
"P",
"C",
"Q"
],
"Gov1.C186_tables": [
"P",
"C",
"Q"
],
"Gov1.C187_range": [
"P",
"C",
"Q"
],
"Gov1.C188_finished": [
"P",
"C",
"Q"
],
"Gov1.C188_open": [
"P",
"Q"
],
"Gov1.C188_others": [
"P",
"C",
"Q"
],
"Gov1.C189_refuted": [
"P",
"C",
"Q"
],
"Gov1.C18_dropped": [
"P",
"C",
"Q"
],
"Gov1.C18_selected_tile_group": [
"P",
"C",
"Q"
],
"Gov1.C190_deltas": [
"P",
"C",
"Q"
],
"Gov1.C191_deblocking_refuted": [
"P",
"C",
"Q"
],
"Gov1.C191_saved_refuted": [
"P",
"C",
"Q"
],
"Gov1.C192_blocks": [
"P",
"C",
"Q"
],
"Gov1.C192_filters": [
"P",
"C",
"Q"
],
"Gov1.C193_append_refuted": [
"P",
"Q"
],
"Gov1.C193_pair_refuted": [
"P"
],
"Gov1.C193_single_partial": [
"P",
"Q"
],
"Gov1.C194_frame_refuted": [
"P",
"C",
"Q"
],
"Gov1.C194_headers_partial": [
"P",
"Q"
],
"Gov1.C195_accepted_refuted": [
"P",
"C",
"Q"
],
"Gov1.C195_nothing_partial": [
"P",
"C",
"Q"
],
"Gov1.C196_ends_partial": [
"P",
"Q"
],
"Gov1.C196_ends_refuted": [
"P",
"C",
"Q"
],
"Gov1.C197_context_partial": [
"P",
"Q"
],
"Gov1.C197_hash_refuted": [
"P",
"Q"
],
"Gov1.C197_order_refuted": [
"P",
"Q"
],
"Gov1.C197_row_partial": [
"P",
"Q"
],
"Gov1.C198_map_partial": [
"P",
"C",
"Q"
],
"Gov1.C198_nil_refuted": [
"P"
],
"Gov1.C198_total_partial": [
"P",
"C",
"Q"
],
"Gov1.C199_cache_partial": [
"P",
"C",
"Q"
],
"Gov1.C199_luma_refuted": [
"P",
"C",
"Q"
],
"Gov1.C199_none_refuted": [
"P",
"Q"
],
"Gov1.C199_u_refuted": [
"P",
"C",
"Q"
],
"Gov1.C199_v_partial": [
"P",
"C",
"Q"
],
"Gov1.C199_v_refuted": [
"P",
"C",
"Q"
],
"Gov1.C199_width_refuted": [
"P",
"C",
"Q"
],
"Gov1.C19_fresh_after_delimiter": [
"P",
"C",
"Q"
],
"Gov1.C19_repeat_not_reparsed": [
"P",
"C",
"Q"
],
"Gov1.C200_distance_partial": [
"P",
"Q"
],
"Gov1.C200_refuted": [
"P",
"Q"
],
"Gov1.C200_select_partial": [
"P",
"Q"
],
"Gov1.C200_shares_partial": [
"P",
"C",
"Q"
],
"Gov1.C201_deltas": [
"P",
"C",
"Q"
],
"Gov1.C202_key_roundtrip_partial": [
"P",
"C",
"Q"
],
"Gov1.C202_key_roundtrip_statement_refuted": [
"P",
"Q"
],
"Gov1.C203_explicit_tiles": [
"P",
"C",
"Q"
],
"Gov1.C203_tile_layout_partial": [
"P",
"C",
"Q"
],
"Gov1.C203_tile_layout_statement_refuted": [
"P",
"Q"
],
"Gov1.C204_av1_frames_refuted": [
"P",
"C",
"Q"
],
"Gov1.C204_av1_refuted": [
"P",
"C",
"Q"
],
"Gov1.C204_headers_read_back_partial": [
"P",
"C",
"Q"
],
"Gov1.C20_padding_partial": [
"P",
"C",
"Q"
],
"Gov1.C20_padding_refuted": [
"P",
"C",
"Q"
],
"Gov1.C21_unknown_types_partial": [
"P",
"C",
"Q"
],
"Gov1.C21_unknown_types_refuted": [
"P",
"C",
"Q"
],
"Gov1.C22_obu_forward": [
"P",
"C",
"Q"
],
"Gov1.C22_parser_terminates": [
"P",
"C",
"Q"
],
"Gov1.C22_stream_exact": [
"P",
"C",
"Q"
],
"Gov1.C22_stream_fails": [
"P",
"C",
"Q"
],
"Gov1.C23_av1_refuted": [
"P",
"C",
"Q"
],
"Gov1.C23_dialect_roundtrip_partial": [
"P",
"C",
"Q"
],
"Gov1.C23_reduced_refuted": [
"P",
"C",
"Q"
],
"Gov1.C23_roundtrip_refuted": [
"P",
"Q"
],
"Gov1.C24_colorConfig_roundtrip": [
"P",
"C",
"Q"
],
"Gov1.C24_colorConfig_valid": [
"P",
"Q"
],
"Gov1.C25_operating_points_refuted": [
"P",
"Q"
],
"Gov1.C26_uniform_tiling": [
"P",
"C",
"Q"
],
"Gov1.C27_explicit_tiling": [
"P",
"C",
"Q"
],
"Gov1.C28_empty_tile_refuted": [
"P",
"C",
"Q"
],
"Gov1.C28_superblock_counts_partial": [
"P",
"Q"
],
"Gov1.C28_superblock_counts_refuted": [
"P",
"Q"
],
"Gov1.C29_dimensions": [
"P",
"C",
"Q"
],
"Gov1.C29_size_roundtrip": [
"P",
"C",
"Q"
],
"Gov1.C30_segmentation": [
"P",
"C",
"Q"
],
"Gov1.C31_lossless": [
"P",
"C",
"Q"
],
"Gov1.C31_qindex_partial": [
"P",
"C",
"Q"
],
"Gov1.C31_qindex_refuted": [
"P",
"Q"
],
"Gov1.C32_loop_filter_partial": [
"P",
"C",
"Q"
],
"Gov1.C32_lossless_levels_refuted": [
"P"
],
"Gov1.C33_cdef": [
"P",
"C",
"Q"
],
"Gov1.C33_restoration": [
"P",
"C",
"Q"
],
"Gov1.C34_offered_refuted": [
"P"
],
"Gov1.C34_skip_mode_enabled": [
"P"
],
"Gov1.C34_skip_mode_never": [
"P"
],
"Gov1.C35_subexp_range": [
"P",
"C",
"Q"
],
"Gov1.C35_subexp_roundtrip": [
"P",
"C",
"Q"
],
"Gov1.C35_subexp_terminates": [
"P",
"C",
"Q"
],
"Gov1.C35_withRef_range": [
"P",
"C",
"Q"
],
"Gov1.C35_withRef_roundtrip": [
"P",
"C",
"Q"
],
"Gov1.C36_film_grain": [
"P",
"Q"
],
"Gov1.C36_film_grain_roundtrip": [
"P",
"C",
"Q"
],
"Gov1.C36_no_grain": [
"P",
"Q"
],
"Gov1.C37_history": [
"P",
"C",
"Q"
],
"Gov1.C37_symbol": [
"P",
"C",
"Q"
],
"Gov1.C38_invariants": [
"P",
"C",
"Q"
],
"Gov1.C38_never_fails": [
"P",
"C",
"Q"
],
"Gov1.C39_encodable": [
"P",
"C",
"Q"
],
"Gov1.C39_roundtrip": [
"P",
"C",
"Q"
],
"Gov1.C40_tile_consumed": [
"P",
"C",
"Q"
],
"Gov1.C41_disabled": [
"P",
"Q"
],
"Gov1.C42_defaults_constant_partial": [
"P",
"C",
"Q"
],
"Gov1.C42_defaults_constant_refuted": [
"P",
"C",
"Q"
],
"Gov1.C42_end_partial": [
"P",
"C",
"Q"
],
"Gov1.C42_stream_refuted": [
"P",
"C",
"Q"
],
"Gov1.C43_default_contexts_decode": [
"P",
"C",
"Q"
],
"Gov1.C43_default_tables_partial": [
"P",
"C",
"Q"
],
"Gov1.C43_segment_id_predicted_refuted": [
"P",
"Q"
],
"Gov1.C43_skip_mode_refuted": [
"P",
"C",
"Q"
],
"Gov1.C44_literal_is_bits": [
"P",
"Q"
],
"Gov1.C44_literal_range": [
"P",
"C",
"Q"
],
"Gov1.C44_ns_range": [
"P",
"C",
"Q"
],
"Gov1.C45_roundtrip": [
"P",
"C",
"Q"
],
"Gov1.C45_tile_loop": [
"P",
"C",
"Q"
],
"Gov1.C46_horz_a_refuted": [
"P",
"C",
"Q"
],
"Gov1.C46_horz_refuted": [
"P",
"C",
"Q"
],
"Gov1.C46_partition_cover_partial": [
"P",
"C",
"Q"
],
"Gov1.C46_vert_4_refuted": [
"P",
"C",
"Q"
],
"Gov1.C46_vert_b_refuted": [
"P",
"C",
"Q"
],
"Gov1.C47_wht_inverts": [
"P",
"C",
"Q"
],
"Gov1.C47_wht_onto": [
"P",
"C",
"Q"
],
"Gov1.C48_block": [
"P",
"C",
"Q"
],
"Gov1.C48_dequant_value": [
"P",
"C",
"Q"
],
"Gov1.C49_ac_partial": [
"P",
"C",
"Q"
],
"Gov1.C49_ac_refuted": [
"P",
"Q"
],
"Gov1.C49_ac_table": [
"P",
"C",
"Q"
],
"Gov1.C49_dc": [
"P",
"C",
"Q"
],
"Gov1.C50_order_partial": [
"P",
"C",
"Q"
],
"Gov1.C50_order_refuted": [
"P",
"Q"
],
"Gov1.C50_positions": [
"P",
"C",
"Q"
],
"Gov1.C51_constrain": [
"P",
"C",
"Q"
],
"Gov1.C51_constrain_ends": [
"P",
"C",
"Q"
],
"Gov1.C51_pixel": [
"P",
"C",
"Q"
],
"Gov1.C52_mask_off": [
"P"
],
"Gov1.C52_narrow_horizontal": [
"P",
"C",
"Q"
],
"Gov1.C52_narrow_vertical": [
"P",
"C",
"Q"
],
"Gov1.C52_range": [
"P",
"C",
"Q"
],
"Gov1.C53_level": [
"P",
"Q"
],
"Gov1.C53_level_zero": [
"P",
"Q"
],
"Gov1.C53_neighbour_refuted": [
"P",
"Q"
],
"Gov1.C54_history_partial": [
"P",
"C",
"Q"
],
"Gov1.C54_load_refuted": [
"P"
],
"Gov1.C54_pictures_refuted": [
"P",
"Q"
],
"Gov1.C54_size_refuted": [
"P",
"C",
"Q"
],
"Gov1.C54_update_partial": [
"P",
"C",
"Q"
],
"Gov1.C55_context_clearing_partial": [
"P",
"Q"
],
"Gov1.C55_context_clearing_refuted": [
"P",
"Q"
],
"Gov1.C55_left_clearing_refuted": [
"P",
"Q"
],
"Gov1.C56_dc": [
"P",
"C",
"Q"
],
"Gov1.C56_dc_above_refuted": [],
"Gov1.C56_dc_left_refuted": [
"P",
"C",
"Q"
],
"Gov1.C56_dc_none": [
"P",
"Q"
],
"Gov1.C56_dc_range": [
"P",
"C",
"Q"
],
"Gov1.C56_paeth": [
"P",
"C",
"Q"
],
"Gov1.C56_paeth_range": [
"P",
"C",
"Q"
],
"Gov1.C56_smooth_range": [
"P",
"C",
"Q"
],
"Gov1.C57_clamp": [
"P",
"C",
"Q"
],
"Gov1.C57_long_refuted": [
"P",
"C",
"Q"
],
"Gov1.C57_short_partial": [
"P",
"C",
"Q"
],
"Gov1.C57_unreachable_refuted": [
"P",
"C",
"Q"
],
"Gov1.C57_vector_partial": [
"P",
"C",
"Q"
],
"Gov1.C58_cache_partial": [
"P",
"C",
"Q"
],
"Gov1.C58_left_refuted": [
"P",
"C",
"Q"
],
"Gov1.C58_nil_refuted": [
"P",
"Q"
],
"Gov1.C58_push": [
"P",
"C",
"Q"
],
"Gov1.C58_sources": [
"P",
"Q"
],
"Gov1.C59_redundant_header_refuted": [
"P",
"C",
"Q"
],
"Gov1.C60_operating_point_persistence_partial": [
"P",
"C",
"Q"
],
"Gov1.C60_operating_point_persistence_refuted": [
"P",
"C",
"Q"
],
"Gov1.C61_contexts_wired_partial": [
"P"
],
"Gov1.C61_contexts_wired_refuted": [
"P"
],
"Gov1.C62_uniform_limits": [
"P",
"C",
"Q"
],
"Gov1.C63_uniform_rows_signalled_refuted": [
"P",
"C",
"Q"
],
"Gov1.C64_render_size_partial": [
"P",
"C",
"Q"
],
"Gov1.C64_render_size_refuted": [
"P",
"Q"
],
"Gov1.C65_quant_roundtrip": [
"P",
"C",
"Q"
],
"Gov1.C66_feature_roundtrip_partial": [
"P",
"C",
"Q"
],
"Gov1.C66_feature_roundtrip_refuted": [
"P",
"C",
"Q"
],
"Gov1.C67_loop_filter_roundtrip_partial": [
"P",
"C",
"Q"
],
"Gov1.C67_loop_filter_roundtrip_refuted": [
"P",
"C",
"Q"
],
"Gov1.C68_cdef_roundtrip": [
"P",
"C",
"Q"
],
"Gov1.C69_restoration_roundtrip": [
"P",
"C",
"Q"
],
"Gov1.C70_distance_unique": [
"P",
"Q"
],
"Gov1.C70_relative_distance": [
"P",
"Q"
],
"Gov1.C70_sign_bias_partial": [
"P"
],
"Gov1.C70_sign_bias_refuted": [
"P"
],
"Gov1.C71_intra_identity": [
"P",
"C",
"Q"
],
"Gov1.C71_params_refuted": [
"P",
"C",
"Q"
],
"Gov1.C71_types_partial": [
"P",
"C",
"Q"
],
"Gov1.C72_header_consistent": [
"P",
"C",
"Q"
],
"Gov1.C72_key_frame_total": [
"P",
"C",
"Q"
],
"Gov1.C73_show_existing_partial": [
"P",
"C",
"Q"
],
"Gov1.C73_show_existing_refuted": [
"P",
"C",
"Q"
],
"Gov1.C73_show_existing_statement_refuted": [
"P",
"C",
"Q"
],
"Gov1.C74_key_frame_resets_refuted": [
"P",
"C",
"Q"
],
"Gov1.C74_key_frame_resets_statement_refuted": [
"P",
"C",
"Q"
],
"Gov1.C75_screen_content_partial": [
"P",
"C",
"Q"
],
"Gov1.C75_screen_content_refuted": [
"P",
"Q"
],
"Gov1.C76_hidden_key_refuted": [
"P",
"C",
"Q"
],
"Gov1.C76_refresh_flags_partial": [
"P",
"C",
"Q"
],
"Gov1.C76_refresh_flags_refuted": [
"P",
"Q"
],
"Gov1.C77_ref_idx_partial": [
"P",
"Q"
],
"Gov1.C77_ref_idx_refuted": [
"P",
"C",
"Q"
],
"Gov1.C78_primary_ref_refuted": [
"P",
"C",
"Q"
],
"Gov1.C79_frame_ids_partial": [
"P",
"C",
"Q"
],
"Gov1.C79_frame_ids_refuted": [
"P",
"Q"
],
"Gov1.C80_intra_independent": [
"P",
"C",
"Q"
],
"Gov1.C81_tiles_partition": [
"P",
"C",
"Q"
],
"Gov1.C82_superblocks_cover_tile": [
"P",
"C",
"Q"
],
"Gov1.C83_flags_128_refuted": [
"P",
"Q"
],
"Gov1.C83_flags_refuted": [
"P",
"C",
"Q"
],
"Gov1.C84_corner_block_partial": [
"P",
"C",
"Q"
],
"Gov1.C84_edge_block_refuted": [
"P",
"C",
"Q"
],
"Gov1.C84_mass_partial": [
"P",
"Q"
],
"Gov1.C85_partition_depth": [
"P",
"C",
"Q"
],
"Gov1.C86_hadamard": [
"P",
"C",
"Q"
],
"Gov1.C87_rotation_partial": [
"P",
"Q"
],
"Gov1.C87_rotation_refuted": [
"P",
"Q"
],
"Gov1.C88_adst_plan_partial": [
"P",
"C",
"Q"
],
"Gov1.C88_adst_refuted": [
"P",
"Q"
],
"Gov1.C88_dct_plan_partial": [
"P",
"C",
"Q"
],
"Gov1.C88_dct_refuted": [
"P",
"Q"
],
"Gov1.C88_plan_refuted": [
"P",
"C",
"Q"
],
"Gov1.C89_identity": [
"P",
"C",
"Q"
],
"Gov1.C90_columns_refuted": [
"P",
"C",
"Q"
],
"Gov1.C90_kinds_partial": [
"P",
"Q"
],
"Gov1.C90_rect_partial": [
"P",
"C",
"Q"
],
"Gov1.C90_row_shift_partial": [
"P"
],
"Gov1.C90_unallocated_refuted": [
"P",
"C",
"Q"
],
"Gov1.C91_weights": [
"P",
"Q"
],
"Gov1.C92_flips_partial": [
"P",
"Q"
],
"Gov1.C92_pixels_refuted": [
"P",
"C",
"Q"
],
"Gov1.C92_reconstruct_refuted": [
"P",
"C",
"Q"
],
"Gov1.C93_complete": [
"P",
"C",
"Q"
],
"Gov1.C93_safe": [
"P",
"C",
"Q"
],
"Gov1.C93_sound": [
"P",
"C",
"Q"
],
"Gov1.C93_stall": [
"P",
"C",
"Q"
],
"Gov1.C93_total": [
"P",
"C",
"Q"
],
"Gov1.C94_coeff_base_partial": [
"P",
"Q"
],
"Gov1.C94_coeff_base_refuted": [
"P",
"C",
"Q"
],
"Gov1.C94_layout_fits": [
"P",
"C",
"Q"
],
"Gov1.C95_contexts_distinct_refuted": [
"P"
],
"Gov1.C96_chroma_refuted": [
"P",
"C",
"Q"
],
"Gov1.C96_coeffs_partial": [
"P",
"C",
"Q"
],
"Gov1.C96_tx_types_refuted": [
"P",
"C",
"Q"
],
"Gov1.C97_golomb_partial": [
"P",
"C",
"Q"
],
"Gov1.C97_overflow": [
"P",
"Q"
],
"Gov1.C97_overflow_harmless": [
"P",
"Q"
],
"Gov1.C97_overflow_refuted": [
"P",
"Q"
],
"Gov1.C97_terminates_refuted": [
"P",
"C",
"Q"
],
"Gov1.C98_negative_refuted": [
"P",
"C",
"Q"
],
"Gov1.C98_roundtrip_partial": [
"P",
"C",
"Q"
],
"Gov1.C99_eob_refuted": [
"P",
"C",
"Q"
],
"Gov1.C99_eob_returned_refuted": [
"P",
"C",
"Q"
]
}