{
 "claims": [
  {
   "property": "C01",
   "status": "proved",
   "theorems": [
    "Gov1.C01_fixed_width_roundtrip",
    "Gov1.C01_fixed_width_total",
    "Gov1.C01_bits_left"
   ],
   "note": ""
  },
  {
   "property": "C02",
   "status": "proved",
   "theorems": [
    "Gov1.C02_su_roundtrip",
    "Gov1.C02_su_range"
   ],
   "note": ""
  },
  {
   "property": "C03",
   "status": "proved",
   "theorems": [
    "Gov1.C03_ns_roundtrip",
    "Gov1.C03_ns_range",
    "Gov1.C03_ns_negative_hangs"
   ],
   "note": ""
  },
  {
   "property": "C04",
   "status": "proved",
   "theorems": [
    "Gov1.C04_leb128_roundtrip",
    "Gov1.C04_leb128_bounds"
   ],
   "note": ""
  },
  {
   "property": "C05",
   "status": "proved",
   "theorems": [
    "Gov1.C05_le_roundtrip"
   ],
   "note": ""
  },
  {
   "property": "C06",
   "status": "proved",
   "theorems": [
    "Gov1.C06_uvlc_roundtrip",
    "Gov1.C06_uvlc_saturates",
    "Gov1.C06_uvlc_terminates"
   ],
   "note": ""
  },
  {
   "property": "C07",
   "status": "proved",
   "theorems": [
    "Gov1.C07_uncompressedHeader_anywhere",
    "Gov1.C07_sequenceHeader_anywhere",
    "Gov1.C07_descriptors_streaming",
    "Gov1.C07_uvlc_streaming",
    "Gov1.C07_uncompressedHeader_streaming",
    "Gov1.C07_header_streaming",
    "Gov1.C07_colorConfig_streaming",
    "Gov1.C07_sequenceHeader_streaming",
    "Gov1.C07_tileInfo_streaming"
   ],
   "note": "Proved for all descriptor readers, the OBU header, colour configuration, sequence header, tile info and the whole uncompressed header; C07_sequenceHeader_anywhere and C07_uncompressedHeader_anywhere: the result does not depend on where in a stream the bits stand."
  },
  {
   "property": "C08",
   "status": "proved",
   "theorems": [
    "Gov1.C08_byte_alignment",
    "Gov1.C08_byte_alignment_inside",
    "Gov1.C08_trailing_bits",
    "Gov1.C08_trailing_bits_nonpositive"
   ],
   "note": ""
  },
  {
   "property": "C09",
   "status": "proved",
   "theorems": [
    "Gov1.C09_floorLog2_exact",
    "Gov1.C09_floorLog2_edge",
    "Gov1.C09_tileLog2_least",
    "Gov1.C09_ceilLog2_least"
   ],
   "note": ""
  },
  {
   "property": "C10",
   "status": "partial",
   "theorems": [
    "Gov1.C10_round2_nearest",
    "Gov1.C10_round2_unique",
    "Gov1.C10_round2Signed_refuted",
    "Gov1.C10_round2Signed_partial"
   ],
   "note": "Round2 is proved. Round2Signed rounds the constant 2 for x >= 0 (util.go:79); refuted with a witness, proved for x < 0."
  },
  {
   "property": "C11",
   "status": "partial",
   "theorems": [
    "Gov1.C11_clip3_nearest",
    "Gov1.C11_clip3_id",
    "Gov1.C11_clip1_refuted",
    "Gov1.C11_clip1_partial"
   ],
   "note": "Clip3 proved. Clip1 ignores its argument; refuted, and its actual value proved."
  },
  {
   "property": "C12",
   "status": "proved",
   "theorems": [
    "Gov1.C12_inverseRecenter_roundtrip",
    "Gov1.C12_recenter_inverse",
    "Gov1.C12_inverseRecenter_range"
   ],
   "note": ""
  },
  {
   "property": "C13",
   "status": "partial",
   "theorems": [
    "Gov1.C13_negDeinterleave_injective",
    "Gov1.C13_negDeinterleave_range",
    "Gov1.C13_negDeinterleave_refuted",
    "Gov1.C13_negDeinterleave_partial"
   ],
   "note": "Injectivity and range are true of the code; agreement with the AV1 code is refuted and proved only for ref = 1 and the identity cases."
  },
  {
   "property": "C14",
   "status": "proved",
   "theorems": [
    "Gov1.C14_sort_segment",
    "Gov1.C14_sort_out_of_range"
   ],
   "note": ""
  },
  {
   "property": "C15",
   "status": "partial",
   "theorems": [
    "Gov1.C15_cos128_refuted",
    "Gov1.C15_cos128_partial",
    "Gov1.C15_brev_value",
    "Gov1.C15_brev_refuted",
    "Gov1.C15_brev_partial"
   ],
   "note": "Cos128 panics on 191 of 256 residues, Brev replicates bit 1: both refuted, the actual domain/values proved."
  },
  {
   "property": "C16",
   "status": "proved",
   "theorems": [
    "Gov1.C16_header_roundtrip",
    "Gov1.C16_header_total"
   ],
   "note": ""
  },
  {
   "property": "C17",
   "status": "proved",
   "theorems": [
    "Gov1.C17_temporal_delimiter",
    "Gov1.C17_sequence_header",
    "Gov1.C17_frame_header"
   ],
   "note": ""
  },
  {
   "property": "C18",
   "status": "proved",
   "theorems": [
    "Gov1.C18_dropped",
    "Gov1.C18_selected_tile_group"
   ],
   "note": ""
  },
  {
   "property": "C19",
   "status": "proved",
   "theorems": [
    "Gov1.C19_repeat_not_reparsed",
    "Gov1.C19_fresh_after_delimiter"
   ],
   "note": ""
  },
  {
   "property": "C20",
   "status": "partial",
   "theorems": [
    "Gov1.C20_padding_partial",
    "Gov1.C20_padding_refuted"
   ],
   "note": "Refuted for every non-empty payload without a zero byte; proved exact for payloads containing one."
  },
  {
   "property": "C21",
   "status": "partial",
   "theorems": [
    "Gov1.C21_unknown_types_refuted",
    "Gov1.C21_unknown_types_partial"
   ],
   "note": "Refuted: metadata, tile list and reserved types panic; proved only when outside the operating point."
  },
  {
   "property": "C22",
   "status": "proved",
   "theorems": [
    "Gov1.C22_parser_terminates",
    "Gov1.C22_obu_forward",
    "Gov1.C22_stream_exact",
    "Gov1.C22_stream_fails"
   ],
   "note": ""
  },
  {
   "property": "C23",
   "status": "partial",
   "theorems": [
    "Gov1.C23_dialect_roundtrip_partial",
    "Gov1.C23_roundtrip_refuted",
    "Gov1.C23_av1_refuted",
    "Gov1.C23_reduced_refuted"
   ],
   "note": "The AV1 layout is refuted: reduced headers lose the frame size (C23_roundtrip_refuted; C23_reduced_refuted: always one pixel), and every ordinary header that is not reduced (no timing information and one operating point with a mask below 32, or a display tick below 2^19) comes out with frames of at most 2x2 pixels (C23_av1_refuted). The round trip is proved for the parser's own dialect."
  },
  {
   "property": "C24",
   "status": "proved",
   "theorems": [
    "Gov1.C24_colorConfig_roundtrip",
    "Gov1.C24_colorConfig_valid"
   ],
   "note": ""
  },
  {
   "property": "C25",
   "status": "partial",
   "theorems": [
    "Gov1.C25_operating_points_refuted"
   ],
   "note": "Refuted: every header announcing more than one operating point panics."
  },
  {
   "property": "C26",
   "status": "proved",
   "theorems": [
    "Gov1.C26_uniform_tiling"
   ],
   "note": ""
  },
  {
   "property": "C27",
   "status": "proved",
   "theorems": [
    "Gov1.C27_explicit_tiling"
   ],
   "note": ""
  },
  {
   "property": "C28",
   "status": "partial",
   "theorems": [
    "Gov1.C28_superblock_counts_partial",
    "Gov1.C28_superblock_counts_refuted",
    "Gov1.C28_empty_tile_refuted"
   ],
   "note": "C28_superblock_counts_partial: the counts for 64x64 superblocks are AV1's. Refuted for 128x128 superblocks: the row count overwrites the column count (C28_superblock_counts_refuted), and a tile can be empty (C28_empty_tile_refuted)."
  },
  {
   "property": "C29",
   "status": "proved",
   "theorems": [
    "Gov1.C29_dimensions",
    "Gov1.C29_size_roundtrip"
   ],
   "note": ""
  },
  {
   "property": "C30",
   "status": "proved",
   "theorems": [
    "Gov1.C30_segmentation"
   ],
   "note": ""
  },
  {
   "property": "C31",
   "status": "partial",
   "theorems": [
    "Gov1.C31_qindex_partial",
    "Gov1.C31_qindex_refuted",
    "Gov1.C31_lossless"
   ],
   "note": "Range and lossless rule proved; refuted for the running index (GetQIndex drops the segment delta)."
  },
  {
   "property": "C32",
   "status": "partial",
   "theorems": [
    "Gov1.C32_lossless_levels_refuted",
    "Gov1.C32_loop_filter_partial"
   ],
   "note": "Refuted: the second level of lossless frames is 1; ranges proved."
  },
  {
   "property": "C33",
   "status": "proved",
   "theorems": [
    "Gov1.C33_cdef",
    "Gov1.C33_restoration"
   ],
   "note": ""
  },
  {
   "property": "C34",
   "status": "partial",
   "theorems": [
    "Gov1.C34_skip_mode_never",
    "Gov1.C34_skip_mode_enabled",
    "Gov1.C34_offered_refuted"
   ],
   "note": "Never offered where not allowed: proved. Offered where allowed: refuted (negated condition, unset field)."
  },
  {
   "property": "C35",
   "status": "proved",
   "theorems": [
    "Gov1.C35_subexp_range",
    "Gov1.C35_subexp_terminates",
    "Gov1.C35_subexp_roundtrip",
    "Gov1.C35_withRef_range",
    "Gov1.C35_withRef_roundtrip"
   ],
   "note": ""
  },
  {
   "property": "C36",
   "status": "proved",
   "theorems": [
    "Gov1.C36_film_grain",
    "Gov1.C36_no_grain",
    "Gov1.C36_film_grain_roundtrip"
   ],
   "note": ""
  },
  {
   "property": "C37",
   "status": "proved",
   "theorems": [
    "Gov1.C37_symbol",
    "Gov1.C37_history"
   ],
   "note": ""
  },
  {
   "property": "C38",
   "status": "proved",
   "theorems": [
    "Gov1.C38_invariants",
    "Gov1.C38_never_fails"
   ],
   "note": ""
  },
  {
   "property": "C39",
   "status": "proved",
   "theorems": [
    "Gov1.C39_roundtrip",
    "Gov1.C39_encodable"
   ],
   "note": ""
  },
  {
   "property": "C40",
   "status": "proved",
   "theorems": [
    "Gov1.C40_tile_consumed"
   ],
   "note": ""
  },
  {
   "property": "C41",
   "status": "proved",
   "theorems": [
    "Gov1.C41_disabled"
   ],
   "note": ""
  },
  {
   "property": "C42",
   "status": "partial",
   "theorems": [
    "Gov1.C42_defaults_constant_refuted",
    "Gov1.C42_defaults_constant_partial",
    "Gov1.C42_stream_refuted",
    "Gov1.C42_end_partial"
   ],
   "note": "Over whole streams: C42_stream_refuted shows that every tile group of an accepted stream is decoded with the program's default tables if and only if no earlier OBU carries a picture coded with adaptive probabilities, and that after such a picture the tables common to all quantizer classes differ from the defaults for good; C42_end_partial says the same of the tables left at the end of the stream."
  },
  {
   "property": "C43",
   "status": "partial",
   "theorems": [
    "Gov1.C43_default_tables_partial",
    "Gov1.C43_segment_id_predicted_refuted",
    "Gov1.C43_skip_mode_refuted",
    "Gov1.C43_default_contexts_decode"
   ],
   "note": "All default tables are valid but two: the context of segment_id_predicted and of skip_mode (each refuted). C43_default_contexts_decode: the valid ones can be decoded with."
  },
  {
   "property": "C44",
   "status": "proved",
   "theorems": [
    "Gov1.C44_literal_is_bits",
    "Gov1.C44_literal_range",
    "Gov1.C44_ns_range"
   ],
   "note": ""
  },
  {
   "property": "C45",
   "status": "proved",
   "theorems": [
    "Gov1.C45_tile_loop",
    "Gov1.C45_roundtrip"
   ],
   "note": ""
  },
  {
   "property": "C46",
   "status": "partial",
   "theorems": [
    "Gov1.C46_partition_cover_partial",
    "Gov1.C46_horz_refuted",
    "Gov1.C46_horz_a_refuted",
    "Gov1.C46_vert_b_refuted",
    "Gov1.C46_vert_4_refuted"
   ],
   "note": "Refuted for HORZ, HORZ_A, VERT_B and VERT_4 (each for every block that reads it); proved exactly-once coverage for all recursions using the other types."
  },
  {
   "property": "C47",
   "status": "proved",
   "theorems": [
    "Gov1.C47_wht_inverts",
    "Gov1.C47_wht_onto"
   ],
   "note": ""
  },
  {
   "property": "C48",
   "status": "proved",
   "theorems": [
    "Gov1.C48_dequant_value",
    "Gov1.C48_block"
   ],
   "note": ""
  },
  {
   "property": "C49",
   "status": "partial",
   "theorems": [
    "Gov1.C49_dc",
    "Gov1.C49_ac_table",
    "Gov1.C49_ac_refuted",
    "Gov1.C49_ac_partial"
   ],
   "note": "DC and both tables proved; the AC lookup is refuted for every index >= 4 (the DC table is read)."
  },
  {
   "property": "C50",
   "status": "partial",
   "theorems": [
    "Gov1.C50_positions",
    "Gov1.C50_order_partial",
    "Gov1.C50_order_refuted"
   ],
   "note": "Positions proved for all 19 sizes; order proved for all but 64x16, which is refuted (the scan of 16x32 is used)."
  },
  {
   "property": "C51",
   "status": "proved",
   "theorems": [
    "Gov1.C51_constrain",
    "Gov1.C51_constrain_ends",
    "Gov1.C51_pixel"
   ],
   "note": "Proved for all integers: the constraint is bounded by the difference and by the strength and has the sign of the difference; the filtered pixel stays between the least and greatest pixel involved."
  },
  {
   "property": "C52",
   "status": "proved",
   "theorems": [
    "Gov1.C52_narrow_vertical",
    "Gov1.C52_narrow_horizontal",
    "Gov1.C52_range",
    "Gov1.C52_mask_off"
   ],
   "note": "The narrow filter at vertical and horizontal edges equals the specification's on the four samples and touches nothing else; result in range; mask off changes nothing."
  },
  {
   "property": "C53",
   "status": "partial",
   "theorems": [
    "Gov1.C53_level",
    "Gov1.C53_level_zero",
    "Gov1.C53_neighbour_refuted"
   ],
   "note": "The level equals the specification's (segment feature, reference and mode deltas, clipped) in 0..63 and level 0 leaves the edge. False of the code: AV1 falls back to the neighbour's level, the code does not."
  },
  {
   "property": "C54",
   "status": "partial",
   "theorems": [
    "Gov1.C54_update_partial",
    "Gov1.C54_size_refuted",
    "Gov1.C54_load_refuted",
    "Gov1.C54_pictures_refuted",
    "Gov1.C54_history_partial"
   ],
   "note": "C54_update_partial: for frames up to 9x9 pixels the refreshed slots hold the frame (headers, hints, per unit data, global motion, picture, CDFs), all others are unchanged; C54_history_partial over histories of saves. Refuted: a larger frame panics (LrFrame is [3][9][9]), loading always panics, pictures are lost with the next tile group. Loop filter, segmentation and grain parameters are not saved by the code and not modelled."
  },
  {
   "property": "C55",
   "status": "partial",
   "theorems": [
    "Gov1.C55_context_clearing_partial",
    "Gov1.C55_context_clearing_refuted",
    "Gov1.C55_left_clearing_refuted"
   ],
   "note": "Refuted: every frame wider (higher) than three 4x4 units panics; proved on smaller ones."
  },
  {
   "property": "C56",
   "status": "partial",
   "theorems": [
    "Gov1.C56_paeth",
    "Gov1.C56_paeth_range",
    "Gov1.C56_smooth_range",
    "Gov1.C56_dc",
    "Gov1.C56_dc_range",
    "Gov1.C56_dc_none",
    "Gov1.C56_dc_above_refuted",
    "Gov1.C56_dc_left_refuted"
   ],
   "note": "Paeth, the smooth modes, DC with both or no neighbours: exact rounded average and range. Refuted: DC with one neighbour writes 0 or 2 whatever the edge."
  },
  {
   "property": "C57",
   "status": "partial",
   "theorems": [
    "Gov1.C57_short_partial",
    "Gov1.C57_long_refuted",
    "Gov1.C57_vector_partial",
    "Gov1.C57_unreachable_refuted",
    "Gov1.C57_clamp"
   ],
   "note": "Refuted for differences beyond two pixels (the bits of the class are or-ed at position 1): proved exactly which components decode correctly and that the others can never be decoded; clamping is proved in full."
  },
  {
   "property": "C58",
   "status": "partial",
   "theorems": [
    "Gov1.C58_push",
    "Gov1.C58_sources",
    "Gov1.C58_cache_partial",
    "Gov1.C58_left_refuted",
    "Gov1.C58_nil_refuted"
   ],
   "note": "Proved for the merge with an allocated cache (sortedness, membership of all above colours and of those of the left that are smaller than some colour above); refuted: a left tail is lost, and PaletteCache is never allocated so any colour above panics."
  },
  {
   "property": "C59",
   "status": "partial",
   "theorems": [
    "Gov1.C59_redundant_header_refuted"
   ],
   "note": "Refuted: FrameHeaderCopy panics."
  },
  {
   "property": "C60",
   "status": "partial",
   "theorems": [
    "Gov1.C60_operating_point_persistence_refuted",
    "Gov1.C60_operating_point_persistence_partial"
   ],
   "note": "Refuted across frame units; proved within a frame unit."
  },
  {
   "property": "C61",
   "status": "partial",
   "theorems": [
    "Gov1.C61_contexts_wired_partial",
    "Gov1.C61_contexts_wired_refuted"
   ],
   "note": "Proved for every context but the one of the reference motion vectors, for which it is refuted."
  },
  {
   "property": "C62",
   "status": "proved",
   "theorems": [
    "Gov1.C62_uniform_limits"
   ],
   "note": ""
  },
  {
   "property": "C63",
   "status": "partial",
   "theorems": [
    "Gov1.C63_uniform_rows_signalled_refuted"
   ],
   "note": "Refuted for every frame size in the stated range: no row increment is ever read."
  },
  {
   "property": "C64",
   "status": "partial",
   "theorems": [
    "Gov1.C64_render_size_refuted",
    "Gov1.C64_render_size_partial"
   ],
   "note": "Refuted: UpscaledHeight is never assigned, so the default render height is 0; coded sizes proved."
  },
  {
   "property": "C65",
   "status": "proved",
   "theorems": [
    "Gov1.C65_quant_roundtrip"
   ],
   "note": ""
  },
  {
   "property": "C66",
   "status": "partial",
   "theorems": [
    "Gov1.C66_feature_roundtrip_refuted",
    "Gov1.C66_feature_roundtrip_partial"
   ],
   "note": "Refuted for the reference feature 4..7; proved for all other values."
  },
  {
   "property": "C67",
   "status": "partial",
   "theorems": [
    "Gov1.C67_loop_filter_roundtrip_refuted",
    "Gov1.C67_loop_filter_roundtrip_partial"
   ],
   "note": "Refuted for every non-zero sharpness; round trip proved with a 6-bit sharpness field."
  },
  {
   "property": "C68",
   "status": "proved",
   "theorems": [
    "Gov1.C68_cdef_roundtrip"
   ],
   "note": ""
  },
  {
   "property": "C69",
   "status": "proved",
   "theorems": [
    "Gov1.C69_restoration_roundtrip"
   ],
   "note": ""
  },
  {
   "property": "C70",
   "status": "partial",
   "theorems": [
    "Gov1.C70_relative_distance",
    "Gov1.C70_distance_unique",
    "Gov1.C70_sign_bias_refuted",
    "Gov1.C70_sign_bias_partial"
   ],
   "note": "Distance proved and unique; sign bias refuted, its constant value proved."
  },
  {
   "property": "C71",
   "status": "partial",
   "theorems": [
    "Gov1.C71_types_partial",
    "Gov1.C71_params_refuted",
    "Gov1.C71_intra_identity"
   ],
   "note": "Types proved (range, intra identity, round trip); parameters refuted for every header."
  },
  {
   "property": "C72",
   "status": "proved",
   "theorems": [
    "Gov1.C72_header_consistent",
    "Gov1.C72_key_frame_total"
   ],
   "note": ""
  },
  {
   "property": "C73",
   "status": "partial",
   "theorems": [
    "Gov1.C73_show_existing_refuted",
    "Gov1.C73_show_existing_partial",
    "Gov1.C73_show_existing_statement_refuted"
   ],
   "note": "Refuted for every show-existing header; proved for all others."
  },
  {
   "property": "C74",
   "status": "partial",
   "theorems": [
    "Gov1.C74_key_frame_resets_refuted",
    "Gov1.C74_key_frame_resets_statement_refuted"
   ],
   "note": "Refuted for every header: validity and hints in the state never change."
  },
  {
   "property": "C75",
   "status": "partial",
   "theorems": [
    "Gov1.C75_screen_content_refuted",
    "Gov1.C75_screen_content_partial"
   ],
   "note": "Refuted when forced off; proved for forced on and for the coded choice."
  },
  {
   "property": "C76",
   "status": "partial",
   "theorems": [
    "Gov1.C76_refresh_flags_refuted",
    "Gov1.C76_hidden_key_refuted",
    "Gov1.C76_refresh_flags_partial"
   ],
   "note": "Refuted for every shown frame and (C76_hidden_key_refuted) for every hidden key frame, whose eight bits are not read; proved for switch, shown key and other hidden frames."
  },
  {
   "property": "C77",
   "status": "partial",
   "theorems": [
    "Gov1.C77_ref_idx_refuted",
    "Gov1.C77_ref_idx_partial"
   ],
   "note": "Refuted; the range of the result is proved."
  },
  {
   "property": "C78",
   "status": "partial",
   "theorems": [
    "Gov1.C78_primary_ref_refuted"
   ],
   "note": "Refuted: the primary reference is 7 in every returned header."
  },
  {
   "property": "C79",
   "status": "partial",
   "theorems": [
    "Gov1.C79_frame_ids_refuted",
    "Gov1.C79_frame_ids_partial"
   ],
   "note": "Refuted: no header is returned; the id of show-existing headers is read exactly."
  },
  {
   "property": "C80",
   "status": "proved",
   "theorems": [
    "Gov1.C80_intra_independent"
   ],
   "note": ""
  },
  {
   "property": "C81",
   "status": "proved",
   "theorems": [
    "Gov1.C81_tiles_partition"
   ],
   "note": ""
  },
  {
   "property": "C82",
   "status": "proved",
   "theorems": [
    "Gov1.C82_superblocks_cover_tile"
   ],
   "note": ""
  },
  {
   "property": "C83",
   "status": "partial",
   "theorems": [
    "Gov1.C83_flags_refuted",
    "Gov1.C83_flags_128_refuted"
   ],
   "note": "Refuted: at most two of the 169 flags are written; 128x128 superblocks panic."
  },
  {
   "property": "C84",
   "status": "partial",
   "theorems": [
    "Gov1.C84_edge_block_refuted",
    "Gov1.C84_corner_block_partial",
    "Gov1.C84_mass_partial"
   ],
   "note": "Refuted for every block crossing exactly one edge; proved for blocks crossing both."
  },
  {
   "property": "C85",
   "status": "proved",
   "theorems": [
    "Gov1.C85_partition_depth"
   ],
   "note": ""
  },
  {
   "property": "C86",
   "status": "proved",
   "theorems": [
    "Gov1.C86_hadamard"
   ],
   "note": ""
  },
  {
   "property": "C87",
   "status": "partial",
   "theorems": [
    "Gov1.C87_rotation_refuted",
    "Gov1.C87_rotation_partial"
   ],
   "note": "Refuted: every angle not congruent to 64 mod 256 panics; proved for the quarter turn."
  },
  {
   "property": "C88",
   "status": "partial",
   "theorems": [
    "Gov1.C88_dct_refuted",
    "Gov1.C88_adst_refuted",
    "Gov1.C88_dct_plan_partial",
    "Gov1.C88_adst_plan_partial",
    "Gov1.C88_plan_refuted"
   ],
   "note": "Refuted: no inverse DCT/ADST of any size ever returns."
  },
  {
   "property": "C89",
   "status": "proved",
   "theorems": [
    "Gov1.C89_identity"
   ],
   "note": ""
  },
  {
   "property": "C90",
   "status": "partial",
   "theorems": [
    "Gov1.C90_unallocated_refuted",
    "Gov1.C90_columns_refuted",
    "Gov1.C90_kinds_partial",
    "Gov1.C90_row_shift_partial",
    "Gov1.C90_rect_partial"
   ],
   "note": "Refuted: t.T is nil in every tile group, so the transform panics; with arrays allocated all rows of the residual come out equal."
  },
  {
   "property": "C91",
   "status": "proved",
   "theorems": [
    "Gov1.C91_weights"
   ],
   "note": ""
  },
  {
   "property": "C92",
   "status": "partial",
   "theorems": [
    "Gov1.C92_reconstruct_refuted",
    "Gov1.C92_pixels_refuted",
    "Gov1.C92_flips_partial"
   ],
   "note": "Refuted: reconstruct never returns; addResidual stores 2 in every pixel."
  },
  {
   "property": "C93",
   "status": "proved",
   "theorems": [
    "Gov1.C93_sound",
    "Gov1.C93_total",
    "Gov1.C93_safe",
    "Gov1.C93_complete",
    "Gov1.C93_stall"
   ],
   "note": "Links Rd.exec (arithmetic decoder on bytes) and Rd.run (list of replies) in both directions; later block-syntax theorems are stated on Rd."
  },
  {
   "property": "C94",
   "status": "partial",
   "theorems": [
    "Gov1.C94_layout_fits",
    "Gov1.C94_coeff_base_partial",
    "Gov1.C94_coeff_base_refuted"
   ],
   "note": "Fits holds for every class (with the shapes as they are); the shape AV1 prescribes is proved for classes 0-2 and refuted for class 3 (stray rows at DEFAULT_COEFF_BASE_CDF[3][0][1])."
  },
  {
   "property": "C95",
   "status": "partial",
   "theorems": [
    "Gov1.C95_contexts_distinct_refuted"
   ],
   "note": "Refuted: MvJoint, MvSign, DeltaLFMulti contexts alias."
  },
  {
   "property": "C96",
   "status": "partial",
   "theorems": [
    "Gov1.C96_coeffs_partial",
    "Gov1.C96_tx_types_refuted",
    "Gov1.C96_chroma_refuted"
   ],
   "note": "Partial: proved for a transform type array that covers the frame and without chroma 4x4 blocks of the highest quantizer class; both exceptions refuted for all blocks concerned."
  },
  {
   "property": "C97",
   "status": "partial",
   "theorems": [
    "Gov1.C97_golomb_partial",
    "Gov1.C97_terminates_refuted",
    "Gov1.C97_overflow",
    "Gov1.C97_overflow_harmless",
    "Gov1.C97_overflow_refuted"
   ],
   "note": "Partial: round trip proved for every number below 2^63; termination refuted for every block; beyond 64 bits the wrapped value is proved exactly, its low 16 bits shown unaffected, and its sign (used for the DC context) refuted."
  },
  {
   "property": "C98",
   "status": "partial",
   "theorems": [
    "Gov1.C98_roundtrip_partial",
    "Gov1.C98_negative_refuted"
   ],
   "note": "Partial: coefficients after the first nonnegative, magnitudes below 2^16 (the code masks with 0xFFFF); negative ones refuted for all blocks."
  },
  {
   "property": "C99",
   "status": "partial",
   "theorems": [
    "Gov1.C99_eob_refuted",
    "Gov1.C99_eob_returned_refuted"
   ],
   "note": "Refuted for every input: the value returned is 0."
  },
  {
   "property": "C100",
   "status": "proved",
   "theorems": [
    "Gov1.C100_type_allowed",
    "Gov1.C100_type_codable",
    "Gov1.C100_in_set"
   ],
   "note": "Full."
  },
  {
   "property": "C101",
   "status": "proved",
   "theorems": [
    "Gov1.C101_contexts"
   ],
   "note": "Full for blocks with coefficients."
  },
  {
   "property": "C102",
   "status": "partial",
   "theorems": [
    "Gov1.C102_limit_partial",
    "Gov1.C102_limit_refuted",
    "Gov1.C102_masks"
   ],
   "note": "Masks proved for all samples. The limit is proved for sharpness 0 and above 4; for 1 to 4 the shift is wrong (refuted for all such sharpness values and levels in a range)."
  },
  {
   "property": "C103",
   "status": "partial",
   "theorems": [
    "Gov1.C103_size_partial",
    "Gov1.C103_size_refuted"
   ],
   "note": "Proved for vertical edges; false for horizontal edges (refuted: the lower transform is ignored)."
  },
  {
   "property": "C104",
   "status": "partial",
   "theorems": [
    "Gov1.C104_identity_refuted",
    "Gov1.C104_panics_refuted",
    "Gov1.C104_inside_partial",
    "Gov1.C104_selected_partial",
    "Gov1.C104_filtered_refuted"
   ],
   "note": "False of the code: whenever the filter returns, the frame is unchanged, and it panics for every frame wider than 8 pixels."
  },
  {
   "property": "C105",
   "status": "proved",
   "theorems": [
    "Gov1.C105_direction",
    "Gov1.C105_directional",
    "Gov1.C105_flat",
    "Gov1.C105_offsets"
   ],
   "note": "Proved for all blocks of all bit depths from 8 on."
  },
  {
   "property": "C106",
   "status": "partial",
   "theorems": [
    "Gov1.C106_filter_partial",
    "Gov1.C106_taps_refuted"
   ],
   "note": "The filter equals the specification for every picture and call whose primary strength selects the weights 4, 2. Refuted for odd strengths: the code indexes the weights with a strength that is not scaled down, and the general refutation is quantified."
  },
  {
   "property": "C107",
   "status": "partial",
   "theorems": [
    "Gov1.C107_copied",
    "Gov1.C107_filtered_partial",
    "Gov1.C107_damping_refuted"
   ],
   "note": "Copied blocks proved in full; filtered blocks for luma and for chroma with a primary strength. Refuted: chroma damping is not reduced when the primary strength is zero."
  },
  {
   "property": "C108",
   "status": "partial",
   "theorems": [
    "Gov1.C108_frame_partial",
    "Gov1.C108_off",
    "Gov1.C108_size_refuted",
    "Gov1.C108_skips_refuted"
   ],
   "note": "Proved for arrays that cover the frame. Refuted: the code's arrays have 16x16 pixels and 2x2 skip flags, CDEF panics for every larger frame."
  },
  {
   "property": "C109",
   "status": "partial",
   "theorems": [
    "Gov1.C109_clear_partial",
    "Gov1.C109_clear128_refuted",
    "Gov1.C109_wide_refuted",
    "Gov1.C109_unchanged",
    "Gov1.C109_read_partial",
    "Gov1.C109_bits_refuted",
    "Gov1.C109_columns_refuted"
   ],
   "note": "Clearing and reading proved for the superblock's first 64x64 block. Refuted: with 128x128 superblocks three of four indices are not cleared; frames with four superblocks in a row panic; cdef_bits is never used, so no bit is read; blocks right of the diagonal panic."
  },
  {
   "property": "C110",
   "status": "proved",
   "theorems": [
    "Gov1.C110_all_zero_luma",
    "Gov1.C110_all_zero_chroma",
    "Gov1.C110_dc_sign",
    "Gov1.C110_base",
    "Gov1.C110_last",
    "Gov1.C110_br",
    "Gov1.C110_base_array",
    "Gov1.C110_br_array",
    "Gov1.C110_sign_array",
    "Gov1.C110_eob_array",
    "Gov1.C110_eob_extra_array",
    "Gov1.C110_all_zero_array"
   ],
   "note": "The model follows the code; the specification gives neighbours, thresholds and offsets by AV1's rules, without the decoder's tables. Hypotheses: the context arrays reach the positions used (C105-type sizes are refuted separately) and, for chroma, entries are not negative."
  },
  {
   "property": "C111",
   "status": "partial",
   "theorems": [
    "Gov1.C111_filter_partial",
    "Gov1.C111_sum_partial",
    "Gov1.C111_flat_partial",
    "Gov1.C111_position_partial",
    "Gov1.C111_identity_refuted",
    "Gov1.C111_size_refuted",
    "Gov1.C111_value_refuted"
   ],
   "note": "Proved: filter table, weighted sum, flat rows, filter position within the step's rounding. Refuted: without super resolution pixels are taken one column to the left, a plane larger than 9x9 panics, and every smaller frame becomes the constant 2 (Clip1 ignores its argument)."
  },
  {
   "property": "C112",
   "status": "partial",
   "theorems": [
    "Gov1.C112_copy_partial",
    "Gov1.C112_size_refuted",
    "Gov1.C112_grain_refuted",
    "Gov1.C112_shown_refuted",
    "Gov1.C112_hidden_partial"
   ],
   "note": "Proved: the copy loops for arrays large enough, and hidden frames. Refuted: the arrays hold 1x1 pixels, so every shown frame of more than one pixel panics; so do film grain and operating points."
  },
  {
   "property": "C113",
   "status": "partial",
   "theorems": [
    "Gov1.C113_stripe_partial",
    "Gov1.C113_cover_partial",
    "Gov1.C113_sample_partial",
    "Gov1.C113_off_partial",
    "Gov1.C113_none_partial",
    "Gov1.C113_window_partial",
    "Gov1.C113_box_partial",
    "Gov1.C113_flat_partial",
    "Gov1.C113_wiener_taps_refuted",
    "Gov1.C113_wiener_symmetric_refuted",
    "Gov1.C113_wiener_refuted",
    "Gov1.C113_sgr_refuted"
   ],
   "note": "Proved: stripes, exact cover by blocks, source samples, off and RESTORE_NONE, range and flat value of the guided coefficient. Refuted: Wiener taps are not symmetric (universally), a Wiener unit panics, a self guided unit panics for every plane of more than one pixel."
  },
  {
   "property": "C114",
   "status": "partial",
   "theorems": [
    "Gov1.C114_units_partial",
    "Gov1.C114_luma_refuted",
    "Gov1.C114_type_refuted",
    "Gov1.C114_wiener_refuted",
    "Gov1.C114_subexp_partial",
    "Gov1.C114_subexp_refuted",
    "Gov1.C114_range_refuted",
    "Gov1.C114_sgr_partial"
   ],
   "note": "Proved: chroma units are read with exactly one superblock (no super resolution), subexponential codes of the first two buckets, self guided units. Refuted: luma units of subsampled frames, frames with one filter type, Wiener units, all codes from the third bucket on, and the range."
  },
  {
   "property": "C115",
   "status": "partial",
   "theorems": [
    "Gov1.C115_tables_partial",
    "Gov1.C115_lossless_partial",
    "Gov1.C115_largest_partial",
    "Gov1.C115_depth_partial",
    "Gov1.C115_above_partial",
    "Gov1.C115_left_partial",
    "Gov1.C115_left_refuted",
    "Gov1.C115_edge_refuted",
    "Gov1.C115_intra_skip_refuted",
    "Gov1.C115_inter_skip_refuted",
    "Gov1.C115_tree_refuted",
    "Gov1.C115_size_refuted"
   ],
   "note": "Proved: the tables of all 22 block sizes, lossless and largest transforms, the coded depth of intra blocks with residual, the context of the neighbour above. Refuted for all such blocks: the left context in the first row of a tile, the first column below the first row (panic), blocks without residual (depth read for inter, not for intra), the transform tree (panic), blocks beyond 256 pixels (panic)."
  },
  {
   "property": "C116",
   "status": "proved",
   "theorems": [
    "Gov1.C116_cover"
   ],
   "note": "Proved for all block sizes, positions, frames and chroma formats (4:2:2 for the blocks that exist there), for intra, lossless and inter blocks, for every array of transform sizes."
  },
  {
   "property": "C117",
   "status": "partial",
   "theorems": [
    "Gov1.C117_order_partial",
    "Gov1.C117_order_refuted"
   ],
   "note": "Proved for blocks of at most 64x64 pixels without a transform tree; refuted for all blocks with a side of 128 pixels inside the frame with chroma. Not stated: the order inside a transform tree."
  },
  {
   "property": "C118",
   "status": "partial",
   "theorems": [
    "Gov1.C118_plane",
    "Gov1.C118_marks_partial",
    "Gov1.C118_column_refuted",
    "Gov1.C118_size_refuted",
    "Gov1.C118_mask_refuted"
   ],
   "note": "Proved for square transform blocks on the diagonal with 64x64 superblocks; refuted for every transform block off the diagonal (wrong column), beyond the first 8 rows (panic) and, with 128x128 superblocks, exactly the rows with bit 1 or 3 set."
  },
  {
   "property": "C119",
   "status": "partial",
   "theorems": [
    "Gov1.C119_luma_partial",
    "Gov1.C119_chroma_refuted"
   ],
   "note": "Proved for luma; refuted for every chroma transform block (panic)."
  },
  {
   "property": "C120",
   "status": "partial",
   "theorems": [
    "Gov1.C120_luma_partial",
    "Gov1.C120_result_refuted"
   ],
   "note": "Proved: the luma values and their total. Refuted: every predicted pixel is 2, whatever the input."
  },
  {
   "property": "C121",
   "status": "proved",
   "theorems": [
    "Gov1.C121_qindex",
    "Gov1.C121_qindex_keep",
    "Gov1.C121_loop_filter",
    "Gov1.C121_loop_filter_keep"
   ],
   "note": "Proved for all deltas of up to 512 (the largest the code can express)."
  },
  {
   "property": "C122",
   "status": "partial",
   "theorems": [
    "Gov1.C122_context_partial",
    "Gov1.C122_id_partial",
    "Gov1.C122_same_refuted",
    "Gov1.C122_clip_refuted"
   ],
   "note": "Prediction and context are AV1's; the id is only right for predicted ids 0 and 1 (negDeinterleave tests ref == 1) and is not clipped to the last active segment."
  },
  {
   "property": "C123",
   "status": "partial",
   "theorems": [
    "Gov1.C123_y_mode",
    "Gov1.C123_angle",
    "Gov1.C123_cfl_inter_frame",
    "Gov1.C123_cfl_refuted",
    "Gov1.C123_cfl_intra_frame_partial"
   ],
   "note": "Luma mode, angles and the inter frame chroma choice proved; in intra frames every lossy block with a longer side of 32 reads the wrong alphabet (< 32 for <= 32)."
  },
  {
   "property": "C124",
   "status": "partial",
   "theorems": [
    "Gov1.C124_segment",
    "Gov1.C124_partial",
    "Gov1.C124_context_refuted",
    "Gov1.C124_panic_refuted"
   ],
   "note": "The context is computed from SkipModes (2x2, always 0 in intra frames) instead of Skips: always 0, and a panic beyond two units."
  },
  {
   "property": "C125",
   "status": "proved",
   "theorems": [
    "Gov1.C125_availability"
   ],
   "note": "Proved for all aligned blocks of tiles with even bounds."
  },
  {
   "property": "C126",
   "status": "partial",
   "theorems": [
    "Gov1.C126_records_partial",
    "Gov1.C126_fits_partial",
    "Gov1.C126_panic_refuted",
    "Gov1.C126_segment_refuted",
    "Gov1.C126_modes_partial",
    "Gov1.C126_mvs_refuted"
   ],
   "note": "The loops record exactly the units of the block where the arrays are large enough; most arrays are 2x2 (panic), segment ids and motion vectors are never recorded."
  },
  {
   "property": "C127",
   "status": "partial",
   "theorems": [
    "Gov1.C127_reset_partial",
    "Gov1.C127_refuted"
   ],
   "note": "resetBlockContext clears AV1's ranges, but is never called: decodeBlock tests state.Skip, which nothing assigns."
  },
  {
   "property": "C128",
   "status": "partial",
   "theorems": [
    "Gov1.C128_sign_refuted",
    "Gov1.C128_partial"
   ],
   "note": "Every sign is inverted (CFL_SIGN_NEG is 2); sizes are right."
  },
  {
   "property": "C129",
   "status": "partial",
   "theorems": [
    "Gov1.C129_reference_refuted",
    "Gov1.C129_uv_mode_refuted",
    "Gov1.C129_tools_refuted",
    "Gov1.C129_total_partial"
   ],
   "note": "Total with all ranges for frames without the unimplemented tools; RefFrame[0] is set to NONE (and RefFrame[1] not at all), so that chroma modes are never recorded; filter intra, palettes and intra block copy end in b.S(), a panic."
  },
  {
   "property": "C130",
   "status": "proved",
   "theorems": [
    "Gov1.C130_precision",
    "Gov1.C130_idempotent"
   ],
   "note": "Full."
  },
  {
   "property": "C131",
   "status": "partial",
   "theorems": [
    "Gov1.C131_global_partial",
    "Gov1.C131_positive_refuted"
   ],
   "note": "Refuted for a warp with positive displacement (Round2Signed rounds the constant 2); proved for identity, translation, non-positive displacements."
  },
  {
   "property": "C132",
   "status": "partial",
   "theorems": [
    "Gov1.C132_modes_partial",
    "Gov1.C132_nearest_refuted"
   ],
   "note": "Refuted for NEAREST_NEWMV and NEAR_NEWMV (first vector); the other modes proved."
  },
  {
   "property": "C133",
   "status": "partial",
   "theorems": [
    "Gov1.C133_assign_partial",
    "Gov1.C133_intrabc_refuted"
   ],
   "note": "Refuted for intra block copy (nil slice); proved for all other modes with at most the candidates present."
  },
  {
   "property": "C134",
   "status": "proved",
   "theorems": [
    "Gov1.C134_terminates"
   ],
   "note": "Full: every process of the search, single and compound."
  },
  {
   "property": "C135",
   "status": "partial",
   "theorems": [
    "Gov1.C135_candidates_refuted"
   ],
   "note": "Refuted: at most one candidate, never two references."
  },
  {
   "property": "C136",
   "status": "proved",
   "theorems": [
    "Gov1.C136_contexts"
   ],
   "note": "Full, for the calls that return."
  },
  {
   "property": "C137",
   "status": "proved",
   "theorems": [
    "Gov1.C137_bounds",
    "Gov1.C137_padding"
   ],
   "note": "Full, for the calls that return."
  },
  {
   "property": "C138",
   "status": "partial",
   "theorems": [
    "Gov1.C138_corner_partial",
    "Gov1.C138_foreign_refuted",
    "Gov1.C138_own_refuted"
   ],
   "note": "Refuted both ways (cells of other tiles are used, cells of the own tile are not); partial for the first block of a tile."
  },
  {
   "property": "C139",
   "status": "partial",
   "theorems": [
    "Gov1.C139_above_refuted",
    "Gov1.C139_temporal_refuted",
    "Gov1.C139_swap_refuted"
   ],
   "note": "Refuted: grid of 2x2 cells, motion field never stored, swap loses a candidate."
  },
  {
   "property": "C140",
   "status": "partial",
   "theorems": [
    "Gov1.C140_context_partial",
    "Gov1.C140_segment_partial",
    "Gov1.C140_global_refuted"
   ],
   "note": "The context is AV1's. Refuted: segments with global motion make a block intra instead of inter. Missing: skip mode, which is never on (C146)."
  },
  {
   "property": "C141",
   "status": "partial",
   "theorems": [
    "Gov1.C141_code_partial",
    "Gov1.C141_missing_refuted",
    "Gov1.C141_contexts_partial",
    "Gov1.C141_contexts_refuted"
   ],
   "note": "Codes of LAST, LAST2, BWDREF, ALTREF2 and ALTREF are read; contexts agree under a stated condition on the neighbours. Refuted: LAST3, GOLDEN and two references are never read (b.S() panics); the contexts of single_ref_p2 and single_ref_p4 are wrong for the stated neighbourhoods."
  },
  {
   "property": "C142",
   "status": "proved",
   "theorems": [
    "Gov1.C142_least"
   ],
   "note": "Full, for maps of the size of the frame with ids up to 7 and every block starting in the frame."
  },
  {
   "property": "C143",
   "status": "partial",
   "theorems": [
    "Gov1.C143_id_partial",
    "Gov1.C143_update_refuted"
   ],
   "note": "All cases that need no unimplemented syntax. Refuted: map update with a skipped block after the skip flag, and temporal update, never get through."
  },
  {
   "property": "C144",
   "status": "partial",
   "theorems": [
    "Gov1.C144_y_mode",
    "Gov1.C144_intra_partial",
    "Gov1.C144_tools_refuted"
   ],
   "note": "The context is proved for every block size; totality and ranges for blocks to which neither screen content tools nor filter intra apply; where they apply, the code panics (C144_tools_refuted)."
  },
  {
   "property": "C145",
   "status": "partial",
   "theorems": [
    "Gov1.C145_new_partial",
    "Gov1.C145_segment_partial",
    "Gov1.C145_near_refuted"
   ],
   "note": "NEWMV and GLOBALMV. Refuted: NEARESTMV, NEARMV and the compound modes are never decoded."
  },
  {
   "property": "C146",
   "status": "partial",
   "theorems": [
    "Gov1.C146_tools_refuted",
    "Gov1.C146_skip_mode_refuted"
   ],
   "note": "Refuted for every header and symbol sequence: the theorem lists what a block that gets through cannot use."
  },
  {
   "property": "C147",
   "status": "partial",
   "theorems": [
    "Gov1.C147_neighbours_partial",
    "Gov1.C147_missing_refuted",
    "Gov1.C147_block_partial"
   ],
   "note": "For the first block of a tile with no inter block around it, and for blocks with neighbours above and to the left, differences up to 2 pixels, motion mode and filter not switchable. References, modes and tools the code never decodes: C147_missing_refuted, C146."
  },
  {
   "property": "C148",
   "status": "partial",
   "theorems": [
    "Gov1.C148_scans_partial",
    "Gov1.C148_pair_partial",
    "Gov1.C148_pair_precision_refuted",
    "Gov1.C148_near_partial",
    "Gov1.C148_candidate_partial",
    "Gov1.C148_precision_partial"
   ],
   "note": "For one reference: every candidate of the near and far scans. For two references the pair and where it comes from are proved, the reduction to the precision is refuted. Candidates of the motion field: C139_temporal_refuted (panic)."
  },
  {
   "property": "C149",
   "status": "proved",
   "theorems": [
    "Gov1.C149_above",
    "Gov1.C149_left",
    "Gov1.C149_far"
   ],
   "note": "Both scans and the far scans."
  },
  {
   "property": "C150",
   "status": "proved",
   "theorems": [
    "Gov1.C150_pixels"
   ],
   "note": "Any sequence of calls from a plane of zeros."
  },
  {
   "property": "C151",
   "status": "proved",
   "theorems": [
    "Gov1.C151_block"
   ],
   "note": "Exact frame condition."
  },
  {
   "property": "C152",
   "status": "partial",
   "theorems": [
    "Gov1.C152_left_refuted",
    "Gov1.C152_above_refuted",
    "Gov1.C152_none_refuted",
    "Gov1.C152_above_partial"
   ],
   "note": "Refuted: below row 0 the pixels above never matter; the left column is put in the row above; wrong constants. Proved: layout of the edges without a left neighbour."
  },
  {
   "property": "C153",
   "status": "partial",
   "theorems": [
    "Gov1.C153_large_refuted",
    "Gov1.C153_small_partial",
    "Gov1.C153_filter_refuted"
   ],
   "note": "Refuted for 16 pixels and more and for filter intra. Proved for all blocks of 4 and 8 pixels in the non-directional modes."
  },
  {
   "property": "C154",
   "status": "partial",
   "theorems": [
    "Gov1.C154_derivative",
    "Gov1.C154_vertical_partial",
    "Gov1.C154_horizontal_refuted",
    "Gov1.C154_left_partial",
    "Gov1.C154_above_refuted",
    "Gov1.C154_between_refuted"
   ],
   "note": "Vertical and above 180 degrees: AV1's formula on the edges. Refuted: horizontal, below 90, between 90 and 163 degrees. Derivatives: complete table."
  },
  {
   "property": "C155",
   "status": "partial",
   "theorems": [
    "Gov1.C155_filter_refuted",
    "Gov1.C155_type_refuted",
    "Gov1.C155_type_partial",
    "Gov1.C155_chroma_refuted",
    "Gov1.C155_chroma_partial",
    "Gov1.C155_strength_partial",
    "Gov1.C155_strength_refuted",
    "Gov1.C155_corner"
   ],
   "note": "Refuted: with both neighbours only 90, 180 and (4x4) 130 to 140 degrees return; the left neighbour decides the type alone."
  },
  {
   "property": "C156",
   "status": "partial",
   "theorems": [
    "Gov1.C156_onscreen",
    "Gov1.C156_once",
    "Gov1.C156_neighbours",
    "Gov1.C156_chroma_refuted",
    "Gov1.C156_chroma_partial",
    "Gov1.C156_context_refuted"
   ],
   "note": "The anti-diagonal walk is proved to visit each on-screen pixel once and neighbours first; the chroma size is AV1's for equal subsampling in both directions; refuted for 4:2:2 and for the contexts."
  },
  {
   "property": "C157",
   "status": "partial",
   "theorems": [
    "Gov1.C157_residual_refuted"
   ],
   "note": "Refuted: a relational theorem about two executions of residual on arbitrary tile data."
  },
  {
   "property": "C158",
   "status": "proved",
   "theorems": [
    "Gov1.C158_pixels"
   ],
   "note": "Proved for residual as a whole (palette, intra, chroma from luma), from the ranges of each predictor; the reconstruction is never reached (C157)."
  },
  {
   "property": "C159",
   "status": "proved",
   "theorems": [
    "Gov1.C159_outside"
   ],
   "note": "Proved for residual as a whole, composed with the coverage theorem C116_cover."
  },
  {
   "property": "C160",
   "status": "partial",
   "theorems": [
    "Gov1.C160_mode",
    "Gov1.C160_extent",
    "Gov1.C160_corners",
    "Gov1.C160_luma_refuted",
    "Gov1.C160_chroma_refuted",
    "Gov1.C160_partial"
   ],
   "note": "Refuted for luma (pixels) and chroma (flags); proved if luma and chroma neighbours are equally available."
  },
  {
   "property": "C161",
   "status": "partial",
   "theorems": [
    "Gov1.C161_checks",
    "Gov1.C161_intrabc_refuted",
    "Gov1.C161_scaling_refuted",
    "Gov1.C161_scaling_partial",
    "Gov1.C161_step_refuted"
   ],
   "note": "Model/Inter models motionVectorScalingProcess. C161_checks proves the size checks; C161_scaling_refuted and C161_step_refuted prove the start (32, 32) and step 0; C161_scaling_partial proves the start for positions before the frame. Go ints are unbounded in the model."
  },
  {
   "property": "C162",
   "status": "partial",
   "theorems": [
    "Gov1.C162_flat_partial",
    "Gov1.C162_block_refuted",
    "Gov1.C162_values_partial"
   ],
   "note": "C162_flat_partial proves flatness for one reference (compound blocks panic, C166); C162_block_refuted proves that the prediction is the top left sample. C162_values_partial gives every pixel's value exactly, but for the row of the table."
  },
  {
   "property": "C163",
   "status": "proved",
   "theorems": [
    "Gov1.C163_taps_sum",
    "Gov1.C163_shape",
    "Gov1.C163_symmetric",
    "Gov1.C163_identity"
   ],
   "note": "Complete tables, checked by kernel evaluation."
  },
  {
   "property": "C164",
   "status": "partial",
   "theorems": [
    "Gov1.C164_table_refuted",
    "Gov1.C164_total",
    "Gov1.C164_divisor_refuted",
    "Gov1.C164_divisor_partial"
   ],
   "note": "C164_divisor_refuted proves the factor 2, C164_table_refuted the wrong entry, C164_divisor_partial the precision of the remaining part; C164_total that it fails for 0 only."
  },
  {
   "property": "C165",
   "status": "partial",
   "theorems": [
    "Gov1.C165_diagonal_refuted",
    "Gov1.C165_range"
   ],
   "note": "C165_range is proved for every block including overlap; C165_diagonal_refuted proves which pixels are written."
  },
  {
   "property": "C166",
   "status": "partial",
   "theorems": [
    "Gov1.C166_classes_refuted",
    "Gov1.C166_place_refuted",
    "Gov1.C166_predict_partial",
    "Gov1.C166_warp_refuted",
    "Gov1.C166_no_warp_partial"
   ],
   "note": "C166_classes_refuted and C166_place_refuted prove the limits, C166_predict_partial that blocks within them (references of the size of the frame, no warp, no mask) are predicted. C166_no_warp_partial and C166_warp_refuted settle which blocks are warped (none is)."
  },
  {
   "property": "C167",
   "status": "partial",
   "theorems": [
    "Gov1.C167_blend",
    "Gov1.C167_left_refuted",
    "Gov1.C167_luma_refuted",
    "Gov1.C167_weights"
   ],
   "note": "C167_blend proves the blending; C167_left_refuted and C167_luma_refuted the panic for left neighbours. C167_weights gives the weights exactly."
  },
  {
   "property": "C168",
   "status": "partial",
   "theorems": [
    "Gov1.C168_partial",
    "Gov1.C168_sub8_refuted",
    "Gov1.C168_near",
    "Gov1.C168_intra_idle",
    "Gov1.C168_planes",
    "Gov1.C168_interintra"
   ],
   "note": "C168_partial for blocks with at least four pixels in the plane, C168_near with an intra neighbour, C168_sub8_refuted for the rest; C168_intra_idle for intra blocks. 4:2:2 is not covered. C168_planes: which planes; C168_interintra: the intra part of inter-intra blocks."
  },
  {
   "property": "C169",
   "status": "proved",
   "theorems": [
    "Gov1.C169_isScaled"
   ],
   "note": "Exact for all sizes below 32768 (AV1 allows up to 65536; with 14 bits of fraction the statement needs the bound)."
  },
  {
   "property": "C170",
   "status": "partial",
   "theorems": [
    "Gov1.C170_range",
    "Gov1.C170_round_refuted",
    "Gov1.C170_round_partial",
    "Gov1.C170_identity"
   ],
   "note": "C170_range, C170_identity proved; C170_round_refuted and C170_round_partial for the rounding of alpha and beta."
  },
  {
   "property": "C171",
   "status": "proved",
   "theorems": [
    "Gov1.C171_ends",
    "Gov1.C171_plane"
   ],
   "note": "C171_ends for a call, C171_plane for all calls of a plane."
  },
  {
   "property": "C172",
   "status": "partial",
   "theorems": [
    "Gov1.C172_none_refuted",
    "Gov1.C172_found_refuted",
    "Gov1.C172_ends",
    "Gov1.C172_search_partial",
    "Gov1.C172_looks_partial"
   ],
   "note": "Refuted: a search that takes a sample writes to a nil slice and panics, and one that does not panic has collected none (whatever the neighbourhood). Proved: the search always ends, and without a neighbour with the same reference it neither panics nor collects. Missing: the sample values, which are never stored."
  },
  {
   "property": "C173",
   "status": "partial",
   "theorems": [
    "Gov1.C173_nil_refuted",
    "Gov1.C173_master_partial",
    "Gov1.C173_symmetric",
    "Gov1.C173_monotone",
    "Gov1.C173_sizes",
    "Gov1.C173_codebook",
    "Gov1.C173_shape"
   ],
   "note": "Refuted: initialisation panics on the first mask of a block because the table is a nil slice. Proved of the master masks computed before: exact values, symmetry and monotonicity; of the tables: block sizes, offsets and shapes."
  },
  {
   "property": "C174",
   "status": "partial",
   "theorems": [
    "Gov1.C174_tile_partial",
    "Gov1.C174_frame_partial"
   ],
   "note": "Tile: C174_tile_partial; frame: C174_frame_partial. Missing: the partition types for which the layout is wrong in the code (C46_*_refuted), and frames for which clearing the contexts panics (C55), for which the statement holds only because nothing is decoded."
  },
  {
   "property": "C175",
   "status": "partial",
   "theorems": [
    "Gov1.C175_records",
    "Gov1.C175_size_refuted"
   ],
   "note": "C175_records for all blocks (without palettes and without an inter block's motion vector records). C175_size_refuted: the arrays have 2x2 units, so a block beyond the first 8x8 pixels of a frame is never decoded at all."
  },
  {
   "property": "C176",
   "status": "proved",
   "theorems": [
    "Gov1.C176_outside"
   ],
   "note": "C176_outside. The blocks of a palette are not modelled."
  },
  {
   "property": "C177",
   "status": "proved",
   "theorems": [
    "Gov1.C177_pixels"
   ],
   "note": "C177_pixels, for intra and inter blocks."
  },
  {
   "property": "C178",
   "status": "proved",
   "theorems": [
    "Gov1.C178_tile"
   ],
   "note": "C178_tile."
  },
  {
   "property": "C179",
   "status": "partial",
   "theorems": [
    "Gov1.C179_partial",
    "Gov1.C179_horz_refuted",
    "Gov1.C179_128_refuted"
   ],
   "note": "Refuted for a frame whose 8x8 block is split horizontally (C179_horz_refuted: the lower half is decoded twice, the upper one never) and for 128x128 superblocks (C179_128_refuted: never decoded). Proved (C179_partial) for all other frames that are decoded, which are those of 8x8 pixels."
  },
  {
   "property": "C180",
   "status": "proved",
   "theorems": [
    "Gov1.C180_complete"
   ],
   "note": "C180_complete, for frames of 8x8 pixels, which are the only ones that are decoded (C55); larger ones panic when the contexts are cleared."
  },
  {
   "property": "C181",
   "status": "proved",
   "theorems": [
    "Gov1.C181_context"
   ],
   "note": "Proved as an equality of syntax (which table, which context), for every position and block size; needs the neighbours' recorded sizes to be block sizes, which C175 gives for decoded blocks."
  },
  {
   "property": "C182",
   "status": "proved",
   "theorems": [
    "Gov1.C182_leftovers"
   ],
   "note": "Proved as an equality of the whole tile decoding, with the real blocks and the real arithmetic decoder."
  },
  {
   "property": "C183",
   "status": "partial",
   "theorems": [
    "Gov1.C183_size_partial",
    "Gov1.C183_content_refuted",
    "Gov1.C183_hidden"
   ],
   "note": "C183_size_partial gives sizes and ranges, C183_hidden the frames that are not shown, C183_content_refuted shows that only 1x1 frames are shown and that they do not depend on the data."
  },
  {
   "property": "C184",
   "status": "partial",
   "theorems": [
    "Gov1.C184_refuted"
   ],
   "note": "C184_refuted is the negation, over all streams."
  },
  {
   "property": "C185",
   "status": "proved",
   "theorems": [
    "Gov1.C185_sound",
    "Gov1.C185_complete"
   ],
   "note": "C185_complete builds the stream (headers may be any that parse to an 8x8 frame with 64x64 superblocks), C185_sound is the converse for every accepted stream (which also shows that no picture with 128x128 superblocks is ever decoded). Larger frames are never decoded (C184)."
  },
  {
   "property": "C186",
   "status": "proved",
   "theorems": [
    "Gov1.C186_tables"
   ],
   "note": "C186_tables, over all streams; by the invariant that every table of the memory has the layout of the start."
  },
  {
   "property": "C187",
   "status": "proved",
   "theorems": [
    "Gov1.C187_range"
   ],
   "note": "C187_range; bit depth 0 (reserved profiles) is excluded because the code then clips to 2^0-1."
  },
  {
   "property": "C188",
   "status": "proved",
   "theorems": [
    "Gov1.C188_open",
    "Gov1.C188_finished",
    "Gov1.C188_others"
   ],
   "note": "Proved for every call, without hypotheses on sizes. Film grain and loop filter parameters of the slots (saveGrainParams, saveLoopFilterParams, saveSegmentationParams) are no-ops in the code and have no counterpart in the theorem."
  },
  {
   "property": "C189",
   "status": "partial",
   "theorems": [
    "Gov1.C189_refuted"
   ],
   "note": "Negation proved for every accepted stream, with a stream whose decoded pixel is 128 and whose eight stored pixels are 2."
  },
  {
   "property": "C190",
   "status": "proved",
   "theorems": [
    "Gov1.C190_deltas"
   ],
   "note": "Proved for every reachable state and any number of tiles and blocks."
  },
  {
   "property": "C191",
   "status": "partial",
   "theorems": [
    "Gov1.C191_saved_refuted",
    "Gov1.C191_deblocking_refuted"
   ],
   "note": "Negation proved: all maps are 0 in every reachable state."
  },
  {
   "property": "C192",
   "status": "proved",
   "theorems": [
    "Gov1.C192_blocks",
    "Gov1.C192_filters"
   ],
   "note": "Proved against a field-by-field specification (Spec.BlockView, Spec.FilterView) independent of the functions that assemble the headers. Two fields are what the code makes of them rather than the standard: previous segment ids (always 0, C191) and the reference pictures (C189)."
  },
  {
   "property": "C193",
   "status": "partial",
   "theorems": [
    "Gov1.C193_single_partial",
    "Gov1.C193_pair_refuted",
    "Gov1.C193_append_refuted"
   ],
   "note": "One reference proved for the candidates of all spatial scans; two references refuted."
  },
  {
   "property": "C194",
   "status": "partial",
   "theorems": [
    "Gov1.C194_headers_partial",
    "Gov1.C194_frame_refuted"
   ],
   "note": "C194_headers_partial: for every OBU of every accepted stream, the headers are those of the last sequence header OBU and the last frame header OBU. C194_frame_refuted: frame OBUs do not count, so a tile group after a frame OBU has another header than its frame."
  },
  {
   "property": "C195",
   "status": "partial",
   "theorems": [
    "Gov1.C195_nothing_partial",
    "Gov1.C195_accepted_refuted"
   ],
   "note": "C195_nothing_partial: in a frame unit without frame header a tile group that is accepted decodes no tile, no pixel, adapts no table and reads nothing (only the alignment), whatever headers are left over; but it counts as the end of a frame. C195_accepted_refuted: it is not rejected: without any headers every such OBU, whatever its payload, is accepted as a finished frame. Missing (false of the code): rejection."
  },
  {
   "property": "C196",
   "status": "partial",
   "theorems": [
    "Gov1.C196_ends_refuted",
    "Gov1.C196_ends_partial"
   ],
   "note": "False of the program: the loop that counts the zeros of an Exp-Golomb code has no bound and the symbol decoder reads zeros after the end of the data. C196_ends_refuted gives a finite stream (sequence header, frame header and tile data of a monochrome 8x8 key frame) that is decoded for ever, whatever the bound. C196_ends_partial: a decoding that ends within some bound gives the same result for every larger one. C22_stream_fails: a fault of an OBU is the fault of the whole program."
  },
  {
   "property": "C197",
   "status": "partial",
   "theorems": [
    "Gov1.C197_context_partial",
    "Gov1.C197_row_partial",
    "Gov1.C197_hash_refuted",
    "Gov1.C197_order_refuted"
   ],
   "note": "Stated for arrays that are allocated (in the code they are nil: C156_context_refuted). C197_context_partial gives order and hash exactly, with weight 1 for the pixel above; C197_row_partial: AV1's in the first row. Refuted: in the first column the hash is 1, for which there is no context (C197_hash_refuted); the order differs (C197_order_refuted)."
  },
  {
   "property": "C198",
   "status": "partial",
   "theorems": [
    "Gov1.C198_map_partial",
    "Gov1.C198_total_partial",
    "Gov1.C198_nil_refuted"
   ],
   "note": "C198_map_partial and C198_total_partial for allocated arrays and symbols given by a list (b.S() panics). Refuted: the map is a nil slice (C198_nil_refuted)."
  },
  {
   "property": "C199",
   "status": "partial",
   "theorems": [
    "Gov1.C199_none_refuted",
    "Gov1.C199_luma_refuted",
    "Gov1.C199_u_refuted",
    "Gov1.C199_v_refuted",
    "Gov1.C199_v_partial",
    "Gov1.C199_cache_partial",
    "Gov1.C199_width_refuted"
   ],
   "note": "The syntax of palette.go in full, with the panicking b.S() as a parameter; C199_none_refuted: with the code's b.S() no palette is ever read and the rest is exactly what the model of mode info has. C199_cache_partial and C199_v_partial: round trips for palettes without differences. Refuted for arrays that are allocated: differences are ignored (C199_luma_refuted, C199_v_refuted), have the wrong width (C199_width_refuted), and U's colours from the cache end up in the luma palette (C199_u_refuted)."
  },
  {
   "property": "C200",
   "status": "partial",
   "theorems": [
    "Gov1.C200_select_partial",
    "Gov1.C200_shares_partial",
    "Gov1.C200_distance_partial",
    "Gov1.C200_refuted"
   ],
   "note": "False of the code: the distances are written into a nil slice, so the weights are never computed (C200_refuted, all inputs). What comes before and after that write is right: each distance, and the choice of the weights from two distances, for all integers."
  },
  {
   "property": "C201",
   "status": "proved",
   "theorems": [
    "Gov1.C201_deltas"
   ],
   "note": "C201_deltas: full round trip through both readers, for all parameters."
  },
  {
   "property": "C202",
   "status": "partial",
   "theorems": [
    "Gov1.C202_key_roundtrip_partial",
    "Gov1.C202_key_roundtrip_statement_refuted"
   ],
   "note": "C202_key_roundtrip_partial: whole header round trip for frames of any size (with super resolution, presentation times, tiles, segmentation features, reduced still pictures, hidden intra-only frames) when the sharpness is coded with the 6 bits the code reads, and AV1's own coding for lossless and intra block copy frames; reference frame features below 4 (C66), no coded number of uniform tile rows (C63). C202_key_roundtrip_statement_refuted gives a concrete AV1 header that is misread. Missing: frame ids, reference order hints of error resilient frames, 128x128 superblocks, screen content tools forced off (C75). The render height without coded render size is C64."
  },
  {
   "property": "C203",
   "status": "partial",
   "theorems": [
    "Gov1.C203_tile_layout_partial",
    "Gov1.C203_explicit_tiles",
    "Gov1.C203_tile_layout_statement_refuted"
   ],
   "note": "C203_explicit_tiles: all explicit layouts; C203_tile_layout_partial: uniform ones too if the number of rows needs no bits (one superblock row, or the area limit fixes it). C203_tile_layout_statement_refuted: the bits for the number of uniform rows are never read (C63)."
  },
  {
   "property": "C204",
   "status": "partial",
   "theorems": [
    "Gov1.C204_headers_read_back_partial",
    "Gov1.C204_av1_frames_refuted",
    "Gov1.C204_av1_refuted"
   ],
   "note": "C204_headers_read_back_partial: whole streams of headers, any number of temporal units and of frames in each, delimiters and repeated sequence headers anywhere before a frame header, threading the sequence header from the first frame unit to the others. The frame headers are those the code does not misread (C202: 6 bits of sharpness if filters are coded, reference features below 4, rows of uniform tiles not coded), and the sequence header is in the code's dialect (C23: 5 bits of level for every header). C204_av1_refuted: of every stream that starts with a delimiter and an AV1 sequence header, reduced or ordinary, whatever follows, the program gets frames of at most 2x2 pixels, and decodes all OBUs before the next sequence header with that; C204_av1_frames_refuted: and none of their frame headers, in frame header OBUs or frame OBUs, with or without sizes of their own, is of a frame of more than 2x2 pixels. Missing: frame OBUs (their tile data are C180-C187)."
  }
 ]
}