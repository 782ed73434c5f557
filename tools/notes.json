{
 "C07": {
  "note": "Proved for all descriptor readers, the OBU header, colour configuration, sequence header, tile info and the whole uncompressed header; C07_sequenceHeader_anywhere and C07_uncompressedHeader_anywhere: the result does not depend on where in a stream the bits stand."
 },
 "C10": {
  "note": "Round2 is proved. Round2Signed rounds the constant 2 for x >= 0 (util.go:79); refuted with a witness, proved for x < 0."
 },
 "C100": {
  "note": "Full."
 },
 "C101": {
  "note": "Full for blocks with coefficients."
 },
 "C102": {
  "note": "Masks proved for all samples. The limit is proved for sharpness 0 and above 4; for 1 to 4 the shift is wrong (refuted for all such sharpness values and levels in a range)."
 },
 "C103": {
  "note": "Proved for vertical edges; false for horizontal edges (refuted: the lower transform is ignored)."
 },
 "C104": {
  "note": "False of the code: whenever the filter returns, the frame is unchanged, and it panics for every frame wider than 8 pixels."
 },
 "C105": {
  "note": "Proved for all blocks of all bit depths from 8 on."
 },
 "C106": {
  "note": "The filter equals the specification for every picture and call whose primary strength selects the weights 4, 2. Refuted for odd strengths: the code indexes the weights with a strength that is not scaled down, and the general refutation is quantified."
 },
 "C107": {
  "note": "Copied blocks proved in full; filtered blocks for luma and for chroma with a primary strength. Refuted: chroma damping is not reduced when the primary strength is zero."
 },
 "C108": {
  "note": "Proved for arrays that cover the frame. Refuted: the code's arrays have 16x16 pixels and 2x2 skip flags, CDEF panics for every larger frame."
 },
 "C109": {
  "note": "Clearing and reading proved for the superblock's first 64x64 block. Refuted: with 128x128 superblocks three of four indices are not cleared; frames with four superblocks in a row panic; cdef_bits is never used, so no bit is read; blocks right of the diagonal panic."
 },
 "C11": {
  "note": "Clip3 proved. Clip1 ignores its argument; refuted, and its actual value proved."
 },
 "C110": {
  "note": "The model follows the code; the specification gives neighbours, thresholds and offsets by AV1's rules, without the decoder's tables. Hypotheses: the context arrays reach the positions used (C105-type sizes are refuted separately) and, for chroma, entries are not negative."
 },
 "C111": {
  "note": "Proved: filter table, weighted sum, flat rows, filter position within the step's rounding. Refuted: without super resolution pixels are taken one column to the left, a plane larger than 9x9 panics, and every smaller frame becomes the constant 2 (Clip1 ignores its argument)."
 },
 "C112": {
  "note": "Proved: the copy loops for arrays large enough, and hidden frames. Refuted: the arrays hold 1x1 pixels, so every shown frame of more than one pixel panics; so do film grain and operating points."
 },
 "C113": {
  "note": "Proved: stripes, exact cover by blocks, source samples, off and RESTORE_NONE, range and flat value of the guided coefficient. Refuted: Wiener taps are not symmetric (universally), a Wiener unit panics, a self guided unit panics for every plane of more than one pixel."
 },
 "C114": {
  "note": "Proved: chroma units are read with exactly one superblock (no super resolution), subexponential codes of the first two buckets, self guided units. Refuted: luma units of subsampled frames, frames with one filter type, Wiener units, all codes from the third bucket on, and the range."
 },
 "C115": {
  "note": "Proved: the tables of all 22 block sizes, lossless and largest transforms, the coded depth of intra blocks with residual, the context of the neighbour above. Refuted for all such blocks: the left context in the first row of a tile, the first column below the first row (panic), blocks without residual (depth read for inter, not for intra), the transform tree (panic), blocks beyond 256 pixels (panic)."
 },
 "C116": {
  "note": "Proved for all block sizes, positions, frames and chroma formats (4:2:2 for the blocks that exist there), for intra, lossless and inter blocks, for every array of transform sizes."
 },
 "C117": {
  "note": "Proved for blocks of at most 64x64 pixels without a transform tree; refuted for all blocks with a side of 128 pixels inside the frame with chroma. Not stated: the order inside a transform tree."
 },
 "C118": {
  "note": "Proved for square transform blocks on the diagonal with 64x64 superblocks; refuted for every transform block off the diagonal (wrong column), beyond the first 8 rows (panic) and, with 128x128 superblocks, exactly the rows with bit 1 or 3 set."
 },
 "C119": {
  "note": "Proved for luma; refuted for every chroma transform block (panic)."
 },
 "C120": {
  "note": "Proved: the luma values and their total. Refuted: every predicted pixel is 2, whatever the input."
 },
 "C121": {
  "note": "Proved for all deltas of up to 512 (the largest the code can express)."
 },
 "C122": {
  "note": "Prediction and context are AV1's; the id is only right for predicted ids 0 and 1 (negDeinterleave tests ref == 1) and is not clipped to the last active segment."
 },
 "C123": {
  "note": "Luma mode, angles and the inter frame chroma choice proved; in intra frames every lossy block with a longer side of 32 reads the wrong alphabet (< 32 for <= 32)."
 },
 "C124": {
  "note": "The context is computed from SkipModes (2x2, always 0 in intra frames) instead of Skips: always 0, and a panic beyond two units."
 },
 "C125": {
  "note": "Proved for all aligned blocks of tiles with even bounds."
 },
 "C126": {
  "note": "The loops record exactly the units of the block where the arrays are large enough; most arrays are 2x2 (panic), segment ids and motion vectors are never recorded."
 },
 "C127": {
  "note": "resetBlockContext clears AV1's ranges, but is never called: decodeBlock tests state.Skip, which nothing assigns."
 },
 "C128": {
  "note": "Every sign is inverted (CFL_SIGN_NEG is 2); sizes are right."
 },
 "C129": {
  "note": "Total with all ranges for frames without the unimplemented tools; RefFrame[0] is set to NONE (and RefFrame[1] not at all), so that chroma modes are never recorded; filter intra, palettes and intra block copy end in b.S(), a panic."
 },
 "C13": {
  "note": "Injectivity and range are true of the code; agreement with the AV1 code is refuted and proved only for ref = 1 and the identity cases."
 },
 "C130": {
  "note": "Full."
 },
 "C131": {
  "note": "Refuted for a warp with positive displacement (Round2Signed rounds the constant 2); proved for identity, translation, non-positive displacements."
 },
 "C132": {
  "note": "Refuted for NEAREST_NEWMV and NEAR_NEWMV (first vector); the other modes proved."
 },
 "C133": {
  "note": "Refuted for intra block copy (nil slice); proved for all other modes with at most the candidates present."
 },
 "C134": {
  "note": "Full: every process of the search, single and compound."
 },
 "C135": {
  "note": "Refuted: at most one candidate, never two references."
 },
 "C136": {
  "note": "Full, for the calls that return."
 },
 "C137": {
  "note": "Full, for the calls that return."
 },
 "C138": {
  "note": "Refuted both ways (cells of other tiles are used, cells of the own tile are not); partial for the first block of a tile."
 },
 "C139": {
  "note": "Refuted: grid of 2x2 cells, motion field never stored, swap loses a candidate."
 },
 "C140": {
  "note": "The context is AV1's. Refuted: segments with global motion make a block intra instead of inter. Missing: skip mode, which is never on (C146)."
 },
 "C141": {
  "note": "Codes of LAST, LAST2, BWDREF, ALTREF2 and ALTREF are read; contexts agree under a stated condition on the neighbours. Refuted: LAST3, GOLDEN and two references are never read (b.S() panics); the contexts of single_ref_p2 and single_ref_p4 are wrong for the stated neighbourhoods."
 },
 "C142": {
  "note": "Full, for maps of the size of the frame with ids up to 7 and every block starting in the frame."
 },
 "C143": {
  "note": "All cases that need no unimplemented syntax. Refuted: map update with a skipped block after the skip flag, and temporal update, never get through."
 },
 "C144": {
  "note": "The context is proved for every block size; totality and ranges for blocks to which neither screen content tools nor filter intra apply; where they apply, the code panics (C144_tools_refuted)."
 },
 "C145": {
  "note": "NEWMV and GLOBALMV. Refuted: NEARESTMV, NEARMV and the compound modes are never decoded."
 },
 "C146": {
  "note": "Refuted for every header and symbol sequence: the theorem lists what a block that gets through cannot use."
 },
 "C147": {
  "note": "For the first block of a tile with no inter block around it, and for blocks with neighbours above and to the left, differences up to 2 pixels, motion mode and filter not switchable. References, modes and tools the code never decodes: C147_missing_refuted, C146."
 },
 "C148": {
  "note": "For one reference: every candidate of the near and far scans. For two references the pair and where it comes from are proved, the reduction to the precision is refuted. Candidates of the motion field: C139_temporal_refuted (panic)."
 },
 "C149": {
  "note": "Both scans and the far scans."
 },
 "C15": {
  "note": "Cos128 panics on 191 of 256 residues, Brev replicates bit 1: both refuted, the actual domain/values proved."
 },
 "C150": {
  "note": "Any sequence of calls from a plane of zeros."
 },
 "C151": {
  "note": "Exact frame condition."
 },
 "C152": {
  "note": "Refuted: below row 0 the pixels above never matter; the left column is put in the row above; wrong constants. Proved: layout of the edges without a left neighbour."
 },
 "C153": {
  "note": "Refuted for 16 pixels and more and for filter intra. Proved for all blocks of 4 and 8 pixels in the non-directional modes."
 },
 "C154": {
  "note": "Vertical and above 180 degrees: AV1's formula on the edges. Refuted: horizontal, below 90, between 90 and 163 degrees. Derivatives: complete table."
 },
 "C155": {
  "note": "Refuted: with both neighbours only 90, 180 and (4x4) 130 to 140 degrees return; the left neighbour decides the type alone."
 },
 "C156": {
  "note": "The anti-diagonal walk is proved to visit each on-screen pixel once and neighbours first; the chroma size is AV1's for equal subsampling in both directions; refuted for 4:2:2 and for the contexts."
 },
 "C157": {
  "note": "Refuted: a relational theorem about two executions of residual on arbitrary tile data."
 },
 "C158": {
  "note": "Proved for residual as a whole (palette, intra, chroma from luma), from the ranges of each predictor; the reconstruction is never reached (C157)."
 },
 "C159": {
  "note": "Proved for residual as a whole, composed with the coverage theorem C116_cover."
 },
 "C160": {
  "note": "Refuted for luma (pixels) and chroma (flags); proved if luma and chroma neighbours are equally available."
 },
 "C161": {
  "note": "Model/Inter models motionVectorScalingProcess. C161_checks proves the size checks; C161_scaling_refuted and C161_step_refuted prove the start (32, 32) and step 0; C161_scaling_partial proves the start for positions before the frame. Go ints are unbounded in the model."
 },
 "C162": {
  "note": "C162_flat_partial proves flatness for one reference (compound blocks panic, C166); C162_block_refuted proves that the prediction is the top left sample. C162_values_partial gives every pixel's value exactly, but for the row of the table."
 },
 "C163": {
  "note": "Complete tables, checked by kernel evaluation."
 },
 "C164": {
  "note": "C164_divisor_refuted proves the factor 2, C164_table_refuted the wrong entry, C164_divisor_partial the precision of the remaining part; C164_total that it fails for 0 only."
 },
 "C165": {
  "note": "C165_range is proved for every block including overlap; C165_diagonal_refuted proves which pixels are written."
 },
 "C166": {
  "note": "C166_classes_refuted and C166_place_refuted prove the limits, C166_predict_partial that blocks within them (references of the size of the frame, no warp, no mask) are predicted. C166_no_warp_partial and C166_warp_refuted settle which blocks are warped (none is)."
 },
 "C167": {
  "note": "C167_blend proves the blending; C167_left_refuted and C167_luma_refuted the panic for left neighbours. C167_weights gives the weights exactly."
 },
 "C168": {
  "note": "C168_partial for blocks with at least four pixels in the plane, C168_near with an intra neighbour, C168_sub8_refuted for the rest; C168_intra_idle for intra blocks. 4:2:2 is not covered. C168_planes: which planes; C168_interintra: the intra part of inter-intra blocks."
 },
 "C169": {
  "note": "Exact for all sizes below 32768 (AV1 allows up to 65536; with 14 bits of fraction the statement needs the bound)."
 },
 "C170": {
  "note": "C170_range, C170_identity proved; C170_round_refuted and C170_round_partial for the rounding of alpha and beta."
 },
 "C171": {
  "note": "C171_ends for a call, C171_plane for all calls of a plane."
 },
 "C172": {
  "note": "Refuted: a search that takes a sample writes to a nil slice and panics, and one that does not panic has collected none (whatever the neighbourhood). Proved: the search always ends, and without a neighbour with the same reference it neither panics nor collects. Missing: the sample values, which are never stored."
 },
 "C173": {
  "note": "Refuted: initialisation panics on the first mask of a block because the table is a nil slice. Proved of the master masks computed before: exact values, symmetry and monotonicity; of the tables: block sizes, offsets and shapes."
 },
 "C174": {
  "note": "Tile: C174_tile_partial; frame: C174_frame_partial. Missing: the partition types for which the layout is wrong in the code (C46_*_refuted), and frames for which clearing the contexts panics (C55), for which the statement holds only because nothing is decoded."
 },
 "C175": {
  "note": "C175_records for all blocks (without palettes and without an inter block's motion vector records). C175_size_refuted: the arrays have 2x2 units, so a block beyond the first 8x8 pixels of a frame is never decoded at all."
 },
 "C176": {
  "note": "C176_outside. The blocks of a palette are not modelled."
 },
 "C177": {
  "note": "C177_pixels, for intra and inter blocks."
 },
 "C178": {
  "note": "C178_tile."
 },
 "C179": {
  "note": "Refuted for a frame whose 8x8 block is split horizontally (C179_horz_refuted: the lower half is decoded twice, the upper one never) and for 128x128 superblocks (C179_128_refuted: never decoded). Proved (C179_partial) for all other frames that are decoded, which are those of 8x8 pixels."
 },
 "C180": {
  "note": "C180_complete, for frames of 8x8 pixels, which are the only ones that are decoded (C55); larger ones panic when the contexts are cleared."
 },
 "C181": {
  "note": "Proved as an equality of syntax (which table, which context), for every position and block size; needs the neighbours' recorded sizes to be block sizes, which C175 gives for decoded blocks."
 },
 "C182": {
  "note": "Proved as an equality of the whole tile decoding, with the real blocks and the real arithmetic decoder."
 },
 "C183": {
  "note": "C183_size_partial gives sizes and ranges, C183_hidden the frames that are not shown, C183_content_refuted shows that only 1x1 frames are shown and that they do not depend on the data."
 },
 "C184": {
  "note": "C184_refuted is the negation, over all streams."
 },
 "C185": {
  "note": "C185_complete builds the stream (headers may be any that parse to an 8x8 frame with 64x64 superblocks), C185_sound is the converse for every accepted stream (which also shows that no picture with 128x128 superblocks is ever decoded). Larger frames are never decoded (C184)."
 },
 "C186": {
  "note": "C186_tables, over all streams; by the invariant that every table of the memory has the layout of the start."
 },
 "C187": {
  "note": "C187_range; bit depth 0 (reserved profiles) is excluded because the code then clips to 2^0-1."
 },
 "C188": {
  "note": "Proved for every call, without hypotheses on sizes. Film grain and loop filter parameters of the slots (saveGrainParams, saveLoopFilterParams, saveSegmentationParams) are no-ops in the code and have no counterpart in the theorem."
 },
 "C189": {
  "note": "Negation proved for every accepted stream, with a stream whose decoded pixel is 128 and whose eight stored pixels are 2."
 },
 "C190": {
  "note": "Proved for every reachable state and any number of tiles and blocks."
 },
 "C191": {
  "note": "Negation proved: all maps are 0 in every reachable state."
 },
 "C192": {
  "note": "Proved against a field-by-field specification (Spec.BlockView, Spec.FilterView) independent of the functions that assemble the headers. Two fields are what the code makes of them rather than the standard: previous segment ids (always 0, C191) and the reference pictures (C189)."
 },
 "C193": {
  "note": "One reference proved for the candidates of all spatial scans; two references refuted."
 },
 "C20": {
  "note": "Refuted for every non-empty payload without a zero byte; proved exact for payloads containing one."
 },
 "C21": {
  "note": "Refuted: metadata, tile list and reserved types panic; proved only when outside the operating point."
 },
 "C23": {
  "note": "The AV1 layout is refuted: reduced headers lose the frame size (C23_roundtrip_refuted; C23_reduced_refuted: always one pixel), and every ordinary header that is not reduced (no timing information and one operating point with a mask below 32, or a display tick below 2^19) comes out with frames of at most 2x2 pixels (C23_av1_refuted). The round trip is proved for the parser's own dialect."
 },
 "C25": {
  "note": "Refuted: every header announcing more than one operating point panics."
 },
 "C31": {
  "note": "Range and lossless rule proved; refuted for the running index (GetQIndex drops the segment delta)."
 },
 "C32": {
  "note": "Refuted: the second level of lossless frames is 1; ranges proved."
 },
 "C34": {
  "note": "Never offered where not allowed: proved. Offered where allowed: refuted (negated condition, unset field)."
 },
 "C46": {
  "note": "Refuted for HORZ, HORZ_A, VERT_B and VERT_4 (each for every block that reads it); proved exactly-once coverage for all recursions using the other types."
 },
 "C49": {
  "note": "DC and both tables proved; the AC lookup is refuted for every index >= 4 (the DC table is read)."
 },
 "C50": {
  "note": "Positions proved for all 19 sizes; order proved for all but 64x16, which is refuted (the scan of 16x32 is used)."
 },
 "C51": {
  "note": "Proved for all integers: the constraint is bounded by the difference and by the strength and has the sign of the difference; the filtered pixel stays between the least and greatest pixel involved."
 },
 "C52": {
  "note": "The narrow filter at vertical and horizontal edges equals the specification's on the four samples and touches nothing else; result in range; mask off changes nothing."
 },
 "C53": {
  "note": "The level equals the specification's (segment feature, reference and mode deltas, clipped) in 0..63 and level 0 leaves the edge. False of the code: AV1 falls back to the neighbour's level, the code does not."
 },
 "C54": {
  "note": "C54_update_partial: for frames up to 9x9 pixels the refreshed slots hold the frame (headers, hints, per unit data, global motion, picture, CDFs), all others are unchanged; C54_history_partial over histories of saves. Refuted: a larger frame panics (LrFrame is [3][9][9]), loading always panics, pictures are lost with the next tile group. Loop filter, segmentation and grain parameters are not saved by the code and not modelled."
 },
 "C55": {
  "note": "Refuted: every frame wider (higher) than three 4x4 units panics; proved on smaller ones."
 },
 "C56": {
  "note": "Paeth, the smooth modes, DC with both or no neighbours: exact rounded average and range. Refuted: DC with one neighbour writes 0 or 2 whatever the edge."
 },
 "C57": {
  "note": "Refuted for differences beyond two pixels (the bits of the class are or-ed at position 1): proved exactly which components decode correctly and that the others can never be decoded; clamping is proved in full."
 },
 "C58": {
  "note": "Proved for the merge with an allocated cache (sortedness, membership of all above colours and of those of the left that are smaller than some colour above); refuted: a left tail is lost, and PaletteCache is never allocated so any colour above panics."
 },
 "C59": {
  "note": "Refuted: FrameHeaderCopy panics."
 },
 "C60": {
  "note": "Refuted across frame units; proved within a frame unit."
 },
 "C64": {
  "note": "Refuted: UpscaledHeight is never assigned, so the default render height is 0; coded sizes proved."
 },
 "C66": {
  "note": "Refuted for the reference feature 4..7; proved for all other values."
 },
 "C67": {
  "note": "Refuted for every non-zero sharpness; round trip proved with a 6-bit sharpness field."
 },
 "C70": {
  "note": "Distance proved and unique; sign bias refuted, its constant value proved."
 },
 "C71": {
  "note": "Types proved (range, intra identity, round trip); parameters refuted for every header."
 },
 "C73": {
  "note": "Refuted for every show-existing header; proved for all others."
 },
 "C74": {
  "note": "Refuted for every header: validity and hints in the state never change."
 },
 "C75": {
  "note": "Refuted when forced off; proved for forced on and for the coded choice."
 },
 "C76": {
  "note": "Refuted for every shown frame and (C76_hidden_key_refuted) for every hidden key frame, whose eight bits are not read; proved for switch, shown key and other hidden frames."
 },
 "C77": {
  "note": "Refuted; the range of the result is proved."
 },
 "C78": {
  "note": "Refuted: the primary reference is 7 in every returned header."
 },
 "C79": {
  "note": "Refuted: no header is returned; the id of show-existing headers is read exactly."
 },
 "C83": {
  "note": "Refuted: at most two of the 169 flags are written; 128x128 superblocks panic."
 },
 "C84": {
  "note": "Refuted for every block crossing exactly one edge; proved for blocks crossing both."
 },
 "C87": {
  "note": "Refuted: every angle not congruent to 64 mod 256 panics; proved for the quarter turn."
 },
 "C88": {
  "note": "Refuted: no inverse DCT/ADST of any size ever returns."
 },
 "C90": {
  "note": "Refuted: t.T is nil in every tile group, so the transform panics; with arrays allocated all rows of the residual come out equal."
 },
 "C92": {
  "note": "Refuted: reconstruct never returns; addResidual stores 2 in every pixel."
 },
 "C93": {
  "note": "Links Rd.exec (arithmetic decoder on bytes) and Rd.run (list of replies) in both directions; later block-syntax theorems are stated on Rd."
 },
 "C94": {
  "note": "Fits holds for every class (with the shapes as they are); the shape AV1 prescribes is proved for classes 0-2 and refuted for class 3 (stray rows at DEFAULT_COEFF_BASE_CDF[3][0][1])."
 },
 "C95": {
  "note": "Refuted: MvJoint, MvSign, DeltaLFMulti contexts alias."
 },
 "C96": {
  "note": "Partial: proved for a transform type array that covers the frame and without chroma 4x4 blocks of the highest quantizer class; both exceptions refuted for all blocks concerned."
 },
 "C97": {
  "note": "Partial: round trip proved for every number below 2^63; termination refuted for every block; beyond 64 bits the wrapped value is proved exactly, its low 16 bits shown unaffected, and its sign (used for the DC context) refuted."
 },
 "C98": {
  "note": "Partial: coefficients after the first nonnegative, magnitudes below 2^16 (the code masks with 0xFFFF); negative ones refuted for all blocks."
 },
 "C99": {
  "note": "Refuted for every input: the value returned is 0."
 },
 "C42": {
  "note": "Over whole streams: C42_stream_refuted shows that every tile group of an accepted stream is decoded with the program's default tables if and only if no earlier OBU carries a picture coded with adaptive probabilities, and that after such a picture the tables common to all quantizer classes differ from the defaults for good; C42_end_partial says the same of the tables left at the end of the stream."
 },
 "C194": {
  "note": "C194_headers_partial: for every OBU of every accepted stream, the headers are those of the last sequence header OBU and the last frame header OBU. C194_frame_refuted: frame OBUs do not count, so a tile group after a frame OBU has another header than its frame."
 },
 "C195": {
  "note": "C195_nothing_partial: in a frame unit without frame header a tile group that is accepted decodes no tile, no pixel, adapts no table and reads nothing (only the alignment), whatever headers are left over; but it counts as the end of a frame. C195_accepted_refuted: it is not rejected: without any headers every such OBU, whatever its payload, is accepted as a finished frame. Missing (false of the code): rejection."
 },
 "C196": {
  "note": "False of the program: the loop that counts the zeros of an Exp-Golomb code has no bound and the symbol decoder reads zeros after the end of the data. C196_ends_refuted gives a finite stream (sequence header, frame header and tile data of a monochrome 8x8 key frame) that is decoded for ever, whatever the bound. C196_ends_partial: a decoding that ends within some bound gives the same result for every larger one. C22_stream_fails: a fault of an OBU is the fault of the whole program."
 },
 "C197": {
  "note": "Stated for arrays that are allocated (in the code they are nil: C156_context_refuted). C197_context_partial gives order and hash exactly, with weight 1 for the pixel above; C197_row_partial: AV1's in the first row. Refuted: in the first column the hash is 1, for which there is no context (C197_hash_refuted); the order differs (C197_order_refuted)."
 },
 "C198": {
  "note": "C198_map_partial and C198_total_partial for allocated arrays and symbols given by a list (b.S() panics). Refuted: the map is a nil slice (C198_nil_refuted)."
 },
 "C199": {
  "note": "The syntax of palette.go in full, with the panicking b.S() as a parameter; C199_none_refuted: with the code's b.S() no palette is ever read and the rest is exactly what the model of mode info has. C199_cache_partial and C199_v_partial: round trips for palettes without differences. Refuted for arrays that are allocated: differences are ignored (C199_luma_refuted, C199_v_refuted), have the wrong width (C199_width_refuted), and U's colours from the cache end up in the luma palette (C199_u_refuted)."
 },
 "C200": {
  "note": "False of the code: the distances are written into a nil slice, so the weights are never computed (C200_refuted, all inputs). What comes before and after that write is right: each distance, and the choice of the weights from two distances, for all integers."
 },
 "C201": {
  "note": "C201_deltas: full round trip through both readers, for all parameters."
 },
 "C202": {
  "note": "C202_key_roundtrip_partial: whole header round trip for frames of any size (with super resolution, presentation times, tiles, segmentation features, reduced still pictures, hidden intra-only frames) when the sharpness is coded with the 6 bits the code reads, and AV1's own coding for lossless and intra block copy frames; reference frame features below 4 (C66), no coded number of uniform tile rows (C63). C202_key_roundtrip_statement_refuted gives a concrete AV1 header that is misread. Missing: frame ids, reference order hints of error resilient frames, 128x128 superblocks, screen content tools forced off (C75). The render height without coded render size is C64."
 },
 "C28": {
  "note": "C28_superblock_counts_partial: the counts for 64x64 superblocks are AV1's. Refuted for 128x128 superblocks: the row count overwrites the column count (C28_superblock_counts_refuted), and a tile can be empty (C28_empty_tile_refuted)."
 },
 "C43": {
  "note": "All default tables are valid but two: the context of segment_id_predicted and of skip_mode (each refuted). C43_default_contexts_decode: the valid ones can be decoded with."
 },
 "C61": {
  "note": "Proved for every context but the one of the reference motion vectors, for which it is refuted."
 },
 "C63": {
  "note": "Refuted for every frame size in the stated range: no row increment is ever read."
 },
 "C203": {
  "note": "C203_explicit_tiles: all explicit layouts; C203_tile_layout_partial: uniform ones too if the number of rows needs no bits (one superblock row, or the area limit fixes it). C203_tile_layout_statement_refuted: the bits for the number of uniform rows are never read (C63)."
 },
 "C204": {
  "note": "C204_headers_read_back_partial: whole streams of headers, any number of temporal units and of frames in each, delimiters and repeated sequence headers anywhere before a frame header, threading the sequence header from the first frame unit to the others. The frame headers are those the code does not misread (C202: 6 bits of sharpness if filters are coded, reference features below 4, rows of uniform tiles not coded), and the sequence header is in the code's dialect (C23: 5 bits of level for every header). C204_av1_refuted: of every stream that starts with a delimiter and an AV1 sequence header, reduced or ordinary, whatever follows, the program gets frames of at most 2x2 pixels, and decodes all OBUs before the next sequence header with that; C204_av1_frames_refuted: and none of their frame headers, in frame header OBUs or frame OBUs, with or without sizes of their own, is of a frame of more than 2x2 pixels. Missing: frame OBUs (their tile data are C180-C187)."
 }
}