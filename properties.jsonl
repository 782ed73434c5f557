{"id": "C01", "title": "Fixed-width reads are exact", "statement": "F(n) returns the value of the next n bits of the stream, most significant first, and advances the position by exactly n; it panics exactly when fewer than n bits are left. Writing any value v < 2^n on n bits anywhere in a stream and reading it back yields v.", "quantifier": "every byte string, every position, every width n, every value v < 2^n", "why_tests_cant": "the input space (all byte strings x positions x widths) is infinite; a test samples alignments and widths", "anchors": ["internal/bitstream/bitstream.go:F,readBit"]}
{"id": "C02", "title": "su(n) round trip", "statement": "Su(n) decodes the n-bit two's complement encoding of every v with -2^(n-1) <= v < 2^(n-1) to v, using n bits.", "quantifier": "every n >= 1, every v in range, every surrounding stream", "why_tests_cant": "unbounded family of widths and values", "anchors": ["internal/bitstream/bitstream.go:Su"]}
{"id": "C03", "title": "ns(n) round trip and range", "statement": "Ns(n) decodes the reference non-symmetric code of every v < n to v, consuming exactly the code's length, and whatever the bits are, every value it returns is in [0, n).", "quantifier": "every n >= 1, every v < n, every bit string", "why_tests_cant": "the code changes shape with each n; no finite set of n covers it", "anchors": ["internal/bitstream/bitstream.go:Ns", "internal/util/util.go:FloorLog2"]}
{"id": "C04", "title": "leb128 round trip, minimal or padded", "statement": "Leb128 decodes every LEB128 encoding of 1 to 8 bytes of v (padded encodings included) to v, advances by the encoded length, and records that length in Leb128Bytes; it never consumes more than 8 bytes and the result is below 2^56.", "quantifier": "every v < 2^56, every encoded length that can hold it, every following data", "why_tests_cant": "2^56 values times padding lengths", "anchors": ["internal/bitstream/bitstream.go:Leb128"]}
{"id": "C05", "title": "le(n) round trip", "statement": "Le(n) decodes the n-byte little-endian encoding of every v < 256^n to v and consumes exactly n bytes.", "quantifier": "every n, every v < 256^n", "why_tests_cant": "unbounded", "anchors": ["internal/bitstream/bitstream.go:Le"]}
{"id": "C06", "title": "uvlc round trip and termination", "statement": "Uvlc decodes the exponential-Golomb code of every v < 2^32-1 to v, consuming exactly the code; 32 or more leading zeros give 2^32-1; on a stream of zeros to the end it panics instead of looping forever.", "quantifier": "every v < 2^32-1, every count of leading zeros, every stream", "why_tests_cant": "values and zero runs are unbounded; termination is a property of all inputs", "anchors": ["internal/bitstream/bitstream.go:Uvlc"]}
{"id": "C07", "title": "Readers are streaming readers", "statement": "Whenever a header reader returns, it has not modified the data, has not moved backwards or past the end of the data, and its result depends only on the bits it consumed (any other stream carrying the same bits there gives the same result).", "quantifier": "every byte string and position; every descriptor reader, the OBU header, sequence header, colour config, tile info and uncompressed header parsers", "why_tests_cant": "a relational property over pairs of infinite streams", "anchors": ["internal/bitstream/bitstream.go", "internal/header/header.go", "internal/sequenceheader/sequence_header.go", "internal/tileinfo/tile_info.go", "internal/uncompressedheader/uncompressed_header.go"]}
{"id": "C08", "title": "Alignment and trailing bits", "statement": "ByteAlignment moves to the next multiple of 8 (and nowhere if aligned), by at most 7 bits; TrailingBits(nb) consumes exactly nb bits for nb >= 1, whatever their values.", "quantifier": "every stream, position and nb", "why_tests_cant": "all positions and lengths", "anchors": ["internal/bitstream/bitstream.go:ByteAlignment,TrailingBits"]}
{"id": "C09", "title": "Logarithm helpers are exact", "statement": "FloorLog2(x) is the largest k with 2^k <= x for x >= 1; CeilLog2(x) is the smallest k with 2^k >= x; TileLog2(b,t) is the smallest k with b*2^k >= t, and terminates for every b >= 1.", "quantifier": "all positive integers", "why_tests_cant": "unbounded integers; termination", "anchors": ["internal/util/util.go:FloorLog2,CeilLog2,TileLog2"]}
{"id": "C10", "title": "Rounding helpers round to nearest", "statement": "Round2(x,n) is floor((x + 2^(n-1)) / 2^n), i.e. x/2^n rounded to nearest with halves up; Round2Signed(x,n) is the odd function rounding |x|. (False of the code for Round2Signed at x >= 0, which rounds the constant 2.)", "quantifier": "every integer x and every n >= 0", "why_tests_cant": "all integers", "anchors": ["internal/util/util.go:Round2,Round2Signed"]}
{"id": "C11", "title": "Clipping helpers clamp", "statement": "Clip3(lo,hi,x) is the point of [lo,hi] nearest to x; Clip1(x,bitDepth) clamps x to the pixel range [0, 2^bitDepth - 1]. (False of the code for Clip1: it ignores x.)", "quantifier": "every integer x and bound pair lo <= hi, every bit depth", "why_tests_cant": "all integers", "anchors": ["internal/util/util.go:Clip3,Clip1"]}
{"id": "C12", "title": "Inverse recentring is a bijection", "statement": "For every r >= 0, InverseRecenter(r,.) maps the non-negative integers one-to-one onto themselves; it inverts the reference recentring map.", "quantifier": "every r >= 0 and v >= 0", "why_tests_cant": "all integers", "anchors": ["internal/util/util.go:InverseRecenter"]}
{"id": "C13", "title": "Segment-id deinterleaving is a bijection", "statement": "NegDeinterleave(.,ref,max) maps [0,max) one-to-one into [0,max), so every segment id has at most one code, and it is the inverse of the AV1 interleaving around ref. (The first holds of the code; the second is false: the guard is inverted, so it is the identity for every ref other than 1.)", "quantifier": "every max >= 1, ref < max, diff < max", "why_tests_cant": "all integers", "anchors": ["internal/util/util.go:NegDeinterleave", "internal/tilegroup/intra_frame_mode_info.go"]}
{"id": "C14", "title": "Sorting a slice segment", "statement": "Sort(arr,i1,i2) leaves arr[:i1] and arr[i2+1:] unchanged and makes arr[i1..i2] a sorted permutation of what it was.", "quantifier": "every array and index pair in range", "why_tests_cant": "all arrays", "anchors": ["internal/util/util.go:Sort"]}
{"id": "C15", "title": "Transform trigonometry and bit reversal", "statement": "Cos128/Sin128 are defined on every angle with the period and symmetries of cosine and sine; Brev(n,x) reverses the n low bits of x (an involution). (False of the code: Cos128 panics for 191 of 256 residues, Brev replicates bit 1.)", "quantifier": "every angle; every n and x < 2^n", "why_tests_cant": "all integers", "anchors": ["internal/util/util.go:Cos128,Sin128,Brev"]}
{"id": "C16", "title": "OBU header round trip", "statement": "Parsing the reference encoding of any OBU header (type, extension flag, has-size flag, temporal and spatial ids) returns exactly these fields and consumes 1 byte, or 2 with an extension; every bit pattern is accepted.", "quantifier": "every header value, every position and following data", "why_tests_cant": "all headers at all positions, with all continuations", "anchors": ["internal/header/header.go:NewHeader"]}
{"id": "C17", "title": "OBU framing is exact", "statement": "Parsing an OBU with a size field whose payload parser stays within the declared payload leaves the stream exactly at the end of the OBU (header + size field + declared payload bytes), whatever the trailing bits are.", "quantifier": "every OBU of a type other than tile group and frame, every declared size, every payload", "why_tests_cant": "all sizes and payloads", "anchors": ["internal/obu/obu.go", "internal/bitstream/bitstream.go:TrailingBits"]}
{"id": "C18", "title": "Operating-point filtering skips exactly", "statement": "An OBU carrying an extension that is not part of the selected operating point is skipped in full: its payload is not interpreted, decoder state is unchanged, and the stream ends at the end of the OBU. OBUs without extension, sequence headers and temporal delimiters are never dropped.", "quantifier": "every operating point mask, temporal and spatial id, OBU type, payload and size", "why_tests_cant": "all masks x ids x payloads", "anchors": ["internal/obu/obu.go"]}
{"id": "C19", "title": "Frame header sequencing", "statement": "After a temporal delimiter a frame header OBU is parsed afresh; a second frame header before the frame's tiles are complete is a repetition and must not be parsed as a new header.", "quantifier": "every sequence of OBUs", "why_tests_cant": "histories", "anchors": ["internal/obu/obu.go:ParseFrameHeader,FrameHeaderCopy"]}
{"id": "C20", "title": "Padding is skipped", "statement": "A padding OBU is skipped whatever its payload: the stream ends at the OBU's declared end. (False of the code: it looks for a zero byte, so a payload without one, e.g. ending in the usual 0x80, is overrun; with a zero byte it is exact.)", "quantifier": "every payload and size", "why_tests_cant": "all payloads", "anchors": ["internal/obu/obu.go:paddingObu"]}
{"id": "C21", "title": "Unknown OBU types are ignored", "statement": "An OBU of a reserved type (or metadata, tile list) with a size field is skipped. (False of the code: it panics.)", "quantifier": "every reserved type, size and payload", "why_tests_cant": "all types and payloads", "anchors": ["internal/obu/obu.go"]}
{"id": "C22", "title": "Temporal-unit framing", "statement": "Parsing a stream consumes exactly the bytes its temporal-unit, frame-unit and OBU length fields announce, in order, and terminates for every input (by returning or by panicking).", "quantifier": "every byte string", "why_tests_cant": "nested length fields of unbounded depth and count; termination", "anchors": ["internal/parser/parser.go"]}
{"id": "C23", "title": "Sequence header round trip", "statement": "Parsing the specification's encoding of a sequence header yields its fields. (False of the code in general: a reduced still-picture header skips the frame-size fields, and a non-reduced header without timing info reads a stray level field; proved for the sub-language the parser actually accepts.)", "quantifier": "every sequence header", "why_tests_cant": "the header space is astronomically large", "anchors": ["internal/sequenceheader/sequence_header.go"]}
{"id": "C24", "title": "Colour configuration", "statement": "Parsing any colour configuration yields a bit depth of 8, 10 or 12 determined by profile and flags, 1 or 3 planes (1 iff monochrome), subsampling consistent with the profile (4:2:0 for profile 0, 4:4:4 for profile 1, vertical subsampling only with horizontal), and re-encoding it by the specification reproduces the bits consumed.", "quantifier": "every bit string, every profile 0..2", "why_tests_cant": "all bit strings", "anchors": ["internal/sequenceheader/sequence_header.go:NewColorConfig"]}
{"id": "C25", "title": "Multiple operating points", "statement": "A sequence header announcing several operating points is parsed, keeping one idc per operating point. (False of the code: it always panics when more than one is announced.)", "quantifier": "every operating-point count and content", "why_tests_cant": "all bit strings", "anchors": ["internal/sequenceheader/sequence_header.go"]}
{"id": "C26", "title": "Uniform tiling partitions the frame", "statement": "With uniform tile spacing the tile column (row) boundaries start at 0, strictly increase and end at the frame width (height) in 4x4 units, so every 4x4 unit lies in exactly one tile.", "quantifier": "every frame size with 64x64 superblocks, every increment code", "why_tests_cant": "all frame sizes and codes", "anchors": ["internal/tileinfo/tile_info.go"]}
{"id": "C27", "title": "Explicit tiling partitions the frame", "statement": "With explicit tile sizes the boundaries also start at 0, strictly increase and end at the frame edge, and each tile is at least one and at most the maximum number of superblocks wide.", "quantifier": "every frame size with 64x64 superblocks, every bit string", "why_tests_cant": "all frame sizes and codes", "anchors": ["internal/tileinfo/tile_info.go"]}
{"id": "C28", "title": "Tiling is independent of superblock size conventions", "statement": "With 128x128 superblocks the tiles also partition the frame, the column count being ceil(MiCols/32) and the row count ceil(MiRows/32) superblocks. (False of the code: the row count overwrites the column count, and a tile can be empty.)", "quantifier": "every frame size", "why_tests_cant": "all frame sizes", "anchors": ["internal/tileinfo/tile_info.go"]}
{"id": "C29", "title": "Frame dimensions", "statement": "The parsed frame size is the coded size; with super-resolution the downscaled width is round(upscaled*8/denominator) with denominator in 9..16 and never exceeds the upscaled width; MiCols and MiRows are the sizes in 4x4 units rounded up to even.", "quantifier": "every sequence header and bit string", "why_tests_cant": "all bit strings", "anchors": ["internal/uncompressedheader/uncompressed_header.go:frameSize,superResParams,computeImageSize"]}
{"id": "C30", "title": "Segmentation parameters stay in range", "statement": "After parsing, every signed segment feature lies within plus/minus its limit and every unsigned one within 0..limit; features not enabled are 0; LastActiveSegId is the largest segment id with an enabled feature and SegIdPreSkip is set iff a reference-type feature is enabled.", "quantifier": "every bit string and previous state", "why_tests_cant": "all bit strings", "anchors": ["internal/uncompressedheader/uncompressed_header.go:segmentationParams"]}
{"id": "C31", "title": "Quantizer index selection", "statement": "The per-segment quantizer index is in 0..255 and equals the base index (or, when the block carries its own, the running index) plus the segment delta clipped to 0..255 when the feature is active (the running-index case is false of the code: the delta is dropped); lossless is declared for a segment iff this index and all plane deltas are 0.", "quantifier": "every header state and segment", "why_tests_cant": "all states", "anchors": ["internal/uncompressedheader/uncompressed_header.go", "internal/tilegroup/reconstruct.go"]}
{"id": "C32", "title": "Loop filter header", "statement": "When the frame is coded lossless or allows intra block copy no loop-filter bits are read and the filter levels are both 0. (False of the code: level 1 is set to 1.) Otherwise levels are below 64.", "quantifier": "every header state and bit string", "why_tests_cant": "all bit strings", "anchors": ["internal/uncompressedheader/uncompressed_header.go:loopFilterParams"]}
{"id": "C33", "title": "CDEF and loop-restoration header", "statement": "CDEF strengths are within 0..15 (primary) and {0,1,2,4} (secondary), damping within 3..6; whenever restoration is used the luma unit size is 64, 128 or 256 and the chroma unit sizes are equal to it or half of it.", "quantifier": "every header state and bit string", "why_tests_cant": "all bit strings", "anchors": ["internal/uncompressedheader/uncompressed_header.go:cdefParams,lrParams"]}
{"id": "C34", "title": "Skip mode", "statement": "Skip mode is offered if and only if the frame is inter, uses reference select and order hints, and a forward (and backward or second forward) reference exists. (The 'if' half is false of the code: skip mode is never offered.)", "quantifier": "every header state", "why_tests_cant": "all states", "anchors": ["internal/uncompressedheader/uncompressed_header.go:skipModeParams"]}
{"id": "C35", "title": "Sub-exponential codes", "statement": "The sub-exponential decoder is defined on every bit string, returns a value below its bound and inverts the reference encoder; the with-reference variant returns values in [0, bound) and inverts the reference encoder.", "quantifier": "every bound, reference and value", "why_tests_cant": "unbounded family", "anchors": ["internal/uncompressedheader/uncompressed_header.go:decodeSubexp,decodeUnsignedSubexpWithRef,decodeSignedSubexpWithRef"]}
{"id": "C36", "title": "Film grain parameters", "statement": "Parsed film grain parameters have at most 15 luma and chroma points (the width of the count fields), and disabling film grain (sequence flag off, or frame neither shown nor showable) consumes no bits and yields no grain.", "quantifier": "every header state and bit string", "why_tests_cant": "all bit strings", "anchors": ["internal/uncompressedheader/uncompressed_header.go:filmGrainParams"]}
{"id": "C37", "title": "Symbols are in range and CDFs stay valid", "statement": "Decoding a symbol from any valid CDF of N symbols returns a value in [0,N) and leaves a valid CDF: non-decreasing, last entry 2^15, counter at most 32; therefore every CDF of a context stays valid through any decoding history.", "quantifier": "every decoder state, valid CDF and history", "why_tests_cant": "adaptive state: histories are unbounded", "anchors": ["internal/symbol/symbol.go:ReadSymbol"]}
{"id": "C38", "title": "Arithmetic decoder invariants", "statement": "From initialisation through any sequence of symbol reads, 2^15 <= range < 2^16 and value < range hold, the renormalisation loop amount is 0..15, and decoding never fails because of these quantities.", "quantifier": "every data, every sequence of CDFs", "why_tests_cant": "unbounded histories", "anchors": ["internal/symbol/symbol.go:ReadSymbol", "internal/tilegroup/tile_group.go:initSymbol"]}
{"id": "C39", "title": "Arithmetic coding round trip", "statement": "A reference range encoder driven by the same CDFs produces bits from which the decoder recovers exactly the encoded symbol sequence, with the CDFs adapting identically on both sides.", "quantifier": "every sequence of (CDF, symbol) choices", "why_tests_cant": "unbounded symbol sequences", "anchors": ["internal/symbol/symbol.go:ReadSymbol"]}
{"id": "C40", "title": "Tile data is consumed exactly", "statement": "Initialising the symbol decoder on a tile of sz bytes, decoding any number of symbols and finishing leaves the stream exactly sz bytes after the tile start, provided the decoder did not run more than 14 bits past the data (where finishing panics).", "quantifier": "every tile size, data and sequence of symbol reads", "why_tests_cant": "unbounded histories", "anchors": ["internal/tilegroup/tile_group.go:initSymbol,exitSymbol", "internal/symbol/symbol.go:ReadSymbol"]}
{"id": "C41", "title": "Disabled adaptation", "statement": "With CDF update disabled, decoding any symbol sequence leaves every CDF unchanged.", "quantifier": "every decoder state and history", "why_tests_cant": "unbounded histories", "anchors": ["internal/symbol/symbol.go:ReadSymbol"]}
{"id": "C42", "title": "Default probability tables are constants", "statement": "Decoding a frame never changes the default probability tables, so a later frame without primary reference starts from the same probabilities. (False of the code: contexts alias the global tables.)", "quantifier": "every decoding history", "why_tests_cant": "aliasing appears only through histories", "anchors": ["internal/uncompressedheader/cdf.go:initNonCoeffCdfs", "internal/symbol/symbol.go:ReadSymbol"]}
{"id": "C43", "title": "Default probability tables are valid", "statement": "Every default CDF table installed at the start of an independent frame is valid: increasing, ends with 2^15 followed by a zero counter.", "quantifier": "every row of every default table (finite, complete)", "why_tests_cant": "an invariant the decoder relies on for all symbol reads; thousands of rows", "anchors": ["internal/uncompressedheader/cdf.go"]}
{"id": "C44", "title": "Literals", "statement": "L(n) returns values below 2^n and NS(n) values below n, for every data, and both leave all adaptive CDFs unchanged.", "quantifier": "every decoder state and n", "why_tests_cant": "all states", "anchors": ["internal/literal/literal.go"]}
{"id": "C45", "title": "Tile loop", "statement": "A tile group decodes tiles tg_start..tg_end once each in order, using for each tile the declared size (the last takes the remainder), and consumes exactly the bytes of the tile group.", "quantifier": "every tile count and size list", "why_tests_cant": "all counts and sizes", "anchors": ["internal/tilegroup/tile_group.go"]}
{"id": "C46", "title": "Partition covers the block", "statement": "Decoding a partition visits every 4x4 unit of the block inside the frame exactly once. (False of the code: PARTITION_HORZ decodes the lower half twice and never the upper half, HORZ_A omits the lower right quarter, VERT_B decodes below the block, VERT_4 compares with the frame height.)", "quantifier": "every block size, position and partition choice", "why_tests_cant": "recursive geometry of all depths", "anchors": ["internal/tilegroup/decode_partition.go"]}
{"id": "C47", "title": "Inverse Walsh-Hadamard is lossless", "statement": "The one-dimensional inverse WHT inverts the forward WHT of AV1 lossless coding for every four samples and every shift, and every four values are the output of some input.", "quantifier": "every four integers, every shift, every rest of the array", "why_tests_cant": "unbounded integers", "anchors": ["internal/tilegroup/transform.go"]}
{"id": "C48", "title": "Dequantised coefficients are bounded", "statement": "Dequantised coefficients never exceed the signed range of 8+bit-depth bits, keep the sign of the coded coefficient, and are 0 for a 0 coefficient.", "quantifier": "every coefficient, quantizer, bit depth", "why_tests_cant": "all integers", "anchors": ["internal/tilegroup/reconstruct.go"]}
{"id": "C49", "title": "Quantizer tables", "statement": "The DC and AC quantizer tables are strictly positive and non-decreasing in the index for each bit depth; the AC quantizer is looked up in the AC table. (The last is false of the code.)", "quantifier": "every index 0..255 and bit depth", "why_tests_cant": "completeness of three 256-entry tables and the lookup for all indices", "anchors": ["internal/tilegroup/reconstruct.go"]}
{"id": "C50", "title": "Scan orders are permutations", "statement": "Each coefficient scan order visits every position of its transform block exactly once.", "quantifier": "every scan table (finite, complete)", "why_tests_cant": "an error in one of thousands of entries makes coefficients collide", "anchors": ["internal/tilegroup/coeffs.go"]}
{"id": "C51", "title": "CDEF is neighbourhood-bounded", "statement": "The CDEF constraint function never exceeds the difference it filters nor the strength, keeps its sign, and the filtered pixel stays within the minimum and maximum of the pixels involved.", "quantifier": "every pixel neighbourhood, strength and damping", "why_tests_cant": "all integers", "anchors": ["internal/tilegroup/cdef.go"]}
{"id": "C52", "title": "Deblocking narrow filter", "statement": "The narrow filter changes only the pixels next to the edge, keeps them in the pixel range, and is the identity when the mask is off.", "quantifier": "every pixel quadruple and bit depth", "why_tests_cant": "all pixel values", "anchors": ["internal/tilegroup/loop_filter_process.go"]}
{"id": "C53", "title": "Filter level selection", "statement": "The deblocking level is in 0..63 and lvlSeg deltas are clipped; a level of 0 disables filtering.", "quantifier": "every header state, segment, reference, mode", "why_tests_cant": "all states", "anchors": ["internal/tilegroup/loop_filter_process.go"]}
{"id": "C54", "title": "Reference slots", "statement": "Saving a frame into the slots selected by the refresh mask changes exactly these slots and loading a slot yields what was last saved there.", "quantifier": "every history of saves and loads", "why_tests_cant": "histories", "anchors": ["internal/tilegroup/decode_frame_wrapup.go"]}
{"id": "C55", "title": "Above-context clearing", "statement": "Starting a tile clears the above contexts for the whole frame width. (False of the code: it panics for every frame wider than three 4x4 units.)", "quantifier": "every frame width", "why_tests_cant": "all widths", "anchors": ["internal/tilegroup/tile_group.go:clearAboveContext"]}
{"id": "C56", "title": "Intra predictors stay in range", "statement": "DC, Paeth and smooth predictors produce values within the minimum and maximum of the edge pixels they use.", "quantifier": "every block size and edge content", "why_tests_cant": "all pixel values", "anchors": ["internal/tilegroup/predict_intra.go"]}
{"id": "C57", "title": "Motion vector arithmetic", "statement": "Reading a motion vector difference inverts the reference coding, and clamped motion vectors stay in their bounds.", "quantifier": "every vector and block position", "why_tests_cant": "all integers", "anchors": ["internal/tilegroup/assign_mv.go", "internal/tilegroup/find_mv_stack.go"]}
{"id": "C58", "title": "Palette cache", "statement": "The palette cache is sorted, free of duplicates and contains only colours of the above and left palettes.", "quantifier": "every pair of sorted neighbour palettes", "why_tests_cant": "all palettes", "anchors": ["internal/tilegroup/palette.go"]}
{"id": "C59", "title": "Repeated frame headers are accepted", "statement": "A redundant frame header, or a repetition of the pending frame header, is accepted and leaves the pending header in force. (False of the code: it always panics.)", "quantifier": "every OBU payload and decoder state with a pending frame header", "why_tests_cant": "histories of OBUs x payloads", "anchors": ["internal/obu/obu.go:ParseFrameHeader,FrameHeaderCopy"]}
{"id": "C60", "title": "The operating point stays selected", "statement": "The operating point selected by a sequence header governs all later OBUs until the next sequence header. (False of the code: decoder state is recreated for each frame unit; true within a frame unit.)", "quantifier": "every stream history", "why_tests_cant": "histories", "anchors": ["internal/parser/parser.go:frameUnit", "internal/obu/obu.go"]}
{"id": "C61", "title": "Entropy contexts are initialised", "statement": "Every entropy context a tile decodes symbols with refers to a probability table that starting an independent frame has initialised. (False of the code for the reference-motion-vector context.)", "quantifier": "every entropy context of a tile (finite, complete)", "why_tests_cant": "an omission shows only in streams that reach the missing context; completeness over about a hundred contexts", "anchors": ["internal/uncompressedheader/cdf.go:initNonCoeffCdfs", "internal/tilegroup/tile_group.go:initSymbol"]}
{"id": "C62", "title": "Uniform tile limits", "statement": "With uniform tile spacing there are at most 64 tile columns and 64 tile rows, no tile column is wider than 4096 luma samples, and the transmitted log2 counts are large enough to number every tile.", "quantifier": "every frame size up to 65536x65536 with 64x64 superblocks, every bit string", "why_tests_cant": "all frame sizes and codes", "anchors": ["internal/tileinfo/tile_info.go"]}
{"id": "C63", "title": "Uniform tile rows can be signalled", "statement": "With uniform tile spacing every number of row splits between the required minimum and the maximum allowed by the frame height can be signalled by some bit string. (False of the code: the loop condition is reversed, so no increment bit is ever read.)", "quantifier": "every frame size", "why_tests_cant": "quantifies over all bit strings", "anchors": ["internal/tileinfo/tile_info.go"]}
{"id": "C64", "title": "Render size", "statement": "The render size is the coded one when present and otherwise the upscaled width by the frame height. (False of the code: the default height is 0.)", "quantifier": "every frame size and bit string", "why_tests_cant": "all bit strings", "anchors": ["internal/uncompressedheader/uncompressed_header.go:renderSize"]}
{"id": "C65", "title": "Quantization parameters round trip", "statement": "Every legal set of quantization parameters is read back exactly from its AV1 encoding, consuming exactly its bits.", "quantifier": "every colour configuration and parameter set", "why_tests_cant": "unbounded product of field values", "anchors": ["internal/uncompressedheader/uncompressed_header.go:quantizationParams,readDeltaQ"]}
{"id": "C66", "title": "Segment features round trip", "statement": "Every legal segment feature value is read back exactly from its AV1 encoding. (False of the code: the unsigned reference feature is read as a signed number, so 4..7 are lost.)", "quantifier": "every feature and value", "why_tests_cant": "all feature values x any following bits", "anchors": ["internal/uncompressedheader/uncompressed_header.go:segmentationParams"]}
{"id": "C67", "title": "Loop filter parameters round trip", "statement": "Every legal set of loop filter parameters is read back exactly from its AV1 encoding. (False of the code: the 3-bit sharpness is read on 6 bits.)", "quantifier": "every parameter set and previous deltas", "why_tests_cant": "unbounded product of field values", "anchors": ["internal/uncompressedheader/uncompressed_header.go:loopFilterParams"]}
{"id": "C68", "title": "CDEF parameters round trip", "statement": "Every legal set of CDEF parameters is read back exactly from its AV1 encoding, consuming exactly its bits.", "quantifier": "every damping, strength list and plane count", "why_tests_cant": "unbounded product of field values", "anchors": ["internal/uncompressedheader/uncompressed_header.go:cdefParams"]}
{"id": "C69", "title": "Loop restoration parameters round trip", "statement": "Every legal set of loop restoration parameters is read back exactly from its AV1 encoding, consuming exactly its bits.", "quantifier": "every sequence header, type list and unit size", "why_tests_cant": "unbounded product of field values", "anchors": ["internal/uncompressedheader/uncompressed_header.go:lrParams"]}
{"id": "C70", "title": "Order hint distance", "statement": "The relative distance of two order hints is the unique value congruent to their difference in the window of half the range, and a reference is marked as lying after the current frame exactly when its hint does. (The second half is false of the code: the header's own order-hint flag is never set, so no reference is ever marked.)", "quantifier": "every pair of hints, number of hint bits, list of references", "why_tests_cant": "all integers; wrap-around cases", "anchors": ["internal/uncompressedheader/uncompressed_header.go:GetRelativeDist,build"]}
{"id": "C71", "title": "Global motion", "statement": "Every reference has a known global motion type, intra frames have none but the identity, and the types and parameters of an inter frame are the coded ones. (False of the code for the parameters: they are never read.)", "quantifier": "every sequence header, decoder state and bit string", "why_tests_cant": "all bit strings", "anchors": ["internal/uncompressedheader/uncompressed_header.go:globalMotionParams"]}
{"id": "C72", "title": "Frame headers are consistent and key frame headers are accepted", "statement": "Every frame header the parser returns has sizes, tile boundaries, quantizer, segmentation, filter, restoration, transform mode and film grain fields in range and in agreement with each other and with the decoder state; and the header of a key frame is accepted whatever its bits when enough data is left.", "quantifier": "every sequence header within AV1's field widths (64x64 superblocks, no frame ids, no decoder model), every decoder state, every bit string", "why_tests_cant": "all bit strings of up to 31300 bits", "anchors": ["internal/uncompressedheader/uncompressed_header.go:NewUncompressedHeader,build"]}
{"id": "C73", "title": "Showing an existing frame is reported", "statement": "A header that shows an existing frame is reported as one, with the slot it names. (False of the code: the flag is never set.)", "quantifier": "every state, sequence header and bit string", "why_tests_cant": "all bit strings", "anchors": ["internal/uncompressedheader/uncompressed_header.go:build"]}
{"id": "C74", "title": "A shown key frame invalidates the reference slots", "statement": "After the header of a shown key frame no reference slot is valid. (False of the code: it resets local copies.)", "quantifier": "every decoder state and bit string", "why_tests_cant": "histories", "anchors": ["internal/uncompressedheader/uncompressed_header.go:build"]}
{"id": "C75", "title": "Screen content tools follow the sequence header", "statement": "Screen content tools are on or off as the sequence header forces, or as the frame codes when it leaves the choice. (False of the code when they are forced off.)", "quantifier": "every sequence header and bit string", "why_tests_cant": "all bit strings", "anchors": ["internal/uncompressedheader/uncompressed_header.go:build"]}
{"id": "C76", "title": "Refresh flags", "statement": "The slots a frame refreshes are all for switch frames and shown key frames, and otherwise exactly the coded ones. (False of the code: every shown frame refreshes all.)", "quantifier": "every header and bit string", "why_tests_cant": "all bit strings", "anchors": ["internal/uncompressedheader/uncompressed_header.go:build"]}
{"id": "C77", "title": "Reference indices", "statement": "A reference index is read from its three bits. (False of the code: six bits are consumed and the first three dropped.)", "quantifier": "every index and following bits", "why_tests_cant": "all bit strings", "anchors": ["internal/uncompressedheader/uncompressed_header.go:build"]}
{"id": "C78", "title": "Primary reference frames", "statement": "A frame may name a primary reference frame whose contexts it inherits. (False of the code: every returned header has none; the others panic.)", "quantifier": "every header, state and bit string", "why_tests_cant": "all bit strings", "anchors": ["internal/uncompressedheader/uncompressed_header.go:build,loadPrevious"]}
{"id": "C79", "title": "Frame ids", "statement": "Streams with frame id numbers are parsed. (False of the code: every frame header panics unless it shows an existing frame.)", "quantifier": "every header, state and bit string", "why_tests_cant": "all bit strings", "anchors": ["internal/uncompressedheader/uncompressed_header.go:build,markRefFrames"]}
{"id": "C80", "title": "Random access: intra headers do not depend on the past", "statement": "Parsing the header of a key frame or intra-only frame from any two decoder states gives the same header, the same frame set-up and the same position, or the same failure.", "quantifier": "every pair of decoder states, every sequence header, every bit string", "why_tests_cant": "relates two arbitrary histories", "anchors": ["internal/uncompressedheader/uncompressed_header.go:build,setupPastIndependence"]}
{"id": "C81", "title": "Tiles partition the frame", "statement": "The tiles of a frame, decoded with the bounds of their numbers, cover every 4x4 unit of the frame exactly once.", "quantifier": "every tiling of every frame size", "why_tests_cant": "all tilings", "anchors": ["internal/tilegroup/tile_group.go:build", "internal/tileinfo/tile_info.go"]}
{"id": "C82", "title": "Superblocks cover the tile", "statement": "Decoding a tile visits superblocks row by row, left to right, such that every 4x4 unit of the tile is in exactly one visited superblock and none starts outside the tile.", "quantifier": "every tile position and size, both superblock sizes", "why_tests_cant": "all tile geometries", "anchors": ["internal/tilegroup/tile_group.go:decodeTile"]}
{"id": "C83", "title": "Availability flags per superblock", "statement": "Starting a superblock marks the units above and to the left of it inside the tile as decoded and all units of the superblock as not decoded. (False of the code: at most two of the 169 flags are written, and 128x128 superblocks always panic.)", "quantifier": "every flag content, tile position and subsampling", "why_tests_cant": "all states", "anchors": ["internal/tilegroup/tile_group.go:clearBlockDecodedFlags"]}
{"id": "C84", "title": "Frames of any size can be partitioned", "statement": "A block that crosses the bottom or right edge of the frame is split or halved as signalled and decoding goes on; a block crossing both is split without reading anything. (False of the code when exactly one edge is crossed: reading the flag panics.)", "quantifier": "every block size and position, every frame size, every stream and context", "why_tests_cant": "all frame geometries", "anchors": ["internal/tilegroup/decode_partition.go:splitOrHorzElement,splitOrVertElement,decodePartition"]}
{"id": "C85", "title": "Partition recursion is bounded by the block size", "statement": "The partition recursion of a block of size 4*2^k pixels never nests deeper than k+1 calls, whatever the stream says, so no stream can exhaust the stack through it.", "quantifier": "every stream, position and block size", "why_tests_cant": "unbounded streams", "anchors": ["internal/tilegroup/decode_partition.go:decodePartition"]}
{"id": "C86", "title": "Hadamard butterflies", "statement": "A Hadamard butterfly replaces the two entries by their sum and difference clamped to the signed range of the given bits and leaves all other entries alone.", "quantifier": "every array, pair of positions and range", "why_tests_cant": "unbounded arrays", "anchors": ["internal/tilegroup/transform.go:h"]}
{"id": "C87", "title": "Rotations", "statement": "A butterfly rotation turns the two entries by the given angle and rounds to the nearest. (False of the code: every angle other than a quarter turn panics in the sine or cosine lookup.)", "quantifier": "every array and angle", "why_tests_cant": "all angles", "anchors": ["internal/tilegroup/transform.go:b", "internal/util/util.go:Cos128,Sin128"]}
{"id": "C88", "title": "Inverse DCT and ADST return", "statement": "The inverse DCT and ADST of every supported size return a transformed array. (False of the code: none of them ever returns.)", "quantifier": "every size and input array", "why_tests_cant": "all inputs", "anchors": ["internal/tilegroup/transform.go"]}
{"id": "C89", "title": "Identity transforms", "statement": "The identity transforms of sizes 4, 8, 16 and 32 scale the first n entries by sqrt 2, 2, 2 sqrt 2 and 4 (rounded to nearest where irrational) and leave the rest alone.", "quantifier": "every array, four sizes", "why_tests_cant": "unbounded arrays", "anchors": ["internal/tilegroup/transform.go"]}
{"id": "C90", "title": "Two-dimensional inverse transform", "statement": "The two-dimensional inverse transform applies the row transform to each row and the column transform to each column of the block. (False of the code: the work array is never allocated so it panics; with it allocated all rows of the result are equal.)", "quantifier": "every block size, type, bit depth and coefficients", "why_tests_cant": "all inputs", "anchors": ["internal/tilegroup/transform.go:inverseTransformBlock"]}
{"id": "C91", "title": "Quantizer matrices", "statement": "Every weight a block can look up exists, lies in 30..242 and equals the weight at the transposed position of the transposed transform size, so transposing a block transposes its quantisation.", "quantifier": "every level, plane type, transform size and position", "why_tests_cant": "the whole table", "anchors": ["internal/tilegroup/quantizer.go", "internal/tilegroup/reconstruct.go:Qm_Offset"]}
{"id": "C92", "title": "Reconstruction adds the residual", "statement": "Reconstructing a block sets each pixel to prediction plus residual (flipped as the transform type says), clamped to the pixel range. (False of the code: it never returns since the work array is nil; where the residual is added every pixel becomes 2.)", "quantifier": "every block, prediction, residual", "why_tests_cant": "all inputs", "anchors": ["internal/tilegroup/reconstruct.go:reconstruct", "internal/util/util.go:Clip1"]}
{"id": "C93", "title": "Block syntax decodes exactly the in-range symbol sequences", "statement": "Any sequence of block syntax reads (symbols with adaptive contexts chosen from what was read before, raw bits) that returns from tile bytes returned that value on a list of symbols each within its alphabet; conversely every such list is coded by some tile bytes; and reads never fail while the tile's bytes are present.", "quantifier": "every program of reads, every store of valid CDFs, all tile data, adaptation on or off", "why_tests_cant": "unbounded programs, data and histories", "anchors": ["internal/symbol/symbol.go:ReadSymbol", "internal/literal/literal.go"]}
{"id": "C94", "title": "Contexts of a tile exist and have the right alphabet", "statement": "At the start of a tile every adaptive context named by its indices, within the dimensions AV1 gives it, refers to a valid distribution over its alphabet. (False of the code for base quantizer indices above 120: 38 of the 42 base level contexts of chroma 4x4 blocks are missing, so decoding such blocks panics.)", "quantifier": "every context name, every index, every quantizer class", "why_tests_cant": "the whole index space of every table", "anchors": ["internal/uncompressedheader/cdf.go:DEFAULT_COEFF_BASE_CDF", "internal/tilegroup/tile_group.go:initSymbol"]}
{"id": "C95", "title": "Contexts adapt independently", "statement": "Different contexts are different arrays, so that coding a symbol in one leaves the others unchanged. (False of the code: e.g. the four delta loop filter contexts and the single one are the same array.)", "quantifier": "every pair of contexts", "why_tests_cant": "aliasing through shared references", "anchors": ["internal/uncompressedheader/cdf.go:InitNonCoeffCdfs"]}
{"id": "C96", "title": "Coefficient decoding neither panics nor leaves its arrays", "statement": "Decoding the coefficients of any transform block of a frame ends normally on all tile data, writing only positions of the block. (False of the code: the transform type array has 2 by 2 entries, so a luma block that is not in the first 8 by 8 pixels panics; and chroma 4x4 blocks panic in frames with a base quantizer index above 120.)", "quantifier": "every block position, plane, transform size, quantizer class, tile data and history of contexts", "why_tests_cant": "unbounded data, positions and histories", "anchors": ["internal/tilegroup/coeffs.go:coeffs", "internal/tilegroup/coeffs.go:transformType"]}
{"id": "C97", "title": "Golomb coded levels decode to the number coded, and decoding ends", "statement": "Every number from 1 on decodes from its Exp-Golomb code; decoding a level ends on all tile data. (The second is false of the code: AV1 stops after 20 zeros, the code counts zeros for ever once the data has ended.)", "quantifier": "every number, every block, every state", "why_tests_cant": "unbounded numbers; non-termination", "anchors": ["internal/tilegroup/coeffs.go:readGolomb"]}
{"id": "C98", "title": "Coefficients round trip", "statement": "For every transform block and every assignment of coefficients in scan order there are tile data that decode to exactly these coefficients at the positions of the scan, zero elsewhere. (False of the code for negative coefficients after the first: their sign bit is dropped.)", "quantifier": "every block, type, plane, coefficient vector, quantizer class, history of adaptive contexts", "why_tests_cant": "unbounded coefficient vectors", "anchors": ["internal/tilegroup/coeffs.go:coeffs"]}
{"id": "C99", "title": "The number of coefficients is returned", "statement": "Decoding a block returns the position after its last coefficient, which decides whether the block is reconstructed. (False of the code: it returns 0 in every case, so no residual is ever added.)", "quantifier": "every block, state and tile data", "why_tests_cant": "all data", "anchors": ["internal/tilegroup/coeffs.go:coeffs"]}
{"id": "C100", "title": "Transform types are those AV1 allows", "statement": "The transform type read for a block is always one AV1 allows for its size, reduced set and prediction kind, and each of the allowed ones can be coded.", "quantifier": "every size, type, prediction kind, quantizer class and tile data", "why_tests_cant": "all data and histories", "anchors": ["internal/tilegroup/coeffs.go:transformType", "internal/tilegroup/coeffs.go:getTxSet"]}
{"id": "C101", "title": "Coefficient contexts describe the last block decoded", "statement": "After a block, the level and DC contexts of all its 4 by 4 columns and rows inside the frame hold the capped sum of its magnitudes and the sign of its first coefficient; all others are unchanged.", "quantifier": "every block, plane, size, position and coefficient vector", "why_tests_cant": "unbounded coefficient vectors and histories", "anchors": ["internal/tilegroup/coeffs.go:coeffs"]}
{"id": "C102", "title": "Deblocking limits and masks", "statement": "The limit derived from the level and the sharpness, and the four decisions taken from the samples across an edge (high variance, filter mask, flat, flat2), are those of AV1: the limit is the level shifted by the sharpness class, capped at 9 minus the sharpness, at least 1; the masks compare neighbouring samples with the limits scaled to the bit depth.", "quantifier": "every level, sharpness, filter size, bit depth and all samples", "why_tests_cant": "fourteen samples of up to 12 bits each", "anchors": ["internal/tilegroup/loop_filter_process.go:loopFilterEdge", "internal/tilegroup/loop_filter_process.go:filterMaskProcess"]}
{"id": "C103", "title": "Deblocking filter length", "statement": "The length of the filter at an edge is the smaller of the transform dimensions on both sides, across the edge, at most 16 for luma and 8 for chroma.", "quantifier": "every pair of transform sizes, plane and direction", "why_tests_cant": "a bug at one pair of sizes shows only for streams with that pair", "anchors": ["internal/tilegroup/loop_filter_process.go:filterSizeProcess"]}
{"id": "C104", "title": "Deblocking has an effect", "statement": "Deblocking a decoded frame smooths the samples next to block edges where the level is positive, and returns for every frame.", "quantifier": "every frame, header state and block data", "why_tests_cant": "all frames", "anchors": ["internal/tilegroup/loop_filter_process.go:loopFilter"]}
{"id": "C105", "title": "CDEF direction search", "statement": "The direction CDEF uses for an 8x8 block is the one of eight whose lines of pixels have the greatest sum of squared line sums divided by length (the first such), for every block; a block of constant lines in one direction has that direction's cost equal to its energy; a flat block has variance zero and direction zero.", "quantifier": "every 8x8 block and bit depth", "why_tests_cant": "all blocks of pixels", "anchors": ["internal/tilegroup/cdef.go:cdefDirectionProcess"]}
{"id": "C106", "title": "CDEF filter", "statement": "Every pixel of a block becomes the AV1 function of itself and its available neighbours in the picture before CDEF along the direction and at 45 degrees to it, with weights 4,2 or 3,3 by the parity of the strength; no other pixel changes.", "quantifier": "every picture, block, plane, strength, damping, direction", "why_tests_cant": "all pictures", "anchors": ["internal/tilegroup/cdef.go:cdefFilter"]}
{"id": "C107", "title": "CDEF on a block", "statement": "A block is copied if its index is -1 or all its units are skipped; otherwise luma is filtered with the strength adjusted by its variance and chroma with the chroma strengths, reduced damping and converted direction. Pixels outside the block keep their values.", "quantifier": "every frame, block, index, header", "why_tests_cant": "all frames", "anchors": ["internal/tilegroup/cdef.go:cdefBlock"]}
{"id": "C108", "title": "CDEF on a frame", "statement": "CDEF returns for every frame, gives every pixel of the frame the value AV1 prescribes from the picture before CDEF, independently of the order of blocks, and is the identity when all indices are -1.", "quantifier": "every frame and header", "why_tests_cant": "all frames", "anchors": ["internal/tilegroup/cdef.go:cdef"]}
{"id": "C109", "title": "CDEF indices", "statement": "Before a superblock is decoded the index of each of its 64x64 blocks is -1; the first block that is not skipped carries cdef_bits bits, which become the index of the 64x64 blocks it covers, and nothing else changes.", "quantifier": "every frame size, superblock size, block position and tile content", "why_tests_cant": "all histories of superblocks", "anchors": ["internal/cdef/cdef.go:ClearCdef", "internal/tilegroup/intra_frame_mode_info.go:readCdef"]}
{"id": "C110", "title": "Coefficient contexts", "statement": "Every symbol of a block of coefficients (all-zero flag, number of coefficients and its low bits, base levels, larger levels, sign of the first) is read with the CDF array and at the context that AV1 prescribes from the block sizes, the arrays of levels and signs above and to the left within the picture, and the coefficients already read around the position.", "quantifier": "every block, transform size and type, position, context arrays and coefficients read so far", "why_tests_cant": "all context arrays and coefficient histories", "anchors": ["internal/tilegroup/coeffs.go:allZeroSymbol", "internal/tilegroup/coeffs.go:getCoeffBaseCtx", "internal/tilegroup/coeffs.go:coeffs"]}
{"id": "C111", "title": "Upscaling", "statement": "Upscaling a frame with super resolution fills every plane to the upscaled width; every output pixel is the 8 tap filter of the input row at the position of its centre, rounded and clipped to the bit depth; without super resolution the picture is unchanged.", "quantifier": "every frame size, denominator, bit depth and picture", "why_tests_cant": "pictures and sizes are unbounded", "anchors": ["internal/tilegroup/decode_frame_wrapup.go:upscalingProcess"]}
{"id": "C112", "title": "Output of shown frames", "statement": "Every shown frame is output: the output planes have the size of the frame (chroma subsampled) and the pixels of the restored picture; a frame that is not shown leaves the output unchanged.", "quantifier": "every frame size, subsampling and picture", "why_tests_cant": "sizes and pictures are unbounded", "anchors": ["internal/tilegroup/output.go:outputProcess", "internal/tilegroup/tile_group.go:decodeFrameWrapup"]}
{"id": "C113", "title": "Loop restoration", "statement": "Loop restoration visits every pixel of every plane once, reads samples only from the pixel's stripe with two rows of deblocked border, applies a symmetric Wiener filter of sum 128 or the self guided filter where its unit says so, and copies all other pixels.", "quantifier": "every frame, unit size, coefficient set and pixel", "why_tests_cant": "frames, pictures and parameters are unbounded", "anchors": ["internal/tilegroup/loop_restoration.go:loopRestoration"]}
{"id": "C114", "title": "Loop restoration parameters", "statement": "The parameters of every restoration unit are read with exactly one superblock, and a unit written with the codes of AV1 is read back with the same type, set, weights and taps.", "quantifier": "every frame size, unit size, superblock, type and value", "why_tests_cant": "positions and values are unbounded", "anchors": ["internal/tilegroup/read_loop_restoration.go:readLr"]}
{"id": "C115", "title": "Transform sizes", "statement": "Every block gets a transform size that AV1 allows: 4x4 if lossless, the largest if the mode says so or the block is 4x4, otherwise the largest split as often as the symbol that is read says, with the context of the neighbours above and to the left; all units of the block record the size.", "quantifier": "every block size and position, frame, tile history, symbol", "why_tests_cant": "block histories and frames are unbounded", "anchors": ["internal/tilegroup/tx_size.go:readBlockTxSize", "internal/tilegroup/tx_size.go:readTxSize"]}
{"id": "C116", "title": "Transform blocks cover a block", "statement": "The transform blocks of a block cover it exactly: every pixel of the frame inside the block belongs to exactly one transform block of each of its planes, every other pixel to none, for every block size, chroma format, transform size and transform tree.", "quantifier": "every block, position, frame size, chroma format, array of transform sizes and pixel", "why_tests_cant": "positions, frames and transform trees are unbounded", "anchors": ["internal/tilegroup/residual.go:residual", "internal/tilegroup/residual.go:transformTree", "internal/tilegroup/residual.go:getTxSize"]}
{"id": "C117", "title": "Order of transform blocks", "statement": "The transform blocks of a block are decoded in the order of AV1: by 64x64 chunk, in each chunk by plane, in each plane row by row.", "quantifier": "every block, position, frame size, chroma format and transform size", "why_tests_cant": "positions and frames are unbounded", "anchors": ["internal/tilegroup/residual.go:residual"]}
{"id": "C118", "title": "Bookkeeping of transform blocks", "statement": "After a transform block the units it covers, and no others, record its transform size for the deblocking filter and are marked as decoded at their place in the superblock.", "quantifier": "every transform block, plane, position, frame and superblock size", "why_tests_cant": "positions and frames are unbounded", "anchors": ["internal/tilegroup/residual.go:transformBlock"]}
{"id": "C119", "title": "Palette prediction", "statement": "In a block with a palette each pixel of a transform block becomes the palette colour that the colour map of its plane names; no other pixel changes.", "quantifier": "every transform block, plane, palette, colour map and picture", "why_tests_cant": "pictures and maps are unbounded", "anchors": ["internal/tilegroup/residual.go:palettePrediction"]}
{"id": "C120", "title": "Prediction of chroma from luma", "statement": "In a block predicted from luma every chroma pixel is its DC prediction plus the scaled difference of the luma it covers from the average luma of the transform block, clipped to the bit depth.", "quantifier": "every transform block, chroma format, scale, bit depth and picture", "why_tests_cant": "pictures are unbounded", "anchors": ["internal/tilegroup/residual.go:predictChromaFromLuma"]}
{"id": "C121", "title": "Quantizer and loop filter deltas", "statement": "On AV1's code of a delta, the current quantizer index moves by that many steps of 2^delta_q_res within 1 to 255, and each coded loop filter delta moves by its number of steps of 2^delta_lf_res within -63 to 63; deltas are read only for the first block of a superblock, not for a skipped superblock, and nothing else is read or changed.", "quantifier": "every delta from -512 to 512, every block size, resolution, current value and every number of coded deltas", "why_tests_cant": "all deltas and states", "anchors": ["internal/tilegroup/intra_frame_mode_info.go:readDeltaQIndex", "internal/tilegroup/intra_frame_mode_info.go:readDeltaLf"]}
{"id": "C122", "title": "Segment ids", "statement": "The segment id of a block is decoded as AV1 codes it: predicted from the ids above, left and above-left, with the context of their agreement, never above the last active segment; a skipped block takes the predicted id.", "quantifier": "every array of ids, availability, symbol and last active segment", "why_tests_cant": "all arrays and symbols", "anchors": ["internal/tilegroup/intra_frame_mode_info.go:readSegmentId", "internal/util/util.go:NegDeinterleave"]}
{"id": "C123", "title": "Intra modes, angles and the choice of the chroma mode alphabet", "statement": "The luma mode of a block of an intra frame is read with the classes of the modes above and left as contexts; directional modes of blocks of at least 8x8 carry an angle delta from -3 to 3; the chroma mode is read with or without chroma from luma exactly as AV1 allows it.", "quantifier": "every block size, subsampling, lossless flag, array of modes and symbol", "why_tests_cant": "all block sizes and arrays", "anchors": ["internal/tilegroup/intra_frame_mode_info.go:intraFrameModeInfo", "internal/tilegroup/intra_frame_mode_info.go:intraFrameYModeSymbol", "internal/tilegroup/inter_frame_mode_info.go:intraBlockModeInfo"]}
{"id": "C124", "title": "Skip flag", "statement": "The skip flag is set without reading for segments with the skip feature; otherwise it is read with the number of skipped neighbours as the context.", "quantifier": "every array of flags, availability and segment", "why_tests_cant": "all arrays", "anchors": ["internal/tilegroup/intra_frame_mode_info.go:readSkip"]}
{"id": "C125", "title": "Availability and chroma of a block", "statement": "A block codes chroma samples exactly if it holds the last luma unit of their area; the units above and left are available exactly if they lie in the tile; the chroma samples above and left are available exactly if the luma units before the start of the chroma area lie in the tile.", "quantifier": "every tile, block position, size and subsampling", "why_tests_cant": "all tiles and positions", "anchors": ["internal/tilegroup/decode_block.go:decodeBlock", "internal/tilegroup/util.go:isInside"]}
{"id": "C126", "title": "Records of a block", "statement": "After a block is decoded every one of its units, and no other, carries its modes, reference frames, motion vectors, inter and skip flags, transform and block size, palette sizes, loop filter deltas and segment id.", "quantifier": "every block position and size, and all values", "why_tests_cant": "all positions, sizes and arrays", "anchors": ["internal/tilegroup/decode_block.go:decodeBlock"]}
{"id": "C127", "title": "Skipped blocks clear the coefficient contexts", "statement": "For a skipped block the level and DC contexts above and left are cleared for exactly the units of each plane that the block covers.", "quantifier": "every block position, size, subsampling and context array", "why_tests_cant": "all positions and arrays", "anchors": ["internal/tilegroup/decode_block.go:resetBlockContext", "internal/tilegroup/decode_block.go:decodeBlock"]}
{"id": "C128", "title": "Chroma from luma alphas", "statement": "Decoding AV1's code of a pair of chroma from luma alphas returns the pair.", "quantifier": "every pair of alphas from -16 to 16, not both 0", "why_tests_cant": "all pairs and decoder states", "anchors": ["internal/tilegroup/intra_frame_mode_info.go:readCflAlphas"]}
{"id": "C129", "title": "Mode info of intra frames", "statement": "Mode info of a block of an intra frame is decoded without panic for every sequence of symbols, marks the block as intra (reference frames intra and none), and leaves every value within its range.", "quantifier": "every header, block, symbol sequence and earlier record", "why_tests_cant": "all symbol sequences", "anchors": ["internal/tilegroup/intra_frame_mode_info.go:intraFrameModeInfo", "internal/tilegroup/intra_frame_mode_info.go:filterIntraModeInfo", "internal/tilegroup/palette.go:paletteModeInfo"]}
{"id": "C130", "title": "Precision of vectors", "statement": "A vector of the neighbourhood is used at the precision of the frame: whole pixels, quarter pixels or eighths, rounded to nearest and towards 0; doing so twice changes nothing.", "quantifier": "every vector and every combination of the two header flags", "why_tests_cant": "all integers", "anchors": ["internal/tilegroup/find_mv_stack.go:lowerMvPrecision"]}
{"id": "C131", "title": "Global motion vector", "statement": "The vector of global motion of a block is that of the frame's warp at the centre of the block (AV1 7.10.2.1).", "quantifier": "every block, reference, type of global motion and parameters", "why_tests_cant": "all integers", "anchors": ["internal/tilegroup/find_mv_stack.go:setupGlobalMvProcess", "internal/util/util.go:Round2Signed"]}
{"id": "C132", "title": "Vector modes", "statement": "The mode of a block says for each of its vectors whether it is the nearest, the near, the global or a new one, as in AV1.", "quantifier": "every inter mode", "why_tests_cant": "the choice is made in two places with arithmetic on the codes of the modes", "anchors": ["internal/tilegroup/assign_mv.go:getMode", "internal/tilegroup/assign_mv.go:assignMv"]}
{"id": "C133", "title": "Assigned vectors", "statement": "The vectors of a block are the global ones, the candidates or these plus the difference read, according to its mode; with intra block copy a whole number of pixels.", "quantifier": "every block, mode and bitstream", "why_tests_cant": "all states of the candidate list", "anchors": ["internal/tilegroup/assign_mv.go:assignMv"]}
{"id": "C134", "title": "The candidate search ends", "statement": "The search for motion vector candidates terminates for every neighbourhood.", "quantifier": "every block, tile, frame and content of the grids", "why_tests_cant": "unbounded loops whose step is read from memory", "anchors": ["internal/tilegroup/find_mv_stack.go:findMvStack"]}
{"id": "C135", "title": "Number of candidates", "statement": "The search keeps up to 8 candidates, for blocks with one and with two references.", "quantifier": "every neighbourhood", "why_tests_cant": "depends on all cells around the block", "anchors": ["internal/tilegroup/find_mv_stack.go:findMvStack", "internal/tilegroup/find_mv_stack.go:contextAndClampingProcess"]}
{"id": "C136", "title": "Contexts of vector modes", "statement": "The contexts the search leaves are entries of the tables they select from, and the state fits the next search.", "quantifier": "every neighbourhood", "why_tests_cant": "depends on all cells around the block and on the history", "anchors": ["internal/tilegroup/find_mv_stack.go:contextAndClampingProcess"]}
{"id": "C137", "title": "Candidates are usable", "statement": "A candidate points at most the block plus 16 pixels outside the frame; behind the candidates follow the vectors of global motion.", "quantifier": "every neighbourhood", "why_tests_cant": "all vectors and positions", "anchors": ["internal/tilegroup/find_mv_stack.go:contextAndClampingProcess", "internal/tilegroup/find_mv_stack.go:extraSearchProcess"]}
{"id": "C138", "title": "Candidates and tiles", "statement": "Candidates come from the block's own tile only; the first block of a tile has none; with few candidates blocks with other references are used.", "quantifier": "every neighbourhood and tile", "why_tests_cant": "depends on cells of other tiles and earlier frames", "anchors": ["internal/tilegroup/find_mv_stack.go:extraSearchProcess", "internal/tilegroup/find_mv_stack.go:addExtraMvCandidateProcess"]}
{"id": "C139", "title": "The candidate search does not panic", "statement": "The search returns for every block of every inter frame, and sorting candidates keeps them.", "quantifier": "every block and neighbourhood", "why_tests_cant": "array bounds for all positions", "anchors": ["internal/tilegroup/find_mv_stack.go", "internal/tilegroup/tile_group.go"]}
{"id": "C140", "title": "Inter flag", "statement": "Whether a block is inter follows from skip mode or its segment's fixed reference or global motion; otherwise it is read with AV1's context, made of the references of the blocks above and left.", "quantifier": "every header, segment and neighbourhood", "why_tests_cant": "all neighbourhoods and segment features", "anchors": ["internal/tilegroup/inter_frame_mode_info.go:readIsInter"]}
{"id": "C141", "title": "References of a block", "statement": "On AV1's code of its reference frames a block gets these, every question being answered from the table of AV1's context.", "quantifier": "every reference, header and neighbourhood", "why_tests_cant": "all neighbourhoods", "anchors": ["internal/tilegroup/inter_block_mode_info.go:readRefFrames", "internal/tilegroup/syntax_element.go"]}
{"id": "C142", "title": "Predicted segment id", "statement": "The predicted segment id of a block is the least previous id of the part of the block inside the frame.", "quantifier": "every block, frame size and previous map", "why_tests_cant": "all maps, blocks over the frame edge", "anchors": ["internal/tilegroup/inter_frame_mode_info.go:getSegmentId"]}
{"id": "C143", "title": "Segment ids of inter frames", "statement": "A block has segment id 0 without segmentation, the predicted id if the map is not updated, otherwise the coded one; with temporal update a flag says that it is the predicted one.", "quantifier": "every header, map and symbol sequence", "why_tests_cant": "all headers and maps", "anchors": ["internal/tilegroup/inter_frame_mode_info.go:interSegmentId"]}
{"id": "C144", "title": "Intra blocks of inter frames", "statement": "The luma mode of an intra block of an inter frame is read with the context of the block's size; the block is recorded as intra, with values in range, for every sequence of symbols. (False of the code where filter intra or screen content tools apply: it panics.)", "quantifier": "every block size, header and symbol sequence", "why_tests_cant": "all symbol sequences", "anchors": ["internal/tilegroup/inter_frame_mode_info.go:intraBlockModeInfo"]}
{"id": "C145", "title": "Modes of inter blocks", "statement": "Every single prediction mode (new, global, nearest, near) is read from its AV1 code; segments with skip or global motion use global motion.", "quantifier": "every header, candidate list and symbol sequence", "why_tests_cant": "all symbol sequences", "anchors": ["internal/tilegroup/inter_block_mode_info.go:interBlockModeInfo"]}
{"id": "C146", "title": "Inter tools", "statement": "Skip mode, inter-intra, overlapped and warped motion, compound prediction and switchable filters are decoded when the headers enable them.", "quantifier": "every header, block and symbol sequence", "why_tests_cant": "all symbol sequences", "anchors": ["internal/tilegroup/inter_block_mode_info.go:readMotionMode", "internal/tilegroup/inter_block_mode_info.go:readInterIntraMode", "internal/tilegroup/inter_block_mode_info.go:readCompoundType", "internal/tilegroup/inter_block_mode_info.go:needsInterpFilter", "internal/tilegroup/inter_frame_mode_info.go:readSkipMode"]}
{"id": "C147", "title": "Inter blocks as a whole", "statement": "On AV1's code of an inter block (reference, mode, difference) the block gets that reference, that mode and the predicted vector plus the difference. (False of the code for several references and modes.)", "quantifier": "every reference, difference, header and decoder state", "why_tests_cant": "all symbol sequences and candidate lists", "anchors": ["internal/tilegroup/inter_block_mode_info.go:interBlockModeInfo", "internal/tilegroup/assign_mv.go:assignMv"]}
{"id": "C148", "title": "Where candidate vectors come from", "statement": "Every motion vector a neighbour adds to the candidate list is the vector this neighbour stores for the wanted reference, reduced to the precision of the frame; the neighbour is an inter block inside the tile. (The reduction is missing for blocks with two references.)", "quantifier": "every neighbour position, frame content and precision", "why_tests_cant": "all positions, all contents", "anchors": ["internal/tilegroup/find_mv_stack.go:addRefMvCandidate"]}
{"id": "C149", "title": "The neighbour scan misses nothing", "statement": "The scans of the row above and the column to the left of a block visit every 8x8 block that touches it (until the limits AV1 has), and the far scans those two and three rows and columns away.", "quantifier": "every block size and position", "why_tests_cant": "all sizes and positions", "anchors": ["internal/tilegroup/find_mv_stack.go:scanRow", "internal/tilegroup/find_mv_stack.go:scanCol"]}
{"id": "C150", "title": "Intra predicted pixels have the bit depth", "statement": "After any sequence of intra predictions every pixel of the plane is between 0 and 2^BitDepth - 1.", "quantifier": "every sequence of blocks, modes, angles and sizes", "why_tests_cant": "all sequences", "anchors": ["internal/tilegroup/predict_intra.go:predictIntra"]}
{"id": "C151", "title": "Intra prediction writes its block", "statement": "Intra prediction of a block changes pixels of this block only and keeps the shape of the plane.", "quantifier": "every call that returns", "why_tests_cant": "all positions, modes and planes", "anchors": ["internal/tilegroup/predict_intra.go:predictIntra"]}
{"id": "C152", "title": "Edges of intra prediction", "statement": "The prediction of a block uses the row of pixels above it and the column to its left, with the limits at the end of the frame; constants where there are no neighbours. (False of the code for rows and columns.)", "quantifier": "every block and frame content", "why_tests_cant": "all frame contents", "anchors": ["internal/tilegroup/predict_intra.go:predictIntra"]}
{"id": "C153", "title": "Every block size can be predicted", "statement": "Intra prediction returns for every transform size and mode. (False of the code: not for 16 pixels and more, not with filter intra.)", "quantifier": "every size, mode and frame content", "why_tests_cant": "all sizes and contents", "anchors": ["internal/tilegroup/predict_intra.go"]}
{"id": "C154", "title": "Directional prediction", "statement": "A directional mode predicts each pixel by AV1's interpolation along the angle. (False of the code for horizontal prediction and for angles below 180 other than 90.)", "quantifier": "every angle, block size and edge content", "why_tests_cant": "all contents", "anchors": ["internal/tilegroup/predict_intra.go:directionalIntraPredictionProcess"]}
{"id": "C155", "title": "Filters of the intra edges", "statement": "With the edge filter enabled, directional modes filter or upsample the edges by the strength for the size, the angle and the smoothness of the neighbours. (False of the code: it panics.)", "quantifier": "every block, angle and neighbours", "why_tests_cant": "all modes of neighbours", "anchors": ["internal/tilegroup/predict_intra.go:intraEdgeFilterProcess", "internal/tilegroup/predict_intra.go:intraEdgeUpsampleProcess", "internal/tilegroup/predict_intra.go:getFilterType"]}
{"id": "C156", "title": "Order of the colour map", "statement": "The colour indices of the on-screen part of a palette block are decoded each exactly once, and when the index of a pixel is decoded those of its left, above and above-left neighbours have been; the chroma map has the subsampled size. (False of the code: with 4:2:2 the height is halved instead of kept, and no pixel after the first gets a context, since the score table is never allocated.)", "quantifier": "every block and on-screen size, every subsampling", "why_tests_cant": "all sizes; the order is a property of the whole walk", "anchors": ["internal/tilegroup/palette_tokens.go:paletteTokens,getPaletteColorContext"]}
{"id": "C157", "title": "Residual reaches the pixels", "statement": "The decoded coefficients of a block, dequantized and inverse transformed, are added to its prediction. (False of the code: whatever the tile data are, a block gets exactly the pixels of its prediction.)", "quantifier": "every block, state and pair of tile data", "why_tests_cant": "all tile data x all states; a non-interference statement relates two executions", "anchors": ["internal/tilegroup/residual.go:residual,transformBlock", "internal/tilegroup/coeffs.go:coeffs"]}
{"id": "C158", "title": "Pixels stay in range", "statement": "If all pixels and palette colours are numbers of BitDepth bits before a block is decoded, they are afterwards, whatever the block, its modes and the tile data are.", "quantifier": "every intra or inter block, prediction state and tile data", "why_tests_cant": "all tile data x all states", "anchors": ["internal/tilegroup/residual.go:residual,transformBlock", "internal/tilegroup/predict_intra.go"]}
{"id": "C159", "title": "Decoding a block touches only its pixels", "statement": "Prediction and reconstruction of a block change no pixel of the frame outside of the block, in any plane.", "quantifier": "every block size, position, subsampling, transform size and tile data", "why_tests_cant": "all blocks x all tile data", "anchors": ["internal/tilegroup/residual.go:residual,transformBlock,transformTree"]}
{"id": "C160", "title": "Availability of neighbours in intra prediction", "statement": "A transform block at the left (upper) border of a block is predicted from the pixels to the left (above) exactly if the block's luma neighbours are available, for luma, and its chroma neighbours, for chroma. (False of the code: the flags are exchanged; luma blocks without chroma are predicted without neighbours.)", "quantifier": "every transform block, state and mode", "why_tests_cant": "all states", "anchors": ["internal/tilegroup/residual.go:transformBlock"]}
{"id": "C161", "title": "Motion vector scaling", "statement": "For a reference of the size of the frame, prediction of a block starts at the position of the block plus its motion vector in the reference and advances by one sample per pixel; a reference more than twice as large or less than a sixteenth of the frame is rejected. (Start and step are false of the code: the rounding function drops non-negative arguments, so every block inside the frame starts at the first sample with step zero.)", "quantifier": "every frame and reference size, plane, block position and motion vector", "why_tests_cant": "unbounded positions, vectors and sizes", "anchors": ["internal/tilegroup/predict_inter.go:motionVectorScalingProcess", "internal/util/util.go:Round2Signed"]}
{"id": "C162", "title": "Block inter prediction", "statement": "A block is predicted with the samples of the reference the motion vector points at; from a flat reference the prediction is flat with the same value, for every filter, fraction and bit depth. (The first is false of the code: all pixels are the top left sample.)", "quantifier": "every reference plane, position, step, filter, size and bit depth", "why_tests_cant": "all reference frames x all vectors", "anchors": ["internal/tilegroup/predict_inter.go:blockInterPredictionProcess,roundVariablesDerivationProcess"]}
{"id": "C163", "title": "Interpolation filters", "statement": "Every interpolation filter has eight taps that sum to 128, is the mirror image of the filter of the opposite fraction, and for fraction zero is the identity.", "quantifier": "all six filters and sixteen fractions", "why_tests_cant": "the whole table", "anchors": ["internal/tilegroup/predict_inter.go:Subpel_Filters"]}
{"id": "C164", "title": "Division by table", "statement": "For a divisor other than zero, the division process returns a shift and a factor whose quotient is the reciprocal of the divisor to within the precision of the table, with its sign. (False of the code: the shift is one too small, so every reciprocal is doubled, and one entry of the table has a digit too many.)", "quantifier": "every divisor", "why_tests_cant": "unbounded divisors", "anchors": ["internal/tilegroup/predict_inter.go:resolveDivisorProcess,Div_Lut"]}
{"id": "C165", "title": "Pixels written by inter prediction", "statement": "Inter prediction writes the predicted value to every pixel of the block, leaves the others as they are, and every pixel stays in the range of the bit depth. (Only the range is true of the code: the diagonal is written, with the constant 2.)", "quantifier": "every block, plane, motion vector, reference and overlap", "why_tests_cant": "all frames x all blocks", "anchors": ["internal/tilegroup/predict_inter.go:predictInter,overlappedMotionCompensationProcess"]}
{"id": "C166", "title": "Which inter blocks are decoded", "statement": "Every inter block is predicted: any size, one or two references, intra block copy, warped, masked, anywhere in the frame. (False of the code: only blocks at most 8 wide and 16 high in the top left corner with one reference and no local warp; the others panic.)", "quantifier": "every block size, position and mode", "why_tests_cant": "all modes x all positions", "anchors": ["internal/tilegroup/predict_inter.go:predictInter,blockInterPredictionProcess,blockWarpProcess,warpEstimationProcess"]}
{"id": "C167", "title": "Overlapped motion compensation", "statement": "Blending with a neighbour's prediction changes only the overlapped strip, and each pixel of it to a value between the old one and the neighbour's prediction; neighbours above and to the left are both blended. (The latter is false of the code: the mask for the left neighbour has the wrong length and panics.)", "quantifier": "every strip, mask, prediction and neighbour", "why_tests_cant": "all frames x all predictions", "anchors": ["internal/tilegroup/predict_inter.go:overlappedMotionCompensationProcess,overlapBlendingProcess,getObmcMask"]}
{"id": "C168", "title": "The inter prediction calls cover the block", "statement": "The calls of inter prediction for a plane cover every pixel of the block in that plane exactly once and nothing else; a block that is not inter is left alone. (False of the code for the chroma planes of blocks four pixels wide or high, where only the first part is predicted.)", "quantifier": "every block size and position, plane, 4:2:0 or 4:4:4, and kinds of neighbours", "why_tests_cant": "all positions x all neighbours", "anchors": ["internal/tilegroup/compute_prediction.go:computePrediction"]}
{"id": "C169", "title": "Scaled references", "statement": "A reference is treated as scaled exactly if its width or height differs from the frame's.", "quantifier": "every frame size up to 32767 and reference sizes", "why_tests_cant": "all pairs of sizes", "anchors": ["internal/tilegroup/util.go:isScaled"]}
{"id": "C170", "title": "Shear parameters of a warp", "statement": "The parameters of the shear are the clamped numbers rounded to the nearest multiple of 64; the warp is valid exactly if 4|alpha|+7|beta| and 4|gamma|+4|delta| are below 65536; the identity is valid with zero shear. (The rounding is false of the code for positive numbers, which become 0.)", "quantifier": "every six warp parameters", "why_tests_cant": "unbounded parameters", "anchors": ["internal/tilegroup/predict_inter.go:setupShearProcess"]}
{"id": "C171", "title": "Inter prediction ends", "statement": "Inter prediction of a block ends, normally or with a panic, whatever the sizes of the neighbouring blocks, the motion vectors and the references.", "quantifier": "every block, state and stored frames", "why_tests_cant": "termination over all states", "anchors": ["internal/tilegroup/predict_inter.go:predictInter,overlappedMotionCompensationProcess", "internal/tilegroup/compute_prediction.go:computePrediction"]}
{"id": "C172", "title": "Samples for local warps", "statement": "The search for neighbours that give samples for a local warp ends; it collects one sample for every examined neighbour in the tile with the same single reference, at most eight, and does not panic.", "quantifier": "every block, tile, stored reference, size and motion vector", "why_tests_cant": "over all states of the neighbourhood", "anchors": ["internal/tilegroup/inter_block_mode_info.go:findWarpSamples,addSample"]}
{"id": "C173", "title": "Wedge masks", "statement": "Start-up builds a mask for every wedge and block size: the weight of a pixel rises from 0 to 64 across the wedge boundary, the masks of opposite directions are mirror images, and every block size that may use a wedge has 16 wedges inside the block.", "quantifier": "every direction, pixel, block size and wedge index", "why_tests_cant": "the complete tables, over all pixels", "anchors": ["internal/wedgemask/wedge_mask.go:InitialiseWedgeMaskTable,getWedgeDirection,blockShape,getWedgeXoff,getWedgeYoff"]}
{"id": "C174", "title": "Every unit of a frame is decoded once", "statement": "When the tile groups of a frame have decoded all its tiles, and every partition read is one of the types the code lays out like AV1, each 4x4 unit of the frame lies in exactly one of the decoded blocks.", "quantifier": "every frame size, tile grid, superblock size, tile group split, bit stream and every behaviour of the block decoding", "why_tests_cant": "The blocks are found by a recursion over partitions inside loops over superblocks and tiles; tests can look at a few streams only, coverage without overlap must hold for every one.", "anchors": ["internal/tilegroup/tile_group.go:decodeTile", "internal/tilegroup/tile_group.go:build", "internal/tilegroup/decode_partition.go:decodePartition"]}
{"id": "C175", "title": "What is decoded for a block is recorded for its units", "statement": "When a block has been decoded, its size, reference frames, luma mode, skip flags, inter flag, transform size and loop filter deltas are those recorded for every 4x4 unit of the block; the records of the other units do not change.", "quantifier": "every frame header, block size and position, decoder state, CDFs and tile data", "why_tests_cant": "the tile data, the state and the CDFs are unbounded", "anchors": ["internal/tilegroup/decode_block.go:decodeBlock"]}
{"id": "C176", "title": "A block of an intra frame changes only its own pixels", "statement": "In an intra frame the decoding of a block changes no pixel outside the block, in any plane.", "quantifier": "every intra frame header, block size and position, subsampling, decoder state, CDFs and tile data; every pixel", "why_tests_cant": "every pixel and every tile data", "anchors": ["internal/tilegroup/decode_block.go:decodeBlock", "internal/tilegroup/residual.go:residual"]}
{"id": "C177", "title": "Pixels stay in range through a block", "statement": "If all pixels are numbers of BitDepth bits before a block is decoded, they are afterwards.", "quantifier": "every frame, intra and inter block, state, CDFs and tile data", "why_tests_cant": "all tile data and states", "anchors": ["internal/tilegroup/decode_block.go:decodeBlock", "internal/tilegroup/compute_prediction.go:computePrediction"]}
{"id": "C178", "title": "A tile keeps the decoder's state valid", "statement": "If the CDFs are well formed, the arithmetic decoder is in its range and the pixels are numbers of BitDepth bits when a tile starts, then so it is when the tile has been decoded.", "quantifier": "every tile, header, state and tile data", "why_tests_cant": "it must hold after any number of blocks and symbols", "anchors": ["internal/tilegroup/tile_group.go:decodeTile"]}
{"id": "C179", "title": "The units of a decoded frame have the size of their block", "statement": "When a frame has been decoded from tile data, each of its 4x4 units was decoded exactly once, and the block size recorded for it is the size of the block that covers it.", "quantifier": "every frame that is decoded, and all tile data", "why_tests_cant": "all tile data", "anchors": ["internal/tilegroup/tile_group.go:decodeTile", "internal/tilegroup/decode_partition.go:decodePartition"]}
{"id": "C180", "title": "Every sequence of syntax elements of a frame can be coded", "statement": "For every sequence of symbol values that the syntax of a frame accepts (partition, modes, transform sizes, coefficients, restoration), there are tile data from which the decoder, with adaptation on or off, gets exactly these values and the state they imply.", "quantifier": "every accepted sequence of symbol values of any length, initial state and CDFs", "why_tests_cant": "it is an existence claim for every one of unboundedly many messages", "anchors": ["internal/tilegroup/tile_group.go:decodeTile", "internal/symbol/symbol.go:ReadSymbol"]}
{"id": "C181", "title": "Partition context", "statement": "The partition of a square block of w pixels is read with the probability table of w, in context 1·A + 2·L: A says that the block above is in the same tile and narrower than w, L that the block on the left is in the same tile and lower than w.", "quantifier": "all headers, tiles, block positions, square block sizes from 8x8 to 128x128 and recorded block sizes", "why_tests_cant": "The context depends on the sizes of all blocks decoded before and on the tile bounds.", "anchors": ["internal/tilegroup/decode_partition.go:partitionElement", "internal/tilegroup/decode_partition.go:decodePartition"]}
{"id": "C182", "title": "Tiles do not inherit coefficient contexts, loop filter deltas or filter references", "statement": "Decoding a tile gives the same pixels, the same records and reads the same data whatever coefficient contexts, loop filter deltas and self guided filter references the tiles before it left.", "quantifier": "all tiles with at least one superblock, tile data, headers, states and leftovers", "why_tests_cant": "The leftovers range over all histories of decoded tiles.", "anchors": ["internal/tilegroup/tile_group.go:decodeTile", "internal/tilegroup/tile_group.go:clearAboveContext", "internal/tilegroup/tile_group.go:clearLeftContext"]}
{"id": "C183", "title": "Every picture shown is the frame the stream describes", "statement": "Whatever bytes the program is given, if it does not panic then every picture it outputs for a finished, shown frame has the size its header announces and pixels in the range of the bit depth, depends on the coded frame, and nothing is output for hidden frames or for tile groups that do not finish their frame. (Partly false: only 1x1 frames are ever shown, always with the value 2.)", "quantifier": "all byte strings, all capacities the runtime gives slices, all OBUs of an accepted stream", "why_tests_cant": "No test suite can run all streams; the claim is about the composition of all parsers, the tile decoder and all filters.", "anchors": ["internal/parser/parser.go:bitstream", "internal/obu/obu.go:build", "internal/tilegroup/tile_group.go:decodeFrameWrapup"]}
{"id": "C184", "title": "Every tile a stream announces can be decoded", "statement": "Whatever bytes the program is given, tiles of every position and size can be decoded. (False: in every stream that does not panic, every tile decoded has no rows, or is the only tile of a frame of 8x8 pixels and finishes that frame.)", "quantifier": "all byte strings, all OBUs of an accepted stream, all tiles of their tile groups", "why_tests_cant": "A test shows that one stream panics; that none with a larger frame is accepted is a claim about all of them.", "anchors": ["internal/parser/parser.go:bitstream", "internal/tilegroup/tile_group.go:build", "internal/uncompressedheader/tile_info.go"]}
{"id": "C185", "title": "The pictures of accepted streams are exactly the ones the syntax describes", "statement": "For headers of an 8x8 frame with 64x64 superblocks: whatever sequence of symbols the tile syntax accepts, there is a byte stream that the program decodes to exactly the picture those symbols describe and that is output as the filters say; conversely the decoded picture of every tile of every accepted stream is the one some accepted sequence of symbols describes.", "quantifier": "all byte strings, all sequence and frame headers of 8x8 frames, all symbol messages, all OBUs of an accepted stream", "why_tests_cant": "Both directions quantify over all streams and all messages; the byte stream is constructed in the proof (arithmetic coder, OBU framing).", "anchors": ["internal/parser/parser.go:bitstream", "internal/obu/obu.go:build", "internal/tilegroup/tile_group.go:build", "internal/tilegroup/tile_group.go:decodeTile"]}
{"id": "C186", "title": "Probability tables stay valid over the whole run", "statement": "Whatever stream has been parsed, every probability table of the program (all quantizer classes) is still a valid CDF with the number of symbols it had at start.", "quantifier": "all byte strings, all prefixes of the stream parsed, all tables", "why_tests_cant": "The tables are package variables adapted in place by every symbol of every tile of every frame.", "anchors": ["internal/tilegroup/tile_group.go:exitSymbol", "internal/uncompressedheader/cdf.go:initNonCoeffCdfs", "internal/uncompressedheader/cdf.go:initCoeffCdfs"]}
{"id": "C187", "title": "Pixels stay in range over whole streams", "statement": "In every accepted stream whose frames all have the same bit depth b (8, 10 or 12), every pixel of every plane of every picture decoded, in whatever frame of the stream, is between 0 and 2^b-1.", "quantifier": "all byte strings, all OBUs of an accepted stream, all pixels", "why_tests_cant": "The picture of a frame starts from what the frames before it in the unit left; the claim is an invariant of all of them.", "anchors": ["internal/parser/parser.go:bitstream", "internal/tilegroup/tile_group.go:build", "internal/tilegroup/residual.go:transformBlock", "internal/tilegroup/loop_filter_process.go"]}
{"id": "C188", "title": "A finished frame hands over what its headers say, an unfinished one nothing", "statement": "Decoding a tile group that completes its frame marks the frame header as used up, records in exactly the reference slots selected by refresh_frame_flags the sizes, type, order hints, colour format and global motion of the frame's headers, leaves every other slot (also as the next frame header sees it) as it was, and continues with the CDF tables the frame end update prescribes; a tile group that does not complete its frame leaves references, tables and header state alone.", "quantifier": "every state, pair of headers, payload and tile layout for which decoding the tile group returns", "why_tests_cant": "The hand-over must hold for each of the 256 refresh masks in every state reached by arbitrary earlier frames.", "anchors": ["internal/tilegroup/tile_group.go:NewTileGroup", "internal/tilegroup/tile_group.go:decodeFrameWrapup", "internal/tilegroup/decode_frame_wrapup.go:referenceFrameUpdateProcess", "internal/state/state.go:State"]}
{"id": "C189", "title": "Reference pictures are the decoded pictures", "statement": "The picture a finished frame stores in each refreshed slot is the picture that was decoded and filtered, and the pictures of the other slots stay. (False of the code: every pixel stored is the constant 2, or 0 for reserved profiles, and all other slots are emptied.)", "quantifier": "every accepted stream, every finished frame in it, every slot and pixel", "why_tests_cant": "The claim ranges over all streams and all pixels of all slots.", "anchors": ["internal/tilegroup/decode_frame_wrapup.go:referenceFrameUpdateProcess", "internal/tilegroup/upscaling_process.go", "internal/util/util.go:Clip1", "internal/tilegroup/tile_group.go:NewTileGroup"]}
{"id": "C190", "title": "The quantizer index and the loop filter deltas follow the header", "statement": "After a tile group with tiles the current quantizer index is base_q_idx if delta_q_present is 0 and lies in 1..255 if base_q_idx does; the four loop filter deltas lie in -63..63 and are 0 unless both delta_q_present and delta_lf_present are set; a tile group without tiles changes neither.", "quantifier": "every reachable state, every pair of headers, every payload, any number of tiles and blocks", "why_tests_cant": "The deltas accumulate over all blocks of all tiles; a test sees one history.", "anchors": ["internal/tilegroup/delta.go", "internal/tilegroup/tile_group.go:build", "internal/tilegroup/tile_group.go:clearAboveContext"]}
{"id": "C191", "title": "Coded segment ids reach the deblocking filter and the following frames", "statement": "The segment map kept with a reference frame, the map that temporal segment prediction reads and the map the deblocking filter uses contain the segment ids decoded for the blocks. (False of the code: no block stores its id, so all these maps are 0 everywhere in every reachable state.)", "quantifier": "every reachable state, any history of frames", "why_tests_cant": "It concerns all histories of segmented frames.", "anchors": ["internal/tilegroup/decode_block.go:decodeBlock", "internal/tilegroup/segment_id.go", "internal/tilegroup/decode_frame_wrapup.go", "internal/tilegroup/loop_filter_process.go"]}
{"id": "C192", "title": "Blocks and filters go by the coded header fields", "statement": "Decoding a tile and filtering a frame use, for every header field, the value that was coded for it: transform mode, subsampling, segmentation, delta, motion and tool flags for blocks; levels, CDEF strengths and damping, restoration types and sizes for the filters; deblocking runs exactly if one of the two luma levels is not 0, CDEF runs on its result, and a frame that is not to be shown leaves the output alone.", "quantifier": "every pair of headers and state for which decoding a tile or ending a frame returns", "why_tests_cant": "Some forty fields are passed along; a swapped pair is invisible unless a test sets both to telling values in a frame the rest of the decoder survives.", "anchors": ["internal/tilegroup/tile_group.go:build", "internal/tilegroup/tile_group.go:decodeFrameWrapup", "internal/uncompressedheader/uncompressed_header.go:UncompressedHeader"]}
{"id": "C193", "title": "No candidate vector twice", "statement": "The list of candidate vectors of a block has no two equal entries: a vector found at a second neighbour raises the weight of its entry. (False of the code for blocks with two references, whose pairs are appended again.)", "quantifier": "every neighbourhood and block", "why_tests_cant": "all neighbourhoods", "anchors": ["internal/tilegroup/find_mv_stack.go:searchStackProcess,compoundSearchStackProcess"]}
{"id": "C194", "title": "Headers in effect", "statement": "Every OBU of a stream is decoded with the sequence header of the last sequence header OBU before it, and every tile group with the frame header of the frame it belongs to, which is the last frame header before it. (False of the code for frames that start with a frame OBU: their further tile groups get the header of the last separate frame header OBU.)", "quantifier": "all streams that are accepted, all OBUs of the stream, all codecs", "why_tests_cant": "The header in effect depends on the whole history of OBUs before, in any number of units.", "anchors": ["internal/parser/parser.go:frameUnit", "internal/obu/obu.go:NewObu"]}
{"id": "C195", "title": "Tile groups need a frame header", "statement": "A tile group OBU is decoded only in a frame unit in which a frame header has come before it; one without a frame header is rejected, and in no case decodes pixels or adapts probability tables with the headers left over from earlier frame units.", "quantifier": "every stream position, headers left over from earlier units, probability tables, size of the OBU", "why_tests_cant": "the effect depends on the history of the stream, which is unbounded, and on every header that may be left over", "anchors": ["internal/parser/parser.go:frameUnit", "internal/tilegroup/tile_group.go:NewTileGroup", "internal/tilegroup/tile_group.go:decodeFrameWrapup"]}
{"id": "C196", "title": "Decoding ends", "statement": "Decoding any byte string ends, with a result or with a panic; and the result does not depend on how many steps the loops over the tile data may take.", "quantifier": "every finite byte string, every bound on the steps of the unbounded loops", "why_tests_cant": "A test sees that some streams are decoded in time; that none runs for ever is a statement about all streams, and a run that does not end cannot be observed.", "anchors": ["internal/tilegroup/coeffs.go:coeffs", "internal/tilegroup/read_loop_restoration.go:decodeSubexpBool", "internal/parser/parser.go:bitstream"]}
{"id": "C197", "title": "Palette colour contexts follow the neighbours", "statement": "At every pixel of a palette block after the first, the colours are ranked by how much they count among the pixels to the left (2), above left (1) and above (2), ties by colour, and the context hash is the best score plus twice the second and third.", "quantifier": "every number of colours, block size, picture and pixel", "why_tests_cant": "The ranking is a partial sort over all colour combinations of three neighbours; tests see a few pictures.", "anchors": ["internal/tilegroup/palette_tokens.go:getPaletteColorContext"]}
{"id": "C198", "title": "Palette colour maps can be coded in exactly one way", "statement": "For every picture with the palette's colours there is exactly one sequence of colour indices that decodes to it, every sequence of indices within the palette size decodes, and the part of the block outside the frame repeats the last column and row.", "quantifier": "every number of colours, block size, visible part and picture", "why_tests_cant": "Existence and uniqueness range over all pictures and all index sequences.", "anchors": ["internal/tilegroup/palette_tokens.go:paletteTokens"]}
{"id": "C199", "title": "Palette colours are those that were coded", "statement": "The palette of a block consists of the cache entries that are marked, the colour coded by itself and the colours coded as differences from the one before, sorted, for luma and U; V colours are in coded order.", "quantifier": "every bit depth, palette size, cache, choice of cache entries and coded value", "why_tests_cant": "The colours depend on variable-width differences and a merge with the cache; all combinations must be right.", "anchors": ["internal/tilegroup/palette.go:paletteModeInfo"]}
{"id": "C200", "title": "Two references are weighted by their distance in time", "statement": "In compound prediction by distance, each of the two references gets a share of sixteen that depends only on how far it is in time from the frame: 9, 11, 12 or 13 sixteenths for the nearer one, by the ratio of the distances, and the rest for the other; the distance is the difference of the order hints modulo their range, at most 31.", "quantifier": "every pair of references, order hints, hint width and distances", "why_tests_cant": "The distances and the hints range over all integers and widths; a test fixes a few pairs of frames.", "anchors": ["internal/tilegroup/predict_inter.go:distanceWeightsProcess", "internal/tilegroup/predict_inter.go:Quant_Dist_Lookup", "internal/uncompressedheader/uncompressed_header.go:GetRelativeDist"]}
{"id": "C201", "title": "Quantizer and loop filter deltas read back", "statement": "For every choice of quantizer and loop filter delta parameters that AV1 can code, decoding their coded form returns exactly those parameters and consumes exactly their bits: they are coded just if the base quantizer index is positive, and those of the loop filter only with those of the quantizer and without intra block copy.", "quantifier": "all delta parameters, base quantizer indices, streams and positions", "why_tests_cant": "the presence conditions interact with three other header fields; a misread bit shifts everything after it", "anchors": ["internal/uncompressedheader/uncompressed_header.go:deltaQParams", "internal/uncompressedheader/uncompressed_header.go:deltaLfParams"]}
{"id": "C202", "title": "Key frame headers read back", "statement": "For every shown key frame, reduced still picture and hidden intra-only frame of any size in 64x64 superblocks (without frame ids), decoding the header coded as AV1 prescribes returns every coded field - ids, size, render size, tiles, quantizer, segmentation features, deltas, losslessness, loop filter, CDEF, loop restoration, transform mode and film grain - and consumes exactly its bits.", "quantifier": "all values of all coded header fields, sequences, decoder states and streams", "why_tests_cant": "the header has dozens of conditionally present fields; every combination must be read with the right widths in the right order", "anchors": ["internal/uncompressedheader/uncompressed_header.go:NewUncompressedHeader", "internal/uncompressedheader/uncompressed_header.go:build"]}
{"id": "C203", "title": "Tile layouts read back", "statement": "For every frame size (64x64 superblocks) and every tile layout AV1 can code - explicit widths and heights, or uniform spacing with any number of halvings - decoding the coded tile_info returns exactly the edges of all columns and rows, their numbers, the bit counts of a tile number, the tile whose probabilities are kept and the length of the tile sizes, and consumes exactly its bits.", "quantifier": "all frame sizes, layouts with any number of tiles, decoder states and streams", "why_tests_cant": "the layout is a variable number of codes each of which depends on the sum of those before; the number of layouts is exponential in the frame size", "anchors": ["internal/tileinfo/tile_info.go:NewTileInfo", "internal/bitstream/bitstream.go:Ns"]}
{"id": "C204", "title": "The headers of a stream read back", "statement": "For every sequence header and every list of key and intra-only frame headers, a stream of temporal units of any numbers of frames (each frame header after any temporal delimiters and copies of the sequence header, with one before the first frame; any OBU extensions and size fields) is read to its end without an error, and the OBUs come out in order with every header field as it was coded.", "quantifier": "every sequence header of the code's dialect (64x64 superblocks, no frame ids), every number of temporal units and of frames in each, all header field values, frame sizes, tile layouts, OBU extensions, size fields and lengths of lengths, every operating point that selects the frames after a sequence header", "why_tests_cant": "streams of any length with headers of hundreds of bits", "anchors": ["internal/parser/parser.go:NewParser,bitstream,temporalUnit,frameUnit", "internal/obu/obu.go:NewObu,ParseFrameHeader", "internal/uncompressedheader/uncompressed_header.go:NewUncompressedHeader", "internal/sequenceheader/sequence_header.go:NewSequenceHeader"]}
