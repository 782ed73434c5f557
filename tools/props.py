#!/usr/bin/env python3
"""Source of /verif/properties.jsonl: run `python3 tools/props.py` to regenerate it."""
import json, os
P = []
def p(id, title, statement, quantifier, why, anchors):
    P.append(dict(id=id, title=title, statement=statement, quantifier=quantifier,
                  why_tests_cant=why, anchors=anchors))
I = "internal/"
p("C01", "Fixed-width reads are exact",
  "F(n) returns the value of the next n bits of the stream, most significant first, and advances the position by exactly n; it panics exactly when fewer than n bits are left. Writing any value v < 2^n on n bits anywhere in a stream and reading it back yields v.",
  "every byte string, every position, every width n, every value v < 2^n",
  "the input space (all byte strings x positions x widths) is infinite; a test samples alignments and widths",
  [I+"bitstream/bitstream.go:F,readBit"])
p("C02", "su(n) round trip",
  "Su(n) decodes the n-bit two's complement encoding of every v with -2^(n-1) <= v < 2^(n-1) to v, using n bits.",
  "every n >= 1, every v in range, every surrounding stream",
  "unbounded family of widths and values", [I+"bitstream/bitstream.go:Su"])
p("C03", "ns(n) round trip and range",
  "Ns(n) decodes the reference non-symmetric code of every v < n to v, consuming exactly the code's length, and whatever the bits are, every value it returns is in [0, n).",
  "every n >= 1, every v < n, every bit string",
  "the code changes shape with each n; no finite set of n covers it", [I+"bitstream/bitstream.go:Ns", I+"util/util.go:FloorLog2"])
p("C04", "leb128 round trip, minimal or padded",
  "Leb128 decodes every LEB128 encoding of 1 to 8 bytes of v (padded encodings included) to v, advances by the encoded length, and records that length in Leb128Bytes; it never consumes more than 8 bytes and the result is below 2^56.",
  "every v < 2^56, every encoded length that can hold it, every following data",
  "2^56 values times padding lengths", [I+"bitstream/bitstream.go:Leb128"])
p("C05", "le(n) round trip",
  "Le(n) decodes the n-byte little-endian encoding of every v < 256^n to v and consumes exactly n bytes.",
  "every n, every v < 256^n", "unbounded", [I+"bitstream/bitstream.go:Le"])
p("C06", "uvlc round trip and termination",
  "Uvlc decodes the exponential-Golomb code of every v < 2^32-1 to v, consuming exactly the code; 32 or more leading zeros give 2^32-1; on a stream of zeros to the end it panics instead of looping forever.",
  "every v < 2^32-1, every count of leading zeros, every stream",
  "values and zero runs are unbounded; termination is a property of all inputs", [I+"bitstream/bitstream.go:Uvlc"])
p("C07", "Readers are streaming readers",
  "Whenever a header reader returns, it has not modified the data, has not moved backwards or past the end of the data, and its result depends only on the bits it consumed (any other stream carrying the same bits there gives the same result).",
  "every byte string and position; every descriptor reader, the OBU header, sequence header, colour config, tile info and uncompressed header parsers",
  "a relational property over pairs of infinite streams", [I+"bitstream/bitstream.go", I+"header/header.go", I+"sequenceheader/sequence_header.go", I+"tileinfo/tile_info.go", I+"uncompressedheader/uncompressed_header.go"])
p("C08", "Alignment and trailing bits",
  "ByteAlignment moves to the next multiple of 8 (and nowhere if aligned), by at most 7 bits; TrailingBits(nb) consumes exactly nb bits for nb >= 1, whatever their values.",
  "every stream, position and nb", "all positions and lengths", [I+"bitstream/bitstream.go:ByteAlignment,TrailingBits"])
p("C09", "Logarithm helpers are exact",
  "FloorLog2(x) is the largest k with 2^k <= x for x >= 1; CeilLog2(x) is the smallest k with 2^k >= x; TileLog2(b,t) is the smallest k with b*2^k >= t, and terminates for every b >= 1.",
  "all positive integers", "unbounded integers; termination", [I+"util/util.go:FloorLog2,CeilLog2,TileLog2"])
p("C10", "Rounding helpers round to nearest",
  "Round2(x,n) is floor((x + 2^(n-1)) / 2^n), i.e. x/2^n rounded to nearest with halves up; Round2Signed(x,n) is the odd function rounding |x|. (False of the code for Round2Signed at x >= 0, which rounds the constant 2.)",
  "every integer x and every n >= 0", "all integers", [I+"util/util.go:Round2,Round2Signed"])
p("C11", "Clipping helpers clamp",
  "Clip3(lo,hi,x) is the point of [lo,hi] nearest to x; Clip1(x,bitDepth) clamps x to the pixel range [0, 2^bitDepth - 1]. (False of the code for Clip1: it ignores x.)",
  "every integer x and bound pair lo <= hi, every bit depth", "all integers", [I+"util/util.go:Clip3,Clip1"])
p("C12", "Inverse recentring is a bijection",
  "For every r >= 0, InverseRecenter(r,.) maps the non-negative integers one-to-one onto themselves; it inverts the reference recentring map.",
  "every r >= 0 and v >= 0", "all integers", [I+"util/util.go:InverseRecenter"])
p("C13", "Segment-id deinterleaving is a bijection",
  "NegDeinterleave(.,ref,max) maps [0,max) one-to-one into [0,max), so every segment id has at most one code, and it is the inverse of the AV1 interleaving around ref. (The first holds of the code; the second is false: the guard is inverted, so it is the identity for every ref other than 1.)",
  "every max >= 1, ref < max, diff < max", "all integers", [I+"util/util.go:NegDeinterleave", I+"tilegroup/intra_frame_mode_info.go"])
p("C14", "Sorting a slice segment",
  "Sort(arr,i1,i2) leaves arr[:i1] and arr[i2+1:] unchanged and makes arr[i1..i2] a sorted permutation of what it was.",
  "every array and index pair in range", "all arrays", [I+"util/util.go:Sort"])
p("C15", "Transform trigonometry and bit reversal",
  "Cos128/Sin128 are defined on every angle with the period and symmetries of cosine and sine; Brev(n,x) reverses the n low bits of x (an involution). (False of the code: Cos128 panics for 191 of 256 residues, Brev replicates bit 1.)",
  "every angle; every n and x < 2^n", "all integers", [I+"util/util.go:Cos128,Sin128,Brev"])
p("C16", "OBU header round trip",
  "Parsing the reference encoding of any OBU header (type, extension flag, has-size flag, temporal and spatial ids) returns exactly these fields and consumes 1 byte, or 2 with an extension; every bit pattern is accepted.",
  "every header value, every position and following data", "all headers at all positions, with all continuations", [I+"header/header.go:NewHeader"])
p("C17", "OBU framing is exact",
  "Parsing an OBU with a size field whose payload parser stays within the declared payload leaves the stream exactly at the end of the OBU (header + size field + declared payload bytes), whatever the trailing bits are.",
  "every OBU of a type other than tile group and frame, every declared size, every payload", "all sizes and payloads", [I+"obu/obu.go", I+"bitstream/bitstream.go:TrailingBits"])
p("C18", "Operating-point filtering skips exactly",
  "An OBU carrying an extension that is not part of the selected operating point is skipped in full: its payload is not interpreted, decoder state is unchanged, and the stream ends at the end of the OBU. OBUs without extension, sequence headers and temporal delimiters are never dropped.",
  "every operating point mask, temporal and spatial id, OBU type, payload and size", "all masks x ids x payloads", [I+"obu/obu.go"])
p("C19", "Frame header sequencing",
  "After a temporal delimiter a frame header OBU is parsed afresh; a second frame header before the frame's tiles are complete is a repetition and must not be parsed as a new header.",
  "every sequence of OBUs", "histories", [I+"obu/obu.go:ParseFrameHeader,FrameHeaderCopy"])
p("C20", "Padding is skipped",
  "A padding OBU is skipped whatever its payload: the stream ends at the OBU's declared end. (False of the code: it looks for a zero byte, so a payload without one, e.g. ending in the usual 0x80, is overrun; with a zero byte it is exact.)",
  "every payload and size", "all payloads", [I+"obu/obu.go:paddingObu"])
p("C21", "Unknown OBU types are ignored",
  "An OBU of a reserved type (or metadata, tile list) with a size field is skipped. (False of the code: it panics.)",
  "every reserved type, size and payload", "all types and payloads", [I+"obu/obu.go"])
p("C22", "Temporal-unit framing",
  "Parsing a stream consumes exactly the bytes its temporal-unit, frame-unit and OBU length fields announce, in order, and terminates for every input (by returning or by panicking).",
  "every byte string", "nested length fields of unbounded depth and count; termination", [I+"parser/parser.go"])
p("C23", "Sequence header round trip",
  "Parsing the specification's encoding of a sequence header yields its fields. (False of the code in general: a reduced still-picture header skips the frame-size fields, and a non-reduced header without timing info reads a stray level field; proved for the sub-language the parser actually accepts.)",
  "every sequence header", "the header space is astronomically large", [I+"sequenceheader/sequence_header.go"])
p("C24", "Colour configuration",
  "Parsing any colour configuration yields a bit depth of 8, 10 or 12 determined by profile and flags, 1 or 3 planes (1 iff monochrome), subsampling consistent with the profile (4:2:0 for profile 0, 4:4:4 for profile 1, vertical subsampling only with horizontal), and re-encoding it by the specification reproduces the bits consumed.",
  "every bit string, every profile 0..2", "all bit strings", [I+"sequenceheader/sequence_header.go:NewColorConfig"])
p("C25", "Multiple operating points",
  "A sequence header announcing several operating points is parsed, keeping one idc per operating point. (False of the code: it always panics when more than one is announced.)",
  "every operating-point count and content", "all bit strings", [I+"sequenceheader/sequence_header.go"])
p("C26", "Uniform tiling partitions the frame",
  "With uniform tile spacing the tile column (row) boundaries start at 0, strictly increase and end at the frame width (height) in 4x4 units, so every 4x4 unit lies in exactly one tile.",
  "every frame size with 64x64 superblocks, every increment code", "all frame sizes and codes", [I+"tileinfo/tile_info.go"])
p("C27", "Explicit tiling partitions the frame",
  "With explicit tile sizes the boundaries also start at 0, strictly increase and end at the frame edge, and each tile is at least one and at most the maximum number of superblocks wide.",
  "every frame size with 64x64 superblocks, every bit string", "all frame sizes and codes", [I+"tileinfo/tile_info.go"])
p("C28", "Tiling is independent of superblock size conventions",
  "With 128x128 superblocks the tiles also partition the frame, the column count being ceil(MiCols/32) and the row count ceil(MiRows/32) superblocks. (False of the code: the row count overwrites the column count, and a tile can be empty.)",
  "every frame size", "all frame sizes", [I+"tileinfo/tile_info.go"])
p("C29", "Frame dimensions",
  "The parsed frame size is the coded size; with super-resolution the downscaled width is round(upscaled*8/denominator) with denominator in 9..16 and never exceeds the upscaled width; MiCols and MiRows are the sizes in 4x4 units rounded up to even.",
  "every sequence header and bit string", "all bit strings", [I+"uncompressedheader/uncompressed_header.go:frameSize,superResParams,computeImageSize"])
p("C30", "Segmentation parameters stay in range",
  "After parsing, every signed segment feature lies within plus/minus its limit and every unsigned one within 0..limit; features not enabled are 0; LastActiveSegId is the largest segment id with an enabled feature and SegIdPreSkip is set iff a reference-type feature is enabled.",
  "every bit string and previous state", "all bit strings", [I+"uncompressedheader/uncompressed_header.go:segmentationParams"])
p("C31", "Quantizer index selection",
  "The per-segment quantizer index is in 0..255 and equals the base index (or, when the block carries its own, the running index) plus the segment delta clipped to 0..255 when the feature is active (the running-index case is false of the code: the delta is dropped); lossless is declared for a segment iff this index and all plane deltas are 0.",
  "every header state and segment", "all states", [I+"uncompressedheader/uncompressed_header.go", I+"tilegroup/reconstruct.go"])
p("C32", "Loop filter header",
  "When the frame is coded lossless or allows intra block copy no loop-filter bits are read and the filter levels are both 0. (False of the code: level 1 is set to 1.) Otherwise levels are below 64.",
  "every header state and bit string", "all bit strings", [I+"uncompressedheader/uncompressed_header.go:loopFilterParams"])
p("C33", "CDEF and loop-restoration header",
  "CDEF strengths are within 0..15 (primary) and {0,1,2,4} (secondary), damping within 3..6; whenever restoration is used the luma unit size is 64, 128 or 256 and the chroma unit sizes are equal to it or half of it.",
  "every header state and bit string", "all bit strings", [I+"uncompressedheader/uncompressed_header.go:cdefParams,lrParams"])
p("C34", "Skip mode",
  "Skip mode is offered if and only if the frame is inter, uses reference select and order hints, and a forward (and backward or second forward) reference exists. (The 'if' half is false of the code: skip mode is never offered.)",
  "every header state", "all states", [I+"uncompressedheader/uncompressed_header.go:skipModeParams"])
p("C35", "Sub-exponential codes",
  "The sub-exponential decoder is defined on every bit string, returns a value below its bound and inverts the reference encoder; the with-reference variant returns values in [0, bound) and inverts the reference encoder.",
  "every bound, reference and value", "unbounded family", [I+"uncompressedheader/uncompressed_header.go:decodeSubexp,decodeUnsignedSubexpWithRef,decodeSignedSubexpWithRef"])
p("C36", "Film grain parameters",
  "Parsed film grain parameters have at most 15 luma and chroma points (the width of the count fields), and disabling film grain (sequence flag off, or frame neither shown nor showable) consumes no bits and yields no grain.",
  "every header state and bit string", "all bit strings", [I+"uncompressedheader/uncompressed_header.go:filmGrainParams"])
p("C37", "Symbols are in range and CDFs stay valid",
  "Decoding a symbol from any valid CDF of N symbols returns a value in [0,N) and leaves a valid CDF: non-decreasing, last entry 2^15, counter at most 32; therefore every CDF of a context stays valid through any decoding history.",
  "every decoder state, valid CDF and history", "adaptive state: histories are unbounded", [I+"symbol/symbol.go:ReadSymbol"])
p("C38", "Arithmetic decoder invariants",
  "From initialisation through any sequence of symbol reads, 2^15 <= range < 2^16 and value < range hold, the renormalisation loop amount is 0..15, and decoding never fails because of these quantities.",
  "every data, every sequence of CDFs", "unbounded histories", [I+"symbol/symbol.go:ReadSymbol", I+"tilegroup/tile_group.go:initSymbol"])
p("C39", "Arithmetic coding round trip",
  "A reference range encoder driven by the same CDFs produces bits from which the decoder recovers exactly the encoded symbol sequence, with the CDFs adapting identically on both sides.",
  "every sequence of (CDF, symbol) choices", "unbounded symbol sequences", [I+"symbol/symbol.go:ReadSymbol"])
p("C40", "Tile data is consumed exactly",
  "Initialising the symbol decoder on a tile of sz bytes, decoding any number of symbols and finishing leaves the stream exactly sz bytes after the tile start, provided the decoder did not run more than 14 bits past the data (where finishing panics).",
  "every tile size, data and sequence of symbol reads", "unbounded histories", [I+"tilegroup/tile_group.go:initSymbol,exitSymbol", I+"symbol/symbol.go:ReadSymbol"])
p("C41", "Disabled adaptation",
  "With CDF update disabled, decoding any symbol sequence leaves every CDF unchanged.",
  "every decoder state and history", "unbounded histories", [I+"symbol/symbol.go:ReadSymbol"])
p("C42", "Default probability tables are constants",
  "Decoding a frame never changes the default probability tables, so a later frame without primary reference starts from the same probabilities. (False of the code: contexts alias the global tables.)",
  "every decoding history", "aliasing appears only through histories", [I+"uncompressedheader/cdf.go:initNonCoeffCdfs", I+"symbol/symbol.go:ReadSymbol"])
p("C43", "Default probability tables are valid",
  "Every default CDF table installed at the start of an independent frame is valid: increasing, ends with 2^15 followed by a zero counter.",
  "every row of every default table (finite, complete)", "an invariant the decoder relies on for all symbol reads; thousands of rows", [I+"uncompressedheader/cdf.go"])
p("C44", "Literals",
  "L(n) returns values below 2^n and NS(n) values below n, for every data, and both leave all adaptive CDFs unchanged.",
  "every decoder state and n", "all states", [I+"literal/literal.go"])
p("C45", "Tile loop",
  "A tile group decodes tiles tg_start..tg_end once each in order, using for each tile the declared size (the last takes the remainder), and consumes exactly the bytes of the tile group.",
  "every tile count and size list", "all counts and sizes", [I+"tilegroup/tile_group.go"])
p("C46", "Partition covers the block",
  "Decoding a partition visits every 4x4 unit of the block inside the frame exactly once. (False of the code: PARTITION_HORZ decodes the lower half twice and never the upper half, HORZ_A omits the lower right quarter, VERT_B decodes below the block, VERT_4 compares with the frame height.)",
  "every block size, position and partition choice", "recursive geometry of all depths", [I+"tilegroup/decode_partition.go"])
p("C47", "Inverse Walsh-Hadamard is lossless",
  "The one-dimensional inverse WHT inverts the forward WHT of AV1 lossless coding for every four samples and every shift, and every four values are the output of some input.",
  "every four integers, every shift, every rest of the array", "unbounded integers", [I+"tilegroup/transform.go"])
p("C48", "Dequantised coefficients are bounded",
  "Dequantised coefficients never exceed the signed range of 8+bit-depth bits, keep the sign of the coded coefficient, and are 0 for a 0 coefficient.",
  "every coefficient, quantizer, bit depth", "all integers", [I+"tilegroup/reconstruct.go"])
p("C49", "Quantizer tables",
  "The DC and AC quantizer tables are strictly positive and non-decreasing in the index for each bit depth; the AC quantizer is looked up in the AC table. (The last is false of the code.)",
  "every index 0..255 and bit depth", "completeness of three 256-entry tables and the lookup for all indices", [I+"tilegroup/reconstruct.go"])
p("C50", "Scan orders are permutations",
  "Each coefficient scan order visits every position of its transform block exactly once.",
  "every scan table (finite, complete)", "an error in one of thousands of entries makes coefficients collide", [I+"tilegroup/coeffs.go"])
p("C51", "CDEF is neighbourhood-bounded",
  "The CDEF constraint function never exceeds the difference it filters nor the strength, keeps its sign, and the filtered pixel stays within the minimum and maximum of the pixels involved.",
  "every pixel neighbourhood, strength and damping", "all integers", [I+"tilegroup/cdef.go"])
p("C52", "Deblocking narrow filter",
  "The narrow filter changes only the pixels next to the edge, keeps them in the pixel range, and is the identity when the mask is off.",
  "every pixel quadruple and bit depth", "all pixel values", [I+"tilegroup/loop_filter_process.go"])
p("C53", "Filter level selection",
  "The deblocking level is in 0..63 and lvlSeg deltas are clipped; a level of 0 disables filtering.",
  "every header state, segment, reference, mode", "all states", [I+"tilegroup/loop_filter_process.go"])
p("C54", "Reference slots",
  "Saving a frame into the slots selected by the refresh mask changes exactly these slots and loading a slot yields what was last saved there.",
  "every history of saves and loads", "histories", [I+"tilegroup/decode_frame_wrapup.go"])
p("C55", "Above-context clearing",
  "Starting a tile clears the above contexts for the whole frame width. (False of the code: it panics for every frame wider than three 4x4 units.)",
  "every frame width", "all widths", [I+"tilegroup/tile_group.go:clearAboveContext"])
p("C56", "Intra predictors stay in range",
  "DC, Paeth and smooth predictors produce values within the minimum and maximum of the edge pixels they use.",
  "every block size and edge content", "all pixel values", [I+"tilegroup/predict_intra.go"])
p("C57", "Motion vector arithmetic",
  "Reading a motion vector difference inverts the reference coding, and clamped motion vectors stay in their bounds.",
  "every vector and block position", "all integers", [I+"tilegroup/assign_mv.go", I+"tilegroup/find_mv_stack.go"])
p("C58", "Palette cache",
  "The palette cache is sorted, free of duplicates and contains only colours of the above and left palettes.",
  "every pair of sorted neighbour palettes", "all palettes", [I+"tilegroup/palette.go"])
p("C59", "Repeated frame headers are accepted",
  "A redundant frame header, or a repetition of the pending frame header, is accepted and leaves the pending header in force. (False of the code: it always panics.)",
  "every OBU payload and decoder state with a pending frame header", "histories of OBUs x payloads", [I+"obu/obu.go:ParseFrameHeader,FrameHeaderCopy"])
p("C60", "The operating point stays selected",
  "The operating point selected by a sequence header governs all later OBUs until the next sequence header. (False of the code: decoder state is recreated for each frame unit; true within a frame unit.)",
  "every stream history", "histories", [I+"parser/parser.go:frameUnit", I+"obu/obu.go"])
p("C61", "Entropy contexts are initialised",
  "Every entropy context a tile decodes symbols with refers to a probability table that starting an independent frame has initialised. (False of the code for the reference-motion-vector context.)",
  "every entropy context of a tile (finite, complete)", "an omission shows only in streams that reach the missing context; completeness over about a hundred contexts", [I+"uncompressedheader/cdf.go:initNonCoeffCdfs", I+"tilegroup/tile_group.go:initSymbol"])
p("C62", "Uniform tile limits",
  "With uniform tile spacing there are at most 64 tile columns and 64 tile rows, no tile column is wider than 4096 luma samples, and the transmitted log2 counts are large enough to number every tile.",
  "every frame size up to 65536x65536 with 64x64 superblocks, every bit string", "all frame sizes and codes", [I+"tileinfo/tile_info.go"])
p("C63", "Uniform tile rows can be signalled",
  "With uniform tile spacing every number of row splits between the required minimum and the maximum allowed by the frame height can be signalled by some bit string. (False of the code: the loop condition is reversed, so no increment bit is ever read.)",
  "every frame size", "quantifies over all bit strings", [I+"tileinfo/tile_info.go"])
p("C64", "Render size",
  "The render size is the coded one when present and otherwise the upscaled width by the frame height. (False of the code: the default height is 0.)",
  "every frame size and bit string", "all bit strings", [I+"uncompressedheader/uncompressed_header.go:renderSize"])
p("C65", "Quantization parameters round trip",
  "Every legal set of quantization parameters is read back exactly from its AV1 encoding, consuming exactly its bits.",
  "every colour configuration and parameter set", "unbounded product of field values", [I+"uncompressedheader/uncompressed_header.go:quantizationParams,readDeltaQ"])
p("C66", "Segment features round trip",
  "Every legal segment feature value is read back exactly from its AV1 encoding. (False of the code: the unsigned reference feature is read as a signed number, so 4..7 are lost.)",
  "every feature and value", "all feature values x any following bits", [I+"uncompressedheader/uncompressed_header.go:segmentationParams"])
p("C67", "Loop filter parameters round trip",
  "Every legal set of loop filter parameters is read back exactly from its AV1 encoding. (False of the code: the 3-bit sharpness is read on 6 bits.)",
  "every parameter set and previous deltas", "unbounded product of field values", [I+"uncompressedheader/uncompressed_header.go:loopFilterParams"])
p("C68", "CDEF parameters round trip",
  "Every legal set of CDEF parameters is read back exactly from its AV1 encoding, consuming exactly its bits.",
  "every damping, strength list and plane count", "unbounded product of field values", [I+"uncompressedheader/uncompressed_header.go:cdefParams"])
p("C69", "Loop restoration parameters round trip",
  "Every legal set of loop restoration parameters is read back exactly from its AV1 encoding, consuming exactly its bits.",
  "every sequence header, type list and unit size", "unbounded product of field values", [I+"uncompressedheader/uncompressed_header.go:lrParams"])
p("C70", "Order hint distance",
  "The relative distance of two order hints is the unique value congruent to their difference in the window of half the range, and a reference is marked as lying after the current frame exactly when its hint does. (The second half is false of the code: the header's own order-hint flag is never set, so no reference is ever marked.)",
  "every pair of hints, number of hint bits, list of references", "all integers; wrap-around cases", [I+"uncompressedheader/uncompressed_header.go:GetRelativeDist,build"])
p("C71", "Global motion",
  "Every reference has a known global motion type, intra frames have none but the identity, and the types and parameters of an inter frame are the coded ones. (False of the code for the parameters: they are never read.)",
  "every sequence header, decoder state and bit string", "all bit strings", [I+"uncompressedheader/uncompressed_header.go:globalMotionParams"])
p("C72", "Frame headers are consistent and key frame headers are accepted",
  "Every frame header the parser returns has sizes, tile boundaries, quantizer, segmentation, filter, restoration, transform mode and film grain fields in range and in agreement with each other and with the decoder state; and the header of a key frame is accepted whatever its bits when enough data is left.",
  "every sequence header within AV1's field widths (64x64 superblocks, no frame ids, no decoder model), every decoder state, every bit string", "all bit strings of up to 31300 bits", [I+"uncompressedheader/uncompressed_header.go:NewUncompressedHeader,build"])
p("C73", "Showing an existing frame is reported",
  "A header that shows an existing frame is reported as one, with the slot it names. (False of the code: the flag is never set.)",
  "every state, sequence header and bit string", "all bit strings", [I+"uncompressedheader/uncompressed_header.go:build"])
p("C74", "A shown key frame invalidates the reference slots",
  "After the header of a shown key frame no reference slot is valid. (False of the code: it resets local copies.)",
  "every decoder state and bit string", "histories", [I+"uncompressedheader/uncompressed_header.go:build"])
p("C75", "Screen content tools follow the sequence header",
  "Screen content tools are on or off as the sequence header forces, or as the frame codes when it leaves the choice. (False of the code when they are forced off.)",
  "every sequence header and bit string", "all bit strings", [I+"uncompressedheader/uncompressed_header.go:build"])
p("C76", "Refresh flags",
  "The slots a frame refreshes are all for switch frames and shown key frames, and otherwise exactly the coded ones. (False of the code: every shown frame refreshes all.)",
  "every header and bit string", "all bit strings", [I+"uncompressedheader/uncompressed_header.go:build"])
p("C77", "Reference indices",
  "A reference index is read from its three bits. (False of the code: six bits are consumed and the first three dropped.)",
  "every index and following bits", "all bit strings", [I+"uncompressedheader/uncompressed_header.go:build"])
p("C78", "Primary reference frames",
  "A frame may name a primary reference frame whose contexts it inherits. (False of the code: every returned header has none; the others panic.)",
  "every header, state and bit string", "all bit strings", [I+"uncompressedheader/uncompressed_header.go:build,loadPrevious"])
p("C79", "Frame ids",
  "Streams with frame id numbers are parsed. (False of the code: every frame header panics unless it shows an existing frame.)",
  "every header, state and bit string", "all bit strings", [I+"uncompressedheader/uncompressed_header.go:build,markRefFrames"])
p("C80", "Random access: intra headers do not depend on the past",
  "Parsing the header of a key frame or intra-only frame from any two decoder states gives the same header, the same frame set-up and the same position, or the same failure.",
  "every pair of decoder states, every sequence header, every bit string", "relates two arbitrary histories", [I+"uncompressedheader/uncompressed_header.go:build,setupPastIndependence"])
p("C81", "Tiles partition the frame",
  "The tiles of a frame, decoded with the bounds of their numbers, cover every 4x4 unit of the frame exactly once.",
  "every tiling of every frame size", "all tilings", [I+"tilegroup/tile_group.go:build", I+"tileinfo/tile_info.go"])
p("C82", "Superblocks cover the tile",
  "Decoding a tile visits superblocks row by row, left to right, such that every 4x4 unit of the tile is in exactly one visited superblock and none starts outside the tile.",
  "every tile position and size, both superblock sizes", "all tile geometries", [I+"tilegroup/tile_group.go:decodeTile"])
p("C83", "Availability flags per superblock",
  "Starting a superblock marks the units above and to the left of it inside the tile as decoded and all units of the superblock as not decoded. (False of the code: at most two of the 169 flags are written, and 128x128 superblocks always panic.)",
  "every flag content, tile position and subsampling", "all states", [I+"tilegroup/tile_group.go:clearBlockDecodedFlags"])
p("C84", "Frames of any size can be partitioned",
  "A block that crosses the bottom or right edge of the frame is split or halved as signalled and decoding goes on; a block crossing both is split without reading anything. (False of the code when exactly one edge is crossed: reading the flag panics.)",
  "every block size and position, every frame size, every stream and context", "all frame geometries", [I+"tilegroup/decode_partition.go:splitOrHorzElement,splitOrVertElement,decodePartition"])
p("C85", "Partition recursion is bounded by the block size",
  "The partition recursion of a block of size 4*2^k pixels never nests deeper than k+1 calls, whatever the stream says, so no stream can exhaust the stack through it.",
  "every stream, position and block size", "unbounded streams", [I+"tilegroup/decode_partition.go:decodePartition"])
p("C86", "Hadamard butterflies",
  "A Hadamard butterfly replaces the two entries by their sum and difference clamped to the signed range of the given bits and leaves all other entries alone.",
  "every array, pair of positions and range", "unbounded arrays", [I+"tilegroup/transform.go:h"])
p("C87", "Rotations",
  "A butterfly rotation turns the two entries by the given angle and rounds to the nearest. (False of the code: every angle other than a quarter turn panics in the sine or cosine lookup.)",
  "every array and angle", "all angles", [I+"tilegroup/transform.go:b", I+"util/util.go:Cos128,Sin128"])
p("C88", "Inverse DCT and ADST return",
  "The inverse DCT and ADST of every supported size return a transformed array. (False of the code: none of them ever returns.)",
  "every size and input array", "all inputs", [I+"tilegroup/transform.go"])
p("C89", "Identity transforms",
  "The identity transforms of sizes 4, 8, 16 and 32 scale the first n entries by sqrt 2, 2, 2 sqrt 2 and 4 (rounded to nearest where irrational) and leave the rest alone.",
  "every array, four sizes", "unbounded arrays", [I+"tilegroup/transform.go"])
p("C90", "Two-dimensional inverse transform",
  "The two-dimensional inverse transform applies the row transform to each row and the column transform to each column of the block. (False of the code: the work array is never allocated so it panics; with it allocated all rows of the result are equal.)",
  "every block size, type, bit depth and coefficients", "all inputs", [I+"tilegroup/transform.go:inverseTransformBlock"])
p("C91", "Quantizer matrices",
  "Every weight a block can look up exists, lies in 30..242 and equals the weight at the transposed position of the transposed transform size, so transposing a block transposes its quantisation.",
  "every level, plane type, transform size and position", "the whole table", [I+"tilegroup/quantizer.go", I+"tilegroup/reconstruct.go:Qm_Offset"])
p("C92", "Reconstruction adds the residual",
  "Reconstructing a block sets each pixel to prediction plus residual (flipped as the transform type says), clamped to the pixel range. (False of the code: it never returns since the work array is nil; where the residual is added every pixel becomes 2.)",
  "every block, prediction, residual", "all inputs", [I+"tilegroup/reconstruct.go:reconstruct", I+"util/util.go:Clip1"])
p("C93", "Block syntax decodes exactly the in-range symbol sequences",
  "Any sequence of block syntax reads (symbols with adaptive contexts chosen from what was read before, raw bits) that returns from tile bytes returned that value on a list of symbols each within its alphabet; conversely every such list is coded by some tile bytes; and reads never fail while the tile's bytes are present.",
  "every program of reads, every store of valid CDFs, all tile data, adaptation on or off", "unbounded programs, data and histories",
  [I+"symbol/symbol.go:ReadSymbol", I+"literal/literal.go"])
p("C94", "Contexts of a tile exist and have the right alphabet",
  "At the start of a tile every adaptive context named by its indices, within the dimensions AV1 gives it, refers to a valid distribution over its alphabet. (False of the code for base quantizer indices above 120: 38 of the 42 base level contexts of chroma 4x4 blocks are missing, so decoding such blocks panics.)",
  "every context name, every index, every quantizer class", "the whole index space of every table",
  [I+"uncompressedheader/cdf.go:DEFAULT_COEFF_BASE_CDF", I+"tilegroup/tile_group.go:initSymbol"])
p("C95", "Contexts adapt independently",
  "Different contexts are different arrays, so that coding a symbol in one leaves the others unchanged. (False of the code: e.g. the four delta loop filter contexts and the single one are the same array.)",
  "every pair of contexts", "aliasing through shared references",
  [I+"uncompressedheader/cdf.go:InitNonCoeffCdfs"])
p("C96", "Coefficient decoding neither panics nor leaves its arrays",
  "Decoding the coefficients of any transform block of a frame ends normally on all tile data, writing only positions of the block. (False of the code: the transform type array has 2 by 2 entries, so a luma block that is not in the first 8 by 8 pixels panics; and chroma 4x4 blocks panic in frames with a base quantizer index above 120.)",
  "every block position, plane, transform size, quantizer class, tile data and history of contexts", "unbounded data, positions and histories",
  [I+"tilegroup/coeffs.go:coeffs", I+"tilegroup/coeffs.go:transformType"])
p("C97", "Golomb coded levels decode to the number coded, and decoding ends",
  "Every number from 1 on decodes from its Exp-Golomb code; decoding a level ends on all tile data. (The second is false of the code: AV1 stops after 20 zeros, the code counts zeros for ever once the data has ended.)",
  "every number, every block, every state", "unbounded numbers; non-termination",
  [I+"tilegroup/coeffs.go:readGolomb"])
p("C98", "Coefficients round trip",
  "For every transform block and every assignment of coefficients in scan order there are tile data that decode to exactly these coefficients at the positions of the scan, zero elsewhere. (False of the code for negative coefficients after the first: their sign bit is dropped.)",
  "every block, type, plane, coefficient vector, quantizer class, history of adaptive contexts", "unbounded coefficient vectors",
  [I+"tilegroup/coeffs.go:coeffs"])
p("C99", "The number of coefficients is returned",
  "Decoding a block returns the position after its last coefficient, which decides whether the block is reconstructed. (False of the code: it returns 0 in every case, so no residual is ever added.)",
  "every block, state and tile data", "all data",
  [I+"tilegroup/coeffs.go:coeffs"])
p("C100", "Transform types are those AV1 allows",
  "The transform type read for a block is always one AV1 allows for its size, reduced set and prediction kind, and each of the allowed ones can be coded.",
  "every size, type, prediction kind, quantizer class and tile data", "all data and histories",
  [I+"tilegroup/coeffs.go:transformType", I+"tilegroup/coeffs.go:getTxSet"])
p("C101", "Coefficient contexts describe the last block decoded",
  "After a block, the level and DC contexts of all its 4 by 4 columns and rows inside the frame hold the capped sum of its magnitudes and the sign of its first coefficient; all others are unchanged.",
  "every block, plane, size, position and coefficient vector", "unbounded coefficient vectors and histories",
  [I+"tilegroup/coeffs.go:coeffs"])
p("C102", "Deblocking limits and masks", "The limit derived from the level and the sharpness, and the four decisions taken from the samples across an edge (high variance, filter mask, flat, flat2), are those of AV1: the limit is the level shifted by the sharpness class, capped at 9 minus the sharpness, at least 1; the masks compare neighbouring samples with the limits scaled to the bit depth.", "every level, sharpness, filter size, bit depth and all samples", "fourteen samples of up to 12 bits each", [I+"tilegroup/loop_filter_process.go:loopFilterEdge", I+"tilegroup/loop_filter_process.go:filterMaskProcess"])
p("C103", "Deblocking filter length", "The length of the filter at an edge is the smaller of the transform dimensions on both sides, across the edge, at most 16 for luma and 8 for chroma.", "every pair of transform sizes, plane and direction", "a bug at one pair of sizes shows only for streams with that pair", [I+"tilegroup/loop_filter_process.go:filterSizeProcess"])
p("C104", "Deblocking has an effect", "Deblocking a decoded frame smooths the samples next to block edges where the level is positive, and returns for every frame.", "every frame, header state and block data", "all frames", [I+"tilegroup/loop_filter_process.go:loopFilter"])
p("C105", "CDEF direction search", "The direction CDEF uses for an 8x8 block is the one of eight whose lines of pixels have the greatest sum of squared line sums divided by length (the first such), for every block; a block of constant lines in one direction has that direction's cost equal to its energy; a flat block has variance zero and direction zero.", "every 8x8 block and bit depth", "all blocks of pixels", [I+"tilegroup/cdef.go:cdefDirectionProcess"])
p("C106", "CDEF filter", "Every pixel of a block becomes the AV1 function of itself and its available neighbours in the picture before CDEF along the direction and at 45 degrees to it, with weights 4,2 or 3,3 by the parity of the strength; no other pixel changes.", "every picture, block, plane, strength, damping, direction", "all pictures", [I+"tilegroup/cdef.go:cdefFilter"])
p("C107", "CDEF on a block", "A block is copied if its index is -1 or all its units are skipped; otherwise luma is filtered with the strength adjusted by its variance and chroma with the chroma strengths, reduced damping and converted direction. Pixels outside the block keep their values.", "every frame, block, index, header", "all frames", [I+"tilegroup/cdef.go:cdefBlock"])
p("C108", "CDEF on a frame", "CDEF returns for every frame, gives every pixel of the frame the value AV1 prescribes from the picture before CDEF, independently of the order of blocks, and is the identity when all indices are -1.", "every frame and header", "all frames", [I+"tilegroup/cdef.go:cdef"])
p("C109", "CDEF indices", "Before a superblock is decoded the index of each of its 64x64 blocks is -1; the first block that is not skipped carries cdef_bits bits, which become the index of the 64x64 blocks it covers, and nothing else changes.", "every frame size, superblock size, block position and tile content", "all histories of superblocks", [I+"cdef/cdef.go:ClearCdef", I+"tilegroup/intra_frame_mode_info.go:readCdef"])
p("C110", "Coefficient contexts", "Every symbol of a block of coefficients (all-zero flag, number of coefficients and its low bits, base levels, larger levels, sign of the first) is read with the CDF array and at the context that AV1 prescribes from the block sizes, the arrays of levels and signs above and to the left within the picture, and the coefficients already read around the position.", "every block, transform size and type, position, context arrays and coefficients read so far", "all context arrays and coefficient histories", [I+"tilegroup/coeffs.go:allZeroSymbol", I+"tilegroup/coeffs.go:getCoeffBaseCtx", I+"tilegroup/coeffs.go:coeffs"])
p("C111", "Upscaling", "Upscaling a frame with super resolution fills every plane to the upscaled width; every output pixel is the 8 tap filter of the input row at the position of its centre, rounded and clipped to the bit depth; without super resolution the picture is unchanged.", "every frame size, denominator, bit depth and picture", "pictures and sizes are unbounded", [I+"tilegroup/decode_frame_wrapup.go:upscalingProcess"])
p("C112", "Output of shown frames", "Every shown frame is output: the output planes have the size of the frame (chroma subsampled) and the pixels of the restored picture; a frame that is not shown leaves the output unchanged.", "every frame size, subsampling and picture", "sizes and pictures are unbounded", [I+"tilegroup/output.go:outputProcess", I+"tilegroup/tile_group.go:decodeFrameWrapup"])
p("C113", "Loop restoration", "Loop restoration visits every pixel of every plane once, reads samples only from the pixel's stripe with two rows of deblocked border, applies a symmetric Wiener filter of sum 128 or the self guided filter where its unit says so, and copies all other pixels.", "every frame, unit size, coefficient set and pixel", "frames, pictures and parameters are unbounded", [I+"tilegroup/loop_restoration.go:loopRestoration"])
p("C114", "Loop restoration parameters", "The parameters of every restoration unit are read with exactly one superblock, and a unit written with the codes of AV1 is read back with the same type, set, weights and taps.", "every frame size, unit size, superblock, type and value", "positions and values are unbounded", [I+"tilegroup/read_loop_restoration.go:readLr"])
p("C115", "Transform sizes", "Every block gets a transform size that AV1 allows: 4x4 if lossless, the largest if the mode says so or the block is 4x4, otherwise the largest split as often as the symbol that is read says, with the context of the neighbours above and to the left; all units of the block record the size.", "every block size and position, frame, tile history, symbol", "block histories and frames are unbounded", [I+"tilegroup/tx_size.go:readBlockTxSize", I+"tilegroup/tx_size.go:readTxSize"])
p("C116", "Transform blocks cover a block", "The transform blocks of a block cover it exactly: every pixel of the frame inside the block belongs to exactly one transform block of each of its planes, every other pixel to none, for every block size, chroma format, transform size and transform tree.", "every block, position, frame size, chroma format, array of transform sizes and pixel", "positions, frames and transform trees are unbounded", [I+"tilegroup/residual.go:residual", I+"tilegroup/residual.go:transformTree", I+"tilegroup/residual.go:getTxSize"])
p("C117", "Order of transform blocks", "The transform blocks of a block are decoded in the order of AV1: by 64x64 chunk, in each chunk by plane, in each plane row by row.", "every block, position, frame size, chroma format and transform size", "positions and frames are unbounded", [I+"tilegroup/residual.go:residual"])
p("C118", "Bookkeeping of transform blocks", "After a transform block the units it covers, and no others, record its transform size for the deblocking filter and are marked as decoded at their place in the superblock.", "every transform block, plane, position, frame and superblock size", "positions and frames are unbounded", [I+"tilegroup/residual.go:transformBlock"])
p("C119", "Palette prediction", "In a block with a palette each pixel of a transform block becomes the palette colour that the colour map of its plane names; no other pixel changes.", "every transform block, plane, palette, colour map and picture", "pictures and maps are unbounded", [I+"tilegroup/residual.go:palettePrediction"])
p("C120", "Prediction of chroma from luma", "In a block predicted from luma every chroma pixel is its DC prediction plus the scaled difference of the luma it covers from the average luma of the transform block, clipped to the bit depth.", "every transform block, chroma format, scale, bit depth and picture", "pictures are unbounded", [I+"tilegroup/residual.go:predictChromaFromLuma"])
p("C121", "Quantizer and loop filter deltas",
  "On AV1's code of a delta, the current quantizer index moves by that many steps of 2^delta_q_res within 1 to 255, and each coded loop filter delta moves by its number of steps of 2^delta_lf_res within -63 to 63; deltas are read only for the first block of a superblock, not for a skipped superblock, and nothing else is read or changed.",
  "every delta from -512 to 512, every block size, resolution, current value and every number of coded deltas", "all deltas and states", [I+"tilegroup/intra_frame_mode_info.go:readDeltaQIndex", I+"tilegroup/intra_frame_mode_info.go:readDeltaLf"])
p("C122", "Segment ids",
  "The segment id of a block is decoded as AV1 codes it: predicted from the ids above, left and above-left, with the context of their agreement, never above the last active segment; a skipped block takes the predicted id.",
  "every array of ids, availability, symbol and last active segment", "all arrays and symbols", [I+"tilegroup/intra_frame_mode_info.go:readSegmentId", I+"util/util.go:NegDeinterleave"])
p("C123", "Intra modes, angles and the choice of the chroma mode alphabet",
  "The luma mode of a block of an intra frame is read with the classes of the modes above and left as contexts; directional modes of blocks of at least 8x8 carry an angle delta from -3 to 3; the chroma mode is read with or without chroma from luma exactly as AV1 allows it.",
  "every block size, subsampling, lossless flag, array of modes and symbol", "all block sizes and arrays", [I+"tilegroup/intra_frame_mode_info.go:intraFrameModeInfo", I+"tilegroup/intra_frame_mode_info.go:intraFrameYModeSymbol", I+"tilegroup/inter_frame_mode_info.go:intraBlockModeInfo"])
p("C124", "Skip flag",
  "The skip flag is set without reading for segments with the skip feature; otherwise it is read with the number of skipped neighbours as the context.",
  "every array of flags, availability and segment", "all arrays", [I+"tilegroup/intra_frame_mode_info.go:readSkip"])
p("C125", "Availability and chroma of a block",
  "A block codes chroma samples exactly if it holds the last luma unit of their area; the units above and left are available exactly if they lie in the tile; the chroma samples above and left are available exactly if the luma units before the start of the chroma area lie in the tile.",
  "every tile, block position, size and subsampling", "all tiles and positions", [I+"tilegroup/decode_block.go:decodeBlock", I+"tilegroup/util.go:isInside"])
p("C126", "Records of a block",
  "After a block is decoded every one of its units, and no other, carries its modes, reference frames, motion vectors, inter and skip flags, transform and block size, palette sizes, loop filter deltas and segment id.",
  "every block position and size, and all values", "all positions, sizes and arrays", [I+"tilegroup/decode_block.go:decodeBlock"])
p("C127", "Skipped blocks clear the coefficient contexts",
  "For a skipped block the level and DC contexts above and left are cleared for exactly the units of each plane that the block covers.",
  "every block position, size, subsampling and context array", "all positions and arrays", [I+"tilegroup/decode_block.go:resetBlockContext", I+"tilegroup/decode_block.go:decodeBlock"])
p("C128", "Chroma from luma alphas",
  "Decoding AV1's code of a pair of chroma from luma alphas returns the pair.",
  "every pair of alphas from -16 to 16, not both 0", "all pairs and decoder states", [I+"tilegroup/intra_frame_mode_info.go:readCflAlphas"])
p("C129", "Mode info of intra frames",
  "Mode info of a block of an intra frame is decoded without panic for every sequence of symbols, marks the block as intra (reference frames intra and none), and leaves every value within its range.",
  "every header, block, symbol sequence and earlier record", "all symbol sequences", [I+"tilegroup/intra_frame_mode_info.go:intraFrameModeInfo", I+"tilegroup/intra_frame_mode_info.go:filterIntraModeInfo", I+"tilegroup/palette.go:paletteModeInfo"])
p("C130", "Precision of vectors", "A vector of the neighbourhood is used at the precision of the frame: whole pixels, quarter pixels or eighths, rounded to nearest and towards 0; doing so twice changes nothing.", "every vector and every combination of the two header flags", "all integers", [I+"tilegroup/find_mv_stack.go:lowerMvPrecision"])
p("C131", "Global motion vector", "The vector of global motion of a block is that of the frame's warp at the centre of the block (AV1 7.10.2.1).", "every block, reference, type of global motion and parameters", "all integers", [I+"tilegroup/find_mv_stack.go:setupGlobalMvProcess", I+"util/util.go:Round2Signed"])
p("C132", "Vector modes", "The mode of a block says for each of its vectors whether it is the nearest, the near, the global or a new one, as in AV1.", "every inter mode", "the choice is made in two places with arithmetic on the codes of the modes", [I+"tilegroup/assign_mv.go:getMode", I+"tilegroup/assign_mv.go:assignMv"])
p("C133", "Assigned vectors", "The vectors of a block are the global ones, the candidates or these plus the difference read, according to its mode; with intra block copy a whole number of pixels.", "every block, mode and bitstream", "all states of the candidate list", [I+"tilegroup/assign_mv.go:assignMv"])
p("C134", "The candidate search ends", "The search for motion vector candidates terminates for every neighbourhood.", "every block, tile, frame and content of the grids", "unbounded loops whose step is read from memory", [I+"tilegroup/find_mv_stack.go:findMvStack"])
p("C135", "Number of candidates", "The search keeps up to 8 candidates, for blocks with one and with two references.", "every neighbourhood", "depends on all cells around the block", [I+"tilegroup/find_mv_stack.go:findMvStack", I+"tilegroup/find_mv_stack.go:contextAndClampingProcess"])
p("C136", "Contexts of vector modes", "The contexts the search leaves are entries of the tables they select from, and the state fits the next search.", "every neighbourhood", "depends on all cells around the block and on the history", [I+"tilegroup/find_mv_stack.go:contextAndClampingProcess"])
p("C137", "Candidates are usable", "A candidate points at most the block plus 16 pixels outside the frame; behind the candidates follow the vectors of global motion.", "every neighbourhood", "all vectors and positions", [I+"tilegroup/find_mv_stack.go:contextAndClampingProcess", I+"tilegroup/find_mv_stack.go:extraSearchProcess"])
p("C138", "Candidates and tiles", "Candidates come from the block's own tile only; the first block of a tile has none; with few candidates blocks with other references are used.", "every neighbourhood and tile", "depends on cells of other tiles and earlier frames", [I+"tilegroup/find_mv_stack.go:extraSearchProcess", I+"tilegroup/find_mv_stack.go:addExtraMvCandidateProcess"])
p("C139", "The candidate search does not panic", "The search returns for every block of every inter frame, and sorting candidates keeps them.", "every block and neighbourhood", "array bounds for all positions", [I+"tilegroup/find_mv_stack.go", I+"tilegroup/tile_group.go"])
p("C140", "Inter flag", "Whether a block is inter follows from skip mode or its segment's fixed reference or global motion; otherwise it is read with AV1's context, made of the references of the blocks above and left.", "every header, segment and neighbourhood", "all neighbourhoods and segment features", [I+"tilegroup/inter_frame_mode_info.go:readIsInter"])
p("C141", "References of a block", "On AV1's code of its reference frames a block gets these, every question being answered from the table of AV1's context.", "every reference, header and neighbourhood", "all neighbourhoods", [I+"tilegroup/inter_block_mode_info.go:readRefFrames", I+"tilegroup/syntax_element.go"])
p("C142", "Predicted segment id", "The predicted segment id of a block is the least previous id of the part of the block inside the frame.", "every block, frame size and previous map", "all maps, blocks over the frame edge", [I+"tilegroup/inter_frame_mode_info.go:getSegmentId"])
p("C143", "Segment ids of inter frames", "A block has segment id 0 without segmentation, the predicted id if the map is not updated, otherwise the coded one; with temporal update a flag says that it is the predicted one.", "every header, map and symbol sequence", "all headers and maps", [I+"tilegroup/inter_frame_mode_info.go:interSegmentId"])
p("C144", "Intra blocks of inter frames", "The luma mode of an intra block of an inter frame is read with the context of the block's size; the block is recorded as intra, with values in range, for every sequence of symbols. (False of the code where filter intra or screen content tools apply: it panics.)", "every block size, header and symbol sequence", "all symbol sequences", [I+"tilegroup/inter_frame_mode_info.go:intraBlockModeInfo"])
p("C145", "Modes of inter blocks", "Every single prediction mode (new, global, nearest, near) is read from its AV1 code; segments with skip or global motion use global motion.", "every header, candidate list and symbol sequence", "all symbol sequences", [I+"tilegroup/inter_block_mode_info.go:interBlockModeInfo"])
p("C146", "Inter tools", "Skip mode, inter-intra, overlapped and warped motion, compound prediction and switchable filters are decoded when the headers enable them.", "every header, block and symbol sequence", "all symbol sequences", [I+"tilegroup/inter_block_mode_info.go:readMotionMode", I+"tilegroup/inter_block_mode_info.go:readInterIntraMode", I+"tilegroup/inter_block_mode_info.go:readCompoundType", I+"tilegroup/inter_block_mode_info.go:needsInterpFilter", I+"tilegroup/inter_frame_mode_info.go:readSkipMode"])
p("C147", "Inter blocks as a whole", "On AV1's code of an inter block (reference, mode, difference) the block gets that reference, that mode and the predicted vector plus the difference. (False of the code for several references and modes.)", "every reference, difference, header and decoder state", "all symbol sequences and candidate lists", [I+"tilegroup/inter_block_mode_info.go:interBlockModeInfo", I+"tilegroup/assign_mv.go:assignMv"])
p("C148", "Where candidate vectors come from", "Every motion vector a neighbour adds to the candidate list is the vector this neighbour stores for the wanted reference, reduced to the precision of the frame; the neighbour is an inter block inside the tile. (The reduction is missing for blocks with two references.)", "every neighbour position, frame content and precision", "all positions, all contents", [I+"tilegroup/find_mv_stack.go:addRefMvCandidate"])
p("C149", "The neighbour scan misses nothing", "The scans of the row above and the column to the left of a block visit every 8x8 block that touches it (until the limits AV1 has), and the far scans those two and three rows and columns away.", "every block size and position", "all sizes and positions", [I+"tilegroup/find_mv_stack.go:scanRow", I+"tilegroup/find_mv_stack.go:scanCol"])
p("C150", "Intra predicted pixels have the bit depth", "After any sequence of intra predictions every pixel of the plane is between 0 and 2^BitDepth - 1.", "every sequence of blocks, modes, angles and sizes", "all sequences", [I+"tilegroup/predict_intra.go:predictIntra"])
p("C151", "Intra prediction writes its block", "Intra prediction of a block changes pixels of this block only and keeps the shape of the plane.", "every call that returns", "all positions, modes and planes", [I+"tilegroup/predict_intra.go:predictIntra"])
p("C152", "Edges of intra prediction", "The prediction of a block uses the row of pixels above it and the column to its left, with the limits at the end of the frame; constants where there are no neighbours. (False of the code for rows and columns.)", "every block and frame content", "all frame contents", [I+"tilegroup/predict_intra.go:predictIntra"])
p("C153", "Every block size can be predicted", "Intra prediction returns for every transform size and mode. (False of the code: not for 16 pixels and more, not with filter intra.)", "every size, mode and frame content", "all sizes and contents", [I+"tilegroup/predict_intra.go"])
p("C154", "Directional prediction", "A directional mode predicts each pixel by AV1's interpolation along the angle. (False of the code for horizontal prediction and for angles below 180 other than 90.)", "every angle, block size and edge content", "all contents", [I+"tilegroup/predict_intra.go:directionalIntraPredictionProcess"])
p("C155", "Filters of the intra edges", "With the edge filter enabled, directional modes filter or upsample the edges by the strength for the size, the angle and the smoothness of the neighbours. (False of the code: it panics.)", "every block, angle and neighbours", "all modes of neighbours", [I+"tilegroup/predict_intra.go:intraEdgeFilterProcess", I+"tilegroup/predict_intra.go:intraEdgeUpsampleProcess", I+"tilegroup/predict_intra.go:getFilterType"])
p("C156", "Order of the colour map", "The colour indices of the on-screen part of a palette block are decoded each exactly once, and when the index of a pixel is decoded those of its left, above and above-left neighbours have been; the chroma map has the subsampled size. (False of the code: with 4:2:2 the height is halved instead of kept, and no pixel after the first gets a context, since the score table is never allocated.)", "every block and on-screen size, every subsampling", "all sizes; the order is a property of the whole walk", [I+"tilegroup/palette_tokens.go:paletteTokens,getPaletteColorContext"])
p("C157", "Residual reaches the pixels", "The decoded coefficients of a block, dequantized and inverse transformed, are added to its prediction. (False of the code: whatever the tile data are, a block gets exactly the pixels of its prediction.)", "every block, state and pair of tile data", "all tile data x all states; a non-interference statement relates two executions", [I+"tilegroup/residual.go:residual,transformBlock", I+"tilegroup/coeffs.go:coeffs"])
p("C158", "Pixels stay in range", "If all pixels and palette colours are numbers of BitDepth bits before a block is decoded, they are afterwards, whatever the block, its modes and the tile data are.", "every intra or inter block, prediction state and tile data", "all tile data x all states", [I+"tilegroup/residual.go:residual,transformBlock", I+"tilegroup/predict_intra.go"])
p("C159", "Decoding a block touches only its pixels", "Prediction and reconstruction of a block change no pixel of the frame outside of the block, in any plane.", "every block size, position, subsampling, transform size and tile data", "all blocks x all tile data", [I+"tilegroup/residual.go:residual,transformBlock,transformTree"])
p("C160", "Availability of neighbours in intra prediction", "A transform block at the left (upper) border of a block is predicted from the pixels to the left (above) exactly if the block's luma neighbours are available, for luma, and its chroma neighbours, for chroma. (False of the code: the flags are exchanged; luma blocks without chroma are predicted without neighbours.)", "every transform block, state and mode", "all states", [I+"tilegroup/residual.go:transformBlock"])
p("C161", "Motion vector scaling", "For a reference of the size of the frame, prediction of a block starts at the position of the block plus its motion vector in the reference and advances by one sample per pixel; a reference more than twice as large or less than a sixteenth of the frame is rejected. (Start and step are false of the code: the rounding function drops non-negative arguments, so every block inside the frame starts at the first sample with step zero.)", "every frame and reference size, plane, block position and motion vector", "unbounded positions, vectors and sizes", [I+"tilegroup/predict_inter.go:motionVectorScalingProcess", I+"util/util.go:Round2Signed"])
p("C162", "Block inter prediction", "A block is predicted with the samples of the reference the motion vector points at; from a flat reference the prediction is flat with the same value, for every filter, fraction and bit depth. (The first is false of the code: all pixels are the top left sample.)", "every reference plane, position, step, filter, size and bit depth", "all reference frames x all vectors", [I+"tilegroup/predict_inter.go:blockInterPredictionProcess,roundVariablesDerivationProcess"])
p("C163", "Interpolation filters", "Every interpolation filter has eight taps that sum to 128, is the mirror image of the filter of the opposite fraction, and for fraction zero is the identity.", "all six filters and sixteen fractions", "the whole table", [I+"tilegroup/predict_inter.go:Subpel_Filters"])
p("C164", "Division by table", "For a divisor other than zero, the division process returns a shift and a factor whose quotient is the reciprocal of the divisor to within the precision of the table, with its sign. (False of the code: the shift is one too small, so every reciprocal is doubled, and one entry of the table has a digit too many.)", "every divisor", "unbounded divisors", [I+"tilegroup/predict_inter.go:resolveDivisorProcess,Div_Lut"])
p("C165", "Pixels written by inter prediction", "Inter prediction writes the predicted value to every pixel of the block, leaves the others as they are, and every pixel stays in the range of the bit depth. (Only the range is true of the code: the diagonal is written, with the constant 2.)", "every block, plane, motion vector, reference and overlap", "all frames x all blocks", [I+"tilegroup/predict_inter.go:predictInter,overlappedMotionCompensationProcess"])
p("C166", "Which inter blocks are decoded", "Every inter block is predicted: any size, one or two references, intra block copy, warped, masked, anywhere in the frame. (False of the code: only blocks at most 8 wide and 16 high in the top left corner with one reference and no local warp; the others panic.)", "every block size, position and mode", "all modes x all positions", [I+"tilegroup/predict_inter.go:predictInter,blockInterPredictionProcess,blockWarpProcess,warpEstimationProcess"])
p("C167", "Overlapped motion compensation", "Blending with a neighbour's prediction changes only the overlapped strip, and each pixel of it to a value between the old one and the neighbour's prediction; neighbours above and to the left are both blended. (The latter is false of the code: the mask for the left neighbour has the wrong length and panics.)", "every strip, mask, prediction and neighbour", "all frames x all predictions", [I+"tilegroup/predict_inter.go:overlappedMotionCompensationProcess,overlapBlendingProcess,getObmcMask"])
p("C168", "The inter prediction calls cover the block", "The calls of inter prediction for a plane cover every pixel of the block in that plane exactly once and nothing else; a block that is not inter is left alone. (False of the code for the chroma planes of blocks four pixels wide or high, where only the first part is predicted.)", "every block size and position, plane, 4:2:0 or 4:4:4, and kinds of neighbours", "all positions x all neighbours", [I+"tilegroup/compute_prediction.go:computePrediction"])
p("C169", "Scaled references", "A reference is treated as scaled exactly if its width or height differs from the frame's.", "every frame size up to 32767 and reference sizes", "all pairs of sizes", [I+"tilegroup/util.go:isScaled"])
p("C170", "Shear parameters of a warp", "The parameters of the shear are the clamped numbers rounded to the nearest multiple of 64; the warp is valid exactly if 4|alpha|+7|beta| and 4|gamma|+4|delta| are below 65536; the identity is valid with zero shear. (The rounding is false of the code for positive numbers, which become 0.)", "every six warp parameters", "unbounded parameters", [I+"tilegroup/predict_inter.go:setupShearProcess"])
p("C171", "Inter prediction ends", "Inter prediction of a block ends, normally or with a panic, whatever the sizes of the neighbouring blocks, the motion vectors and the references.", "every block, state and stored frames", "termination over all states", [I+"tilegroup/predict_inter.go:predictInter,overlappedMotionCompensationProcess", I+"tilegroup/compute_prediction.go:computePrediction"])
p("C172", "Samples for local warps", "The search for neighbours that give samples for a local warp ends; it collects one sample for every examined neighbour in the tile with the same single reference, at most eight, and does not panic.", "every block, tile, stored reference, size and motion vector", "over all states of the neighbourhood", [I+"tilegroup/inter_block_mode_info.go:findWarpSamples,addSample"])
p("C173", "Wedge masks", "Start-up builds a mask for every wedge and block size: the weight of a pixel rises from 0 to 64 across the wedge boundary, the masks of opposite directions are mirror images, and every block size that may use a wedge has 16 wedges inside the block.", "every direction, pixel, block size and wedge index", "the complete tables, over all pixels", [I+"wedgemask/wedge_mask.go:InitialiseWedgeMaskTable,getWedgeDirection,blockShape,getWedgeXoff,getWedgeYoff"])
p("C174", "Every unit of a frame is decoded once",
  "When the tile groups of a frame have decoded all its tiles, and every partition read is one of the types the code lays out like AV1, each 4x4 unit of the frame lies in exactly one of the decoded blocks.",
  "every frame size, tile grid, superblock size, tile group split, bit stream and every behaviour of the block decoding",
  "The blocks are found by a recursion over partitions inside loops over superblocks and tiles; tests can look at a few streams only, coverage without overlap must hold for every one.",
  [I+"tilegroup/tile_group.go:decodeTile", I+"tilegroup/tile_group.go:build", I+"tilegroup/decode_partition.go:decodePartition"])
p("C175", "What is decoded for a block is recorded for its units", "When a block has been decoded, its size, reference frames, luma mode, skip flags, inter flag, transform size and loop filter deltas are those recorded for every 4x4 unit of the block; the records of the other units do not change.", "every frame header, block size and position, decoder state, CDFs and tile data", "the tile data, the state and the CDFs are unbounded", [I+"tilegroup/decode_block.go:decodeBlock"])
p("C176", "A block of an intra frame changes only its own pixels", "In an intra frame the decoding of a block changes no pixel outside the block, in any plane.", "every intra frame header, block size and position, subsampling, decoder state, CDFs and tile data; every pixel", "every pixel and every tile data", [I+"tilegroup/decode_block.go:decodeBlock", I+"tilegroup/residual.go:residual"])
p("C177", "Pixels stay in range through a block", "If all pixels are numbers of BitDepth bits before a block is decoded, they are afterwards.", "every frame, intra and inter block, state, CDFs and tile data", "all tile data and states", [I+"tilegroup/decode_block.go:decodeBlock", I+"tilegroup/compute_prediction.go:computePrediction"])
p("C178", "A tile keeps the decoder's state valid", "If the CDFs are well formed, the arithmetic decoder is in its range and the pixels are numbers of BitDepth bits when a tile starts, then so it is when the tile has been decoded.", "every tile, header, state and tile data", "it must hold after any number of blocks and symbols", [I+"tilegroup/tile_group.go:decodeTile"])
p("C179", "The units of a decoded frame have the size of their block", "When a frame has been decoded from tile data, each of its 4x4 units was decoded exactly once, and the block size recorded for it is the size of the block that covers it.", "every frame that is decoded, and all tile data", "all tile data", [I+"tilegroup/tile_group.go:decodeTile", I+"tilegroup/decode_partition.go:decodePartition"])
p("C180", "Every sequence of syntax elements of a frame can be coded", "For every sequence of symbol values that the syntax of a frame accepts (partition, modes, transform sizes, coefficients, restoration), there are tile data from which the decoder, with adaptation on or off, gets exactly these values and the state they imply.", "every accepted sequence of symbol values of any length, initial state and CDFs", "it is an existence claim for every one of unboundedly many messages", [I+"tilegroup/tile_group.go:decodeTile", I+"symbol/symbol.go:ReadSymbol"])
p("C181", "Partition context", "The partition of a square block of w pixels is read with the probability table of w, in context 1·A + 2·L: A says that the block above is in the same tile and narrower than w, L that the block on the left is in the same tile and lower than w.", "all headers, tiles, block positions, square block sizes from 8x8 to 128x128 and recorded block sizes", "The context depends on the sizes of all blocks decoded before and on the tile bounds.", [I+"tilegroup/decode_partition.go:partitionElement", I+"tilegroup/decode_partition.go:decodePartition"])
p("C182", "Tiles do not inherit coefficient contexts, loop filter deltas or filter references", "Decoding a tile gives the same pixels, the same records and reads the same data whatever coefficient contexts, loop filter deltas and self guided filter references the tiles before it left.", "all tiles with at least one superblock, tile data, headers, states and leftovers", "The leftovers range over all histories of decoded tiles.", [I+"tilegroup/tile_group.go:decodeTile", I+"tilegroup/tile_group.go:clearAboveContext", I+"tilegroup/tile_group.go:clearLeftContext"])
p("C183", "Every picture shown is the frame the stream describes", "Whatever bytes the program is given, if it does not panic then every picture it outputs for a finished, shown frame has the size its header announces and pixels in the range of the bit depth, depends on the coded frame, and nothing is output for hidden frames or for tile groups that do not finish their frame. (Partly false: only 1x1 frames are ever shown, always with the value 2.)", "all byte strings, all capacities the runtime gives slices, all OBUs of an accepted stream", "No test suite can run all streams; the claim is about the composition of all parsers, the tile decoder and all filters.", [I+"parser/parser.go:bitstream", I+"obu/obu.go:build", I+"tilegroup/tile_group.go:decodeFrameWrapup"])
p("C184", "Every tile a stream announces can be decoded", "Whatever bytes the program is given, tiles of every position and size can be decoded. (False: in every stream that does not panic, every tile decoded has no rows, or is the only tile of a frame of 8x8 pixels and finishes that frame.)", "all byte strings, all OBUs of an accepted stream, all tiles of their tile groups", "A test shows that one stream panics; that none with a larger frame is accepted is a claim about all of them.", [I+"parser/parser.go:bitstream", I+"tilegroup/tile_group.go:build", I+"uncompressedheader/tile_info.go"])
p("C185", "The pictures of accepted streams are exactly the ones the syntax describes", "For headers of an 8x8 frame with 64x64 superblocks: whatever sequence of symbols the tile syntax accepts, there is a byte stream that the program decodes to exactly the picture those symbols describe and that is output as the filters say; conversely the decoded picture of every tile of every accepted stream is the one some accepted sequence of symbols describes.", "all byte strings, all sequence and frame headers of 8x8 frames, all symbol messages, all OBUs of an accepted stream", "Both directions quantify over all streams and all messages; the byte stream is constructed in the proof (arithmetic coder, OBU framing).", [I+"parser/parser.go:bitstream", I+"obu/obu.go:build", I+"tilegroup/tile_group.go:build", I+"tilegroup/tile_group.go:decodeTile"])
p("C186", "Probability tables stay valid over the whole run", "Whatever stream has been parsed, every probability table of the program (all quantizer classes) is still a valid CDF with the number of symbols it had at start.", "all byte strings, all prefixes of the stream parsed, all tables", "The tables are package variables adapted in place by every symbol of every tile of every frame.", [I+"tilegroup/tile_group.go:exitSymbol", I+"uncompressedheader/cdf.go:initNonCoeffCdfs", I+"uncompressedheader/cdf.go:initCoeffCdfs"])
p("C187", "Pixels stay in range over whole streams", "In every accepted stream whose frames all have the same bit depth b (8, 10 or 12), every pixel of every plane of every picture decoded, in whatever frame of the stream, is between 0 and 2^b-1.", "all byte strings, all OBUs of an accepted stream, all pixels", "The picture of a frame starts from what the frames before it in the unit left; the claim is an invariant of all of them.", [I+"parser/parser.go:bitstream", I+"tilegroup/tile_group.go:build", I+"tilegroup/residual.go:transformBlock", I+"tilegroup/loop_filter_process.go"])
p("C188", "A finished frame hands over what its headers say, an unfinished one nothing",
  "Decoding a tile group that completes its frame marks the frame header as used up, records in exactly the reference slots selected by refresh_frame_flags the sizes, type, order hints, colour format and global motion of the frame's headers, leaves every other slot (also as the next frame header sees it) as it was, and continues with the CDF tables the frame end update prescribes; a tile group that does not complete its frame leaves references, tables and header state alone.",
  "every state, pair of headers, payload and tile layout for which decoding the tile group returns",
  "The hand-over must hold for each of the 256 refresh masks in every state reached by arbitrary earlier frames.",
  [I+"tilegroup/tile_group.go:NewTileGroup", I+"tilegroup/tile_group.go:decodeFrameWrapup", I+"tilegroup/decode_frame_wrapup.go:referenceFrameUpdateProcess", I+"state/state.go:State"])
p("C189", "Reference pictures are the decoded pictures",
  "The picture a finished frame stores in each refreshed slot is the picture that was decoded and filtered, and the pictures of the other slots stay. (False of the code: every pixel stored is the constant 2, or 0 for reserved profiles, and all other slots are emptied.)",
  "every accepted stream, every finished frame in it, every slot and pixel",
  "The claim ranges over all streams and all pixels of all slots.",
  [I+"tilegroup/decode_frame_wrapup.go:referenceFrameUpdateProcess", I+"tilegroup/upscaling_process.go", I+"util/util.go:Clip1", I+"tilegroup/tile_group.go:NewTileGroup"])
p("C190", "The quantizer index and the loop filter deltas follow the header",
  "After a tile group with tiles the current quantizer index is base_q_idx if delta_q_present is 0 and lies in 1..255 if base_q_idx does; the four loop filter deltas lie in -63..63 and are 0 unless both delta_q_present and delta_lf_present are set; a tile group without tiles changes neither.",
  "every reachable state, every pair of headers, every payload, any number of tiles and blocks",
  "The deltas accumulate over all blocks of all tiles; a test sees one history.",
  [I+"tilegroup/delta.go", I+"tilegroup/tile_group.go:build", I+"tilegroup/tile_group.go:clearAboveContext"])
p("C191", "Coded segment ids reach the deblocking filter and the following frames",
  "The segment map kept with a reference frame, the map that temporal segment prediction reads and the map the deblocking filter uses contain the segment ids decoded for the blocks. (False of the code: no block stores its id, so all these maps are 0 everywhere in every reachable state.)",
  "every reachable state, any history of frames",
  "It concerns all histories of segmented frames.",
  [I+"tilegroup/decode_block.go:decodeBlock", I+"tilegroup/segment_id.go", I+"tilegroup/decode_frame_wrapup.go", I+"tilegroup/loop_filter_process.go"])
p("C192", "Blocks and filters go by the coded header fields",
  "Decoding a tile and filtering a frame use, for every header field, the value that was coded for it: transform mode, subsampling, segmentation, delta, motion and tool flags for blocks; levels, CDEF strengths and damping, restoration types and sizes for the filters; deblocking runs exactly if one of the two luma levels is not 0, CDEF runs on its result, and a frame that is not to be shown leaves the output alone.",
  "every pair of headers and state for which decoding a tile or ending a frame returns",
  "Some forty fields are passed along; a swapped pair is invisible unless a test sets both to telling values in a frame the rest of the decoder survives.",
  [I+"tilegroup/tile_group.go:build", I+"tilegroup/tile_group.go:decodeFrameWrapup", I+"uncompressedheader/uncompressed_header.go:UncompressedHeader"])
p("C193", "No candidate vector twice", "The list of candidate vectors of a block has no two equal entries: a vector found at a second neighbour raises the weight of its entry. (False of the code for blocks with two references, whose pairs are appended again.)", "every neighbourhood and block", "all neighbourhoods", [I+"tilegroup/find_mv_stack.go:searchStackProcess,compoundSearchStackProcess"])
p("C194", "Headers in effect", "Every OBU of a stream is decoded with the sequence header of the last sequence header OBU before it, and every tile group with the frame header of the frame it belongs to, which is the last frame header before it. (False of the code for frames that start with a frame OBU: their further tile groups get the header of the last separate frame header OBU.)", "all streams that are accepted, all OBUs of the stream, all codecs", "The header in effect depends on the whole history of OBUs before, in any number of units.", [I+"parser/parser.go:frameUnit", I+"obu/obu.go:NewObu"])
p("C195", "Tile groups need a frame header", "A tile group OBU is decoded only in a frame unit in which a frame header has come before it; one without a frame header is rejected, and in no case decodes pixels or adapts probability tables with the headers left over from earlier frame units.", "every stream position, headers left over from earlier units, probability tables, size of the OBU", "the effect depends on the history of the stream, which is unbounded, and on every header that may be left over", [I+"parser/parser.go:frameUnit", I+"tilegroup/tile_group.go:NewTileGroup", I+"tilegroup/tile_group.go:decodeFrameWrapup"])
p("C196", "Decoding ends", "Decoding any byte string ends, with a result or with a panic; and the result does not depend on how many steps the loops over the tile data may take.", "every finite byte string, every bound on the steps of the unbounded loops", "A test sees that some streams are decoded in time; that none runs for ever is a statement about all streams, and a run that does not end cannot be observed.", [I+"tilegroup/coeffs.go:coeffs", I+"tilegroup/read_loop_restoration.go:decodeSubexpBool", I+"parser/parser.go:bitstream"])
p("C197", "Palette colour contexts follow the neighbours", "At every pixel of a palette block after the first, the colours are ranked by how much they count among the pixels to the left (2), above left (1) and above (2), ties by colour, and the context hash is the best score plus twice the second and third.", "every number of colours, block size, picture and pixel", "The ranking is a partial sort over all colour combinations of three neighbours; tests see a few pictures.", [I+"tilegroup/palette_tokens.go:getPaletteColorContext"])
p("C198", "Palette colour maps can be coded in exactly one way", "For every picture with the palette's colours there is exactly one sequence of colour indices that decodes to it, every sequence of indices within the palette size decodes, and the part of the block outside the frame repeats the last column and row.", "every number of colours, block size, visible part and picture", "Existence and uniqueness range over all pictures and all index sequences.", [I+"tilegroup/palette_tokens.go:paletteTokens"])
p("C199", "Palette colours are those that were coded", "The palette of a block consists of the cache entries that are marked, the colour coded by itself and the colours coded as differences from the one before, sorted, for luma and U; V colours are in coded order.", "every bit depth, palette size, cache, choice of cache entries and coded value", "The colours depend on variable-width differences and a merge with the cache; all combinations must be right.", [I+"tilegroup/palette.go:paletteModeInfo"])
p("C200", "Two references are weighted by their distance in time", "In compound prediction by distance, each of the two references gets a share of sixteen that depends only on how far it is in time from the frame: 9, 11, 12 or 13 sixteenths for the nearer one, by the ratio of the distances, and the rest for the other; the distance is the difference of the order hints modulo their range, at most 31.", "every pair of references, order hints, hint width and distances", "The distances and the hints range over all integers and widths; a test fixes a few pairs of frames.", [I+"tilegroup/predict_inter.go:distanceWeightsProcess", I+"tilegroup/predict_inter.go:Quant_Dist_Lookup", I+"uncompressedheader/uncompressed_header.go:GetRelativeDist"])
p("C201", "Quantizer and loop filter deltas read back", "For every choice of quantizer and loop filter delta parameters that AV1 can code, decoding their coded form returns exactly those parameters and consumes exactly their bits: they are coded just if the base quantizer index is positive, and those of the loop filter only with those of the quantizer and without intra block copy.", "all delta parameters, base quantizer indices, streams and positions", "the presence conditions interact with three other header fields; a misread bit shifts everything after it", [I+"uncompressedheader/uncompressed_header.go:deltaQParams", I+"uncompressedheader/uncompressed_header.go:deltaLfParams"])
p("C202", "Key frame headers read back", "For every shown key frame, reduced still picture and hidden intra-only frame of any size in 64x64 superblocks (without frame ids), decoding the header coded as AV1 prescribes returns every coded field - ids, size, render size, tiles, quantizer, segmentation features, deltas, losslessness, loop filter, CDEF, loop restoration, transform mode and film grain - and consumes exactly its bits.", "all values of all coded header fields, sequences, decoder states and streams", "the header has dozens of conditionally present fields; every combination must be read with the right widths in the right order", [I+"uncompressedheader/uncompressed_header.go:NewUncompressedHeader", I+"uncompressedheader/uncompressed_header.go:build"])
p("C203", "Tile layouts read back", "For every frame size (64x64 superblocks) and every tile layout AV1 can code - explicit widths and heights, or uniform spacing with any number of halvings - decoding the coded tile_info returns exactly the edges of all columns and rows, their numbers, the bit counts of a tile number, the tile whose probabilities are kept and the length of the tile sizes, and consumes exactly its bits.", "all frame sizes, layouts with any number of tiles, decoder states and streams", "the layout is a variable number of codes each of which depends on the sum of those before; the number of layouts is exponential in the frame size", [I+"tileinfo/tile_info.go:NewTileInfo", I+"bitstream/bitstream.go:Ns"])
p("C204", "The headers of a stream read back", "For every sequence header and every list of key and intra-only frame headers, a stream of temporal units of any numbers of frames (each frame header after any temporal delimiters and copies of the sequence header, with one before the first frame; any OBU extensions and size fields) is read to its end without an error, and the OBUs come out in order with every header field as it was coded.", "every sequence header of the code's dialect (64x64 superblocks, no frame ids), every number of temporal units and of frames in each, all header field values, frame sizes, tile layouts, OBU extensions, size fields and lengths of lengths, every operating point that selects the frames after a sequence header", "streams of any length with headers of hundreds of bits", [I+"parser/parser.go:NewParser,bitstream,temporalUnit,frameUnit", I+"obu/obu.go:NewObu,ParseFrameHeader", I+"uncompressedheader/uncompressed_header.go:NewUncompressedHeader", I+"sequenceheader/sequence_header.go:NewSequenceHeader"])
open(os.path.join(os.path.dirname(__file__), "..", "properties.jsonl"), "w").write(
    "".join(json.dumps(x, ensure_ascii=False) + "\n" for x in P))
