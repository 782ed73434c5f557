# Formal model of M4tthewDE/gov1 in Lean 4 — design

gov1 is an AV1 decoder written in Go (work in progress at the pinned commit).  This directory holds a
Lean 4 model of its source and machine-checked theorems about the model.  Nothing of /repo is run.

## Trusted base

* Lean 4.33.0's kernel.  Theorems depend on at most `propext`, `Classical.choice`, `Quot.sound`.
  No axiom is added; nothing is evaluated by compiled code (`decide +kernel` is kernel reduction).
* The reading of the Go source that the model embodies: every definition in `Verif/Model` cites the
  file and lines it models.
* Go semantics assumed: slices and arrays panic on out-of-range indices, negative shift counts panic,
  `>>` on `int` is arithmetic, integer division truncates.  `int` is 64-bit in Go and unbounded here,
  except for Exp-Golomb levels, the only numbers of a stream without a length limit, which wrap (`wrap64`);
  the other places where this could matter are noted at the definition.
* The package graph has an import cycle at this commit (`uncompressedheader` imports `tilegroup` and
  `tilegroup` imports `uncompressedheader`), so the program as a whole is not accepted by the Go
  compiler.  The model gives each function the meaning its source text has.

## Layout

* `Verif/Go.lean` — panics as values (`Fault`, `Res`).
* `Verif/Model/*` — the model, function by function.
* `Verif/Spec/*` — small independent specifications (reference encoders, predicates).
* `Verif/Lemmas/*` — helper lemmas.
* `Verif/Props/*` — the property theorems, each with an `example` showing its hypotheses are met.

Theorem names start with the property id.  `_partial` marks a theorem covering part of a property that
is false of, or not fully proved for, the code; `_refuted` marks the proof that the full property is
false of the code, with a concrete witness.

## What is modelled

| file | modelled | by |
|---|---|---|
| bitstream/bitstream.go | all | Model/BitStream |
| util/util.go | FloorLog2, CeilLog2, TileLog2, Round2, Round2Signed, Clip1, Clip3, InverseRecenter, NegDeinterleave, Sort, Cos128, Sin128, Brev | Model/Util |
| header/header.go | all | Model/Header |
| sequenceheader/sequence_header.go | all | Model/SeqHeader |
| obu/obu.go, parser/parser.go | all, with the payload parsers as parameters (`Codec`) | Model/Obu |
| symbol/symbol.go, literal/literal.go | all | Model/Symbol, Model/Rd |
| uncompressedheader/cdf.go | every table; Init/Save/Load wiring | Model/CdfTablesA-D, CdfWiring, CdfLayout |
| uncompressedheader/uncompressed_header.go | all | Model/UncompressedHeader, FrameHeader |
| tileinfo/tile_info.go | all | Model/TileInfo |
| tilegroup/tile_group.go | build, decodeTile, initSymbol, exitSymbol, clear* | Model/TileGroup, Symbol |
| tilegroup/decode_partition.go | all (blocks as a list of events) | Model/Partition |
| tilegroup/transform.go | all | Model/Transform |
| tilegroup/quantizer.go, reconstruct.go | all | Model/QuantTables, QuantMatrix, Reconstruct |
| tilegroup/coeffs.go | all | Model/ScanTables, Scan, Coeffs |
| tilegroup/loop_filter_process.go | all | Model/LoopFilter |
| tilegroup/cdef.go | all | Model/Cdef |
| cdef/cdef.go | all | Model/Cdef |
| tilegroup/decode_frame_wrapup.go | all except motionVectorStorageProcess (never called) and the empty save/load functions | Model/Wrapup |
| tilegroup/output.go | outputProcess for frames that are not repetitions | Model/Wrapup, FrameEnd |
| tilegroup/loop_restoration.go, read_loop_restoration.go | all | Model/LoopRestoration |
| tilegroup/intra_frame_mode_info.go | readCdef | Model/Cdef |
| tilegroup/tx_size.go | all (the part after the panicking `b.S()` is unreachable) | Model/TxSize |
| tilegroup/residual.go | all | Model/Residual, Coeffs, TxBlock |
| tilegroup/intra_frame_mode_info.go | all (intra block copy, filter intra up to the panicking `b.S()`) | Model/ModeInfo, Cdef |
| tilegroup/decode_block.go | availability, context reset and both recording loops; palette colours and compound indices are left out (unreachable) | Model/ModeInfo |
| tilegroup/assign_mv.go | all | Model/Mv |
| tilegroup/find_mv_stack.go | all (single and compound) | Model/Mv, MvStack |
| tilegroup/inter_frame_mode_info.go | all | Model/InterInfo |
| tilegroup/inter_block_mode_info.go | all but what only runs after a panicking b.S(); findWarpSamples and addSample separately, and readMotionMode, which calls them, as a panic in every case they can be reached in (C172_ends: the call does not hang) | Model/InterInfo |
| tilegroup/inter_block_mode_info.go (findWarpSamples, addSample), wedgemask/wedge_mask.go | all; the wedge masks of single blocks only up to the nil slice that makes initialisation panic | Model/Warp |
| tilegroup/predict_intra.go | all (recursive prediction, edge filter and upsampling up to their panics) | Model/Intra |
| tilegroup/predict_inter.go | all (warp filter, warp estimation, masks and distance weights up to their panics) | Model/Inter, Model/InterTables |
| tilegroup/compute_prediction.go | all | Model/Inter |
| tilegroup/util.go | `isScaled` | Model/Inter |
| tilegroup/palette.go | all, with the nil slices and the results of the panicking `b.S()` as parameters | Model/Palette, PaletteColors |
| tilegroup/palette_tokens.go | all, with the nil slices and the results of the panicking `b.S()` as parameters | Model/Palette, PaletteMap |
| tilegroup/decode_block.go, decode_partition.go, read_loop_restoration.go, tile_group.go:692-806 | `decodeBlock`, `partitionElement`, `readLr` and `decodeTile` put together (without palettes) | Model/Block |
| parser/parser.go, obu/obu.go, uncompressedheader/*, tilegroup/tile_group.go:271-367 (NewTileGroup, decodeFrameWrapup, frameEndUpdateCdf) | all models put together: one function from the bytes of a stream to its OBUs | Model/Decoder |
| tilegroup/syntax_element.go | all that is called | Model/InterInfo |

Not modelled: logging, `main`, the file system, goroutines (there are none), memory limits and 64-bit overflow
other than of Exp-Golomb levels (integers are unbounded; header fields are at most 32 bits wide so header arithmetic cannot overflow).
Files not in the table are not modelled yet.

## How the model is used

* A Go function that can panic becomes a function into `Res` (`Except Fault`); index, shift, division, nil and
  explicit panics are distinct faults.  An unbounded loop takes fuel and fails with `Fault.hang` when it runs
  out; theorems about termination give the fuel, theorems about non-termination hold for every fuel.
* Readers of the bit stream are functions `BitStream → Res (α × BitStream)` (`BM`).  Block syntax is a program
  tree `Rd` that asks for symbols; C93 ties its two semantics together, so block-level theorems quantify over
  every reply a CDF can give and hold for every tile payload.
* Where AV1 gives the intended meaning, the specification is written separately in `Verif/Spec` from the
  English property, not from the Go text.

## Disagreements between properties and code

The notes below name each one.  They are defects of the pinned commit, found by failing proofs, and are stated
as theorems ending in `_refuted` (universally quantified over the affected inputs wherever possible), next to
`_partial` theorems for what does hold.

## Plan and outcome per property

* **C01 Fixed-width reads are exact** — BitStream: byte list + bit position; induction on the width against the big-endian value of the next n bits (`Spec/Bits`). Outcome: proved.
* **C02 su(n) round trip** — On top of C01: case split on the sign bit. Outcome: proved.
* **C03 ns(n) round trip and range** — On top of C01: floor-log arithmetic, reference code in `Spec/Bits`; negative n loops (`Fault.hang` for every fuel). Outcome: proved.
* **C04 leb128 round trip, minimal or padded** — Induction on the byte list produced by a reference encoder with padding; bound from the 8-byte loop. Outcome: proved.
* **C05 le(n) round trip** — Induction on n. Outcome: proved.
* **C06 uvlc round trip and termination** — Loop over the zero prefix with explicit fuel; reference code; saturation when 32 zeros are seen. Outcome: proved.
* **C07 Readers are streaming readers** — `Streaming`: closed under bind; every reader built from streaming readers is streaming (position moves forward, result unchanged by appended data or a shifted start). Outcome: proved. Proved for all descriptor readers, the OBU header, colour configuration, sequence header, tile info and the whole uncompressed header; C07_sequenceHeader_anywhere and C07_uncompressedHeader_anywhere: the result does not depend on where in a stream the bits stand.
* **C08 Alignment and trailing bits** — Loop invariant on the bit position. Outcome: proved.
* **C09 Logarithm helpers are exact** — Characterisation by powers of two. Outcome: proved.
* **C10 Rounding helpers round to nearest** — Integer arithmetic; counterexamples for Round2Signed. Outcome: partial. Round2 is proved. Round2Signed rounds the constant 2 for x >= 0 (util.go:79); refuted with a witness, proved for x < 0.
* **C11 Clipping helpers clamp** — Nearest point of an interval. Outcome: partial. Clip3 proved. Clip1 ignores its argument; refuted, and its actual value proved.
* **C12 Inverse recentring is a bijection** — Case analysis with omega, inverse function given independently. Outcome: proved.
* **C13 Segment-id deinterleaving is a bijection** — Case analysis; AV1's definition as separate spec; disagreement proved. Outcome: partial. Injectivity and range are true of the code; agreement with the AV1 code is refuted and proved only for ref = 1 and the identity cases.
* **C14 Sorting a slice segment** — Permutation + sortedness of the segment, everything else unchanged. Outcome: proved.
* **C15 Transform trigonometry and bit reversal** — Complete enumeration of the 256 residues by kernel reduction lifted to all integers; bit-level proof for Brev. Outcome: partial. Cos128 panics on 191 of 256 residues, Brev replicates bit 1: both refuted, the actual domain/values proved.
* **C16 OBU header round trip** — Reference encoder of the header, `Reads` calculus (encode-then-read for any surrounding stream). Outcome: proved.
* **C17 OBU framing is exact** — OBU parser as a function of payload parsers (`Codec`), exact positions by prefix reasoning. Outcome: proved.
* **C18 Operating-point filtering skips exactly** — Same model as C17, the drop branch. Outcome: proved.
* **C19 Frame header sequencing** — State flag invariants on the OBU loop. Outcome: proved.
* **C20 Padding is skipped** — Loop of the padding reader with explicit reads; both directions. Outcome: partial. Refuted for every non-empty payload without a zero byte; proved exact for payloads containing one.
* **C21 Unknown OBU types are ignored** — Case split on the type field. Outcome: partial. Refuted: metadata, tile list and reserved types panic; proved only when outside the operating point.
* **C22 Temporal-unit framing** — Well-founded loops on the remaining size (fuel = bytes left), exact framing by induction on the list of units. Outcome: proved.
* **C23 Sequence header round trip** — Reference encoder for the AV1 syntax (refuted) and for the parser's dialect (proved) with the `Reads` calculus. Outcome: partial. The AV1 layout is refuted: reduced headers lose the frame size (C23_roundtrip_refuted; C23_reduced_refuted: always one pixel), and every ordinary header that is not reduced (no timing information and one operating point with a mask below 32, or a display tick below 2^19) comes out with frames of at most 2x2 pixels (C23_av1_refuted). The round trip is proved for the parser's own dialect.
* **C24 Colour configuration** — Reference encoder, all profiles. Outcome: proved.
* **C25 Multiple operating points** — Universal refutation from the index panic. Outcome: partial. Refuted: every header announcing more than one operating point panics.
* **C26 Uniform tiling partitions the frame** — Loop invariant of the uniform loop; partition predicate in `Spec/Tiles`. Outcome: proved.
* **C27 Explicit tiling partitions the frame** — Loop invariant of the explicit loop. Outcome: proved.
* **C28 Tiling is independent of superblock size conventions** — Arithmetic; witnesses for the refutations. Outcome: partial. C28_superblock_counts_partial: the counts for 64x64 superblocks are AV1's. Refuted for 128x128 superblocks: the row count overwrites the column count (C28_superblock_counts_refuted), and a tile can be empty (C28_empty_tile_refuted).
* **C29 Frame dimensions** — Arithmetic of frameSize/superres/computeImageSize. Outcome: proved.
* **C30 Segmentation parameters stay in range** — Post-condition calculus (`Ensures`) over the header parser. Outcome: proved.
* **C31 Quantizer index selection** — `getQIndex` model; ranges proved, AV1's definition as spec, disagreement proved. Outcome: partial. Range and lossless rule proved; refuted for the running index (GetQIndex drops the segment delta).
* **C32 Loop filter header** — `Ensures` over loopFilterParams. Outcome: partial. Refuted: the second level of lossless frames is 1; ranges proved.
* **C33 CDEF and loop-restoration header** — `Ensures` over cdefParams and lrParams. Outcome: proved.
* **C34 Skip mode** — Forward/backward search model against a declarative spec. Outcome: partial. Never offered where not allowed: proved. Offered where allowed: refuted (negated condition, unset field).
* **C35 Sub-exponential codes** — Fuel-indexed loop with a measure; reference encoder. Outcome: proved.
* **C36 Film grain parameters** — `Ensures` + `Reads` on the film grain syntax. Outcome: proved.
* **C37 Symbols are in range and CDFs stay valid** — Loop invariants of the symbol search and of the adaptation against a recursive spec. Outcome: proved.
* **C38 Arithmetic decoder invariants** — Range/value invariants, preserved by each symbol. Outcome: proved.
* **C39 Arithmetic coding round trip** — Reference arithmetic encoder (`Spec/Symbol`, interval refinement with unbounded integers); simulation between encoder intervals and decoder registers. Outcome: proved.
* **C40 Tile data is consumed exactly** — Position accounting through init/exit. Outcome: proved.
* **C41 Disabled adaptation** — Direct from the C37 equations. Outcome: proved.
* **C42 Default probability tables are constants** — Heap model of the CDF arrays (slices share backing arrays); over streams, a history invariant relating the OBUs read so far to the counters of the tables. Outcome: partial. Over whole streams: C42_stream_refuted shows that every tile group of an accepted stream is decoded with the program's default tables if and only if no earlier OBU carries a picture coded with adaptive probabilities, and that after such a picture the tables common to all quantizer classes differ from the defaults for good; C42_end_partial says the same of the tables left at the end of the stream.
* **C43 Default probability tables are valid** — Complete tables by kernel reduction, wrapped into a statement about every context. Outcome: partial. All default tables are valid but two: the context of segment_id_predicted and of skip_mode (each refuted). C43_default_contexts_decode: the valid ones can be decoded with.
* **C44 Literals** — Literal loop over half/half symbols. Outcome: proved.
* **C45 Tile loop** — Loop invariant over tiles; reference layout of a tile group. Outcome: proved.
* **C46 Partition covers the block** — Induction over the partition recursion with a multiset of covered cells. Outcome: partial. Refuted for HORZ, HORZ_A, VERT_B and VERT_4 (each for every block that reads it); proved exactly-once coverage for all recursions using the other types.
* **C47 Inverse Walsh-Hadamard is lossless** — Exact inverse over the integers (forward transform given as spec), loop unrolled by the model. Outcome: proved.
* **C48 Dequantised coefficients are bounded** — Bounds through the dequantisation formula; loop invariant over the block. Outcome: proved.
* **C49 Quantizer tables** — Complete tables by kernel reduction; universal refutation of the AC lookup. Outcome: partial. DC and both tables proved; the AC lookup is refuted for every index >= 4 (the DC table is read).
* **C50 Scan orders are permutations** — Complete tables; order stated by a position function per class. Outcome: partial. Positions proved for all 19 sizes; order proved for all but 64x16, which is refuted (the scan of 16x32 is used).
* **C51 CDEF is neighbourhood-bounded** — Model constrain and the pixel; spec by absolute values, signs and the fold of minima and maxima over the taps. Outcome: proved. Proved for all integers: the constraint is bounded by the difference and by the strength and has the sign of the difference; the filtered pixel stays between the least and greatest pixel involved.
* **C52 Deblocking narrow filter** — Model `narrowFilter` on a picture as a list of lists (Model/LoopFilter); independent spec of the four-sample filter (Spec/LoopFilter); point-wise frame lemma for the four writes. Outcome: proved. The narrow filter at vertical and horizontal edges equals the specification's on the four samples and touches nothing else; result in range; mask off changes nothing.
* **C53 Filter level selection** — Model `lfLevel`/`lfStrength`; spec: base level + segment + reference/mode deltas as one formula; case split on every feature. Outcome: partial. The level equals the specification's (segment feature, reference and mode deltas, clipped) in 0..63 and level 0 leaves the edge. False of the code: AV1 falls back to the neighbour's level, the code does not.
* **C54 Reference slots** — Model the copies into the slots with the array sizes of the program; invariant over the eight slots, then induction over histories of saves. Outcome: partial. C54_update_partial: for frames up to 9x9 pixels the refreshed slots hold the frame (headers, hints, per unit data, global motion, picture, CDFs), all others are unchanged; C54_history_partial over histories of saves. Refuted: a larger frame panics (LrFrame is [3][9][9]), loading always panics, pictures are lost with the next tile group. Loop filter, segmentation and grain parameters are not saved by the code and not modelled.
* **C55 Above-context clearing** — Array bounds of the clear loops; loop invariant. Outcome: partial. Refuted: every frame wider (higher) than three 4x4 units panics; proved on smaller ones.
* **C56 Intra predictors stay in range** — Prediction kernels as functions of the edge arrays; hull bounds. Outcome: partial. Paeth, the smooth modes, DC with both or no neighbours: exact rounded average and range. Refuted: DC with one neighbour writes 0 or 2 whatever the edge.
* **C57 Motion vector arithmetic** — Model readMvComponent as a program reading symbols; code of AV1 as replies (Spec.Mv); round trip by the Says calculus, unreachability by weakest preconditions; clamp by linear arithmetic. Outcome: partial. Refuted for differences beyond two pixels (the bits of the class are or-ed at position 1): proved exactly which components decode correctly and that the others can never be decoded; clamping is proved in full.
* **C58 Palette cache** — Cache merge model; sortedness and membership. Outcome: partial. Proved for the merge with an allocated cache (sortedness, membership of all above colours and of those of the left that are smaller than some colour above); refuted: a left tail is lost, and PaletteCache is never allocated so any colour above panics.
* **C59 Repeated frame headers are accepted** — Panic proved for every state. Outcome: partial. Refuted: FrameHeaderCopy panics.
* **C60 The operating point stays selected** — Two-frame-unit histories. Outcome: partial. Refuted across frame units; proved within a frame unit.
* **C61 Entropy contexts are initialised** — Wiring table generated from cdf.go/tile_group.go; refutation per missing wire. Outcome: partial. Proved for every context but the one of the reference motion vectors, for which it is refuted.
* **C62 Uniform tile limits** — `Ensures` on the tile info reader. Outcome: proved.
* **C63 Uniform tile rows can be signalled** — Universal refutation. Outcome: partial. Refuted for every frame size in the stated range: no row increment is ever read.
* **C64 Render size** — Witness for every header; coded sizes proved. Outcome: partial. Refuted: UpscaledHeight is never assigned, so the default render height is 0; coded sizes proved.
* **C65 Quantization parameters round trip** — `Reads` round trip. Outcome: proved.
* **C66 Segment features round trip** — `Reads` round trip, feature by feature. Outcome: partial. Refuted for the reference feature 4..7; proved for all other values.
* **C67 Loop filter parameters round trip** — `Reads` round trip. Outcome: partial. Refuted for every non-zero sharpness; round trip proved with a 6-bit sharpness field.
* **C68 CDEF parameters round trip** — `Reads` round trip. Outcome: proved.
* **C69 Loop restoration parameters round trip** — `Reads` round trip. Outcome: proved.
* **C70 Order hint distance** — Modular arithmetic over any order-hint width. Outcome: partial. Distance proved and unique; sign bias refuted, its constant value proved.
* **C71 Global motion** — `Ensures`; universal refutation of the parameters. Outcome: partial. Types proved (range, intra identity, round trip); parameters refuted for every header.
* **C72 Frame headers are consistent and key frame headers are accepted** — Global invariant of the uncompressed header; totality on a concrete family of key frames. Outcome: proved.
* **C73 Showing an existing frame is reported** — Universal refutation on the model of `build`. Outcome: partial. Refuted for every show-existing header; proved for all others.
* **C74 A shown key frame invalidates the reference slots** — Universal refutation on the model of `build`. Outcome: partial. Refuted for every header: validity and hints in the state never change.
* **C75 Screen content tools follow the sequence header** — Case analysis on the sequence flags. Outcome: partial. Refuted when forced off; proved for forced on and for the coded choice.
* **C76 Refresh flags** — Case analysis on the frame type. Outcome: partial. Refuted for every shown frame and (C76_hidden_key_refuted) for every hidden key frame, whose eight bits are not read; proved for switch, shown key and other hidden frames.
* **C77 Reference indices** — `Ensures` range, counterexample. Outcome: partial. Refuted; the range of the result is proved.
* **C78 Primary reference frames** — Universal refutation. Outcome: partial. Refuted: the primary reference is 7 in every returned header.
* **C79 Frame ids** — Universal refutation. Outcome: partial. Refuted: no header is returned; the id of show-existing headers is read exactly.
* **C80 Random access: intra headers do not depend on the past** — Two-run (relational) argument: parse results agree from any two past states. Outcome: proved.
* **C81 Tiles partition the frame** — From C26/C27: existence and uniqueness of the tile of each cell. Outcome: proved.
* **C82 Superblocks cover the tile** — Loop invariant of the superblock loops. Outcome: proved.
* **C83 Availability flags per superblock** — Array-bounds argument. Outcome: partial. Refuted: at most two of the 169 flags are written; 128x128 superblocks panic.
* **C84 Frames of any size can be partitioned** — Case analysis on the two edge conditions. Outcome: partial. Refuted for every block crossing exactly one edge; proved for blocks crossing both.
* **C85 Partition recursion is bounded by the block size** — Measure: block width log2. Outcome: proved.
* **C86 Hadamard butterflies** — Closed form of the butterflies. Outcome: proved.
* **C87 Rotations** — Domain of Cos128. Outcome: partial. Refuted: every angle not congruent to 64 mod 256 panics; proved for the quarter turn.
* **C88 Inverse DCT and ADST return** — Each transform reaches a rotation outside the domain. The plan of steps with exact real rotations equals the textbook DCT and ADST, by computing the matrix in integer combinations of cosines. Outcome: partial. Refuted: no inverse DCT/ADST of any size ever returns.
* **C89 Identity transforms** — Closed form of the identity loops. Outcome: proved.
* **C90 Two-dimensional inverse transform** — Unallocated arrays panic; loop invariant with arrays allocated. Kinds, shifts and rectangular scaling by case analysis over the types and sizes. Outcome: partial. Refuted: t.T is nil in every tile group, so the transform panics; with arrays allocated all rows of the residual come out equal.
* **C91 Quantizer matrices** — Complete matrices by kernel reduction. Outcome: proved.
* **C92 Reconstruction adds the residual** — From C90; pixel value from Clip1. Flips per transform type. Outcome: partial. Refuted: reconstruct never returns; addResidual stores 2 in every pixel.
* **C93 Block syntax decodes exactly the in-range symbol sequences** — Induction on the program tree `Rd` linking list-of-replies and arithmetic-decoder semantics. Outcome: proved. Links Rd.exec (arithmetic decoder on bytes) and Rd.run (list of replies) in both directions; later block-syntax theorems are stated on Rd.
* **C94 Contexts of a tile exist and have the right alphabet** — Layout of the CDF store generated from cdf.go; counts proved by kernel reduction over whole tables and closed under the index ranges. Outcome: partial. Fits holds for every class (with the shapes as they are); the shape AV1 prescribes is proved for classes 0-2 and refuted for class 3 (stray rows at DEFAULT_COEFF_BASE_CDF[3][0][1]).
* **C95 Contexts adapt independently** — Aliased slots exhibited. Outcome: partial. Refuted: MvJoint, MvSign, DeltaLFMulti contexts alias.
* **C96 Coefficient decoding neither panics nor leaves its arrays** — Safety calculus `Sat` over the coefficient loops with invariants on array shapes; refutation by the bounds of the 2 by 2 array. Outcome: partial. Partial: proved for a transform type array that covers the frame and without chroma 4x4 blocks of the highest quantizer class; both exceptions refuted for all blocks concerned.
* **C97 Golomb coded levels decode to the number coded, and decoding ends** — Encoder for Golomb codes and `Says` calculus; endless program embedded in tile data by C93_stall. Outcome: partial. Partial: round trip proved for every number below 2^63; termination refuted for every block; beyond 64 bits the wrapped value is proved exactly, its low 16 bits shown unaffected, and its sign (used for the DC context) refuted.
* **C98 Coefficients round trip** — Encoder of whole blocks proved to drive the decoder (induction over the scan), made into bytes by C93_complete. Outcome: partial. Partial: coefficients after the first nonnegative, magnitudes below 2^16 (the code masks with 0xFFFF); negative ones refuted for all blocks.
* **C99 The number of coefficients is returned** — Inversion of the whole decoding function. Outcome: partial. Refuted for every input: the value returned is 0.
* **C100 Transform types are those AV1 allows** — Case split over the closed tables of transform sets; weakest preconditions of the read. Outcome: proved. Full.
* **C101 Coefficient contexts describe the last block decoded** — Context part of the block round trip. Outcome: proved. Full for blocks with coefficients.
* **C102 Deblocking limits and masks** — Model the limit and the masks over a structure of 14 samples; spec by quantification over successive samples (`NearLe`). Outcome: partial. Masks proved for all samples. The limit is proved for sharpness 0 and above 4; for 1 to 4 the shift is wrong (refuted for all such sharpness values and levels in a range).
* **C103 Deblocking filter length** — Model `filterSize` with the transform tables; spec is min of the two dimensions; refutation quantified over all pairs. Outcome: partial. Proved for vertical edges; false for horizontal edges (refuted: the lower transform is ignored).
* **C104 Deblocking has an effect** — Model the whole filter over planes, passes and 4x4 units; invariant: each edge step is the identity or panics. Outcome: partial. False of the code: whenever the filter returns, the frame is unchanged, and it panics for every frame wider than 8 pixels.
* **C105 CDEF direction search** — Model the direction search with its eight arrays of line sums; spec by sums over the lines of pixels; loop invariants turn the code's partial sums into the spec's. Outcome: proved. Proved for all blocks of all bit depths from 8 on.
* **C106 CDEF filter** — Model the filter of one plane of one block; spec `cdefPixel` on available neighbours; refute the tap weights for odd strengths. Outcome: partial. The filter equals the specification for every picture and call whose primary strength selects the weights 4, 2. Refuted for odd strengths: the code indexes the weights with a strength that is not scaled down, and the general refutation is quantified.
* **C107 CDEF on a block** — Model the 8x8 block; spec `cdefCall` and `av1Filtered`; frame condition on all other pixels; refute damping of chroma. Outcome: partial. Copied blocks proved in full; filtered blocks for luma and for chroma with a primary strength. Refuted: chroma damping is not reduced when the primary strength is zero.
* **C108 CDEF on a frame** — Model the whole process over the frame; spec per pixel of the output; refute array sizes. Outcome: partial. Proved for arrays that cover the frame. Refuted: the code's arrays have 16x16 pixels and 2x2 skip flags, CDEF panics for every larger frame.
* **C109 CDEF indices** — Model Go slices with capacity, the clearing loops and read_cdef; refutations over all frames, blocks and tiles. Outcome: partial. Clearing and reading proved for the superblock's first 64x64 block. Refuted: with 128x128 superblocks three of four indices are not cleared; frames with four superblocks in a row panic; cdef_bits is never used, so no bit is read; blocks right of the diagonal panic.
* **C110 Coefficient contexts** — Spec/CoeffCtx gives each context by AV1's rules; show by unfolding and loop lemmas that each read of the model asks for that array and context. Outcome: proved. The model follows the code; the specification gives neighbours, thresholds and offsets by AV1's rules, without the decoder's tables. Hypotheses: the context arrays reach the positions used (C105-type sizes are refuted separately) and, for chroma, entries are not negative.
* **C111 Upscaling** — Model the upscaling loops; spec by sums over the row; arithmetic of positions by omega; refute identity, sizes and values. Outcome: partial. Proved: filter table, weighted sum, flat rows, filter position within the step's rounding. Refuted: without super resolution pixels are taken one column to the left, a plane larger than 9x9 panics, and every smaller frame becomes the constant 2 (Clip1 ignores its argument).
* **C112 Output of shown frames** — Model the copy to the output and the end of a frame; generic copy lemma for any arrays; refute for the [1][1] arrays of the program. Outcome: partial. Proved: the copy loops for arrays large enough, and hidden frames. Refuted: the arrays hold 1x1 pixels, so every shown frame of more than one pixel panics; so do film grain and operating points.
* **C113 Loop restoration** — Model the block loop, source samples, Wiener taps, box filter; exact cover and stripe lemmas; refutations over all frames with such units. Outcome: partial. Proved: stripes, exact cover by blocks, source samples, off and RESTORE_NONE, range and flat value of the guided coefficient. Refuted: Wiener taps are not symmetric (universally), a Wiener unit panics, a self guided unit panics for every plane of more than one pixel.
* **C114 Loop restoration parameters** — Model unit ranges and the codes over the reader monad; spec gives AV1's codes; exact cover of units by superblocks, round trip of codes, refutations. Outcome: partial. Proved: chroma units are read with exactly one superblock (no super resolution), subexponential codes of the first two buckets, self guided units. Refuted: luma units of subsampled frames, frames with one filter type, Wiener units, all codes from the third bucket on, and the range.
* **C115 Transform sizes** — Model readBlockTxSize over the reader monad; spec gives widths, heights and splits as numbers; tables checked entry by entry, loops by invariants, refutations quantified over all blocks. Outcome: partial. Proved: the tables of all 22 block sizes, lossless and largest transforms, the coded depth of intra blocks with residual, the context of the neighbour above. Refuted for all such blocks: the left context in the first row of a tile, the first column below the first row (panic), blocks without residual (depth read for inter, not for intra), the transform tree (panic), blocks beyond 256 pixels (panic).
* **C116 Transform blocks cover a block** — Model the calls of transformBlock as a list; count, by induction over the loops and the transform tree, the calls that cover a pixel. Outcome: proved. Proved for all block sizes, positions, frames and chroma formats (4:2:2 for the blocks that exist there), for intra, lossless and inter blocks, for every array of transform sizes.
* **C117 Order of transform blocks** — Spec enumerates AV1's order from plane areas; list equality for small blocks, a sorted-by-plane invariant against a witness pair for large ones. Outcome: partial. Proved for blocks of at most 64x64 pixels without a transform tree; refuted for all blocks with a side of 128 pixels inside the frame with chroma. Not stated: the order inside a transform tree.
* **C118 Bookkeeping of transform blocks** — Model position and marking of a transform block with the program's array sizes; rectangle-fill invariants; refutations for all blocks off the diagonal and beyond the arrays. Outcome: partial. Proved for square transform blocks on the diagonal with 64x64 superblocks; refuted for every transform block off the diagonal (wrong column), beyond the first 8 rows (panic) and, with 128x128 superblocks, exactly the rows with bit 1 or 3 set.
* **C119 Palette prediction** — Model palettePrediction on grids; rectangle-fill lemma for luma, empty map makes the first read panic for chroma. Outcome: partial. Proved for luma; refuted for every chroma transform block (panic).
* **C120 Prediction of chroma from luma** — Model predictChromaFromLuma; sums of luma by loop invariants; the clipping bug makes all results constant. Outcome: partial. Proved: the luma values and their total. Refuted: every predicted pixel is 2, whatever the input.
* **C121 Quantizer and loop filter deltas** — Spec codes a delta as replies; round trip by the Says calculus, the four loop filter deltas by induction. Outcome: proved. Proved for all deltas of up to 512 (the largest the code can express).
* **C122 Segment ids** — Model readSegmentId with Option-valued specification of the neighbours; equality of prediction and context, refutations for all predicted ids of 2 and more and all symbols above the last active id. Outcome: partial. Prediction and context are AV1's; the id is only right for predicted ids 0 and 1 (negDeinterleave tests ref == 1) and is not clipped to the last active segment.
* **C123 Intra modes, angles and the choice of the chroma mode alphabet** — Model modes and angles as programs reading symbols; equality with reads at AV1's contexts; the chroma choice over the complete table of block sizes. Outcome: partial. Luma mode, angles and the inter frame chroma choice proved; in intra frames every lossy block with a longer side of 32 reads the wrong alphabet (< 32 for <= 32).
* **C124 Skip flag** — Model readSkip with the array it reads; refutation of the context for all arrays, panic outside 2x2. Outcome: partial. The context is computed from SkipModes (2x2, always 0 in intra frames) instead of Skips: always 0, and a panic beyond two units.
* **C125 Availability and chroma of a block** — Model the first part of decodeBlock; equivalence with a specification by luma units, by linear arithmetic. Outcome: proved. Proved for all aligned blocks of tiles with even bounds.
* **C126 Records of a block** — Model both recording loops; projection lemma reduces each array to the rectangle-fill lemma. Outcome: partial. The loops record exactly the units of the block where the arrays are large enough; most arrays are 2x2 (panic), segment ids and motion vectors are never recorded.
* **C127 Skipped blocks clear the coefficient contexts** — Model resetBlockContext; loop invariant over planes against AV1's inclusive ranges; the guard is a constant. Outcome: partial. resetBlockContext clears AV1's ranges, but is never called: decodeBlock tests state.Skip, which nothing assigns.
* **C128 Chroma from luma alphas** — Spec codes a pair of alphas as replies; the decoder returns the negated pair, for all pairs. Outcome: partial. Every sign is inverted (CFL_SIGN_NEG is 2); sizes are right.
* **C129 Mode info of intra frames** — Compose mode info; weakest precondition over all symbol replies for what a returning call leaves, total correctness without the unimplemented tools. Outcome: partial. Total with all ranges for frames without the unimplemented tools; RefFrame[0] is set to NONE (and RefFrame[1] not at all), so that chroma modes are never recorded; filter intra, palettes and intra block copy end in b.S(), a panic.
* **C130 Precision of vectors** — Model lowerMvPrecision; relation roundsTo, uniqueness gives idempotence. Outcome: proved. Full.
* **C131 Global motion vector** — Model setupGlobalMv; equality with specGm where Round2Signed is right, refutation for all positive displacements. Outcome: partial. Refuted for a warp with positive displacement (Round2Signed rounds the constant 2); proved for identity, translation, non-positive displacements.
* **C132 Vector modes** — Model getMode; table of AV1's modes, complete finite table. Outcome: partial. Refuted for NEAREST_NEWMV and NEAR_NEWMV (first vector); the other modes proved.
* **C133 Assigned vectors** — Model assignMv as a program; weakest precondition and Says for each mode. Outcome: partial. Refuted for intra block copy (nil slice); proved for all other modes with at most the candidates present.
* **C134 The candidate search ends** — Model findMvStack with fuel; Res.Part (partial correctness and no hang) composed through all processes, step of at least 1 from the size tables. Outcome: proved. Full: every process of the search, single and compound.
* **C135 Number of candidates** — Same invariant StOk: DrlCtxStack has one entry, RefStackMv two. Outcome: partial. Refuted: at most one candidate, never two references.
* **C136 Contexts of vector modes** — Same invariant; contexts by cases. Outcome: proved. Full, for the calls that return.
* **C137 Candidates are usable** — Same invariant; clamp bounds from C57, fill loop invariant. Outcome: proved. Full, for the calls that return.
* **C138 Candidates and tiles** — Equational reasoning at the corner of a tile; loop over cells outside the tile by induction. Outcome: partial. Refuted both ways (cells of other tiles are used, cells of the own tile are not); partial for the first block of a tile.
* **C139 The candidate search does not panic** — Inversion of the calls up to the first access out of range. Outcome: partial. Refuted: grid of 2x2 cells, motion field never stored, swap loses a candidate.
* **C140 Inter flag** — Model readIsInter; equality with a read at the context of an Option-valued specification of the neighbours. Outcome: partial. The context is AV1's. Refuted: segments with global motion make a block intra instead of inter. Missing: skip mode, which is never on (C146).
* **C141 References of a block** — Model readRefFrames; Spec lists the questions per reference with their sets; Says for codes, Rd.tables for the tables consulted, weakest precondition for what is never returned. Outcome: partial. Codes of LAST, LAST2, BWDREF, ALTREF2 and ALTREF are read; contexts agree under a stated condition on the neighbours. Refuted: LAST3, GOLDEN and two references are never read (b.S() panics); the contexts of single_ref_p2 and single_ref_p4 are wrong for the stated neighbourhoods.
* **C142 Predicted segment id** — Model getSegmentId; nested loop invariant (lower bound and attained). Outcome: proved. Full, for maps of the size of the frame with ids up to 7 and every block starting in the frame.
* **C143 Segment ids of inter frames** — Equations by cases of the headers; refutation by weakest precondition False. Outcome: partial. All cases that need no unimplemented syntax. Refuted: map update with a skipped block after the skip flag, and temporal update, never get through.
* **C144 Intra blocks of inter frames** — Complete table of block sizes for the context; total correctness over all replies. Outcome: partial. The context is proved for every block size; totality and ranges for blocks to which neither screen content tools nor filter intra apply; where they apply, the code panics (C144_tools_refuted).
* **C145 Modes of inter blocks** — Says for the two modes, weakest precondition for the rest. Outcome: partial. NEWMV and GLOBALMV. Refuted: NEARESTMV, NEARMV and the compound modes are never decoded.
* **C146 Inter tools** — Weakest precondition of interBlockModeInfo through all its parts, using the invariant of findMvStack. Outcome: partial. Refuted for every header and symbol sequence: the theorem lists what a block that gets through cannot use.
* **C147 Inter blocks as a whole** — Composition of C141, C138, C145, C133 by the Says calculus. Outcome: partial. For the first block of a tile with no inter block around it, and for blocks with neighbours above and to the left, differences up to 2 pixels, motion mode and filter not switchable. References, modes and tools the code never decodes: C147_missing_refuted, C146.
* **C148 Where candidate vectors come from** — Partial correctness of the candidate search (`Res.Part`). Outcome: partial. For one reference: every candidate of the near and far scans. For two references the pair and where it comes from are proved, the reduction to the precision is refuted. Candidates of the motion field: C139_temporal_refuted (panic).
* **C149 The neighbour scan misses nothing** — Arithmetic of the scan steps; interval cover by induction. Outcome: proved. Both scans and the far scans.
* **C150 Intra predicted pixels have the bit depth** — Invariant (frame and edges in range) over the list of calls; convexity of each predictor. Outcome: proved. Any sequence of calls from a plane of zeros.
* **C151 Intra prediction writes its block** — Loop invariant of the copy. Outcome: proved. Exact frame condition.
* **C152 Edges of intra prediction** — Loop invariants of the edge preparation; two frames that agree from row y on. Outcome: partial. Refuted: below row 0 the pixels above never matter; the left column is put in the row above; wrong constants. Proved: layout of the edges without a left neighbour.
* **C153 Every block size can be predicted** — Totality of each loop from bounds; out-of-range index for large blocks. Outcome: partial. Refuted for 16 pixels and more and for filter intra. Proved for all blocks of 4 and 8 pixels in the non-directional modes.
* **C154 Directional prediction** — Pixel formulas from the loops, compared with AV1's interpolation; complete derivative table. Outcome: partial. Vertical and above 180 degrees: AV1's formula on the edges. Refuted: horizontal, below 90, between 90 and 163 degrees. Derivatives: complete table.
* **C155 Filters of the intra edges** — Case analysis of strengths and upsampling; type from the neighbours' modes. Outcome: partial. Refuted: with both neighbours only 90, 180 and (4x4) 130 to 140 degrees return; the left neighbour decides the type alone.
* **C156 Order of the colour map** — Membership and order of each anti-diagonal, induction over the diagonals. Outcome: partial. The anti-diagonal walk is proved to visit each on-screen pixel once and neighbours first; the chroma size is AV1's for equal subsampling in both directions; refuted for 4:2:2 and for the contexts.
* **C157 Residual reaches the pixels** — Weakest precondition of residual: its frames are those of a run without coefficients. Outcome: partial. Refuted: a relational theorem about two executions of residual on arbitrary tile data.
* **C158 Pixels stay in range** — Invariant of the calls of transformBlock. Outcome: proved. Proved for residual as a whole (palette, intra, chroma from luma), from the ranges of each predictor; the reconstruction is never reached (C157).
* **C159 Decoding a block touches only its pixels** — Pixels outside of each transform block unchanged; C116_cover for the block. Outcome: proved. Proved for residual as a whole, composed with the coverage theorem C116_cover.
* **C160 Availability of neighbours in intra prediction** — Arguments of the prediction; DC prediction without neighbours. Outcome: partial. Refuted for luma (pixels) and chroma (flags); proved if luma and chroma neighbours are equally available.
* **C161 Motion vector scaling** — Model motionVectorScalingProcess over unbounded integers; compare with the position plus vector. Outcome: partial. Model/Inter models motionVectorScalingProcess. C161_checks proves the size checks; C161_scaling_refuted and C161_step_refuted prove the start (32, 32) and step 0; C161_scaling_partial proves the start for positions before the frame. Go ints are unbounded in the model.
* **C162 Block inter prediction** — Fold of the eight taps over a constant; sum of the taps; evaluation at step zero. Outcome: partial. C162_flat_partial proves flatness for one reference (compound blocks panic, C166); C162_block_refuted proves that the prediction is the top left sample. C162_values_partial gives every pixel's value exactly, but for the row of the table.
* **C163 Interpolation filters** — Kernel evaluation over the complete tables. Outcome: proved. Complete tables, checked by kernel evaluation.
* **C164 Division by table** — Bounds of the logarithm and of every entry of the table (kernel evaluation) combined by arithmetic. Outcome: partial. C164_divisor_refuted proves the factor 2, C164_table_refuted the wrong entry, C164_divisor_partial the precision of the remaining part; C164_total that it fails for 0 only.
* **C165 Pixels written by inter prediction** — Invariant of the writing loops and of the overlap loops. Outcome: partial. C165_range is proved for every block including overlap; C165_diagonal_refuted proves which pixels are written.
* **C166 Which inter blocks are decoded** — Case analysis of a successful call; totality of the loops. Outcome: partial. C166_classes_refuted and C166_place_refuted prove the limits, C166_predict_partial that blocks within them (references of the size of the frame, no warp, no mask) are predicted. C166_no_warp_partial and C166_warp_refuted settle which blocks are warped (none is).
* **C167 Overlapped motion compensation** — Invariant of nested loops each reading and writing its own pixel; arithmetic of a convex combination. Outcome: partial. C167_blend proves the blending; C167_left_refuted and C167_luma_refuted the panic for left neighbours. C167_weights gives the weights exactly.
* **C168 The inter prediction calls cover the block** — Number of turns of the loops from the size tables; rectangles compared. Outcome: partial. C168_partial for blocks with at least four pixels in the plane, C168_near with an intra neighbour, C168_sub8_refuted for the rest; C168_intra_idle for intra blocks. 4:2:2 is not covered. C168_planes: which planes; C168_interintra: the intra part of inter-intra blocks.
* **C169 Scaled references** — Arithmetic of the rounded quotient. Outcome: proved. Exact for all sizes below 32768 (AV1 allows up to 65536; with 14 bits of fraction the statement needs the bound).
* **C170 Shear parameters of a warp** — Arithmetic of rounding; the validity from the definition of the four numbers. Outcome: partial. C170_range, C170_identity proved; C170_round_refuted and C170_round_partial for the rounding of alpha and beta.
* **C171 Inter prediction ends** — No step of the model runs out of fuel: the walks advance by at least 2. Outcome: proved. C171_ends for a call, C171_plane for all calls of a plane.
* **C172 Samples for local warps** — addSample writes the list of candidates, a nil slice, whenever it takes a sample, so no sample is taken by a search that ends; steps of the walks are at least 1; no panic if no neighbour has the same reference. Outcome: partial. Refuted: a search that takes a sample writes to a nil slice and panics, and one that does not panic has collected none (whatever the neighbourhood). Proved: the search always ends, and without a neighbour with the same reference it neither panics nor collects. Missing: the sample values, which are never stored.
* **C173 Wedge masks** — Kernel evaluation over the six complete master masks and the complete tables; the first assignment to the nil slice panics. Outcome: partial. Refuted: initialisation panics on the first mask of a block because the table is a nil slice. Proved of the master masks computed before: exact values, symmetry and monotonicity; of the tables: block sizes, offsets and shapes.
* **C174 Every unit of a frame is decoded once** — Composition of the partition cover (C46), the superblock loops (C81), the tile loop (C45/C82) and the tile bounds, by induction over the list of tile groups; the log of block events counts each unit. Outcome: partial. Tile: C174_tile_partial; frame: C174_frame_partial. Missing: the partition types for which the layout is wrong in the code (C46_*_refuted), and frames for which clearing the contexts panics (C55), for which the statement holds only because nothing is decoded.
* **C175 What is decoded for a block is recorded for its units** — Weakest preconditions of the whole block program (Rd.Wlp), transferred to the arithmetic decoder by exec_wlp; the writes of C126. Outcome: partial. C175_records for all blocks (without palettes and without an inter block's motion vector records). C175_size_refuted: the arrays have 2x2 units, so a block beyond the first 8x8 pixels of a frame is never decoded at all.
* **C176 A block of an intra frame changes only its own pixels** — The transform calls of the block tile the block (C155/C156), each changes only its own rectangle; intra prediction in computePrediction is idle (C168). Outcome: proved. C176_outside. The blocks of a palette are not modelled.
* **C177 Pixels stay in range through a block** — Range of every predictor (C152, C171) and of reconstruction, through the block program. Outcome: proved. C177_pixels, for intra and inter blocks.
* **C178 A tile keeps the decoder's state valid** — A relation closed under composition, carried through the partition tree and the superblock loops. Outcome: proved. C178_tile.
* **C179 The units of a decoded frame have the size of their block** — The partition tree of a 2x2 unit frame is followed step by step: three forced splits, then one symbol; block sizes by C175. Outcome: partial. Refuted for a frame whose 8x8 block is split horizontally (C179_horz_refuted: the lower half is decoded twice, the upper one never) and for 128x128 superblocks (C179_128_refuted: never decoded). Proved (C179_partial) for all other frames that are decoded, which are those of 8x8 pixels.
* **C180 Every sequence of syntax elements of a frame can be coded** — The tile of a small frame is one program over symbols (exec distributes over sequencing); C93_complete gives the tile data. Outcome: proved. C180_complete, for frames of 8x8 pixels, which are the only ones that are decoded (C55); larger ones panic when the contexts are cleared.
* **C181 Partition context** — Model `partitionElement` with its two comparisons of logarithms; prove it equal to a read with the context given by block widths and heights in pixels (tables compared over all 22 sizes, then every position). Outcome: proved. Proved as an equality of syntax (which table, which context), for every position and block size; needs the neighbours' recorded sizes to be block sizes, which C175 gives for decoded blocks.
* **C182 Tiles do not inherit coefficient contexts, loop filter deltas or filter references** — Two states that differ only in the leftovers give equal results: the reset at the start of the tile and of the first superblock overwrites them before anything reads them. Outcome: proved. Proved as an equality of the whole tile decoding, with the real blocks and the real arithmetic decoder.
* **C183 Every picture shown is the frame the stream describes** — Model of the whole program (Model/Decoder); facts kept by every parser (Lemmas/Stream) are proved for each payload parser and lifted to the stream by induction over its units. Outcome: partial. C183_size_partial gives sizes and ranges, C183_hidden the frames that are not shown, C183_content_refuted shows that only 1x1 frames are shown and that they do not depend on the data.
* **C184 Every tile a stream announces can be decoded** — The tile layout of the state is always the one of the last header of the unit; context clearing excludes all but 2x2 units (C55), and then the layout has one tile. Outcome: partial. C184_refuted is the negation, over all streams.
* **C185 The pictures of accepted streams are exactly the ones the syntax describes** — Completeness: code the symbols with the inverse of the arithmetic decoder (C93), wrap them in OBUs (C07 movability of both header parsers) and run the parser. Soundness: invert the tile decoder (BlockSound), lift over the stream with the relation `Stands`. Outcome: proved. C185_complete builds the stream (headers may be any that parse to an 8x8 frame with 64x64 superblocks), C185_sound is the converse for every accepted stream (which also shows that no picture with 128x128 superblocks is ever decoded). Larger frames are never decoded (C184).
* **C186 Probability tables stay valid over the whole run** — Invariant `MemOk` of the table memory, kept by every tile (adaptation keeps validity and size) and lifted to streams by Lemmas/Stream. Outcome: proved. C186_tables, over all streams; by the invariant that every table of the memory has the layout of the start.
* **C187 Pixels stay in range over whole streams** — Invariant: all pixels of CurrFrame in range, tables valid, marks of fixed shape; kept by tiles (C178), by the deblocking filter (identity, C104) and by fresh units; lifted with Lemmas/StreamIf, which conditions on the sequence headers of the OBUs with tiles. Outcome: proved. C187_range; bit depth 0 (reserved profiles) is excluded because the code then clips to 2^0-1.
* **C188 A finished frame hands over what its headers say, an unfinished one nothing** — Invert the reference update by loop invariants (GroupEnd), take the tile group apart (Remember), invariant over reachable states that the two copies of the reference fields agree. Outcome: proved. Proved for every call, without hypotheses on sizes. Film grain and loop filter parameters of the slots (saveGrainParams, saveLoopFilterParams, saveSegmentationParams) are no-ops in the code and have no counterpart in the theorem.
* **C189 Reference pictures are the decoded pictures** — The restored picture is constant (restored_flat, C183); the inverted reference update copies it into the slots; lifted to streams by `group_called`. Outcome: partial. Negation proved for every accepted stream, with a stream whose decoded pixel is 128 and whose eight stored pixels are 2.
* **C190 The quantizer index and the loop filter deltas follow the header** — Weakest precondition of mode info for the deltas (TileDeltas), relation over partition trees, superblocks and tiles, induction over the tiles of a group. Outcome: proved. Proved for every reachable state and any number of tiles and blocks.
* **C191 Coded segment ids reach the deblocking filter and the following frames** — The same relation says that blocks leave the map alone; induction over reachable states. Outcome: partial. Negation proved: all maps are 0 in every reachable state.
* **C192 Blocks and filters go by the coded header fields** — Specification of each field in terms of the coded syntax; the tile decoder and the frame end are shown to be called with headers that meet it. Outcome: proved. Proved against a field-by-field specification (Spec.BlockView, Spec.FilterView) independent of the functions that assemble the headers. Two fields are what the code makes of them rather than the standard: previous segment ids (always 0, C191) and the reference pictures (C189).
* **C193 No candidate vector twice** — Invariant of the scans (`ScanKeeps`): the first `num` entries differ; the pair case by evaluation and, for every state, by the length of the list. Outcome: partial. One reference proved for the candidates of all spatial scans; two references refuted.
* **C194 Headers in effect** — Invariant of the parser over the list of OBUs read so far, for any codec. Outcome: partial. C194_headers_partial: for every OBU of every accepted stream, the headers are those of the last sequence header OBU and the last frame header OBU. C194_frame_refuted: frame OBUs do not count, so a tile group after a frame OBU has another header than its frame.
* **C195 Tile groups need a frame header** — Evaluate the tile group loop from the zero state of a frame unit (TileCols = 0, so the range of tiles is 0..-1) for arbitrary headers, and the end of the frame for zero headers. Outcome: partial. C195_nothing_partial: in a frame unit without frame header a tile group that is accepted decodes no tile, no pixel, adapts no table and reads nothing (only the alignment), whatever headers are left over; but it counts as the end of a frame. C195_accepted_refuted: it is not rejected: without any headers every such OBU, whatever its payload, is accepted as a finished frame. Missing (false of the code): rejection.
* **C196 Decoding ends** — a relation Rd.Grows between the syntax with 0 and with n steps; an encoder argument (stall_at) gives tile data that lead every one of them into the zero-counting loop; faults are propagated from the syntax up to parseStream; for the positive part, monotonicity in the fuel (BM.Le, BM.LeBy) through the whole decoder. Outcome: partial. False of the program: the loop that counts the zeros of an Exp-Golomb code has no bound and the symbol decoder reads zeros after the end of the data. C196_ends_refuted gives a finite stream (sequence header, frame header and tile data of a monochrome 8x8 key frame) that is decoded for ever, whatever the bound. C196_ends_partial: a decoding that ends within some bound gives the same result for every larger one. C22_stream_fails: a fault of an OBU is the fault of the whole program.
* **C197 Palette colour contexts follow the neighbours** — Model/PaletteMap follows getPaletteColorContext line by line on arrays given as parameters. The sort is checked by the kernel for every combination of at most three neighbours and every number of colours (the whole domain), the rest by rewriting with the neighbours' values. Outcome: partial. Stated for arrays that are allocated (in the code they are nil: C156_context_refuted). C197_context_partial gives order and hash exactly, with weight 1 for the pixel above; C197_row_partial: AV1's in the first row. Refuted: in the first column the hash is 1, for which there is no context (C197_hash_refuted); the order differs (C197_order_refuted).
* **C198 Palette colour maps can be coded in exactly one way** — Induction over the order of the pixels, with C156 (each once, neighbours first): the ranking is a permutation of the colours, so exactly one index gives the wanted colour; the loops beyond the frame by loop invariants. Outcome: partial. C198_map_partial and C198_total_partial for allocated arrays and symbols given by a list (b.S() panics). Refuted: the map is a nil slice (C198_nil_refuted).
* **C199 Palette colours are those that were coded** — Model/PaletteColors follows palette.go:15-140; total correctness of each loop for every reply (Rd.Post) gives the exact set of colours; round trips (Rd.Says) for what works; an equation of programs connects it with the model of mode info. Outcome: partial. The syntax of palette.go in full, with the panicking b.S() as a parameter; C199_none_refuted: with the code's b.S() no palette is ever read and the rest is exactly what the model of mode info has. C199_cache_partial and C199_v_partial: round trips for palettes without differences. Refuted for arrays that are allocated: differences are ignored (C199_luma_refuted, C199_v_refuted), have the wrong width (C199_width_refuted), and U's colours from the cache end up in the luma palette (C199_u_refuted).
* **C200 Two references are weighted by their distance in time** — Model distanceWeightsProcess as a loop that fills the slice and a selection from it; refute the whole by the nil slice, prove the distance against IsRelDist and the selection against a table of ratios by cases. Outcome: partial. False of the code: the distances are written into a nil slice, so the weights are never computed (C200_refuted, all inputs). What comes before and after that write is right: each distance, and the choice of the weights from two distances, for all integers.
* **C201 Quantizer and loop filter deltas read back** — `encDeltas` is written from 5.9.17 and 5.9.18; the two readers are shown to consume it exactly and return the coded values (`Reads` combinators). Outcome: proved. C201_deltas: full round trip through both readers, for all parameters.
* **C202 Key frame headers read back** — `KeyHeader.enc` writes a shown key frame's header from 5.9.2 and its parts (64x64 superblocks, no frame ids; the operating points have no decoder model, as in every accepted sequence header, C25); the proof chains the round trips of the parts (C29, C36, C65-C69, C201, C203) through `newUncompressedHeader`. The AV1 statement is refuted by a concrete header because of the 6-bit sharpness; the partial theorem covers 6-bit sharpness, and AV1's own coding when no filters are coded. Outcome: partial. C202_key_roundtrip_partial: whole header round trip for frames of any size (with super resolution, presentation times, tiles, segmentation features, reduced still pictures, hidden intra-only frames) when the sharpness is coded with the 6 bits the code reads, and AV1's own coding for lossless and intra block copy frames; reference frame features below 4 (C66), no coded number of uniform tile rows (C63). C202_key_roundtrip_statement_refuted gives a concrete AV1 header that is misread. Missing: frame ids, reference order hints of error resilient frames, 128x128 superblocks, screen content tools forced off (C75). The render height without coded render size is C64.
* **C203 Tile layouts read back** — `TileCoding.enc` writes `tile_info` from 5.9.15 for explicit sizes and uniform spacing; the loops are shown to fill the boundary slices with exactly the prefix sums (induction on the list of sizes); the number of uniform rows is never read (C63), so the whole statement is refuted with a witness and proved where it needs no bits. Outcome: partial. C203_explicit_tiles: all explicit layouts; C203_tile_layout_partial: uniform ones too if the number of rows needs no bits (one superblock row, or the area limit fixes it). C203_tile_layout_statement_refuted: the bits for the number of uniform rows are never read (C63).
* **C204 The headers of a stream read back** — `encHeaders` frames a sequence header and frame headers as Annex B prescribes. Each frame header is parsed by C202 from its payload, moved to any place of the stream by C07 (a header is determined by its bits), put into its OBU by C17 and into the stream by C22; induction on the OBUs before a frame header, the frames and the temporal units. For AV1's own sequence headers: their first bits are those of a header of the dialect with size fields of one bit, and the parser only ever adds OBUs. Outcome: partial. C204_headers_read_back_partial: whole streams of headers, any number of temporal units and of frames in each, delimiters and repeated sequence headers anywhere before a frame header, threading the sequence header from the first frame unit to the others. The frame headers are those the code does not misread (C202: 6 bits of sharpness if filters are coded, reference features below 4, rows of uniform tiles not coded), and the sequence header is in the code's dialect (C23: 5 bits of level for every header). C204_av1_refuted: of every stream that starts with a delimiter and an AV1 sequence header, reduced or ordinary, whatever follows, the program gets frames of at most 2x2 pixels, and decodes all OBUs before the next sequence header with that; C204_av1_frames_refuted: and none of their frame headers, in frame header OBUs or frame OBUs, with or without sizes of their own, is of a frame of more than 2x2 pixels. Missing: frame OBUs (their tile data are C180-C187).

## Axioms per theorem

Computed by `tools/axioms.py` (`collectAxioms` on every theorem listed in MANIFEST.json); `P` = propext, `C` = Classical.choice, `Q` = Quot.sound.

* P: C111_filter_partial, C112_grain_refuted, C113_flat_partial, C113_off_partial, C113_wiener_taps_refuted, C114_type_refuted, C114_wiener_refuted, C115_inter_skip_refuted, C115_tables_partial, C121_loop_filter_keep, C121_qindex_keep, C123_cfl_inter_frame, C132_modes_partial, C132_nearest_refuted, C140_global_refuted, C140_segment_partial, C143_id_partial, C143_update_refuted, C145_segment_partial, C148_pair_precision_refuted, C15_brev_refuted, C15_cos128_refuted, C161_intrabc_refuted, C163_identity, C163_symmetric, C163_taps_sum, C164_table_refuted, C168_planes, C170_identity, C173_codebook, C173_monotone, C173_nil_refuted, C173_shape, C173_sizes, C173_symmetric, C193_pair_refuted, C198_nil_refuted, C32_lossless_levels_refuted, C34_offered_refuted, C34_skip_mode_enabled, C34_skip_mode_never, C52_mask_off, C54_load_refuted, C61_contexts_wired_partial, C61_contexts_wired_refuted, C70_sign_bias_partial, C70_sign_bias_refuted, C90_row_shift_partial, C95_contexts_distinct_refuted
* P C Q: C01_fixed_width_roundtrip, C02_su_range, C02_su_roundtrip, C03_ns_range, C03_ns_roundtrip, C04_leb128_bounds, C04_leb128_roundtrip, C05_le_roundtrip, C06_uvlc_roundtrip, C07_colorConfig_streaming, C07_descriptors_streaming, C07_header_streaming, C07_sequenceHeader_anywhere, C07_sequenceHeader_streaming, C07_tileInfo_streaming, C07_uncompressedHeader_anywhere, C07_uncompressedHeader_streaming, C07_uvlc_streaming, C08_byte_alignment, C08_byte_alignment_inside, C09_ceilLog2_least, C09_tileLog2_least, C100_type_allowed, C100_type_codable, C101_contexts, C102_masks, C104_filtered_refuted, C104_inside_partial, C105_direction, C105_directional, C105_flat, C106_filter_partial, C106_taps_refuted, C107_copied, C107_damping_refuted, C107_filtered_partial, C108_frame_partial, C108_off, C109_read_partial, C10_round2_nearest, C110_all_zero_chroma, C110_all_zero_luma, C110_base, C110_base_array, C110_br, C110_br_array, C110_dc_sign, C110_sign_array, C111_identity_refuted, C111_position_partial, C111_size_refuted, C111_value_refuted, C112_copy_partial, C112_hidden_partial, C112_shown_refuted, C112_size_refuted, C113_box_partial, C113_cover_partial, C113_sample_partial, C113_sgr_refuted, C113_wiener_symmetric_refuted, C114_range_refuted, C114_sgr_partial, C114_subexp_partial, C114_subexp_refuted, C114_units_partial, C115_depth_partial, C115_intra_skip_refuted, C115_largest_partial, C115_lossless_partial, C115_size_refuted, C116_cover, C117_order_partial, C117_order_refuted, C118_marks_partial, C118_mask_refuted, C118_plane, C118_size_refuted, C119_luma_partial, C11_clip1_partial, C120_luma_partial, C121_loop_filter, C121_qindex, C122_clip_refuted, C122_context_partial, C122_id_partial, C122_same_refuted, C123_angle, C123_cfl_intra_frame_partial, C123_cfl_refuted, C123_y_mode, C125_availability, C126_modes_partial, C126_panic_refuted, C126_records_partial, C127_refuted, C127_reset_partial, C128_partial, C128_sign_refuted, C129_reference_refuted, C129_tools_refuted, C129_total_partial, C129_uv_mode_refuted, C12_inverseRecenter_range, C12_inverseRecenter_roundtrip, C12_recenter_inverse, C130_idempotent, C130_precision, C131_global_partial, C131_positive_refuted, C133_assign_partial, C134_terminates, C135_candidates_refuted, C136_contexts, C137_bounds, C137_padding, C138_foreign_refuted, C13_negDeinterleave_range, C141_code_partial, C141_contexts_partial, C144_intra_partial, C144_tools_refuted, C145_near_refuted, C145_new_partial, C146_tools_refuted, C147_block_partial, C147_missing_refuted, C147_neighbours_partial, C148_candidate_partial, C148_precision_partial, C148_scans_partial, C149_above, C149_far, C149_left, C150_pixels, C151_block, C152_above_partial, C152_above_refuted, C152_left_refuted, C153_large_refuted, C153_small_partial, C154_above_refuted, C154_between_refuted, C154_horizontal_refuted, C154_left_partial, C154_vertical_partial, C155_chroma_refuted, C155_corner, C155_filter_refuted, C155_strength_refuted, C156_neighbours, C156_once, C156_onscreen, C157_residual_refuted, C158_pixels, C159_outside, C15_brev_partial, C160_luma_refuted, C160_mode, C160_partial, C161_checks, C161_scaling_partial, C161_scaling_refuted, C162_block_refuted, C162_flat_partial, C162_values_partial, C164_divisor_partial, C164_divisor_refuted, C164_total, C165_range, C166_classes_refuted, C166_no_warp_partial, C166_place_refuted, C166_predict_partial, C166_warp_refuted, C167_blend, C167_luma_refuted, C167_weights, C168_near, C168_partial, C168_sub8_refuted, C16_header_roundtrip, C170_range, C170_round_partial, C170_round_refuted, C171_ends, C171_plane, C172_found_refuted, C172_looks_partial, C172_none_refuted, C172_search_partial, C173_master_partial, C174_frame_partial, C174_tile_partial, C175_records, C175_size_refuted, C176_outside, C177_pixels, C178_tile, C179_horz_refuted, C179_partial, C17_frame_header, C17_sequence_header, C17_temporal_delimiter, C180_complete, C181_context, C183_content_refuted, C183_hidden, C183_size_partial, C184_refuted, C185_complete, C185_sound, C186_tables, C187_range, C188_finished, C188_others, C189_refuted, C18_dropped, C18_selected_tile_group, C190_deltas, C191_deblocking_refuted, C191_saved_refuted, C192_blocks, C192_filters, C194_frame_refuted, C195_accepted_refuted, C195_nothing_partial, C196_ends_refuted, C198_map_partial, C198_total_partial, C199_cache_partial, C199_luma_refuted, C199_u_refuted, C199_v_partial, C199_v_refuted, C199_width_refuted, C19_fresh_after_delimiter, C19_repeat_not_reparsed, C200_shares_partial, C201_deltas, C202_key_roundtrip_partial, C203_explicit_tiles, C203_tile_layout_partial, C204_av1_frames_refuted, C204_av1_refuted, C204_headers_read_back_partial, C20_padding_partial, C20_padding_refuted, C21_unknown_types_partial, C21_unknown_types_refuted, C22_obu_forward, C22_parser_terminates, C22_stream_exact, C22_stream_fails, C23_av1_refuted, C23_dialect_roundtrip_partial, C23_reduced_refuted, C24_colorConfig_roundtrip, C26_uniform_tiling, C27_explicit_tiling, C28_empty_tile_refuted, C29_dimensions, C29_size_roundtrip, C30_segmentation, C31_lossless, C31_qindex_partial, C32_loop_filter_partial, C33_cdef, C33_restoration, C35_subexp_range, C35_subexp_roundtrip, C35_subexp_terminates, C35_withRef_range, C35_withRef_roundtrip, C36_film_grain_roundtrip, C37_history, C37_symbol, C38_invariants, C38_never_fails, C39_encodable, C39_roundtrip, C40_tile_consumed, C42_defaults_constant_partial, C42_defaults_constant_refuted, C42_end_partial, C42_stream_refuted, C43_default_contexts_decode, C43_default_tables_partial, C43_skip_mode_refuted, C44_literal_range, C44_ns_range, C45_roundtrip, C45_tile_loop, C46_horz_a_refuted, C46_horz_refuted, C46_partition_cover_partial, C46_vert_4_refuted, C46_vert_b_refuted, C47_wht_inverts, C47_wht_onto, C48_block, C48_dequant_value, C49_ac_partial, C49_ac_table, C49_dc, C50_order_partial, C50_positions, C51_constrain, C51_constrain_ends, C51_pixel, C52_narrow_horizontal, C52_narrow_vertical, C52_range, C54_history_partial, C54_size_refuted, C54_update_partial, C56_dc, C56_dc_left_refuted, C56_dc_range, C56_paeth, C56_paeth_range, C56_smooth_range, C57_clamp, C57_long_refuted, C57_short_partial, C57_unreachable_refuted, C57_vector_partial, C58_cache_partial, C58_left_refuted, C58_push, C59_redundant_header_refuted, C60_operating_point_persistence_partial, C60_operating_point_persistence_refuted, C62_uniform_limits, C63_uniform_rows_signalled_refuted, C64_render_size_partial, C65_quant_roundtrip, C66_feature_roundtrip_partial, C66_feature_roundtrip_refuted, C67_loop_filter_roundtrip_partial, C67_loop_filter_roundtrip_refuted, C68_cdef_roundtrip, C69_restoration_roundtrip, C71_intra_identity, C71_params_refuted, C71_types_partial, C72_header_consistent, C72_key_frame_total, C73_show_existing_partial, C73_show_existing_refuted, C73_show_existing_statement_refuted, C74_key_frame_resets_refuted, C74_key_frame_resets_statement_refuted, C75_screen_content_partial, C76_hidden_key_refuted, C76_refresh_flags_partial, C77_ref_idx_refuted, C78_primary_ref_refuted, C79_frame_ids_partial, C80_intra_independent, C81_tiles_partition, C82_superblocks_cover_tile, C83_flags_refuted, C84_corner_block_partial, C84_edge_block_refuted, C85_partition_depth, C86_hadamard, C88_adst_plan_partial, C88_dct_plan_partial, C88_plan_refuted, C89_identity, C90_columns_refuted, C90_rect_partial, C90_unallocated_refuted, C92_pixels_refuted, C92_reconstruct_refuted, C93_complete, C93_safe, C93_sound, C93_stall, C93_total, C94_coeff_base_refuted, C94_layout_fits, C96_chroma_refuted, C96_coeffs_partial, C96_tx_types_refuted, C97_golomb_partial, C97_terminates_refuted, C98_negative_refuted, C98_roundtrip_partial, C99_eob_refuted, C99_eob_returned_refuted
* P Q: C01_bits_left, C01_fixed_width_total, C03_ns_negative_hangs, C06_uvlc_saturates, C06_uvlc_terminates, C08_trailing_bits, C08_trailing_bits_nonpositive, C09_floorLog2_edge, C09_floorLog2_exact, C100_in_set, C102_limit_partial, C102_limit_refuted, C103_size_partial, C103_size_refuted, C104_identity_refuted, C104_panics_refuted, C104_selected_partial, C105_offsets, C108_size_refuted, C108_skips_refuted, C109_bits_refuted, C109_clear128_refuted, C109_clear_partial, C109_columns_refuted, C109_unchanged, C109_wide_refuted, C10_round2Signed_partial, C10_round2Signed_refuted, C10_round2_unique, C110_all_zero_array, C110_eob_array, C110_eob_extra_array, C110_last, C111_flat_partial, C111_sum_partial, C113_none_partial, C113_stripe_partial, C113_wiener_refuted, C113_window_partial, C114_luma_refuted, C115_above_partial, C115_edge_refuted, C115_left_partial, C115_left_refuted, C115_tree_refuted, C118_column_refuted, C119_chroma_refuted, C11_clip3_id, C11_clip3_nearest, C120_result_refuted, C124_context_refuted, C124_panic_refuted, C124_partial, C124_segment, C126_fits_partial, C126_mvs_refuted, C126_segment_refuted, C133_intrabc_refuted, C138_corner_partial, C138_own_refuted, C139_above_refuted, C139_swap_refuted, C139_temporal_refuted, C13_negDeinterleave_injective, C13_negDeinterleave_partial, C140_context_partial, C141_contexts_refuted, C141_missing_refuted, C142_least, C144_y_mode, C146_skip_mode_refuted, C148_near_partial, C148_pair_partial, C14_sort_out_of_range, C14_sort_segment, C152_none_refuted, C153_filter_refuted, C154_derivative, C155_chroma_partial, C155_strength_partial, C155_type_partial, C155_type_refuted, C156_chroma_partial, C156_chroma_refuted, C15_brev_value, C15_cos128_partial, C160_chroma_refuted, C160_corners, C160_extent, C161_step_refuted, C165_diagonal_refuted, C167_left_refuted, C168_interintra, C168_intra_idle, C169_isScaled, C16_header_total, C172_ends, C179_128_refuted, C182_leftovers, C188_open, C193_append_refuted, C193_single_partial, C194_headers_partial, C196_ends_partial, C197_context_partial, C197_hash_refuted, C197_order_refuted, C197_row_partial, C199_none_refuted, C200_distance_partial, C200_refuted, C200_select_partial, C202_key_roundtrip_statement_refuted, C203_tile_layout_statement_refuted, C23_roundtrip_refuted, C24_colorConfig_valid, C25_operating_points_refuted, C28_superblock_counts_partial, C28_superblock_counts_refuted, C31_qindex_refuted, C36_film_grain, C36_no_grain, C41_disabled, C43_segment_id_predicted_refuted, C44_literal_is_bits, C49_ac_refuted, C50_order_refuted, C53_level, C53_level_zero, C53_neighbour_refuted, C54_pictures_refuted, C55_context_clearing_partial, C55_context_clearing_refuted, C55_left_clearing_refuted, C56_dc_none, C58_nil_refuted, C58_sources, C64_render_size_refuted, C70_distance_unique, C70_relative_distance, C75_screen_content_refuted, C76_refresh_flags_refuted, C77_ref_idx_partial, C79_frame_ids_refuted, C83_flags_128_refuted, C84_mass_partial, C87_rotation_partial, C87_rotation_refuted, C88_adst_refuted, C88_dct_refuted, C90_kinds_partial, C91_weights, C92_flips_partial, C94_coeff_base_partial, C97_overflow, C97_overflow_harmless, C97_overflow_refuted
* none: C11_clip1_refuted, C13_negDeinterleave_refuted, C156_context_refuted, C163_shape, C56_dc_above_refuted
