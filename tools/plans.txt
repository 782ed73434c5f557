C01 BitStream: byte list + bit position; induction on the width against the big-endian value of the next n bits (`Spec/Bits`).
C02 On top of C01: case split on the sign bit.
C03 On top of C01: floor-log arithmetic, reference code in `Spec/Bits`; negative n loops (`Fault.hang` for every fuel).
C04 Induction on the byte list produced by a reference encoder with padding; bound from the 8-byte loop.
C05 Induction on n.
C06 Loop over the zero prefix with explicit fuel; reference code; saturation when 32 zeros are seen.
C07 `Streaming`: closed under bind; every reader built from streaming readers is streaming (position moves forward, result unchanged by appended data or a shifted start).
C08 Loop invariant on the bit position.
C09 Characterisation by powers of two.
C10 Integer arithmetic; counterexamples for Round2Signed.
C11 Nearest point of an interval.
C12 Case analysis with omega, inverse function given independently.
C13 Case analysis; AV1's definition as separate spec; disagreement proved.
C14 Permutation + sortedness of the segment, everything else unchanged.
C15 Complete enumeration of the 256 residues by kernel reduction lifted to all integers; bit-level proof for Brev.
C16 Reference encoder of the header, `Reads` calculus (encode-then-read for any surrounding stream).
C17 OBU parser as a function of payload parsers (`Codec`), exact positions by prefix reasoning.
C18 Same model as C17, the drop branch.
C19 State flag invariants on the OBU loop.
C20 Loop of the padding reader with explicit reads; both directions.
C21 Case split on the type field.
C22 Well-founded loops on the remaining size (fuel = bytes left), exact framing by induction on the list of units.
C23 Reference encoder for the AV1 syntax (refuted) and for the parser's dialect (proved) with the `Reads` calculus.
C24 Reference encoder, all profiles.
C25 Universal refutation from the index panic.
C26 Loop invariant of the uniform loop; partition predicate in `Spec/Tiles`.
C27 Loop invariant of the explicit loop.
C28 Arithmetic; witnesses for the refutations.
C29 Arithmetic of frameSize/superres/computeImageSize.
C30 Post-condition calculus (`Ensures`) over the header parser.
C31 `getQIndex` model; ranges proved, AV1's definition as spec, disagreement proved.
C32 `Ensures` over loopFilterParams.
C33 `Ensures` over cdefParams and lrParams.
C34 Forward/backward search model against a declarative spec.
C35 Fuel-indexed loop with a measure; reference encoder.
C36 `Ensures` + `Reads` on the film grain syntax.
C37 Loop invariants of the symbol search and of the adaptation against a recursive spec.
C38 Range/value invariants, preserved by each symbol.
C39 Reference arithmetic encoder (`Spec/Symbol`, interval refinement with unbounded integers); simulation between encoder intervals and decoder registers.
C40 Position accounting through init/exit.
C41 Direct from the C37 equations.
C42 Heap model of the CDF arrays (slices share backing arrays); over streams, a history invariant relating the OBUs read so far to the counters of the tables.
C43 Complete tables by kernel reduction, wrapped into a statement about every context.
C44 Literal loop over half/half symbols.
C45 Loop invariant over tiles; reference layout of a tile group.
C46 Induction over the partition recursion with a multiset of covered cells.
C47 Exact inverse over the integers (forward transform given as spec), loop unrolled by the model.
C48 Bounds through the dequantisation formula; loop invariant over the block.
C49 Complete tables by kernel reduction; universal refutation of the AC lookup.
C50 Complete tables; order stated by a position function per class.
C51 Model constrain and the pixel; spec by absolute values, signs and the fold of minima and maxima over the taps.
C55 Array bounds of the clear loops; loop invariant.
C56 Prediction kernels as functions of the edge arrays; hull bounds.
C57 Model readMvComponent as a program reading symbols; code of AV1 as replies (Spec.Mv); round trip by the Says calculus, unreachability by weakest preconditions; clamp by linear arithmetic.
C58 Cache merge model; sortedness and membership.
C59 Panic proved for every state.
C60 Two-frame-unit histories.
C61 Wiring table generated from cdf.go/tile_group.go; refutation per missing wire.
C62 `Ensures` on the tile info reader.
C63 Universal refutation.
C64 Witness for every header; coded sizes proved.
C65 `Reads` round trip.
C66 `Reads` round trip, feature by feature.
C67 `Reads` round trip.
C68 `Reads` round trip.
C69 `Reads` round trip.
C70 Modular arithmetic over any order-hint width.
C71 `Ensures`; universal refutation of the parameters.
C72 Global invariant of the uncompressed header; totality on a concrete family of key frames.
C73 Universal refutation on the model of `build`.
C74 Universal refutation on the model of `build`.
C75 Case analysis on the sequence flags.
C76 Case analysis on the frame type.
C77 `Ensures` range, counterexample.
C78 Universal refutation.
C79 Universal refutation.
C80 Two-run (relational) argument: parse results agree from any two past states.
C81 From C26/C27: existence and uniqueness of the tile of each cell.
C82 Loop invariant of the superblock loops.
C83 Array-bounds argument.
C84 Case analysis on the two edge conditions.
C85 Measure: block width log2.
C86 Closed form of the butterflies.
C87 Domain of Cos128.
C88 Each transform reaches a rotation outside the domain. The plan of steps with exact real rotations equals the textbook DCT and ADST, by computing the matrix in integer combinations of cosines.
C89 Closed form of the identity loops.
C90 Unallocated arrays panic; loop invariant with arrays allocated. Kinds, shifts and rectangular scaling by case analysis over the types and sizes.
C91 Complete matrices by kernel reduction.
C92 From C90; pixel value from Clip1. Flips per transform type.
C93 Induction on the program tree `Rd` linking list-of-replies and arithmetic-decoder semantics.
C94 Layout of the CDF store generated from cdf.go; counts proved by kernel reduction over whole tables and closed under the index ranges.
C95 Aliased slots exhibited.
C96 Safety calculus `Sat` over the coefficient loops with invariants on array shapes; refutation by the bounds of the 2 by 2 array.
C97 Encoder for Golomb codes and `Says` calculus; endless program embedded in tile data by C93_stall.
C98 Encoder of whole blocks proved to drive the decoder (induction over the scan), made into bytes by C93_complete.
C99 Inversion of the whole decoding function.
C100 Case split over the closed tables of transform sets; weakest preconditions of the read.
C101 Context part of the block round trip.
C52 Model `narrowFilter` on a picture as a list of lists (Model/LoopFilter); independent spec of the four-sample filter (Spec/LoopFilter); point-wise frame lemma for the four writes.
C53 Model `lfLevel`/`lfStrength`; spec: base level + segment + reference/mode deltas as one formula; case split on every feature.
C102 Model the limit and the masks over a structure of 14 samples; spec by quantification over successive samples (`NearLe`).
C103 Model `filterSize` with the transform tables; spec is min of the two dimensions; refutation quantified over all pairs.
C104 Model the whole filter over planes, passes and 4x4 units; invariant: each edge step is the identity or panics.
C105 Model the direction search with its eight arrays of line sums; spec by sums over the lines of pixels; loop invariants turn the code's partial sums into the spec's.
C106 Model the filter of one plane of one block; spec `cdefPixel` on available neighbours; refute the tap weights for odd strengths.
C107 Model the 8x8 block; spec `cdefCall` and `av1Filtered`; frame condition on all other pixels; refute damping of chroma.
C108 Model the whole process over the frame; spec per pixel of the output; refute array sizes.
C109 Model Go slices with capacity, the clearing loops and read_cdef; refutations over all frames, blocks and tiles.
C110 Spec/CoeffCtx gives each context by AV1's rules; show by unfolding and loop lemmas that each read of the model asks for that array and context.
C111 Model the upscaling loops; spec by sums over the row; arithmetic of positions by omega; refute identity, sizes and values.
C112 Model the copy to the output and the end of a frame; generic copy lemma for any arrays; refute for the [1][1] arrays of the program.
C113 Model the block loop, source samples, Wiener taps, box filter; exact cover and stripe lemmas; refutations over all frames with such units.
C114 Model unit ranges and the codes over the reader monad; spec gives AV1's codes; exact cover of units by superblocks, round trip of codes, refutations.
C54 Model the copies into the slots with the array sizes of the program; invariant over the eight slots, then induction over histories of saves.
C115 Model readBlockTxSize over the reader monad; spec gives widths, heights and splits as numbers; tables checked entry by entry, loops by invariants, refutations quantified over all blocks.
C116 Model the calls of transformBlock as a list; count, by induction over the loops and the transform tree, the calls that cover a pixel.
C117 Spec enumerates AV1's order from plane areas; list equality for small blocks, a sorted-by-plane invariant against a witness pair for large ones.
C118 Model position and marking of a transform block with the program's array sizes; rectangle-fill invariants; refutations for all blocks off the diagonal and beyond the arrays.
C119 Model palettePrediction on grids; rectangle-fill lemma for luma, empty map makes the first read panic for chroma.
C120 Model predictChromaFromLuma; sums of luma by loop invariants; the clipping bug makes all results constant.
C121 Spec codes a delta as replies; round trip by the Says calculus, the four loop filter deltas by induction.
C122 Model readSegmentId with Option-valued specification of the neighbours; equality of prediction and context, refutations for all predicted ids of 2 and more and all symbols above the last active id.
C123 Model modes and angles as programs reading symbols; equality with reads at AV1's contexts; the chroma choice over the complete table of block sizes.
C124 Model readSkip with the array it reads; refutation of the context for all arrays, panic outside 2x2.
C125 Model the first part of decodeBlock; equivalence with a specification by luma units, by linear arithmetic.
C126 Model both recording loops; projection lemma reduces each array to the rectangle-fill lemma.
C127 Model resetBlockContext; loop invariant over planes against AV1's inclusive ranges; the guard is a constant.
C128 Spec codes a pair of alphas as replies; the decoder returns the negated pair, for all pairs.
C129 Compose mode info; weakest precondition over all symbol replies for what a returning call leaves, total correctness without the unimplemented tools.
C130 Model lowerMvPrecision; relation roundsTo, uniqueness gives idempotence.
C131 Model setupGlobalMv; equality with specGm where Round2Signed is right, refutation for all positive displacements.
C132 Model getMode; table of AV1's modes, complete finite table.
C133 Model assignMv as a program; weakest precondition and Says for each mode.
C134 Model findMvStack with fuel; Res.Part (partial correctness and no hang) composed through all processes, step of at least 1 from the size tables.
C135 Same invariant StOk: DrlCtxStack has one entry, RefStackMv two.
C136 Same invariant; contexts by cases.
C137 Same invariant; clamp bounds from C57, fill loop invariant.
C138 Equational reasoning at the corner of a tile; loop over cells outside the tile by induction.
C139 Inversion of the calls up to the first access out of range.
C140 Model readIsInter; equality with a read at the context of an Option-valued specification of the neighbours.
C141 Model readRefFrames; Spec lists the questions per reference with their sets; Says for codes, Rd.tables for the tables consulted, weakest precondition for what is never returned.
C142 Model getSegmentId; nested loop invariant (lower bound and attained).
C143 Equations by cases of the headers; refutation by weakest precondition False.
C144 Complete table of block sizes for the context; total correctness over all replies.
C145 Says for the two modes, weakest precondition for the rest.
C146 Weakest precondition of interBlockModeInfo through all its parts, using the invariant of findMvStack.
C147 Composition of C141, C138, C145, C133 by the Says calculus.
C148 Partial correctness of the candidate search (`Res.Part`).
C149 Arithmetic of the scan steps; interval cover by induction.
C150 Invariant (frame and edges in range) over the list of calls; convexity of each predictor.
C151 Loop invariant of the copy.
C152 Loop invariants of the edge preparation; two frames that agree from row y on.
C153 Totality of each loop from bounds; out-of-range index for large blocks.
C154 Pixel formulas from the loops, compared with AV1's interpolation; complete derivative table.
C155 Case analysis of strengths and upsampling; type from the neighbours' modes.
C156 Membership and order of each anti-diagonal, induction over the diagonals.
C157 Weakest precondition of residual: its frames are those of a run without coefficients.
C158 Invariant of the calls of transformBlock.
C159 Pixels outside of each transform block unchanged; C116_cover for the block.
C160 Arguments of the prediction; DC prediction without neighbours.
C161 Model motionVectorScalingProcess over unbounded integers; compare with the position plus vector.
C162 Fold of the eight taps over a constant; sum of the taps; evaluation at step zero.
C163 Kernel evaluation over the complete tables.
C164 Bounds of the logarithm and of every entry of the table (kernel evaluation) combined by arithmetic.
C165 Invariant of the writing loops and of the overlap loops.
C166 Case analysis of a successful call; totality of the loops.
C167 Invariant of nested loops each reading and writing its own pixel; arithmetic of a convex combination.
C168 Number of turns of the loops from the size tables; rectangles compared.
C169 Arithmetic of the rounded quotient.
C170 Arithmetic of rounding; the validity from the definition of the four numbers.
C171 No step of the model runs out of fuel: the walks advance by at least 2.
C172 addSample writes the list of candidates, a nil slice, whenever it takes a sample, so no sample is taken by a search that ends; steps of the walks are at least 1; no panic if no neighbour has the same reference.
C173 Kernel evaluation over the six complete master masks and the complete tables; the first assignment to the nil slice panics.
C174 Composition of the partition cover (C46), the superblock loops (C81), the tile loop (C45/C82) and the tile bounds, by induction over the list of tile groups; the log of block events counts each unit.
C175 Weakest preconditions of the whole block program (Rd.Wlp), transferred to the arithmetic decoder by exec_wlp; the writes of C126.
C176 The transform calls of the block tile the block (C155/C156), each changes only its own rectangle; intra prediction in computePrediction is idle (C168).
C177 Range of every predictor (C152, C171) and of reconstruction, through the block program.
C178 A relation closed under composition, carried through the partition tree and the superblock loops.
C179 The partition tree of a 2x2 unit frame is followed step by step: three forced splits, then one symbol; block sizes by C175.
C180 The tile of a small frame is one program over symbols (exec distributes over sequencing); C93_complete gives the tile data.
C181 Model `partitionElement` with its two comparisons of logarithms; prove it equal to a read with the context given by block widths and heights in pixels (tables compared over all 22 sizes, then every position).
C182 Two states that differ only in the leftovers give equal results: the reset at the start of the tile and of the first superblock overwrites them before anything reads them.
C183 Model of the whole program (Model/Decoder); facts kept by every parser (Lemmas/Stream) are proved for each payload parser and lifted to the stream by induction over its units.
C184 The tile layout of the state is always the one of the last header of the unit; context clearing excludes all but 2x2 units (C55), and then the layout has one tile.
C185 Completeness: code the symbols with the inverse of the arithmetic decoder (C93), wrap them in OBUs (C07 movability of both header parsers) and run the parser. Soundness: invert the tile decoder (BlockSound), lift over the stream with the relation `Stands`.
C186 Invariant `MemOk` of the table memory, kept by every tile (adaptation keeps validity and size) and lifted to streams by Lemmas/Stream.
C187 Invariant: all pixels of CurrFrame in range, tables valid, marks of fixed shape; kept by tiles (C178), by the deblocking filter (identity, C104) and by fresh units; lifted with Lemmas/StreamIf, which conditions on the sequence headers of the OBUs with tiles.
C188 Invert the reference update by loop invariants (GroupEnd), take the tile group apart (Remember), invariant over reachable states that the two copies of the reference fields agree.
C189 The restored picture is constant (restored_flat, C183); the inverted reference update copies it into the slots; lifted to streams by `group_called`.
C190 Weakest precondition of mode info for the deltas (TileDeltas), relation over partition trees, superblocks and tiles, induction over the tiles of a group.
C191 The same relation says that blocks leave the map alone; induction over reachable states.
C192 Specification of each field in terms of the coded syntax; the tile decoder and the frame end are shown to be called with headers that meet it.
C193 Invariant of the scans (`ScanKeeps`): the first `num` entries differ; the pair case by evaluation and, for every state, by the length of the list.
C194 Invariant of the parser over the list of OBUs read so far, for any codec.
C195 Evaluate the tile group loop from the zero state of a frame unit (TileCols = 0, so the range of tiles is 0..-1) for arbitrary headers, and the end of the frame for zero headers.
C196 a relation Rd.Grows between the syntax with 0 and with n steps; an encoder argument (stall_at) gives tile data that lead every one of them into the zero-counting loop; faults are propagated from the syntax up to parseStream; for the positive part, monotonicity in the fuel (BM.Le, BM.LeBy) through the whole decoder.
C197 Model/PaletteMap follows getPaletteColorContext line by line on arrays given as parameters. The sort is checked by the kernel for every combination of at most three neighbours and every number of colours (the whole domain), the rest by rewriting with the neighbours' values.
C198 Induction over the order of the pixels, with C156 (each once, neighbours first): the ranking is a permutation of the colours, so exactly one index gives the wanted colour; the loops beyond the frame by loop invariants.
C199 Model/PaletteColors follows palette.go:15-140; total correctness of each loop for every reply (Rd.Post) gives the exact set of colours; round trips (Rd.Says) for what works; an equation of programs connects it with the model of mode info.
C200 Model distanceWeightsProcess as a loop that fills the slice and a selection from it; refute the whole by the nil slice, prove the distance against IsRelDist and the selection against a table of ratios by cases.
C201 `encDeltas` is written from 5.9.17 and 5.9.18; the two readers are shown to consume it exactly and return the coded values (`Reads` combinators).
C202 `KeyHeader.enc` writes a shown key frame's header from 5.9.2 and its parts (64x64 superblocks, no frame ids; the operating points have no decoder model, as in every accepted sequence header, C25); the proof chains the round trips of the parts (C29, C36, C65-C69, C201, C203) through `newUncompressedHeader`. The AV1 statement is refuted by a concrete header because of the 6-bit sharpness; the partial theorem covers 6-bit sharpness, and AV1's own coding when no filters are coded.
C203 `TileCoding.enc` writes `tile_info` from 5.9.15 for explicit sizes and uniform spacing; the loops are shown to fill the boundary slices with exactly the prefix sums (induction on the list of sizes); the number of uniform rows is never read (C63), so the whole statement is refuted with a witness and proved where it needs no bits.
C204 `encHeaders` frames a sequence header and frame headers as Annex B prescribes. Each frame header is parsed by C202 from its payload, moved to any place of the stream by C07 (a header is determined by its bits), put into its OBU by C17 and into the stream by C22; induction on the OBUs before a frame header, the frames and the temporal units. For AV1's own sequence headers: their first bits are those of a header of the dialect with size fields of one bit, and the parser only ever adds OBUs.
