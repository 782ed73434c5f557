# Formal model of M4tthewDE/gov1 in Lean 4 — design

gov1 is an AV1 decoder written in Go (work in progress at the pinned commit).  This directory holds a
Lean 4 model of its source and machine-checked theorems about the model.  Nothing of /repo is run.

## Trusted base

* Lean 4.33.0's kernel.  Theorems depend on at most `propext`, `Classical.choice`, `Quot.sound`.
  No axiom is added; nothing is evaluated by compiled code (`decide +kernel` is kernel reduction).
* The reading of the Go source that the model embodies: every definition in `Verif/Model` cites the
  file and lines it models.
* Go semantics assumed: slices and arrays panic on out-of-range indices, negative shift counts panic,
  `>>` on `int` is arithmetic, integer division truncates.  `int` is 64-bit in Go and unbounded here,
  except for Exp-Golomb levels, the only numbers of a stream without a length limit, which wrap (`wrap64`);
  the other places where this could matter are noted at the definition.
* The package graph has an import cycle at this commit (`uncompressedheader` imports `tilegroup` and
  `tilegroup` imports `uncompressedheader`), so the program as a whole is not accepted by the Go
  compiler.  The model gives each function the meaning its source text has.

## Layout

* `Verif/Go.lean` — panics as values (`Fault`, `Res`).
* `Verif/Model/*` — the model, function by function.
* `Verif/Spec/*` — small independent specifications (reference encoders, predicates).
* `Verif/Lemmas/*` — helper lemmas.
* `Verif/Props/*` — the property theorems, each with an `example` showing its hypotheses are met.

Theorem names start with the property id.  `_partial` marks a theorem covering part of a property that
is false of, or not fully proved for, the code; `_refuted` marks the proof that the full property is
false of the code, with a concrete witness.

## What is modelled

| file | modelled | by |
|---|---|---|
| bitstream/bitstream.go | all | Model/BitStream |
| util/util.go | FloorLog2, CeilLog2, TileLog2, Round2, Round2Signed, Clip1, Clip3, InverseRecenter, NegDeinterleave, Sort, Cos128, Sin128, Brev | Model/Util |
| header/header.go | all | Model/Header |
| sequenceheader/sequence_header.go | all | Model/SeqHeader |
| obu/obu.go, parser/parser.go | all, with the payload parsers as parameters (`Codec`) | Model/Obu |
| symbol/symbol.go, literal/literal.go | all | Model/Symbol, Model/Rd |
| uncompressedheader/cdf.go | every table; Init/Save/Load wiring | Model/CdfTablesA-D, CdfWiring, CdfLayout |
| uncompressedheader/uncompressed_header.go | all | Model/UncompressedHeader, FrameHeader |
| tileinfo/tile_info.go | all | Model/TileInfo |
| tilegroup/tile_group.go | build, decodeTile, initSymbol, exitSymbol, clear* | Model/TileGroup, Symbol |
| tilegroup/decode_partition.go | all (blocks as a list of events) | Model/Partition |
| tilegroup/transform.go | all | Model/Transform |
| tilegroup/quantizer.go, reconstruct.go | all | Model/QuantTables, QuantMatrix, Reconstruct |
| tilegroup/coeffs.go | all | Model/ScanTables, Scan, Coeffs |
| tilegroup/loop_filter_process.go | all | Model/LoopFilter |
| tilegroup/cdef.go | all | Model/Cdef |
| cdef/cdef.go | all | Model/Cdef |
| tilegroup/decode_frame_wrapup.go | all except motionVectorStorageProcess (never called) and the empty save/load functions | Model/Wrapup |
| tilegroup/output.go | outputProcess for frames that are not repetitions | Model/Wrapup, FrameEnd |
| tilegroup/loop_restoration.go, read_loop_restoration.go | all | Model/LoopRestoration |
| tilegroup/intra_frame_mode_info.go | readCdef | Model/Cdef |
| tilegroup/tx_size.go | all (the part after the panicking `b.S()` is unreachable) | Model/TxSize |
| tilegroup/residual.go | all | Model/Residual, Coeffs, TxBlock |
| tilegroup/intra_frame_mode_info.go | all (intra block copy, filter intra up to the panicking `b.S()`) | Model/ModeInfo, Cdef |
| tilegroup/decode_block.go | availability, context reset and both recording loops; palette colours and compound indices are left out (unreachable) | Model/ModeInfo |
| tilegroup/assign_mv.go | all | Model/Mv |
| tilegroup/find_mv_stack.go | all (single and compound) | Model/Mv, MvStack |
| tilegroup/inter_frame_mode_info.go | all | Model/InterInfo |
| tilegroup/inter_block_mode_info.go | all but what only runs after a panicking b.S(); findWarpSamples and addSample separately, and readMotionMode, which calls them, as a panic in every case they can be reached in (C172_ends: the call does not hang) | Model/InterInfo |
| tilegroup/inter_block_mode_info.go (findWarpSamples, addSample), wedgemask/wedge_mask.go | all; the wedge masks of single blocks only up to the nil slice that makes initialisation panic | Model/Warp |
| tilegroup/predict_intra.go | all (recursive prediction, edge filter and upsampling up to their panics) | Model/Intra |
| tilegroup/predict_inter.go | all (warp filter, warp estimation, masks and distance weights up to their panics) | Model/Inter, Model/InterTables |
| tilegroup/compute_prediction.go | all | Model/Inter |
| tilegroup/util.go | `isScaled` | Model/Inter |
| tilegroup/palette.go | all, with the nil slices and the results of the panicking `b.S()` as parameters | Model/Palette, PaletteColors |
| tilegroup/palette_tokens.go | all, with the nil slices and the results of the panicking `b.S()` as parameters | Model/Palette, PaletteMap |
| tilegroup/decode_block.go, decode_partition.go, read_loop_restoration.go, tile_group.go:692-806 | `decodeBlock`, `partitionElement`, `readLr` and `decodeTile` put together (without palettes) | Model/Block |
| parser/parser.go, obu/obu.go, uncompressedheader/*, tilegroup/tile_group.go:271-367 (NewTileGroup, decodeFrameWrapup, frameEndUpdateCdf) | all models put together: one function from the bytes of a stream to its OBUs | Model/Decoder |
| tilegroup/syntax_element.go | all that is called | Model/InterInfo |

Not modelled: logging, `main`, the file system, goroutines (there are none), memory limits and 64-bit overflow
other than of Exp-Golomb levels (integers are unbounded; header fields are at most 32 bits wide so header arithmetic cannot overflow).
Files not in the table are not modelled yet.

## How the model is used

* A Go function that can panic becomes a function into `Res` (`Except Fault`); index, shift, division, nil and
  explicit panics are distinct faults.  An unbounded loop takes fuel and fails with `Fault.hang` when it runs
  out; theorems about termination give the fuel, theorems about non-termination hold for every fuel.
* Readers of the bit stream are functions `BitStream → Res (α × BitStream)` (`BM`).  Block syntax is a program
  tree `Rd` that asks for symbols; C93 ties its two semantics together, so block-level theorems quantify over
  every reply a CDF can give and hold for every tile payload.
* Where AV1 gives the intended meaning, the specification is written separately in `Verif/Spec` from the
  English property, not from the Go text.

## Disagreements between properties and code

The notes below name each one.  They are defects of the pinned commit, found by failing proofs, and are stated
as theorems ending in `_refuted` (universally quantified over the affected inputs wherever possible), next to
`_partial` theorems for what does hold.
