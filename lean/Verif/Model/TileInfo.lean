import Verif.Model.SeqHeader
/-!
# Model of internal/tileinfo/tile_info.go

`MiCols` and `MiRows` are natural numbers: the only writer, `computeImageSize`
(internal/uncompressedheader/uncompressed_header.go:558-561), makes them twice a non-negative number.
-/
namespace Gov1

/-- What `NewTileInfo` leaves in the state and in the returned `TileInfo`
(internal/tileinfo/tile_info.go:11-13; internal/state/state.go). -/
structure Tiles where
  miColStarts : List Nat
  miRowStarts : List Nat
  tileCols : Nat
  tileRows : Nat
  tileColsLog2 : Nat
  tileRowsLog2 : Nat
  tileSizeBytes : Nat
  contextUpdateTileId : Nat
  deriving DecidableEq, Repr

/-- internal/tileinfo/tile_info.go:18-26: `sbCols`; line 25 assigns the 128x128 row count to it. -/
def tileSbCols (use128 : Bool) (miCols miRows : Nat) : Nat :=
  if use128 then (miRows + 31) >>> 5 else (miCols + 15) >>> 4

/-- internal/tileinfo/tile_info.go:23: `sbRows`, always counted in 64x64 superblocks. -/
def tileSbRows (miRows : Nat) : Nat := (miRows + 15) >>> 4

/-- internal/tileinfo/tile_info.go:28-31 `sbShift`. -/
def tileSbShift (use128 : Bool) : Nat := if use128 then 5 else 4

/-- Loop of internal/tileinfo/tile_info.go:48-56 (uniform columns): one more column split per 1 bit.
`k` bounds the iterations left (`maxLog2TileCols - TileColsLog2`). -/
def incLoop : Nat → Nat → BM Nat
  | 0, v => pure v
  | k + 1, v => do
    let inc ← flag
    if inc then incLoop k (v + 1) else pure v

/-- Loop of internal/tileinfo/tile_info.go:71-78 (uniform rows): the condition is `>`, so once true it
stays true while 1 bits follow.  Fuel as in `uvlcZeros`. -/
def decLoop : Nat → Nat → Nat → BM Nat
  | fuel, bound, v =>
    if v > bound then
      match fuel with
      | 0 => BM.fail .hang
      | fuel + 1 => do
        let inc ← flag
        if inc then decLoop fuel bound (v + 1) else pure v
    else pure v

/-- Loops of internal/tileinfo/tile_info.go:60-63 and 81-84: boundaries of uniform tiles of `w`
superblocks.  Every iteration writes `starts[i]` and increments `i`, so the slice length bounds the
iterations (a zero `w` runs out of the slice and panics). -/
def startsLoop (sb shift w : Nat) : Nat → Nat → Nat → List Nat → Res (Nat × List Nat)
  | fuel, startSb, i, starts =>
    if startSb < sb then
      match fuel with
      | 0 => .error .index
      | fuel + 1 => do
        let starts ← goSet starts i (startSb <<< shift)
        startsLoop sb shift w fuel (startSb + w) (i + 1) starts
    else .ok (i, starts)

/-- Loops of internal/tileinfo/tile_info.go:92-101 and 114-122: explicitly sized tiles of at most
`maxSize` superblocks.  Returns `(i, starts, widest)`; for the rows `widest` is not used. -/
def sizesLoop (sb shift maxSize : Nat) : Nat → Nat → Nat → Nat → List Nat → BM (Nat × List Nat × Nat)
  | fuel, startSb, i, widest, starts =>
    if startSb < sb then
      match fuel with
      | 0 => BM.fail .index
      | fuel + 1 => do
        let starts ← BM.lift (goSet starts i (startSb <<< shift))
        let m1 ← ns (minI ((sb : Int) - startSb) maxSize)
        let sizeSb := (m1 + 1).toNat
        sizesLoop sb shift maxSize fuel (startSb + sizeSb) (i + 1) (max sizeSb widest) starts
    else pure (i, starts, widest)

/-- internal/tileinfo/tile_info.go:45-86: the uniform branch, given the limits.  Returns
`(MiColStarts, TileCols, TileColsLog2, MiRowStarts, TileRows, TileRowsLog2)`. -/
def uniformTiles (shift sbCols sbRows minLog2TileCols maxLog2TileCols maxLog2TileRows minLog2Tiles
    miCols miRows : Nat) : BM (List Nat × Nat × Nat × List Nat × Nat × Nat) := do
  let colsLog2 ← incLoop (maxLog2TileCols - minLog2TileCols) minLog2TileCols
  let tileWidthSb := (sbCols + (1 <<< colsLog2) - 1) >>> colsLog2
  let (i, cols) ← BM.lift (startsLoop sbCols shift tileWidthSb (sbCols + 1) 0 0
    (List.replicate (sbCols + 1) 0))
  let cols ← BM.lift (goSet cols i miCols)
  let rowsLog2 ← (fun s => decLoop (8 * s.data.length + 1) maxLog2TileRows
    (minLog2Tiles - colsLog2) s)
  let tileHeightSb := (sbRows + (1 <<< rowsLog2) - 1) >>> rowsLog2
  let (j, rows) ← BM.lift (startsLoop sbRows shift tileHeightSb (sbRows + 1) 0 0
    (List.replicate (sbRows + 1) 0))
  let rows ← BM.lift (goSet rows j miRows)
  pure (cols, i, colsLog2, rows, j, rowsLog2)

/-- internal/tileinfo/tile_info.go:88-125: the branch with explicit tile sizes. -/
def explicitTiles (shift sbCols sbRows maxTileWidthSb minLog2Tiles miCols miRows : Nat) :
    BM (List Nat × Nat × Nat × List Nat × Nat × Nat) := do
  let (i, cols, widest) ← sizesLoop sbCols shift maxTileWidthSb (sbCols + 1) 0 0 0
    (List.replicate (sbCols + 1) 0)
  let cols ← BM.lift (goSet cols i miCols)
  let colsLog2 ← BM.lift (tileLog2 1 i)
  let maxTileAreaSb := if minLog2Tiles > 0 then (sbRows * sbCols) >>> (minLog2Tiles + 1)
    else sbRows * sbCols
  if widest = 0 then BM.fail .div else do
  let maxTileHeightSb := max (maxTileAreaSb / widest) 1
  let (j, rows, _) ← sizesLoop sbRows shift maxTileHeightSb (sbRows + 1) 0 0 0
    (List.replicate (sbRows + 1) 0)
  let rows ← BM.lift (goSet rows j miRows)
  let rowsLog2 ← BM.lift (tileLog2 1 j)
  pure (cols, i, colsLog2, rows, j, rowsLog2)

/-- internal/tileinfo/tile_info.go:15-137 `NewTileInfo`.  `oldTileSizeBytes` is the state's
`TileSizeBytes`, kept when there is a single tile.  The constants are
`MAX_TILE_WIDTH = 4096`, `MAX_TILE_AREA = 4096 * 2304`, `MAX_TILE_COLS = MAX_TILE_ROWS = 64`
(internal/shared/constants.go:268-271). -/
def newTileInfo (use128 : Bool) (miCols miRows oldTileSizeBytes : Nat) : BM Tiles := do
  let sbCols := tileSbCols use128 miCols miRows
  let sbRows := tileSbRows miRows
  let shift := tileSbShift use128
  let sbSize := shift + 2
  let maxTileWidthSb := 4096 >>> sbSize
  let maxTileAreaSb := (4096 * 2304) >>> (2 * sbSize)
  let minLog2TileCols ← BM.lift (tileLog2 maxTileWidthSb sbCols)
  let maxLog2TileCols ← BM.lift (tileLog2 1 (min sbCols 64 : Nat))
  let maxLog2TileRows ← BM.lift (tileLog2 1 (min sbRows 64 : Nat))
  let areaLog2 ← BM.lift (tileLog2 maxTileAreaSb (sbRows * sbCols : Nat))
  let minLog2Tiles := max minLog2TileCols areaLog2
  let uniform ← flag
  let (cols, i, colsLog2, rows, j, rowsLog2) ←
    (if uniform then uniformTiles shift sbCols sbRows minLog2TileCols maxLog2TileCols
        maxLog2TileRows minLog2Tiles miCols miRows
     else explicitTiles shift sbCols sbRows maxTileWidthSb minLog2Tiles miCols miRows)
  if colsLog2 > 0 ∨ rowsLog2 > 0 then do
    let id ← F (rowsLog2 + colsLog2)
    let b ← F 2
    pure ⟨cols, rows, i, j, colsLog2, rowsLog2, b + 1, id⟩
  else pure ⟨cols, rows, i, j, colsLog2, rowsLog2, oldTileSizeBytes, 0⟩

end Gov1
