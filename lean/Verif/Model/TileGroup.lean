import Verif.Model.Symbol
import Verif.Model.TileInfo
/-!
# Model of the tile loop: internal/tilegroup/tile_group.go, `build`, `decodeTile`,
`clearAboveContext`, `clearLeftContext`, `clearBlockDecodedFlags`

Go `int` is `Int` (or `Nat` where the code cannot make it negative).  What a tile's blocks decode to is
a parameter: `σ` is all the remaining decoder state, and `body` decodes one tile.
-/
namespace Gov1

/-- What `build` (tile_group.go:307-328) sets up for one tile: its number, its size in bytes, its
bounds in 4x4 units.  `start` is the stream position at which its data starts (ghost, not a field of
the Go state). -/
structure TileRun where
  num : Nat
  size : Int
  rowStart : Nat
  rowEnd : Nat
  colStart : Nat
  colEnd : Nat
  start : Nat
  deriving DecidableEq, Repr

/-- Loop of internal/tilegroup/tile_group.go:307-331.  `k` iterations are left
(`tgEnd + 1 - TileNum`), `num` is `TileNum`, `sz` the number of bytes left.  Returns the tiles decoded,
in order.  (`CurrentQIndex`, line 327, belongs to `σ`.) -/
def tileLoop {σ : Type} (body : TileRun → σ → Sym → BM (Sym × σ)) (t : Tiles) (tgEnd : Int) :
    Nat → Nat → Int → σ → BM (List TileRun × σ)
  | 0, _, _, x => pure ([], x)
  | k + 1, num, sz, x => do
    if t.tileCols = 0 then BM.fail .div else do
    let tileRow := num / t.tileCols
    let tileCol := num % t.tileCols
    let (tileSize, sz) ←
      (if (num : Int) = tgEnd then pure (sz, sz)
       else do
         let m1 ← le t.tileSizeBytes
         pure ((m1 : Int) + 1, sz - ((m1 : Int) + 1 + t.tileSizeBytes)))
    let r0 ← BM.lift (goGet t.miRowStarts tileRow)
    let r1 ← BM.lift (goGet t.miRowStarts (tileRow + 1))
    let c0 ← BM.lift (goGet t.miColStarts tileCol)
    let c1 ← BM.lift (goGet t.miColStarts (tileCol + 1))
    let p ← BM.getPos
    let run : TileRun := ⟨num, tileSize, r0, r1, c0, c1, p⟩
    let st ← initSymbol tileSize
    let (st, x) ← body run x st
    exitSymbol st
    let (runs, x) ← tileLoop body t tgEnd k (num + 1) sz x
    pure (run :: runs, x)

/-- internal/tilegroup/tile_group.go:284-301: which tiles the group contains. -/
def tileRange (t : Tiles) : BM (Nat × Int) := do
  let numTiles := t.tileCols * t.tileRows
  let present ← (if numTiles > 1 then flag else pure false)
  if numTiles = 1 ∨ present = false then pure (0, (numTiles : Int) - 1)
  else do
    let tgStart ← F (t.tileColsLog2 + t.tileRowsLog2)
    let tgEnd ← F (t.tileColsLog2 + t.tileRowsLog2)
    pure (tgStart, (tgEnd : Int))

/-- internal/tilegroup/tile_group.go:279-340 `build(sz)`.  The result says which tiles were decoded and
whether the frame is finished (line 333: `tgEnd == NumTiles-1`), in which case the caller of this model
runs the wrap-up (lines 334-338). -/
def tileGroup {σ : Type} (body : TileRun → σ → Sym → BM (Sym × σ)) (t : Tiles) (sz : Int) (x : σ) :
    BM (List TileRun × σ × Bool) := do
  let p0 ← BM.getPos
  let (tgStart, tgEnd) ← tileRange t
  byteAlignment
  let p1 ← BM.getPos
  let sz := sz - ((p1 - p0) / 8 : Nat)
  let (runs, x) ← tileLoop body t tgEnd (tgEnd + 1 - tgStart).toNat tgStart sz x
  pure (runs, x, decide (tgEnd = (t.tileCols * t.tileRows : Nat) - 1))

/-- internal/tilegroup/tile_group.go:692-709 `clearAboveContext`, the values left in
`AboveLevelContext[0]`, `AboveDcContext[0]` (the other planes are the same) and `AboveSegPredContext`.
Line 695 makes `AboveSegPredContext` three entries long; line 706 writes entry `i` for each of the
`miCols` columns. -/
def clearContext : Nat → Nat → List Nat → List Nat → Res (List Nat × List Nat)
  | 0, _, level, seg => .ok (level, seg)
  | k + 1, i, level, seg => do
    let level ← goSet level i 0
    let seg ← goSet seg i 0
    clearContext k (i + 1) level seg

/-- `clearAboveContext` (tile_group.go:692-709) for a frame of `n = MiCols` columns and
`clearLeftContext` (tile_group.go:712-729) for a frame of `n = MiRows` rows: the same code. -/
def clearContexts (n : Nat) : Res (List Nat × List Nat) :=
  clearContext n 0 (List.replicate n 0) (List.replicate 3 0)

/-- Inner loop of internal/tilegroup/tile_group.go:759-766 over the columns of a superblock row:
`fuel` bounds the iterations. -/
def sbCols {σ : Type} (sb : Nat → Nat → σ → Sym → BM (Sym × σ)) (sb4 colEnd r : Nat) :
    Nat → Nat → σ → Sym → BM (Sym × σ)
  | fuel, c, x, st =>
    if c < colEnd then
      match fuel with
      | 0 => BM.fail .hang
      | fuel + 1 => do
        let (st, x) ← sb r c x st
        sbCols sb sb4 colEnd r fuel (c + sb4) x st
    else pure (st, x)

/-- Outer loop of internal/tilegroup/tile_group.go:756-767 over the superblock rows. -/
def sbRows {σ : Type} (sb : Nat → Nat → σ → Sym → BM (Sym × σ)) (miRows sb4 colStart colEnd rowEnd : Nat) :
    Nat → Nat → σ → Sym → BM (Sym × σ)
  | fuel, r, x, st =>
    if r < rowEnd then
      match fuel with
      | 0 => BM.fail .hang
      | fuel + 1 => do
        let _ ← BM.lift (clearContexts miRows)
        let (st, x) ← sbCols sb sb4 colEnd r (colEnd - colStart) colStart x st
        sbRows sb miRows sb4 colStart colEnd rowEnd fuel (r + sb4) x st
    else pure (st, x)

/-- internal/tilegroup/tile_group.go:732-768 `decodeTile`.  `reset` is lines 735-750 (delta LF and loop
restoration references), `sb r c` the decoding of the superblock at `(r, c)` (lines 760-765); both act on
the remaining state.  `NUM_4X4_BLOCKS_WIDE` of a 64x64 block is 16, of a 128x128 block 32
(internal/shared/constants.go). -/
def decodeTile {σ : Type} (use128 : Bool) (miCols miRows : Nat) (reset : σ → σ)
    (sb : Nat → Nat → σ → Sym → BM (Sym × σ)) (run : TileRun) (x : σ) (st : Sym) : BM (Sym × σ) := do
  let _ ← BM.lift (clearContexts miCols)
  let sb4 := if use128 then 32 else 16
  sbRows sb miRows sb4 run.colStart run.colEnd run.rowEnd (run.rowEnd - run.rowStart) run.rowStart
    (reset x) st

/-- Go write `m[i][j] = v` of a two-dimensional array. -/
def goSet2 {α : Type} (m : List (List α)) (i j : Int) (v : α) : Res (List (List α)) := do
  let row ← goGet m i
  let row ← goSet row j v
  goSet m i row

/-- Inner loop of internal/tilegroup/tile_group.go:787-803.  The body assigns to the loop variables:
line 789 turns a negative `y` into `len + y`, line 793 does the same for `x`; the new `y` is also the
outer loop's.  Returns the outer `y` and the flags. -/
def flagCols (xMax : Int) (sbW sbH : Int) : Nat → Int → Int → List (List Bool) → Res (Int × List (List Bool))
  | fuel, y, x, m =>
    if x ≤ xMax then
      match fuel with
      | 0 => .error .hang
      | fuel + 1 => do
        let y := if y < 0 then m.length + y else y
        let row ← goGet m y
        let x := if x < 0 then row.length + x else x
        let v := decide ((y < 0 ∧ x < sbW) ∨ (x < 0 ∧ y < sbH))
        let m ← goSet2 m y x v
        flagCols xMax sbW sbH fuel y (x + 1) m
    else .ok (y, m)

/-- Outer loop of internal/tilegroup/tile_group.go:786-804. -/
def flagRows (yMax xMax : Int) (sbW sbH : Int) : Nat → Int → List (List Bool) → Res (List (List Bool))
  | fuel, y, m =>
    if y ≤ yMax then
      match fuel with
      | 0 => .error .hang
      | fuel + 1 => do
        let (y, m) ← flagCols xMax sbW sbH (xMax + 2).toNat y (-1) m
        flagRows yMax xMax sbW sbH fuel (y + 1) m
    else .ok m

/-- internal/tilegroup/tile_group.go:783-806: one plane of `clearBlockDecodedFlags(r, c, sbSize4)`, with
`sbW = (MiColEnd - c) >> subX`, `sbH = (MiRowEnd - r) >> subY`. -/
def clearFlagsPlane (sbSize4 subX subY : Nat) (sbW sbH : Int) (m : List (List Bool)) :
    Res (List (List Bool)) := do
  let yMax : Int := (sbSize4 >>> subY : Nat)
  let xMax : Int := (sbSize4 >>> subX : Nat)
  let m ← flagRows yMax xMax sbW sbH (yMax + 2).toNat (-1) m
  let row ← goGet m yMax
  goSet2 m yMax ((row.length : Int) - 1) false

/-- The `sbSize4` argument of the only call (tile_group.go:762): the block size *number* `sbSize`
(`BLOCK_64X64 = 12`, `BLOCK_128X128 = 15`), not the size in 4x4 units. -/
def sbSizeArg (use128 : Bool) : Nat := if use128 then 15 else 12

end Gov1
