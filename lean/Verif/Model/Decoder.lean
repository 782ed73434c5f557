import Verif.Model.Block
import Verif.Model.Cdef
import Verif.Model.LoopFilter
import Verif.Model.FrameEnd
import Verif.Model.FrameHeader
import Verif.Model.Obu
/-!
# The whole decoder

The models of all files put together: the payload parsers of the model of internal/obu/obu.go and internal/parser/parser.go (Verif.Model.Obu) are
`NewUncompressedHeader` (Verif.Model.FrameHeader) and `NewTileGroup` (internal/tilegroup/tile_group.go:271-367), made of the models of a tile
(Verif.Model.Block), of the deblocking filter, of CDEF and of the end of a frame.
-/
namespace Gov1

/-! ## The state -/

/-- The fields of `state.State` that decoding blocks changes (internal/state/state.go). -/
structure StArr where
  /-- `CurrFrame, CdefFrame` -/
  curr : Planes := zeroPlanes 3 16 16
  cdef : Planes := zeroPlanes 3 16 16
  /-- `BlockDecoded`, by plane -/
  decoded : List (List (List Bool)) := List.replicate 3 (sqr 13 false)
  miSizes : List (List Nat) := sqr 64 0
  refFrames : List (List (Int × Int)) := sqr 64 (0, 0)
  deltaLFs : List (List (List Int)) := sqr 2 [0, 0, 0, 0]
  deltaLF : List Int := [0, 0, 0, 0]
  cdefIdx : CdefIdx := {}
  refFrame : Int × Int := (0, 0)
  readDeltas : Bool := false

/-- The package-level CDF tables (internal/uncompressedheader/cdf.go:345-13305).  The fields of the state and of the tile are slices that refer to them
(cdf.go:9-135, tile_group.go:480-579), so that decoding a tile changes them: there is one copy of the tables for all four quantizer classes (`common`) and one of
the coefficient tables for each class. -/
structure CdfMem where
  common : List (List Int)
  coef : Fin 4 → List (List Int)

/-- The number of rows of the tables that are not coefficient tables. -/
def commonRows (k : Fin 4) : Nat := (((cdfTabs k).takeWhile (fun t => t.name ≠ "DEFAULT_TXB_SKIP_CDF")).map (fun t => t.rows.length)).sum

/-- The tables a tile of quantizer class `k` sees. -/
def CdfMem.view (m : CdfMem) (k : Fin 4) : List (List Int) := m.common ++ m.coef k

/-- The tables after the tile. -/
def CdfMem.put (m : CdfMem) (k : Fin 4) (l : List (List Int)) : CdfMem :=
  { common := l.take m.common.length, coef := fun j => if j = k then l.drop m.common.length else m.coef j }

/-- The tables when the program starts. -/
def cdfStart : CdfMem := { common := (cdfStore 0).take (commonRows 0), coef := fun k => (cdfStore k).drop (commonRows k) }

/-- All that `state.State` and the package-level variables hold, but for `Gov1.State`. -/
structure DecR where
  fs : FrameState := {}
  arr : StArr := {}
  /-- `state.Ref*, state.Saved*` -/
  slots : List RefSlot := List.replicate 8 {}
  /-- `state.SavedYModeCdf` and so on are set, with coefficient tables of this class -/
  savedCdfs : Option Nat := none
  cdf : CdfMem := cdfStart

/-- `uncompressedheader.UncompressedHeader` with the field of `TileInfo` that is read later. -/
structure DecUH where
  hdr : UHeader := {}
  contextUpdateTileId : Nat := 0

/-- What is observable of a `tilegroup.TileGroup`. -/
structure DecTG where
  /-- `OutY, OutU, OutV` -/
  out : Planes := zeroPlanes 3 1 1
  /-- `FrameStore` -/
  store : List Planes := List.replicate 8 (zeroPlanes 3 16 16)
  /-- which tiles were decoded (`start` is 0) and whether that finished the frame (not fields of the Go struct) -/
  runs : List TileRun := []
  finished : Bool := false
  /-- `state.CurrFrame` when the tiles have been decoded (not a field of the Go struct) -/
  decoded : Planes := []
  /-- partitions and blocks (not a field of the Go struct) -/
  log : List Ev := []

/-! ## Headers as the functions of the tile group see them -/

/-- Go `util.Int(b)`. -/
def goInt (b : Bool) : Nat := if b then 1 else 0

/-- `uh.Segmentation*` with `state.FeatureEnabled, state.FeatureData`. -/
def segOf (uh : UHeader) (fs : FrameState) : SegParams := { uh.seg with featureEnabled := fs.featureEnabled, featureData := fs.featureData }

def miHdrOf (sh : SeqHeader) (uh : UHeader) (fs : FrameState) : MiHdr :=
  { use128 := sh.use128x128SuperBlock, chroma := decide (sh.colorConfig.numPlanes > 1), subX := goInt sh.colorConfig.subsamplingX,
    subY := goInt sh.colorConfig.subsamplingY, enableCdef := sh.enableCdef, enableFilterIntra := sh.enableFilterIntra, segEnabled := uh.seg.enabled,
    segIdPreSkip := uh.seg.idPreSkip, lastActiveSegId := uh.seg.lastActiveSegId, losslessArray := uh.losslessArray, featureEnabled := fs.featureEnabled,
    featureData := fs.featureData, codedLossless := uh.codedLossless, allowIntraBc := uh.allowIntraBc, allowScreen := uh.allowScreenContentTools != 0,
    deltaQRes := uh.delta.deltaQRes, deltaLfPresent := uh.delta.deltaLfPresent, deltaLfMulti := uh.delta.deltaLfMulti != 0, deltaLfRes := uh.delta.deltaLfRes,
    segUpdateMap := uh.seg.updateMap != 0, segTemporalUpdate := uh.seg.temporalUpdate == 1 }

def inHdrOf (sh : SeqHeader) (uh : UHeader) : InHdr :=
  { skipModePresent := uh.skipModePresent != 0, refSelect := uh.referenceSelect, motionSwitchable := uh.isMotionModeSwitchable, interpFilter := uh.interpolationFilter,
    dualFilter := sh.enableDualFilter, interIntra := sh.enableInterIntraCompound, masked := sh.enableMaskedCompound, jntComp := sh.enableJntComp }

/-- Headers and state as the decoding of the tile `run` sees them.  `t.FrameStore` and `t.InterpFilters` are zero when a tile is decoded (tile_group.go:272). -/
def frHdrOf (sh : SeqHeader) (uh : UHeader) (fs : FrameState) (slots : List RefSlot) (run : TileRun) : FrHdr :=
  { mi := miHdrOf sh uh fs, ih := inHdrOf sh uh, tile := ⟨run.rowStart, run.rowEnd, run.colStart, run.colEnd⟩, intraFrame := uh.frameIsIntra, miRows := fs.miRows,
    miCols := fs.miCols, txSelect := uh.txMode == 2, bitDepth := sh.colorConfig.bitDepth, edgeFilter := sh.enableIntraEdgeFilter, reducedTxSet := uh.reducedTxSet,
    seg := segOf uh fs, q := uh.quant, deltaQPresent := uh.delta.deltaQPresent, segQMLevel := List.replicate 3 uh.segQMLevel, prevSegIds := fs.prevSegmentIds,
    mv :=
      { hdr := ⟨uh.forceIntegerMv, uh.allowHighPrecisionMv⟩, gmType := fs.gmType.map Int.ofNat, gmParams := uh.gmParams, signBias := uh.refFrameSignBias,
        useRefFrameMvs := uh.useRefFrameMvs },
    inter :=
      { frameWidth := uh.size.frameWidth, frameHeight := uh.size.frameHeight, refFrameIdx := uh.refFrameIdx, refUpscaledWidth := slots.map (·.upscaledWidth.toNat),
        refFrameHeight := slots.map (·.frameHeight.toNat), frameStore := List.replicate 8 (zeroPlanes 3 16 16), interpFilters := sqr 2 (0, 0),
        forceIntegerMv := uh.forceIntegerMv, gmType := fs.gmType.map Int.ofNat, gmParams := uh.gmParams, localWarpParams := List.replicate 6 0,
        orderHints := uh.orderHints.map Int.ofNat } }

def wrapCtxOf (sh : SeqHeader) (uh : UHeader) (fs : FrameState) : WrapCtx :=
  { frameWidth := uh.size.frameWidth, upscaledWidth := uh.size.upscaledWidth, frameHeight := uh.size.frameHeight, subX := goInt sh.colorConfig.subsamplingX,
    subY := goInt sh.colorConfig.subsamplingY, numPlanes := sh.colorConfig.numPlanes, bitDepth := sh.colorConfig.bitDepth, miCols := fs.miCols, miRows := fs.miRows }

def lrHdrOf (sh : SeqHeader) (uh : UHeader) (fs : FrameState) : LrHdr :=
  { wrap := wrapCtxOf sh uh fs, denom := if uh.size.useSuperRes then some uh.size.superResDenom else none, numPlanes := sh.colorConfig.numPlanes,
    allowIntraBc := uh.allowIntraBc, types := uh.lr.types.map Int.ofNat, sizes := fs.loopRestorationSize }

def lfCtxOf (sh : SeqHeader) (uh : UHeader) (fs : FrameState) (b : BlkSt) : LfCtx :=
  { frameWidth := uh.size.frameWidth, frameHeight := uh.size.frameHeight, miRows := fs.miRows, miCols := fs.miCols, numPlanes := sh.colorConfig.numPlanes,
    subX := goInt sh.colorConfig.subsamplingX, subY := goInt sh.colorConfig.subsamplingY, bitDepth := sh.colorConfig.bitDepth, lf := uh.loopFilter,
    deltaLfMulti := uh.delta.deltaLfMulti, seg := segOf uh fs, miSizes := b.recs.miSizes, txSizes := b.tb.marks.map (·.lfTx),
    skips := b.recs.skips.map (fun l => l.map Int.toNat), refFrames := b.modes.refFrames.map (fun l => l.map (·.1)), segmentIds := b.recs.segIds,
    yModes := b.modes.yModes, deltaLFs := b.recs.deltaLFs }

def cdefCtxOf (sh : SeqHeader) (uh : UHeader) (fs : FrameState) (b : BlkSt) (cur : Planes) : CdefCtx :=
  { miRows := fs.miRows, miCols := fs.miCols, numPlanes := sh.colorConfig.numPlanes, subX := goInt sh.colorConfig.subsamplingX,
    subY := goInt sh.colorConfig.subsamplingY, bitDepth := sh.colorConfig.bitDepth, yPri := uh.cdef.yPri.map Int.ofNat, ySec := uh.cdef.ySec.map Int.ofNat,
    uvPri := uh.cdef.uvPri.map Int.ofNat, uvSec := uh.cdef.uvSec.map Int.ofNat, damping := uh.cdef.damping, skips := b.recs.skips.map (fun l => l.map Int.toNat),
    cdefIdx := b.info.base.cdefIdx.elems.map (·.elems), cur := cur }

/-- `cdef` and `cur` are replaced by the upscaled pictures. -/
def lrCtxOf (sh : SeqHeader) (uh : UHeader) (fs : FrameState) (p : LrUnitParams) : LrCtx :=
  { wrapCtxOf sh uh fs with
    usesLr := uh.lr.usesLr, frameType := uh.lr.types.map Int.ofNat, unitSize := fs.loopRestorationSize, lrType := p.lrType, sgrSet := p.sgrSet, xqd := p.xqd }

/-- `state.MfRefFrames` and `state.MfMvs` are never written.  `lr` and `segIds` are replaced. -/
def curFrameOf (sh : SeqHeader) (uh : UHeader) (fs : FrameState) (b : BlkSt) : CurFrame :=
  { wrapCtxOf sh uh fs with
    refresh := uh.refreshFrameFlags, renderWidth := uh.renderWidth, renderHeight := uh.renderHeight, frameType := uh.frameType, orderHint := uh.orderHint,
    orderHints := uh.orderHints.map Int.ofNat, gm := uh.gmParams, segIds := b.recs.segIds }

/-! ## A tile group -/

/-- tile_group.go:271-275: a zero `TileGroup` with the arrays of the state. -/
def groupStart (a : StArr) : BlkSt :=
  { info := { base := { cdefIdx := a.cdefIdx, deltaLF := a.deltaLF, refFrame := a.refFrame } },
    modes := { yModes := sqr 64 0, uvModes := sqr 2 0, refFrames := a.refFrames, mvs := sqr 64 ((0, 0), (0, 0)) },
    recs :=
      { segIds := sqr 64 0, isInters := sqr 2 0, skipModes := sqr 2 0, skips := sqr 2 0, txSizes := sqr 2 0, miSizes := a.miSizes, palY := sqr 2 0, palUV := sqr 2 0,
        deltaLFs := a.deltaLFs },
    interTx := sqr 64 0,
    tb :=
      { frames := a.curr, marks := a.decoded.map (fun d => ⟨sqr 2 0, d⟩),
        coef := { quant := List.replicate 4096 0, dequant := sqr 64 0, txTypes := sqr 2 0 } },
    readDeltas := a.readDeltas }

/-- The arrays of the state after the tiles. -/
def arrOf (cdef : Planes) (b : BlkSt) : StArr :=
  { curr := b.tb.frames, cdef := cdef, decoded := b.tb.marks.map (·.decoded), miSizes := b.recs.miSizes, refFrames := b.modes.refFrames, deltaLFs := b.recs.deltaLFs,
    deltaLF := b.info.base.deltaLF, cdefIdx := b.info.base.cdefIdx, refFrame := b.info.base.refFrame, readDeltas := b.readDeltas }

/-- tile_group.go:318: `CurrentQIndex` at the start of a tile. -/
def setCurQ (q : Nat) (x : TileSt × List Ev) : TileSt × List Ev :=
  ({ x.1 with blk := { x.1.blk with info := { x.1.blk.info with base := { x.1.blk.info.base with curQ := q } } } }, x.2)

/-- The quantizer class of the coefficient tables `state.TxbSkipCdf` and so on refer to, if they have been set. -/
def cdfClass (fs : FrameState) : Option (Fin 4) :=
  match fs.coeffCdfs with
  | none => none
  | some n => some (Fin.ofNat 4 n)

/-- tile_group.go:318-320: one tile.  Simplification: if the tables have not been set (nil slices), the fault of the first symbol is raised at once. -/
def groupTile (grow : Nat → Nat) (fuel : Nat) (sh : SeqHeader) (uh : UHeader) (r : DecR) (run : TileRun) (x : TileSt × List Ev) (st : Sym) : BM (Sym × (TileSt × List Ev)) :=
  match cdfClass r.fs with
  | none => BM.fail .index
  | some k => realTile grow k uh.disableCdfUpdate fuel (frHdrOf sh uh r.fs r.slots run) (lrHdrOf sh uh r.fs) run (setCurQ uh.quant.baseQIdx x) st

/-- The tables the tiles of the group see; without tables there are no tiles. -/
def groupCdfs (r : DecR) : List (List Int) :=
  match cdfClass r.fs with
  | none => []
  | some k => r.cdf.view k

/-- The tables after the tiles. -/
def putCdfs (r : DecR) (l : List (List Int)) : CdfMem :=
  match cdfClass r.fs with
  | none => r.cdf
  | some k => r.cdf.put k l

/-- tile_group.go:590-688 in `exitSymbol`: after the tile `ContextUpdateTileId` the tables in use become the saved ones (references, like all tables). -/
def savedAfter (uh : DecUH) (r : DecR) (runs : List TileRun) : Option Nat :=
  if !uh.hdr.disableFrameEndUpdateCdf && runs.any (fun run => run.num == uh.contextUpdateTileId) then r.fs.coeffCdfs else r.savedCdfs

/-- tile_group.go:341-343. -/
def deblock (sh : SeqHeader) (uh : UHeader) (fs : FrameState) (b : BlkSt) : Res Planes := do
  let l0 ← goGet uh.loopFilter.level 0
  let l1 ← goGet uh.loopFilter.level 1
  if l0 ≠ 0 ∨ l1 ≠ 0 then loopFilter (lfCtxOf sh uh fs b) b.tb.frames else pure b.tb.frames

/-- tile_group.go:351: segment ids of the frame before, if the map is not updated. -/
def keptIds (uh : UHeader) (fs : FrameState) : Option (List (List Int)) := if uh.seg.enabled && uh.seg.updateMap == 0 then some fs.prevSegmentIds else none

/-- tile_group.go:338-367 `decodeFrameWrapup`: the pictures after deblocking and CDEF, the references, the output.  The fields `ShowExistingFrame` is never set. -/
def wrapup (opIdc : Nat) (sh : SeqHeader) (uh : UHeader) (fs : FrameState) (slots : List RefSlot) (cdef : Planes) (x : TileSt) (out : Planes) :
    Res (Planes × Planes × (RefMem Unit × Planes)) := do
  let cur ← deblock sh uh fs x.blk
  let cdef ← cdefProcess (cdefCtxOf sh uh fs x.blk cur) cdef
  let y ← frameEnd (lrCtxOf sh uh fs x.lr) (curFrameOf sh uh fs x.blk)
    { cdefFrame := cdef, curFrame := cur, prevSegIds := keptIds uh fs, shown := uh.showFrame, opIdc := opIdc, grain := sh.filmGrainParamsPresent && uh.filmGrain.applyGrain }
    () (newTileGroupStore { slots := slots, store := [], cdfs := List.replicate 8 () }) out
  pure (cur, cdef, y)

/-- The fields of the references that the frame header reads. -/
def syncRefs (fs : FrameState) (slots : List RefSlot) : FrameState :=
  { fs with refValid := slots.map (·.valid.toNat), refFrameType := slots.map (·.frameType.toNat), refOrderHint := slots.map (·.orderHint.toNat) }

/-- `state.CurrentQIndex` after the tiles. -/
def curQAfter (r : DecR) (runs : List TileRun) (b : BlkSt) : Int := if runs.isEmpty then r.fs.currentQIndex else b.info.base.curQ

/-- The state after the tiles, before the end of the frame. -/
def groupMid (uh : DecUH) (r : DecR) (runs : List TileRun) (x : TileSt) : DecR :=
  { r with fs := { r.fs with currentQIndex := curQAfter r runs x.blk }, arr := arrOf r.arr.cdef x.blk, savedCdfs := savedAfter uh r runs, cdf := putCdfs r x.cdfs }

/-- A tile without its place in the stream. -/
def TileRun.noStart (run : TileRun) : TileRun := { run with start := 0 }

/-- tile_group.go:328-334: the end of a frame (328-330 `frameEndUpdateCdf`: the saved tables become the current ones). -/
def groupEnd (sh : SeqHeader) (uh : DecUH) (s : State) (r : DecR) (runs : List TileRun) (x : TileSt) (log : List Ev) : Res (DecTG × (State × DecR)) := do
  let y ← wrapup s.operatingPointIdc sh uh.hdr r.fs r.slots r.arr.cdef x (zeroPlanes 3 1 1)
  let fs := syncRefs { r.fs with coeffCdfs := if uh.hdr.disableFrameEndUpdateCdf then r.fs.coeffCdfs else r.savedCdfs } y.2.2.1.slots
  pure ({ out := y.2.2.2, store := y.2.2.1.store, runs := runs.map TileRun.noStart, finished := true, decoded := x.blk.tb.frames, log := log },
    ({ s with seenFrameHeader := false }, { r with fs := fs, arr := { r.arr with curr := y.1, cdef := y.2.1 }, slots := y.2.2.1.slots }))

/-- `state.TileNum` after the loop of the tiles (nothing reads it: the loop and the next frame header assign it). -/
def tileNumAfter (s : State) (runs : List TileRun) : State :=
  match runs.getLast? with
  | none => s
  | some run => { s with tileNum := run.num + 1 }

/-- tile_group.go:271-335 `NewTileGroup`. -/
def decodeGroup (grow : Nat → Nat) (fuel : Nat) (sz : Int) (sr : State × DecR) (uh : DecUH) (sh : SeqHeader) : BM (DecTG × (State × DecR)) := do
  let x0 : TileSt := { cdfs := groupCdfs sr.2, blk := groupStart sr.2.arr, lr := { refXqd := List.replicate 3 [0, 0] } }
  let (runs, (x, log), finished) ← tileGroup (groupTile grow fuel sh uh.hdr sr.2) sr.2.fs.tiles sz (x0, [])
  let r := groupMid uh sr.2 runs x
  let s := tileNumAfter sr.1 runs
  if finished then BM.lift (groupEnd sh uh s r runs x log)
  else pure ({ runs := runs.map TileRun.noStart, decoded := x.blk.tb.frames, log := log }, (s, r))

/-! ## The decoder -/

/-- internal/uncompressedheader/uncompressed_header.go:143-148. -/
def decodeHeader (h : Header) (sh : SeqHeader) (sr : State × DecR) : BM (DecUH × (State × DecR)) := do
  let (uh, fs) ← newUncompressedHeader h sh sr.2.fs
  pure (⟨uh, fs.tiles.contextUpdateTileId⟩, (sr.1, { sr.2 with fs := fs }))

/-- The payload parsers of the program.  `grow` is how Go grows slices, `fuel` bounds the loops of the tile data that need not end (see `C93_stall`). -/
def decoder (grow : Nat → Nat) (fuel : Nat) : Codec where
  UH := DecUH
  TG := DecTG
  R := DecR
  zeroUH := {}
  zeroTG := {}
  startR := {}
  newR r := { cdf := r.cdf }
  parseUH := decodeHeader
  showExisting u := u.hdr.showExistingFrame
  tileGroup := decodeGroup grow fuel

end Gov1
