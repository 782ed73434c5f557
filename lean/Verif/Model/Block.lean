import Verif.Model.TxBlock
import Verif.Model.InterInfo
import Verif.Model.Inter
import Verif.Model.LoopRestoration
import Verif.Model.CdfLayout
/-!
# A block, a superblock and a tile

internal/tilegroup/decode_block.go `decodeBlock` with everything it calls, the reading of partitions (decode_partition.go) and what is done before the partition tree of a superblock
(tile_group.go:760-763): the parameters of `decodePartition` and `decodeTile` (Verif.Model.Partition, Verif.Model.TileGroup), made of the models of the other files.
-/
namespace Gov1

/-- An array of `n` by `n` cells. -/
def sqr {α : Type} (n : Nat) (v : α) : List (List α) := List.replicate n (List.replicate n v)

/-- What the decoding of a tile reads of the headers and of earlier frames. -/
structure FrHdr where
  mi : MiHdr := {}
  ih : InHdr := {}
  tile : TileBox := {}
  /-- `uh.FrameIsIntra` -/
  intraFrame : Bool := true
  /-- `state.MiRows, state.MiCols` -/
  miRows : Nat := 0
  miCols : Nat := 0
  /-- `uh.TxMode == TX_MODE_SELECT` -/
  txSelect : Bool := false
  bitDepth : Nat := 8
  /-- `sh.EnableIntraEdgeFilter, uh.ReducedTxSet` -/
  edgeFilter : Bool := false
  reducedTxSet : Bool := false
  seg : SegParams := {}
  q : QuantParams := {}
  /-- `uh.DeltaQPresent` -/
  deltaQPresent : Bool := false
  segQMLevel : List (List Nat) := []
  /-- `state.PrevSegmentIds` -/
  prevSegIds : List (List Int) := []
  /-- motion vector search: header flags, global motion, sign biases; the other fields are replaced -/
  mv : MvEnv := {}
  /-- inter prediction: references and their sizes, `t.InterpFilters` (never written), global motion; the other fields are replaced -/
  inter : InterCtx := {}

/-- What a block reads and writes. -/
structure BlkSt where
  info : InterInfo := {}
  modes : ModeRec := {}
  recs : BlkRec := {}
  /-- `t.InterTxSizes, t.TxSize` -/
  interTx : List (List Nat) := []
  txSize : Nat := 0
  tb : TbSt
  /-- `state.ReadDeltas` -/
  readDeltas : Bool := false

/-- The block as mode info sees it. -/
def miBlkOf (r c size : Nat) (a : Avail) : MiBlk := { miRow := r, miCol := c, miSize := size, availU := a.u, availL := a.l, hasChroma := a.hasChroma }

/-- The arrays as mode info sees them. -/
def miArrOf (s : BlkSt) : MiArr := { segIds := s.recs.segIds, skipModes := s.recs.skipModes, yModes := s.modes.yModes, palSizes := s.recs.palY }

/-- What the motion vector search reads. -/
def mvEnvOf (h : FrHdr) (r c size : Nat) (s : BlkSt) : MvEnv :=
  { h.mv with
    tile := h.tile, miRow := r, miCol := c, miSize := size, miRows := h.miRows, miCols := h.miCols, refFrame := s.info.base.refFrame, miSizes := s.recs.miSizes,
    refFrames := s.modes.refFrames, isInters := s.recs.isInters, yModes := s.modes.yModes, mvs := s.modes.mvs }

/-- decode_block.go:109-115 `modeInfo`.  In an intra frame `SkipMode` becomes 0 (intra_frame_mode_info.go:21). -/
def modeInfo (h : FrHdr) (b : MiBlk) (s : BlkSt) : Rd InterInfo :=
  if h.intraFrame then do
    let m ← intraFrameModeInfo h.mi b (miArrOf s) s.readDeltas s.info.base
    pure { s.info with base := m, skipMode := 0 }
  else interFrameModeInfo h.mi h.ih b (miArrOf s) (mvEnvOf h b.miRow b.miCol b.miSize s) h.prevSegIds s.readDeltas s.info

/-- What the reading of transform sizes reads. -/
def txCtxOf (h : FrHdr) (b : MiBlk) (i : InterInfo) (s : BlkSt) : TxCtx :=
  { miRow := b.miRow, miCol := b.miCol, miSize := b.miSize, miRows := h.miRows, miCols := h.miCols, availU := b.availU, availL := b.availL,
    isInter := i.base.isInter != 0, skip := i.base.skip != 0, lossless := i.base.lossless, txSelect := h.txSelect, isInters := s.recs.isInters, skips := s.recs.skips,
    miSizes := s.recs.miSizes }

/-- What prediction and residual read of the frame and the block. -/
def intraCtxOf (h : FrHdr) (b : MiBlk) (a : Avail) (i : InterInfo) (m : ModeRec) : IntraCtx :=
  { miRow := b.miRow, miCol := b.miCol, miRows := h.miRows, miCols := h.miCols, subX := h.mi.subX, subY := h.mi.subY, bitDepth := h.bitDepth, edgeFilter := h.edgeFilter,
    useFilter := false, angleY := i.base.angleY, angleUV := i.base.angleUV, availU := a.u, availL := a.l, availUChroma := a.uChroma, availLChroma := a.lChroma,
    yModes := m.yModes, uvModes := m.uvModes, refFrames := m.refFrames }

/-- What inter prediction reads. -/
def interCtxOf (h : FrHdr) (b : MiBlk) (i : InterInfo) (m : ModeRec) (miSizes : List (List Nat)) : InterCtx :=
  { h.inter with
    subX := h.mi.subX, subY := h.mi.subY, bitDepth := h.bitDepth, refFrames := m.refFrames, mvs := m.mvs, miSizes := miSizes, miRow := b.miRow, miCol := b.miCol,
    miRows := h.miRows, miCols := h.miCols, miSize := b.miSize, availU := b.availU, availL := b.availL, yMode := i.base.yMode, motionMode := i.motion,
    compoundType := i.compoundType, useIntrabc := false }

/-- What `computePrediction` reads.  `t.InterIntraMode` is never assigned (the reading of inter-intra modes panics). -/
def cpCtxOf (h : FrHdr) (b : MiBlk) (a : Avail) (i : InterInfo) (m : ModeRec) (miSizes : List (List Nat)) : CpCtx :=
  { inter := interCtxOf h b i m miSizes, intra := intraCtxOf h b a i m, hasChroma := b.hasChroma, use128 := h.mi.use128, isInter := i.base.isInter != 0,
    refFrame1 := i.base.refFrame.2, interIntraMode := 0 }

/-- What `residual` reads.  Palette sizes are 0 and `UseFilterIntra` is false whenever mode info returns (`paletteModeInfo`, `filterIntraModeInfo`); segment ids are not
negative. -/
def tbCtxOf (h : FrHdr) (b : MiBlk) (a : Avail) (i : InterInfo) (m : ModeRec) (txSize : Nat) (interTx : List (List Nat)) : TbCtx :=
  { res :=
      { miRow := b.miRow, miCol := b.miCol, miSize := b.miSize, miRows := h.miRows, miCols := h.miCols, hasChroma := b.hasChroma, lossless := i.base.lossless,
        isInter := i.base.isInter != 0, txSize := txSize, subX := h.mi.subX, subY := h.mi.subY, interTx := interTx },
    intra := intraCtxOf h b a i m,
    blk :=
      { miRows := h.miRows, miCols := h.miCols, miRow := b.miRow, miCol := b.miCol, miSize := b.miSize, subX := h.mi.subX, subY := h.mi.subY, isInter := i.base.isInter != 0,
        lossless := i.base.lossless, reducedTxSet := h.reducedTxSet, seg := h.seg, q := h.q, deltaQPresent := h.deltaQPresent, currentQIndex := i.base.curQ,
        segmentId := i.base.segmentId.toNat, yMode := i.base.yMode, uvMode := i.base.uvMode },
    recon :=
      { seg := h.seg, q := h.q, deltaQPresent := h.deltaQPresent, currentQIndex := i.base.curQ, segQMLevel := h.segQMLevel, bitDepth := h.bitDepth,
        segmentId := i.base.segmentId.toNat, lossless := i.base.lossless },
    use128 := h.mi.use128, skip := i.base.skip != 0, yMode := i.base.yMode, uvMode := i.base.uvMode, cflAlphaU := i.base.cflU, cflAlphaV := i.base.cflV }

/-- The context arrays of coefficients, as `resetBlockContext` sees them. -/
def levelCtxOf (c : CoefSt) : LevelCtx := ⟨c.aboveLevel, c.aboveDc, c.leftLevel, c.leftDc⟩
def withLevels (c : CoefSt) (l : LevelCtx) : CoefSt := { c with aboveLevel := l.aboveLevel, aboveDc := l.aboveDc, leftLevel := l.leftLevel, leftDc := l.leftDc }

/-- The values a block records (decode_block.go:87-103). -/
def blkValOf (size : Nat) (i : InterInfo) (txSize : Nat) : BlkVal :=
  { isInter := (i.base.isInter : Int), skipMode := (i.skipMode : Int), skip := (i.base.skip : Int), txSize := txSize, miSize := size, deltaLF := i.base.deltaLF }

/-- decode_block.go:45-105: all after the availability of the neighbours.  `paletteTokens` (line 46) does nothing, as both palette sizes are 0. -/
def decodeBody (fuel : Nat) (h : FrHdr) (b : MiBlk) (a : Avail) (bw4 bh4 : Nat) (s : BlkSt) : Rd BlkSt := do
  let i ← modeInfo h b s
  let t ← readBlockTxSize (txCtxOf h b i s) s.txSize s.interTx
  let l ← Rd.lift (resetIfSkip stateSkip h.mi b.hasChroma b.miRow b.miCol bw4 bh4 (levelCtxOf s.tb.coef))
  let m ← Rd.lift (storeModes b.miRow b.miCol bh4 bw4 b.hasChroma i.base.refFrame (i.base.yMode : Int) (i.base.uvMode : Int) i.mv s.modes)
  let p ← Rd.lift (computePrediction (cpCtxOf h b a i m s.recs.miSizes) { s.tb with coef := withLevels s.tb.coef l })
  let p ← residual fuel (tbCtxOf h b a i m t.1 t.2) p
  let recs ← Rd.lift (storeBlk b.miRow b.miCol bh4 bw4 (blkValOf b.miSize i t.1) s.recs)
  pure { info := i, modes := m, recs := recs, interTx := t.2, txSize := t.1, tb := p, readDeltas := false }

/-- decode_block.go:13-106 `decodeBlock`. -/
def decodeBlock (fuel : Nat) (h : FrHdr) (r c size : Nat) (s : BlkSt) : Rd BlkSt := do
  let bw4 ← Rd.lift (goGet num4x4Wide size)
  let bh4 ← Rd.lift (goGet num4x4High size)
  let a ← Rd.lift (blockAvail h.tile h.mi r c size)
  decodeBody fuel h (miBlkOf r c size a) a bw4 bh4 s

/-! ## Partitions -/

/-- decode_partition.go:196, 152, 111: `above`. -/
def partAbove (h : FrHdr) (bsl r c : Nat) (miSizes : List (List Nat)) : Res Bool :=
  if isInside h.tile ((r : Int) - 1) c then do
    let z ← gget miSizes ((r : Int) - 1) c
    let l ← goGet miWidthLog2 z
    pure (decide (l < bsl))
  else pure false

/-- decode_partition.go:197, 153, 112: `left`. -/
def partLeft (h : FrHdr) (bsl r c : Nat) (miSizes : List (List Nat)) : Res Bool :=
  if isInside h.tile r ((c : Int) - 1) then do
    let z ← gget miSizes r ((c : Int) - 1)
    let l ← goGet miHeightLog2 z
    pure (decide (l < bsl))
  else pure false

/-- decode_partition.go:194-198: the context. -/
def partCtx (h : FrHdr) (b r c : Nat) (miSizes : List (List Nat)) : Res (Nat × Nat) := do
  let bsl ← goGet miWidthLog2 b
  let a ← partAbove h bsl r c miSizes
  let l ← partLeft h bsl r c miSizes
  pure (bsl, (if l then 2 else 0) + (if a then 1 else 0))

/-- decode_partition.go:200-211: the table of a size. -/
def partTable (bsl : Nat) : String :=
  if bsl = 1 then "PartitionW8" else if bsl = 2 then "PartitionW16" else if bsl = 3 then "PartitionW32" else if bsl = 4 then "PartitionW64" else "PartitionW128"

/-- decode_partition.go:194-213 `partitionElement`. -/
def readPartition (h : FrHdr) (b r c : Nat) (miSizes : List (List Nat)) : Rd Nat := do
  let x ← Rd.lift (partCtx h b r c miSizes)
  Rd.read (partTable x.1) [(x.2 : Int)]

/-! ## The superblock -/

/-- What restoration syntax reads (read_loop_restoration.go:15-61). -/
structure LrHdr where
  wrap : WrapCtx := {}
  /-- `uh.SuperResDenom`, with super resolution -/
  denom : Option Nat := none
  numPlanes : Nat := 3
  allowIntraBc : Bool := false
  /-- `uh.FrameRestorationType, state.LoopRestorationSize` -/
  types : List Int := [0, 0, 0]
  sizes : List Nat := [0, 0, 0]

/-- read_loop_restoration.go:55-57: the units of a row. -/
def readLrCols (fuel : Nat) (ft : Int) (plane row : Nat) : Nat → Nat → LrUnitParams → Rd LrUnitParams
  | 0, _, p => Rd.ret p
  | n + 1, col, p => do
    let p ← readLrUnit fuel ft plane row col p
    readLrCols fuel ft plane row n (col + 1) p

/-- read_loop_restoration.go:54-58: the units. -/
def readLrRows (fuel : Nat) (ft : Int) (plane c0 cn : Nat) : Nat → Nat → LrUnitParams → Rd LrUnitParams
  | 0, _, p => Rd.ret p
  | n + 1, row, p => do
    let p ← readLrCols fuel ft plane row cn c0 p
    readLrRows fuel ft plane c0 cn n (row + 1) p

/-- read_loop_restoration.go:24-59: one plane; `RESTORE_NONE` is 0. -/
def readLrPlane (fuel : Nat) (h : LrHdr) (r c : Nat) (size : Nat × Nat) (plane : Nat) (p : LrUnitParams) : Rd LrUnitParams := do
  let ft ← Rd.lift (goGet h.types plane)
  if ft ≠ 0 then do
    let us ← Rd.lift (goGet h.sizes plane)
    let u ← Rd.lift (lrUnitRange h.wrap h.denom us r c size)
    readLrRows fuel ft plane u.2.1 (u.2.2 - u.2.1) (u.1.2 - u.1.1) u.1.1 p
  else Rd.ret p

/-- read_loop_restoration.go:23-60: the planes. -/
def readLrPlanes (fuel : Nat) (h : LrHdr) (r c : Nat) (size : Nat × Nat) : Nat → Nat → LrUnitParams → Rd LrUnitParams
  | 0, _, p => Rd.ret p
  | n + 1, plane, p => do
    let p ← readLrPlane fuel h r c size plane p
    readLrPlanes fuel h r c size n (plane + 1) p

/-- read_loop_restoration.go:15-61 `readLr`. -/
def readLr (fuel : Nat) (h : LrHdr) (r c bSize : Nat) (p : LrUnitParams) : Rd LrUnitParams :=
  if h.allowIntraBc then Rd.ret p
  else do
    let w ← Rd.lift (goGet num4x4Wide bSize)
    let ht ← Rd.lift (goGet num4x4High bSize)
    readLrPlanes fuel h r c (ht, w) h.numPlanes 0 p

/-- tile_group.go:770-806 `clearBlockDecodedFlags(r, c, sbSize, ...)`: all planes. -/
def clearFlags (h : FrHdr) (numPlanes sbSize r c : Nat) (marks : List TxMarks) : Res (List TxMarks) :=
  forN (fun plane ms => do
    let m ← goGet ms plane
    let sx := planeSub h.mi.subX plane
    let sy := planeSub h.mi.subY plane
    let d ← clearFlagsPlane sbSize sx sy (((h.tile.colEnd : Int) - c) >>> sx) (((h.tile.rowEnd : Int) - r) >>> sy) m.decoded
    goSet ms plane { m with decoded := d }) numPlanes 0 marks

/-- All that changes while a tile is decoded, but for the arithmetic decoder. -/
structure TileSt where
  cdfs : List (List Int)
  blk : BlkSt
  lr : LrUnitParams := {}

/-- Run a program on the tile data. -/
def execIn {α : Type} (L : Layout) (disable : Bool) (p : Rd α) (f : α → TileSt → TileSt) (x : Sym × TileSt) : BM (Sym × TileSt) := do
  let (a, cdfs, st) ← p.exec L disable x.2.cdfs x.1
  pure (st, f a { x.2 with cdfs := cdfs })

/-- `decodeBlock` on the tile data. -/
def blockOp (L : Layout) (disable : Bool) (fuel : Nat) (h : FrHdr) (r c size : Nat) (x : Sym × TileSt) : BM (Sym × TileSt) :=
  execIn L disable (decodeBlock fuel h r c size x.2.blk) (fun b y => { y with blk := b }) x

/-- `partitionElement` on the tile data. -/
def partOp (L : Layout) (disable : Bool) (h : FrHdr) (b r c : Nat) (x : Sym × TileSt) : BM (Nat × (Sym × TileSt)) := do
  let (p, cdfs, st) ← (readPartition h b r c x.2.blk.recs.miSizes).exec L disable x.2.cdfs x.1
  pure (p, (st, { x.2 with cdfs := cdfs }))

/-- decode_partition.go:110-130 and 151-174: the CDF of the partition, for the sums. -/
def partCdfOp (L : Layout) (h : FrHdr) (b r c : Nat) (x : Sym × TileSt) : Res (List Int) := do
  let y ← partCtx h b r c x.2.blk.recs.miSizes
  match L.slot (partTable y.1) [(y.2 : Int)] with
  | some i => goGet x.2.cdfs i
  | none => .error .index

/-- decode_partition.go:147 and 191: a symbol with a CDF made for the purpose. -/
def splitOp (disable : Bool) (cdf : List Int) (x : Sym × TileSt) : BM (Nat × (Sym × TileSt)) := do
  let (v, _, st) ← readSymbol disable cdf x.1
  pure (v, (st, x.2))

/-- The operations of `decodePartition`. -/
def tileOps (L : Layout) (disable : Bool) (fuel : Nat) (h : FrHdr) : PartOps (Sym × TileSt) where
  readPart := partOp L disable h
  partCdf := partCdfOp L h
  readSplit := splitOp disable
  block := blockOp L disable fuel h

/-- tile_group.go:712-729 `clearLeftContext`: fresh contexts of `MiRows` entries (its panics are those of `clearContexts`). -/
def clearLeft (miRows : Nat) (c : CoefSt) : CoefSt :=
  { c with leftLevel := List.replicate 3 (List.replicate miRows 0), leftDc := List.replicate 3 (List.replicate miRows 0) }

/-- tile_group.go:692-709 `clearAboveContext`: fresh contexts of `MiCols` entries. -/
def clearAbove (miCols : Nat) (c : CoefSt) : CoefSt :=
  { c with aboveLevel := List.replicate 3 (List.replicate miCols 0), aboveDc := List.replicate 3 (List.replicate miCols 0) }

/-- tile_group.go:757: the left contexts are cleared before the first superblock of a row. -/
def sbCoef (h : FrHdr) (c : Nat) (k : CoefSt) : CoefSt := if c = h.tile.colStart then clearLeft h.miRows k else k

/-- tile_group.go:757, 760-762: before the restoration syntax.  `grow` is how Go grows a slice; `state.CdefSize4` is 0. -/
def sbClear (grow : Nat → Nat) (h : FrHdr) (numPlanes r c : Nat) (s : BlkSt) : Res BlkSt := do
  let ci ← clearCdef grow r c h.mi.use128 0 s.info.base.cdefIdx
  let ms ← clearFlags h numPlanes (sbSizeArg h.mi.use128) r c s.tb.marks
  pure { s with
    readDeltas := h.deltaQPresent, info := { s.info with base := { s.info.base with cdefIdx := ci } },
    tb := { s.tb with marks := ms, coef := sbCoef h c s.tb.coef } }

/-- tile_group.go:757-763: what a superblock does before its partition tree. -/
def sbPre (grow : Nat → Nat) (L : Layout) (disable : Bool) (fuel : Nat) (h : FrHdr) (lh : LrHdr) (r c : Nat) (x : TileSt) (st : Sym) : BM (Sym × TileSt) := do
  let b ← BM.lift (sbClear grow h lh.numPlanes r c x.blk)
  execIn L disable (readLr fuel lh r c (sbSizeArg h.mi.use128) x.lr) (fun p y => { y with lr := p }) (st, { x with blk := b })

/-- tile_group.go:733-748: what is set at the start of a tile: the contexts above, the deltas of the loop filter and the references of the self guided filter (those of the
Wiener filter are read by code that panics). -/
def tileReset (h : FrHdr) (numPlanes : Nat) (x : TileSt) : TileSt :=
  { x with
    blk := { x.blk with
      info := { x.blk.info with base := { x.blk.info.base with deltaLF := [0, 0, 0, 0] } },
      tb := { x.blk.tb with coef := clearAbove h.miCols x.blk.tb.coef } },
    lr := { x.lr with refXqd := (List.replicate numPlanes [-32, 31]) ++ x.lr.refXqd.drop numPlanes } }

/-- `decodeTile` with all it calls, and the log of the partitions and blocks. -/
def realTile (grow : Nat → Nat) (k : Fin 4) (disable : Bool) (fuel : Nat) (h : FrHdr) (lh : LrHdr) (run : TileRun) (x : TileSt × List Ev) (st : Sym) : BM (Sym × (TileSt × List Ev)) :=
  tileEvents h.mi.use128 h.miCols h.miRows (tileReset h lh.numPlanes) (tileOps (cdfLayout k) disable fuel h) (sbPre grow (cdfLayout k) disable fuel h lh) run x st

end Gov1
