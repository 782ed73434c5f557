import Verif.Model.Rd
import Verif.Model.Scan
import Verif.Model.Grid
import Verif.Model.Partition
import Verif.Model.UncompressedHeader
/-!
# Model of the coefficient syntax, internal/tilegroup/coeffs.go:14-495 and 625-760

The functions read symbols (`Rd`).  What they read and never write is collected in `BlkCtx`, the arrays they
write in `CoefSt`.  Integers are unbounded: Go's 64-bit `int` differs only for a Golomb code longer than 62
bits.  The unbounded Golomb loop takes a fuel argument; running out of fuel is `Fault.hang`.
-/
namespace Gov1

/-- What the residual syntax reads of the decoder state: `state.MiRows`, `MiCols`, `MiRow`, `MiCol`,
`MiSize`; `sh.ColorConfig.SubsamplingX/Y` (0 or 1); `t.IsInter != 0`, `t.Lossless`; `uh.ReducedTxSet`, the
segmentation and quantization parameters; `t.SegmentId`, `t.UseFilterIntra`, `t.FilterIntraMode`, `t.YMode`,
`t.UVMode`. -/
structure BlkCtx where
  miRows : Nat := 0
  miCols : Nat := 0
  miRow : Nat := 0
  miCol : Nat := 0
  miSize : Nat := 0
  subX : Nat := 0
  subY : Nat := 0
  isInter : Bool := false
  lossless : Bool := false
  reducedTxSet : Bool := false
  seg : SegParams := {}
  q : QuantParams := {}
  deltaQPresent : Bool := false
  currentQIndex : Int := 0
  segmentId : Nat := 0
  useFilterIntra : Bool := false
  filterIntraMode : Int := 0
  yMode : Int := 0
  uvMode : Int := 0

/-- What the coefficient syntax writes: `t.Quant`, `t.Dequant`, `t.TxTypes`, `t.TxType`, `t.PlaneTxType`,
`t.AboveLevelContext`, `t.AboveDcContext`, `t.LeftLevelContext`, `t.LeftDcContext`. -/
structure CoefSt where
  quant : List Int := []
  dequant : List (List Int) := []
  txTypes : List (List Int) := []
  txType : Int := 0
  planeTxType : Int := 0
  aboveLevel : List (List Int) := []
  aboveDc : List (List Int) := []
  leftLevel : List (List Int) := []
  leftDc : List (List Int) := []

/-- internal/shared/constants.go:131-154 `Subsampled_Size` (`BLOCK_INVALID = 3`). -/
def subsampledSize : List (List (List Nat)) := [
  [[0, 0], [0, 0]], [[1, 0], [3, 0]], [[2, 3], [0, 0]], [[3, 2], [1, 0]], [[4, 3], [3, 1]], [[5, 3], [3, 2]],
  [[6, 5], [4, 3]], [[7, 6], [3, 4]], [[8, 3], [6, 5]], [[9, 8], [7, 6]], [[10, 9], [3, 7]], [[11, 3], [9, 8]],
  [[12, 11], [10, 9]], [[13, 12], [3, 10]], [[14, 3], [12, 11]], [[15, 14], [13, 12]], [[16, 1], [3, 1]],
  [[17, 3], [2, 2]], [[18, 4], [3, 16]], [[19, 3], [5, 17]], [[20, 7], [3, 18]], [[21, 3], [8, 19]]]

/-- internal/tilegroup/residual.go:330-340 and predict_inter.go:733-743 `getPlaneResidualSize`. -/
def getPlaneResidualSize (subX subY : Nat) (subsize : Nat) (plane : Nat) : Res Nat := do
  let r ← goGet subsampledSize subsize
  if plane > 0 then gget r subX subY else gget r 0 0

/-- internal/shared/constants.go:199-202 `BLOCK_WIDTH`. -/
def blockWidth : List Nat := [4, 4, 8, 8, 8, 16, 16, 16, 32, 32, 32, 64, 64, 64, 128, 128, 4, 16, 8, 32, 16, 64]
/-- internal/shared/constants.go:204-207 `BLOCK_HEIGHT`. -/
def blockHeight : List Nat := [4, 8, 4, 8, 16, 8, 16, 32, 16, 32, 64, 32, 64, 128, 64, 128, 16, 4, 32, 8, 64, 16]

/-- internal/tilegroup/coeffs.go:298-318 `ADJUSTED_TX_SIZE`. -/
def adjustedTxSize : List Nat := [0, 1, 2, 3, 3, 5, 6, 7, 8, 9, 10, 3, 3, 13, 14, 15, 16, 9, 10]
/-- internal/tilegroup/coeffs.go:324-334 `SIG_REF_DIFF_OFFSET`. -/
def sigRefDiffOffset : List (List (Int × Int)) := [
  [(0, 1), (1, 0), (1, 1), (0, 2), (2, 0)],
  [(0, 1), (1, 0), (0, 2), (0, 3), (0, 4)],
  [(0, 1), (1, 0), (2, 0), (3, 0), (4, 0)]]
/-- internal/tilegroup/coeffs.go:1462-1466 `COEFF_BASE_POS_CTX_OFFSET`. -/
def coeffBasePosCtxOffset : List Nat := [26, 31, 36]
/-- internal/tilegroup/coeffs.go:1468-1472 `MAG_REF_OFFSET_WITH_TX_CLASS`. -/
def magRefOffset : List (List (Int × Int)) := [
  [(0, 1), (1, 0), (1, 1)], [(0, 1), (1, 0), (0, 2)], [(0, 1), (1, 0), (2, 0)]]

/-- internal/tilegroup/coeffs.go:757-759 `FILTER_INTRA_MODE_TO_INTRA_DIR`. -/
def filterIntraModeToIntraDir : List Int := [0, 1, 2, 6, 0]

/-! ## Transform type -/

/-- internal/tilegroup/coeffs.go:626-655 `computeTxType`. -/
def computeTxType (c : BlkCtx) (txTypes : List (List Int)) (plane txSz : Nat) (blockX blockY : Int) : Res Int := do
  let up ← goGet txSizeSqrUp txSz
  if c.lossless || decide (up > 3) then pure 0
  else do
    let txSet ← getTxSet txSz c.isInter c.reducedTxSet
    if plane = 0 then gget txTypes blockY blockX
    else if c.isInter then do
      let x4 := maxI c.miCol (blockX <<< c.subX)
      let y4 := maxI c.miRow (blockY <<< c.subY)
      let txType ← gget txTypes y4 x4
      let ins ← isTxTypeInSet c.isInter txSet txType
      pure (if ins then txType else 0)
    else do
      let txType ← goGet modeToTxfm c.uvMode
      let ins ← isTxTypeInSet c.isInter txSet txType
      pure (if ins then txType else 0)

/-- internal/tilegroup/coeffs.go:740-755 `intraTxTypeSymbol`. -/
def intraTxTypeSymbol (c : BlkCtx) (set txSz : Nat) : Rd Nat := do
  let intraDir ← Rd.lift (if c.useFilterIntra then goGet filterIntraModeToIntraDir c.filterIntraMode else .ok c.yMode)
  let sqr ← Rd.lift (goGet txSizeSqr txSz)
  if set = 1 then Rd.read "IntraTxTypeSet1" [sqr, intraDir]
  else if set = 2 then Rd.read "IntraTxTypeSet2" [sqr, intraDir]
  else Rd.fail (.explicit "invalid set")

/-- internal/tilegroup/coeffs.go:702-722, the inter branch of `transformType`. -/
def interTxTypeSymbol (set txSz : Nat) : Rd Int := do
  let sqr ← Rd.lift (goGet txSizeSqr txSz)
  if set = 1 then do
    let s ← Rd.read "InterTxTypeSet1" [sqr]
    Rd.lift (goGet txTypeInterInvSet1 s)
  else if set = 2 then do
    let s ← Rd.read "InterTxTypeSet2" []
    Rd.lift (goGet txTypeInterInvSet2 s)
  else if set = 3 then do
    let s ← Rd.read "InterTxTypeSet3" [sqr]
    Rd.lift (goGet txTypeInterInvSet3 s)
  else Rd.lift (goGet txTypeInterInvSet3 0)

/-- internal/tilegroup/coeffs.go:723-729, the intra branch of `transformType`. -/
def intraTxType (c : BlkCtx) (set txSz : Nat) : Rd Int := do
  let s ← intraTxTypeSymbol c set txSz
  if set = 1 then Rd.lift (goGet txTypeIntraInvSet1 s) else Rd.lift (goGet txTypeIntraInvSet2 s)

/-- internal/tilegroup/coeffs.go:694-731, the value `t.TxType` read by `transformType`. -/
def readTxType (c : BlkCtx) (txSz : Nat) : Rd Int := do
  let set ← Rd.lift (getTxSet txSz c.isInter c.reducedTxSet)
  let qIndex ← Rd.lift (if c.seg.enabled then
      getQIndex c.seg.enabled c.seg.featureEnabled c.seg.featureData c.q.baseQIdx c.deltaQPresent c.currentQIndex 1
        c.segmentId
    else .ok (c.q.baseQIdx : Int))
  if set > 0 ∧ qIndex > 0 then
    if c.isInter then interTxTypeSymbol set txSz else intraTxType c set txSz
  else Rd.ret 0

/-- The loops of coeffs.go:49-53 and 734-738: `t.TxTypes[y4+j][x4+i] = v` for `i < w4`, `j < h4`. -/
def fillTxTypes (m : List (List Int)) (x4 y4 : Int) (w4 h4 : Nat) (v : Int) : Res (List (List Int)) :=
  forN (fun i m => forN (fun j m => gset m (y4 + j) (x4 + i) v) h4 0 m) w4 0 m

/-- internal/tilegroup/coeffs.go:694-739 `transformType`. -/
def transformType (c : BlkCtx) (st : CoefSt) (x4 y4 : Int) (txSz : Nat) : Rd CoefSt := do
  let ty ← readTxType c txSz
  let w ← Rd.lift (goGet txWidth txSz)
  let h ← Rd.lift (goGet txHeight txSz)
  let m ← Rd.lift (fillTxTypes st.txTypes x4 y4 (w >>> 2) (h >>> 2) ty)
  Rd.ret { st with txType := ty, txTypes := m }

/-! ## Contexts -/

/-- The loops of coeffs.go:443-452: the maximum of `ctx[p+k]` for `k < n` with `p+k < lim`. -/
def maxCtx (ctx : List Int) (p lim : Int) (n : Nat) : Res Int :=
  forN (fun k acc => if p + k < lim then do
      let v ← goGet ctx (p + k)
      pure (maxI acc v)
    else pure acc) n 0 0

/-- Go's `|` on the non-negative entries of the context arrays. -/
def orI (a b : Int) : Int := ((a.toNat ||| b.toNat : Nat) : Int)

/-- The loops of coeffs.go:473-485: the disjunction of `level[p+k] | dc[p+k]` for `k < n` with
`p+k < lim`. -/
def orCtx (level dc : List Int) (p lim : Int) (n : Nat) : Res Int :=
  forN (fun k acc => if p + k < lim then do
      let v ← goGet level (p + k)
      let u ← goGet dc (p + k)
      pure (orI (orI acc v) u)
    else pure acc) n 0 0

/-- coeffs.go:430-433 and 201-206: `state.MiCols`/`MiRows`, subsampled for chroma. -/
def planeLimit (mi sub plane : Nat) : Int := if plane > 0 then ((mi >>> sub : Nat) : Int) else (mi : Int)

/-- internal/tilegroup/coeffs.go:426-492, the context of `allZeroSymbol`. -/
def allZeroCtx (c : BlkCtx) (st : CoefSt) (plane txSz w4 h4 : Nat) (x4 y4 : Int) : Res Nat := do
  let maxX4 := planeLimit c.miCols c.subX plane
  let maxY4 := planeLimit c.miRows c.subY plane
  let w ← goGet txWidth txSz
  let h ← goGet txHeight txSz
  let bsize ← getPlaneResidualSize c.subX c.subY c.miSize plane
  let bw ← goGet blockWidth bsize
  let bh ← goGet blockHeight bsize
  let al ← goGet st.aboveLevel plane
  let ll ← goGet st.leftLevel plane
  if plane = 0 then do
    let top ← maxCtx al x4 maxX4 w4
    let left ← maxCtx ll y4 maxY4 h4
    let top := minI top 255
    let left := minI left 255
    if bw = w ∧ bh = h then pure 0
    else if top = 0 ∧ left = 0 then pure 1
    else if top = 0 ∨ left = 0 then pure (2 + if maxI top left > 3 then 1 else 0)
    else if maxI top left ≤ 3 then pure 4
    else if minI top left ≤ 3 then pure 5
    else pure 6
  else do
    let ad ← goGet st.aboveDc plane
    let ld ← goGet st.leftDc plane
    let above ← orCtx al ad x4 maxX4 w4
    let left ← orCtx ll ld y4 maxY4 h4
    let ctx := (if above ≠ 0 then 1 else 0) + (if left ≠ 0 then 1 else 0) + 7
    pure (if bw * bh > w * h then ctx + 3 else ctx)

/-- The loops of coeffs.go:209-230: the sum of the signs (1 counts -1, 2 counts +1) of `dc[p+k]`. -/
def dcSum (dc : List Int) (p lim : Int) (n : Nat) (acc : Int) : Res Int :=
  forN (fun k acc => if p + k < lim then do
      let v ← goGet dc (p + k)
      pure (if v = 1 then acc - 1 else if v = 2 then acc + 1 else acc)
    else pure acc) n 0 acc

/-- internal/tilegroup/coeffs.go:200-240, the context of `readDcSignSymbol`. -/
def dcSignCtx (c : BlkCtx) (st : CoefSt) (plane w4 h4 : Nat) (x4 y4 : Int) : Res Nat := do
  let ad ← goGet st.aboveDc plane
  let ld ← goGet st.leftDc plane
  let s ← dcSum ad x4 (planeLimit c.miCols c.subX plane) w4 0
  let s ← dcSum ld y4 (planeLimit c.miRows c.subY plane) h4 s
  pure (if s < 0 then 1 else if s > 0 then 2 else 0)

/-- The loop of coeffs.go:365-376. -/
def baseMag (quant : List Int) (width height bwl row col : Int) : List (Int × Int) → Int → Res Int
  | [], mag => .ok mag
  | (dr, dc) :: l, mag =>
    let refRow := row + dr
    let refCol := col + dc
    if refRow ≥ 0 ∧ refCol ≥ 0 ∧ refRow < height ∧ refCol < width then do
      let v ← goGet quant ((refRow <<< bwl.toNat) + refCol)
      baseMag quant width height bwl row col l (mag + minI (absI v) 3)
    else baseMag quant width height bwl row col l mag

/-- internal/tilegroup/coeffs.go:345-358, the context of the last coefficient (before the subtraction of
`SIG_COEF_CONTEXTS - SIG_COEF_CONTEXTS_EOB` at line 116). -/
def eobBaseCtx (height bwl c : Int) : Int :=
  if c = 0 then 42 - 4
  else if c ≤ (height <<< bwl.toNat) / 8 then 42 - 3
  else if c ≤ (height <<< bwl.toNat) / 4 then 42 - 2
  else 42 - 1

/-- internal/tilegroup/coeffs.go:337-394 `getCoeffBaseCtx`. -/
def getCoeffBaseCtx (cx : BlkCtx) (st : CoefSt) (txSz plane : Nat) (blockX blockY pos c : Int) (isEob : Bool) :
    Res Int := do
  let adj ← goGet adjustedTxSize txSz
  let bwl ← goGet txWidthLog2 adj
  let height ← goGet txHeight adj
  let txType ← computeTxType cx st.txTypes plane txSz blockX blockY
  if isEob then pure (eobBaseCtx height bwl c)
  else do
    let txClass := getTxClass txType
    let row := pos >>> bwl
    let col := pos - (row <<< bwl)
    let offs ← goGet sigRefDiffOffset txClass
    let mag ← baseMag st.quant ((1 <<< bwl : Nat) : Int) height bwl row col offs 0
    let ctx := minI ((mag + 1) >>> (1 : Nat)) 4
    if txClass = 0 then
      if row = 0 ∧ col = 0 then pure 0
      else do
        let t ← goGet coeffBaseCtxOffset txSz
        let o ← gget t (minI row 4) (minI col 4)
        pure (ctx + o)
    else do
      let o ← goGet coeffBasePosCtxOffset (minI (if txClass = 2 then row else col) 2)
      pure (ctx + o)

/-- The loop of coeffs.go:257-267. -/
def brMag (quant : List Int) (width height txw row col : Int) : List (Int × Int) → Int → Res Int
  | [], mag => .ok mag
  | (dr, dc) :: l, mag =>
    let refRow := row + dr
    let refCol := col + dc
    if refRow ≥ 0 ∧ refCol ≥ 0 ∧ refRow < height ∧ refCol < width then do
      let v ← goGet quant (refRow * txw + refCol)
      brMag quant width height txw row col l (mag + minI v 15)
    else brMag quant width height txw row col l mag

/-- internal/tilegroup/coeffs.go:243-292, the context of `readCoeffBrSymbol`. -/
def coeffBrCtx (cx : BlkCtx) (st : CoefSt) (txSz : Nat) (pos : Int) (plane : Nat) (x4 y4 : Int) : Res Int := do
  let adj ← goGet adjustedTxSize txSz
  let bwl ← goGet txWidthLog2 adj
  let txw ← goGet txWidth adj
  let txh ← goGet txHeight adj
  let row := pos >>> bwl
  let col := pos - (row <<< bwl)
  let txType ← computeTxType cx st.txTypes plane txSz x4 y4
  let txClass := getTxClass txType
  let offs ← goGet magRefOffset txClass
  let mag ← brMag st.quant ((1 <<< bwl : Nat) : Int) txh txw row col offs 0
  let mag := minI ((mag + 1) >>> (1 : Nat)) 6
  pure (if pos = 0 then mag
    else if txClass = 0 then (if row < 2 ∧ col < 2 then mag + 7 else mag + 14)
    else if txClass = 1 then (if col = 0 then mag + 7 else mag + 14)
    else (if row = 0 then mag + 7 else mag + 14))

/-! ## The end of block position -/

/-- internal/tilegroup/coeffs.go:394-403 `getEobPtCtx`. -/
def getEobPtCtx (cx : BlkCtx) (st : CoefSt) (plane txSz : Nat) (x4 y4 : Int) : Res Nat := do
  let txType ← computeTxType cx st.txTypes plane txSz x4 y4
  pure (if getTxClass txType = 0 then 0 else 1)

/-- internal/tilegroup/coeffs.go:65-95: reading `eobPt`. -/
def readEobPt (cx : BlkCtx) (st : CoefSt) (plane txSz : Nat) (x4 y4 : Int) (ptype : Nat) : Rd Nat := do
  let wl ← Rd.lift (goGet txWidthLog2 txSz)
  let hl ← Rd.lift (goGet txHeightLog2 txSz)
  let m := min wl 5 + min hl 5 - 4
  if m ≤ 4 then do
    let ctx ← Rd.lift (getEobPtCtx cx st plane txSz x4 y4)
    let s ← Rd.read (if m = 0 then "EobPt16" else if m = 1 then "EobPt32" else if m = 2 then "EobPt64"
      else if m = 3 then "EobPt128" else "EobPt256") [(ptype : Int), ctx]
    Rd.ret (s + 1)
  else do
    let s ← Rd.read (if m = 5 then "EobPt512" else "EobPt1024") [(ptype : Int)]
    Rd.ret (s + 1)

/-- The loop of coeffs.go:109-115: the low-order bits of the end of block position (`n` of them left). -/
def eobBits : Nat → Nat → Rd Nat
  | 0, eob => Rd.ret eob
  | n + 1, eob => do
    let b ← Rd.lit 1
    eobBits n (if b ≠ 0 then eob + (1 <<< n) else eob)

/-- internal/tilegroup/coeffs.go:97-116: from `eobPt` to the number of coded coefficients `eob`. -/
def readEob (txSzCtx ptype eobPt : Nat) : Rd Nat :=
  let eob := if eobPt < 2 then eobPt else (1 <<< (eobPt - 2)) + 1
  if eobPt < 3 then Rd.ret eob
  else do
    let extra ← Rd.read "EobExtra" [(txSzCtx : Int), ptype, ((eobPt - 3 : Nat) : Int)]
    eobBits (eobPt - 3) (if extra ≠ 0 then eob + (1 <<< (eobPt - 3)) else eob)

/-! ## Levels and signs -/

/-- The loop of coeffs.go:133-139: up to four `coeff_br` symbols. -/
def brLoop (cx : BlkCtx) (st : CoefSt) (txSz : Nat) (pos : Int) (plane : Nat) (x4 y4 : Int) (txSzCtx ptype : Nat) :
    Nat → Int → Rd Int
  | 0, level => Rd.ret level
  | n + 1, level => do
    let ctx ← Rd.lift (coeffBrCtx cx st txSz pos plane x4 y4)
    let s ← Rd.read "CoeffBr" [((min txSzCtx 3 : Nat) : Int), ptype, ctx]
    if s < 3 then Rd.ret (level + s) else brLoop cx st txSz pos plane x4 y4 txSzCtx ptype n (level + s)

/-- internal/tilegroup/coeffs.go:118-130: the base level of coefficient `c`. -/
def readBase (cx : BlkCtx) (st : CoefSt) (txSz plane : Nat) (x4 y4 : Int) (txSzCtx ptype : Nat) (pos c : Int)
    (isEob : Bool) : Rd Int := do
  let ctx ← Rd.lift (getCoeffBaseCtx cx st txSz plane x4 y4 pos c isEob)
  if isEob then do
    let s ← Rd.read "CoeffBaseEob" [(txSzCtx : Int), ptype, ctx - 42 + 4]
    Rd.ret ((s : Int) + 1)
  else do
    let s ← Rd.read "CoeffBase" [(txSzCtx : Int), ptype, ctx]
    Rd.ret (s : Int)

/-- internal/tilegroup/coeffs.go:131-140: the increments of a base level above `NUM_BASE_LEVELS`. -/
def readBr (cx : BlkCtx) (st : CoefSt) (txSz : Nat) (pos : Int) (plane : Nat) (x4 y4 : Int) (txSzCtx ptype : Nat)
    (level : Int) : Rd Int :=
  if level > 2 then brLoop cx st txSz pos plane x4 y4 txSzCtx ptype 4 level else Rd.ret level

/-- The loop of coeffs.go:118-142, for `c = n-1, ..., 0`. -/
def levelLoop (cx : BlkCtx) (scan : List Nat) (txSz plane : Nat) (x4 y4 : Int) (txSzCtx ptype eob : Nat) :
    Nat → CoefSt → Rd CoefSt
  | 0, st => Rd.ret st
  | c + 1, st => do
    let pos ← Rd.lift (goGet scan c)
    let level ← readBase cx st txSz plane x4 y4 txSzCtx ptype pos c (decide (c + 1 = eob))
    let level ← readBr cx st txSz pos plane x4 y4 txSzCtx ptype level
    let q ← Rd.lift (goSet st.quant pos level)
    levelLoop cx scan txSz plane x4 y4 txSzCtx ptype eob c { st with quant := q }

/-- The loop of coeffs.go:160-167: counts bits up to and including the first 1. -/
def golombLen : Nat → Nat → Rd Nat
  | 0, _ => Rd.fail .hang
  | fuel + 1, length => do
    let b ← Rd.lit 1
    if b ≠ 0 then Rd.ret (length + 1) else golombLen fuel (length + 1)

/-- The loop of coeffs.go:169-172. -/
def golombData : Nat → Nat → Rd Nat
  | 0, x => Rd.ret x
  | n + 1, x => do
    let b ← Rd.lit 1
    golombData n (2 * x + b)

/-- internal/tilegroup/coeffs.go:158-172: an Exp-Golomb code. -/
def readGolomb (fuel : Nat) : Rd Nat := do
  let length ← golombLen fuel 0
  golombData (length - 1) 1

/-- internal/tilegroup/coeffs.go:146-157: the sign of coefficient `c`; `literal.L(0, ...)` reads nothing. -/
def readSign (cx : BlkCtx) (st : CoefSt) (plane w4 h4 : Nat) (x4 y4 : Int) (ptype : Nat) (c : Nat) (level : Int) :
    Rd Nat :=
  if level ≠ 0 then
    if c = 0 then do
      let ctx ← Rd.lift (dcSignCtx cx st plane w4 h4 x4 y4)
      Rd.read "DcSign" [(ptype : Int), ctx]
    else Rd.lit 0
  else Rd.ret 0

/-- The value of a Go `int` (64 bits, two's complement) after arithmetic whose exact result is `x`. -/
def wrap64 (x : Int) : Int := (x + 2 ^ 63) % 2 ^ 64 - 2 ^ 63

/-- internal/tilegroup/coeffs.go:158-174: the level with its Golomb suffix.  The code has no longest length, so the
number may exceed 64 bits; the exact number is wrapped once at the end (`C97_overflow` shows that this is the same). -/
def readLevel (fuel : Nat) (level : Int) : Rd Int :=
  if level > 14 then do
    let x ← readGolomb fuel
    Rd.ret (wrap64 ((x : Int) + 12 + 2))
  else Rd.ret level

/-- Go's `& 0xFFFF` on an `int`. -/
def and16 (x : Int) : Int := x % 65536

/-- The loop of coeffs.go:143-188, for `c = i, ..., i+n-1`; returns the state, `culLevel`, `dcCategory`. -/
def signLoop (fuel : Nat) (cx : BlkCtx) (scan : List Nat) (plane w4 h4 : Nat) (x4 y4 : Int) (ptype : Nat) :
    Nat → Nat → CoefSt → Int → Int → Rd (CoefSt × Int × Int)
  | 0, _, st, cul, dc => Rd.ret (st, cul, dc)
  | n + 1, c, st, cul, dc => do
    let pos ← Rd.lift (goGet scan c)
    let level ← Rd.lift (goGet st.quant pos)
    let sign ← readSign cx st plane w4 h4 x4 y4 ptype c level
    let level ← readLevel fuel level
    let dc := if pos = 0 ∧ level > 0 then (if sign ≠ 0 then 1 else 2) else dc
    let level := and16 level
    let q ← Rd.lift (goSet st.quant pos (if sign ≠ 0 then -level else level))
    signLoop fuel cx scan plane w4 h4 x4 y4 ptype n (c + 1) { st with quant := q } (cul + level) dc

/-- The loops of coeffs.go:191-198: `ctx[plane][p+i] = v` for `i < n`. -/
def fillCtx (ctx : List (List Int)) (plane : Nat) (p : Int) (n : Nat) (v : Int) : Res (List (List Int)) :=
  forN (fun i m => gset m plane (p + i) v) n 0 ctx

/-- internal/tilegroup/coeffs.go:22-27 `segEob`. -/
def segEob (txSz : Nat) : Res Nat :=
  if txSz = 17 ∨ txSz = 18 then .ok 512
  else do
    let w ← goGet txWidth txSz
    let h ← goGet txHeight txSz
    pure (min 1024 (w * h))

/-- internal/tilegroup/coeffs.go:29-37: clearing `t.Quant[0..segEob)` and `t.Dequant[0..64)[0..64)`. -/
def clearCoefs (st : CoefSt) (n : Nat) : Res CoefSt := do
  let q ← forN (fun i (m : List Int) => goSet m i 0) n 0 st.quant
  let d ← forN (fun i m => forN (fun j m => gset m i j 0) 64 0 m) 64 0 st.dequant
  pure { st with quant := q, dequant := d }

/-- internal/tilegroup/coeffs.go:55-57: only luma blocks carry a transform type. -/
def lumaTxType (cx : BlkCtx) (st : CoefSt) (plane : Nat) (x4 y4 : Int) (txSz : Nat) : Rd CoefSt :=
  if plane = 0 then transformType cx st x4 y4 txSz else Rd.ret st

/-- internal/tilegroup/coeffs.go:54-190, the branch of a block with coefficients. -/
def codedCoefs (fuel : Nat) (cx : BlkCtx) (st : CoefSt) (plane txSz w4 h4 : Nat) (x4 y4 : Int) (txSzCtx ptype : Nat) :
    Rd (CoefSt × Int × Int) := do
  let st ← lumaTxType cx st plane x4 y4 txSz
  let ty ← Rd.lift (computeTxType cx st.txTypes plane txSz x4 y4)
  let st := { st with planeTxType := ty }
  let scan ← Rd.lift (getScan txSz ty)
  let eobPt ← readEobPt cx st plane txSz x4 y4 ptype
  let eob ← readEob txSzCtx ptype eobPt
  let st ← levelLoop cx scan txSz plane x4 y4 txSzCtx ptype eob eob st
  let r ← signLoop fuel cx scan plane w4 h4 x4 y4 ptype eob 0 st 0 0
  Rd.ret (r.1, minI 63 r.2.1, r.2.2)

/-- internal/tilegroup/coeffs.go:46-53, the branch of an all-zero block. -/
def zeroCoefs (st : CoefSt) (plane w4 h4 : Nat) (x4 y4 : Int) : Res (CoefSt × Int × Int) :=
  if plane = 0 then do
    let m ← fillTxTypes st.txTypes x4 y4 w4 h4 0
    pure ({ st with txTypes := m }, 0, 0)
  else pure (st, 0, 0)

/-- internal/tilegroup/coeffs.go:46-190: the two branches. -/
def coefBody (fuel : Nat) (cx : BlkCtx) (st : CoefSt) (plane txSz w4 h4 : Nat) (x4 y4 : Int) (txSzCtx ptype allZero : Nat) :
    Rd (CoefSt × Int × Int) :=
  if allZero ≠ 0 then Rd.lift (zeroCoefs st plane w4 h4 x4 y4)
  else codedCoefs fuel cx st plane txSz w4 h4 x4 y4 txSzCtx ptype

/-- internal/tilegroup/coeffs.go:15-198 `coeffs(plane, startX, startY, txSz)`: the new state and the
returned `eob` (the outer variable, never assigned after its declaration: line 97 declares another one). -/
def coeffs (fuel : Nat) (cx : BlkCtx) (st : CoefSt) (plane : Nat) (startX startY : Int) (txSz : Nat) :
    Rd (CoefSt × Int) := do
  let x4 := startX >>> (2 : Nat)
  let y4 := startY >>> (2 : Nat)
  let w ← Rd.lift (goGet txWidth txSz)
  let h ← Rd.lift (goGet txHeight txSz)
  let w4 := w >>> 2
  let h4 := h >>> 2
  let sqr ← Rd.lift (goGet txSizeSqr txSz)
  let up ← Rd.lift (goGet txSizeSqrUp txSz)
  let txSzCtx := (sqr + up + 1) >>> 1
  let ptype := if plane > 0 then 1 else 0
  let n ← Rd.lift (segEob txSz)
  let st ← Rd.lift (clearCoefs st n)
  let ctx ← Rd.lift (allZeroCtx cx st plane txSz w4 h4 x4 y4)
  let allZero ← Rd.read "TxbSkip" [(txSzCtx : Int), ctx]
  let r ← coefBody fuel cx st plane txSz w4 h4 x4 y4 txSzCtx ptype allZero
  let al ← Rd.lift (fillCtx r.1.aboveLevel plane x4 w4 r.2.1)
  let ad ← Rd.lift (fillCtx r.1.aboveDc plane x4 w4 r.2.2)
  let ll ← Rd.lift (fillCtx r.1.leftLevel plane y4 h4 r.2.1)
  let ld ← Rd.lift (fillCtx r.1.leftDc plane y4 h4 r.2.2)
  Rd.ret ({ r.1 with aboveLevel := al, aboveDc := ad, leftLevel := ll, leftDc := ld }, 0)

end Gov1
