import Verif.Model.TileInfo
import Verif.Model.Util
/-!
# Model of internal/uncompressedheader/uncompressed_header.go

The Go method `build` fills one flat struct; here each helper method returns the fields it assigns,
grouped in a record.  `NewUncompressedHeader` starts from a zero struct, so a field that a path does
not assign has its zero value.  The installation of the CDF tables (`initNonCoeffCdfs`,
`initCoeffCdfs`, modelled in Verif.Model.CdfWiring) is recorded here as an event in the state.
-/
namespace Gov1

/-- A Go loop that performs a read for each element of `l` and stores the results. -/
def mapBM {ι α : Type} (f : ι → BM α) : List ι → BM (List α)
  | [] => pure []
  | i :: l => do
    let a ← f i
    let r ← mapBM f l
    pure (a :: r)

/-- The fields of internal/state/state.go `State` that the frame header reads and writes (besides
those of `Gov1.State`). -/
structure FrameState where
  miCols : Nat := 0
  miRows : Nat := 0
  tiles : Tiles := ⟨[], [], 0, 0, 0, 0, 0, 0⟩
  featureEnabled : List (List Nat) := List.replicate 8 (List.replicate 8 0)
  featureData : List (List Int) := List.replicate 8 (List.replicate 8 0)
  gmType : List Nat := List.replicate 8 0
  prevGmParams : List (List Int) := List.replicate 8 (List.replicate 6 0)
  prevSegmentIds : List (List Int) := []
  refFrameType : List Nat := List.replicate 8 0
  refOrderHint : List Nat := List.replicate 8 0
  refValid : List Nat := List.replicate 8 0
  currentQIndex : Int := 0
  loopRestorationSize : List Nat := List.replicate 3 0
  /-- `initNonCoeffCdfs(s)` has been called -/
  nonCoeffCdfs : Bool := false
  /-- `initCoeffCdfs(s, u)` has been called, with this index into the tables -/
  coeffCdfs : Option Nat := none
  deriving DecidableEq, Repr

/-! ## Frame size -/

/-- Fields assigned by `frameSize`, `superResParams` and `computeImageSize`
(uncompressed_header.go:500-542). -/
structure FrameSize where
  useSuperRes : Bool := false
  superResDenom : Nat := 0
  upscaledWidth : Nat := 0
  frameWidth : Nat := 0
  frameHeight : Nat := 0
  miCols : Nat := 0
  miRows : Nat := 0
  deriving DecidableEq, Repr

/-- uncompressed_header.go:520-536 `superResParams`: returns `(UseSuperRes, SuperResDenom)`
(`SUPERRES_NUM = 8`, `SUPERRES_DENOM_BITS = 3`, `SUPERRES_DENOM_MIN = 9`). -/
def superResParams (sh : SeqHeader) : BM (Bool × Nat) := do
  let use ← (if sh.enableSuperRes then flag else pure false)
  if use then do
    let codedDenom ← F 3
    pure (use, codedDenom + 9)
  else pure (use, 8)

/-- uncompressed_header.go:500-517 `frameSize` with `superResParams` (520-536) and
`computeImageSize` (539-542). -/
def frameSize (sh : SeqHeader) (override : Bool) : BM FrameSize := do
  let (w, h) ← (if override then do
      let wm ← F (sh.frameWidthBitsMinusOne + 1)
      let hm ← F (sh.frameHeightBitsMinusOne + 1)
      pure (wm + 1, hm + 1)
    else pure (sh.maxFrameWidthMinusOne + 1, sh.maxFrameHeightMinusOne + 1))
  let (use, denom) ← superResParams sh
  let fw := (w * 8 + denom / 2) / denom
  pure { useSuperRes := use, superResDenom := denom, upscaledWidth := w, frameWidth := fw,
         frameHeight := h, miCols := 2 * ((fw + 7) >>> 3), miRows := 2 * ((h + 7) >>> 3) }

/-- uncompressed_header.go:545-558 `renderSize`: returns `(RenderWidth, RenderHeight)`;
`UpscaledHeight` is never assigned, so it is 0. -/
def renderSize (fs : FrameSize) : BM (Nat × Nat) := do
  let different ← flag
  if different then do
    let w ← F 16
    let h ← F 16
    pure (w + 1, h + 1)
  else pure (fs.upscaledWidth, 0)

/-! ## Quantization, segmentation, deltas -/

/-- Fields assigned by `quantizationParams` (uncompressed_header.go:649-691). -/
structure QuantParams where
  baseQIdx : Nat := 0
  deltaQYDc : Int := 0
  deltaQUDc : Int := 0
  deltaQUAc : Int := 0
  deltaQVDc : Int := 0
  deltaQVAc : Int := 0
  usingQMatrix : Bool := false
  qmy : Nat := 0
  qmu : Nat := 0
  qmv : Nat := 0
  deriving DecidableEq, Repr

/-- uncompressed_header.go:694-701 `readDeltaQ`. -/
def readDeltaQ : BM Int := do
  let coded ← flag
  if coded then su (1 + 6) else pure 0

/-- uncompressed_header.go:654-678, the chroma deltas: `(UDc, UAc, VDc, VAc)`. -/
def chromaDeltaQ (cc : ColorConfig) : BM (Int × Int × Int × Int) :=
  if cc.numPlanes > 1 then do
    let diff ← (if cc.separateUvDeltaQ then flag else pure false)
    let udc ← readDeltaQ
    let uac ← readDeltaQ
    if diff then do
      let vdc ← readDeltaQ
      let vac ← readDeltaQ
      pure (udc, uac, vdc, vac)
    else pure (udc, uac, udc, uac)
  else pure (0, 0, 0, 0)

/-- uncompressed_header.go:680-690, the quantizer matrix levels: `(UsingQMatrix, Qmy, Qmu, Qmv)`. -/
def qmParams (cc : ColorConfig) : BM (Bool × Nat × Nat × Nat) := do
  let useQm ← flag
  if useQm then do
    let y ← F 4
    let u ← F 4
    if !cc.separateUvDeltaQ then pure (useQm, y, u, u)
    else do
      let v ← F 4
      pure (useQm, y, u, v)
  else pure (useQm, 0, 0, 0)

/-- uncompressed_header.go:649-691 `quantizationParams`. -/
def quantizationParams (cc : ColorConfig) : BM QuantParams := do
  let base ← F 8
  let ydc ← readDeltaQ
  let (udc, uac, vdc, vac) ← chromaDeltaQ cc
  let (useQm, y, u, v) ← qmParams cc
  pure { baseQIdx := base, deltaQYDc := ydc, deltaQUDc := udc, deltaQUAc := uac, deltaQVDc := vdc,
         deltaQVAc := vac, usingQMatrix := useQm, qmy := y, qmu := u, qmv := v }

/-- Fields assigned by `segmentationParams` (uncompressed_header.go:704-769), with the state's
feature tables. -/
structure SegParams where
  enabled : Bool := false
  updateMap : Nat := 0
  temporalUpdate : Nat := 0
  updateData : Nat := 0
  featureEnabled : List (List Nat) := []
  featureData : List (List Int) := []
  idPreSkip : Nat := 0
  lastActiveSegId : Nat := 0
  deriving DecidableEq, Repr

/-- internal/shared/constants.go:250 `Segmentation_Feature_Bits`. -/
def segFeatureBits : List Nat := [8, 6, 6, 6, 6, 3, 0, 0]
/-- internal/shared/constants.go:251 `Segmentation_Feature_Signed`. -/
def segFeatureSigned : List Nat := [1, 1, 1, 1, 1, 0, 0, 0]
/-- internal/shared/constants.go:252 `Segmentation_Feature_Max`. -/
def segFeatureMax : List Nat := [255, 63, 63, 63, 63, 7, 0, 0]

/-- uncompressed_header.go:723-740, one feature: `(FeatureEnabled[i][j], FeatureData[i][j])`. -/
def segFeature (j : Nat) : BM (Nat × Int) := do
  let enabled ← F 1
  if enabled = 1 then do
    let bits := segFeatureBits.getD j 0
    let limit : Int := segFeatureMax.getD j 0
    if segFeatureSigned.getD j 0 = 1 then do
      let v ← su (1 + bits)
      pure (enabled, clip3 (-limit) limit v)
    else do
      let v ← su bits
      pure (enabled, clip3 0 limit v)
  else pure (enabled, 0)

/-- uncompressed_header.go:721-742, the features of all segments. -/
def segFeatures : BM (List (List (Nat × Int))) :=
  mapBM (fun _ => mapBM segFeature (List.range 8)) (List.range 8)

/-- One step of uncompressed_header.go:758-764, feature `j` of segment `i`, on
`(LastActiveSegId, SegIdPreSkip)` (`SEG_LVL_REF_FRAME = 5`). -/
def segScanStep (enabled : List (List Nat)) (acc : Nat × Nat) (ij : Nat × Nat) : Nat × Nat :=
  if (enabled.getD ij.1 []).getD ij.2 0 = 1 then (ij.1, if ij.2 ≥ 5 then 1 else acc.2) else acc

/-- uncompressed_header.go:753-767: `(LastActiveSegId, SegIdPreSkip)` by a scan of all features. -/
def segScan (enabled : List (List Nat)) : Nat × Nat :=
  ((List.range 8).flatMap fun i => (List.range 8).map fun j => (i, j)).foldl (segScanStep enabled) (0, 0)

/-- uncompressed_header.go:707-718: `(SegmentationUpdateMap, SegmentationTemporalUpdate,
SegmentationUpdateData)`. -/
def segUpdates (primaryNone : Bool) : BM (Nat × Nat × Nat) :=
  if primaryNone then pure (1, 0, 1)
  else do
    let m ← F 1
    let t ← (if m = 1 then F 1 else pure 0)
    let d ← F 1
    pure (m, t, d)

/-- uncompressed_header.go:704-769 `segmentationParams`. -/
def segmentationParams (primaryNone : Bool) (oldEnabled : List (List Nat)) (oldData : List (List Int)) :
    BM SegParams := do
  let enabled ← flag
  if enabled then do
    let (m, t, d) ← segUpdates primaryNone
    let (fe, fd) ← (if d = 1 then do
        let fs ← segFeatures
        pure (fs.map (·.map Prod.fst), fs.map (·.map Prod.snd))
      else pure (oldEnabled, oldData))
    pure ⟨enabled, m, t, d, fe, fd, (segScan fe).2, (segScan fe).1⟩
  else
    let fe := List.replicate 8 (List.replicate 8 0)
    let fd := List.replicate 8 (List.replicate 8 0)
    pure ⟨enabled, 0, 0, 0, fe, fd, (segScan fe).2, (segScan fe).1⟩

/-- Fields assigned by `deltaQParams` and `deltaLfParams` (uncompressed_header.go:772-801). -/
structure DeltaParams where
  deltaQPresent : Bool := false
  deltaQRes : Nat := 0
  deltaLfPresent : Bool := false
  deltaLfRes : Nat := 0
  deltaLfMulti : Nat := 0
  deriving DecidableEq, Repr

/-- uncompressed_header.go:772-783 `deltaQParams`: `(DeltaQPresent, DeltaQRes)`. -/
def deltaQParams (baseQIdx : Nat) : BM (Bool × Nat) := do
  let present ← (if baseQIdx > 0 then flag else pure false)
  if present then do
    let r ← F 2
    pure (present, r)
  else pure (present, 0)

/-- uncompressed_header.go:786-801 `deltaLfParams`. -/
def deltaLfParams (deltaQPresent allowIntraBc : Bool) : BM (Bool × Nat × Nat) :=
  if deltaQPresent then do
    let present ← (if !allowIntraBc then flag else pure false)
    if present then do
      let r ← F 2
      let m ← F 1
      pure (present, r, m)
    else pure (present, 0, 0)
  else pure (false, 0, 0)

/-- Go slice or array read of a nested table that is known to be in bounds elsewhere; out of bounds
panics. -/
def goGet2 {α : Type} (t : List (List α)) (i j : Int) : Res α := do
  let r ← goGet t i
  goGet r j

/-- uncompressed_header.go:828-831 `segFeatureActiveIdx(idx, feature)`. -/
def segFeatureActiveIdx (segEnabled : Bool) (fe : List (List Nat)) (idx feature : Int) : Res Bool :=
  if segEnabled then (goGet2 fe idx feature).map (· != 0) else .ok false

/-- uncompressed_header.go:808-825 `GetQIndex(ignoreDeltaQ, segmentId)` (`SEG_LVL_ALT_Q = 0`). -/
def getQIndex (segEnabled : Bool) (fe : List (List Nat)) (fd : List (List Int)) (baseQIdx : Nat)
    (deltaQPresent : Bool) (currentQIndex : Int) (ignoreDeltaQ segmentId : Int) : Res Int := do
  let active ← segFeatureActiveIdx segEnabled fe segmentId 0
  if active then do
    let data ← goGet2 fd segmentId 0
    let qindex := if ignoreDeltaQ = 0 ∧ deltaQPresent then currentQIndex else (baseQIdx : Int) + data
    pure (clip3 0 255 qindex)
  else if ignoreDeltaQ = 0 ∧ deltaQPresent then pure currentQIndex
  else pure (baseQIdx : Int)

/-- uncompressed_header.go:433, the lossless test of a segment. -/
def losslessOf (q : QuantParams) (qIndex : Int) : Bool :=
  qIndex == 0 && q.deltaQYDc == 0 && q.deltaQUAc == 0 && q.deltaQUDc == 0 && q.deltaQVAc == 0 &&
  q.deltaQVDc == 0

/-- uncompressed_header.go:431-450, one segment: `(LosslessArray[i], SegQMLevel[0..2][i])`; without
quantizer matrices the level keeps its zero value. -/
def segLossless (seg : SegParams) (q : QuantParams) (deltaQPresent : Bool) (currentQIndex : Int)
    (segmentId : Nat) : Res (Bool × Nat) := do
  let qIndex ← getQIndex seg.enabled seg.featureEnabled seg.featureData q.baseQIdx deltaQPresent
    currentQIndex 1 segmentId
  let l := losslessOf q qIndex
  pure (l, if q.usingQMatrix then (if l then 15 else q.qmy) else 0)

/-! ## Loop filter, CDEF, loop restoration -/

/-- Fields assigned by `setupPastIndependence` and `loopFilterParams`
(uncompressed_header.go:617-628, 834-884). -/
structure LoopFilter where
  level : List Nat := List.replicate 4 0
  refDeltas : List Int := List.replicate 8 0
  modeDeltas : List Int := List.replicate 2 0
  sharpness : Nat := 0
  deltaEnabled : Bool := false
  deltaUpdate : Nat := 0
  deriving DecidableEq, Repr

/-- The reference deltas assigned at uncompressed_header.go:618-625 and 838-845, in the order of the
reference frame numbers `INTRA, LAST, LAST2, LAST3, GOLDEN, BWDREF, ALTREF2, ALTREF`. -/
def defaultRefDeltas : List Int := [1, 0, 0, 0, -1, 0, -1, -1]

/-- uncompressed_header.go:871-874 and 877-880, one delta. -/
def lfDelta (old : Int) : BM Int := do
  let update ← F 1
  if update = 1 then su (1 + 6) else pure old

/-- uncompressed_header.go:834-884 `loopFilterParams`. -/
def loopFilterParams (old : LoopFilter) (codedLossless allowIntraBc : Bool) (numPlanes : Nat) :
    BM LoopFilter :=
  if codedLossless || allowIntraBc then
    pure { old with level := (old.level.set 0 0).set 1 1, refDeltas := defaultRefDeltas,
                    modeDeltas := [0, 0] }
  else do
    let l0 ← F 6
    let l1 ← F 6
    let level := (old.level.set 0 l0).set 1 l1
    let level ← (if numPlanes > 1 ∧ (l0 ≠ 0 ∨ l1 ≠ 0) then do
        let l2 ← F 6
        let l3 ← F 6
        pure ((level.set 2 l2).set 3 l3)
      else pure level)
    let sharpness ← F 6
    let de ← flag
    if de then do
      let du ← F 1
      if du = 1 then do
        let rd ← mapBM lfDelta old.refDeltas
        let md ← mapBM lfDelta old.modeDeltas
        pure ⟨level, rd, md, sharpness, de, du⟩
      else pure ⟨level, old.refDeltas, old.modeDeltas, sharpness, de, du⟩
    else pure ⟨level, old.refDeltas, old.modeDeltas, sharpness, de, old.deltaUpdate⟩

/-- Fields assigned by `cdefParams` (uncompressed_header.go:887-927). -/
structure CdefParams where
  bits : Nat := 0
  damping : Nat := 0
  yPri : List Nat := []
  ySec : List Nat := []
  uvPri : List Nat := []
  uvSec : List Nat := []
  deriving DecidableEq, Repr

/-- uncompressed_header.go:913-916 and 920-923: a secondary strength of 3 becomes 4. -/
def cdefSec : BM Nat := do
  let s ← F 2
  pure (if s = 3 then s + 1 else s)

/-- uncompressed_header.go:911-926, one set of strengths `(yPri, ySec, uvPri, uvSec)`. -/
def cdefStrength (numPlanes : Nat) : BM (Nat × Nat × Nat × Nat) := do
  let yp ← F 4
  let ys ← cdefSec
  if numPlanes > 1 then do
    let up ← F 4
    let us ← cdefSec
    pure (yp, ys, up, us)
  else pure (yp, ys, 0, 0)

/-- uncompressed_header.go:887-927 `cdefParams`. -/
def cdefParams (codedLossless allowIntraBc enableCdef : Bool) (numPlanes : Nat) : BM CdefParams :=
  if codedLossless || allowIntraBc || !enableCdef then
    pure ⟨0, 3, [0], [0], [0], [0]⟩
  else do
    let d ← F 2
    let bits ← F 2
    let l ← mapBM (fun _ => cdefStrength numPlanes) (List.range (1 <<< bits))
    pure ⟨bits, d + 3, l.map (·.1), l.map (·.2.1), l.map (·.2.2.1), l.map (·.2.2.2)⟩

/-- Fields assigned by `lrParams` (uncompressed_header.go:930-977), with the state's
`LoopRestorationSize`. -/
structure LrParams where
  types : List Nat := List.replicate 3 0
  usesLr : Bool := false
  sizes : List Nat := List.replicate 3 0
  deriving DecidableEq, Repr

/-- internal/shared/constants.go:259-261 `REMAP_LR_TYPE`. -/
def remapLrType : List Nat := [0, 3, 1, 2]

/-- uncompressed_header.go:954-964, `lrUnitShift`. -/
def lrUnitShift (use128 : Bool) : BM Nat := do
  if use128 then do
    let s ← F 1
    pure (s + 1)
  else do
    let s ← F 1
    if s ≠ 0 then do
      let e ← F 1
      pure (s + e)
    else pure s

/-- uncompressed_header.go:930-977 `lrParams` (`RESTORATION_TILESIZE_MAX = 256`).  `NumPlanes` is 1 or 3,
so the writes to the arrays of 3 are in range. -/
def lrParams (sh : SeqHeader) (allLossless allowIntraBc : Bool) (oldSizes : List Nat) : BM LrParams :=
  if allLossless || allowIntraBc || !sh.enableRestoration then
    pure ⟨[0, 0, 0], false, oldSizes⟩
  else do
    let ts ← mapBM (fun _ => do
      let t ← F 2
      pure (remapLrType.getD t 0)) (List.range sh.colorConfig.numPlanes)
    let usesLr := ts.any (· != 0)
    let usesChroma := (ts.drop 1).any (· != 0)
    let types := ts ++ List.replicate (3 - ts.length) 0
    if usesLr then do
      let shift ← lrUnitShift sh.use128x128SuperBlock
      let size0 := 256 >>> (2 - shift)
      let uv ← (if sh.colorConfig.subsamplingX && sh.colorConfig.subsamplingY && usesChroma then F 1
        else pure 0)
      pure ⟨types, usesLr, [size0, size0 >>> uv, size0 >>> uv]⟩
    else pure ⟨types, usesLr, oldSizes⟩

/-! ## Reference structure -/

/-- uncompressed_header.go:571-581 `GetRelativeDist(a, b)`.  `diff & (m-1)` and `diff & m` for
`m = 2^(bits-1)` on two's complement integers are the remainder and `m` times the next bit; with
`bits = 0` the shift count is negative and Go panics. -/
def getRelativeDist (enableOrderHint : Bool) (orderHintBits : Nat) (a b : Int) : Res Int :=
  if !enableOrderHint then .ok 0
  else if orderHintBits = 0 then .error .shift
  else
    let diff := a - b
    let m : Int := 2 ^ (orderHintBits - 1)
    .ok (diff % m - m * ((diff / m) % 2))

/-- State of the loop uncompressed_header.go:1015-1029: `(forwardIdx, forwardHint, backwardIdx,
backwardHint)`. -/
structure SkipScan where
  forwardIdx : Int := -1
  forwardHint : Int := 0
  backwardIdx : Int := -1
  backwardHint : Int := 0
  deriving DecidableEq, Repr

/-- One iteration of uncompressed_header.go:1015-1029.  The `||` is short-circuiting, so the second
distance is computed only when needed. -/
def skipScanStep (eoh : Bool) (bits : Nat) (orderHint : Int) (s : SkipScan) (ih : Nat × Int) :
    Res SkipScan := do
  let d ← getRelativeDist eoh bits ih.2 orderHint
  if d < 0 then do
    let take ← (if s.forwardIdx < 0 then pure true else do
      let e ← getRelativeDist eoh bits ih.2 s.forwardHint
      pure (decide (e > 0)))
    pure (if take then { s with forwardIdx := ih.1, forwardHint := ih.2 } else s)
  else if d > 0 then do
    let take ← (if s.backwardIdx < 0 then pure true else do
      let e ← getRelativeDist eoh bits ih.2 s.backwardHint
      pure (decide (e > 0)))
    pure (if take then { s with backwardIdx := ih.1, backwardHint := ih.2 } else s)
  else pure s

/-- One iteration of uncompressed_header.go:1040-1048 on `(secondForwardIdx, secondForwardHint)`. -/
def skipSecondStep (eoh : Bool) (bits : Nat) (forwardHint : Int) (s : Int × Int) (ih : Nat × Int) :
    Res (Int × Int) := do
  let d ← getRelativeDist eoh bits ih.2 forwardHint
  if d < 0 then do
    let take ← (if s.1 < 0 then pure true else do
      let e ← getRelativeDist eoh bits ih.2 s.2
      pure (decide (e > 0)))
    pure (if take then ((ih.1 : Int), ih.2) else s)
  else pure s

/-- uncompressed_header.go:1005-1058, `skipModeAllowed`.  Where the code would allow skip mode it
first stores into the nil slice `SkipModeFrame`, which panics. -/
def skipModeAllowed (eoh : Bool) (bits : Nat) (frameIsIntra referenceSelect : Bool) (orderHint : Int)
    (refHints : List Int) : Res Bool :=
  if frameIsIntra || referenceSelect || eoh then .ok false
  else do
    let idx := (List.range refHints.length).zip refHints
    let s ← idx.foldlM (skipScanStep eoh bits orderHint) {}
    if s.forwardIdx < 0 then .ok false
    else if s.backwardIdx ≥ 0 then .error .index
    else do
      let t ← idx.foldlM (skipSecondStep eoh bits s.forwardHint) (-1, 0)
      if t.1 < 0 then .ok false else .error .index

/-- uncompressed_header.go:1005-1065 `skipModeParams`: `SkipModePresent`. -/
def skipModeParams (eoh : Bool) (bits : Nat) (frameIsIntra referenceSelect : Bool) (orderHint : Int)
    (refHints : List Int) : BM Nat := do
  let allowed ← BM.lift (skipModeAllowed eoh bits frameIsIntra referenceSelect orderHint refHints)
  if allowed then F 1 else pure 0

/-- uncompressed_header.go:1086-1103, the type of one reference's global motion (`IDENTITY = 0,
TRANSLATION = 1, ROTZOOM = 2, AFFINE = 3`, internal/shared/constants.go). -/
def gmTypeOf : BM Nat := do
  let isGlobal ← flag
  if isGlobal then do
    let isRotZoom ← flag
    if isRotZoom then pure 2
    else do
      let isTranslation ← flag
      pure (if isTranslation then 1 else 3)
  else pure 0

/-- The parameters assigned at uncompressed_header.go:1070-1078 to each reference. -/
def gmDefault : List Int := [0, 0, 65536, 0, 0, 65536]

/-- uncompressed_header.go:1067-1107 `globalMotionParams`: the state's `GmType` for the references
`LAST .. ALTREF` (1..7). -/
def globalMotionParams (frameIsIntra : Bool) (oldTypes : List Nat) : BM (List Nat) :=
  if frameIsIntra then pure (oldTypes.take 1 ++ List.replicate 7 0)
  else do
    let ts ← mapBM (fun _ => gmTypeOf) (List.range 7)
    pure (oldTypes.take 1 ++ ts)

/-! ## Sub-exponential codes -/

/-- Loop of uncompressed_header.go:1153-1180 `decodeSubexp(numSyms)` (`k = 3`).  `mk` grows by at
least 8 per iteration, so fuel `numSyms` suffices; running out is the `hang` fault (proved
impossible). -/
def subexpLoop (numSyms : Int) : Nat → Nat → Nat → BM Int
  | fuel, i, mk =>
    let b2 := if i ≠ 0 then 3 + i - 1 else 3
    let a := 1 <<< b2
    if numSyms ≤ (mk + 3 * a : Nat) then do
      let v ← ns (numSyms - mk)
      pure (v + mk)
    else match fuel with
      | 0 => BM.fail .hang
      | fuel + 1 => do
        let more ← flag
        if more then subexpLoop numSyms fuel (i + 1) (mk + a)
        else do
          let v ← F b2
          pure ((v + mk : Nat) : Int)

/-- uncompressed_header.go:1153-1180 `decodeSubexp(numSyms)`. -/
def decodeSubexp (numSyms : Int) : BM Int := subexpLoop numSyms numSyms.toNat 0 0

/-- uncompressed_header.go:1144-1151 `decodeSignedSubexpWithRef(mx, r)` (despite its name the
unsigned variant). -/
def decodeSignedSubexpWithRef (mx r : Int) : BM Int := do
  let v ← decodeSubexp mx
  if r * 2 ≤ mx then pure (inverseRecenter r v)
  else pure (mx - 1 - inverseRecenter (mx - 1 - r) v)

/-! ## Film grain -/

/-- Fields assigned by `filmGrainParams` and `resetGrainParams` (uncompressed_header.go:1183-1327). -/
structure FilmGrain where
  applyGrain : Bool := false
  grainSeed : Nat := 0
  pointY : List (Nat × Nat) := []
  chromaScalingFromLuma : Bool := false
  pointCb : List (Nat × Nat) := []
  pointCr : List (Nat × Nat) := []
  grainScalingMinus8 : Nat := 0
  arCoeffLag : Nat := 0
  arCoeffsY : List Nat := []
  arCoeffsCb : List Nat := []
  arCoeffsCr : List Nat := []
  arCoeffShiftMinus6 : Nat := 0
  grainScaleShift : Nat := 0
  cb : Nat × Nat × Nat := (0, 0, 0)
  cr : Nat × Nat × Nat := (0, 0, 0)
  overlapFlag : Bool := false
  clipToRestrictedRange : Bool := false
  deriving DecidableEq, Repr

/-- uncompressed_header.go:1216-1218, 1238-1239, 1247-1248: a `(value, scaling)` pair. -/
def grainPoint : BM (Nat × Nat) := do
  let v ← F 8
  let s ← F 8
  pure (v, s)

/-- uncompressed_header.go:1212-1219, 1233-1240, 1242-1249: a counted list of points. -/
def grainPoints : BM (List (Nat × Nat)) := do
  let n ← F 4
  mapBM (fun _ => grainPoint) (List.range n)

/-- uncompressed_header.go:1227-1250: the chroma points. -/
def chromaPoints (cc : ColorConfig) (fromLuma : Bool) (numY : Nat) :
    BM (List (Nat × Nat) × List (Nat × Nat)) :=
  if cc.monoChrome || fromLuma || (cc.subsamplingX && cc.subsamplingY && numY == 0) then pure ([], [])
  else do
    let cb ← grainPoints
    let cr ← grainPoints
    pure (cb, cr)

/-- uncompressed_header.go:1258-1280: `n` coefficients of 8 bits, if `c`. -/
def grainCoeffs (c : Bool) (n : Nat) : BM (List Nat) :=
  if c then mapBM (fun _ => F 8) (List.range n) else pure []

/-- uncompressed_header.go:1285-1295, the multipliers and offset of a chroma plane, if it has points. -/
def grainChroma (c : Bool) : BM (Nat × Nat × Nat) :=
  if c then do
    let m ← F 8
    let l ← F 8
    let o ← F 9
    pure (m, l, o)
  else pure (0, 0, 0)

/-- uncompressed_header.go:1212-1298, the parameters when they are coded. -/
def grainUpdate (cc : ColorConfig) (seed : Nat) : BM FilmGrain := do
  let py ← grainPoints
  let fromLuma ← (if cc.monoChrome then pure false else flag)
  let (pcb, pcr) ← chromaPoints cc fromLuma py.length
  let gs ← F 2
  let lag ← F 2
  let numPosLuma := 2 * lag * (lag + 1)
  let numPosChroma := if py.length ≠ 0 then numPosLuma + 1 else numPosLuma
  let ay ← grainCoeffs (py.length != 0) numPosLuma
  let acb ← grainCoeffs (fromLuma || pcb.length != 0) numPosChroma
  let acr ← grainCoeffs (fromLuma || pcr.length != 0) numPosChroma
  let sh6 ← F 2
  let gss ← F 2
  let cb ← grainChroma (pcb.length != 0)
  let cr ← grainChroma (pcr.length != 0)
  let ov ← flag
  let cl ← flag
  pure ⟨true, seed, py, fromLuma, pcb, pcr, gs, lag, ay, acb, acr, sh6, gss, cb, cr, ov, cl⟩

/-- uncompressed_header.go:1183-1299 `filmGrainParams` (`INTER_FRAME = 1`); `LoadGrainParams`
(1341-1343) panics. -/
def filmGrainParams (sh : SeqHeader) (showFrame showableFrame : Bool) (frameType : Nat) : BM FilmGrain :=
  if !sh.filmGrainParamsPresent || (!showFrame && !showableFrame) then pure {}
  else do
    let apply ← flag
    if !apply then pure {}
    else do
      let seed ← F 16
      let update ← (if frameType = 1 then flag else pure true)
      if !update then do
        let _ ← F 3
        BM.fail (.explicit "not implemented")
      else grainUpdate sh.colorConfig seed

end Gov1
