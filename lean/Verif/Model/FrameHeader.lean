import Verif.Model.UncompressedHeader
/-!
# Model of `UncompressedHeader.build` (internal/uncompressedheader/uncompressed_header.go:150-471)

The struct is fresh on every call (`NewUncompressedHeader`, 143-148): `EnableOrderHint`,
`UpscaledHeight`, `RefFrameId` and `SkipModeFrame` are never assigned anywhere in /repo and keep their
zero values (false, 0, nil, nil).
-/
namespace Gov1

/-- uncompressed_header.go:24-141 `UncompressedHeader`. -/
structure UHeader where
  showExistingFrame : Bool := false
  frameToShowMapIdx : Nat := 0
  framePresentationTime : Nat := 0
  refreshImageFlags : Nat := 0
  displayFrameId : Nat := 0
  frameType : Nat := 0
  frameIsIntra : Bool := false
  showFrame : Bool := false
  showableFrame : Bool := false
  disableCdfUpdate : Bool := false
  allowScreenContentTools : Nat := 0
  forceIntegerMv : Bool := false
  currentFrameId : Nat := 0
  frameSizeOverrideFlag : Bool := false
  orderHint : Nat := 0
  primaryRefFrame : Nat := 0
  refreshFrameFlags : Nat := 0
  size : FrameSize := {}
  renderWidth : Nat := 0
  renderHeight : Nat := 0
  allowIntraBc : Bool := false
  lastFrameIdx : Nat := 0
  goldFrameIdx : Nat := 0
  refFrameIdx : List Nat := List.replicate 7 0
  allowHighPrecisionMv : Bool := false
  interpolationFilter : Nat := 0
  isMotionModeSwitchable : Bool := false
  useRefFrameMvs : Bool := false
  orderHints : List Nat := List.replicate 8 0
  refFrameSignBias : List Bool := List.replicate 3 false
  disableFrameEndUpdateCdf : Bool := false
  quant : QuantParams := {}
  seg : SegParams := {}
  delta : DeltaParams := {}
  losslessArray : List Bool := List.replicate 8 false
  segQMLevel : List Nat := List.replicate 8 0
  codedLossless : Bool := false
  allLossless : Bool := false
  loopFilter : LoopFilter := {}
  cdef : CdefParams := {}
  lr : LrParams := {}
  txMode : Nat := 0
  referenceSelect : Bool := false
  skipModePresent : Nat := 0
  allowWarpedMotion : Bool := false
  reducedTxSet : Bool := false
  gmParams : List (List Int) := List.replicate 8 (List.replicate 6 0)
  filmGrain : FilmGrain := {}
  deriving DecidableEq, Repr

/-- uncompressed_header.go:151-155 `idLen`. -/
def idLen (sh : SeqHeader) : Nat :=
  if sh.frameIdNumbersPresent then
    sh.additionalFrameIdLengthMinusOne + sh.deltaFrameIdLengthMinusTwo + 3 else 0

/-- uncompressed_header.go:1335-1338 `TemporalPointInfo`, guarded as at 179-181 and 207-209. -/
def temporalPoint (sh : SeqHeader) (c : Bool) : BM Nat :=
  if c && sh.decoderModelInfoPresent && !sh.timingInfo.equalPictureInterval then
    F (sh.decoderModelInfo.framePresentationTimeLengthMinusOne + 1)
  else pure 0

/-- uncompressed_header.go:174-199, `show_existing_frame`: the flag is read into a local variable
and the struct's `ShowExistingFrame` keeps its zero value. -/
def uhShowExisting (sh : SeqHeader) (st : FrameState) : BM (UHeader × FrameState) := do
  let idx ← F 3
  let t ← temporalPoint sh true
  let id ← (if sh.frameIdNumbersPresent then F (idLen sh) else pure 0)
  let ft ← BM.lift (goGet st.refFrameType (idx : Nat))
  if sh.filmGrainParamsPresent then BM.fail (.explicit "not implemented")
  else pure ({ frameToShowMapIdx := idx, framePresentationTime := t, displayFrameId := id,
               frameType := ft, refreshImageFlags := if ft = 0 then 255 else 0 }, st)

/-- uncompressed_header.go:201-222: frame type and visibility, with `errorResilientMode`.  Go's
`&&` binds tighter than `||` at 217. -/
def uhFrameType (sh : SeqHeader) : BM (UHeader × Bool) := do
  let ft ← F 2
  let show_ ← flag
  let t ← temporalPoint sh show_
  let showable ← (if show_ then pure (ft != 0) else flag)
  let er ← (if ft = 3 ∨ (ft = 0 ∧ show_) then pure true else flag)
  pure ({ frameType := ft, frameIsIntra := ft == 2 || ft == 0, showFrame := show_,
          showableFrame := showable, framePresentationTime := t }, er)

/-- uncompressed_header.go:237-255: `(AllowScreenContentTools, ForceIntegerMv)`. -/
def uhScreenContent (sh : SeqHeader) (frameIsIntra : Bool) : BM (Nat × Bool) := do
  let sct ← (if sh.seqForceScreenContentTools = 2 then F 1 else pure 1)
  let imv ← (if sct ≠ 0 then
      (if sh.seqForceIntegerMv = 2 then flag else pure true)
    else pure false)
  pure (sct, if frameIsIntra then true else imv)

/-- One iteration of uncompressed_header.go:477-488 in `markRefFrames`. -/
def markRefStep (refFrameId : List Nat) (cur diffLen idl : Nat) (rv : List Nat) (i : Nat) :
    Res (List Nat) := do
  let r ← goGet refFrameId (i : Nat)
  if cur > 2 ^ diffLen then
    (if r > cur ∨ (r : Int) < (cur : Int) - 2 ^ diffLen then goSet rv (i : Nat) 0 else .ok rv)
  else
    (if r > cur ∧ (r : Int) < (2 : Int) ^ idl + cur - 2 ^ diffLen then goSet rv (i : Nat) 0 else .ok rv)

/-- uncompressed_header.go:474-489 `markRefFrames`. -/
def markRefFrames (refFrameId : List Nat) (cur diffLen idl : Nat) (rv : List Nat) : Res (List Nat) :=
  (List.range 8).foldlM (markRefStep refFrameId cur diffLen idl) rv

/-- uncompressed_header.go:257-263: `CurrentFrameId`; `u.RefFrameId` is nil. -/
def uhFrameId (sh : SeqHeader) (st : FrameState) : BM (Nat × FrameState) :=
  if sh.frameIdNumbersPresent then do
    let id ← F (idLen sh)
    let rv ← BM.lift (markRefFrames [] id (sh.deltaFrameIdLengthMinusTwo + 2) (idLen sh) st.refValid)
    pure (id, { st with refValid := rv })
  else pure (0, st)

/-- uncompressed_header.go:287-298, one operating point; `bufferRemovalTime` is an empty slice, so
storing into it panics. -/
def bufferRemovalStep (h : Header) (sh : SeqHeader) (opNum : Nat) : BM Unit := do
  let p ← BM.lift (goGet sh.decoderModelPresentForThisOp (opNum : Nat))
  if p then do
    let idc ← BM.lift (goGet sh.operatingPointIdc (opNum : Nat))
    if idc = 0 ∨ ((idc >>> h.extensionHeader.temporalID) % 2 = 1 ∧
        (idc >>> h.extensionHeader.spatialID) % 2 = 1) then do
      let _ ← F (sh.decoderModelInfo.bufferRemovalTimeLengthMinusOne + 1)
      BM.fail .index
    else pure ()
  else pure ()

/-- uncompressed_header.go:283-300, the buffer removal times. -/
def uhBufferRemoval (h : Header) (sh : SeqHeader) : BM Unit :=
  if sh.decoderModelInfoPresent then do
    let present ← flag
    if present then do
      let _ ← mapBM (bufferRemovalStep h sh) (List.range (sh.operatingPointsCountMinusOne + 1))
      pure ()
    else pure ()
  else pure ()

/-- uncompressed_header.go:302-322: `RefreshFrameFlags`, and the reference order hints of
error-resilient frames (`ref_order_hint` is an empty slice, so storing into it panics). -/
def uhRefresh (sh : SeqHeader) (u : UHeader) (er : Bool) : BM Nat := do
  let rf ← (if u.frameType = 3 ∨ u.frameType = 0 ∨ u.showFrame then pure 255 else F 8)
  if (!u.frameIsIntra || rf != 255) && er && sh.enableOrderHint then do
    let _ ← F sh.orderHintBits
    BM.fail .index
  else pure rf

/-- uncompressed_header.go:224-322: everything up to the frame size. -/
def uhIds (h : Header) (sh : SeqHeader) (u : UHeader) (er : Bool) (st : FrameState) :
    BM (UHeader × FrameState) := do
  let dcu ← flag
  let (sct, imv) ← uhScreenContent sh u.frameIsIntra
  let (id, st) ← uhFrameId sh st
  let fso ← (if u.frameType = 3 then pure true
    else if sh.reducedStillPictureHeader then pure false else flag)
  let oh ← F sh.orderHintBits
  let prf ← (if u.frameIsIntra || er then pure 7 else F 3)
  uhBufferRemoval h sh
  let rf ← uhRefresh sh u er
  pure ({ u with disableCdfUpdate := dcu, allowScreenContentTools := sct, forceIntegerMv := imv,
                 currentFrameId := id, frameSizeOverrideFlag := fso, orderHint := oh,
                 primaryRefFrame := prf, refreshFrameFlags := rf }, st)

/-- uncompressed_header.go:326-332: size of an intra frame. -/
def uhIntra (sh : SeqHeader) (u : UHeader) (st : FrameState) : BM (UHeader × FrameState) := do
  let fs ← frameSize sh u.frameSizeOverrideFlag
  let (rw, rh) ← renderSize fs
  let ibc ← (if u.allowScreenContentTools ≠ 0 ∧ fs.upscaledWidth = fs.frameWidth then flag
    else pure false)
  pure ({ u with size := fs, renderWidth := rw, renderHeight := rh, allowIntraBc := ibc },
    { st with miCols := fs.miCols, miRows := fs.miRows })

/-- uncompressed_header.go:335-345: short reference signalling; `setFrameRefs` (491-493) panics. -/
def uhShortSignaling (sh : SeqHeader) : BM Unit :=
  if sh.enableOrderHint then do
    let short ← flag
    if short then do
      let _ ← F 3
      let _ ← F 3
      BM.fail (.explicit "not implemented")
    else pure ()
  else pure ()

/-- uncompressed_header.go:347-359, one reference index: it is read twice; `expectedFrameId` is an
empty slice, so storing into it panics. -/
def uhRefIdx (sh : SeqHeader) : BM Nat := do
  let _ ← F 3
  let v ← F 3
  if sh.frameIdNumbersPresent then do
    let _ ← F (sh.deltaFrameIdLengthMinusTwo + 2)
    BM.fail .index
  else pure v

/-- uncompressed_header.go:560-568 `readInterpolationFilter` (`SWITCHABLE = 4`). -/
def readInterpolationFilter : BM Nat := do
  let sw ← flag
  if sw then pure 4 else F 2

/-- One iteration of uncompressed_header.go:385-394 on `(OrderHints, RefFrameSignBias)`:
`refFrame` is the constant `LAST_FRAME + 1 = 2`. -/
def orderHintStep (sh : SeqHeader) (refOrderHint : List Nat) (orderHint : Nat)
    (acc : List Nat × List Bool) (idx : Nat) : Res (List Nat × List Bool) := do
  let hint ← goGet refOrderHint (idx : Nat)
  let ohs ← goSet acc.1 2 hint
  let d ← getRelativeDist false sh.orderHintBits hint orderHint
  let bias ← goSet acc.2 2 (if !sh.enableOrderHint then false else decide (d > 0))
  pure (ohs, bias)

/-- uncompressed_header.go:333-395: references and size of an inter frame; `frameSizeWithRefs`
(495-497) panics. -/
def uhInter (sh : SeqHeader) (u : UHeader) (er : Bool) (st : FrameState) : BM (UHeader × FrameState) := do
  uhShortSignaling sh
  let refs ← mapBM (fun _ => uhRefIdx sh) (List.range 7)
  if u.frameSizeOverrideFlag && !er then BM.fail (.explicit "not implemented")
  else do
    let fs ← frameSize sh u.frameSizeOverrideFlag
    let (rw, rh) ← renderSize fs
    let hp ← (if u.forceIntegerMv then pure false else flag)
    let filt ← readInterpolationFilter
    let sw ← flag
    let mvs ← (if er || !sh.enableRefFrameMvs then pure false else flag)
    let (ohs, bias) ← BM.lift (refs.foldlM (orderHintStep sh st.refOrderHint u.orderHint)
      (u.orderHints, u.refFrameSignBias))
    pure ({ u with size := fs, renderWidth := rw, renderHeight := rh, refFrameIdx := refs,
                   allowHighPrecisionMv := hp, interpolationFilter := filt,
                   isMotionModeSwitchable := sw, useRefFrameMvs := mvs, orderHints := ohs,
                   refFrameSignBias := bias },
      { st with miCols := fs.miCols, miRows := fs.miRows })

/-- uncompressed_header.go:584-629 `setupPastIndependence`, with `initNonCoeffCdfs` (404). -/
def setupPastIndependence (st : FrameState) : FrameState :=
  { st with nonCoeffCdfs := true
            featureEnabled := List.replicate 8 (List.replicate 8 0)
            featureData := List.replicate 8 (List.replicate 8 0)
            prevSegmentIds := List.replicate st.miRows (List.replicate st.miCols 0)
            gmType := st.gmType.take 1 ++ List.replicate 7 0
            prevGmParams := st.prevGmParams.take 1 ++ List.replicate 7 gmDefault }

/-- uncompressed_header.go:617-628, the loop filter fields assigned by `setupPastIndependence`. -/
def initialLoopFilter : LoopFilter :=
  { refDeltas := defaultRefDeltas, modeDeltas := [0, 0], deltaEnabled := true }

/-- internal/uncompressedheader/cdf.go:108-135 `initCoeffCdfs`: the table index. -/
def coeffCdfIdx (baseQIdx : Nat) : Nat :=
  if baseQIdx ≤ 20 then 0 else if baseQIdx ≤ 60 then 1 else if baseQIdx ≤ 120 then 2 else 3

/-- uncompressed_header.go:980-992 `readTxMode`. -/
def readTxMode (codedLossless : Bool) : BM Nat :=
  if codedLossless then pure 0
  else do
    let sel ← flag
    pure (if sel then 2 else 1)

/-- uncompressed_header.go:429-450: lossless computation: `(LosslessArray, SegQMLevel)`. -/
def uhLossless (seg : SegParams) (q : QuantParams) (deltaQPresent : Bool) (cur : Int) :
    Res (List (Bool × Nat)) :=
  (List.range 8).mapM (segLossless seg q deltaQPresent cur)

/-- uncompressed_header.go:415-452: tiles, quantizer, segmentation and deltas. -/
def uhQuant (sh : SeqHeader) (u : UHeader) (st : FrameState) : BM (UHeader × FrameState) := do
  let tiles ← newTileInfo sh.use128x128SuperBlock st.miCols st.miRows st.tiles.tileSizeBytes
  let q ← quantizationParams sh.colorConfig
  let seg ← segmentationParams (u.primaryRefFrame == 7) st.featureEnabled st.featureData
  let (dqp, dqr) ← deltaQParams q.baseQIdx
  let (dlp, dlr, dlm) ← deltaLfParams dqp u.allowIntraBc
  let ll ← BM.lift (uhLossless seg q dqp st.currentQIndex)
  let coded := ll.all (·.1)
  pure ({ u with quant := q, seg := seg, delta := ⟨dqp, dqr, dlp, dlr, dlm⟩,
                 losslessArray := ll.map (·.1), segQMLevel := ll.map (·.2), codedLossless := coded,
                 allLossless := coded && u.size.frameWidth == u.size.upscaledWidth },
    { st with tiles := tiles, featureEnabled := seg.featureEnabled, featureData := seg.featureData,
              coeffCdfs := some (coeffCdfIdx q.baseQIdx) })

/-- uncompressed_header.go:454-470: filters, modes, global motion, film grain.  Simplification: the
order hints of the references are fetched before `skipModeParams` decides whether to look at them
(the indices are below 8 and `RefOrderHint` is an array of 8, so the reads cannot panic). -/
def uhFilters (sh : SeqHeader) (u : UHeader) (er : Bool) (st : FrameState) :
    BM (UHeader × FrameState) := do
  let lf ← loopFilterParams u.loopFilter u.codedLossless u.allowIntraBc sh.colorConfig.numPlanes
  let cdef ← cdefParams u.codedLossless u.allowIntraBc sh.enableCdef sh.colorConfig.numPlanes
  let lr ← lrParams sh u.allLossless u.allowIntraBc st.loopRestorationSize
  let tx ← readTxMode u.codedLossless
  let rs ← (if u.frameIsIntra then pure false else flag)
  let hints ← BM.lift (u.refFrameIdx.mapM fun i => goGet st.refOrderHint (i : Nat))
  let skip ← skipModeParams false sh.orderHintBits u.frameIsIntra rs u.orderHint
    (hints.map Int.ofNat)
  let warp ← (if u.frameIsIntra || er || !sh.enableWarpedMotion then pure false else flag)
  let rts ← flag
  let gm ← globalMotionParams u.frameIsIntra st.gmType
  let fg ← filmGrainParams sh u.showFrame u.showableFrame u.frameType
  pure ({ u with loopFilter := lf, cdef := cdef, lr := lr, txMode := tx, referenceSelect := rs,
                 skipModePresent := skip, allowWarpedMotion := warp, reducedTxSet := rts,
                 gmParams := u.gmParams.take 1 ++ List.replicate 7 gmDefault, filmGrain := fg },
    { st with loopRestorationSize := lr.sizes, gmType := gm })

/-- uncompressed_header.go:224-471: the rest of `build` after the frame type.  With a primary
reference frame `loadPrevious` (631-638) panics; with motion field estimation
`motionFieldEstimation` (640-642) panics. -/
def uhRest (h : Header) (sh : SeqHeader) (u : UHeader) (er : Bool) (st : FrameState) :
    BM (UHeader × FrameState) := do
  let (u, st) ← uhIds h sh u er st
  let (u, st) ← (if u.frameIsIntra then uhIntra sh u st else uhInter sh u er st)
  let dfe ← (if sh.reducedStillPictureHeader || u.disableCdfUpdate then pure true else flag)
  if u.primaryRefFrame ≠ 7 then BM.fail (.explicit "not implemented")
  else if u.useRefFrameMvs then BM.fail (.explicit "not implemented")
  else do
    let (u, st) ← uhQuant sh { u with disableFrameEndUpdateCdf := dfe, loopFilter := initialLoopFilter }
      (setupPastIndependence st)
    uhFilters sh u er st

/-- uncompressed_header.go:143-471 `NewUncompressedHeader`. -/
def newUncompressedHeader (h : Header) (sh : SeqHeader) (st : FrameState) : BM (UHeader × FrameState) :=
  if sh.reducedStillPictureHeader then
    uhRest h sh { frameType := 0, frameIsIntra := true, showFrame := true } false st
  else do
    let se ← flag
    if se then uhShowExisting sh st
    else do
      let (u, er) ← uhFrameType sh
      uhRest h sh u er st

end Gov1
