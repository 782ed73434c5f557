import Verif.Model.State
/-! # Model of internal/sequenceheader/sequence_header.go -/
namespace Gov1

/-- internal/sequenceheader/sequence_header.go:61-66 `TimingInfo`. -/
structure TimingInfo where
  numUnitsInDisplayTick : Nat := 0
  timeScale : Nat := 0
  equalPictureInterval : Bool := false
  numTicksPerMinuteMinusOne : Nat := 0
  deriving DecidableEq, Repr

/-- internal/sequenceheader/sequence_header.go:68-73 `DecoderModelInfo`. -/
structure DecoderModelInfo where
  bufferDelayLengthMinusOne : Nat := 0
  numUnitsInDecodingTick : Nat := 0
  bufferRemovalTimeLengthMinusOne : Nat := 0
  framePresentationTimeLengthMinusOne : Nat := 0
  deriving DecidableEq, Repr

/-- internal/sequenceheader/sequence_header.go:75-92 `ColorConfig`. -/
structure ColorConfig where
  highBitDepth : Bool := false
  twelveBit : Bool := false
  monoChrome : Bool := false
  colorDescriptionPresent : Bool := false
  colorPrimaries : Nat := 0
  transferCharacteristics : Nat := 0
  matrixCoefficients : Nat := 0
  colorRange : Bool := false
  subsamplingX : Bool := false
  subsamplingY : Bool := false
  chromaSamplePosition : Nat := 0
  separateUvDeltaQ : Bool := false
  numPlanes : Nat := 0
  bitDepth : Nat := 0
  deriving DecidableEq, Repr

/-- internal/sequenceheader/sequence_header.go:13-59 `SequenceHeader`.  `OperatingPointIdc`,
`DecoderBufferDelay`, `EncoderBufferDelay` and `LowDelayModeFlag` are never allocated by the code:
they stay nil (empty) slices. -/
structure SeqHeader where
  seqProfile : Nat := 0
  stillPicture : Bool := false
  reducedStillPictureHeader : Bool := false
  timingInfo : TimingInfo := {}
  decoderModelInfoPresent : Bool := false
  decoderModelInfo : DecoderModelInfo := {}
  initialDisplayDelayPresent : Bool := false
  operatingPointsCountMinusOne : Nat := 0
  seqLevelIdx : List Nat := []
  seqTier : List Nat := []
  decoderModelPresentForThisOp : List Bool := []
  initialDisplayDelayPresentForThisOp : List Bool := []
  initialDisplayDelayMinusOne : List Nat := []
  operatingPointIdc : List Nat := []
  frameWidthBitsMinusOne : Nat := 0
  frameHeightBitsMinusOne : Nat := 0
  maxFrameWidthMinusOne : Nat := 0
  maxFrameHeightMinusOne : Nat := 0
  frameIdNumbersPresent : Bool := false
  additionalFrameIdLengthMinusOne : Nat := 0
  deltaFrameIdLengthMinusTwo : Nat := 0
  use128x128SuperBlock : Bool := false
  enableFilterIntra : Bool := false
  enableIntraEdgeFilter : Bool := false
  enableInterIntraCompound : Bool := false
  enableMaskedCompound : Bool := false
  enableWarpedMotion : Bool := false
  enableOrderHint : Bool := false
  enableDualFilter : Bool := false
  enableJntComp : Bool := false
  enableRefFrameMvs : Bool := false
  seqChooseScreenContentTools : Bool := false
  seqForceScreenContentTools : Nat := 0
  seqForceIntegerMv : Nat := 0
  orderHintBits : Nat := 0
  enableSuperRes : Bool := false
  enableCdef : Bool := false
  enableRestoration : Bool := false
  colorConfig : ColorConfig := {}
  filmGrainParamsPresent : Bool := false
  decoderBufferDelay : List Nat := []
  encoderBufferDelay : List Nat := []
  lowDelayModeFlag : List Bool := []
  deriving DecidableEq, Repr

/-- internal/sequenceheader/sequence_header.go:254-270 `NewTimingInfo`. -/
def newTimingInfo : BM TimingInfo := do
  let numUnitsInDisplayTick ← F 32
  let timeScale ← F 32
  let equalPictureInterval ← flag
  if equalPictureInterval then do
    let n ← uvlc
    pure { numUnitsInDisplayTick := numUnitsInDisplayTick, timeScale := timeScale,
           equalPictureInterval := equalPictureInterval, numTicksPerMinuteMinusOne := n }
  else
    pure { numUnitsInDisplayTick := numUnitsInDisplayTick, timeScale := timeScale,
           equalPictureInterval := equalPictureInterval, numTicksPerMinuteMinusOne := 0 }

/-- internal/sequenceheader/sequence_header.go:277-288, the bit depth part of `NewColorConfig`:
returns `(TwelveBit, BitDepth)`. -/
def ccBitDepth (seqProfile : Nat) (highBitDepth : Bool) : BM (Bool × Nat) :=
  if seqProfile = 2 ∧ highBitDepth then do
    let twelveBit ← flag
    pure (twelveBit, if twelveBit then 12 else 10)
  else if seqProfile ≤ 2 then pure (false, if highBitDepth then 10 else 8)
  else pure (false, 0)

/-- internal/sequenceheader/sequence_header.go:300-310, the colour description part of
`NewColorConfig`. -/
def ccDescription : BM (Bool × Nat × Nat × Nat) := do
  let present ← flag
  if present then do
    let cp ← F 8
    let tc ← F 8
    let mc ← F 8
    pure (present, cp, tc, mc)
  else pure (present, 2, 2, 2)

/-- internal/sequenceheader/sequence_header.go:328-350, the subsampling part of `NewColorConfig`. -/
def ccSubsampling (seqProfile bitDepth : Nat) : BM (Bool × Bool) :=
  if seqProfile = 0 then pure (true, true)
  else if seqProfile = 1 then pure (false, false)
  else if bitDepth = 12 then do
    let ssx ← flag
    if ssx then do
      let ssy ← flag
      pure (ssx, ssy)
    else pure (ssx, false)
  else pure (true, false)

/-- internal/sequenceheader/sequence_header.go:272-359 `NewColorConfig`. -/
def newColorConfig (seqProfile : Nat) : BM ColorConfig := do
  let highBitDepth ← flag
  let (twelveBit, bitDepth) ← ccBitDepth seqProfile highBitDepth
  let monoChrome ← (if seqProfile ≠ 1 then flag else pure false)
  let numPlanes := if monoChrome then 1 else 3
  let (present, cp, tc, mc) ← ccDescription
  let c : ColorConfig :=
    { highBitDepth := highBitDepth, twelveBit := twelveBit, bitDepth := bitDepth,
      monoChrome := monoChrome, numPlanes := numPlanes, colorDescriptionPresent := present,
      colorPrimaries := cp, transferCharacteristics := tc, matrixCoefficients := mc }
  if monoChrome then do
    let colorRange ← flag
    pure { c with colorRange := colorRange, subsamplingX := true, subsamplingY := true,
                  chromaSamplePosition := 0, separateUvDeltaQ := false }
  else if cp = 1 ∧ tc = 13 ∧ mc = 0 then do
    let separateUvDeltaQ ← flag
    pure { c with colorRange := true, subsamplingX := false, subsamplingY := false,
                  separateUvDeltaQ := separateUvDeltaQ }
  else do
    let colorRange ← flag
    let (ssx, ssy) ← ccSubsampling seqProfile bitDepth
    let csp ← (if ssx && ssy then F 2 else pure 0)
    let separateUvDeltaQ ← flag
    pure { c with colorRange := colorRange, subsamplingX := ssx, subsamplingY := ssy,
                  chromaSamplePosition := csp, separateUvDeltaQ := separateUvDeltaQ }

/-- internal/sequenceheader/sequence_header.go:362-368 `operatingParametersInfo(op)`. -/
def operatingParametersInfo (sh : SeqHeader) (op : Nat) : BM SeqHeader := do
  let n := sh.decoderModelInfo.bufferDelayLengthMinusOne + 1
  let d ← F n
  let dbd ← BM.lift (goSet sh.decoderBufferDelay op d)
  let e ← F n
  let ebd ← BM.lift (goSet sh.encoderBufferDelay op e)
  let l ← flag
  let ldm ← BM.lift (goSet sh.lowDelayModeFlag op l)
  pure { sh with decoderBufferDelay := dbd, encoderBufferDelay := ebd, lowDelayModeFlag := ldm }

/-- One iteration of internal/sequenceheader/sequence_header.go:137-163, the operating point loop of
`NewSequenceHeader`.  `idcs` is the local `operatingPointIdcArray`.  In Go an indexed assignment
evaluates its right-hand side (the read) before the bounds check panics; both orders panic. -/
def opPointStep (s : SeqHeader) (idcs : List Nat) (i : Nat) : BM (SeqHeader × List Nat) := do
  let idc ← F 12
  let idcs ← BM.lift (goSet idcs i idc)
  let lvl ← F 12
  let seqLevelIdx ← BM.lift (goSet s.seqLevelIdx i lvl)
  let s := { s with seqLevelIdx := seqLevelIdx }
  let tier ← (if lvl > 7 then F 1 else pure 0)
  let seqTier ← BM.lift (goSet s.seqTier i tier)
  let s := { s with seqTier := seqTier }
  let s ← (if s.decoderModelInfoPresent then do
      let present ← flag
      let l ← BM.lift (goSet s.decoderModelPresentForThisOp i present)
      let s := { s with decoderModelPresentForThisOp := l }
      if present then operatingParametersInfo s i else pure s
    else do
      let l ← BM.lift (goSet s.decoderModelPresentForThisOp i false)
      pure { s with decoderModelPresentForThisOp := l })
  let s ← (if s.initialDisplayDelayPresent then do
      let present ← flag
      let l ← BM.lift (goSet s.initialDisplayDelayPresentForThisOp i present)
      let s := { s with initialDisplayDelayPresentForThisOp := l }
      if present then do
        let v ← F 4
        let l ← BM.lift (goSet s.initialDisplayDelayMinusOne i v)
        pure { s with initialDisplayDelayMinusOne := l }
      else pure s
    else pure s)
  pure (s, idcs)

/-- internal/sequenceheader/sequence_header.go:137-163 the operating point loop, `k` iterations
left. -/
def opPointLoop : Nat → Nat → SeqHeader → List Nat → BM (SeqHeader × List Nat)
  | 0, _, s, idcs => pure (s, idcs)
  | k + 1, i, s, idcs => do
    let (s, idcs) ← opPointStep s idcs i
    opPointLoop k (i + 1) s idcs

/-- internal/sequenceheader/sequence_header.go:121-164, `if timingInfoPresent { … }`. -/
def seqTiming (s : SeqHeader) (idcs : List Nat) : BM (SeqHeader × List Nat) := do
  let ti ← newTimingInfo
  let s := { s with timingInfo := ti }
  let dmp ← flag
  let s := { s with decoderModelInfoPresent := dmp }
  let s ← (if dmp then do
      let a ← F 5
      let b ← F 32
      let c ← F 5
      let d ← F 5
      pure { s with decoderModelInfo :=
        { bufferDelayLengthMinusOne := a, numUnitsInDecodingTick := b,
          bufferRemovalTimeLengthMinusOne := c, framePresentationTimeLengthMinusOne := d } }
    else pure s)
  let iddp ← flag
  let cnt ← F 5
  let s := { s with initialDisplayDelayPresent := iddp, operatingPointsCountMinusOne := cnt }
  opPointLoop (cnt + 1) 0 s idcs

/-- internal/sequenceheader/sequence_header.go:168-188, frame size and frame id part. -/
def seqFrameSize (s : SeqHeader) : BM SeqHeader := do
  let fw ← F 4
  let fh ← F 4
  let mw ← F (fw + 1)
  let mh ← F (fh + 1)
  let s := { s with frameWidthBitsMinusOne := fw, frameHeightBitsMinusOne := fh,
                    maxFrameWidthMinusOne := mw, maxFrameHeightMinusOne := mh }
  let fid ← (if s.reducedStillPictureHeader then pure false else flag)
  let s := { s with frameIdNumbersPresent := fid }
  if fid then do
    let d ← F 4
    let a ← F 3
    pure { s with deltaFrameIdLengthMinusTwo := d, additionalFrameIdLengthMinusOne := a }
  else pure s

/-- internal/sequenceheader/sequence_header.go:220-237, screen content tools and integer mv: returns
`(SeqChooseScreenContentTools, SeqForceScreenContentTools, SeqForceIntegerMv)`. -/
def seqScreenContent : BM (Bool × Nat × Nat) := do
  let choose ← flag
  let force ← (if choose then pure 2 else F 1)
  if force > 0 then do
    let chooseMv ← flag
    let mv ← (if chooseMv then pure 2 else F 1)
    pure (choose, force, mv)
  else pure (choose, force, 2)

/-- internal/sequenceheader/sequence_header.go:190-242, the tool flags (inside `if
!ReducedStillPictureHeader`, so the nested test of line 209 is true). -/
def seqTools (s : SeqHeader) : BM SeqHeader := do
  let u128 ← flag
  let fi ← flag
  let ief ← flag
  let s := { s with use128x128SuperBlock := u128, enableFilterIntra := fi,
                    enableIntraEdgeFilter := ief, seqForceScreenContentTools := 2,
                    seqForceIntegerMv := 2, orderHintBits := 0 }
  if !s.reducedStillPictureHeader then do
    let iic ← flag
    let mc ← flag
    let wm ← flag
    let df ← flag
    let oh ← flag
    let s := { s with enableInterIntraCompound := iic, enableMaskedCompound := mc,
                      enableWarpedMotion := wm, enableDualFilter := df, enableOrderHint := oh }
    let s ← (if oh then do
        let jc ← flag
        let rmv ← flag
        pure { s with enableJntComp := jc, enableRefFrameMvs := rmv }
      else pure s)
    let (choose, force, mv) ← seqScreenContent
    let s := { s with seqChooseScreenContentTools := choose, seqForceScreenContentTools := force,
                      seqForceIntegerMv := mv }
    if oh then do
      let n ← F 3
      pure { s with orderHintBits := n + 1 }
    else pure s
  else pure s

/-- internal/sequenceheader/sequence_header.go:371-374 `chooseOperatingPoint`. -/
def chooseOperatingPoint : Int := 0

/-- internal/sequenceheader/sequence_header.go:119-243, the body of
`if !s.ReducedStillPictureHeader`. -/
def seqBody (s : SeqHeader) (idcs : List Nat) (st : State) : BM (SeqHeader × State) := do
  let timingInfoPresent ← flag
  let (s, idcs) ← (if timingInfoPresent then seqTiming s idcs else pure (s, idcs))
  let idc ← BM.lift (goGet idcs chooseOperatingPoint)
  let st := { st with operatingPointIdc := idc }
  let s ← seqFrameSize s
  let s ← seqTools s
  pure (s, st)

/-- internal/sequenceheader/sequence_header.go:101-252 `NewSequenceHeader`. -/
def newSequenceHeader (st : State) : BM (SeqHeader × State) := do
  let profile ← F 3
  let still ← flag
  let reduced ← flag
  let level ← F 5
  let s : SeqHeader :=
    { seqProfile := profile, stillPicture := still, reducedStillPictureHeader := reduced,
      seqLevelIdx := [level], seqTier := [0], decoderModelPresentForThisOp := [false],
      initialDisplayDelayPresentForThisOp := [false], initialDisplayDelayMinusOne := [] }
  let (s, st) ← (if !reduced then seqBody s [0] st else pure (s, st))
  let sr ← flag
  let cdef ← flag
  let lr ← flag
  let cc ← newColorConfig s.seqProfile
  let fg ← flag
  pure ({ s with enableSuperRes := sr, enableCdef := cdef, enableRestoration := lr,
                 colorConfig := cc, filmGrainParamsPresent := fg }, st)

end Gov1
