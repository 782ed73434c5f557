import Verif.Spec.Bits
import Verif.Model.SeqHeader
/-!
# Reference encoders for the OBU header, colour configuration and sequence header

They are written from the AV1 specification's syntax tables (5.3.2, 5.3.3, 5.5.1, 5.5.2) and only
share the record types with the model.
-/
namespace Gov1.Spec

/-- one flag bit -/
def bit (b : Bool) : List Bool := [b]

/-- AV1 5.3.2 / 5.3.3 `obu_header` and `obu_extension_header`. -/
def encHeader (h : Header) : List Bool :=
  bit h.forbiddenBit ++ encF 4 h.type ++ bit h.extensionFlag ++ bit h.hasSizeField ++
  bit h.reservedBit ++
  (if h.extensionFlag then
    encF 3 h.extensionHeader.temporalID ++ encF 2 h.extensionHeader.spatialID ++
    encF 3 h.extensionHeader.reserved3Bits
   else [])

/-- The header fields fit their bit widths; absent extension fields are zero. -/
def ValidHeader (h : Header) : Prop :=
  h.type < 16 ∧ h.extensionHeader.temporalID < 8 ∧ h.extensionHeader.spatialID < 4 ∧
  h.extensionHeader.reserved3Bits < 8 ∧
  (h.extensionFlag = false → h.extensionHeader = ⟨0, 0, 0⟩)

/-- sRGB (BT.709 primaries, sRGB transfer, identity matrix): implied 4:4:4 full range. -/
def isSrgb (c : ColorConfig) : Prop :=
  c.colorPrimaries = 1 ∧ c.transferCharacteristics = 13 ∧ c.matrixCoefficients = 0

instance (c : ColorConfig) : Decidable (isSrgb c) := by unfold isSrgb; infer_instance

/-- AV1 5.5.2 `color_config`. -/
def encColorConfig (profile : Nat) (c : ColorConfig) : List Bool :=
  bit c.highBitDepth ++
  (if profile = 2 ∧ c.highBitDepth then bit c.twelveBit else []) ++
  (if profile = 1 then [] else bit c.monoChrome) ++
  bit c.colorDescriptionPresent ++
  (if c.colorDescriptionPresent then
    encF 8 c.colorPrimaries ++ encF 8 c.transferCharacteristics ++ encF 8 c.matrixCoefficients
   else []) ++
  (if c.monoChrome then bit c.colorRange
   else if isSrgb c then bit c.separateUvDeltaQ
   else bit c.colorRange ++
     (if 2 ≤ profile ∧ c.bitDepth = 12 then
       bit c.subsamplingX ++ (if c.subsamplingX then bit c.subsamplingY else [])
      else []) ++
     (if c.subsamplingX ∧ c.subsamplingY then encF 2 c.chromaSamplePosition else []) ++
     bit c.separateUvDeltaQ)

/-- The colour configurations of AV1 profiles 0, 1 and 2: bit depth, plane count, subsampling and
the implied fields. -/
structure ValidColor (profile : Nat) (c : ColorConfig) : Prop where
  profile_le : profile ≤ 2
  twelve_only : c.twelveBit = true → profile = 2 ∧ c.highBitDepth = true
  depth : c.bitDepth = if c.highBitDepth then (if c.twelveBit then 12 else 10) else 8
  mono_profile1 : profile = 1 → c.monoChrome = false
  planes : c.numPlanes = if c.monoChrome then 1 else 3
  no_desc : c.colorDescriptionPresent = false →
    c.colorPrimaries = 2 ∧ c.transferCharacteristics = 2 ∧ c.matrixCoefficients = 2
  desc_lt : c.colorPrimaries < 256 ∧ c.transferCharacteristics < 256 ∧ c.matrixCoefficients < 256
  mono : c.monoChrome = true → c.subsamplingX = true ∧ c.subsamplingY = true ∧
    c.chromaSamplePosition = 0 ∧ c.separateUvDeltaQ = false
  srgb : c.monoChrome = false → isSrgb c → c.colorRange = true ∧ c.subsamplingX = false ∧
    c.subsamplingY = false ∧ c.chromaSamplePosition = 0
  p0 : c.monoChrome = false → ¬ isSrgb c → profile = 0 → c.subsamplingX = true ∧ c.subsamplingY = true
  p1 : c.monoChrome = false → ¬ isSrgb c → profile = 1 → c.subsamplingX = false ∧ c.subsamplingY = false
  p2 : c.monoChrome = false → ¬ isSrgb c → profile = 2 → c.bitDepth ≠ 12 →
    c.subsamplingX = true ∧ c.subsamplingY = false
  vert : c.subsamplingY = true → c.subsamplingX = true
  csp_lt : c.chromaSamplePosition < 4
  csp : ¬ (c.subsamplingX = true ∧ c.subsamplingY = true) → c.chromaSamplePosition = 0

/-- AV1 5.5.1 `sequence_header_obu` for a reduced still picture header (`still_picture = 1`,
`reduced_still_picture_header = 1`): one level field, then the frame size, three tool flags and the
common tail. -/
def encReducedSeqHeader (h : SeqHeader) : List Bool :=
  encF 3 h.seqProfile ++ bit true ++ bit true ++ encF 5 (h.seqLevelIdx.headD 0) ++
  encF 4 h.frameWidthBitsMinusOne ++ encF 4 h.frameHeightBitsMinusOne ++
  encF (h.frameWidthBitsMinusOne + 1) h.maxFrameWidthMinusOne ++
  encF (h.frameHeightBitsMinusOne + 1) h.maxFrameHeightMinusOne ++
  bit h.use128x128SuperBlock ++ bit h.enableFilterIntra ++ bit h.enableIntraEdgeFilter ++
  bit h.enableSuperRes ++ bit h.enableCdef ++ bit h.enableRestoration ++
  encColorConfig h.seqProfile h.colorConfig ++ bit h.filmGrainParamsPresent

end Gov1.Spec

namespace Gov1.Spec

/-- The sequence header layout the parser of /repo accepts (its *dialect*; it differs from AV1 5.5.1
in that a 5-bit level precedes the timing flag, the operating point list is present only with timing
info and its level field takes 12 bits, and a reduced header has no frame size).  `timing` says
whether timing info is present, `idc` is the operating point mask carried with it. -/
def encDialect (h : SeqHeader) (level0 : Nat) (timing : Bool) (idc : Nat) : List Bool :=
  encF 3 h.seqProfile ++ bit h.stillPicture ++ bit h.reducedStillPictureHeader ++
  encF 5 level0 ++
  (if h.reducedStillPictureHeader then [] else
    bit timing ++
    (if timing then
      encF 32 h.timingInfo.numUnitsInDisplayTick ++ encF 32 h.timingInfo.timeScale ++
      bit h.timingInfo.equalPictureInterval ++
      (if h.timingInfo.equalPictureInterval then encUvlc h.timingInfo.numTicksPerMinuteMinusOne else []) ++
      bit h.decoderModelInfoPresent ++
      (if h.decoderModelInfoPresent then
        encF 5 h.decoderModelInfo.bufferDelayLengthMinusOne ++
        encF 32 h.decoderModelInfo.numUnitsInDecodingTick ++
        encF 5 h.decoderModelInfo.bufferRemovalTimeLengthMinusOne ++
        encF 5 h.decoderModelInfo.framePresentationTimeLengthMinusOne else []) ++
      bit h.initialDisplayDelayPresent ++ encF 5 0 ++
      encF 12 idc ++ encF 12 (h.seqLevelIdx.headD 0) ++
      (if 7 < h.seqLevelIdx.headD 0 then encF 1 (h.seqTier.headD 0) else []) ++
      (if h.decoderModelInfoPresent then bit false else []) ++
      (if h.initialDisplayDelayPresent then bit false else [])
     else []) ++
    encF 4 h.frameWidthBitsMinusOne ++ encF 4 h.frameHeightBitsMinusOne ++
    encF (h.frameWidthBitsMinusOne + 1) h.maxFrameWidthMinusOne ++
    encF (h.frameHeightBitsMinusOne + 1) h.maxFrameHeightMinusOne ++
    bit h.frameIdNumbersPresent ++
    (if h.frameIdNumbersPresent then
      encF 4 h.deltaFrameIdLengthMinusTwo ++ encF 3 h.additionalFrameIdLengthMinusOne else []) ++
    bit h.use128x128SuperBlock ++ bit h.enableFilterIntra ++ bit h.enableIntraEdgeFilter ++
    bit h.enableInterIntraCompound ++ bit h.enableMaskedCompound ++ bit h.enableWarpedMotion ++
    bit h.enableDualFilter ++ bit h.enableOrderHint ++
    (if h.enableOrderHint then bit h.enableJntComp ++ bit h.enableRefFrameMvs else []) ++
    bit h.seqChooseScreenContentTools ++
    (if h.seqChooseScreenContentTools then [] else encF 1 h.seqForceScreenContentTools) ++
    (if 0 < h.seqForceScreenContentTools then
      bit (h.seqForceIntegerMv == 2) ++
      (if h.seqForceIntegerMv == 2 then [] else encF 1 h.seqForceIntegerMv) else []) ++
    (if h.enableOrderHint then encF 3 (h.orderHintBits - 1) else [])) ++
  bit h.enableSuperRes ++ bit h.enableCdef ++ bit h.enableRestoration ++
  encColorConfig h.seqProfile h.colorConfig ++ bit h.filmGrainParamsPresent

/-- Field widths and implied values of the dialect. -/
structure ValidDialect (h : SeqHeader) (level0 : Nat) (timing : Bool) (idc : Nat) : Prop where
  color : ValidColor h.seqProfile h.colorConfig
  level0_lt : level0 < 32
  level : h.seqLevelIdx.length = 1 ∧ h.seqLevelIdx.headD 0 < 4096 ∧
    (timing = false ∨ h.reducedStillPictureHeader = true → h.seqLevelIdx = [level0])
  tier : h.seqTier.length = 1 ∧ h.seqTier.headD 0 < 2 ∧
    (h.seqLevelIdx.headD 0 ≤ 7 ∨ timing = false ∨ h.reducedStillPictureHeader = true → h.seqTier = [0])
  noOp : h.decoderModelPresentForThisOp = [false] ∧ h.initialDisplayDelayPresentForThisOp = [false] ∧
    h.initialDisplayDelayMinusOne = [] ∧ h.operatingPointIdc = [] ∧ h.operatingPointsCountMinusOne = 0 ∧
    h.decoderBufferDelay = [] ∧ h.encoderBufferDelay = [] ∧ h.lowDelayModeFlag = []
  idc_lt : idc < 4096 ∧ (timing = false ∨ h.reducedStillPictureHeader = true → idc = 0)
  noTiming : timing = false ∨ h.reducedStillPictureHeader = true →
    h.timingInfo = {} ∧ h.decoderModelInfoPresent = false ∧ h.decoderModelInfo = {} ∧
    h.initialDisplayDelayPresent = false
  timingW : h.timingInfo.numUnitsInDisplayTick < 2 ^ 32 ∧ h.timingInfo.timeScale < 2 ^ 32 ∧
    h.timingInfo.numTicksPerMinuteMinusOne < 2 ^ 32 - 1 ∧
    (h.timingInfo.equalPictureInterval = false → h.timingInfo.numTicksPerMinuteMinusOne = 0)
  dmi : h.decoderModelInfo.bufferDelayLengthMinusOne < 32 ∧
    h.decoderModelInfo.numUnitsInDecodingTick < 2 ^ 32 ∧
    h.decoderModelInfo.bufferRemovalTimeLengthMinusOne < 32 ∧
    h.decoderModelInfo.framePresentationTimeLengthMinusOne < 32 ∧
    (h.decoderModelInfoPresent = false → h.decoderModelInfo = {})
  size : h.frameWidthBitsMinusOne < 16 ∧ h.frameHeightBitsMinusOne < 16 ∧
    h.maxFrameWidthMinusOne < 2 ^ (h.frameWidthBitsMinusOne + 1) ∧
    h.maxFrameHeightMinusOne < 2 ^ (h.frameHeightBitsMinusOne + 1)
  ids : h.deltaFrameIdLengthMinusTwo < 16 ∧ h.additionalFrameIdLengthMinusOne < 8 ∧
    (h.frameIdNumbersPresent = false → h.deltaFrameIdLengthMinusTwo = 0 ∧ h.additionalFrameIdLengthMinusOne = 0)
  oh : (h.enableOrderHint = true → 1 ≤ h.orderHintBits ∧ h.orderHintBits ≤ 8) ∧
    (h.enableOrderHint = false → h.orderHintBits = 0 ∧ h.enableJntComp = false ∧ h.enableRefFrameMvs = false)
  sct : h.reducedStillPictureHeader = false →
    (if h.seqChooseScreenContentTools then h.seqForceScreenContentTools = 2
     else h.seqForceScreenContentTools < 2)
  imv : h.reducedStillPictureHeader = false →
    (h.seqForceIntegerMv ≤ 2 ∧ (h.seqForceScreenContentTools = 0 → h.seqForceIntegerMv = 2))
  profile_lt : h.seqProfile < 8
  /-- a reduced header carries none of the fields of the `!reduced` block -/
  reduced : h.reducedStillPictureHeader = true →
    h.frameWidthBitsMinusOne = 0 ∧ h.frameHeightBitsMinusOne = 0 ∧ h.maxFrameWidthMinusOne = 0 ∧
    h.maxFrameHeightMinusOne = 0 ∧ h.frameIdNumbersPresent = false ∧ h.use128x128SuperBlock = false ∧
    h.enableFilterIntra = false ∧ h.enableIntraEdgeFilter = false ∧ h.enableInterIntraCompound = false ∧
    h.enableMaskedCompound = false ∧ h.enableWarpedMotion = false ∧ h.enableOrderHint = false ∧
    h.enableDualFilter = false ∧ h.seqChooseScreenContentTools = false ∧
    h.seqForceScreenContentTools = 0 ∧ h.seqForceIntegerMv = 0

end Gov1.Spec
