import Verif.Spec.Headers
/-!
# The AV1 sequence header (AV1 5.5.1) of streams that are not reduced still pictures

Written from the syntax table; only the record types are shared with the model.
-/
namespace Gov1.Spec

/-- An operating point: its mask, level and tier, decoder and encoder buffer delay and low delay flag if it has a decoder model, and the initial display delay. -/
structure OperatingPoint where
  idc : Nat
  level : Nat
  tier : Nat := 0
  model : Option (Nat × Nat × Bool) := none
  delay : Option Nat := none

/-- AV1 5.5.1, one pass of the loop over the operating points. -/
def encOperatingPoint (h : SeqHeader) (o : OperatingPoint) : List Bool :=
  encF 12 o.idc ++ encF 5 o.level ++ (if 7 < o.level then encF 1 o.tier else []) ++
  (if h.decoderModelInfoPresent then
    match o.model with
    | none => bit false
    | some (d, e, l) => bit true ++ encF (h.decoderModelInfo.bufferDelayLengthMinusOne + 1) d ++
        encF (h.decoderModelInfo.bufferDelayLengthMinusOne + 1) e ++ bit l
   else []) ++
  (if h.initialDisplayDelayPresent then
    match o.delay with
    | none => bit false
    | some n => bit true ++ encF 4 n
   else [])

/-- AV1 5.5.3, 5.5.4 `timing_info`, `decoder_model_info` and the flag between them. -/
def encTiming (h : SeqHeader) : List Bool :=
  encF 32 h.timingInfo.numUnitsInDisplayTick ++ encF 32 h.timingInfo.timeScale ++
  bit h.timingInfo.equalPictureInterval ++
  (if h.timingInfo.equalPictureInterval then encUvlc h.timingInfo.numTicksPerMinuteMinusOne else []) ++
  bit h.decoderModelInfoPresent ++
  (if h.decoderModelInfoPresent then
    encF 5 h.decoderModelInfo.bufferDelayLengthMinusOne ++
    encF 32 h.decoderModelInfo.numUnitsInDecodingTick ++
    encF 5 h.decoderModelInfo.bufferRemovalTimeLengthMinusOne ++
    encF 5 h.decoderModelInfo.framePresentationTimeLengthMinusOne else [])

/-- AV1 5.5.1 `sequence_header_obu` with `reduced_still_picture_header = 0`. -/
def encSequenceAv1 (h : SeqHeader) (timing : Bool) (ops : List OperatingPoint) : List Bool :=
  encF 3 h.seqProfile ++ bit h.stillPicture ++ bit false ++
  bit timing ++ (if timing then encTiming h else []) ++
  bit h.initialDisplayDelayPresent ++ encF 5 (ops.length - 1) ++ ops.flatMap (encOperatingPoint h) ++
  encF 4 h.frameWidthBitsMinusOne ++ encF 4 h.frameHeightBitsMinusOne ++
  encF (h.frameWidthBitsMinusOne + 1) h.maxFrameWidthMinusOne ++
  encF (h.frameHeightBitsMinusOne + 1) h.maxFrameHeightMinusOne ++
  bit h.frameIdNumbersPresent ++
  (if h.frameIdNumbersPresent then
    encF 4 h.deltaFrameIdLengthMinusTwo ++ encF 3 h.additionalFrameIdLengthMinusOne else []) ++
  bit h.use128x128SuperBlock ++ bit h.enableFilterIntra ++ bit h.enableIntraEdgeFilter ++
  bit h.enableInterIntraCompound ++ bit h.enableMaskedCompound ++ bit h.enableWarpedMotion ++
  bit h.enableDualFilter ++ bit h.enableOrderHint ++
  (if h.enableOrderHint then bit h.enableJntComp ++ bit h.enableRefFrameMvs else []) ++
  bit h.seqChooseScreenContentTools ++
  (if h.seqChooseScreenContentTools then [] else encF 1 h.seqForceScreenContentTools) ++
  (if 0 < h.seqForceScreenContentTools then
    bit (h.seqForceIntegerMv == 2) ++
    (if h.seqForceIntegerMv == 2 then [] else encF 1 h.seqForceIntegerMv) else []) ++
  (if h.enableOrderHint then encF 3 (h.orderHintBits - 1) else []) ++
  bit h.enableSuperRes ++ bit h.enableCdef ++ bit h.enableRestoration ++
  encColorConfig h.seqProfile h.colorConfig ++ bit h.filmGrainParamsPresent

end Gov1.Spec
