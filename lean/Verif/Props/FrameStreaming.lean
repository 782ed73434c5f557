import Verif.Model.FrameHeader
import Verif.Lemmas.MapBM
import Verif.Props.Tiles
/-! # C07 for the uncompressed header -/
namespace Gov1
namespace Streaming

theorem readDeltaQ : Streaming Gov1.readDeltaQ := by
  unfold Gov1.readDeltaQ
  repeat first | exact Streaming.flag | exact Streaming.su _ | streaming_step
theorem segFeature (j : Nat) : Streaming (Gov1.segFeature j) := by
  unfold Gov1.segFeature
  repeat first | exact Streaming.flag | exact Streaming.su _ | streaming_step
theorem lfDelta (d : Int) : Streaming (Gov1.lfDelta d) := by
  unfold Gov1.lfDelta
  repeat first | exact Streaming.flag | exact Streaming.su _ | streaming_step
theorem cdefSec : Streaming Gov1.cdefSec := by
  unfold Gov1.cdefSec
  repeat streaming_step
theorem cdefStrength (n : Nat) : Streaming (Gov1.cdefStrength n) := by
  unfold Gov1.cdefStrength
  repeat first | exact Streaming.cdefSec | streaming_step
theorem gmTypeOf : Streaming Gov1.gmTypeOf := by
  unfold Gov1.gmTypeOf
  repeat first | exact Streaming.flag | streaming_step
theorem grainPoints : Streaming Gov1.grainPoints := by
  unfold Gov1.grainPoints Gov1.grainPoint
  repeat first | exact Streaming.mapBM (fun _ => by repeat streaming_step) _ | streaming_step
theorem bufferRemovalStep (h : Header) (sh : SeqHeader) (n : Nat) :
    Streaming (Gov1.bufferRemovalStep h sh n) := by
  unfold Gov1.bufferRemovalStep
  repeat streaming_step
theorem uhRefIdx (sh : SeqHeader) : Streaming (Gov1.uhRefIdx sh) := by
  unfold Gov1.uhRefIdx
  repeat streaming_step

theorem superResParams (sh : SeqHeader) : Streaming (Gov1.superResParams sh) := by
  unfold Gov1.superResParams
  repeat first
    | exact Streaming.flag | exact Streaming.su _ | exact C07_tileInfo_streaming _ _ _ _
    | exact Streaming.readDeltaQ | exact Streaming.grainPoints
    | exact Streaming.mapBM (fun _ => Streaming.mapBM (fun _ => Streaming.segFeature _) _) _
    | exact Streaming.mapBM (fun _ => Streaming.lfDelta _) _
    | exact Streaming.mapBM (fun _ => Streaming.cdefStrength _) _
    | exact Streaming.mapBM (fun _ => Streaming.gmTypeOf) _
    | exact Streaming.mapBM (fun _ => Streaming.bufferRemovalStep _ _ _) _
    | exact Streaming.mapBM (fun _ => Streaming.uhRefIdx _) _
    | exact Streaming.mapBM (fun _ => by repeat streaming_step) _
    | streaming_step
theorem frameSize (sh : SeqHeader) (o : Bool) : Streaming (Gov1.frameSize sh o) := by
  unfold Gov1.frameSize
  repeat first
    | exact Streaming.flag | exact Streaming.su _ | exact C07_tileInfo_streaming _ _ _ _
    | exact Streaming.readDeltaQ | exact Streaming.grainPoints
    | exact Streaming.mapBM (fun _ => Streaming.mapBM (fun _ => Streaming.segFeature _) _) _
    | exact Streaming.mapBM (fun _ => Streaming.lfDelta _) _
    | exact Streaming.mapBM (fun _ => Streaming.cdefStrength _) _
    | exact Streaming.mapBM (fun _ => Streaming.gmTypeOf) _
    | exact Streaming.mapBM (fun _ => Streaming.bufferRemovalStep _ _ _) _
    | exact Streaming.mapBM (fun _ => Streaming.uhRefIdx _) _
    | exact Streaming.mapBM (fun _ => by repeat streaming_step) _
    | exact Streaming.superResParams _
    | streaming_step
theorem renderSize (fs : FrameSize) : Streaming (Gov1.renderSize fs) := by
  unfold Gov1.renderSize
  repeat first
    | exact Streaming.flag | exact Streaming.su _ | exact C07_tileInfo_streaming _ _ _ _
    | exact Streaming.readDeltaQ | exact Streaming.grainPoints
    | exact Streaming.mapBM (fun _ => Streaming.mapBM (fun _ => Streaming.segFeature _) _) _
    | exact Streaming.mapBM (fun _ => Streaming.lfDelta _) _
    | exact Streaming.mapBM (fun _ => Streaming.cdefStrength _) _
    | exact Streaming.mapBM (fun _ => Streaming.gmTypeOf) _
    | exact Streaming.mapBM (fun _ => Streaming.bufferRemovalStep _ _ _) _
    | exact Streaming.mapBM (fun _ => Streaming.uhRefIdx _) _
    | exact Streaming.mapBM (fun _ => by repeat streaming_step) _
    | streaming_step
theorem chromaDeltaQ (cc : ColorConfig) : Streaming (Gov1.chromaDeltaQ cc) := by
  unfold Gov1.chromaDeltaQ
  repeat first
    | exact Streaming.flag | exact Streaming.su _ | exact C07_tileInfo_streaming _ _ _ _
    | exact Streaming.readDeltaQ | exact Streaming.grainPoints
    | exact Streaming.mapBM (fun _ => Streaming.mapBM (fun _ => Streaming.segFeature _) _) _
    | exact Streaming.mapBM (fun _ => Streaming.lfDelta _) _
    | exact Streaming.mapBM (fun _ => Streaming.cdefStrength _) _
    | exact Streaming.mapBM (fun _ => Streaming.gmTypeOf) _
    | exact Streaming.mapBM (fun _ => Streaming.bufferRemovalStep _ _ _) _
    | exact Streaming.mapBM (fun _ => Streaming.uhRefIdx _) _
    | exact Streaming.mapBM (fun _ => by repeat streaming_step) _
    | streaming_step
theorem qmParams (cc : ColorConfig) : Streaming (Gov1.qmParams cc) := by
  unfold Gov1.qmParams
  repeat first
    | exact Streaming.flag | exact Streaming.su _ | exact C07_tileInfo_streaming _ _ _ _
    | exact Streaming.readDeltaQ | exact Streaming.grainPoints
    | exact Streaming.mapBM (fun _ => Streaming.mapBM (fun _ => Streaming.segFeature _) _) _
    | exact Streaming.mapBM (fun _ => Streaming.lfDelta _) _
    | exact Streaming.mapBM (fun _ => Streaming.cdefStrength _) _
    | exact Streaming.mapBM (fun _ => Streaming.gmTypeOf) _
    | exact Streaming.mapBM (fun _ => Streaming.bufferRemovalStep _ _ _) _
    | exact Streaming.mapBM (fun _ => Streaming.uhRefIdx _) _
    | exact Streaming.mapBM (fun _ => by repeat streaming_step) _
    | streaming_step
theorem quantizationParams (cc : ColorConfig) : Streaming (Gov1.quantizationParams cc) := by
  unfold Gov1.quantizationParams
  repeat first
    | exact Streaming.flag | exact Streaming.su _ | exact C07_tileInfo_streaming _ _ _ _
    | exact Streaming.readDeltaQ | exact Streaming.grainPoints
    | exact Streaming.mapBM (fun _ => Streaming.mapBM (fun _ => Streaming.segFeature _) _) _
    | exact Streaming.mapBM (fun _ => Streaming.lfDelta _) _
    | exact Streaming.mapBM (fun _ => Streaming.cdefStrength _) _
    | exact Streaming.mapBM (fun _ => Streaming.gmTypeOf) _
    | exact Streaming.mapBM (fun _ => Streaming.bufferRemovalStep _ _ _) _
    | exact Streaming.mapBM (fun _ => Streaming.uhRefIdx _) _
    | exact Streaming.mapBM (fun _ => by repeat streaming_step) _
    | exact Streaming.chromaDeltaQ _
    | exact Streaming.qmParams _
    | streaming_step
theorem segUpdates (b : Bool) : Streaming (Gov1.segUpdates b) := by
  unfold Gov1.segUpdates
  repeat first
    | exact Streaming.flag | exact Streaming.su _ | exact C07_tileInfo_streaming _ _ _ _
    | exact Streaming.readDeltaQ | exact Streaming.grainPoints
    | exact Streaming.mapBM (fun _ => Streaming.mapBM (fun _ => Streaming.segFeature _) _) _
    | exact Streaming.mapBM (fun _ => Streaming.lfDelta _) _
    | exact Streaming.mapBM (fun _ => Streaming.cdefStrength _) _
    | exact Streaming.mapBM (fun _ => Streaming.gmTypeOf) _
    | exact Streaming.mapBM (fun _ => Streaming.bufferRemovalStep _ _ _) _
    | exact Streaming.mapBM (fun _ => Streaming.uhRefIdx _) _
    | exact Streaming.mapBM (fun _ => by repeat streaming_step) _
    | streaming_step
theorem segFeatures  : Streaming (Gov1.segFeatures ) := by
  unfold Gov1.segFeatures
  repeat first
    | exact Streaming.flag | exact Streaming.su _ | exact C07_tileInfo_streaming _ _ _ _
    | exact Streaming.readDeltaQ | exact Streaming.grainPoints
    | exact Streaming.mapBM (fun _ => Streaming.mapBM (fun _ => Streaming.segFeature _) _) _
    | exact Streaming.mapBM (fun _ => Streaming.lfDelta _) _
    | exact Streaming.mapBM (fun _ => Streaming.cdefStrength _) _
    | exact Streaming.mapBM (fun _ => Streaming.gmTypeOf) _
    | exact Streaming.mapBM (fun _ => Streaming.bufferRemovalStep _ _ _) _
    | exact Streaming.mapBM (fun _ => Streaming.uhRefIdx _) _
    | exact Streaming.mapBM (fun _ => by repeat streaming_step) _
    | streaming_step
theorem segmentationParams (b : Bool) (e : List (List Nat)) (d : List (List Int)) : Streaming (Gov1.segmentationParams b e d) := by
  unfold Gov1.segmentationParams
  repeat first
    | exact Streaming.flag | exact Streaming.su _ | exact C07_tileInfo_streaming _ _ _ _
    | exact Streaming.readDeltaQ | exact Streaming.grainPoints
    | exact Streaming.mapBM (fun _ => Streaming.mapBM (fun _ => Streaming.segFeature _) _) _
    | exact Streaming.mapBM (fun _ => Streaming.lfDelta _) _
    | exact Streaming.mapBM (fun _ => Streaming.cdefStrength _) _
    | exact Streaming.mapBM (fun _ => Streaming.gmTypeOf) _
    | exact Streaming.mapBM (fun _ => Streaming.bufferRemovalStep _ _ _) _
    | exact Streaming.mapBM (fun _ => Streaming.uhRefIdx _) _
    | exact Streaming.mapBM (fun _ => by repeat streaming_step) _
    | exact Streaming.segUpdates _
    | exact Streaming.segFeatures
    | streaming_step
theorem deltaQParams (b : Nat) : Streaming (Gov1.deltaQParams b) := by
  unfold Gov1.deltaQParams
  repeat first
    | exact Streaming.flag | exact Streaming.su _ | exact C07_tileInfo_streaming _ _ _ _
    | exact Streaming.readDeltaQ | exact Streaming.grainPoints
    | exact Streaming.mapBM (fun _ => Streaming.mapBM (fun _ => Streaming.segFeature _) _) _
    | exact Streaming.mapBM (fun _ => Streaming.lfDelta _) _
    | exact Streaming.mapBM (fun _ => Streaming.cdefStrength _) _
    | exact Streaming.mapBM (fun _ => Streaming.gmTypeOf) _
    | exact Streaming.mapBM (fun _ => Streaming.bufferRemovalStep _ _ _) _
    | exact Streaming.mapBM (fun _ => Streaming.uhRefIdx _) _
    | exact Streaming.mapBM (fun _ => by repeat streaming_step) _
    | streaming_step
theorem deltaLfParams (b c : Bool) : Streaming (Gov1.deltaLfParams b c) := by
  unfold Gov1.deltaLfParams
  repeat first
    | exact Streaming.flag | exact Streaming.su _ | exact C07_tileInfo_streaming _ _ _ _
    | exact Streaming.readDeltaQ | exact Streaming.grainPoints
    | exact Streaming.mapBM (fun _ => Streaming.mapBM (fun _ => Streaming.segFeature _) _) _
    | exact Streaming.mapBM (fun _ => Streaming.lfDelta _) _
    | exact Streaming.mapBM (fun _ => Streaming.cdefStrength _) _
    | exact Streaming.mapBM (fun _ => Streaming.gmTypeOf) _
    | exact Streaming.mapBM (fun _ => Streaming.bufferRemovalStep _ _ _) _
    | exact Streaming.mapBM (fun _ => Streaming.uhRefIdx _) _
    | exact Streaming.mapBM (fun _ => by repeat streaming_step) _
    | streaming_step
theorem loopFilterParams (o : LoopFilter) (a b : Bool) (n : Nat) : Streaming (Gov1.loopFilterParams o a b n) := by
  unfold Gov1.loopFilterParams
  repeat first
    | exact Streaming.flag | exact Streaming.su _ | exact C07_tileInfo_streaming _ _ _ _
    | exact Streaming.readDeltaQ | exact Streaming.grainPoints
    | exact Streaming.mapBM (fun _ => Streaming.mapBM (fun _ => Streaming.segFeature _) _) _
    | exact Streaming.mapBM (fun _ => Streaming.lfDelta _) _
    | exact Streaming.mapBM (fun _ => Streaming.cdefStrength _) _
    | exact Streaming.mapBM (fun _ => Streaming.gmTypeOf) _
    | exact Streaming.mapBM (fun _ => Streaming.bufferRemovalStep _ _ _) _
    | exact Streaming.mapBM (fun _ => Streaming.uhRefIdx _) _
    | exact Streaming.mapBM (fun _ => by repeat streaming_step) _
    | streaming_step
theorem cdefParams (a b c : Bool) (n : Nat) : Streaming (Gov1.cdefParams a b c n) := by
  unfold Gov1.cdefParams
  repeat first
    | exact Streaming.flag | exact Streaming.su _ | exact C07_tileInfo_streaming _ _ _ _
    | exact Streaming.readDeltaQ | exact Streaming.grainPoints
    | exact Streaming.mapBM (fun _ => Streaming.mapBM (fun _ => Streaming.segFeature _) _) _
    | exact Streaming.mapBM (fun _ => Streaming.lfDelta _) _
    | exact Streaming.mapBM (fun _ => Streaming.cdefStrength _) _
    | exact Streaming.mapBM (fun _ => Streaming.gmTypeOf) _
    | exact Streaming.mapBM (fun _ => Streaming.bufferRemovalStep _ _ _) _
    | exact Streaming.mapBM (fun _ => Streaming.uhRefIdx _) _
    | exact Streaming.mapBM (fun _ => by repeat streaming_step) _
    | streaming_step
theorem lrUnitShift (u : Bool) : Streaming (Gov1.lrUnitShift u) := by
  unfold Gov1.lrUnitShift
  repeat first
    | exact Streaming.flag | exact Streaming.su _ | exact C07_tileInfo_streaming _ _ _ _
    | exact Streaming.readDeltaQ | exact Streaming.grainPoints
    | exact Streaming.mapBM (fun _ => Streaming.mapBM (fun _ => Streaming.segFeature _) _) _
    | exact Streaming.mapBM (fun _ => Streaming.lfDelta _) _
    | exact Streaming.mapBM (fun _ => Streaming.cdefStrength _) _
    | exact Streaming.mapBM (fun _ => Streaming.gmTypeOf) _
    | exact Streaming.mapBM (fun _ => Streaming.bufferRemovalStep _ _ _) _
    | exact Streaming.mapBM (fun _ => Streaming.uhRefIdx _) _
    | exact Streaming.mapBM (fun _ => by repeat streaming_step) _
    | streaming_step
theorem lrParams (sh : SeqHeader) (a b : Bool) (o : List Nat) : Streaming (Gov1.lrParams sh a b o) := by
  unfold Gov1.lrParams
  repeat first
    | exact Streaming.flag | exact Streaming.su _ | exact C07_tileInfo_streaming _ _ _ _
    | exact Streaming.readDeltaQ | exact Streaming.grainPoints
    | exact Streaming.mapBM (fun _ => Streaming.mapBM (fun _ => Streaming.segFeature _) _) _
    | exact Streaming.mapBM (fun _ => Streaming.lfDelta _) _
    | exact Streaming.mapBM (fun _ => Streaming.cdefStrength _) _
    | exact Streaming.mapBM (fun _ => Streaming.gmTypeOf) _
    | exact Streaming.mapBM (fun _ => Streaming.bufferRemovalStep _ _ _) _
    | exact Streaming.mapBM (fun _ => Streaming.uhRefIdx _) _
    | exact Streaming.mapBM (fun _ => by repeat streaming_step) _
    | exact Streaming.lrUnitShift _
    | streaming_step
theorem skipModeParams (a : Bool) (n : Nat) (b c : Bool) (o : Int) (l : List Int) : Streaming (Gov1.skipModeParams a n b c o l) := by
  unfold Gov1.skipModeParams
  repeat first
    | exact Streaming.flag | exact Streaming.su _ | exact C07_tileInfo_streaming _ _ _ _
    | exact Streaming.readDeltaQ | exact Streaming.grainPoints
    | exact Streaming.mapBM (fun _ => Streaming.mapBM (fun _ => Streaming.segFeature _) _) _
    | exact Streaming.mapBM (fun _ => Streaming.lfDelta _) _
    | exact Streaming.mapBM (fun _ => Streaming.cdefStrength _) _
    | exact Streaming.mapBM (fun _ => Streaming.gmTypeOf) _
    | exact Streaming.mapBM (fun _ => Streaming.bufferRemovalStep _ _ _) _
    | exact Streaming.mapBM (fun _ => Streaming.uhRefIdx _) _
    | exact Streaming.mapBM (fun _ => by repeat streaming_step) _
    | streaming_step
theorem globalMotionParams (b : Bool) (o : List Nat) : Streaming (Gov1.globalMotionParams b o) := by
  unfold Gov1.globalMotionParams
  repeat first
    | exact Streaming.flag | exact Streaming.su _ | exact C07_tileInfo_streaming _ _ _ _
    | exact Streaming.readDeltaQ | exact Streaming.grainPoints
    | exact Streaming.mapBM (fun _ => Streaming.mapBM (fun _ => Streaming.segFeature _) _) _
    | exact Streaming.mapBM (fun _ => Streaming.lfDelta _) _
    | exact Streaming.mapBM (fun _ => Streaming.cdefStrength _) _
    | exact Streaming.mapBM (fun _ => Streaming.gmTypeOf) _
    | exact Streaming.mapBM (fun _ => Streaming.bufferRemovalStep _ _ _) _
    | exact Streaming.mapBM (fun _ => Streaming.uhRefIdx _) _
    | exact Streaming.mapBM (fun _ => by repeat streaming_step) _
    | streaming_step
theorem chromaPoints (cc : ColorConfig) (b : Bool) (n : Nat) : Streaming (Gov1.chromaPoints cc b n) := by
  unfold Gov1.chromaPoints
  repeat first
    | exact Streaming.flag | exact Streaming.su _ | exact C07_tileInfo_streaming _ _ _ _
    | exact Streaming.readDeltaQ | exact Streaming.grainPoints
    | exact Streaming.mapBM (fun _ => Streaming.mapBM (fun _ => Streaming.segFeature _) _) _
    | exact Streaming.mapBM (fun _ => Streaming.lfDelta _) _
    | exact Streaming.mapBM (fun _ => Streaming.cdefStrength _) _
    | exact Streaming.mapBM (fun _ => Streaming.gmTypeOf) _
    | exact Streaming.mapBM (fun _ => Streaming.bufferRemovalStep _ _ _) _
    | exact Streaming.mapBM (fun _ => Streaming.uhRefIdx _) _
    | exact Streaming.mapBM (fun _ => by repeat streaming_step) _
    | streaming_step
theorem grainCoeffs (b : Bool) (n : Nat) : Streaming (Gov1.grainCoeffs b n) := by
  unfold Gov1.grainCoeffs
  repeat first
    | exact Streaming.flag | exact Streaming.su _ | exact C07_tileInfo_streaming _ _ _ _
    | exact Streaming.readDeltaQ | exact Streaming.grainPoints
    | exact Streaming.mapBM (fun _ => Streaming.mapBM (fun _ => Streaming.segFeature _) _) _
    | exact Streaming.mapBM (fun _ => Streaming.lfDelta _) _
    | exact Streaming.mapBM (fun _ => Streaming.cdefStrength _) _
    | exact Streaming.mapBM (fun _ => Streaming.gmTypeOf) _
    | exact Streaming.mapBM (fun _ => Streaming.bufferRemovalStep _ _ _) _
    | exact Streaming.mapBM (fun _ => Streaming.uhRefIdx _) _
    | exact Streaming.mapBM (fun _ => by repeat streaming_step) _
    | streaming_step
theorem grainChroma (b : Bool) : Streaming (Gov1.grainChroma b) := by
  unfold Gov1.grainChroma
  repeat first
    | exact Streaming.flag | exact Streaming.su _ | exact C07_tileInfo_streaming _ _ _ _
    | exact Streaming.readDeltaQ | exact Streaming.grainPoints
    | exact Streaming.mapBM (fun _ => Streaming.mapBM (fun _ => Streaming.segFeature _) _) _
    | exact Streaming.mapBM (fun _ => Streaming.lfDelta _) _
    | exact Streaming.mapBM (fun _ => Streaming.cdefStrength _) _
    | exact Streaming.mapBM (fun _ => Streaming.gmTypeOf) _
    | exact Streaming.mapBM (fun _ => Streaming.bufferRemovalStep _ _ _) _
    | exact Streaming.mapBM (fun _ => Streaming.uhRefIdx _) _
    | exact Streaming.mapBM (fun _ => by repeat streaming_step) _
    | streaming_step
theorem grainUpdate (cc : ColorConfig) (n : Nat) : Streaming (Gov1.grainUpdate cc n) := by
  unfold Gov1.grainUpdate
  repeat first
    | exact Streaming.flag | exact Streaming.su _ | exact C07_tileInfo_streaming _ _ _ _
    | exact Streaming.readDeltaQ | exact Streaming.grainPoints
    | exact Streaming.mapBM (fun _ => Streaming.mapBM (fun _ => Streaming.segFeature _) _) _
    | exact Streaming.mapBM (fun _ => Streaming.lfDelta _) _
    | exact Streaming.mapBM (fun _ => Streaming.cdefStrength _) _
    | exact Streaming.mapBM (fun _ => Streaming.gmTypeOf) _
    | exact Streaming.mapBM (fun _ => Streaming.bufferRemovalStep _ _ _) _
    | exact Streaming.mapBM (fun _ => Streaming.uhRefIdx _) _
    | exact Streaming.mapBM (fun _ => by repeat streaming_step) _
    | exact Streaming.chromaPoints _ _ _
    | exact Streaming.grainCoeffs _ _
    | exact Streaming.grainChroma _
    | streaming_step
theorem filmGrainParams (sh : SeqHeader) (a b : Bool) (n : Nat) : Streaming (Gov1.filmGrainParams sh a b n) := by
  unfold Gov1.filmGrainParams
  repeat first
    | exact Streaming.flag | exact Streaming.su _ | exact C07_tileInfo_streaming _ _ _ _
    | exact Streaming.readDeltaQ | exact Streaming.grainPoints
    | exact Streaming.mapBM (fun _ => Streaming.mapBM (fun _ => Streaming.segFeature _) _) _
    | exact Streaming.mapBM (fun _ => Streaming.lfDelta _) _
    | exact Streaming.mapBM (fun _ => Streaming.cdefStrength _) _
    | exact Streaming.mapBM (fun _ => Streaming.gmTypeOf) _
    | exact Streaming.mapBM (fun _ => Streaming.bufferRemovalStep _ _ _) _
    | exact Streaming.mapBM (fun _ => Streaming.uhRefIdx _) _
    | exact Streaming.mapBM (fun _ => by repeat streaming_step) _
    | exact Streaming.grainUpdate _ _
    | streaming_step
theorem temporalPoint (sh : SeqHeader) (b : Bool) : Streaming (Gov1.temporalPoint sh b) := by
  unfold Gov1.temporalPoint
  repeat first
    | exact Streaming.flag | exact Streaming.su _ | exact C07_tileInfo_streaming _ _ _ _
    | exact Streaming.readDeltaQ | exact Streaming.grainPoints
    | exact Streaming.mapBM (fun _ => Streaming.mapBM (fun _ => Streaming.segFeature _) _) _
    | exact Streaming.mapBM (fun _ => Streaming.lfDelta _) _
    | exact Streaming.mapBM (fun _ => Streaming.cdefStrength _) _
    | exact Streaming.mapBM (fun _ => Streaming.gmTypeOf) _
    | exact Streaming.mapBM (fun _ => Streaming.bufferRemovalStep _ _ _) _
    | exact Streaming.mapBM (fun _ => Streaming.uhRefIdx _) _
    | exact Streaming.mapBM (fun _ => by repeat streaming_step) _
    | streaming_step
theorem uhShowExisting (sh : SeqHeader) (st : FrameState) : Streaming (Gov1.uhShowExisting sh st) := by
  unfold Gov1.uhShowExisting
  repeat first
    | exact Streaming.flag | exact Streaming.su _ | exact C07_tileInfo_streaming _ _ _ _
    | exact Streaming.readDeltaQ | exact Streaming.grainPoints
    | exact Streaming.mapBM (fun _ => Streaming.mapBM (fun _ => Streaming.segFeature _) _) _
    | exact Streaming.mapBM (fun _ => Streaming.lfDelta _) _
    | exact Streaming.mapBM (fun _ => Streaming.cdefStrength _) _
    | exact Streaming.mapBM (fun _ => Streaming.gmTypeOf) _
    | exact Streaming.mapBM (fun _ => Streaming.bufferRemovalStep _ _ _) _
    | exact Streaming.mapBM (fun _ => Streaming.uhRefIdx _) _
    | exact Streaming.mapBM (fun _ => by repeat streaming_step) _
    | exact Streaming.temporalPoint _ _
    | streaming_step
theorem uhFrameType (sh : SeqHeader) : Streaming (Gov1.uhFrameType sh) := by
  unfold Gov1.uhFrameType
  repeat first
    | exact Streaming.flag | exact Streaming.su _ | exact C07_tileInfo_streaming _ _ _ _
    | exact Streaming.readDeltaQ | exact Streaming.grainPoints
    | exact Streaming.mapBM (fun _ => Streaming.mapBM (fun _ => Streaming.segFeature _) _) _
    | exact Streaming.mapBM (fun _ => Streaming.lfDelta _) _
    | exact Streaming.mapBM (fun _ => Streaming.cdefStrength _) _
    | exact Streaming.mapBM (fun _ => Streaming.gmTypeOf) _
    | exact Streaming.mapBM (fun _ => Streaming.bufferRemovalStep _ _ _) _
    | exact Streaming.mapBM (fun _ => Streaming.uhRefIdx _) _
    | exact Streaming.mapBM (fun _ => by repeat streaming_step) _
    | exact Streaming.temporalPoint _ _
    | streaming_step
theorem uhScreenContent (sh : SeqHeader) (b : Bool) : Streaming (Gov1.uhScreenContent sh b) := by
  unfold Gov1.uhScreenContent
  repeat first
    | exact Streaming.flag | exact Streaming.su _ | exact C07_tileInfo_streaming _ _ _ _
    | exact Streaming.readDeltaQ | exact Streaming.grainPoints
    | exact Streaming.mapBM (fun _ => Streaming.mapBM (fun _ => Streaming.segFeature _) _) _
    | exact Streaming.mapBM (fun _ => Streaming.lfDelta _) _
    | exact Streaming.mapBM (fun _ => Streaming.cdefStrength _) _
    | exact Streaming.mapBM (fun _ => Streaming.gmTypeOf) _
    | exact Streaming.mapBM (fun _ => Streaming.bufferRemovalStep _ _ _) _
    | exact Streaming.mapBM (fun _ => Streaming.uhRefIdx _) _
    | exact Streaming.mapBM (fun _ => by repeat streaming_step) _
    | streaming_step
theorem uhFrameId (sh : SeqHeader) (st : FrameState) : Streaming (Gov1.uhFrameId sh st) := by
  unfold Gov1.uhFrameId
  repeat first
    | exact Streaming.flag | exact Streaming.su _ | exact C07_tileInfo_streaming _ _ _ _
    | exact Streaming.readDeltaQ | exact Streaming.grainPoints
    | exact Streaming.mapBM (fun _ => Streaming.mapBM (fun _ => Streaming.segFeature _) _) _
    | exact Streaming.mapBM (fun _ => Streaming.lfDelta _) _
    | exact Streaming.mapBM (fun _ => Streaming.cdefStrength _) _
    | exact Streaming.mapBM (fun _ => Streaming.gmTypeOf) _
    | exact Streaming.mapBM (fun _ => Streaming.bufferRemovalStep _ _ _) _
    | exact Streaming.mapBM (fun _ => Streaming.uhRefIdx _) _
    | exact Streaming.mapBM (fun _ => by repeat streaming_step) _
    | streaming_step
theorem uhBufferRemoval (h : Header) (sh : SeqHeader) : Streaming (Gov1.uhBufferRemoval h sh) := by
  unfold Gov1.uhBufferRemoval
  repeat first
    | exact Streaming.flag | exact Streaming.su _ | exact C07_tileInfo_streaming _ _ _ _
    | exact Streaming.readDeltaQ | exact Streaming.grainPoints
    | exact Streaming.mapBM (fun _ => Streaming.mapBM (fun _ => Streaming.segFeature _) _) _
    | exact Streaming.mapBM (fun _ => Streaming.lfDelta _) _
    | exact Streaming.mapBM (fun _ => Streaming.cdefStrength _) _
    | exact Streaming.mapBM (fun _ => Streaming.gmTypeOf) _
    | exact Streaming.mapBM (fun _ => Streaming.bufferRemovalStep _ _ _) _
    | exact Streaming.mapBM (fun _ => Streaming.uhRefIdx _) _
    | exact Streaming.mapBM (fun _ => by repeat streaming_step) _
    | streaming_step
theorem uhRefresh (sh : SeqHeader) (u : UHeader) (b : Bool) : Streaming (Gov1.uhRefresh sh u b) := by
  unfold Gov1.uhRefresh
  repeat first
    | exact Streaming.flag | exact Streaming.su _ | exact C07_tileInfo_streaming _ _ _ _
    | exact Streaming.readDeltaQ | exact Streaming.grainPoints
    | exact Streaming.mapBM (fun _ => Streaming.mapBM (fun _ => Streaming.segFeature _) _) _
    | exact Streaming.mapBM (fun _ => Streaming.lfDelta _) _
    | exact Streaming.mapBM (fun _ => Streaming.cdefStrength _) _
    | exact Streaming.mapBM (fun _ => Streaming.gmTypeOf) _
    | exact Streaming.mapBM (fun _ => Streaming.bufferRemovalStep _ _ _) _
    | exact Streaming.mapBM (fun _ => Streaming.uhRefIdx _) _
    | exact Streaming.mapBM (fun _ => by repeat streaming_step) _
    | streaming_step
theorem uhIds (h : Header) (sh : SeqHeader) (u : UHeader) (b : Bool) (st : FrameState) : Streaming (Gov1.uhIds h sh u b st) := by
  unfold Gov1.uhIds
  repeat first
    | exact Streaming.flag | exact Streaming.su _ | exact C07_tileInfo_streaming _ _ _ _
    | exact Streaming.readDeltaQ | exact Streaming.grainPoints
    | exact Streaming.mapBM (fun _ => Streaming.mapBM (fun _ => Streaming.segFeature _) _) _
    | exact Streaming.mapBM (fun _ => Streaming.lfDelta _) _
    | exact Streaming.mapBM (fun _ => Streaming.cdefStrength _) _
    | exact Streaming.mapBM (fun _ => Streaming.gmTypeOf) _
    | exact Streaming.mapBM (fun _ => Streaming.bufferRemovalStep _ _ _) _
    | exact Streaming.mapBM (fun _ => Streaming.uhRefIdx _) _
    | exact Streaming.mapBM (fun _ => by repeat streaming_step) _
    | exact Streaming.uhScreenContent _ _
    | exact Streaming.uhFrameId _ _
    | exact Streaming.uhBufferRemoval _ _
    | exact Streaming.uhRefresh _ _ _
    | streaming_step
theorem uhIntra (sh : SeqHeader) (u : UHeader) (st : FrameState) : Streaming (Gov1.uhIntra sh u st) := by
  unfold Gov1.uhIntra
  repeat first
    | exact Streaming.flag | exact Streaming.su _ | exact C07_tileInfo_streaming _ _ _ _
    | exact Streaming.readDeltaQ | exact Streaming.grainPoints
    | exact Streaming.mapBM (fun _ => Streaming.mapBM (fun _ => Streaming.segFeature _) _) _
    | exact Streaming.mapBM (fun _ => Streaming.lfDelta _) _
    | exact Streaming.mapBM (fun _ => Streaming.cdefStrength _) _
    | exact Streaming.mapBM (fun _ => Streaming.gmTypeOf) _
    | exact Streaming.mapBM (fun _ => Streaming.bufferRemovalStep _ _ _) _
    | exact Streaming.mapBM (fun _ => Streaming.uhRefIdx _) _
    | exact Streaming.mapBM (fun _ => by repeat streaming_step) _
    | exact Streaming.frameSize _ _
    | exact Streaming.renderSize _
    | streaming_step
theorem uhShortSignaling (sh : SeqHeader) : Streaming (Gov1.uhShortSignaling sh) := by
  unfold Gov1.uhShortSignaling
  repeat first
    | exact Streaming.flag | exact Streaming.su _ | exact C07_tileInfo_streaming _ _ _ _
    | exact Streaming.readDeltaQ | exact Streaming.grainPoints
    | exact Streaming.mapBM (fun _ => Streaming.mapBM (fun _ => Streaming.segFeature _) _) _
    | exact Streaming.mapBM (fun _ => Streaming.lfDelta _) _
    | exact Streaming.mapBM (fun _ => Streaming.cdefStrength _) _
    | exact Streaming.mapBM (fun _ => Streaming.gmTypeOf) _
    | exact Streaming.mapBM (fun _ => Streaming.bufferRemovalStep _ _ _) _
    | exact Streaming.mapBM (fun _ => Streaming.uhRefIdx _) _
    | exact Streaming.mapBM (fun _ => by repeat streaming_step) _
    | streaming_step
theorem readInterpolationFilter  : Streaming (Gov1.readInterpolationFilter ) := by
  unfold Gov1.readInterpolationFilter
  repeat first
    | exact Streaming.flag | exact Streaming.su _ | exact C07_tileInfo_streaming _ _ _ _
    | exact Streaming.readDeltaQ | exact Streaming.grainPoints
    | exact Streaming.mapBM (fun _ => Streaming.mapBM (fun _ => Streaming.segFeature _) _) _
    | exact Streaming.mapBM (fun _ => Streaming.lfDelta _) _
    | exact Streaming.mapBM (fun _ => Streaming.cdefStrength _) _
    | exact Streaming.mapBM (fun _ => Streaming.gmTypeOf) _
    | exact Streaming.mapBM (fun _ => Streaming.bufferRemovalStep _ _ _) _
    | exact Streaming.mapBM (fun _ => Streaming.uhRefIdx _) _
    | exact Streaming.mapBM (fun _ => by repeat streaming_step) _
    | streaming_step
theorem uhInter (sh : SeqHeader) (u : UHeader) (b : Bool) (st : FrameState) : Streaming (Gov1.uhInter sh u b st) := by
  unfold Gov1.uhInter
  repeat first
    | exact Streaming.flag | exact Streaming.su _ | exact C07_tileInfo_streaming _ _ _ _
    | exact Streaming.readDeltaQ | exact Streaming.grainPoints
    | exact Streaming.mapBM (fun _ => Streaming.mapBM (fun _ => Streaming.segFeature _) _) _
    | exact Streaming.mapBM (fun _ => Streaming.lfDelta _) _
    | exact Streaming.mapBM (fun _ => Streaming.cdefStrength _) _
    | exact Streaming.mapBM (fun _ => Streaming.gmTypeOf) _
    | exact Streaming.mapBM (fun _ => Streaming.bufferRemovalStep _ _ _) _
    | exact Streaming.mapBM (fun _ => Streaming.uhRefIdx _) _
    | exact Streaming.mapBM (fun _ => by repeat streaming_step) _
    | exact Streaming.uhShortSignaling _
    | exact Streaming.frameSize _ _
    | exact Streaming.renderSize _
    | exact Streaming.readInterpolationFilter
    | streaming_step
theorem readTxMode (b : Bool) : Streaming (Gov1.readTxMode b) := by
  unfold Gov1.readTxMode
  repeat first
    | exact Streaming.flag | exact Streaming.su _ | exact C07_tileInfo_streaming _ _ _ _
    | exact Streaming.readDeltaQ | exact Streaming.grainPoints
    | exact Streaming.mapBM (fun _ => Streaming.mapBM (fun _ => Streaming.segFeature _) _) _
    | exact Streaming.mapBM (fun _ => Streaming.lfDelta _) _
    | exact Streaming.mapBM (fun _ => Streaming.cdefStrength _) _
    | exact Streaming.mapBM (fun _ => Streaming.gmTypeOf) _
    | exact Streaming.mapBM (fun _ => Streaming.bufferRemovalStep _ _ _) _
    | exact Streaming.mapBM (fun _ => Streaming.uhRefIdx _) _
    | exact Streaming.mapBM (fun _ => by repeat streaming_step) _
    | streaming_step
theorem uhQuant (sh : SeqHeader) (u : UHeader) (st : FrameState) : Streaming (Gov1.uhQuant sh u st) := by
  unfold Gov1.uhQuant
  repeat first
    | exact Streaming.flag | exact Streaming.su _ | exact C07_tileInfo_streaming _ _ _ _
    | exact Streaming.readDeltaQ | exact Streaming.grainPoints
    | exact Streaming.mapBM (fun _ => Streaming.mapBM (fun _ => Streaming.segFeature _) _) _
    | exact Streaming.mapBM (fun _ => Streaming.lfDelta _) _
    | exact Streaming.mapBM (fun _ => Streaming.cdefStrength _) _
    | exact Streaming.mapBM (fun _ => Streaming.gmTypeOf) _
    | exact Streaming.mapBM (fun _ => Streaming.bufferRemovalStep _ _ _) _
    | exact Streaming.mapBM (fun _ => Streaming.uhRefIdx _) _
    | exact Streaming.mapBM (fun _ => by repeat streaming_step) _
    | exact Streaming.quantizationParams _
    | exact Streaming.segmentationParams _ _ _
    | exact Streaming.deltaQParams _
    | exact Streaming.deltaLfParams _ _
    | streaming_step
theorem uhFilters (sh : SeqHeader) (u : UHeader) (b : Bool) (st : FrameState) : Streaming (Gov1.uhFilters sh u b st) := by
  unfold Gov1.uhFilters
  repeat first
    | exact Streaming.flag | exact Streaming.su _ | exact C07_tileInfo_streaming _ _ _ _
    | exact Streaming.readDeltaQ | exact Streaming.grainPoints
    | exact Streaming.mapBM (fun _ => Streaming.mapBM (fun _ => Streaming.segFeature _) _) _
    | exact Streaming.mapBM (fun _ => Streaming.lfDelta _) _
    | exact Streaming.mapBM (fun _ => Streaming.cdefStrength _) _
    | exact Streaming.mapBM (fun _ => Streaming.gmTypeOf) _
    | exact Streaming.mapBM (fun _ => Streaming.bufferRemovalStep _ _ _) _
    | exact Streaming.mapBM (fun _ => Streaming.uhRefIdx _) _
    | exact Streaming.mapBM (fun _ => by repeat streaming_step) _
    | exact Streaming.loopFilterParams _ _ _ _
    | exact Streaming.cdefParams _ _ _ _
    | exact Streaming.lrParams _ _ _ _
    | exact Streaming.readTxMode _
    | exact Streaming.skipModeParams _ _ _ _ _ _
    | exact Streaming.globalMotionParams _ _
    | exact Streaming.filmGrainParams _ _ _ _
    | streaming_step
theorem uhRest (h : Header) (sh : SeqHeader) (u : UHeader) (b : Bool) (st : FrameState) : Streaming (Gov1.uhRest h sh u b st) := by
  unfold Gov1.uhRest
  repeat first
    | exact Streaming.flag | exact Streaming.su _ | exact C07_tileInfo_streaming _ _ _ _
    | exact Streaming.readDeltaQ | exact Streaming.grainPoints
    | exact Streaming.mapBM (fun _ => Streaming.mapBM (fun _ => Streaming.segFeature _) _) _
    | exact Streaming.mapBM (fun _ => Streaming.lfDelta _) _
    | exact Streaming.mapBM (fun _ => Streaming.cdefStrength _) _
    | exact Streaming.mapBM (fun _ => Streaming.gmTypeOf) _
    | exact Streaming.mapBM (fun _ => Streaming.bufferRemovalStep _ _ _) _
    | exact Streaming.mapBM (fun _ => Streaming.uhRefIdx _) _
    | exact Streaming.mapBM (fun _ => by repeat streaming_step) _
    | exact Streaming.uhIds _ _ _ _ _
    | exact Streaming.uhIntra _ _ _
    | exact Streaming.uhInter _ _ _ _
    | exact Streaming.uhQuant _ _ _
    | exact Streaming.uhFilters _ _ _ _
    | streaming_step

end Streaming

/-- C07: the uncompressed header parser is a streaming reader, for every OBU header, sequence header
and decoder state. -/
theorem C07_uncompressedHeader_streaming (h : Header) (sh : SeqHeader) (st : FrameState) :
    Streaming (newUncompressedHeader h sh st) := by
  unfold newUncompressedHeader
  repeat first
    | exact Streaming.flag
    | exact Streaming.uhShowExisting _ _
    | exact Streaming.uhFrameType _
    | exact Streaming.uhRest _ _ _ _ _
    | streaming_step

/-- A reduced still picture header, 64x64 samples, lossy, that parses: the hypothesis of `Streaming`
is met. -/
example : (newUncompressedHeader ⟨false, 3, false, true, false, ⟨0, 0, 0⟩⟩
    { reducedStillPictureHeader := true, maxFrameWidthMinusOne := 63, maxFrameHeightMinusOne := 63,
      colorConfig := { numPlanes := 3, bitDepth := 8, subsamplingX := true, subsamplingY := true } } {}
    ⟨[0x12, 0x34, 0x56, 0x78, 0x9A, 0xBC, 0xDE, 0xF0, 0, 0, 0, 0], 0, 0⟩).isOk = true := by
  decide +kernel

end Gov1
