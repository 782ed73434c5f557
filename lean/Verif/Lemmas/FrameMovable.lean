import Verif.Model.FrameHeader
import Verif.Lemmas.MapBM
import Verif.Props.Tiles
import Verif.Lemmas.Movable
/-! # The frame header does not depend on where it stands -/
namespace Gov1
namespace Movable

theorem readDeltaQ : Movable Gov1.readDeltaQ := by
  unfold Gov1.readDeltaQ
  repeat first | exact Movable.flag | exact Movable.su _ | movable_step
theorem segFeature (j : Nat) : Movable (Gov1.segFeature j) := by
  unfold Gov1.segFeature
  repeat first | exact Movable.flag | exact Movable.su _ | movable_step
theorem lfDelta (d : Int) : Movable (Gov1.lfDelta d) := by
  unfold Gov1.lfDelta
  repeat first | exact Movable.flag | exact Movable.su _ | movable_step
theorem cdefSec : Movable Gov1.cdefSec := by
  unfold Gov1.cdefSec
  repeat movable_step
theorem cdefStrength (n : Nat) : Movable (Gov1.cdefStrength n) := by
  unfold Gov1.cdefStrength
  repeat first | exact Movable.cdefSec | movable_step
theorem gmTypeOf : Movable Gov1.gmTypeOf := by
  unfold Gov1.gmTypeOf
  repeat first | exact Movable.flag | movable_step
theorem grainPoints : Movable Gov1.grainPoints := by
  unfold Gov1.grainPoints Gov1.grainPoint
  repeat first | exact Movable.mapBM (fun _ => by repeat movable_step) _ | movable_step
theorem bufferRemovalStep (h : Header) (sh : SeqHeader) (n : Nat) :
    Movable (Gov1.bufferRemovalStep h sh n) := by
  unfold Gov1.bufferRemovalStep
  repeat movable_step
theorem uhRefIdx (sh : SeqHeader) : Movable (Gov1.uhRefIdx sh) := by
  unfold Gov1.uhRefIdx
  repeat movable_step

theorem superResParams (sh : SeqHeader) : Movable (Gov1.superResParams sh) := by
  unfold Gov1.superResParams
  repeat first
    | exact Movable.flag | exact Movable.su _ | exact Movable.tileInfo _ _ _ _
    | exact Movable.readDeltaQ | exact Movable.grainPoints
    | exact Movable.mapBM (fun _ => Movable.mapBM (fun _ => Movable.segFeature _) _) _
    | exact Movable.mapBM (fun _ => Movable.lfDelta _) _
    | exact Movable.mapBM (fun _ => Movable.cdefStrength _) _
    | exact Movable.mapBM (fun _ => Movable.gmTypeOf) _
    | exact Movable.mapBM (fun _ => Movable.bufferRemovalStep _ _ _) _
    | exact Movable.mapBM (fun _ => Movable.uhRefIdx _) _
    | exact Movable.mapBM (fun _ => by repeat movable_step) _
    | movable_step
theorem frameSize (sh : SeqHeader) (o : Bool) : Movable (Gov1.frameSize sh o) := by
  unfold Gov1.frameSize
  repeat first
    | exact Movable.flag | exact Movable.su _ | exact Movable.tileInfo _ _ _ _
    | exact Movable.readDeltaQ | exact Movable.grainPoints
    | exact Movable.mapBM (fun _ => Movable.mapBM (fun _ => Movable.segFeature _) _) _
    | exact Movable.mapBM (fun _ => Movable.lfDelta _) _
    | exact Movable.mapBM (fun _ => Movable.cdefStrength _) _
    | exact Movable.mapBM (fun _ => Movable.gmTypeOf) _
    | exact Movable.mapBM (fun _ => Movable.bufferRemovalStep _ _ _) _
    | exact Movable.mapBM (fun _ => Movable.uhRefIdx _) _
    | exact Movable.mapBM (fun _ => by repeat movable_step) _
    | exact Movable.superResParams _
    | movable_step
theorem renderSize (fs : FrameSize) : Movable (Gov1.renderSize fs) := by
  unfold Gov1.renderSize
  repeat first
    | exact Movable.flag | exact Movable.su _ | exact Movable.tileInfo _ _ _ _
    | exact Movable.readDeltaQ | exact Movable.grainPoints
    | exact Movable.mapBM (fun _ => Movable.mapBM (fun _ => Movable.segFeature _) _) _
    | exact Movable.mapBM (fun _ => Movable.lfDelta _) _
    | exact Movable.mapBM (fun _ => Movable.cdefStrength _) _
    | exact Movable.mapBM (fun _ => Movable.gmTypeOf) _
    | exact Movable.mapBM (fun _ => Movable.bufferRemovalStep _ _ _) _
    | exact Movable.mapBM (fun _ => Movable.uhRefIdx _) _
    | exact Movable.mapBM (fun _ => by repeat movable_step) _
    | movable_step
theorem chromaDeltaQ (cc : ColorConfig) : Movable (Gov1.chromaDeltaQ cc) := by
  unfold Gov1.chromaDeltaQ
  repeat first
    | exact Movable.flag | exact Movable.su _ | exact Movable.tileInfo _ _ _ _
    | exact Movable.readDeltaQ | exact Movable.grainPoints
    | exact Movable.mapBM (fun _ => Movable.mapBM (fun _ => Movable.segFeature _) _) _
    | exact Movable.mapBM (fun _ => Movable.lfDelta _) _
    | exact Movable.mapBM (fun _ => Movable.cdefStrength _) _
    | exact Movable.mapBM (fun _ => Movable.gmTypeOf) _
    | exact Movable.mapBM (fun _ => Movable.bufferRemovalStep _ _ _) _
    | exact Movable.mapBM (fun _ => Movable.uhRefIdx _) _
    | exact Movable.mapBM (fun _ => by repeat movable_step) _
    | movable_step
theorem qmParams (cc : ColorConfig) : Movable (Gov1.qmParams cc) := by
  unfold Gov1.qmParams
  repeat first
    | exact Movable.flag | exact Movable.su _ | exact Movable.tileInfo _ _ _ _
    | exact Movable.readDeltaQ | exact Movable.grainPoints
    | exact Movable.mapBM (fun _ => Movable.mapBM (fun _ => Movable.segFeature _) _) _
    | exact Movable.mapBM (fun _ => Movable.lfDelta _) _
    | exact Movable.mapBM (fun _ => Movable.cdefStrength _) _
    | exact Movable.mapBM (fun _ => Movable.gmTypeOf) _
    | exact Movable.mapBM (fun _ => Movable.bufferRemovalStep _ _ _) _
    | exact Movable.mapBM (fun _ => Movable.uhRefIdx _) _
    | exact Movable.mapBM (fun _ => by repeat movable_step) _
    | movable_step
theorem quantizationParams (cc : ColorConfig) : Movable (Gov1.quantizationParams cc) := by
  unfold Gov1.quantizationParams
  repeat first
    | exact Movable.flag | exact Movable.su _ | exact Movable.tileInfo _ _ _ _
    | exact Movable.readDeltaQ | exact Movable.grainPoints
    | exact Movable.mapBM (fun _ => Movable.mapBM (fun _ => Movable.segFeature _) _) _
    | exact Movable.mapBM (fun _ => Movable.lfDelta _) _
    | exact Movable.mapBM (fun _ => Movable.cdefStrength _) _
    | exact Movable.mapBM (fun _ => Movable.gmTypeOf) _
    | exact Movable.mapBM (fun _ => Movable.bufferRemovalStep _ _ _) _
    | exact Movable.mapBM (fun _ => Movable.uhRefIdx _) _
    | exact Movable.mapBM (fun _ => by repeat movable_step) _
    | exact Movable.chromaDeltaQ _
    | exact Movable.qmParams _
    | movable_step
theorem segUpdates (b : Bool) : Movable (Gov1.segUpdates b) := by
  unfold Gov1.segUpdates
  repeat first
    | exact Movable.flag | exact Movable.su _ | exact Movable.tileInfo _ _ _ _
    | exact Movable.readDeltaQ | exact Movable.grainPoints
    | exact Movable.mapBM (fun _ => Movable.mapBM (fun _ => Movable.segFeature _) _) _
    | exact Movable.mapBM (fun _ => Movable.lfDelta _) _
    | exact Movable.mapBM (fun _ => Movable.cdefStrength _) _
    | exact Movable.mapBM (fun _ => Movable.gmTypeOf) _
    | exact Movable.mapBM (fun _ => Movable.bufferRemovalStep _ _ _) _
    | exact Movable.mapBM (fun _ => Movable.uhRefIdx _) _
    | exact Movable.mapBM (fun _ => by repeat movable_step) _
    | movable_step
theorem segFeatures  : Movable (Gov1.segFeatures ) := by
  unfold Gov1.segFeatures
  repeat first
    | exact Movable.flag | exact Movable.su _ | exact Movable.tileInfo _ _ _ _
    | exact Movable.readDeltaQ | exact Movable.grainPoints
    | exact Movable.mapBM (fun _ => Movable.mapBM (fun _ => Movable.segFeature _) _) _
    | exact Movable.mapBM (fun _ => Movable.lfDelta _) _
    | exact Movable.mapBM (fun _ => Movable.cdefStrength _) _
    | exact Movable.mapBM (fun _ => Movable.gmTypeOf) _
    | exact Movable.mapBM (fun _ => Movable.bufferRemovalStep _ _ _) _
    | exact Movable.mapBM (fun _ => Movable.uhRefIdx _) _
    | exact Movable.mapBM (fun _ => by repeat movable_step) _
    | movable_step
theorem segmentationParams (b : Bool) (e : List (List Nat)) (d : List (List Int)) : Movable (Gov1.segmentationParams b e d) := by
  unfold Gov1.segmentationParams
  repeat first
    | exact Movable.flag | exact Movable.su _ | exact Movable.tileInfo _ _ _ _
    | exact Movable.readDeltaQ | exact Movable.grainPoints
    | exact Movable.mapBM (fun _ => Movable.mapBM (fun _ => Movable.segFeature _) _) _
    | exact Movable.mapBM (fun _ => Movable.lfDelta _) _
    | exact Movable.mapBM (fun _ => Movable.cdefStrength _) _
    | exact Movable.mapBM (fun _ => Movable.gmTypeOf) _
    | exact Movable.mapBM (fun _ => Movable.bufferRemovalStep _ _ _) _
    | exact Movable.mapBM (fun _ => Movable.uhRefIdx _) _
    | exact Movable.mapBM (fun _ => by repeat movable_step) _
    | exact Movable.segUpdates _
    | exact Movable.segFeatures
    | movable_step
theorem deltaQParams (b : Nat) : Movable (Gov1.deltaQParams b) := by
  unfold Gov1.deltaQParams
  repeat first
    | exact Movable.flag | exact Movable.su _ | exact Movable.tileInfo _ _ _ _
    | exact Movable.readDeltaQ | exact Movable.grainPoints
    | exact Movable.mapBM (fun _ => Movable.mapBM (fun _ => Movable.segFeature _) _) _
    | exact Movable.mapBM (fun _ => Movable.lfDelta _) _
    | exact Movable.mapBM (fun _ => Movable.cdefStrength _) _
    | exact Movable.mapBM (fun _ => Movable.gmTypeOf) _
    | exact Movable.mapBM (fun _ => Movable.bufferRemovalStep _ _ _) _
    | exact Movable.mapBM (fun _ => Movable.uhRefIdx _) _
    | exact Movable.mapBM (fun _ => by repeat movable_step) _
    | movable_step
theorem deltaLfParams (b c : Bool) : Movable (Gov1.deltaLfParams b c) := by
  unfold Gov1.deltaLfParams
  repeat first
    | exact Movable.flag | exact Movable.su _ | exact Movable.tileInfo _ _ _ _
    | exact Movable.readDeltaQ | exact Movable.grainPoints
    | exact Movable.mapBM (fun _ => Movable.mapBM (fun _ => Movable.segFeature _) _) _
    | exact Movable.mapBM (fun _ => Movable.lfDelta _) _
    | exact Movable.mapBM (fun _ => Movable.cdefStrength _) _
    | exact Movable.mapBM (fun _ => Movable.gmTypeOf) _
    | exact Movable.mapBM (fun _ => Movable.bufferRemovalStep _ _ _) _
    | exact Movable.mapBM (fun _ => Movable.uhRefIdx _) _
    | exact Movable.mapBM (fun _ => by repeat movable_step) _
    | movable_step
theorem loopFilterParams (o : LoopFilter) (a b : Bool) (n : Nat) : Movable (Gov1.loopFilterParams o a b n) := by
  unfold Gov1.loopFilterParams
  repeat first
    | exact Movable.flag | exact Movable.su _ | exact Movable.tileInfo _ _ _ _
    | exact Movable.readDeltaQ | exact Movable.grainPoints
    | exact Movable.mapBM (fun _ => Movable.mapBM (fun _ => Movable.segFeature _) _) _
    | exact Movable.mapBM (fun _ => Movable.lfDelta _) _
    | exact Movable.mapBM (fun _ => Movable.cdefStrength _) _
    | exact Movable.mapBM (fun _ => Movable.gmTypeOf) _
    | exact Movable.mapBM (fun _ => Movable.bufferRemovalStep _ _ _) _
    | exact Movable.mapBM (fun _ => Movable.uhRefIdx _) _
    | exact Movable.mapBM (fun _ => by repeat movable_step) _
    | movable_step
theorem cdefParams (a b c : Bool) (n : Nat) : Movable (Gov1.cdefParams a b c n) := by
  unfold Gov1.cdefParams
  repeat first
    | exact Movable.flag | exact Movable.su _ | exact Movable.tileInfo _ _ _ _
    | exact Movable.readDeltaQ | exact Movable.grainPoints
    | exact Movable.mapBM (fun _ => Movable.mapBM (fun _ => Movable.segFeature _) _) _
    | exact Movable.mapBM (fun _ => Movable.lfDelta _) _
    | exact Movable.mapBM (fun _ => Movable.cdefStrength _) _
    | exact Movable.mapBM (fun _ => Movable.gmTypeOf) _
    | exact Movable.mapBM (fun _ => Movable.bufferRemovalStep _ _ _) _
    | exact Movable.mapBM (fun _ => Movable.uhRefIdx _) _
    | exact Movable.mapBM (fun _ => by repeat movable_step) _
    | movable_step
theorem lrUnitShift (u : Bool) : Movable (Gov1.lrUnitShift u) := by
  unfold Gov1.lrUnitShift
  repeat first
    | exact Movable.flag | exact Movable.su _ | exact Movable.tileInfo _ _ _ _
    | exact Movable.readDeltaQ | exact Movable.grainPoints
    | exact Movable.mapBM (fun _ => Movable.mapBM (fun _ => Movable.segFeature _) _) _
    | exact Movable.mapBM (fun _ => Movable.lfDelta _) _
    | exact Movable.mapBM (fun _ => Movable.cdefStrength _) _
    | exact Movable.mapBM (fun _ => Movable.gmTypeOf) _
    | exact Movable.mapBM (fun _ => Movable.bufferRemovalStep _ _ _) _
    | exact Movable.mapBM (fun _ => Movable.uhRefIdx _) _
    | exact Movable.mapBM (fun _ => by repeat movable_step) _
    | movable_step
theorem lrParams (sh : SeqHeader) (a b : Bool) (o : List Nat) : Movable (Gov1.lrParams sh a b o) := by
  unfold Gov1.lrParams
  repeat first
    | exact Movable.flag | exact Movable.su _ | exact Movable.tileInfo _ _ _ _
    | exact Movable.readDeltaQ | exact Movable.grainPoints
    | exact Movable.mapBM (fun _ => Movable.mapBM (fun _ => Movable.segFeature _) _) _
    | exact Movable.mapBM (fun _ => Movable.lfDelta _) _
    | exact Movable.mapBM (fun _ => Movable.cdefStrength _) _
    | exact Movable.mapBM (fun _ => Movable.gmTypeOf) _
    | exact Movable.mapBM (fun _ => Movable.bufferRemovalStep _ _ _) _
    | exact Movable.mapBM (fun _ => Movable.uhRefIdx _) _
    | exact Movable.mapBM (fun _ => by repeat movable_step) _
    | exact Movable.lrUnitShift _
    | movable_step
theorem skipModeParams (a : Bool) (n : Nat) (b c : Bool) (o : Int) (l : List Int) : Movable (Gov1.skipModeParams a n b c o l) := by
  unfold Gov1.skipModeParams
  repeat first
    | exact Movable.flag | exact Movable.su _ | exact Movable.tileInfo _ _ _ _
    | exact Movable.readDeltaQ | exact Movable.grainPoints
    | exact Movable.mapBM (fun _ => Movable.mapBM (fun _ => Movable.segFeature _) _) _
    | exact Movable.mapBM (fun _ => Movable.lfDelta _) _
    | exact Movable.mapBM (fun _ => Movable.cdefStrength _) _
    | exact Movable.mapBM (fun _ => Movable.gmTypeOf) _
    | exact Movable.mapBM (fun _ => Movable.bufferRemovalStep _ _ _) _
    | exact Movable.mapBM (fun _ => Movable.uhRefIdx _) _
    | exact Movable.mapBM (fun _ => by repeat movable_step) _
    | movable_step
theorem globalMotionParams (b : Bool) (o : List Nat) : Movable (Gov1.globalMotionParams b o) := by
  unfold Gov1.globalMotionParams
  repeat first
    | exact Movable.flag | exact Movable.su _ | exact Movable.tileInfo _ _ _ _
    | exact Movable.readDeltaQ | exact Movable.grainPoints
    | exact Movable.mapBM (fun _ => Movable.mapBM (fun _ => Movable.segFeature _) _) _
    | exact Movable.mapBM (fun _ => Movable.lfDelta _) _
    | exact Movable.mapBM (fun _ => Movable.cdefStrength _) _
    | exact Movable.mapBM (fun _ => Movable.gmTypeOf) _
    | exact Movable.mapBM (fun _ => Movable.bufferRemovalStep _ _ _) _
    | exact Movable.mapBM (fun _ => Movable.uhRefIdx _) _
    | exact Movable.mapBM (fun _ => by repeat movable_step) _
    | movable_step
theorem chromaPoints (cc : ColorConfig) (b : Bool) (n : Nat) : Movable (Gov1.chromaPoints cc b n) := by
  unfold Gov1.chromaPoints
  repeat first
    | exact Movable.flag | exact Movable.su _ | exact Movable.tileInfo _ _ _ _
    | exact Movable.readDeltaQ | exact Movable.grainPoints
    | exact Movable.mapBM (fun _ => Movable.mapBM (fun _ => Movable.segFeature _) _) _
    | exact Movable.mapBM (fun _ => Movable.lfDelta _) _
    | exact Movable.mapBM (fun _ => Movable.cdefStrength _) _
    | exact Movable.mapBM (fun _ => Movable.gmTypeOf) _
    | exact Movable.mapBM (fun _ => Movable.bufferRemovalStep _ _ _) _
    | exact Movable.mapBM (fun _ => Movable.uhRefIdx _) _
    | exact Movable.mapBM (fun _ => by repeat movable_step) _
    | movable_step
theorem grainCoeffs (b : Bool) (n : Nat) : Movable (Gov1.grainCoeffs b n) := by
  unfold Gov1.grainCoeffs
  repeat first
    | exact Movable.flag | exact Movable.su _ | exact Movable.tileInfo _ _ _ _
    | exact Movable.readDeltaQ | exact Movable.grainPoints
    | exact Movable.mapBM (fun _ => Movable.mapBM (fun _ => Movable.segFeature _) _) _
    | exact Movable.mapBM (fun _ => Movable.lfDelta _) _
    | exact Movable.mapBM (fun _ => Movable.cdefStrength _) _
    | exact Movable.mapBM (fun _ => Movable.gmTypeOf) _
    | exact Movable.mapBM (fun _ => Movable.bufferRemovalStep _ _ _) _
    | exact Movable.mapBM (fun _ => Movable.uhRefIdx _) _
    | exact Movable.mapBM (fun _ => by repeat movable_step) _
    | movable_step
theorem grainChroma (b : Bool) : Movable (Gov1.grainChroma b) := by
  unfold Gov1.grainChroma
  repeat first
    | exact Movable.flag | exact Movable.su _ | exact Movable.tileInfo _ _ _ _
    | exact Movable.readDeltaQ | exact Movable.grainPoints
    | exact Movable.mapBM (fun _ => Movable.mapBM (fun _ => Movable.segFeature _) _) _
    | exact Movable.mapBM (fun _ => Movable.lfDelta _) _
    | exact Movable.mapBM (fun _ => Movable.cdefStrength _) _
    | exact Movable.mapBM (fun _ => Movable.gmTypeOf) _
    | exact Movable.mapBM (fun _ => Movable.bufferRemovalStep _ _ _) _
    | exact Movable.mapBM (fun _ => Movable.uhRefIdx _) _
    | exact Movable.mapBM (fun _ => by repeat movable_step) _
    | movable_step
theorem grainUpdate (cc : ColorConfig) (n : Nat) : Movable (Gov1.grainUpdate cc n) := by
  unfold Gov1.grainUpdate
  repeat first
    | exact Movable.flag | exact Movable.su _ | exact Movable.tileInfo _ _ _ _
    | exact Movable.readDeltaQ | exact Movable.grainPoints
    | exact Movable.mapBM (fun _ => Movable.mapBM (fun _ => Movable.segFeature _) _) _
    | exact Movable.mapBM (fun _ => Movable.lfDelta _) _
    | exact Movable.mapBM (fun _ => Movable.cdefStrength _) _
    | exact Movable.mapBM (fun _ => Movable.gmTypeOf) _
    | exact Movable.mapBM (fun _ => Movable.bufferRemovalStep _ _ _) _
    | exact Movable.mapBM (fun _ => Movable.uhRefIdx _) _
    | exact Movable.mapBM (fun _ => by repeat movable_step) _
    | exact Movable.chromaPoints _ _ _
    | exact Movable.grainCoeffs _ _
    | exact Movable.grainChroma _
    | movable_step
theorem filmGrainParams (sh : SeqHeader) (a b : Bool) (n : Nat) : Movable (Gov1.filmGrainParams sh a b n) := by
  unfold Gov1.filmGrainParams
  repeat first
    | exact Movable.flag | exact Movable.su _ | exact Movable.tileInfo _ _ _ _
    | exact Movable.readDeltaQ | exact Movable.grainPoints
    | exact Movable.mapBM (fun _ => Movable.mapBM (fun _ => Movable.segFeature _) _) _
    | exact Movable.mapBM (fun _ => Movable.lfDelta _) _
    | exact Movable.mapBM (fun _ => Movable.cdefStrength _) _
    | exact Movable.mapBM (fun _ => Movable.gmTypeOf) _
    | exact Movable.mapBM (fun _ => Movable.bufferRemovalStep _ _ _) _
    | exact Movable.mapBM (fun _ => Movable.uhRefIdx _) _
    | exact Movable.mapBM (fun _ => by repeat movable_step) _
    | exact Movable.grainUpdate _ _
    | movable_step
theorem temporalPoint (sh : SeqHeader) (b : Bool) : Movable (Gov1.temporalPoint sh b) := by
  unfold Gov1.temporalPoint
  repeat first
    | exact Movable.flag | exact Movable.su _ | exact Movable.tileInfo _ _ _ _
    | exact Movable.readDeltaQ | exact Movable.grainPoints
    | exact Movable.mapBM (fun _ => Movable.mapBM (fun _ => Movable.segFeature _) _) _
    | exact Movable.mapBM (fun _ => Movable.lfDelta _) _
    | exact Movable.mapBM (fun _ => Movable.cdefStrength _) _
    | exact Movable.mapBM (fun _ => Movable.gmTypeOf) _
    | exact Movable.mapBM (fun _ => Movable.bufferRemovalStep _ _ _) _
    | exact Movable.mapBM (fun _ => Movable.uhRefIdx _) _
    | exact Movable.mapBM (fun _ => by repeat movable_step) _
    | movable_step
theorem uhShowExisting (sh : SeqHeader) (st : FrameState) : Movable (Gov1.uhShowExisting sh st) := by
  unfold Gov1.uhShowExisting
  repeat first
    | exact Movable.flag | exact Movable.su _ | exact Movable.tileInfo _ _ _ _
    | exact Movable.readDeltaQ | exact Movable.grainPoints
    | exact Movable.mapBM (fun _ => Movable.mapBM (fun _ => Movable.segFeature _) _) _
    | exact Movable.mapBM (fun _ => Movable.lfDelta _) _
    | exact Movable.mapBM (fun _ => Movable.cdefStrength _) _
    | exact Movable.mapBM (fun _ => Movable.gmTypeOf) _
    | exact Movable.mapBM (fun _ => Movable.bufferRemovalStep _ _ _) _
    | exact Movable.mapBM (fun _ => Movable.uhRefIdx _) _
    | exact Movable.mapBM (fun _ => by repeat movable_step) _
    | exact Movable.temporalPoint _ _
    | movable_step
theorem uhFrameType (sh : SeqHeader) : Movable (Gov1.uhFrameType sh) := by
  unfold Gov1.uhFrameType
  repeat first
    | exact Movable.flag | exact Movable.su _ | exact Movable.tileInfo _ _ _ _
    | exact Movable.readDeltaQ | exact Movable.grainPoints
    | exact Movable.mapBM (fun _ => Movable.mapBM (fun _ => Movable.segFeature _) _) _
    | exact Movable.mapBM (fun _ => Movable.lfDelta _) _
    | exact Movable.mapBM (fun _ => Movable.cdefStrength _) _
    | exact Movable.mapBM (fun _ => Movable.gmTypeOf) _
    | exact Movable.mapBM (fun _ => Movable.bufferRemovalStep _ _ _) _
    | exact Movable.mapBM (fun _ => Movable.uhRefIdx _) _
    | exact Movable.mapBM (fun _ => by repeat movable_step) _
    | exact Movable.temporalPoint _ _
    | movable_step
theorem uhScreenContent (sh : SeqHeader) (b : Bool) : Movable (Gov1.uhScreenContent sh b) := by
  unfold Gov1.uhScreenContent
  repeat first
    | exact Movable.flag | exact Movable.su _ | exact Movable.tileInfo _ _ _ _
    | exact Movable.readDeltaQ | exact Movable.grainPoints
    | exact Movable.mapBM (fun _ => Movable.mapBM (fun _ => Movable.segFeature _) _) _
    | exact Movable.mapBM (fun _ => Movable.lfDelta _) _
    | exact Movable.mapBM (fun _ => Movable.cdefStrength _) _
    | exact Movable.mapBM (fun _ => Movable.gmTypeOf) _
    | exact Movable.mapBM (fun _ => Movable.bufferRemovalStep _ _ _) _
    | exact Movable.mapBM (fun _ => Movable.uhRefIdx _) _
    | exact Movable.mapBM (fun _ => by repeat movable_step) _
    | movable_step
theorem uhFrameId (sh : SeqHeader) (st : FrameState) : Movable (Gov1.uhFrameId sh st) := by
  unfold Gov1.uhFrameId
  repeat first
    | exact Movable.flag | exact Movable.su _ | exact Movable.tileInfo _ _ _ _
    | exact Movable.readDeltaQ | exact Movable.grainPoints
    | exact Movable.mapBM (fun _ => Movable.mapBM (fun _ => Movable.segFeature _) _) _
    | exact Movable.mapBM (fun _ => Movable.lfDelta _) _
    | exact Movable.mapBM (fun _ => Movable.cdefStrength _) _
    | exact Movable.mapBM (fun _ => Movable.gmTypeOf) _
    | exact Movable.mapBM (fun _ => Movable.bufferRemovalStep _ _ _) _
    | exact Movable.mapBM (fun _ => Movable.uhRefIdx _) _
    | exact Movable.mapBM (fun _ => by repeat movable_step) _
    | movable_step
theorem uhBufferRemoval (h : Header) (sh : SeqHeader) : Movable (Gov1.uhBufferRemoval h sh) := by
  unfold Gov1.uhBufferRemoval
  repeat first
    | exact Movable.flag | exact Movable.su _ | exact Movable.tileInfo _ _ _ _
    | exact Movable.readDeltaQ | exact Movable.grainPoints
    | exact Movable.mapBM (fun _ => Movable.mapBM (fun _ => Movable.segFeature _) _) _
    | exact Movable.mapBM (fun _ => Movable.lfDelta _) _
    | exact Movable.mapBM (fun _ => Movable.cdefStrength _) _
    | exact Movable.mapBM (fun _ => Movable.gmTypeOf) _
    | exact Movable.mapBM (fun _ => Movable.bufferRemovalStep _ _ _) _
    | exact Movable.mapBM (fun _ => Movable.uhRefIdx _) _
    | exact Movable.mapBM (fun _ => by repeat movable_step) _
    | movable_step
theorem uhRefresh (sh : SeqHeader) (u : UHeader) (b : Bool) : Movable (Gov1.uhRefresh sh u b) := by
  unfold Gov1.uhRefresh
  repeat first
    | exact Movable.flag | exact Movable.su _ | exact Movable.tileInfo _ _ _ _
    | exact Movable.readDeltaQ | exact Movable.grainPoints
    | exact Movable.mapBM (fun _ => Movable.mapBM (fun _ => Movable.segFeature _) _) _
    | exact Movable.mapBM (fun _ => Movable.lfDelta _) _
    | exact Movable.mapBM (fun _ => Movable.cdefStrength _) _
    | exact Movable.mapBM (fun _ => Movable.gmTypeOf) _
    | exact Movable.mapBM (fun _ => Movable.bufferRemovalStep _ _ _) _
    | exact Movable.mapBM (fun _ => Movable.uhRefIdx _) _
    | exact Movable.mapBM (fun _ => by repeat movable_step) _
    | movable_step
theorem uhIds (h : Header) (sh : SeqHeader) (u : UHeader) (b : Bool) (st : FrameState) : Movable (Gov1.uhIds h sh u b st) := by
  unfold Gov1.uhIds
  repeat first
    | exact Movable.flag | exact Movable.su _ | exact Movable.tileInfo _ _ _ _
    | exact Movable.readDeltaQ | exact Movable.grainPoints
    | exact Movable.mapBM (fun _ => Movable.mapBM (fun _ => Movable.segFeature _) _) _
    | exact Movable.mapBM (fun _ => Movable.lfDelta _) _
    | exact Movable.mapBM (fun _ => Movable.cdefStrength _) _
    | exact Movable.mapBM (fun _ => Movable.gmTypeOf) _
    | exact Movable.mapBM (fun _ => Movable.bufferRemovalStep _ _ _) _
    | exact Movable.mapBM (fun _ => Movable.uhRefIdx _) _
    | exact Movable.mapBM (fun _ => by repeat movable_step) _
    | exact Movable.uhScreenContent _ _
    | exact Movable.uhFrameId _ _
    | exact Movable.uhBufferRemoval _ _
    | exact Movable.uhRefresh _ _ _
    | movable_step
theorem uhIntra (sh : SeqHeader) (u : UHeader) (st : FrameState) : Movable (Gov1.uhIntra sh u st) := by
  unfold Gov1.uhIntra
  repeat first
    | exact Movable.flag | exact Movable.su _ | exact Movable.tileInfo _ _ _ _
    | exact Movable.readDeltaQ | exact Movable.grainPoints
    | exact Movable.mapBM (fun _ => Movable.mapBM (fun _ => Movable.segFeature _) _) _
    | exact Movable.mapBM (fun _ => Movable.lfDelta _) _
    | exact Movable.mapBM (fun _ => Movable.cdefStrength _) _
    | exact Movable.mapBM (fun _ => Movable.gmTypeOf) _
    | exact Movable.mapBM (fun _ => Movable.bufferRemovalStep _ _ _) _
    | exact Movable.mapBM (fun _ => Movable.uhRefIdx _) _
    | exact Movable.mapBM (fun _ => by repeat movable_step) _
    | exact Movable.frameSize _ _
    | exact Movable.renderSize _
    | movable_step
theorem uhShortSignaling (sh : SeqHeader) : Movable (Gov1.uhShortSignaling sh) := by
  unfold Gov1.uhShortSignaling
  repeat first
    | exact Movable.flag | exact Movable.su _ | exact Movable.tileInfo _ _ _ _
    | exact Movable.readDeltaQ | exact Movable.grainPoints
    | exact Movable.mapBM (fun _ => Movable.mapBM (fun _ => Movable.segFeature _) _) _
    | exact Movable.mapBM (fun _ => Movable.lfDelta _) _
    | exact Movable.mapBM (fun _ => Movable.cdefStrength _) _
    | exact Movable.mapBM (fun _ => Movable.gmTypeOf) _
    | exact Movable.mapBM (fun _ => Movable.bufferRemovalStep _ _ _) _
    | exact Movable.mapBM (fun _ => Movable.uhRefIdx _) _
    | exact Movable.mapBM (fun _ => by repeat movable_step) _
    | movable_step
theorem readInterpolationFilter  : Movable (Gov1.readInterpolationFilter ) := by
  unfold Gov1.readInterpolationFilter
  repeat first
    | exact Movable.flag | exact Movable.su _ | exact Movable.tileInfo _ _ _ _
    | exact Movable.readDeltaQ | exact Movable.grainPoints
    | exact Movable.mapBM (fun _ => Movable.mapBM (fun _ => Movable.segFeature _) _) _
    | exact Movable.mapBM (fun _ => Movable.lfDelta _) _
    | exact Movable.mapBM (fun _ => Movable.cdefStrength _) _
    | exact Movable.mapBM (fun _ => Movable.gmTypeOf) _
    | exact Movable.mapBM (fun _ => Movable.bufferRemovalStep _ _ _) _
    | exact Movable.mapBM (fun _ => Movable.uhRefIdx _) _
    | exact Movable.mapBM (fun _ => by repeat movable_step) _
    | movable_step
theorem uhInter (sh : SeqHeader) (u : UHeader) (b : Bool) (st : FrameState) : Movable (Gov1.uhInter sh u b st) := by
  unfold Gov1.uhInter
  repeat first
    | exact Movable.flag | exact Movable.su _ | exact Movable.tileInfo _ _ _ _
    | exact Movable.readDeltaQ | exact Movable.grainPoints
    | exact Movable.mapBM (fun _ => Movable.mapBM (fun _ => Movable.segFeature _) _) _
    | exact Movable.mapBM (fun _ => Movable.lfDelta _) _
    | exact Movable.mapBM (fun _ => Movable.cdefStrength _) _
    | exact Movable.mapBM (fun _ => Movable.gmTypeOf) _
    | exact Movable.mapBM (fun _ => Movable.bufferRemovalStep _ _ _) _
    | exact Movable.mapBM (fun _ => Movable.uhRefIdx _) _
    | exact Movable.mapBM (fun _ => by repeat movable_step) _
    | exact Movable.uhShortSignaling _
    | exact Movable.frameSize _ _
    | exact Movable.renderSize _
    | exact Movable.readInterpolationFilter
    | movable_step
theorem readTxMode (b : Bool) : Movable (Gov1.readTxMode b) := by
  unfold Gov1.readTxMode
  repeat first
    | exact Movable.flag | exact Movable.su _ | exact Movable.tileInfo _ _ _ _
    | exact Movable.readDeltaQ | exact Movable.grainPoints
    | exact Movable.mapBM (fun _ => Movable.mapBM (fun _ => Movable.segFeature _) _) _
    | exact Movable.mapBM (fun _ => Movable.lfDelta _) _
    | exact Movable.mapBM (fun _ => Movable.cdefStrength _) _
    | exact Movable.mapBM (fun _ => Movable.gmTypeOf) _
    | exact Movable.mapBM (fun _ => Movable.bufferRemovalStep _ _ _) _
    | exact Movable.mapBM (fun _ => Movable.uhRefIdx _) _
    | exact Movable.mapBM (fun _ => by repeat movable_step) _
    | movable_step
theorem uhQuant (sh : SeqHeader) (u : UHeader) (st : FrameState) : Movable (Gov1.uhQuant sh u st) := by
  unfold Gov1.uhQuant
  repeat first
    | exact Movable.flag | exact Movable.su _ | exact Movable.tileInfo _ _ _ _
    | exact Movable.readDeltaQ | exact Movable.grainPoints
    | exact Movable.mapBM (fun _ => Movable.mapBM (fun _ => Movable.segFeature _) _) _
    | exact Movable.mapBM (fun _ => Movable.lfDelta _) _
    | exact Movable.mapBM (fun _ => Movable.cdefStrength _) _
    | exact Movable.mapBM (fun _ => Movable.gmTypeOf) _
    | exact Movable.mapBM (fun _ => Movable.bufferRemovalStep _ _ _) _
    | exact Movable.mapBM (fun _ => Movable.uhRefIdx _) _
    | exact Movable.mapBM (fun _ => by repeat movable_step) _
    | exact Movable.quantizationParams _
    | exact Movable.segmentationParams _ _ _
    | exact Movable.deltaQParams _
    | exact Movable.deltaLfParams _ _
    | movable_step
theorem uhFilters (sh : SeqHeader) (u : UHeader) (b : Bool) (st : FrameState) : Movable (Gov1.uhFilters sh u b st) := by
  unfold Gov1.uhFilters
  repeat first
    | exact Movable.flag | exact Movable.su _ | exact Movable.tileInfo _ _ _ _
    | exact Movable.readDeltaQ | exact Movable.grainPoints
    | exact Movable.mapBM (fun _ => Movable.mapBM (fun _ => Movable.segFeature _) _) _
    | exact Movable.mapBM (fun _ => Movable.lfDelta _) _
    | exact Movable.mapBM (fun _ => Movable.cdefStrength _) _
    | exact Movable.mapBM (fun _ => Movable.gmTypeOf) _
    | exact Movable.mapBM (fun _ => Movable.bufferRemovalStep _ _ _) _
    | exact Movable.mapBM (fun _ => Movable.uhRefIdx _) _
    | exact Movable.mapBM (fun _ => by repeat movable_step) _
    | exact Movable.loopFilterParams _ _ _ _
    | exact Movable.cdefParams _ _ _ _
    | exact Movable.lrParams _ _ _ _
    | exact Movable.readTxMode _
    | exact Movable.skipModeParams _ _ _ _ _ _
    | exact Movable.globalMotionParams _ _
    | exact Movable.filmGrainParams _ _ _ _
    | movable_step
theorem uhRest (h : Header) (sh : SeqHeader) (u : UHeader) (b : Bool) (st : FrameState) : Movable (Gov1.uhRest h sh u b st) := by
  unfold Gov1.uhRest
  repeat first
    | exact Movable.flag | exact Movable.su _ | exact Movable.tileInfo _ _ _ _
    | exact Movable.readDeltaQ | exact Movable.grainPoints
    | exact Movable.mapBM (fun _ => Movable.mapBM (fun _ => Movable.segFeature _) _) _
    | exact Movable.mapBM (fun _ => Movable.lfDelta _) _
    | exact Movable.mapBM (fun _ => Movable.cdefStrength _) _
    | exact Movable.mapBM (fun _ => Movable.gmTypeOf) _
    | exact Movable.mapBM (fun _ => Movable.bufferRemovalStep _ _ _) _
    | exact Movable.mapBM (fun _ => Movable.uhRefIdx _) _
    | exact Movable.mapBM (fun _ => by repeat movable_step) _
    | exact Movable.uhIds _ _ _ _ _
    | exact Movable.uhIntra _ _ _
    | exact Movable.uhInter _ _ _ _
    | exact Movable.uhQuant _ _ _
    | exact Movable.uhFilters _ _ _ _
    | movable_step

end Movable

/-- C07: the frame header is determined by its bits, wherever they stand, for every OBU header, sequence header
and decoder state. -/
theorem C07_uncompressedHeader_anywhere (h : Header) (sh : SeqHeader) (st : FrameState) :
    Movable (newUncompressedHeader h sh st) := by
  unfold newUncompressedHeader
  repeat first
    | exact Movable.flag
    | exact Movable.uhShowExisting _ _
    | exact Movable.uhFrameType _
    | exact Movable.uhRest _ _ _ _ _
    | movable_step

end Gov1
