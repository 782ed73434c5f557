import Verif.Model.TxBlock
import Verif.Model.InterTables
/-!
# Inter prediction

internal/tilegroup/predict_inter.go, internal/tilegroup/compute_prediction.go and `isScaled` (internal/tilegroup/util.go:17-24).
`pred` is a Go array `[16][16]int` and `intermediate` a Go array `[8][8]int`; `t.Mask` is a slice that is never made, so every access to
an element panics.  Go's `int` has 64 bits; the model's numbers are unbounded.
-/
namespace Gov1

/-- What inter prediction reads besides the frame being decoded. -/
structure InterCtx where
  /-- `uh.FrameWidth, uh.FrameHeight` -/
  frameWidth : Nat := 0
  frameHeight : Nat := 0
  /-- `uh.RefFrameIdx`, `[7]int` -/
  refFrameIdx : List Nat := []
  /-- `state.RefUpscaledWidth, state.RefFrameHeight`, `[8]int` -/
  refUpscaledWidth : List Nat := []
  refFrameHeight : List Nat := []
  /-- `t.FrameStore` -/
  frameStore : List (List (List (List Int))) := []
  /-- `sh.ColorConfig` -/
  subX : Nat := 0
  subY : Nat := 0
  bitDepth : Nat := 8
  /-- `state.RefFrames, t.Mvs, t.InterpFilters, state.MiSizes`; a vector is (row, column) -/
  refFrames : List (List (Int × Int)) := []
  mvs : List (List ((Int × Int) × (Int × Int))) := []
  interpFilters : List (List (Int × Int)) := []
  miSizes : List (List Nat) := []
  miRow : Nat := 0
  miCol : Nat := 0
  miRows : Nat := 0
  miCols : Nat := 0
  miSize : Nat := 0
  availU : Bool := false
  availL : Bool := false
  yMode : Nat := 0
  motionMode : Nat := 0
  compoundType : Nat := 2
  useIntrabc : Bool := false
  forceIntegerMv : Bool := false
  localValid : Bool := false
  /-- `state.GmType, uh.GmParams` -/
  gmType : List Int := []
  gmParams : List (List Int) := []
  localWarpParams : List Int := []
  /-- `uh.OrderHints` -/
  orderHints : List Int := []
  /-- `t.InterIntra, t.WedgeInterIntra, t.IsInterIntra` -/
  isInterIntra : Bool := false

/-- The subsampling of a plane (predict_inter.go:229-234 and others). -/
def planeSub (s plane : Nat) : Nat := if plane = 0 then 0 else s

/-! ## Scaling -/

/-- predict_inter.go:224-225 and util.go:19-20: the scale factor of a dimension, 14 bits of fraction. -/
def refScale (ref cur : Nat) : Res Nat := if cur = 0 then .error .div else .ok ((ref <<< 14 + cur / 2) / cur)

/-- internal/tilegroup/util.go:17-24 `isScaled`. -/
def isScaled (c : InterCtx) (refFrame : Int) : Res Bool := do
  let idx ← goGet c.refFrameIdx (refFrame - 1)
  let rw ← goGet c.refUpscaledWidth idx
  let xs ← refScale rw c.frameWidth
  let rh ← goGet c.refFrameHeight idx
  let ys ← refScale rh c.frameHeight
  pure (xs != 1 <<< 14 || ys != 1 <<< 14)

/-- predict_inter.go:184-201 `roundVariablesDerivationProcess`: `InterRound0`, `InterRound1`. -/
def roundVars (compound : Bool) (bitDepth : Nat) : Nat × Nat :=
  (if bitDepth = 12 then 3 + 2 else 3,
   if compound then 7 else if bitDepth = 12 then 11 - 2 else 11)

/-- predict_inter.go:236-246: the start position in a dimension, 10 bits of fraction. -/
def mvStart (pos : Nat) (mv : Int) (sub scale : Nat) : Int :=
  round2Signed (((pos <<< 4 : Nat) + ((2 * mv) >>> sub) + (1 <<< (4 - 1) : Nat)) * scale - ((1 <<< (4 - 1)) <<< 14 : Nat)) (14 + 4 - 10) + ((1 <<< (10 - 4)) / 2 : Nat)

/-- predict_inter.go:248-249: the step of a dimension. -/
def mvStep (scale : Nat) : Int := round2Signed scale (14 - 10)

/-- predict_inter.go:205-219: the checks; each reads the array again. -/
def scaleChecks (c : InterCtx) (refIdx : Int) : Res (Nat × Nat) := do
  let w ← goGet c.refUpscaledWidth refIdx
  if ¬ 2 * c.frameWidth ≥ w then .error (.explicit "bitstream conformance violated: 2*uh.FrameWidth >= t.RefUpscaledWidth[refIdx]") else do
    let h ← goGet c.refFrameHeight refIdx
    if ¬ 2 * c.frameHeight ≥ h then .error (.explicit "bitstream conformance violated: 2*uh.FrameHeight >= t.RefFrameHeight[refIdx]")
    else if ¬ c.frameWidth ≤ 16 * w then .error (.explicit "bitstream conformance violated: uh.FrameWidth <= 16*t.RefUpscaledWidth[refIdx]")
    else if ¬ c.frameHeight ≤ 16 * h then .error (.explicit "bitstream conformance violated: uh.FrameHeight <= 16*t.RefFrameHeight[refIdx]")
    else pure (w, h)

/-- What `motionVectorScalingProcess` returns. -/
structure MvPos where
  startX : Int
  startY : Int
  stepX : Int
  stepY : Int
deriving DecidableEq, Repr

/-- predict_inter.go:204-252 `motionVectorScalingProcess`. -/
def mvScaling (c : InterCtx) (plane : Nat) (refIdx : Int) (x y : Nat) (mv : Int × Int) : Res MvPos := do
  let d ← scaleChecks c refIdx
  let xs ← refScale d.1 c.frameWidth
  let ys ← refScale d.2 c.frameHeight
  pure ⟨mvStart x mv.2 (planeSub c.subX plane) xs, mvStart y mv.1 (planeSub c.subY plane) ys, mvStep xs, mvStep ys⟩

/-! ## Block inter prediction -/

/-- predict_inter.go:273-281, 294-302: the filter of a small dimension. -/
def smallFilter (n : Nat) (f : Int) : Int := if n ≤ 4 then (if f = 0 ∨ f = 2 then 4 else if f = 1 then 5 else f) else f

/-- predict_inter.go:288-290, 309-311: one filtered sum, `Subpel_Filters[f][(p >> 6) * SUBPEL_MASK][t] * src(t)` for `t < 8`. -/
def filterSum (f p : Int) (src : Nat → Res Int) : Res Int :=
  forN (fun t s => do
    let fs ← goGet subpelFilters f
    let row ← goGet fs ((p >>> (6 : Nat)) * 15)
    let k ← goGet row t
    let v ← src t
    pure (s + k * v)) 8 0 0

/-- predict_inter.go:289: a pixel of the reference plane, the coordinates clamped. -/
def refPixel (ref : List (List Int)) (lastX lastY row col : Int) : Res Int := gget ref (clip3 0 lastY row) (clip3 0 lastX col)

/-- predict_inter.go:283-293: the horizontal filter. -/
def interRows (ref : List (List Int)) (lastX lastY x y xStep : Int) (f : Int) (w n r0 : Nat) : Res (List (List Int)) :=
  forN (fun r m => forN (fun c m => do
    let s ← filterSum f (x + xStep * c) fun t => refPixel ref lastX lastY ((y >>> (10 : Nat)) + r - 3) (((x + xStep * c) >>> (10 : Nat)) + t - 3)
    gset m r c (round2 s r0)) w 0 m) n 0 (List.replicate 8 (List.replicate 8 0))

/-- predict_inter.go:304-314: the vertical filter; `y & 1023` is the remainder modulo 1024. -/
def interCols (m : List (List Int)) (y yStep : Int) (f : Int) (w h r1 : Nat) : Res (List (List Int)) :=
  forN (fun r p => forN (fun c p => do
    let s ← filterSum f (y % 1024 + yStep * r) fun t => gget m (((y % 1024 + yStep * r) >>> (10 : Nat)) + t) c
    gset p r c (round2 s r1)) w 0 p) h 0 (List.replicate 16 (List.replicate 16 0))

/-- predict_inter.go:270: `intermediateHeight`. -/
def interHeight (h : Nat) (yStep : Int) : Nat := (((((h : Int) - 1) * yStep + (1 <<< 10 : Nat) - 1) >>> (10 : Nat)) + 8).toNat

/-- predict_inter.go:253-317 `blockInterPredictionProcess`, `refIdx ≠ -1`: with -1 (intra block copy) `state.RefUpscaledWidth[refIdx]`
panics, as `goGet` does here. -/
def blockInter (c : InterCtx) (r : Nat × Nat) (plane : Nat) (refIdx : Int) (p : MvPos) (w h : Nat) (candRow candCol : Int) : Res (List (List Int)) := do
  let rw ← goGet c.refUpscaledWidth refIdx
  let rh ← goGet c.refFrameHeight refIdx
  let fs ← goGet c.frameStore refIdx
  let flt ← gget c.interpFilters candRow candCol
  let ref ← goGet fs plane
  let sx := planeSub c.subX plane
  let sy := planeSub c.subY plane
  let m ← interRows ref (((rw + sx) >>> sx : Nat) - 1) (((rh + sy) >>> sy : Nat) - 1) p.startX p.startY p.stepX (smallFilter w flt.2) w (interHeight h p.stepY) r.1
  interCols m p.startY p.stepY (smallFilter h flt.1) w h r.2

/-! ## Warped prediction -/

/-- predict_inter.go:424-429: the index into `Div_Lut`. -/
def divIndex (n e : Nat) : Int := if n > 8 then round2 e (n - 8) else (e <<< (8 - n) : Nat)

/-- predict_inter.go:418-438 `resolveDivisorProcess`; `FloorLog2(0)` is -1 and `1 << -1` panics. -/
def resolveDivisor (d : Int) : Res (Nat × Int) :=
  if d = 0 then .error .shift else do
    let n := d.natAbs.log2
    let v ← goGet divLut (divIndex n (d.natAbs - 1 <<< n))
    pure (n + 13, if d < 0 then -v else v)

/-- predict_inter.go:402-405: a parameter reduced to a multiple of 64. -/
def reduceParam (v : Int) : Int := round2Signed v 6 * 64

/-- What `setupShearProcess` returns. -/
structure Shear where
  valid : Bool
  alpha : Int
  beta : Int
  gamma : Int
  delta : Int
deriving DecidableEq, Repr

/-- predict_inter.go:389-415 `setupShearProcess`. -/
def setupShear (p : List Int) : Res Shear := do
  let p2 ← goGet p 2
  let p3 ← goGet p 3
  let p4 ← goGet p 4
  let p5 ← goGet p 5
  let dv ← resolveDivisor p2
  let alpha := reduceParam (clip3 (-32768) 32767 (p2 - 65536))
  let beta := reduceParam (clip3 (-32768) 32767 p3)
  let gamma := reduceParam (clip3 (-32768) 32767 (round2Signed (p4 * 65536 * dv.2) dv.1))
  let delta := reduceParam (clip3 (-32768) 32767 (p5 - round2Signed (p3 * p4 * dv.2) dv.1 - 65536))
  pure ⟨!(decide (4 * alpha.natAbs + 7 * beta.natAbs ≥ 65536) || decide (4 * gamma.natAbs + 4 * delta.natAbs ≥ 65536)), alpha, beta, gamma, delta⟩

/-- predict_inter.go:338-343: the parameters; the code takes the reference frame of `state.RefFrame`, here it is the one of the candidate. -/
def warpParams (c : InterCtx) (useWarp : Nat) (refFrame : Int) : Res (List Int) := if useWarp = 1 then pure c.localWarpParams else goGet c.gmParams refFrame

/-- predict_inter.go:319-386 `blockWarpProcess`, up to the first assignment to `intermediate` (line 369): the slice is nil, which panics
whatever the filters give.  The reads before it are left out except `setupShearProcess`, which can panic in another way. -/
def blockWarp (c : InterCtx) (useWarp : Nat) (refFrame : Int) : Res (List (List Int)) := do
  let p ← warpParams c useWarp refFrame
  let _ ← setupShear p
  .error .index

/-! ## Overlapped motion compensation -/

/-- predict_inter.go:604-617 `overlapBlendingProcess`. -/
def overlapBlend (predX predY predW predH : Nat) (pass : Bool) (ob : List (List Int)) (mask : List Int) (F : List (List Int)) : Res (List (List Int)) :=
  forN (fun i F => forN (fun j F => do
    let m ← goGet mask (if pass then j else i)
    let cur ← gget F ((predY + i : Nat) : Int) ((predX + j : Nat) : Int)
    let o ← gget ob i j
    gset F ((predY + i : Nat) : Int) ((predX + j : Nat) : Int) (round2 (m * cur + (64 - m) * o) 6)) predW 0 F) predH 0 F

/-- predict_inter.go:551-555, 590-594: `obmcPred[i][j] = Clip1(obmcPred[i][j], BitDepth)`. -/
def clipPred (bitDepth w h : Nat) (p : List (List Int)) : Res (List (List Int)) :=
  forN (fun i p => forN (fun j p => do
    let v ← gget p i j
    gset p i j (clip1 v bitDepth)) w 0 p) h 0 p

/-- predict_inter.go:543-557, 582-596: `predict_overlap()` and the blending, for a neighbour at (`candRow`, `candCol`). -/
def predictOverlap (c : InterCtx) (r : Nat × Nat) (plane x4 y4 predW predH : Nat) (candRow candCol : Int) (refFrame : Int) (F : List (List Int)) : Res (List (List Int)) := do
  let mvs ← gget c.mvs candRow candCol
  let refIdx ← goGet c.refFrameIdx (refFrame - 1)
  let sx := planeSub c.subX plane
  let sy := planeSub c.subY plane
  let pos ← mvScaling c plane refIdx ((x4 * 4) >>> sx) ((y4 * 4) >>> sy) mvs.1
  let ob ← blockInter c r plane refIdx pos predW predH candRow candCol
  let ob ← clipPred c.bitDepth predW predH ob
  overlapBlend ((x4 * 4) >>> sx) ((y4 * 4) >>> sy) predW predH false ob (getObmcMask predW) F

/-- predict_inter.go:537: `step4`. -/
def obmcStep (tbl : List Nat) (sz : Nat) : Res Nat := do
  let n ← goGet tbl sz
  pure (clip3 2 16 n).toNat

/-- predict_inter.go:533-560: the loop over the blocks above; `x4` grows by at least 2 every turn, so `fuel` turns are enough if it is at
least the width of the block. -/
def obmcAbove (c : InterCtx) (r : Nat × Nat) (plane w h nLimit x4End : Nat) : Nat → Nat → Nat → List (List Int) → Res (List (List Int))
  | 0, _, _, _ => .error .hang
  | fuel + 1, nCount, x4, F =>
    if nCount < nLimit ∧ x4 < x4End then do
      let candRow : Int := (c.miRow : Int) - 1
      let candCol : Int := ((x4 ||| 1 : Nat) : Int)
      let sz ← gget c.miSizes candRow candCol
      let step4 ← obmcStep num4x4Wide sz
      let rf ← gget c.refFrames candRow candCol
      if rf.1 > 0 then do
        let F ← predictOverlap c r plane x4 c.miRow (min w ((step4 * 4) >>> planeSub c.subX plane)) (min (h >>> 1) (32 >>> planeSub c.subY plane)) candRow candCol rf.1 F
        obmcAbove c r plane w h nLimit x4End fuel (nCount + 1) (x4 + step4) F
      else obmcAbove c r plane w h nLimit x4End fuel nCount (x4 + step4) F
    else pure F

/-- predict_inter.go:572-599: the loop over the blocks to the left; the mask is by the width again. -/
def obmcLeft (c : InterCtx) (r : Nat × Nat) (plane w h nLimit y4End : Nat) : Nat → Nat → Nat → List (List Int) → Res (List (List Int))
  | 0, _, _, _ => .error .hang
  | fuel + 1, nCount, y4, F =>
    if nCount < nLimit ∧ y4 < y4End then do
      let candCol : Int := (c.miCol : Int) - 1
      let candRow : Int := ((y4 ||| 1 : Nat) : Int)
      let sz ← gget c.miSizes candRow candCol
      let step4 ← obmcStep num4x4High sz
      let rf ← gget c.refFrames candRow candCol
      if rf.1 > 0 then do
        let F ← predictOverlap c r plane c.miCol y4 (min (w >>> 1) (32 >>> planeSub c.subX plane)) (min h ((step4 * 4) >>> planeSub c.subY plane)) candRow candCol rf.1 F
        obmcLeft c r plane w h nLimit y4End fuel (nCount + 1) (y4 + step4) F
      else obmcLeft c r plane w h nLimit y4End fuel nCount (y4 + step4) F
    else pure F

/-- predict_inter.go:522-562: the blocks above, if there are any and the plane is not too small (`BLOCK_8X8` is 3). -/
def obmcUp (c : InterCtx) (r : Nat × Nat) (plane w h : Nat) (F : List (List Int)) : Res (List (List Int)) :=
  if c.availU then do
    let ps ← getPlaneResidualSize c.subX c.subY c.miSize plane
    if ps ≥ 3 then do
      let w4 ← goGet num4x4Wide c.miSize
      let lg ← goGet miWidthLog2 c.miSize
      obmcAbove c r plane w h (min 4 lg) (min c.miCols (c.miCol + w4)) (w4 + 1) 0 c.miCol F
    else pure F
  else pure F

/-- predict_inter.go:564-600: the blocks to the left. -/
def obmcSide (c : InterCtx) (r : Nat × Nat) (plane w h : Nat) (F : List (List Int)) : Res (List (List Int)) :=
  if c.availL then do
    let h4 ← goGet num4x4High c.miSize
    let lg ← goGet miHeightLog2 c.miSize
    obmcLeft c r plane w h (min 4 lg) (min c.miRows (c.miRow + h4)) (h4 + 1) 0 c.miRow F
  else pure F

/-- predict_inter.go:514-601 `overlappedMotionCompensationProcess`. -/
def obmc (c : InterCtx) (r : Nat × Nat) (plane w h : Nat) (F : List (List Int)) : Res (List (List Int)) := do
  let F ← obmcUp c r plane w h F
  obmcSide c r plane w h F

/-! ## The process -/

/-- predict_inter.go:40: the condition; Go's `&&` binds tighter than `||`.  `GLOBALMV` is 16, `GLOBAL_GLOBALMV` 24, `TRANSLATION` 1. -/
def checksGlobal (c : InterCtx) (refFrame : Int) : Res Bool :=
  if c.yMode = 16 then pure true
  else if c.yMode = 24 then do
    let g ← goGet c.gmType refFrame
    pure (decide (g > 1))
  else pure false

/-- predict_inter.go:39-42: `globalValid`. -/
def globalValid (c : InterCtx) (refFrame : Int) : Res Bool := do
  let b ← checksGlobal c refFrame
  if b then do
    let p ← goGet c.gmParams refFrame
    let s ← setupShear p
    pure s.valid
  else pure false

/-- predict_inter.go:48-52: the condition of a global warp. -/
def globalWarp (c : InterCtx) (refFrame : Int) (gv : Bool) : Res Nat :=
  if c.yMode = 16 ∨ c.yMode = 24 then do
    let g ← goGet c.gmType refFrame
    if g > 1 then do
      let s ← isScaled c refFrame
      pure (if !s && gv then 2 else 0)
    else pure 0
  else pure 0

/-- predict_inter.go:44-52: `useWarp`; `LOCALWARP` is 2. -/
def useWarp (c : InterCtx) (w h : Nat) (refFrame : Int) (gv : Bool) : Res Nat :=
  if w < 8 ∨ h < 8 then pure 0
  else if c.forceIntegerMv then pure 0
  else if c.motionMode = 2 ∧ c.localValid then pure 1
  else globalWarp c refFrame gv

/-- predict_inter.go:56-65: `refIdx`; for intra block copy the dimensions of the current frame are stored at the last index and -1 used. -/
def refIndex (c : InterCtx) (refFrame : Int) : Res Int :=
  if c.useIntrabc then pure (-1) else do
    let i ← goGet c.refFrameIdx (refFrame - 1)
    pure i

/-- predict_inter.go:36-88 and 93-138: the prediction from one reference. -/
def predictFrom (c : InterCtx) (r : Nat × Nat) (plane x y w h : Nat) (candRow candCol : Int) (refFrame : Int) (mv : Int × Int) : Res (List (List Int)) := do
  let gv ← globalValid c refFrame
  let uw ← useWarp c w h refFrame gv
  let refIdx ← refIndex c refFrame
  let pos ← mvScaling c plane refIdx x y mv
  if uw ≠ 0 then blockWarp c uw refFrame else blockInter c r plane refIdx pos w h candRow candCol

/-- predict_inter.go:144-154: the masks and weights; every one of them is kept in a slice that is never made (`wedgeMaskProcess`: the
`MasterMask` of wedge_mask.go:81, before anything else).  0 `COMPOUND_WEDGE`, 1 `COMPOUND_DIFFWTD`, 3 `COMPOUND_INTRA`, 4
`COMPOUND_DISTANCE`. -/
def compoundMasks (c : InterCtx) (plane w h : Nat) (rf : Int × Int) : Res Unit :=
  if c.compoundType = 0 ∧ plane = 0 then .error .index
  else if c.compoundType = 3 then
    if max h w = 0 then .error .div else if h = 0 ∨ w = 0 then pure () else .error .index
  else if c.compoundType = 1 then
    if h = 0 ∨ w = 0 then pure () else .error .index
  else if c.compoundType = 4 then do
    let _ ← goGet c.orderHints rf.1
    .error .index
  else pure ()

/-- predict_inter.go:156-161: the pixels; the column is `x+i`, not `x+j`. -/
def writePred (x y w h bitDepth : Nat) (v : Nat → Nat → Res Int) (F : List (List Int)) : Res (List (List Int)) :=
  forN (fun i F => forN (fun j F => do
    let p ← v i j
    gset F ((y + i : Nat) : Int) ((x + i : Nat) : Int) (clip1 p bitDepth)) w 0 F) h 0 F

/-- predict_inter.go:162-176: a block with a second prediction; `InterPostRound` is never assigned, `preds[1]` is zero (a second prediction
does not get here).  `maskBlendProcess` reads `t.Mask`.  The branch of `COMPOUND_DISTANCE` is not reached (`compoundMasks`). -/
def writeSecond (c : InterCtx) (x y w h : Nat) (p : List (List Int)) (F : List (List Int)) : Res (List (List Int)) :=
  if c.compoundType = 2 then writePred x y w h c.bitDepth (fun i j => do
    let v ← gget p i j
    pure (round2 (v + 0) 1)) F
  else if h = 0 ∨ w = 0 then pure F else .error .index

/-- predict_inter.go:156-176. -/
def writeBlock (c : InterCtx) (x y w h : Nat) (p : List (List Int)) (F : List (List Int)) : Res (List (List Int)) :=
  if c.isInterIntra then writeSecond c x y w h p F
  else writePred x y w h c.bitDepth (fun i j => gget p i j) F

/-- predict_inter.go:91-142: for a compound block, the second prediction is stored in a slice that is never made. -/
def secondRef (c : InterCtx) (r : Nat × Nat) (plane x y w h : Nat) (candRow candCol : Int) (rf : Int × Int) (mv : (Int × Int) × (Int × Int)) : Res Unit :=
  if rf.2 > 0 then do
    let _ ← predictFrom c r plane x y w h candRow candCol rf.2 mv.2
    .error .index
  else pure ()

/-- predict_inter.go:23-181 `predictInter`.  With `LOCALWARP` (2), `warpEstimationProcess` (lines 441-511) starts with an assignment to an
element of a slice that is never made. -/
def predictInter (c : InterCtx) (plane x y w h : Nat) (candRow candCol : Int) (F : List (List Int)) : Res (List (List Int)) := do
  let rf ← gget c.refFrames candRow candCol
  let r := roundVars (decide (rf.2 > 0)) c.bitDepth
  if plane = 0 ∧ c.motionMode = 2 then .error .index else do
    let mv ← gget c.mvs candRow candCol
    let p ← predictFrom c r plane x y w h candRow candCol rf.1 mv.1
    secondRef c r plane x y w h candRow candCol rf mv
    compoundMasks c plane w h rf
    let F ← writeBlock c x y w h p F
    if c.motionMode = 1 then obmc c r plane w h F else pure F

/-! ## A block -/

/-- What `computePrediction` reads besides. -/
structure CpCtx where
  inter : InterCtx := {}
  intra : IntraCtx := {}
  hasChroma : Bool := true
  use128 : Bool := false
  isInter : Bool := false
  /-- `state.RefFrame[1]` -/
  refFrame1 : Int := 0
  interIntraMode : Nat := 0

/-- compute_prediction.go:38-47: the mode of the intra part. -/
def interIntraIntraMode (m : Nat) : Int := if m = 0 then 0 else if m = 1 then 1 else if m = 2 then 2 else 9

/-- compute_prediction.go:34: `t.IsInterIntra`. -/
def cpInterIntra (c : CpCtx) : Bool := c.isInter && c.refFrame1 == 0

/-- compute_prediction.go:36-55: the intra part of a plane. -/
def cpIntra (c : CpCtx) (plane ps : Nat) (decoded : List (List Bool)) (s : TbSt) : Res TbSt :=
  if cpInterIntra c then do
    let w4 ← goGet num4x4Wide ps
    let h4 ← goGet num4x4High ps
    let lw ← goGet miWidthLog2 ps
    let lh ← goGet miHeightLog2 ps
    let sx := planeSub c.inter.subX plane
    let sy := planeSub c.inter.subY plane
    let mask := if c.use128 then 31 else 15
    let sbRow := (c.inter.miRow &&& mask) >>> sy
    let sbCol := (c.inter.miCol &&& mask) >>> sx
    let ar ← gget decoded ((sbRow : Int) - 1) ((sbCol + w4 : Nat) : Int)
    let bl ← gget decoded ((sbRow + h4 : Nat) : Int) ((sbCol : Int) - 1)
    let F ← goGet s.frames plane
    let r ← predictIntra c.intra
      { plane := plane, x := (c.inter.miCol >>> sx) * 4, y := (c.inter.miRow >>> sy) * 4,
        haveLeft := if plane = 0 then c.intra.availL else c.intra.availLChroma,
        haveAbove := if plane = 0 then c.intra.availU else c.intra.availUChroma,
        haveAboveRight := ar, haveBelowLeft := bl, mode := interIntraIntraMode c.interIntraMode, log2W := 2 + lw, log2H := 2 + lh } F s.above s.left
    let fs ← goSet s.frames plane r.1
    pure { s with frames := fs, above := r.2.1, left := r.2.2 }
  else pure s

/-- compute_prediction.go:60-69: one of the blocks is intra. -/
def someUseIntra (c : InterCtx) (candRow candCol rows cols : Nat) : Res Bool :=
  forN (fun r b => forN (fun q b => do
    let rf ← gget c.refFrames ((candRow + r : Nat) : Int) ((candCol + q : Nat) : Int)
    pure (b || rf.1 == 0)) cols 0 b) rows 0 false

/-- A call of `predictInter`. -/
structure InterCall where
  plane : Nat
  x : Nat
  y : Nat
  w : Nat
  h : Nat
  candRow : Nat
  candCol : Nat
deriving DecidableEq, Repr

/-- compute_prediction.go:76-82: the loops `for y := 0; y < n; y += step`; `r` and `c` are never incremented.  A step of zero does not end. -/
def interCalls (plane baseX baseY w4 h4 predW predH candRow candCol : Nat) : Res (List InterCall) :=
  if (predH = 0 ∧ h4 > 0) ∨ (predW = 0 ∧ w4 > 0 ∧ h4 > 0) then .error .hang
  else pure ((List.range ((h4 + predH - 1) / predH)).flatMap fun i =>
    (List.range ((w4 + predW - 1) / predW)).map fun j => ⟨plane, baseX + j * predW, baseY + i * predH, predW, predH, candRow, candCol⟩)

/-- compute_prediction.go:20-33, 57-82: the calls of `predictInter` for a plane. -/
def interPlaneCalls (c : InterCtx) (plane ps : Nat) : Res (List InterCall) := do
  let w4 ← goGet num4x4Wide ps
  let h4 ← goGet num4x4High ps
  let sx := planeSub c.subX plane
  let sy := planeSub c.subY plane
  let bw ← goGet blockWidth c.miSize
  let bh ← goGet blockHeight c.miSize
  let candRow := (c.miRow >>> sy) <<< sy
  let candCol := (c.miCol >>> sx) <<< sx
  let si ← someUseIntra c candRow candCol (h4 <<< sy) (w4 <<< sx)
  if si then interCalls plane ((c.miCol >>> sx) * 4) ((c.miRow >>> sy) * 4) w4 h4 (w4 * 4) (h4 * 4) c.miRow c.miCol
  else interCalls plane ((c.miCol >>> sx) * 4) ((c.miRow >>> sy) * 4) w4 h4 (bw >>> sx) (bh >>> sy) candRow candCol

/-- The calls made one after the other. -/
def runInter (c : InterCtx) : List InterCall → List (List Int) → Res (List (List Int))
  | [], F => pure F
  | k :: ks, F => do
    let F ← predictInter c k.plane k.x k.y k.w k.h k.candRow k.candCol F
    runInter c ks F

/-- compute_prediction.go:57-84: the inter part of a plane. -/
def cpInter (c : CpCtx) (plane ps : Nat) (s : TbSt) : Res TbSt :=
  if c.isInter then do
    let calls ← interPlaneCalls c.inter plane ps
    let F ← goGet s.frames plane
    let F ← runInter { c.inter with isInterIntra := cpInterIntra c } calls F
    let fs ← goSet s.frames plane F
    pure { s with frames := fs }
  else pure s

/-- compute_prediction.go:20-85: a plane. -/
def cpPlane (c : CpCtx) (plane : Nat) (s : TbSt) : Res TbSt := do
  let ps ← getPlaneResidualSize c.inter.subX c.inter.subY c.inter.miSize plane
  let m ← goGet s.marks plane
  let s ← cpIntra c plane ps m.decoded s
  cpInter c plane ps s

/-- compute_prediction.go:12-87 `computePrediction`. -/
def computePrediction (c : CpCtx) (s : TbSt) : Res TbSt := forN (fun plane s => cpPlane c plane s) (if c.hasChroma then 3 else 1) 0 s

end Gov1
