import Verif.Model.MvStack
/-!
# Mode info of inter frames

internal/tilegroup/inter_frame_mode_info.go, inter_block_mode_info.go and syntax_element.go.
-/
namespace Gov1

/-- `b.S()` (internal/bitstream/bitstream.go): panics "not implemented: S()". -/
def notImpl {α : Type} : Rd α := .fail (.explicit "not implemented: S()")

/-- What these functions read of the headers besides `MiHdr` and `MvHdr`. -/
structure InHdr where
  /-- `uh.SkipModePresent, uh.ReferenceSelect` -/
  skipModePresent : Bool := false
  refSelect : Bool := false
  /-- `uh.SkipModeFrame` -/
  skipModeFrame : List Int := []
  /-- `uh.IsMotionModeSwitchable, uh.InterpolationFilter` -/
  motionSwitchable : Bool := false
  interpFilter : Nat := 0
  /-- `sh.EnableDualFilter, sh.EnableInterIntraCompound, sh.EnableMaskedCompound, sh.EnableJntComp` -/
  dualFilter : Bool := false
  interIntra : Bool := false
  masked : Bool := false
  jntComp : Bool := false

/-! ## Neighbours -/

/-- The references of the neighbours: `t.LeftRefFrame, t.AboveRefFrame` and their availability. -/
structure NbRefs where
  availU : Bool := false
  availL : Bool := false
  above : Int × Int := (0, -1)
  left : Int × Int := (0, -1)

/-- internal/tilegroup/inter_frame_mode_info.go:17-23: `t.LeftRefFrame`. -/
def leftRefs (b : MiBlk) (refs : List (List (Int × Int))) : Res (Int × Int) :=
  if b.availL then gget refs b.miRow ((b.miCol : Int) - 1) else pure (0, -1)
/-- internal/tilegroup/inter_frame_mode_info.go:25-31: `t.AboveRefFrame`. -/
def aboveRefs (b : MiBlk) (refs : List (List (Int × Int))) : Res (Int × Int) :=
  if b.availU then gget refs ((b.miRow : Int) - 1) b.miCol else pure (0, -1)

/-- internal/tilegroup/inter_frame_mode_info.go:17-31. -/
def nbRefs (b : MiBlk) (refs : List (List (Int × Int))) : Res NbRefs := do
  let l ← leftRefs b refs
  let u ← aboveRefs b refs
  pure ⟨b.availU, b.availL, u, l⟩

/-- internal/tilegroup/inter_frame_mode_info.go:33, 34: `t.LeftIntra, t.AboveIntra`. -/
def refIntra (r : Int × Int) : Bool := decide (r.1 ≤ 0)

/-! ## Segment ids -/

/-- internal/tilegroup/inter_frame_mode_info.go:156-171 `getSegmentId`; `prev` is `state.PrevSegmentIds`. -/
def getSegmentId (b : MiBlk) (miRows miCols : Nat) (prev : List (List Int)) : Res Int := do
  let bw4 ← goGet num4x4Wide b.miSize
  let bh4 ← goGet num4x4High b.miSize
  let xMis := min ((miCols : Int) - b.miCol) bw4
  let yMis := min ((miRows : Int) - b.miRow) bh4
  forN (fun y s => forN (fun x s => do
    let v ← gget prev ((b.miRow + y : Nat) : Int) ((b.miCol + x : Nat) : Int)
    pure (min s v)) xMis.toNat 0 s) yMis.toNat 0 7

/-- internal/tilegroup/inter_frame_mode_info.go:111-147, segmentation enabled and the map updated.  With the skip flag lines 118-123
write to `t.AboveSegPredContext`, a nil slice: panic. -/
def interSegUpdate (h : MiHdr) (b : MiBlk) (ids : List (List Int)) (preSkip : Bool) (skip : Nat) : Rd Int :=
  if preSkip ∧ h.segIdPreSkip = 0 then pure 0
  else if !preSkip ∧ skip ≠ 0 then .fail .index
  else if h.segTemporalUpdate then notImpl
  else readSegmentId h b ids skip

/-- internal/tilegroup/inter_frame_mode_info.go:106-153 `interSegmentId`; returns `t.SegmentId`. -/
def interSegmentId (h : MiHdr) (b : MiBlk) (miRows miCols : Nat) (ids prev : List (List Int)) (preSkip : Bool) (skip : Nat) : Rd Int :=
  if h.segEnabled then do
    let p ← Rd.lift (getSegmentId b miRows miCols prev)
    if h.segUpdateMap then interSegUpdate h b ids preSkip skip else pure p
  else pure 0

/-! ## Skip mode, inter flag -/

/-- Go `a || b` on feature tests: the second is not evaluated if the first holds. -/
def orElseRes (a : Res Bool) (b : Unit → Res Bool) : Res Bool := do
  let x ← a
  if x then pure true else b ()

/-- internal/tilegroup/inter_frame_mode_info.go:175: the segment features that rule out skip mode (6 `SEG_LVL_SKIP`, 5
`SEG_LVL_REF_FRAME`, 7 `SEG_LVL_GLOBALMV`). -/
def skipModeBySegment (h : MiHdr) (id : Int) : Res Bool :=
  orElseRes (miSegFeature h id 6) fun _ => orElseRes (miSegFeature h id 5) fun _ => miSegFeature h id 7

/-- internal/tilegroup/inter_frame_mode_info.go:174-180 `readSkipMode`; returns `t.SkipMode`. -/
def readSkipMode (h : MiHdr) (ih : InHdr) (miSize : Nat) (id : Int) : Rd Nat := do
  let s ← Rd.lift (skipModeBySegment h id)
  if s then pure 0
  else if !ih.skipModePresent then pure 0
  else do
    let w ← Rd.lift (goGet blockWidth miSize)
    let ht ← Rd.lift (goGet blockHeight miSize)
    if w < 8 ∨ ht < 8 then pure 0 else notImpl

/-- internal/tilegroup/inter_frame_mode_info.go:193-209: the context of `is_inter`. -/
def isInterCtx (n : NbRefs) : Nat :=
  if n.availU ∧ n.availL then
    if refIntra n.left ∧ refIntra n.above then 3 else (if refIntra n.left ∨ refIntra n.above then 1 else 0)
  else if n.availU ∨ n.availL then
    if n.availU then 2 * (if refIntra n.above then 1 else 0) else 2 * (if refIntra n.left then 1 else 0)
  else 0

/-- internal/tilegroup/inter_frame_mode_info.go:183-212 `readIsInter`; returns `t.IsInter`. -/
def readIsInter (h : MiHdr) (n : NbRefs) (skipMode : Nat) (id : Int) : Rd Nat :=
  if skipMode ≠ 0 then pure 1
  else do
    let r ← Rd.lift (miSegFeature h id 5)
    if r then do
      let d ← Rd.lift (gget h.featureData id 5)
      pure (if d ≠ 0 then 1 else 0)
    else do
      let g ← Rd.lift (miSegFeature h id 7)
      if g then pure 0 else Rd.read "IsInter" [(isInterCtx n : Int)]

/-! ## Intra blocks of inter frames -/

/-- internal/tilegroup/inter_frame_mode_info.go:214-217 `SIZE_GROUP`. -/
def sizeGroup : List Nat := [0, 0, 0, 1, 1, 1, 2, 2, 2, 3, 3, 3, 3, 3, 3, 3, 0, 0, 1, 1, 2, 2]

/-- internal/tilegroup/inter_frame_mode_info.go:69: `y_mode`. -/
def readYMode (miSize : Nat) : Rd Nat := do
  let g ← Rd.lift (goGet sizeGroup miSize)
  Rd.read "YMode" [(g : Int)]

/-- internal/tilegroup/inter_frame_mode_info.go:66-103 `intraBlockModeInfo`. -/
def intraBlockModeInfo (h : MiHdr) (b : MiBlk) (ar : MiArr) (m : ModeInfo) : Rd ModeInfo := do
  let y ← readYMode b.miSize
  let a ← intraAngleInfo b.miSize y
  let m ← chromaModes cflLimInterFrame h b { m with isInter := 0, refFrame := (0, -1), yMode := y, angleY := a }
  paletteInfo h b m.yMode m.uvMode ar.palSizes
  filterIntraModeInfo h b.miSize m.yMode 0
  pure m

/-! ## References -/

/-- internal/tilegroup/syntax_element.go:11-32 `countRefs`. -/
def countRefs (n : NbRefs) (f : Int) : Nat :=
  (if n.availU then (if n.above.1 = f then 1 else 0) + (if n.above.2 = f then 1 else 0) else 0) +
  (if n.availL then (if n.left.1 = f then 1 else 0) + (if n.left.2 = f then 1 else 0) else 0)

/-- internal/tilegroup/syntax_element.go:34-42 `refCountCtx`. -/
def refCountCtx (a b : Nat) : Nat := if a < b then 0 else if a = b then 1 else 2

/-- internal/tilegroup/syntax_element.go:45-51: references before and after the frame. -/
def ctxP1 (n : NbRefs) : Nat :=
  refCountCtx (countRefs n 1 + countRefs n 2 + countRefs n 3 + countRefs n 4) (countRefs n 5 + countRefs n 6 + countRefs n 7)
/-- internal/tilegroup/syntax_element.go:57-59 and 82-84. -/
def ctxP2 (n : NbRefs) : Nat := refCountCtx (countRefs n 5) (countRefs n 6)
/-- internal/tilegroup/syntax_element.go:65-67. -/
def ctxP3 (n : NbRefs) : Nat := refCountCtx (countRefs n 1 + countRefs n 2) (countRefs n 3 + countRefs n 4)
/-- internal/tilegroup/syntax_element.go:72-79: the counts of `single_ref_p1`. -/
def ctxP4 (n : NbRefs) : Nat := ctxP1 n

/-- internal/tilegroup/inter_block_mode_info.go:184-196: a reference after the frame. -/
def readBackward (n : NbRefs) : Rd Int := do
  let p2 ← Rd.read "SingleRef" [(ctxP2 n : Int), 1]
  if p2 = 0 then do
    let p6 ← Rd.read "SingleRef" [(ctxP2 n : Int), 5]
    pure (if p6 ≠ 0 then 6 else 5)
  else pure 7

/-- internal/tilegroup/inter_block_mode_info.go:198-213: a reference before the frame; `single_ref_p5` is `b.S()`. -/
def readForward (n : NbRefs) : Rd Int := do
  let p3 ← Rd.read "SingleRef" [(ctxP3 n : Int), 2]
  if p3 ≠ 0 then notImpl
  else do
    let p4 ← Rd.read "SingleRef" [(ctxP4 n : Int), 3]
    pure (if p4 ≠ 0 then 2 else 1)

/-- internal/tilegroup/inter_block_mode_info.go:183 and 197. -/
def readSide (n : NbRefs) (p1 : Nat) : Rd Int := if p1 ≠ 0 then readBackward n else readForward n

/-- internal/tilegroup/inter_block_mode_info.go:182-216: one reference. -/
def readSingleRef (n : NbRefs) : Rd (Int × Int) := do
  let p1 ← Rd.read "SingleRef" [(ctxP1 n : Int), 0]
  let r ← readSide n p1
  pure (r, -1)

/-- internal/tilegroup/inter_block_mode_info.go:112-219 `readRefFrames`; returns `state.RefFrame`.  The compound references of lines
131-180 are behind the panicking `b.S()` of line 126. -/
def readRefFrames (h : MiHdr) (ih : InHdr) (n : NbRefs) (miSize : Nat) (skipMode : Nat) (id : Int) : Rd (Int × Int) :=
  if skipMode ≠ 0 then do
    let a ← Rd.lift (goGet ih.skipModeFrame 0)
    let b ← Rd.lift (goGet ih.skipModeFrame 1)
    pure (a, b)
  else do
    let s ← Rd.lift (miSegFeature h id 5)
    if s then do
      let d ← Rd.lift (gget h.featureData id 5)
      pure (d, -1)
    else do
      let bw4 ← Rd.lift (goGet num4x4Wide miSize)
      let bh4 ← Rd.lift (goGet num4x4High miSize)
      if ih.refSelect ∧ min bw4 bh4 ≥ 2 then notImpl else readSingleRef n

/-! ## Inter blocks -/

/-- internal/tilegroup/inter_block_mode_info.go:33: segments without coded modes. -/
def modeBySegment (h : MiHdr) (id : Int) : Res Bool := orElseRes (miSegFeature h id 6) fun _ => miSegFeature h id 7

/-- internal/tilegroup/inter_block_mode_info.go:39-54: the mode of a block with one reference; `ref_mv` is `b.S()`. -/
def readSingleMode (s : MvSt) : Rd Nat := do
  let new ← Rd.read "NewMv" [(s.newCtx : Int)]
  if new = 0 then pure 17
  else do
    let zm ← Rd.read "ZeroMv" [(s.zeroCtx : Int)]
    if zm = 0 then pure 16 else notImpl

/-- internal/tilegroup/inter_block_mode_info.go:31-55: `t.YMode`. -/
def readInterMode (h : MiHdr) (skipMode : Nat) (id : Int) (compound : Bool) (s : MvSt) : Rd Nat :=
  if skipMode ≠ 0 then pure 18
  else do
    let g ← Rd.lift (modeBySegment h id)
    if g then pure 16
    else if compound then notImpl
    else readSingleMode s

/-- internal/tilegroup/inter_block_mode_info.go:488-490 `hasNearmv`. -/
def hasNearmv (yMode : Nat) : Bool := yMode == 15 || yMode == 19 || yMode == 22 || yMode == 23

/-- internal/tilegroup/inter_block_mode_info.go:57-79: `t.RefMvIdx`; `drl_mode` is `b.S()`, read if there are more candidates. -/
def readRefMvIdx (yMode num : Nat) : Rd Nat :=
  if yMode = 17 ∨ yMode = 25 then (if num > 1 then notImpl else pure 0)
  else if hasNearmv yMode then (if num > 2 then notImpl else pure 1)
  else pure 0

/-- internal/tilegroup/inter_block_mode_info.go:466-485 `readInterIntraMode`; returns `t.InterIntra`. -/
def readInterIntra (ih : InHdr) (skipMode miSize : Nat) (compound : Bool) : Rd Nat :=
  if skipMode ≠ 0 ∧ ih.interIntra ∧ !compound ∧ miSize > 3 ∧ miSize ≤ 9 then notImpl else pure 0

/-- internal/tilegroup/inter_block_mode_info.go:239-244: a global warp. -/
def motionByGlobal (hm : MvHdr) (gmType : List Int) (ref : Int) (yMode : Nat) : Res Bool :=
  if !hm.forceInteger ∧ (yMode = 16 ∨ yMode = 24) then do
    let t ← goGet gmType ref
    pure (decide (t > 1))
  else pure false

/-- internal/tilegroup/inter_block_mode_info.go:222-257 `readMotionMode`; returns `t.MotionMode` (0 `SIMPLE`).  Lines 246-256 end in
`b.S()` on both paths; `findWarpSamples` and `isScaled`, called before, return or panic: a panic in every case. -/
def readMotionMode (ih : InHdr) (hm : MvHdr) (gmType : List Int) (ref : Int) (skipMode miSize yMode : Nat) : Rd Nat :=
  if skipMode ≠ 0 then pure 0
  else if !ih.motionSwitchable then pure 0
  else do
    let w ← Rd.lift (goGet blockWidth miSize)
    let ht ← Rd.lift (goGet blockHeight miSize)
    if min w ht < 8 then pure 0
    else do
      let g ← Rd.lift (motionByGlobal hm gmType ref yMode)
      if g then pure 0 else notImpl

/-- internal/tilegroup/inter_block_mode_info.go:413-463 `readCompoundType`; returns `t.CompoundType` (2 `COMPOUND_AVERAGE`, 3
`COMPOUND_INTRA`).  `CompGroupIdx` is 0 unless read by `b.S()`; `interIntra` is 0 (`readInterIntra`), its branch (lines 453-458) is
left out. -/
def readCompoundType (ih : InHdr) (skipMode : Nat) (compound : Bool) : Rd Nat :=
  if skipMode ≠ 0 then pure 2
  else if compound then (if ih.masked then notImpl else if ih.jntComp then notImpl else pure 2)
  else pure 2

/-- internal/tilegroup/inter_block_mode_info.go:398-410 `needsInterpFilter`; `MotionMode` 2 is `LOCALWARP`. -/
def needsInterpFilter (gmType : List Int) (ref : Int) (skipMode miSize yMode motion : Nat) : Res Bool := do
  let w ← goGet blockWidth miSize
  let ht ← goGet blockHeight miSize
  if skipMode ≠ 0 ∨ motion = 2 then pure false
  else if min w ht ≥ 8 ∧ yMode = 16 then do
    let t ← goGet gmType ref
    pure (decide (t = 1))
  else if min w ht ≥ 8 ∧ yMode = 24 then do
    let t ← goGet gmType ref
    let u ← goGet gmType 1
    pure (decide (t = 1) || decide (u = 1))
  else pure true

/-- internal/tilegroup/inter_block_mode_info.go:86-107: `t.InterpFilter`; 4 is `SWITCHABLE`, 0 `EIGHTTAP`.  With dual filters the loop
runs twice with the same outcome. -/
def readInterpFilter (ih : InHdr) (gmType : List Int) (ref : Int) (skipMode miSize yMode motion : Nat) : Rd (Nat × Nat) :=
  if ih.interpFilter = 4 then do
    let n ← Rd.lift (needsInterpFilter gmType ref skipMode miSize yMode motion)
    if n then notImpl else pure (0, 0)
  else pure (ih.interpFilter, ih.interpFilter)

/-- What the mode info of an inter frame leaves. -/
structure InterInfo where
  base : ModeInfo := {}
  skipMode : Nat := 0
  mvSt : MvSt := {}
  /-- `t.Mv` -/
  mv : MvPair := ((0, 0), (0, 0))
  refMvIdx : Nat := 0
  interIntra : Nat := 0
  motion : Nat := 0
  compoundType : Nat := 0
  interp : Nat × Nat := (0, 0)

/-- internal/tilegroup/inter_block_mode_info.go:81: the arguments of `assignMv`. -/
def mvInOf (e : MvEnv) (h : MiHdr) (yMode idx : Nat) (s : MvSt) : MvIn :=
  { yMode := yMode, refMvIdx := idx, numMvFound := s.num, stack := s.stack, globals := s.globals, use128 := h.use128, miRow := e.miRow, rowStart := e.tile.rowStart }

/-- internal/tilegroup/inter_block_mode_info.go:22-108 `interBlockModeInfo`.  `e` holds what the search of candidates reads; its
`refFrame` is replaced by the references read here. -/
def interBlockModeInfo (h : MiHdr) (ih : InHdr) (b : MiBlk) (n : NbRefs) (e : MvEnv) (m : InterInfo) : Rd InterInfo := do
  let r ← readRefFrames h ih n b.miSize m.skipMode m.base.segmentId
  let compound := decide (r.2 > 0)
  let s ← Rd.lift (findMvStack { e with refFrame := r } compound m.mvSt)
  let y ← readInterMode h m.skipMode m.base.segmentId compound s
  let idx ← readRefMvIdx y s.num
  let mv ← assignMv e.hdr (mvInOf e h y idx s) compound m.mv
  let ii ← readInterIntra ih m.skipMode b.miSize compound
  let mo ← readMotionMode ih e.hdr e.gmType r.1 m.skipMode b.miSize y
  let ct ← readCompoundType ih m.skipMode compound
  let fl ← readInterpFilter ih e.gmType r.1 m.skipMode b.miSize y mo
  pure { m with base := { m.base with isInter := 1, refFrame := r, yMode := y }, mvSt := s, mv := mv, refMvIdx := idx, interIntra := ii,
                motion := mo, compoundType := ct, interp := fl }

/-! ## All of mode info -/

/-- internal/tilegroup/inter_frame_mode_info.go:42-46: `t.Skip`. -/
def interSkip (h : MiHdr) (b : MiBlk) (ar : MiArr) (skipMode : Nat) (id : Int) : Rd Nat :=
  if skipMode ≠ 0 then pure 1 else readSkip h b ar.skipModes id

/-- internal/tilegroup/inter_frame_mode_info.go:48-50: the segment id after the skip flag. -/
def interSegAfter (h : MiHdr) (b : MiBlk) (miRows miCols : Nat) (ids prev : List (List Int)) (skip : Nat) (id : Int) : Rd Int :=
  if h.segIdPreSkip = 0 then interSegmentId h b miRows miCols ids prev false skip else pure id

/-- internal/tilegroup/inter_frame_mode_info.go:58-62. -/
def interOrIntra (h : MiHdr) (ih : InHdr) (b : MiBlk) (ar : MiArr) (n : NbRefs) (e : MvEnv) (inter : Nat) (m : InterInfo) : Rd InterInfo :=
  if inter ≠ 0 then interBlockModeInfo h ih b n e m
  else do
    let i ← intraBlockModeInfo h b ar m.base
    pure { m with base := i }

/-- internal/tilegroup/inter_frame_mode_info.go:14-63 `interFrameModeInfo`; `m` holds the values left by the block before, `e` what the
search of candidates reads, `prev` is `state.PrevSegmentIds`. -/
def interFrameModeInfo (h : MiHdr) (ih : InHdr) (b : MiBlk) (ar : MiArr) (e : MvEnv) (prev : List (List Int)) (readDeltas : Bool) (m : InterInfo) :
    Rd InterInfo := do
  let n ← Rd.lift (nbRefs b e.refFrames)
  let id ← interSegmentId h b e.miRows e.miCols ar.segIds prev true 0
  let sm ← readSkipMode h ih b.miSize id
  let skip ← interSkip h b ar sm id
  let id ← interSegAfter h b e.miRows e.miCols ar.segIds prev skip id
  let l ← Rd.lift (goGet h.losslessArray id)
  let cdef ← readCdef (skip != 0 || h.codedLossless || !h.enableCdef || h.allowIntraBc) h.cdefBits b.miRow b.miCol b.miSize m.base.cdefIdx
  let q ← readDeltaQIndex h b.miSize skip readDeltas m.base.curQ
  let lf ← readDeltaLf h b.miSize skip readDeltas m.base.deltaLF
  let inter ← readIsInter h n sm id
  interOrIntra h ih b ar n e inter { m with
    base := { m.base with skip := skip, segmentId := id, lossless := l, cdefIdx := cdef, curQ := q, deltaLF := lf }, skipMode := sm }

end Gov1
