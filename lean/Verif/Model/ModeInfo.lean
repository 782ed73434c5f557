import Verif.Model.Cdef
import Verif.Model.TxSize
import Verif.Model.Util
/-!
# Mode info of intra frames and the records of a block

internal/tilegroup/intra_frame_mode_info.go and decode_block.go.
-/
namespace Gov1

/-- What the functions of this file read of the sequence and frame headers. -/
structure MiHdr where
  /-- `sh.Use128x128SuperBlock` -/
  use128 : Bool := false
  /-- `sh.ColorConfig.NumPlanes > 1` -/
  chroma : Bool := true
  subX : Nat := 1
  subY : Nat := 1
  enableCdef : Bool := false
  enableFilterIntra : Bool := false
  /-- `uh.SegmentationEnabled, uh.SegIdPreSkip, uh.LastActiveSegId, uh.LosslessArray` -/
  segEnabled : Bool := false
  segIdPreSkip : Nat := 0
  lastActiveSegId : Nat := 0
  losslessArray : List Bool := List.replicate 8 false
  /-- `state.FeatureEnabled, state.FeatureData` -/
  featureEnabled : List (List Nat) := []
  featureData : List (List Int) := []
  codedLossless : Bool := false
  allowIntraBc : Bool := false
  allowScreen : Bool := false
  /-- `state.Cdef.CdefBits`, which is never assigned -/
  cdefBits : Nat := 0
  deltaQRes : Nat := 0
  deltaLfPresent : Bool := false
  deltaLfMulti : Bool := false
  deltaLfRes : Nat := 0
  segUpdateMap : Bool := false
  segTemporalUpdate : Bool := false

/-- Position and surroundings of the block. -/
structure MiBlk where
  miRow : Nat := 0
  miCol : Nat := 0
  miSize : Nat := 0
  availU : Bool := false
  availL : Bool := false
  hasChroma : Bool := true

/-- The arrays of earlier blocks that mode info reads. -/
structure MiArr where
  /-- `t.SegmentIds` -/
  segIds : List (List Int) := []
  /-- `t.SkipModes` -/
  skipModes : List (List Int) := []
  /-- `t.YModes` -/
  yModes : List (List Int) := []
  /-- `t.PaletteSizes[0]` -/
  palSizes : List (List Int) := []

/-! ## Deltas -/

/-- Lines 236-241 and 277-282: `sbSize`. -/
def sbBlockSize (use128 : Bool) : Nat := if use128 then 15 else 12

/-- internal/tilegroup/intra_frame_mode_info.go:248-254: `deltaQAbs`. -/
def readDeltaQAbs : Rd Nat := do
  let a ← Rd.read "DeltaQ" []
  if a = 3 then do
    let rem ← Rd.lit 3
    let n := rem + 1
    let bits ← Rd.lit (n : Int)
    pure (bits + 2 ^ n + 1)
  else pure a

/-- internal/tilegroup/intra_frame_mode_info.go:234-271 `readDeltaQIndex`; returns `state.CurrentQIndex`. -/
def readDeltaQIndex (h : MiHdr) (miSize : Nat) (skip : Nat) (readDeltas : Bool) (cur : Int) : Rd Int :=
  if miSize = sbBlockSize h.use128 ∧ skip ≠ 0 then pure cur
  else if readDeltas then do
    let a ← readDeltaQAbs
    if a ≠ 0 then do
      let s ← Rd.lit 1
      pure (clip3 1 255 (cur + (if s ≠ 0 then -(a : Int) else (a : Int)) * 2 ^ h.deltaQRes))
    else pure cur
  else pure cur

/-- internal/tilegroup/intra_frame_mode_info.go:299-304: which CDF array. -/
def deltaLfSym (multi : Bool) (i : Nat) : Rd Nat := if !multi then Rd.read "DeltaLF" [] else Rd.read "DeltaLFMulti" [(i : Int)]

/-- internal/tilegroup/intra_frame_mode_info.go:297-313: `deltaLfAbs`. -/
def readDeltaLfAbs (multi : Bool) (i : Nat) : Rd Nat := do
  let a ← deltaLfSym multi i
  if a = 3 then do
    let rem ← Rd.lit 3
    let n := rem + 1
    let bits ← Rd.lit (n : Int)
    pure (bits + 2 ^ n + 1)
  else pure a

/-- internal/tilegroup/intra_frame_mode_info.go:296-326: one turn of the loop. -/
def readDeltaLfOne (h : MiHdr) (lf : List Int) (i : Nat) : Rd (List Int) := do
  let a ← readDeltaLfAbs h.deltaLfMulti i
  if a ≠ 0 then do
    let s ← Rd.lit 1
    let old ← Rd.lift (goGet lf (i : Int))
    Rd.lift (goSet lf (i : Int) (clip3 (-63) 63 (old + (if s ≠ 0 then -(a : Int) else (a : Int)) * 2 ^ h.deltaLfRes)))
  else pure lf

/-- Lines 287-295: `frameLfCount`. -/
def frameLfCount (h : MiHdr) : Nat := if h.deltaLfMulti then (if h.chroma then 4 else 2) else 1

/-- The loop of line 296. -/
def readDeltaLfs (h : MiHdr) : Nat → Nat → List Int → Rd (List Int)
  | 0, _, lf => pure lf
  | n + 1, i, lf => do
    let lf ← readDeltaLfOne h lf i
    readDeltaLfs h n (i + 1) lf

/-- internal/tilegroup/intra_frame_mode_info.go:275-328 `readDeltaLf`; returns `state.DeltaLF`. -/
def readDeltaLf (h : MiHdr) (miSize : Nat) (skip : Nat) (readDeltas : Bool) (lf : List Int) : Rd (List Int) :=
  if miSize = sbBlockSize h.use128 ∧ skip ≠ 0 then pure lf
  else if readDeltas ∧ h.deltaLfPresent then readDeltaLfs h (frameLfCount h) 0 lf
  else pure lf

/-! ## Segment ids -/

/-- internal/tilegroup/intra_frame_mode_info.go:117-121: `prevUL`. -/
def segPrevUL (b : MiBlk) (ids : List (List Int)) : Res Int :=
  if b.availU ∧ b.availL then gget ids ((b.miRow : Int) - 1) ((b.miCol : Int) - 1) else pure (-1)
/-- Lines 123-127: `prevU`. -/
def segPrevU (b : MiBlk) (ids : List (List Int)) : Res Int :=
  if b.availU then gget ids ((b.miRow : Int) - 1) (b.miCol : Int) else pure (-1)
/-- Lines 129-133: `prevL`. -/
def segPrevL (b : MiBlk) (ids : List (List Int)) : Res Int :=
  if b.availL then gget ids (b.miRow : Int) ((b.miCol : Int) - 1) else pure (-1)

/-- Lines 135-149: `pred`. -/
def segPredOf (u l ul : Int) : Int :=
  if u = -1 then (if l = -1 then 0 else l)
  else if l = -1 then u
  else if ul = u then u else l

/-- Lines 154-163: `ctx`. -/
def segCtxOf (u l ul : Int) : Int :=
  if ul < 0 then 0
  else if ul = u ∧ ul = l then 2
  else if ul = u ∨ ul = l ∨ u = l then 1
  else 0

/-- internal/tilegroup/intra_frame_mode_info.go:112-168 `readSegmentId`; returns `t.SegmentId`. -/
def readSegmentId (h : MiHdr) (b : MiBlk) (ids : List (List Int)) (skip : Nat) : Rd Int := do
  let ul ← Rd.lift (segPrevUL b ids)
  let u ← Rd.lift (segPrevU b ids)
  let l ← Rd.lift (segPrevL b ids)
  if skip = 1 then pure (segPredOf u l ul)
  else do
    let s ← Rd.read "SegmentId" [segCtxOf u l ul]
    pure (negDeinterleave (s : Int) (segPredOf u l ul) ((h.lastActiveSegId : Int) + 1))

/-- internal/tilegroup/intra_frame_mode_info.go:194-196 `segFeatureActiveIdx`. -/
def miSegFeature (h : MiHdr) (idx feature : Int) : Res Bool :=
  if h.segEnabled then do
    let v ← gget h.featureEnabled idx feature
    pure (v == 1)
  else pure false

/-- internal/tilegroup/intra_frame_mode_info.go:200-204. -/
def segIdIfEnabled (h : MiHdr) (b : MiBlk) (ids : List (List Int)) (skip : Nat) : Rd Int :=
  if h.segEnabled then readSegmentId h b ids skip else pure 0

/-- internal/tilegroup/intra_frame_mode_info.go:199-207 `intraSegmentId`: `t.SegmentId` and `t.Lossless`. -/
def intraSegmentId (h : MiHdr) (b : MiBlk) (ids : List (List Int)) (skip : Nat) : Rd (Int × Bool) := do
  let id ← segIdIfEnabled h b ids skip
  let l ← Rd.lift (goGet h.losslessArray id)
  pure (id, l)

/-! ## Skip flag -/

/-- Go `if state.AvailU { ... m[state.MiRow-1][state.MiCol] }`, 0 otherwise. -/
def cellAbove (b : MiBlk) (m : List (List Int)) : Res Int := if b.availU then gget m ((b.miRow : Int) - 1) (b.miCol : Int) else pure 0
/-- Go `if state.AvailL { ... m[state.MiRow][state.MiCol-1] }`, 0 otherwise. -/
def cellLeft (b : MiBlk) (m : List (List Int)) : Res Int := if b.availL then gget m (b.miRow : Int) ((b.miCol : Int) - 1) else pure 0

/-- internal/tilegroup/intra_frame_mode_info.go:176-182: the context; the array is `t.SkipModes`. -/
def skipCtx (b : MiBlk) (skipModes : List (List Int)) : Res Int := do
  let u ← cellAbove b skipModes
  let l ← cellLeft b skipModes
  pure (u + l)

/-- Line 173: `(uh.SegIdPreSkip == 1) && t.segFeatureActive(SEG_LVL_SKIP)`. -/
def skipBySegment (h : MiHdr) (segId : Int) : Res Bool := if h.segIdPreSkip = 1 then miSegFeature h segId 6 else pure false

/-- internal/tilegroup/intra_frame_mode_info.go:171-186 `readSkip`; returns `t.Skip`. -/
def readSkip (h : MiHdr) (b : MiBlk) (skipModes : List (List Int)) (segId : Int) : Rd Nat := do
  let s ← Rd.lift (skipBySegment h segId)
  if s then pure 1
  else do
    let ctx ← Rd.lift (skipCtx b skipModes)
    Rd.read "Skip" [ctx]

/-! ## Prediction modes -/

/-- internal/tilegroup/intra_frame_mode_info.go:87-89 `INTRA_MODE_CONTEXT`. -/
def intraModeContext : List Nat := [0, 1, 2, 3, 4, 4, 4, 4, 3, 0, 1, 2, 0]

/-- Lines 95-99: `aboveMode`. -/
def aboveModeCtx (b : MiBlk) (yModes : List (List Int)) : Res Nat :=
  if b.availU then do
    let m ← gget yModes ((b.miRow : Int) - 1) (b.miCol : Int)
    goGet intraModeContext m
  else pure 0
/-- Lines 101-105: `leftMode`. -/
def leftModeCtx (b : MiBlk) (yModes : List (List Int)) : Res Nat :=
  if b.availL then do
    let m ← gget yModes (b.miRow : Int) ((b.miCol : Int) - 1)
    goGet intraModeContext m
  else pure 0

/-- internal/tilegroup/intra_frame_mode_info.go:91-108 `intraFrameYModeSymbol`. -/
def intraFrameYMode (b : MiBlk) (yModes : List (List Int)) : Rd Nat := do
  let a ← Rd.lift (aboveModeCtx b yModes)
  let l ← Rd.lift (leftModeCtx b yModes)
  Rd.read "IntraFrameYMode" [(a : Int), (l : Int)]

/-- internal/tilegroup/util.go:27-29 `isDirectionalMode`. -/
def isDirectionalMode (mode : Nat) : Bool := 1 ≤ mode && mode ≤ 8

/-- internal/tilegroup/intra_frame_mode_info.go:329-340 `intraAngleInfoY` and 373-383 `intraAngleInfoUv`; returns the angle delta. -/
def intraAngleInfo (miSize mode : Nat) : Rd Int :=
  if miSize ≥ 3 then
    if isDirectionalMode mode then do
      let a ← Rd.read "AngleDelta" [(mode : Int) - 1]
      pure ((a : Int) - 3)
    else pure 0
  else pure 0

/-- internal/tilegroup/intra_frame_mode_info.go:61-67: whether the CDF array with chroma from luma is read; `lim` is the test
`Max(width, height) < 32` here, `<= 32` in inter_frame_mode_info.go:76-82. -/
def cflAllowed (lim : Nat → Bool) (h : MiHdr) (miSize : Nat) (lossless : Bool) : Res Bool :=
  if lossless then do
    let s ← getPlaneResidualSize h.subX h.subY miSize 1
    pure (s == 0)
  else do
    let w ← goGet blockWidth miSize
    let ht ← goGet blockHeight miSize
    pure (lim (max w ht))

/-- The `lim` of intra_frame_mode_info.go:63. -/
def cflLimIntraFrame (n : Nat) : Bool := n < 32
/-- The `lim` of inter_frame_mode_info.go:78. -/
def cflLimInterFrame (n : Nat) : Bool := n ≤ 32

/-- internal/tilegroup/intra_frame_mode_info.go:60-69: `t.UVMode`. -/
def readUvMode (lim : Nat → Bool) (h : MiHdr) (miSize : Nat) (lossless : Bool) (yMode : Nat) : Rd Nat := do
  let a ← Rd.lift (cflAllowed lim h miSize lossless)
  if a then Rd.read "UVModeCflAllowed" [(yMode : Int)] else Rd.read "UVModeCflNotAllowed" [(yMode : Int)]

/-- internal/tilegroup/intra_frame_mode_info.go:348-357 and 359-368: one alpha from its sign and the other one;
`CFL_SIGN_ZERO` is 0, `CFL_SIGN_NEG` is 2 (tile_group.go). -/
def readCflAlpha (sign other : Nat) : Rd Int :=
  if sign ≠ 0 then do
    let a ← Rd.read "CflAlpha" [((sign : Int) - 1) * 3 + (other : Int)]
    pure (if sign = 2 then -(1 + (a : Int)) else 1 + (a : Int))
  else pure 0

/-- internal/tilegroup/intra_frame_mode_info.go:343-370 `readCflAlphas`: `t.CflAlphaU` and `t.CflAlphaV`. -/
def readCflAlphas : Rd (Int × Int) := do
  let s ← Rd.read "CflSign" []
  let signU := (s + 1) / 3
  let signV := (s + 1) % 3
  let u ← readCflAlpha signU signV
  let v ← readCflAlpha signV signU
  pure (u, v)

/-- internal/tilegroup/intra_frame_mode_info.go:386-395 `filterIntraModeInfo`: `b.S()` panics. -/
def filterIntraModeInfo (h : MiHdr) (miSize yMode palY : Nat) : Rd Unit :=
  if h.enableFilterIntra ∧ yMode = 0 ∧ palY = 0 then do
    let w ← Rd.lift (goGet blockWidth miSize)
    let ht ← Rd.lift (goGet blockHeight miSize)
    if max w ht ≤ 32 then .fail (.explicit "not implemented: S()") else pure ()
  else pure ()

/-! ## Palette flags -/

/-- internal/tilegroup/palette.go:19-25: the context of `has_palette_y`; `sizes` is `t.PaletteSizes[0]`. -/
def palCtx (b : MiBlk) (sizes : List (List Int)) : Res Nat := do
  let u ← cellAbove b sizes
  let l ← cellLeft b sizes
  pure ((if u > 0 then 1 else 0) + (if l > 0 then 1 else 0))

/-- internal/tilegroup/palette.go:18-66: luma; `b.S()` panics where a palette is present. -/
def paletteY (b : MiBlk) (yMode : Nat) (sizes : List (List Int)) (bSizeCtx : Int) : Rd Unit :=
  if yMode = 0 then do
    let ctx ← Rd.lift (palCtx b sizes)
    let has ← Rd.read "PaletteYMode" [bSizeCtx, (ctx : Int)]
    if has ≠ 0 then .fail (.explicit "not implemented: S()") else pure ()
  else pure ()

/-- internal/tilegroup/palette.go:15-140 `paletteModeInfo`: every path that returns leaves both palettes empty. -/
def paletteModeInfo (b : MiBlk) (yMode uvMode : Nat) (sizes : List (List Int)) : Rd Unit := do
  let wl ← Rd.lift (goGet miWidthLog2 b.miSize)
  let hl ← Rd.lift (goGet miHeightLog2 b.miSize)
  paletteY b yMode sizes ((wl : Int) + (hl : Int) - 2)
  if b.hasChroma ∧ uvMode = 0 then .fail (.explicit "not implemented: S()") else pure ()

/-- internal/tilegroup/intra_frame_mode_info.go:77-82 and inter_frame_mode_info.go:93-100. -/
def paletteInfo (h : MiHdr) (b : MiBlk) (yMode uvMode : Nat) (sizes : List (List Int)) : Rd Unit :=
  if b.miSize ≥ 3 then do
    let w ← Rd.lift (goGet blockWidth b.miSize)
    let ht ← Rd.lift (goGet blockHeight b.miSize)
    if w ≤ 64 ∧ ht ≤ 64 ∧ h.allowScreen then paletteModeInfo b yMode uvMode sizes else pure ()
  else pure ()

/-! ## All of mode info of an intra frame -/

/-- What mode info leaves in `t` and `state`. -/
structure ModeInfo where
  skip : Nat := 0
  segmentId : Int := 0
  lossless : Bool := false
  cdefIdx : CdefIdx := {}
  curQ : Int := 0
  deltaLF : List Int := [0, 0, 0, 0]
  /-- `state.RefFrame` -/
  refFrame : Int × Int := (0, 0)
  isInter : Nat := 0
  yMode : Nat := 0
  angleY : Int := 0
  uvMode : Nat := 0
  cflU : Int := 0
  cflV : Int := 0
  angleUV : Int := 0

/-- internal/tilegroup/intra_frame_mode_info.go:70-73: alphas, only for `UV_CFL_PRED`. -/
def cflIfUsed (uvMode : Nat) (u v : Int) : Rd (Int × Int) := if uvMode = 13 then readCflAlphas else pure (u, v)

/-- internal/tilegroup/intra_frame_mode_info.go:59-76: chroma modes. -/
def chromaModes (lim : Nat → Bool) (h : MiHdr) (b : MiBlk) (m : ModeInfo) : Rd ModeInfo :=
  if b.hasChroma then do
    let uv ← readUvMode lim h b.miSize m.lossless m.yMode
    let c ← cflIfUsed uv m.cflU m.cflV
    let a ← intraAngleInfo b.miSize uv
    pure { m with uvMode := uv, cflU := c.1, cflV := c.2, angleUV := a }
  else pure m

/-- internal/tilegroup/intra_frame_mode_info.go:53-83: the modes of a block that does not use intra block copy. -/
def intraModes (h : MiHdr) (b : MiBlk) (ar : MiArr) (m : ModeInfo) : Rd ModeInfo := do
  let y ← intraFrameYMode b ar.yModes
  let a ← intraAngleInfo b.miSize y
  let m ← chromaModes cflLimIntraFrame h b { m with isInter := 0, yMode := y, angleY := a }
  paletteInfo h b m.yMode m.uvMode ar.palSizes
  filterIntraModeInfo h b.miSize m.yMode 0
  pure m

/-- internal/tilegroup/intra_frame_mode_info.go:17-24: segment id before or after the skip flag; `id`, `l` are the values of the
block before, kept by line 17-18 if segment ids follow the skip flag. -/
def intraSegSkip (h : MiHdr) (b : MiBlk) (ar : MiArr) (id : Int) (l : Bool) : Rd (Nat × Int × Bool) :=
  if h.segIdPreSkip = 1 then do
    let s ← intraSegmentId h b ar.segIds 0
    let skip ← readSkip h b ar.skipModes s.1
    pure (skip, s.1, s.2)
  else do
    let skip ← readSkip h b ar.skipModes id
    if h.segIdPreSkip = 0 then do
      let s ← intraSegmentId h b ar.segIds skip
      pure (skip, s.1, s.2)
    else pure (skip, id, l)

/-- internal/tilegroup/intra_frame_mode_info.go:15-84 `intraFrameModeInfo`; `m` holds the values left by the block before.
`AllowIntraBc` calls `b.S()`, which panics. -/
def intraFrameModeInfo (h : MiHdr) (b : MiBlk) (ar : MiArr) (readDeltas : Bool) (m : ModeInfo) : Rd ModeInfo := do
  let s ← intraSegSkip h b ar m.segmentId m.lossless
  let cdef ← readCdef (s.1 != 0 || h.codedLossless || !h.enableCdef || h.allowIntraBc) h.cdefBits b.miRow b.miCol b.miSize m.cdefIdx
  let q ← readDeltaQIndex h b.miSize s.1 readDeltas m.curQ
  let lf ← readDeltaLf h b.miSize s.1 readDeltas m.deltaLF
  if h.allowIntraBc then .fail (.explicit "not implemented: S()")
  else intraModes h b ar { m with
    skip := s.1, segmentId := s.2.1, lossless := s.2.2, cdefIdx := cdef, curQ := q, deltaLF := lf, refFrame := (-1, m.refFrame.2) }

/-! ## The block: availability, contexts, records -/

/-- The tile, in units of 4x4 pixels. -/
structure TileBox where
  rowStart : Nat := 0
  rowEnd : Nat := 0
  colStart : Nat := 0
  colEnd : Nat := 0

/-- internal/tilegroup/util.go:9-14 `isInside`. -/
def isInside (t : TileBox) (r c : Int) : Bool :=
  decide (c ≥ t.colStart) && decide (c < t.colEnd) && decide (r ≥ t.rowStart) && decide (r < t.rowEnd)

/-- `t.HasChroma, state.AvailU, state.AvailL, state.AvailUChroma, state.AvailLChroma`. -/
structure Avail where
  hasChroma : Bool
  u : Bool
  l : Bool
  uChroma : Bool
  lChroma : Bool
deriving DecidableEq, Repr

/-- internal/tilegroup/decode_block.go:20-26: `t.HasChroma`. -/
def hasChromaOf (h : MiHdr) (r c bw4 bh4 : Nat) : Bool :=
  if bh4 = 1 ∧ h.subY ≠ 0 ∧ r % 2 = 0 then false
  else if bw4 = 1 ∧ h.subX ≠ 0 ∧ c % 2 = 0 then false
  else h.chroma

/-- internal/tilegroup/decode_block.go:14-43. -/
def blockAvail (t : TileBox) (h : MiHdr) (r c subSize : Nat) : Res Avail := do
  let bw4 ← goGet num4x4Wide subSize
  let bh4 ← goGet num4x4High subSize
  let u := isInside t ((r : Int) - 1) c
  let l := isInside t r ((c : Int) - 1)
  if hasChromaOf h r c bw4 bh4 then
    pure ⟨true, u, l, if h.subY ≠ 0 ∧ bh4 = 1 then isInside t ((r : Int) - 2) c else u,
      if h.subX ≠ 0 ∧ bw4 = 1 then isInside t r ((c : Int) - 2) else l⟩
  else pure ⟨false, u, l, false, false⟩

/-- The four context arrays of `t`: `AboveLevelContext, AboveDcContext, LeftLevelContext, LeftDcContext`. -/
structure LevelCtx where
  aboveLevel : List (List Int) := []
  aboveDc : List (List Int) := []
  leftLevel : List (List Int) := []
  leftDc : List (List Int) := []

/-- The loops of decode_block.go:127-130 and 132-135: zero two arrays of a plane from `lo` to `hi`. -/
def zeroRange (plane lo hi : Nat) (s : List (List Int) × List (List Int)) : Res (List (List Int) × List (List Int)) :=
  forN (fun i s => do
    let a ← gset s.1 plane (i : Int) 0
    let d ← gset s.2 plane (i : Int) 0
    pure (a, d)) (hi - lo) lo s

/-- internal/tilegroup/decode_block.go:118-138 `resetBlockContext`. -/
def resetBlockContext (h : MiHdr) (hasChroma : Bool) (miRow miCol bw4 bh4 : Nat) (s : LevelCtx) : Res LevelCtx :=
  forN (fun plane s => do
    let subX := if plane > 0 then h.subX else 0
    let subY := if plane > 0 then h.subY else 0
    let a ← zeroRange plane (miCol >>> subX) ((miCol + bw4) >>> subX) (s.aboveLevel, s.aboveDc)
    let l ← zeroRange plane (miRow >>> subY) ((miRow + bh4) >>> subY) (s.leftLevel, s.leftDc)
    pure ⟨a.1, a.2, l.1, l.2⟩) (1 + (if hasChroma then 2 else 0)) 0 s

/-- internal/tilegroup/decode_block.go:49-51.  The test is of `state.Skip`, a field that nothing assigns (the flag of the block is
`t.Skip`): it is 0. -/
def resetIfSkip (stateSkip : Nat) (h : MiHdr) (hasChroma : Bool) (miRow miCol bw4 bh4 : Nat) (s : LevelCtx) : Res LevelCtx :=
  if stateSkip ≠ 0 then resetBlockContext h hasChroma miRow miCol bw4 bh4 s else pure s

/-- The value of `state.Skip` (internal/state/state.go): the zero value of the field. -/
def stateSkip : Nat := 0
/-- The value of `state.IsInter`: the zero value of the field, which nothing assigns (the flag of the block is `t.IsInter`). -/
def stateIsInter : Nat := 0

/-- The arrays that a block writes before prediction. -/
structure ModeRec where
  yModes : List (List Int) := []
  uvModes : List (List Int) := []
  /-- `state.RefFrames` -/
  refFrames : List (List (Int × Int)) := []
  /-- `t.Mvs` -/
  mvs : List (List ((Int × Int) × (Int × Int))) := []

/-- internal/tilegroup/decode_block.go:75-77: the vectors of a cell; the second one only for compound prediction. -/
def mvCell (compound : Bool) (old mv : (Int × Int) × (Int × Int)) : (Int × Int) × (Int × Int) := (mv.1, if compound then mv.2 else old.2)

/-- internal/tilegroup/decode_block.go:67-78: motion vectors of a cell.  `CompGroupIdxs`, `CompoundIdxs` and `InterpFilters` are left
out: the branch is not taken, as `state.IsInter` is 0. -/
def storeMv (stateIsInter : Nat) (compound : Bool) (mv : (Int × Int) × (Int × Int)) (r c : Int)
    (g : List (List ((Int × Int) × (Int × Int)))) : Res (List (List ((Int × Int) × (Int × Int)))) :=
  if stateIsInter ≠ 0 then do
    let old ← gget g r c
    gset g r c (mvCell compound old mv)
  else pure g

/-- internal/tilegroup/decode_block.go:59-61. -/
def storeUv (hasChroma : Bool) (refFrame : Int × Int) (uvMode : Int) (r c : Int) (g : List (List Int)) : Res (List (List Int)) :=
  if refFrame.1 = 0 ∧ hasChroma then gset g r c uvMode else pure g

/-- internal/tilegroup/decode_block.go:56-79: one cell. -/
def storeModeCell (hasChroma : Bool) (refFrame : Int × Int) (yMode uvMode : Int) (mv : (Int × Int) × (Int × Int)) (r c : Int) (s : ModeRec) :
    Res ModeRec := do
  let y ← gset s.yModes r c yMode
  let u ← storeUv hasChroma refFrame uvMode r c s.uvModes
  let f ← gset s.refFrames r c refFrame
  let v ← storeMv stateIsInter (decide (refFrame.2 > 0)) mv r c s.mvs
  pure ⟨y, u, f, v⟩

/-- internal/tilegroup/decode_block.go:53-80: the records written before prediction. -/
def storeModes (r c bh4 bw4 : Nat) (hasChroma : Bool) (refFrame : Int × Int) (yMode uvMode : Int) (mv : (Int × Int) × (Int × Int)) (s : ModeRec) :
    Res ModeRec :=
  forN (fun y s => forN (fun x s =>
    storeModeCell hasChroma refFrame yMode uvMode mv ((r + y : Nat) : Int) ((c + x : Nat) : Int) s) bw4 0 s) bh4 0 s

/-- The arrays that a block writes after reconstruction. -/
structure BlkRec where
  isInters : List (List Int) := []
  skipModes : List (List Int) := []
  skips : List (List Int) := []
  txSizes : List (List Nat) := []
  /-- `state.MiSizes` -/
  miSizes : List (List Nat) := []
  /-- `t.PaletteSizes[0], t.PaletteSizes[1]` -/
  palY : List (List Int) := []
  palUV : List (List Int) := []
  /-- `state.DeltaLFs` -/
  deltaLFs : List (List (List Int)) := []
  /-- `t.SegmentIds`, which no statement of decode_block.go writes -/
  segIds : List (List Int) := []

/-- The values a block records. -/
structure BlkVal where
  isInter : Int := 0
  skipMode : Int := 0
  skip : Int := 0
  txSize : Nat := 0
  miSize : Nat := 0
  palY : Int := 0
  palUV : Int := 0
  deltaLF : List Int := [0, 0, 0, 0]

/-- internal/tilegroup/decode_block.go:87-103: one cell.  The loops over palette colours (lines 95-100) are left out: both sizes are 0
whenever mode info returns (`paletteModeInfo`).  The four assignments of lines 101-103 are one of a cell with four elements. -/
def storeBlkCell (v : BlkVal) (r c : Int) (s : BlkRec) : Res BlkRec := do
  let a ← gset s.isInters r c v.isInter
  let b ← gset s.skipModes r c v.skipMode
  let k ← gset s.skips r c v.skip
  let t ← gset s.txSizes r c v.txSize
  let m ← gset s.miSizes r c v.miSize
  let p ← gset s.palY r c v.palY
  let q ← gset s.palUV r c v.palUV
  let d ← gset s.deltaLFs r c v.deltaLF
  pure ⟨a, b, k, t, m, p, q, d, s.segIds⟩

/-- internal/tilegroup/decode_block.go:85-105. -/
def storeBlk (r c bh4 bw4 : Nat) (v : BlkVal) (s : BlkRec) : Res BlkRec :=
  forN (fun y s => forN (fun x s => storeBlkCell v ((r + y : Nat) : Int) ((c + x : Nat) : Int) s) bw4 0 s) bh4 0 s

end Gov1
