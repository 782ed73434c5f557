import Verif.Model.Grid
import Verif.Model.Util
import Verif.Model.Scan
import Verif.Model.Coeffs
import Verif.Model.UncompressedHeader
/-!
# Model of the deblocking filter, internal/tilegroup/loop_filter_process.go

A plane `F` is `state.CurrFrame[plane]`, a two-dimensional array.  `pass = false` filters the vertical edges,
`pass = true` the horizontal ones.  `BitDepth` is at least 8 (sequence_header.go only assigns 8, 10, 12), so the
shifts by `BitDepth - 8` are by natural numbers.  The assignment `state.MiSize = state.MiSizes[row][col]` (line 82)
is left out except for its use in the same function: every reader of `state.MiSize` is inside block decoding, which
sets it first.
-/
namespace Gov1

/-- What the deblocking filter reads: `uh.FrameWidth`, `uh.FrameHeight`, `state.MiRows`, `state.MiCols`,
`sh.ColorConfig` (`SubsamplingX/Y` as 0 or 1, `BitDepth`, `NumPlanes`), the loop filter parameters of the header,
`uh.DeltaLfMulti`, the segmentation features, and the arrays `state.MiSizes`, `t.LoopFilterTxSizes`, `t.Skips`,
`state.RefFrames[.][.][0]`, `t.SegmentIds`, `t.YModes`, `state.DeltaLFs`. -/
structure LfCtx where
  frameWidth : Int := 0
  frameHeight : Int := 0
  miRows : Nat := 0
  miCols : Nat := 0
  numPlanes : Nat := 3
  subX : Nat := 0
  subY : Nat := 0
  bitDepth : Nat := 8
  lf : LoopFilter := {}
  deltaLfMulti : Nat := 0
  seg : SegParams := {}
  miSizes : List (List Nat) := []
  txSizes : List (List (List Nat)) := []
  skips : List (List Nat) := []
  refFrames : List (List Int) := []
  segmentIds : List (List Int) := []
  yModes : List (List Int) := []
  deltaLFs : List (List (List Int)) := []

/-- internal/tilegroup/loop_filter_process.go:131-146 `filterSize`; line 136 takes the previous size twice. -/
def filterSize (txSz prevTxSz : Nat) (pass : Bool) (plane : Nat) : Res Nat := do
  let base ← (if pass = false then do
      let a ← goGet txWidth prevTxSz
      let b ← goGet txWidth txSz
      pure (min a b)
    else do
      let a ← goGet txHeight prevTxSz
      let b ← goGet txHeight prevTxSz
      pure (min a b))
  pure (if plane = 0 then min 16 base else min 8 base)

/-- internal/tilegroup/loop_filter_process.go:197-202: the index into the levels of the frame header. -/
def lfIndex (plane : Nat) (pass : Bool) : Nat := if plane = 0 then (if pass then 1 else 0) else plane + 1

/-- internal/tilegroup/intra_frame_mode_info.go:193-195 `segFeatureActiveIdx`. -/
def tgSegFeature (seg : SegParams) (idx feature : Int) : Res Bool :=
  if seg.enabled then do
    let v ← gget seg.featureEnabled idx feature
    pure (v == 1)
  else .ok false

/-- internal/tilegroup/loop_filter_process.go:206-210: the level after the segment feature
(`SEG_LVL_ALT_LF_Y_V = 1`, `MAX_LOOP_FILTER = 63`). -/
def lfSegLevel (seg : SegParams) (segment : Int) (i : Nat) (lvl : Int) : Res Int := do
  let active ← tgSegFeature seg segment (1 + i : Nat)
  if active then do
    let d ← gget seg.featureData segment ((1 + i : Nat) : Int)
    pure (clip3 0 63 (d + lvl))
  else pure lvl

/-- internal/tilegroup/loop_filter_process.go:212-221: the reference and mode deltas (`INTRA_FRAME = 0`). -/
def lfRefDelta (lf : LoopFilter) (ref modeType lvl : Int) : Res Int :=
  if lf.deltaEnabled then do
    let nShift := (lvl >>> (5 : Nat)).toNat
    if ref = 0 then do
      let d ← goGet lf.refDeltas 0
      pure (clip3 0 63 (lvl + d <<< nShift))
    else do
      let d ← goGet lf.refDeltas ref
      let m ← goGet lf.modeDeltas modeType
      pure (clip3 0 63 (lvl + d <<< nShift + m <<< nShift))
  else pure lvl

/-- internal/tilegroup/loop_filter_process.go:196-224 `adaptiveFilterStrengthSelection`. -/
def lfLevel (c : LfCtx) (segment ref modeType deltaLF : Int) (plane : Nat) (pass : Bool) : Res Int := do
  let l ← goGet c.lf.level (lfIndex plane pass)
  let base := clip3 0 63 (deltaLF + l)
  let lvl ← lfSegLevel c.seg segment (lfIndex plane pass) base
  lfRefDelta c.lf ref modeType lvl

/-- internal/tilegroup/loop_filter_process.go:174-181: `shift` (2 for every non-zero sharpness). -/
def lfShift (sharpness : Nat) : Nat := if sharpness > 4 then 2 else if sharpness > 0 then 2 else 0

/-- internal/tilegroup/loop_filter_process.go:183-188: `limit`. -/
def lfLimit (sharpness : Nat) (lvl : Int) : Int :=
  if sharpness > 0 then clip3 1 (9 - sharpness) (lvl >>> lfShift sharpness) else maxI 1 (lvl >>> lfShift sharpness)

/-- internal/tilegroup/loop_filter_process.go:161-170: the loop filter delta of the block. -/
def lfDeltaLF (c : LfCtx) (row col : Int) (plane : Nat) (pass : Bool) : Res Int := do
  let d ← gget c.deltaLFs row col
  if c.deltaLfMulti = 0 then goGet d 0 else goGet d (lfIndex plane pass)

/-- The result of `adaptiveFilterStrength`. -/
structure LfStrength where
  lvl : Int
  limit : Int
  blimit : Int
  thresh : Int
  deriving DecidableEq, Repr

/-- internal/tilegroup/loop_filter_process.go:149-194 `adaptiveFilterStrength` (`NEARESTMV = 14`, `GLOBALMV = 16`). -/
def lfStrength (c : LfCtx) (row col : Int) (plane : Nat) (pass : Bool) : Res LfStrength := do
  let segment ← gget c.segmentIds row col
  let ref ← gget c.refFrames row col
  let mode ← gget c.yModes row col
  let modeType : Int := if mode ≥ 14 ∧ mode ≠ 16 then 1 else 0
  let deltaLF ← lfDeltaLF c row col plane pass
  let lvl ← lfLevel c segment ref modeType deltaLF plane pass
  let limit := lfLimit c.lf.sharpness lvl
  pure ⟨lvl, limit, 2 * (lvl + 2) + limit, lvl >>> (4 : Nat)⟩

/-- The fourteen samples across an edge: `q i` is on the side of the current block, `p i` on the other. -/
structure Taps where
  q0 : Int
  q1 : Int
  q2 : Int
  q3 : Int
  q4 : Int
  q5 : Int
  q6 : Int
  p0 : Int
  p1 : Int
  p2 : Int
  p3 : Int
  p4 : Int
  p5 : Int
  p6 : Int

/-- internal/tilegroup/loop_filter_process.go:244-257: the samples; all fourteen are read. -/
def lfTaps (F : List (List Int)) (x y dx dy : Int) : Res Taps := do
  let q0 ← gget F y x
  let q1 ← gget F (y + dy) (x + dx)
  let q2 ← gget F (y + dy * 2) (x + dx * 2)
  let q3 ← gget F (y + dy * 3) (x + dx * 3)
  let q4 ← gget F (y + dy * 4) (x + dx * 4)
  let q5 ← gget F (y + dy * 5) (x + dx * 5)
  let q6 ← gget F (y + dy * 6) (x + dx * 6)
  let p0 ← gget F (y - dy) (x - dx)
  let p1 ← gget F (y - dy * 2) (x - dx * 2)
  let p2 ← gget F (y - dy * 3) (x - dx * 3)
  let p3 ← gget F (y - dy * 4) (x - dx * 4)
  let p4 ← gget F (y - dy * 5) (x - dx * 5)
  let p5 ← gget F (y - dy * 6) (x - dx * 6)
  let p6 ← gget F (y - dy * 7) (x - dx * 7)
  pure ⟨q0, q1, q2, q3, q4, q5, q6, p0, p1, p2, p3, p4, p5, p6⟩

/-- The four masks. -/
structure LfMasks where
  hev : Bool
  filter : Bool
  flat : Bool
  flat2 : Bool
  deriving DecidableEq, Repr

/-- internal/tilegroup/loop_filter_process.go:265-273: `filterLen`. -/
def lfLen (filterSize plane : Nat) : Nat :=
  if filterSize = 4 then 4 else if plane ≠ 0 then 6 else if filterSize = 8 then 8 else 16

/-- internal/tilegroup/loop_filter_process.go:259-321: the masks from the samples.  `mask |= Int(cond)` accumulates a
disjunction; `/2` is of a non-negative number. -/
def lfMasksOf (bitDepth filterSize plane : Nat) (limit blimit thresh : Int) (s : Taps) : LfMasks :=
  let threshBd := thresh <<< (bitDepth - 8)
  let limitBd := limit <<< (bitDepth - 8)
  let blimitBd := blimit <<< (bitDepth - 8)
  let one : Int := (1 <<< (bitDepth - 8) : Nat)
  let len := lfLen filterSize plane
  let hev := decide (absI (s.p1 - s.p0) > threshBd) || decide (absI (s.q1 - s.q0) > threshBd)
  let mask := decide (absI (s.p1 - s.p0) > limitBd) || decide (absI (s.q1 - s.q0) > limitBd) ||
    decide (absI (s.p0 - s.q0) * 2 + absI (s.p1 - s.q1) / 2 > blimitBd) ||
    (decide (len ≥ 6) && (decide (absI (s.p2 - s.p1) > limitBd) || decide (absI (s.q2 - s.q1) > limitBd))) ||
    (decide (len ≥ 8) && (decide (absI (s.p3 - s.p2) > limitBd) || decide (absI (s.q3 - s.q2) > limitBd)))
  let flat := decide (filterSize ≥ 8) && !(decide (absI (s.p1 - s.p0) > one) || decide (absI (s.q1 - s.q0) > one) ||
    decide (absI (s.p2 - s.p0) > one) || decide (absI (s.q2 - s.q0) > one) ||
    (decide (len ≥ 8) && (decide (absI (s.p3 - s.p0) > one) || decide (absI (s.q3 - s.q0) > one))))
  let flat2 := decide (filterSize ≥ 16) && !(decide (absI (s.p6 - s.p0) > one) || decide (absI (s.q6 - s.q0) > one) ||
    decide (absI (s.p5 - s.p0) > one) || decide (absI (s.q5 - s.q0) > one) ||
    decide (absI (s.p4 - s.p0) > one) || decide (absI (s.q4 - s.q0) > one))
  ⟨hev, !mask, flat, flat2⟩

/-- internal/tilegroup/loop_filter_process.go:243-322 `filterMask`. -/
def lfMasks (bitDepth : Nat) (F : List (List Int)) (x y : Int) (plane : Nat) (s : LfStrength) (dx dy : Int) (filterSize : Nat) :
    Res LfMasks := do
  let t ← lfTaps F x y dx dy
  pure (lfMasksOf bitDepth filterSize plane s.limit s.blimit s.thresh t)

/-- internal/tilegroup/loop_filter_process.go:360-362 `filter4Clamp`. -/
def filter4Clamp (bitDepth : Nat) (v : Int) : Int :=
  clip3 (-(1 <<< (bitDepth - 1) : Nat)) ((1 <<< (bitDepth - 1) : Nat) - 1) v

/-- internal/tilegroup/loop_filter_process.go:325-358 `narrowFilter`. -/
def narrowFilter (bitDepth : Nat) (hev : Bool) (F : List (List Int)) (x y dx dy : Int) : Res (List (List Int)) := do
  let q0 ← gget F y x
  let q1 ← gget F (y + dy) (x + dx)
  let p0 ← gget F (y - dy) (x - dx)
  let p1 ← gget F (y - dy * 2) (x - dx * 2)
  let off : Int := (0x80 <<< (bitDepth - 8) : Nat)
  let ps1 := p1 - off
  let ps0 := p0 - off
  let qs0 := q0 - off
  let qs1 := q1 - off
  let filter := if hev then filter4Clamp bitDepth (ps1 - qs1) else 0
  let filter := filter4Clamp bitDepth (filter + 3 * (qs0 - ps0))
  let filter1 := filter4Clamp bitDepth (filter + 4) >>> (3 : Nat)
  let filter2 := filter4Clamp bitDepth (filter + 3) >>> (3 : Nat)
  let oq0 := filter4Clamp bitDepth (qs0 - filter1) + off
  let op0 := filter4Clamp bitDepth (ps0 + filter2) + off
  let F ← gset F y x oq0
  let F ← gset F (y - dy) (x - dx) op0
  if hev = false then do
    let filter := round2 filter1 1
    let oq1 := filter4Clamp bitDepth (qs1 - filter) + off
    let op1 := filter4Clamp bitDepth (ps1 + filter) + off
    let F ← gset F (y + dy) (x + dx) oq1
    gset F (y - dy * 2) (x - dx * 2) op1
  else pure F

/-- internal/tilegroup/loop_filter_process.go:383-395: the weighted sum at position `i` across the edge. -/
def wideSum (F : List (List Int)) (x y dx dy : Int) (n n2 : Nat) (i : Int) : Res Int :=
  forN (fun k t => do
    let j : Int := (k : Int) - n
    let p := clip3 (-((n : Int) + 1)) n (i + j)
    let v ← gget F (y + p * dy) (x + p * dx)
    pure (t + v * (if absI j ≤ n2 then 2 else 1))) (2 * n + 1) 0 0

/-- internal/tilegroup/loop_filter_process.go:365-402 `wideFilter`; `F` of line 381 is a nil slice, written at the
indices `-n ..`. -/
def wideFilter (F : List (List Int)) (x y : Int) (plane : Nat) (dx dy : Int) (log2Size : Nat) : Res (List (List Int)) := do
  let n := if log2Size = 4 then 6 else if plane = 0 then 3 else 2
  let n2 := if log2Size = 3 ∧ plane = 0 then 0 else 1
  let buf ← forN (fun k (buf : List Int) => do
    let i : Int := (k : Int) - (n : Nat)
    let t ← wideSum F x y dx dy n n2 i
    goSet buf i (round2 t log2Size)) (2 * n) 0 []
  forN (fun k F => do
    let i : Int := (k : Int) - (n : Nat)
    let v ← goGet buf i
    gset F (y + i * dy) (x + i * dx) v) (2 * n) 0 F

/-- internal/tilegroup/loop_filter_process.go:227-240 `sampleFiltering`. -/
def sampleFiltering (bitDepth : Nat) (F : List (List Int)) (x y : Int) (plane : Nat) (s : LfStrength) (dx dy : Int) (filterSize : Nat) :
    Res (List (List Int)) := do
  let m ← lfMasks bitDepth F x y plane s dx dy filterSize
  if m.filter = false then pure F
  else if filterSize = 4 ∨ m.flat = false then narrowFilter bitDepth m.hev F x y dx dy
  else if filterSize = 8 ∨ m.flat2 = false then wideFilter F x y plane dx dy 3
  else wideFilter F x y plane dx dy 4

/-- internal/tilegroup/loop_filter_process.go:62-73: whether the edge is inside the picture. -/
def lfOnScreen (c : LfCtx) (pass : Bool) (x y : Int) : Bool :=
  if x ≥ c.frameWidth then false
  else if y ≥ c.frameHeight then false
  else if pass = false ∧ x = 0 then false
  else if pass ∧ y = 0 then false
  else true

/-- internal/tilegroup/loop_filter_process.go:90-115: whether the edge is filtered (the block and transform sizes are
never zero, so `%` does not panic). -/
def lfApply (pass : Bool) (xP yP bw bh tw th : Nat) (skip : Nat) (isIntra : Bool) : Bool :=
  let isBlockEdge := if pass = false then decide (xP % bw = 0) else decide (yP % bh = 0)
  let isTxEdge := if pass = false then decide (xP % tw = 0) else decide (yP % th = 0)
  isTxEdge && (isBlockEdge || skip == 0 || isIntra)

/-- internal/tilegroup/loop_filter_process.go:75-128: the part of `loopFilterEdge` reached by edges on screen; the
position is that of the 4x4 unit `(row, col)` before line 58. -/
def lfEdgeOn (c : LfCtx) (plane : Nat) (pass : Bool) (row col : Nat) (F : List (List Int)) : Res (List (List Int)) := do
  let subX := if plane ≠ 0 then c.subX else 0
  let subY := if plane ≠ 0 then c.subY else 0
  let dx : Nat := if pass then 0 else 1
  let dy : Nat := if pass then 1 else 0
  let xP := (col * 4) >>> subX
  let yP := (row * 4) >>> subY
  let row := row ||| subY
  let col := col ||| subX
  let prevRow : Int := (row : Int) - (dy <<< subY : Nat)
  let prevCol : Int := (col : Int) - (dx <<< subX : Nat)
  let miSize ← gget c.miSizes row col
  let txPlane ← goGet c.txSizes plane
  let txSz ← gget txPlane ((row >>> subY : Nat) : Int) ((col >>> subX : Nat) : Int)
  let planeSize ← getPlaneResidualSize c.subX c.subY miSize plane
  let skip ← gget c.skips row col
  let ref ← gget c.refFrames row col
  let prevTxSz ← gget txPlane (prevRow >>> subY) (prevCol >>> subX)
  let bw ← goGet blockWidth planeSize
  let bh ← goGet blockHeight planeSize
  let tw ← goGet txWidth txSz
  let th ← goGet txHeight txSz
  let apply := lfApply pass xP yP bw bh tw th skip (decide (ref ≤ 0))
  let size ← filterSize txSz prevTxSz pass plane
  let s ← lfStrength c row col plane pass
  let s ← (if s.lvl = 0 then lfStrength c row col plane pass else pure s)
  forN (fun i F => if apply && decide (s.lvl > 0) then
      sampleFiltering c.bitDepth F ((xP + dy * i : Nat) : Int) ((yP + dx * i : Nat) : Int) plane s dx dy size
    else pure F) 4 0 F

/-- internal/tilegroup/loop_filter_process.go:35-128 `loopFilterEdge`. -/
def lfEdge (c : LfCtx) (plane : Nat) (pass : Bool) (row col : Nat) (F : List (List Int)) : Res (List (List Int)) :=
  if lfOnScreen c pass ((col * 4 : Nat) : Int) ((row * 4 : Nat) : Int) then lfEdgeOn c plane pass row col F else pure F

/-- internal/tilegroup/loop_filter_process.go:16-30: one pass over a plane; only luma (line 19) steps by more than one
unit, and the steps of rows and columns are exchanged. -/
def lfPass (c : LfCtx) (plane : Nat) (pass : Bool) (F : List (List Int)) : Res (List (List Int)) :=
  let rowStep := if plane = 0 then 1 <<< c.subX else 1
  let colStep := if plane = 0 then 1 <<< c.subY else 1
  forN (fun i F => forN (fun j F => lfEdge c plane pass (i * rowStep) (j * colStep) F)
    ((c.miCols + colStep - 1) / colStep) 0 F) ((c.miRows + rowStep - 1) / rowStep) 0 F

/-- internal/tilegroup/loop_filter_process.go:13-31: one plane. -/
def lfPlane (c : LfCtx) (plane : Nat) (frame : List (List (List Int))) : Res (List (List (List Int))) := do
  let on ← (if plane = 0 then pure true else do
    let l ← goGet c.lf.level ((1 + plane : Nat) : Int)
    pure (l != 0))
  if on then do
    let F ← goGet frame plane
    let F ← lfPass c plane false F
    let F ← lfPass c plane true F
    goSet frame plane F
  else pure frame

/-- internal/tilegroup/loop_filter_process.go:12-32 `loopFilter`; `frame` is `state.CurrFrame`. -/
def loopFilter (c : LfCtx) (frame : List (List (List Int))) : Res (List (List (List Int))) :=
  forN (fun plane frame => lfPlane c plane frame) c.numPlanes 0 frame

end Gov1
