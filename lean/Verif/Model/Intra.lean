import Verif.Model.Residual
/-!
# Intra prediction

internal/tilegroup/predict_intra.go.  The edges `t.AboveRow` and `t.LeftCol` are Go arrays of 32768 numbers, modelled as functions with the
bounds check in `eget` and `eset`; their last element is the corner pixel.  `pred` is a Go array `[15][15]int`.
-/
namespace Gov1

/-- `t.AboveRow` or `t.LeftCol`, `[32768]int` (internal/tilegroup/tile_group.go:226-227). -/
abbrev Edge := Int → Int

/-- Go `a[i]`. -/
def eget (a : Edge) (i : Int) : Res Int := if 0 ≤ i ∧ i < 32768 then .ok (a i) else .error .index

/-- Go `a[i] = v`. -/
def eset (a : Edge) (i : Int) (v : Int) : Res Edge := if 0 ≤ i ∧ i < 32768 then .ok (fun k => if k = i then v else a k) else .error .index

/-- `pred`, `[15][15]int`. -/
abbrev Pred := Nat → Nat → Int

/-- Go `pred[i][j] = v`. -/
def pset (p : Pred) (i j : Nat) (v : Int) : Res Pred :=
  if i < 15 ∧ j < 15 then .ok (fun a b => if a = i ∧ b = j then v else p a b) else .error .index

/-- Go `pred[i][j]`. -/
def pget (p : Pred) (i j : Nat) : Res Int := if i < 15 ∧ j < 15 then .ok (p i j) else .error .index

/-- The loops `for i := 0; i < h; i++ { for j := 0; j < w; j++ { pred[i][j] = f(i, j) } }` of every predictor, from `var pred`. -/
def fillPred (w h : Nat) (f : Nat → Nat → Res Int) : Res Pred :=
  forN (fun i p => forN (fun j p => do
    let v ← f i j
    pset p i j v) w 0 p) h 0 (fun _ _ => 0)

/-- What the process reads besides the plane and the edges. -/
structure IntraCtx where
  miRow : Nat := 0
  miCol : Nat := 0
  miRows : Nat := 0
  miCols : Nat := 0
  /-- `sh.ColorConfig.SubsamplingX, SubsamplingY` -/
  subX : Nat := 0
  subY : Nat := 0
  bitDepth : Nat := 8
  /-- `sh.EnableIntraEdgeFilter` -/
  edgeFilter : Bool := false
  /-- `t.UseFilterIntra` -/
  useFilter : Bool := false
  /-- `t.AngleDeltaY, t.AngleDeltaUV` -/
  angleY : Int := 0
  angleUV : Int := 0
  availU : Bool := false
  availL : Bool := false
  availUChroma : Bool := false
  availLChroma : Bool := false
  /-- `t.YModes, t.UVModes, state.RefFrames` -/
  yModes : List (List Int) := []
  uvModes : List (List Int) := []
  refFrames : List (List (Int × Int)) := []

/-- The arguments of `predictIntra`. -/
structure IntraArgs where
  plane : Nat := 0
  x : Nat := 0
  y : Nat := 0
  haveLeft : Bool := false
  haveAbove : Bool := false
  haveAboveRight : Bool := false
  haveBelowLeft : Bool := false
  mode : Int := 0
  log2W : Nat := 2
  log2H : Nat := 2

/-! ## The edges -/

/-- predict_intra.go:15, 24: `maxX`. -/
def intraMaxX (c : IntraCtx) (plane : Nat) : Int := (((c.miCols * 4) >>> (if plane > 0 then c.subX else 0) : Nat) : Int) - 1
/-- predict_intra.go:16, 25: `maxY`. -/
def intraMaxY (c : IntraCtx) (plane : Nat) : Int := (((c.miRows * 4) >>> (if plane > 0 then c.subY else 0) : Nat) : Int) - 1

/-- predict_intra.go:18-21: `yMinusOne`; it is `y`, not `y-1`, unless `y` is 0. -/
def yMinusOne (F : List (List Int)) (y : Nat) : Int := if y = 0 then (F.length : Int) - 1 else (y : Int)

/-- predict_intra.go:30-34, 58-62, 76-80: the pixel to the left of column `x` in row `r`; in column 0 the last pixel of the row. -/
def leftPixel (F : List (List Int)) (r : Int) (x : Nat) : Res Int :=
  if x = 0 then do
    let row ← goGet F r
    goGet row ((row.length : Int) - 1)
  else gget F r ((x : Int) - 1)

/-- predict_intra.go:29-44: `AboveRow[i]`. -/
def abovePixel (c : IntraCtx) (a : IntraArgs) (F : List (List Int)) (i : Nat) : Res Int :=
  if !a.haveAbove && a.haveLeft then leftPixel F a.y a.x
  else if !a.haveAbove && !a.haveLeft then pure ((1 <<< (c.bitDepth - 1) : Nat) - 1)
  else gget F (yMinusOne F a.y)
    (min (min (intraMaxX c a.plane) (if a.haveAboveRight then ((a.x + 2 * 2 ^ a.log2W : Nat) : Int) - 1 else ((a.x + 2 ^ a.log2W : Nat) : Int) - 1)) ((a.x + i : Nat) : Int))

/-- predict_intra.go:48-64: one turn of the loop over the left column; the two branches with a left neighbour, or with none at all, write
to `AboveRow`. -/
def leftTurn (c : IntraCtx) (a : IntraArgs) (F : List (List Int)) (i : Nat) (s : Edge × Edge) : Res (Edge × Edge) :=
  if !a.haveLeft && a.haveAbove then do
    let v ← gget F (yMinusOne F a.y) a.x
    let l ← eset s.2 i v
    pure (s.1, l)
  else if !a.haveLeft && !a.haveAbove then do
    let e ← eset s.1 i ((1 <<< (c.bitDepth - 1) : Nat) + 1)
    pure (e, s.2)
  else do
    let v ← leftPixel F (min (min (intraMaxY c a.plane) (if a.haveBelowLeft then ((a.y + 2 * 2 ^ a.log2H : Nat) : Int) - 1 else ((a.y + 2 ^ a.log2H : Nat) : Int) - 1)) ((a.y + i : Nat) : Int)) a.x
    let e ← eset s.1 i v
    pure (e, s.2)

/-- predict_intra.go:67-85: the corner. -/
def cornerPixel (c : IntraCtx) (a : IntraArgs) (F : List (List Int)) : Res Int :=
  if a.haveAbove && a.haveLeft then
    if a.x = 0 then do
      let row ← goGet F ((a.y : Int) - 1)
      gget F (yMinusOne F a.y) ((row.length : Int) - 1)
    else gget F (yMinusOne F a.y) ((a.x : Int) - 1)
  else if a.haveAbove then gget F (yMinusOne F a.y) a.x
  else if a.haveLeft then leftPixel F a.y a.x
  else pure ((1 <<< (c.bitDepth - 1) : Nat) : Int)

/-- predict_intra.go:28-87: the edges. -/
def prepEdges (c : IntraCtx) (a : IntraArgs) (F : List (List Int)) (above left : Edge) : Res (Edge × Edge) := do
  let n := 2 ^ a.log2W + 2 ^ a.log2H - 1
  let above ← forN (fun i (e : Edge) => do
    let v ← abovePixel c a F i
    eset e i v) n 0 above
  let s ← forN (leftTurn c a F) n 0 (above, left)
  let v ← cornerPixel c a F
  let above ← eset s.1 32767 v
  let left ← eset s.2 32767 v
  pure (above, left)

/-! ## Predictors -/

/-- predict_intra.go:115-126: the choice of Paeth prediction. -/
def paeth (a l c : Int) : Int :=
  let base := a + l - c
  let pLeft := (base - l).natAbs
  let pTop := (base - a).natAbs
  let pTopLeft := (base - c).natAbs
  if pLeft ≤ pTop ∧ pLeft ≤ pTopLeft then l else if pTop ≤ pTopLeft then a else c

/-- predict_intra.go:110-131 `basicIntraPredictionProcess`. -/
def basicPred (w h : Nat) (above left : Edge) : Res Pred :=
  fillPred w h fun i j => do
    let a ← eget above j
    let l ← eget left i
    let c ← eget above 32767
    pure (paeth a l c)

/-- predict_intra.go:134-175 `recursiveIntraPredictionProcess`: `var p []int` is nil, the first `p[i] =` panics; without blocks of 4x2
pixels nothing is done. -/
def recursivePred (w h : Nat) : Res Pred := if w >>> 2 = 0 ∨ h >>> 1 = 0 then pure (fun _ _ => 0) else .error .index

/-- predict_intra.go:334-339, 350-352: the sum of `n` elements of an edge. -/
def edgeSum (e : Edge) (n : Nat) (s : Int) : Res Int :=
  forN (fun k s => do
    let v ← eget e k
    pure (s + v)) n 0 s

/-- predict_intra.go:328-367 `dcIntraPredictionProcess`; with a neighbour above only, nothing is assigned. -/
def dcPred (c : IntraCtx) (haveLeft haveAbove : Bool) (log2H w h : Nat) (above left : Edge) : Res Pred :=
  if haveLeft && haveAbove then
    fillPred w h fun _ _ => do
      let s ← edgeSum left h 0
      let s ← edgeSum above w s
      pure ((s + (((w + h) >>> 1 : Nat) : Int)).tdiv ((w + h : Nat) : Int))
  else if haveLeft && !haveAbove then
    fillPred w h fun _ _ => do
      let s ← edgeSum left h 0
      pure (clip1 ((s + ((h >>> 1 : Nat) : Int)) >>> log2H) c.bitDepth)
  else if !haveLeft && !haveAbove then fillPred w h fun _ _ => pure ((1 <<< (c.bitDepth - 1) : Nat) : Int)
  else pure (fun _ _ => 0)

/-- predict_intra.go:665-678. -/
def smWeights4 : List Int := [255, 149, 85, 64]
def smWeights8 : List Int := [255, 197, 146, 105, 73, 50, 37, 32]
def smWeights16 : List Int := [255, 225, 196, 170, 145, 123, 102, 84, 68, 54, 43, 33, 26, 20, 17, 16]
def smWeights32 : List Int := [255, 240, 225, 210, 196, 182, 169, 157, 145, 133, 122, 111, 101, 92, 83, 74, 66, 59, 52, 45, 39, 34, 29, 25, 21, 17, 14, 12, 10, 9, 8, 8]
def smWeights64 : List Int :=
  [255, 248, 240, 233, 225, 218, 210, 203, 196, 189, 182, 176, 169, 163, 156, 150, 144, 138, 133, 127, 121, 116, 111, 106, 101, 96, 91, 86, 82, 77, 73, 69,
   65, 61, 57, 54, 50, 47, 44, 41, 38, 35, 32, 29, 27, 25, 22, 20, 18, 16, 15, 13, 12, 10, 9, 8, 7, 6, 6, 5, 5, 4, 4, 4]

/-- predict_intra.go:375-401, 410-422, 431-443: the weights for a size; nil for other sizes. -/
def smWeights (log2 : Nat) : List Int :=
  if log2 = 2 then smWeights4 else if log2 = 3 then smWeights8 else if log2 = 4 then smWeights16 else if log2 = 5 then smWeights32
  else if log2 = 6 then smWeights64 else []

/-- predict_intra.go:372-406. -/
def smoothPixel (log2W log2H w h : Nat) (above left : Edge) (i j : Nat) : Res Int := do
  let wy ← goGet (smWeights log2H) i
  let aj ← eget above j
  let lh ← eget left ((h : Int) - 1)
  let wx ← goGet (smWeights log2W) j
  let li ← eget left i
  let aw ← eget above ((w : Int) - 1)
  pure (round2 (wy * aj + (256 - wy) * lh + wx * li + (256 - wx) * aw) 9)

/-- predict_intra.go:407-427. -/
def smoothVPixel (log2H h : Nat) (above left : Edge) (i j : Nat) : Res Int := do
  let wy ← goGet (smWeights log2H) i
  let aj ← eget above j
  let lh ← eget left ((h : Int) - 1)
  pure (round2 (wy * aj + (256 - wy) * lh) 8)

/-- predict_intra.go:428-449. -/
def smoothHPixel (log2W w : Nat) (above left : Edge) (i j : Nat) : Res Int := do
  let wx ← goGet (smWeights log2W) j
  let li ← eget left i
  let aw ← eget above ((w : Int) - 1)
  pure (round2 (wx * li + (256 - wx) * aw) 8)

/-- predict_intra.go:370-452 `smoothIntraPredictionProcess` (9 `SMOOTH_PRED`, 10 `SMOOTH_V_PRED`, 11 `SMOOTH_H_PRED`). -/
def smoothPred (mode : Int) (log2W log2H w h : Nat) (above left : Edge) : Res Pred :=
  if mode = 9 then fillPred w h (smoothPixel log2W log2H w h above left)
  else if mode = 10 then fillPred w h (smoothVPixel log2H h above left)
  else if mode = 11 then fillPred w h (smoothHPixel log2W w above left)
  else pure (fun _ _ => 0)

/-! ## Directional prediction -/

/-- internal/tilegroup/tile_group.go:53. -/
def modeToAngle : List Int := [0, 90, 180, 45, 135, 113, 157, 203, 67, 0, 0, 0, 0]

/-- predict_intra.go:656-663. -/
def drDerivative : List Int :=
  [0, 0, 0, 1023, 0, 0, 547, 0, 0, 372, 0, 0, 0, 0, 273, 0, 0, 215, 0, 0, 178, 0, 0, 151, 0, 0, 132, 0, 0,
   116, 0, 0, 102, 0, 0, 0, 90, 0, 0, 80, 0, 0, 71, 0, 0, 64, 0, 0, 57, 0, 0, 51, 0, 0, 45, 0, 0, 0, 40, 0, 0,
   35, 0, 0, 31, 0, 0, 27, 0, 0, 23, 0, 0, 19, 0, 0, 15, 0, 0, 0, 0, 11, 0, 0, 7, 0, 0, 3, 0, 0]

/-- predict_intra.go:642-654 `isSmooth`. -/
def isSmooth (c : IntraCtx) (row col : Int) (plane : Nat) : Res Bool :=
  if plane = 0 then do
    let m ← gget c.yModes row col
    pure (m == 9 || m == 10 || m == 11)
  else do
    let f ← gget c.refFrames row col
    if f.1 > 0 then pure false
    else do
      let m ← gget c.uvModes row col
      pure (m == 9 || m == 10 || m == 11)

/-- predict_intra.go:471-481: the cell above. -/
def smoothCellAbove (c : IntraCtx) (plane : Nat) : Int × Int :=
  ((c.miRow : Int) - 1 - (if plane > 0 ∧ c.subY ≠ 0 ∧ c.miRow % 2 = 1 then 1 else 0),
   (c.miCol : Int) + (if plane > 0 ∧ c.subX ≠ 0 ∧ c.miCol % 2 = 1 then 1 else 0))

/-- predict_intra.go:491-501: the cell to the left. -/
def smoothCellLeft (c : IntraCtx) (plane : Nat) : Int × Int :=
  ((c.miRow : Int) + (if plane > 0 ∧ c.subY ≠ 0 ∧ c.miRow % 2 = 1 then 1 else 0),
   (c.miCol : Int) - 1 - (if plane > 0 ∧ c.subX ≠ 0 ∧ c.miCol % 2 = 1 then 1 else 0))

/-- predict_intra.go:465-483: `aboveSmooth` of the neighbour above. -/
def smoothAbove (c : IntraCtx) (plane : Nat) : Res Bool :=
  if (if plane = 0 then c.availU else c.availUChroma) then isSmooth c (smoothCellAbove c plane).1 (smoothCellAbove c plane).2 plane else pure false

/-- predict_intra.go:461-506 `getFilterType`: the result for the left neighbour replaces that for the one above. -/
def filterType (c : IntraCtx) (plane : Nat) : Res Bool := do
  let s ← smoothAbove c plane
  if (if plane = 0 then c.availL else c.availLChroma) then isSmooth c (smoothCellLeft c plane).1 (smoothCellLeft c plane).2 plane else pure s

/-- predict_intra.go:509-567 `intraEdgeFilterStrengthSelectionProcess`. -/
def edgeStrength (w h : Nat) (smooth : Bool) (delta : Int) : Nat :=
  let d := delta.natAbs
  let s := w + h
  if !smooth then
    if s ≤ 8 then (if d ≥ 56 then 1 else 0)
    else if s ≤ 12 then (if d ≥ 40 then 1 else 0)
    else if s ≤ 16 then (if d ≥ 32 then 3 else if d ≥ 16 then 2 else if d ≥ 8 then 1 else 0)
    else if s ≤ 32 then (if d ≥ 4 then 3 else 1)
    else 0
  else
    if s ≤ 8 then (if d ≥ 64 then 2 else if d ≥ 40 then 1 else 0)
    else if s ≤ 16 then (if d ≥ 48 then 2 else if d ≥ 20 then 1 else 0)
    else if s ≤ 24 then (if d ≥ 4 then 3 else 0)
    else 3

/-- predict_intra.go:570-584 `intraEdgeUpsampleSelectionProcess`. -/
def useUpsample (w h : Nat) (smooth : Bool) (delta : Int) : Bool :=
  let d := delta.natAbs
  if d = 0 ∨ d ≥ 40 then false else if !smooth then decide (w + h ≤ 16) else decide (w + h ≤ 8)

/-- predict_intra.go:587-609 `intraEdgeUpsampleProcess`, called if `b`: `var dup []int` is nil, `dup[0] =` panics. -/
def edgeUpsample (b : Bool) : Res Unit := if b then .error .index else pure ()

/-- predict_intra.go:612-639 `intraEdgeFilterProcess`: `var edge []int` is nil, the first write to it panics. -/
def edgeFilterProc (sz : Int) (strength : Nat) : Res Unit := if strength ≠ 0 ∧ 0 < sz then .error .index else pure ()

/-- predict_intra.go:455-458 `filterCornerProcess`. -/
def filterCorner (above left : Edge) : Res Int := do
  let l ← eget left 0
  let c ← eget above 32767
  let a ← eget above 0
  pure (round2 (l * 5 + c * 6 + a * 5) 4)

/-- predict_intra.go:193-196: the filtered corner, computed twice from the same pixels. -/
def cornerIf (b : Bool) (above left : Edge) : Res (Edge × Edge) :=
  if b then do
    let v ← filterCorner above left
    let left ← eset left 32767 v
    let v ← filterCorner above left
    let above ← eset above 32767 v
    pure (above, left)
  else pure (above, left)

/-- predict_intra.go:199-207. -/
def filterAbove (c : IntraCtx) (a : IntraArgs) (smooth : Bool) (w h : Nat) (pAngle : Int) : Res Unit :=
  if a.haveAbove then edgeFilterProc (min (w : Int) (intraMaxX c a.plane - a.x + 1) + (if pAngle < 90 then (h : Int) else 0)) (edgeStrength w h smooth (pAngle - 90))
  else pure ()

/-- predict_intra.go:209-217. -/
def filterLeft (c : IntraCtx) (a : IntraArgs) (smooth : Bool) (w h : Nat) (pAngle : Int) : Res Unit :=
  if a.haveLeft then edgeFilterProc (min (h : Int) (intraMaxY c a.plane - a.y + 1) + (if pAngle > 180 then (w : Int) else 0)) (edgeStrength w h smooth (pAngle - 180))
  else pure ()

/-- predict_intra.go:192-218: filters of the edges, for angles other than 90 and 180; the result has `filterType`. -/
def edgeFilters (c : IntraCtx) (a : IntraArgs) (w h : Nat) (pAngle : Int) (above left : Edge) : Res (Bool × Edge × Edge) :=
  if pAngle ≠ 90 ∧ pAngle ≠ 180 then do
    let s ← cornerIf (decide (pAngle > 90 ∧ pAngle < 180 ∧ w + h ≥ 24)) above left
    let smooth ← filterType c a.plane
    filterAbove c a smooth w h pAngle
    filterLeft c a smooth w h pAngle
    pure (smooth, s)
  else pure (false, above, left)

/-- The edges, with the numbers `upsampleAbove` and `upsampleLeft`. -/
structure DirEdges where
  above : Edge
  left : Edge
  upA : Nat := 0
  upL : Nat := 0

/-- predict_intra.go:187-244. -/
def dirEdges (c : IntraCtx) (a : IntraArgs) (w h : Nat) (pAngle : Int) (above left : Edge) : Res DirEdges :=
  if c.edgeFilter then do
    let s ← edgeFilters c a w h pAngle above left
    let ua := useUpsample w h s.1 (pAngle - 90)
    edgeUpsample ua
    let ul := useUpsample w h s.1 (pAngle - 180)
    edgeUpsample ul
    pure { above := s.2.1, left := s.2.2, upA := if ua then 1 else 0, upL := if ul then 1 else 0 }
  else pure { above := above, left := left }

/-- `Round2(e[base]*(32-shift) + e[base+1]*shift, 5)` of lines 269, 283, 293-295, 306. -/
def lerp (e : Edge) (base : Int) (shift : Int) : Res Int := do
  let p ← eget e base
  let q ← eget e (base + 1)
  pure (round2 (p * (32 - shift) + q * shift) 5)

/-- `((idx << up) >> 1) & 0x1F`. -/
def dirShift (idx : Int) (up : Nat) : Int := ((idx * 2 ^ up) >>> (1 : Nat)) % 32

/-- predict_intra.go:260-275: angles below 90; `idx` is `(i+i)*dx`. -/
def dirZone1 (w h : Nat) (dx : Int) (e : DirEdges) (i j : Nat) : Res Int :=
  let idx := ((i + i : Nat) : Int) * dx
  let base := (idx >>> (6 - e.upA)) + ((j <<< e.upA : Nat) : Int)
  let maxBase : Int := (((w + h - 1) <<< e.upA : Nat) : Int)
  if base < maxBase then lerp e.above base (dirShift idx e.upA) else eget e.above maxBase

/-- predict_intra.go:285-296: the left edge; `base` may be negative. -/
def dirZone2Left (dy : Int) (e : DirEdges) (i j : Nat) : Res Int := do
  let idx := ((i <<< 6 : Nat) : Int) - ((j + 1 : Nat) : Int) * dy
  let base := idx >>> (6 - e.upL)
  let p ← eget e.left (if base < 0 then 32768 + base else base)
  let q ← eget e.left (base + 1)
  pure (round2 (p * (32 - dirShift idx e.upL) + q * dirShift idx e.upL) 5)

/-- predict_intra.go:276-299: angles between 90 and 180; `AboveRow[base]` is read also for `base = -1`. -/
def dirZone2 (dx dy : Int) (e : DirEdges) (i j : Nat) : Res Int :=
  let idx := ((j <<< 6 : Nat) : Int) - ((i + 1 : Nat) : Int) * dx
  let base := idx >>> (6 - e.upA)
  if base ≥ -((1 <<< e.upA : Nat) : Int) then lerp e.above base (dirShift idx e.upA) else dirZone2Left dy e i j

/-- predict_intra.go:300-309: angles above 180; the shift is `6 >> upsampleLeft`. -/
def dirZone3 (dy : Int) (e : DirEdges) (i j : Nat) : Res Int :=
  let idx := ((j + 1 : Nat) : Int) * dy
  lerp e.left ((idx >>> (6 >>> e.upL)) + ((i <<< e.upL : Nat) : Int)) (dirShift idx e.upL)

/-- predict_intra.go:246-251: `dx`. -/
def dirDx (pAngle : Int) : Res Int :=
  if pAngle < 90 then goGet drDerivative pAngle else if pAngle > 90 ∧ pAngle < 180 then goGet drDerivative (180 - pAngle) else pure 0

/-- predict_intra.go:253-258: `dy`. -/
def dirDy (pAngle : Int) : Res Int :=
  if pAngle > 90 ∧ pAngle < 180 then goGet drDerivative (pAngle - 90) else if pAngle > 180 then goGet drDerivative (270 - pAngle) else pure 0

/-- predict_intra.go:260-322: the pixels.  The loops of the last two branches run over `j` first; for 180 degrees the index is `j`. -/
def dirPixels (w h : Nat) (pAngle dx dy : Int) (e : DirEdges) : Res Pred :=
  if pAngle < 90 then fillPred w h (dirZone1 w h dx e)
  else if pAngle > 90 ∧ pAngle < 180 then fillPred w h (dirZone2 dx dy e)
  else if pAngle > 180 then fillPred w h (dirZone3 dy e)
  else if pAngle = 90 then fillPred w h (fun _ j => eget e.above j)
  else fillPred w h (fun _ j => eget e.left j)

/-- predict_intra.go:178-325 `directionalIntraPredictionProcess`; the changed edges stay in `t.AboveRow`, `t.LeftCol`. -/
def directionalPred (c : IntraCtx) (a : IntraArgs) (w h : Nat) (above left : Edge) : Res (Pred × Edge × Edge) := do
  let m ← goGet modeToAngle a.mode
  let pAngle := m + (if a.plane = 0 then c.angleY else c.angleUV) * 3
  let e ← dirEdges c a w h pAngle above left
  let dx ← dirDx pAngle
  let dy ← dirDy pAngle
  let p ← dirPixels w h pAngle dx dy e
  pure (p, e.above, e.left)

/-! ## The process -/

/-- predict_intra.go:89-100: the predictor of the mode. -/
def intraPred (c : IntraCtx) (a : IntraArgs) (above left : Edge) : Res (Pred × Edge × Edge) :=
  let w := 2 ^ a.log2W
  let h := 2 ^ a.log2H
  if a.plane = 0 ∧ c.useFilter then do
    let p ← recursivePred w h
    pure (p, above, left)
  else if 1 ≤ a.mode ∧ a.mode ≤ 8 then directionalPred c a w h above left
  else if a.mode = 9 ∨ a.mode = 10 ∨ a.mode = 11 then do
    let p ← smoothPred a.mode a.log2W a.log2H w h above left
    pure (p, above, left)
  else if a.mode = 0 then do
    let p ← dcPred c a.haveLeft a.haveAbove a.log2H w h above left
    pure (p, above, left)
  else do
    let p ← basicPred w h above left
    pure (p, above, left)

/-- predict_intra.go:102-106: into the frame. -/
def copyPred (p : Pred) (x y w h : Nat) (F : List (List Int)) : Res (List (List Int)) :=
  forN (fun i F => forN (fun j F => do
    let v ← pget p i j
    gset F ((y + i : Nat) : Int) ((x + j : Nat) : Int) v) w 0 F) h 0 F

/-- internal/tilegroup/predict_intra.go:12-107 `predictIntra`; `F` is `state.CurrFrame[plane]`. -/
def predictIntra (c : IntraCtx) (a : IntraArgs) (F : List (List Int)) (above left : Edge) : Res (List (List Int) × Edge × Edge) := do
  let e ← prepEdges c a F above left
  let r ← intraPred c a e.1 e.2
  let F ← copyPred r.1 a.x a.y (2 ^ a.log2W) (2 ^ a.log2H) F
  pure (F, r.2)

end Gov1
