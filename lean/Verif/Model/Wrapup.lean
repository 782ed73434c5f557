import Verif.Model.Util
import Verif.Model.Grid
import Verif.Model.LoopFilter
import Verif.Model.Cdef
/-!
# After the last tile: upscaling, loop restoration, reference frames, output

internal/tilegroup/decode_frame_wrapup.go, internal/tilegroup/output.go and internal/tilegroup/loop_restoration.go.
Pictures are lists of planes, planes lists of rows.  Arrays have the fixed sizes of the Go declarations:
`CurrFrame, CdefFrame [3][16][16]`, `UpscaledCurrFrame, UpscaledCdefFrame, LrFrame [3][9][9]`, `FrameStore [8][3][16][16]`,
`OutY, OutU, OutV [1][1]`.
-/
namespace Gov1

/-- A picture. -/
abbrev Planes := List (List (List Int))

/-- The Go value `[n][h][w]int{}`. -/
def zeroPlanes (n h w : Nat) : Planes := List.replicate n (List.replicate h (List.replicate w 0))

/-! ## Upscaling -/

/-- internal/tilegroup/decode_frame_wrapup.go:65-98 `UPSCALE_FILTER`. -/
def upscaleFilter : List (List Int) :=
  [[0, 0, 0, 128, 0, 0, 0, 0], [0, 0, -1, 128, 2, -1, 0, 0],
   [0, 1, -3, 127, 4, -2, 1, 0], [0, 1, -4, 127, 6, -3, 1, 0],
   [0, 2, -6, 126, 8, -3, 1, 0], [0, 2, -7, 125, 11, -4, 1, 0],
   [-1, 2, -8, 125, 13, -5, 2, 0], [-1, 3, -9, 124, 15, -6, 2, 0],
   [-1, 3, -10, 123, 18, -6, 2, -1], [-1, 3, -11, 122, 20, -7, 3, -1],
   [-1, 4, -12, 121, 22, -8, 3, -1], [-1, 4, -13, 120, 25, -9, 3, -1],
   [-1, 4, -14, 118, 28, -9, 3, -1], [-1, 4, -15, 117, 30, -10, 4, -1],
   [-1, 5, -16, 116, 32, -11, 4, -1], [-1, 5, -16, 114, 35, -12, 4, -1],
   [-1, 5, -17, 112, 38, -12, 4, -1], [-1, 5, -18, 111, 40, -13, 5, -1],
   [-1, 5, -18, 109, 43, -14, 5, -1], [-1, 6, -19, 107, 45, -14, 5, -1],
   [-1, 6, -19, 105, 48, -15, 5, -1], [-1, 6, -19, 103, 51, -16, 5, -1],
   [-1, 6, -20, 101, 53, -16, 6, -1], [-1, 6, -20, 99, 56, -17, 6, -1],
   [-1, 6, -20, 97, 58, -17, 6, -1], [-1, 6, -20, 95, 61, -18, 6, -1],
   [-2, 7, -20, 93, 64, -18, 6, -2], [-2, 7, -20, 91, 66, -19, 6, -1],
   [-2, 7, -20, 88, 69, -19, 6, -1], [-2, 7, -20, 86, 71, -19, 6, -1],
   [-2, 7, -20, 84, 74, -20, 7, -2], [-2, 7, -20, 81, 76, -20, 7, -1],
   [-2, 7, -20, 79, 79, -20, 7, -2], [-1, 7, -20, 76, 81, -20, 7, -2],
   [-2, 7, -20, 74, 84, -20, 7, -2], [-1, 6, -19, 71, 86, -20, 7, -2],
   [-1, 6, -19, 69, 88, -20, 7, -2], [-1, 6, -19, 66, 91, -20, 7, -2],
   [-2, 6, -18, 64, 93, -20, 7, -2], [-1, 6, -18, 61, 95, -20, 6, -1],
   [-1, 6, -17, 58, 97, -20, 6, -1], [-1, 6, -17, 56, 99, -20, 6, -1],
   [-1, 6, -16, 53, 101, -20, 6, -1], [-1, 5, -16, 51, 103, -19, 6, -1],
   [-1, 5, -15, 48, 105, -19, 6, -1], [-1, 5, -14, 45, 107, -19, 6, -1],
   [-1, 5, -14, 43, 109, -18, 5, -1], [-1, 5, -13, 40, 111, -18, 5, -1],
   [-1, 4, -12, 38, 112, -17, 5, -1], [-1, 4, -12, 35, 114, -16, 5, -1],
   [-1, 4, -11, 32, 116, -16, 5, -1], [-1, 4, -10, 30, 117, -15, 4, -1],
   [-1, 3, -9, 28, 118, -14, 4, -1], [-1, 3, -9, 25, 120, -13, 4, -1],
   [-1, 3, -8, 22, 121, -12, 4, -1], [-1, 3, -7, 20, 122, -11, 3, -1],
   [-1, 2, -6, 18, 123, -10, 3, -1], [0, 2, -6, 15, 124, -9, 3, -1],
   [0, 2, -5, 13, 125, -8, 2, -1], [0, 1, -4, 11, 125, -7, 2, 0],
   [0, 1, -3, 8, 126, -6, 2, 0], [0, 1, -3, 6, 127, -4, 1, 0],
   [0, 1, -2, 4, 127, -3, 1, 0], [0, 0, -1, 2, 128, -1, 0, 0]]

/-- What the functions of this file read of the headers and the state. -/
structure WrapCtx where
  /-- `uh.FrameWidth, uh.UpscaledWidth, uh.FrameHeight` -/
  frameWidth : Nat := 0
  upscaledWidth : Nat := 0
  frameHeight : Nat := 0
  /-- `sh.ColorConfig` -/
  subX : Nat := 0
  subY : Nat := 0
  numPlanes : Nat := 3
  bitDepth : Nat := 8
  /-- `state.MiCols, state.MiRows` -/
  miCols : Nat := 0
  miRows : Nat := 0

/-- Go `Round2(x, n)` for `x ≥ 0` and `n ≤ 1`. -/
def planeDim (x sub : Nat) : Nat := (x + sub) >>> sub

/-- internal/tilegroup/decode_frame_wrapup.go:27 `stepX`; the division panics for width 0. -/
def upStep (down up : Nat) : Res Int :=
  if up = 0 then .error .div else .ok (((down <<< 14 + up / 2) / up : Nat) : Int)

/-- internal/tilegroup/decode_frame_wrapup.go:28-33 `initialSubpelX`; Go division truncates, `& 16383` is the residue. -/
def upInitial (down up : Nat) (step : Int) : Int :=
  let err := (up : Int) * step - ((down <<< 14 : Nat) : Int)
  ((-(((up : Int) - down) * 2 ^ 13) + ((up / 2 : Nat) : Int)).tdiv up + 128 - err.tdiv 2) % 16384

/-- internal/tilegroup/decode_frame_wrapup.go:39-41: position `(pixel, phase)` of the filter at column `x`. -/
def upPos (init step : Int) (x : Nat) : Int × Int :=
  let srcX := -16384 + init + (x : Int) * step
  (srcX >>> (14 : Nat), (srcX % 16384) >>> (8 : Nat))

/-- internal/tilegroup/decode_frame_wrapup.go:42-47: the weighted sum of one row at a position. -/
def upSum (row : List Int) (maxX : Int) (pos : Int × Int) : Res Int :=
  forN (fun k sum => do
    let px ← goGet row (clip3 0 maxX (pos.1 + ((k : Int) - 3)))
    let f ← gget upscaleFilter pos.2 k
    pure (sum + px * f)) 8 0 0

/-- internal/tilegroup/decode_frame_wrapup.go:14-51: one plane of `upscalingProcess`. -/
def upPlane (c : WrapCtx) (plane : Nat) (src dst : List (List Int)) : Res (List (List Int)) := do
  let subX := if plane > 0 then c.subX else 0
  let subY := if plane > 0 then c.subY else 0
  let down := planeDim c.frameWidth subX
  let up := planeDim c.upscaledWidth subX
  let planeH := planeDim c.frameHeight subY
  let step ← upStep down up
  let init := upInitial down up step
  let maxX : Int := ((c.miCols >>> subX : Nat) : Int) * 4 - 1
  forN (fun y dst => forN (fun x dst => do
    let row ← goGet src y
    let sum ← upSum row maxX (upPos init step x)
    gset dst y x (clip1 (round2 sum 7) c.bitDepth)) up 0 dst) planeH 0 dst

/-- internal/tilegroup/decode_frame_wrapup.go:12-54 `upscalingProcess`. -/
def upscale (c : WrapCtx) (input : Planes) : Res Planes :=
  forN (fun plane out => do
    let src ← goGet input plane
    let dst ← goGet out plane
    let dst ← upPlane c plane src dst
    goSet out plane dst) c.numPlanes 0 (zeroPlanes 3 9 9)

/-! ## Copies -/

/-- Copy loops of internal/tilegroup/decode_frame_wrapup.go and output.go: `for x < w { for y < h { dst[y][x] = src[y][x] } }`. -/
def copyCols {α : Type} (src : List (List α)) (h w : Nat) (dst : List (List α)) : Res (List (List α)) :=
  forN (fun x D => forN (fun y D => do
    let v ← gget src (y : Int) (x : Int)
    gset D (y : Int) (x : Int) v) h 0 D) w 0 dst

/-- Copy loops of internal/tilegroup/decode_frame_wrapup.go:139-164: `for row < h { for col < w { dst[row][col] = src[row][col] } }`. -/
def copyRows {α : Type} (src : List (List α)) (h w : Nat) (dst : List (List α)) : Res (List (List α)) :=
  forN (fun y D => forN (fun x D => do
    let v ← gget src (y : Int) (x : Int)
    gset D (y : Int) (x : Int) v) w 0 D) h 0 dst

/-- internal/tilegroup/decode_frame_wrapup.go:154-158: the global motion parameters of references 1 to 7. -/
def copyGm (src dst : List (List Int)) : Res (List (List Int)) :=
  forN (fun k D => forN (fun j D => do
    let v ← gget src ((k + 1 : Nat) : Int) (j : Int)
    gset D ((k + 1 : Nat) : Int) (j : Int) v) 6 0 D) 7 0 dst

/-- internal/tilegroup/decode_frame_wrapup.go:122-124: `for j < 7 { dst[j+1] = src[j+1] }`. -/
def copyHints (src dst : List Int) : Res (List Int) :=
  forN (fun j D => do
    let v ← goGet src ((j + 1 : Nat) : Int)
    goSet D ((j + 1 : Nat) : Int) v) 7 0 dst

/-! ## Reference frame update -/

/-- The entries of one slot in the arrays `state.Ref*`, `state.Saved*` (one record instead of one array per field); the
pair of motion vector components is two grids. -/
structure RefSlot where
  valid : Int := 0
  upscaledWidth : Int := 0
  frameWidth : Int := 0
  frameHeight : Int := 0
  renderWidth : Int := 0
  renderHeight : Int := 0
  miCols : Int := 0
  miRows : Int := 0
  frameType : Int := 0
  subX : Int := 0
  subY : Int := 0
  bitDepth : Int := 0
  orderHint : Int := 0
  orderHints : List Int := List.replicate 8 0
  refFrames : List (List Int) := List.replicate 64 (List.replicate 64 0)
  mvs0 : List (List Int) := List.replicate 64 (List.replicate 64 0)
  mvs1 : List (List Int) := List.replicate 64 (List.replicate 64 0)
  gm : List (List Int) := List.replicate 8 (List.replicate 6 0)
  segIds : List (List Int) := List.replicate 64 (List.replicate 64 0)

/-- The current frame at the time of the update. -/
structure CurFrame extends WrapCtx where
  refresh : Nat := 0
  renderWidth : Int := 0
  renderHeight : Int := 0
  frameType : Int := 0
  orderHint : Int := 0
  orderHints : List Int := List.replicate 8 0
  gm : List (List Int) := List.replicate 8 (List.replicate 6 0)
  /-- `state.LrFrame` -/
  lr : Planes := zeroPlanes 3 9 9
  /-- `state.MfRefFrames, state.MfMvs` -/
  refFrames : List (List Int) := List.replicate 64 (List.replicate 64 0)
  mvs0 : List (List Int) := List.replicate 64 (List.replicate 64 0)
  mvs1 : List (List Int) := List.replicate 64 (List.replicate 64 0)
  /-- `t.SegmentIds` -/
  segIds : List (List Int) := List.replicate 64 (List.replicate 64 0)

/-- The reference memory: `state.Ref*`/`state.Saved*`, `t.FrameStore` and `state.Memory` (of CDFs, kept abstract). -/
structure RefMem (γ : Type) where
  slots : List RefSlot
  store : List Planes
  cdfs : List γ

/-- internal/tilegroup/decode_frame_wrapup.go:109-120: the fields of a slot that are single values. -/
def slotFields (f : CurFrame) (s : RefSlot) : RefSlot :=
  { s with
    valid := 1, upscaledWidth := f.upscaledWidth, frameWidth := f.frameWidth, frameHeight := f.frameHeight
    renderWidth := f.renderWidth, renderHeight := f.renderHeight, miCols := f.miCols, miRows := f.miRows
    frameType := f.frameType, subX := f.subX, subY := f.subY, bitDepth := f.bitDepth }

/-- internal/tilegroup/decode_frame_wrapup.go:122-124 and 139-164: the arrays of a slot. -/
def slotArrays (f : CurFrame) (s : RefSlot) : Res RefSlot := do
  let hints ← copyHints f.orderHints s.orderHints
  let refFrames ← copyRows f.refFrames f.miRows f.miCols s.refFrames
  let mvs0 ← copyRows f.mvs0 f.miRows f.miCols s.mvs0
  let mvs1 ← copyRows f.mvs1 f.miRows f.miCols s.mvs1
  let gm ← copyGm f.gm s.gm
  let segIds ← copyRows f.segIds f.miRows f.miCols s.segIds
  pure { s with orderHints := hints, refFrames := refFrames, mvs0 := mvs0, mvs1 := mvs1, gm := gm, segIds := segIds }

/-- internal/tilegroup/decode_frame_wrapup.go:126-138: the picture.  In Go `>>` binds tighter than `+`, so the bounds of the
chroma loops are `UpscaledWidth + (subX >> subX)` and `FrameHeight + (subY >> subY)`. -/
def savePicture (f : CurFrame) (pic : Planes) : Res Planes := do
  let src ← goGet f.lr 0
  let dst ← goGet pic 0
  let dst ← copyCols src f.frameHeight f.upscaledWidth dst
  let pic ← goSet pic 0 dst
  forN (fun k pic => do
    let src ← goGet f.lr ((k + 1 : Nat) : Int)
    let dst ← goGet pic ((k + 1 : Nat) : Int)
    let dst ← copyCols src (f.frameHeight + f.subY >>> f.subY) (f.upscaledWidth + f.subX >>> f.subX) dst
    goSet pic ((k + 1 : Nat) : Int) dst) 2 0 pic

/-- internal/tilegroup/decode_frame_wrapup.go:166 `SaveCdfs(i, state)`: the slot gets the current CDFs (internal/uncompressedheader/cdf.go:137-239,
95 assignments `memoryArea.X = s.X`). -/
def saveCdfs {γ : Type} (m : RefMem γ) (i : Nat) (cdfs : γ) : Res (RefMem γ) := do
  let l ← goSet m.cdfs i cdfs
  pure { m with cdfs := l }

/-- internal/tilegroup/decode_frame_wrapup.go:175-179: the order hints of all refreshed slots. -/
def saveHints (f : CurFrame) (slots : List RefSlot) : Res (List RefSlot) :=
  forN (fun i l => if (f.refresh >>> i) % 2 = 1 then do
      let s ← goGet l i
      goSet l i { s with orderHint := f.orderHint }
    else pure l) 8 0 slots

/-- internal/tilegroup/decode_frame_wrapup.go:108-180: one slot. -/
def updateSlot {γ : Type} (f : CurFrame) (cdfs : γ) (i : Nat) (m : RefMem γ) : Res (RefMem γ) := do
  let s ← goGet m.slots i
  let pic ← goGet m.store i
  let s ← slotArrays f (slotFields f s)
  let pic ← savePicture f pic
  let slots ← goSet m.slots i s
  let store ← goSet m.store i pic
  let slots ← saveHints f slots
  saveCdfs { m with slots := slots, store := store } i cdfs

/-- internal/tilegroup/decode_frame_wrapup.go:106-183 `referenceFrameUpdate`. -/
def refUpdate {γ : Type} (f : CurFrame) (cdfs : γ) (m : RefMem γ) : Res (RefMem γ) :=
  forN (fun i m => if (f.refresh >>> i) % 2 = 1 then updateSlot f cdfs i m else pure m) 8 0 m

/-- internal/tilegroup/tile_group.go:271-275: `NewTileGroup` starts from a zero `TileGroup`, which holds `FrameStore`. -/
def newTileGroupStore {γ : Type} (m : RefMem γ) : RefMem γ := { m with store := List.replicate 8 (zeroPlanes 3 16 16) }

/-! ## Reference frame loading -/

/-- internal/tilegroup/decode_frame_wrapup.go:231-237: the chroma planes.  The inner loop increments `x`, so once entered it
ends only with the index `x` out of range. -/
def loadChroma (w h subX subY : Nat) : Res Unit :=
  if 1 < (w + subX) >>> subX ∧ 1 < (h + subY) >>> subY then .error .index else pure ()

/-- internal/tilegroup/decode_frame_wrapup.go:204-273 `referenceFrameLoadingProcess`: the pictures, then the call of
`LoadLoopFilterParams`, which panics.  The copies in between have no effect that anything can observe. -/
def refLoad {γ : Type} (m : RefMem γ) (idx : Nat) (lr : Planes) : Res Planes := do
  let s ← goGet m.slots idx
  let pic ← goGet m.store idx
  let src ← goGet pic 0
  let dst ← goGet lr 0
  let dst ← copyCols src s.frameHeight.toNat s.upscaledWidth.toNat dst
  let _lr ← goSet lr 0 dst
  loadChroma s.upscaledWidth.toNat s.frameHeight.toNat s.subX.toNat s.subY.toNat
  .error (.explicit "not implemented")

/-! ## Output -/

/-- internal/tilegroup/output.go:52-75: the picture of a frame that is not a repetition. -/
def outputLr (c : WrapCtx) (lr : Planes) (out : Planes) : Res Planes := do
  let src ← goGet lr 0
  let dst ← goGet out 0
  let dst ← copyCols src c.frameHeight c.upscaledWidth dst
  let out ← goSet out 0 dst
  forN (fun k out => do
    let src ← goGet lr ((k + 1 : Nat) : Int)
    let dst ← goGet out ((k + 1 : Nat) : Int)
    let dst ← copyCols src ((c.frameHeight + c.subY) >>> c.subY) ((c.upscaledWidth + c.subX) >>> c.subX) dst
    goSet out ((k + 1 : Nat) : Int) dst) 2 0 out

/-- internal/tilegroup/output.go:12-22 `outputProcess` for a frame that is not a repetition; `grain` is
`FilmGrainParamsPresent && ApplyGrain`, `out` the arrays `OutY, OutU, OutV`. -/
def outputFrame (c : WrapCtx) (opIdc : Nat) (grain : Bool) (lr : Planes) (out : Planes) : Res Planes :=
  if opIdc ≠ 0 then .error (.explicit "not implemented")
  else do
    let out ← outputLr c lr out
    if grain then .error (.explicit "not implemented") else pure out

end Gov1
