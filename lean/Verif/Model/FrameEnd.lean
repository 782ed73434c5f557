import Verif.Model.LoopRestoration
/-!
# The end of a frame

internal/tilegroup/tile_group.go:340-367 `decodeFrameWrapup` after deblocking and CDEF, for a frame that is not a repetition
(a repeated frame never gets here: internal/obu/obu.go:117-119 calls another function, which panics).
-/
namespace Gov1

/-- What the frame end needs besides the restoration parameters and the current frame. -/
structure FrameEndIn where
  /-- `state.CdefFrame, state.CurrFrame` -/
  cdefFrame : Planes
  curFrame : Planes
  /-- `state.PrevSegmentIds`, if `SegmentationEnabled` and `SegmentationUpdateMap == 0` -/
  prevSegIds : Option (List (List Int)) := none
  shown : Bool := true
  /-- `state.OperatingPointIdc` -/
  opIdc : Nat := 0
  /-- `FilmGrainParamsPresent && ApplyGrain` -/
  grain : Bool := false

/-- internal/tilegroup/tile_group.go:351-357: segment ids of a frame without an updated map. -/
def keepSegIds (c : WrapCtx) (prev : Option (List (List Int))) (ids : List (List Int)) : Res (List (List Int)) :=
  match prev with
  | none => pure ids
  | some p => copyRows p c.miRows c.miCols ids

/-- internal/tilegroup/tile_group.go:346-349: both pictures are upscaled, then restored. -/
def restored (c : LrCtx) (i : FrameEndIn) : Res Planes := do
  let cdef ← upscale c.toWrapCtx i.cdefFrame
  let cur ← upscale c.toWrapCtx i.curFrame
  loopRestoration { c with cdef := cdef, cur := cur }

/-- internal/tilegroup/tile_group.go:340-367 after deblocking and CDEF. -/
def frameEnd {γ : Type} (c : LrCtx) (f : CurFrame) (i : FrameEndIn) (cdfs : γ) (m : RefMem γ) (out : Planes) : Res (RefMem γ × Planes) := do
  let lr ← restored c i
  let seg ← keepSegIds c.toWrapCtx i.prevSegIds f.segIds
  let m ← refUpdate { f with toWrapCtx := c.toWrapCtx, lr := lr, segIds := seg } cdfs m
  if i.shown then do
    let out ← outputFrame c.toWrapCtx i.opIdc i.grain lr out
    pure (m, out)
  else pure (m, out)

end Gov1
