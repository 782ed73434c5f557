import Verif.Model.TxSize
import Verif.Model.Transform
import Verif.Model.Util
/-!
# Transform blocks of a block

internal/tilegroup/residual.go.  The geometry: which calls of `transformBlock` a block makes, and what `transformBlock` itself
computes and records; the functions it calls (prediction, coefficients, reconstruction) are modelled elsewhere.
-/
namespace Gov1

/-- The arguments of a call of `transformBlock`. -/
structure TxCall where
  plane : Nat
  baseX : Nat
  baseY : Nat
  txSz : Nat
  x : Nat
  y : Nat
deriving DecidableEq, Repr

/-- What the geometry depends on. -/
structure ResCtx where
  miRow : Nat := 0
  miCol : Nat := 0
  miSize : Nat := 0
  miRows : Nat := 0
  miCols : Nat := 0
  hasChroma : Bool := true
  lossless : Bool := false
  isInter : Bool := false
  /-- `t.TxSize` -/
  txSize : Nat := 0
  subX : Nat := 0
  subY : Nat := 0
  /-- `t.InterTxSizes` -/
  interTx : List (List Nat) := []

/-- internal/tilegroup/residual.go:298-306 `findTxSize`: the first matching size, 19 if there is none. -/
def findTxSize (w h : Nat) : Nat :=
  ((List.range 19).find? (fun t => txWidth[t]? == some w && txHeight[t]? == some h)).getD 19

/-- internal/tilegroup/residual.go:309-328 `getTxSize`. -/
def getTxSize (cx : ResCtx) (plane txSz : Nat) : Res Nat :=
  if plane = 0 then pure txSz
  else do
    let sz ← getPlaneResidualSize cx.subX cx.subY cx.miSize plane
    let uvTx ← goGet maxTxSizeRect sz
    let w ← goGet txWidth uvTx
    let h ← goGet txHeight uvTx
    if w = 64 ∨ h = 64 then pure (if w = 16 then 9 else if h = 16 then 10 else 3)
    else pure uvTx

/-- internal/tilegroup/residual.go:265-293 `transformTree`, as the list of its calls of `transformBlock` (which does not change
what the function reads).  Fuel bounds the depth of the recursion. -/
def transformTree (cx : ResCtx) : Nat → Nat → Nat → Nat → Nat → Res (List TxCall)
  | 0, _, _, _, _ => .error .hang
  | fuel + 1, startX, startY, w, h =>
    if startX ≥ cx.miCols * 4 ∨ startY ≥ cx.miRows * 4 then pure []
    else do
      let lumaTx ← gget cx.interTx (startY / 4 : Nat) (startX / 4 : Nat)
      let lumaW ← goGet txWidth lumaTx
      let lumaH ← goGet txHeight lumaTx
      if w ≤ lumaW ∧ h ≤ lumaH then pure [⟨0, startX, startY, findTxSize w h, 0, 0⟩]
      else if w > h then do
        let a ← transformTree cx fuel startX startY (w / 2) h
        let b ← transformTree cx fuel (startX + w / 2) startY (w / 2) h
        pure (a ++ b)
      else if w < h then do
        let a ← transformTree cx fuel startX startY w (h / 2)
        let b ← transformTree cx fuel startX (startY + h / 2) w (h / 2)
        pure (a ++ b)
      else do
        let a ← transformTree cx fuel startX startY (w / 2) (h / 2)
        let b ← transformTree cx fuel (startX + w / 2) startY (w / 2) (h / 2)
        let c ← transformTree cx fuel startX (startY + h / 2) (w / 2) (h / 2)
        let d ← transformTree cx fuel (startX + w / 2) (startY + h / 2) (w / 2) (h / 2)
        pure (a ++ b ++ c ++ d)

/-- `n` steps of a loop, in order, lists of calls appended. -/
def catLoop (f : Nat → Res (List TxCall)) : Nat → Nat → Res (List TxCall)
  | 0, _ => pure []
  | n + 1, i => do
    let a ← f i
    let b ← catLoop f n (i + 1)
    pure (a ++ b)

/-- internal/tilegroup/residual.go:53-67: the raster of calls; `for y := 0; y < n; y += step` makes `⌈n / step⌉` turns. -/
def rasterCalls (plane baseX baseY txSz h w stepY stepX offX offY : Nat) : List TxCall :=
  (List.range ((h + stepY - 1) / stepY)).flatMap fun i =>
    (List.range ((w + stepX - 1) / stepX)).map fun j => ⟨plane, baseX, baseY, txSz, j * stepX + offX, i * stepY + offY⟩

/-- internal/tilegroup/residual.go:29-32. -/
def planeTxSize (cx : ResCtx) (plane : Nat) : Res Nat := if cx.lossless then pure 0 else getTxSize cx plane cx.txSize

/-- internal/tilegroup/residual.go:28-71: the calls for one plane of one chunk of the block. -/
def planeCalls (cx : ResCtx) (miSizeChunk chunkX chunkY plane : Nat) : Res (List TxCall) := do
  let txSz ← planeTxSize cx plane
  let tw ← goGet txWidth txSz
  let th ← goGet txHeight txSz
  let planeSz ← getPlaneResidualSize cx.subX cx.subY miSizeChunk plane
  let w ← goGet num4x4Wide planeSz
  let h ← goGet num4x4High planeSz
  let subX := if plane > 0 then cx.subX else 0
  let subY := if plane > 0 then cx.subY else 0
  if cx.isInter ∧ !cx.lossless ∧ plane = 0 then
    transformTree cx 12 (((cx.miCol + chunkX <<< 4) >>> subX) * 4) (((cx.miRow + chunkY <<< 4) >>> subY) * 4) (w * 4) (h * 4)
  else pure (rasterCalls plane ((cx.miCol >>> subX) * 4) ((cx.miRow >>> subY) * 4) txSz h w (th >>> 2) (tw >>> 2)
    ((chunkX <<< 4) >>> subX) ((chunkY <<< 4) >>> subY))

/-- internal/state/state.go:30-31 `BlockWidth`, `BlockHeight`: arrays that nothing fills. -/
def stateBlockWidth : List Nat := List.replicate 64 0
def stateBlockHeight : List Nat := List.replicate 64 0

/-- internal/tilegroup/residual.go:13-75 `residual`, as the list of its calls of `transformBlock`. -/
def residualCalls (cx : ResCtx) : Res (List TxCall) := do
  let bw ← goGet stateBlockWidth cx.miSize
  let bh ← goGet stateBlockHeight cx.miSize
  let wc := max 1 (bw >>> 6)
  let hc := max 1 (bh >>> 6)
  let chunk := if wc > 1 ∨ hc > 1 then 12 else cx.miSize
  catLoop (fun chunkY => catLoop (fun chunkX => catLoop (planeCalls cx chunk chunkX chunkY) (1 + (if cx.hasChroma then 2 else 0)) 0) wc 0) hc 0

/-! ## One transform block -/

/-- What `transformBlock` computes first: internal/tilegroup/residual.go:86-114. -/
structure TxPos where
  startX : Nat
  startY : Nat
  row : Nat
  col : Nat
  subRow : Nat
  subCol : Nat
  stepX : Nat
  stepY : Nat
deriving DecidableEq, Repr

/-- internal/tilegroup/residual.go:86-114; `col` is computed from `startY`, the mask of 128x128 superblocks is 21.  `none` if the
block starts outside the frame. -/
def txPos (cx : ResCtx) (use128 : Bool) (c : TxCall) : Res (Option TxPos) := do
  let startX := c.baseX + 4 * c.x
  let startY := c.baseY + 4 * c.y
  let subX := if c.plane > 0 then cx.subX else 0
  let subY := if c.plane > 0 then cx.subY else 0
  let row := (startY <<< subY) >>> 2
  let col := (startY <<< subY) >>> 2
  let mask := if use128 then 21 else 15
  let tw ← goGet txWidth c.txSz
  let th ← goGet txHeight c.txSz
  if startX ≥ (cx.miCols * 4) >>> subX ∨ startY ≥ (cx.miRows * 4) >>> subY then pure none
  else pure (some { startX := startX, startY := startY, row := row, col := col, subRow := row &&& mask, subCol := col &&& mask, stepX := tw >>> 2, stepY := th >>> 2 })

/-- The arrays of one plane that `transformBlock` writes at its end. -/
structure TxMarks where
  /-- `t.LoopFilterTxSizes[plane]` -/
  lfTx : List (List Nat)
  /-- `state.BlockDecoded[plane]` -/
  decoded : List (List Bool)

/-- internal/tilegroup/residual.go:183-188: both loops end at `stepY`. -/
def txMark (cx : ResCtx) (plane txSz : Nat) (p : TxPos) (m : TxMarks) : Res TxMarks :=
  let subX := if plane > 0 then cx.subX else 0
  let subY := if plane > 0 then cx.subY else 0
  forN (fun i m => forN (fun j (m : TxMarks) => do
    let lf ← gset m.lfTx ((p.row >>> subY + i : Nat) : Int) ((p.col >>> subX + j : Nat) : Int) txSz
    let d ← gset m.decoded ((p.subRow >>> subY + i : Nat) : Int) ((p.subCol >>> subX + j : Nat) : Int) true
    pure { m with lfTx := lf, decoded := d }) p.stepY 0 m) p.stepY 0 m

/-! ## Palette prediction -/

/-- internal/tilegroup/residual.go:194-218 `palettePrediction`: `F` is `state.CurrFrame[plane]`, `palette` the colours of the plane;
the colour map of the chroma planes is empty. -/
def palettePrediction (plane startX startY x y txSz : Nat) (palette : List Int) (colorMapY : List (List Int)) (F : List (List Int)) : Res (List (List Int)) := do
  let w ← goGet txWidth txSz
  let h ← goGet txHeight txSz
  let map := if plane = 0 then colorMapY else []
  forN (fun i F => forN (fun j F => do
    let k ← gget map ((y * 4 + i : Nat) : Int) ((x * 4 + j : Nat) : Int)
    let v ← goGet palette k
    gset F ((startY + i : Nat) : Int) ((startX + j : Nat) : Int) v) w 0 F) h 0 F

/-! ## Chroma from luma -/

/-- What the prediction of chroma from luma reads besides the frame. -/
structure CflCtx where
  subX : Nat := 1
  subY : Nat := 1
  bitDepth : Nat := 8
  /-- `t.MaxLumaW, t.MaxLumaH` -/
  maxLumaW : Nat := 0
  maxLumaH : Nat := 0
  /-- `t.CflAlphaU, t.CflAlphaV` -/
  alphaU : Int := 0
  alphaV : Int := 0

/-- internal/tilegroup/residual.go:236-246: the luma value of a chroma pixel, in eighths. -/
def cflLuma (c : CflCtx) (luma : List (List Int)) (py px : Nat) : Res Int := do
  let lumaY : Int := min ((py <<< c.subY : Nat) : Int) ((c.maxLumaH : Int) - (1 <<< c.subY : Nat))
  let lumaX : Int := min ((px <<< c.subX : Nat) : Int) ((c.maxLumaW : Int) - (1 <<< c.subX : Nat))
  let t ← forN (fun dy t => forN (fun dx t => do
    let v ← gget luma (lumaY + dy) (lumaX + dx)
    pure (t + v)) (c.subX + 1) 0 t) (c.subY + 1) 0 (0 : Int)
  pure (t * 2 ^ (3 - c.subX - c.subY))

/-- internal/tilegroup/residual.go:232-251: the values of a block and their average. -/
def cflLumas (c : CflCtx) (luma : List (List Int)) (startX startY w h : Nat) : Res (List (List Int) × Int) :=
  forN (fun i s => forN (fun j (s : List (List Int) × Int) => do
    let v ← cflLuma c luma (startY + i) (startX + j)
    let L ← gset s.1 (i : Int) (j : Int) v
    pure (L, s.2 + v)) w 0 s) h 0 (List.replicate 64 (List.replicate 64 0), 0)

/-- internal/tilegroup/residual.go:221-262 `predictChromaFromLuma`: `F` is `state.CurrFrame[plane]`, `luma` is `state.CurrFrame[0]`.
`alpha` is `CflAlphaU` for plane 0 only. -/
def predictCfl (c : CflCtx) (plane startX startY txSz : Nat) (luma F : List (List Int)) : Res (List (List Int)) := do
  let w ← goGet txWidth txSz
  let h ← goGet txHeight txSz
  let alpha := if plane = 0 then c.alphaU else c.alphaV
  let (L, sum) ← cflLumas c luma startX startY w h
  let lw ← goGet txWidthLog2 txSz
  let lh ← goGet txHeightLog2 txSz
  let avg := round2 sum (lw + lh)
  forN (fun i F => forN (fun j F => do
    let dc ← gget F ((startY + i : Nat) : Int) ((startX + j : Nat) : Int)
    let l ← gget L (i : Int) (j : Int)
    gset F ((startY + i : Nat) : Int) ((startX + j : Nat) : Int) (clip1 (dc + round2Signed (alpha * (l - avg)) 6) c.bitDepth)) w 0 F) h 0 F

end Gov1
