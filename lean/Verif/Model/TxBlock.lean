import Verif.Model.Intra
import Verif.Model.Coeffs
import Verif.Model.Reconstruct
/-!
# Transform blocks

internal/tilegroup/residual.go: `transformBlock` and `residual` with all they call (prediction, coefficients, reconstruction).
-/
namespace Gov1

/-- What `transformBlock` changes. -/
structure TbSt where
  /-- `state.CurrFrame` -/
  frames : List (List (List Int))
  /-- `t.AboveRow, t.LeftCol` -/
  above : Edge := fun _ => 0
  left : Edge := fun _ => 0
  /-- `t.LoopFilterTxSizes, state.BlockDecoded`, by plane -/
  marks : List TxMarks
  maxLumaW : Nat := 0
  maxLumaH : Nat := 0
  coef : CoefSt := {}
  /-- `t.T, t.Residual` -/
  T : List Int := []
  residual : List (List Int) := []

/-- What it only reads. -/
structure TbCtx where
  res : ResCtx := {}
  intra : IntraCtx := {}
  blk : BlkCtx := {}
  recon : ReconCtx := {}
  /-- `sh.Use128x128SuperBlock` -/
  use128 : Bool := false
  skip : Bool := false
  yMode : Int := 0
  uvMode : Int := 0
  paletteSizeY : Nat := 0
  paletteSizeUV : Nat := 0
  /-- `t.PaletteColorsY, t.PaletteColorsU, t.PaletteColorsV` -/
  palettes : List (List Int) := [[], [], []]
  colorMapY : List (List Int) := []
  cflAlphaU : Int := 0
  cflAlphaV : Int := 0

/-- residual.go:121-123: the prediction is from a palette. -/
def usesPalette (c : TbCtx) (plane : Nat) : Bool := (plane == 0 && c.paletteSizeY != 0) || (plane != 0 && c.paletteSizeUV != 0)

/-- residual.go:125-135: `isCfl` (`UV_CFL_PRED` is 13) and `mode`. -/
def usesCfl (c : TbCtx) (plane : Nat) : Bool := decide (plane > 0) && c.uvMode == 13
def tbMode (c : TbCtx) (plane : Nat) : Int := if plane = 0 then c.yMode else if usesCfl c plane then 0 else c.uvMode

/-- residual.go:146-158: `x2` for `y1`; -1 becomes the last column of the row `y1`. -/
def flagCol (d : List (List Bool)) (y1 : Int) (x2 : Int) : Res Int :=
  if x2 < 0 then do
    let row ← goGet d y1
    pure ((row.length : Int) + x2)
  else pure x2

/-- residual.go:146-169: the flags `haveAboveRight` and `haveBelowLeft`. -/
def cornerFlags (sx sy : Nat) (p : TxPos) (d : List (List Bool)) : Res (Bool × Bool) := do
  let x1 : Int := ((p.subCol >>> sx + p.stepX : Nat) : Int)
  let y1 : Int := ((p.subRow >>> sy + p.stepY : Nat) : Int)
  let x2 ← flagCol d y1 (((p.subCol >>> sx : Nat) : Int) - 1)
  let y2 : Int := ((p.subRow >>> sy : Nat) : Int) - 1
  let a ← gget d (if y2 < 0 then (d.length : Int) + y2 else y2) x1
  let b ← gget d y1 x2
  pure (a, b)

/-- residual.go:136-175: the arguments of `predictIntra`; luma has the conditions of chroma and the other way round. -/
def tbArgs (c : TbCtx) (call : TxCall) (p : TxPos) (f : Bool × Bool) (lw lh : Nat) : IntraArgs :=
  { plane := call.plane, x := p.startX, y := p.startY,
    haveLeft := (if call.plane = 0 then c.intra.availLChroma else c.intra.availL) || decide (call.x > 0),
    haveAbove := (if call.plane = 0 then c.intra.availUChroma else c.intra.availU) || decide (call.y > 0),
    haveAboveRight := f.1, haveBelowLeft := f.2, mode := tbMode c call.plane, log2W := lw, log2H := lh }

/-- residual.go:176-178: chroma from luma, if used. -/
def tbCfl (c : TbCtx) (call : TxCall) (p : TxPos) (s : TbSt) (F : List (List Int)) : Res (List (List Int)) :=
  if usesCfl c call.plane then do
    let luma ← goGet s.frames 0
    predictCfl { subX := c.res.subX, subY := c.res.subY, bitDepth := c.intra.bitDepth, maxLumaW := s.maxLumaW, maxLumaH := s.maxLumaH, alphaU := c.cflAlphaU, alphaV := c.cflAlphaV }
      call.plane p.startX p.startY call.txSz luma F
  else pure F

/-- residual.go:124-179: intra prediction of the block. -/
def tbIntra (c : TbCtx) (call : TxCall) (p : TxPos) (s : TbSt) : Res TbSt := do
  let lw ← goGet txWidthLog2 call.txSz
  let lh ← goGet txHeightLog2 call.txSz
  let m ← goGet s.marks call.plane
  let f ← cornerFlags (if call.plane > 0 then c.res.subX else 0) (if call.plane > 0 then c.res.subY else 0) p m.decoded
  let F ← goGet s.frames call.plane
  let r ← predictIntra c.intra (tbArgs c call p f lw lh) F s.above s.left
  let F ← tbCfl c call p s r.1
  let fs ← goSet s.frames call.plane F
  pure { s with frames := fs, above := r.2.1, left := r.2.2 }

/-- residual.go:123: prediction from the palette. -/
def tbPalette (c : TbCtx) (call : TxCall) (p : TxPos) (s : TbSt) : Res TbSt := do
  let F ← goGet s.frames call.plane
  let pal ← goGet c.palettes call.plane
  let F ← palettePrediction call.plane p.startX p.startY call.x call.y call.txSz pal c.colorMapY F
  let fs ← goSet s.frames call.plane F
  pure { s with frames := fs }

/-- residual.go:182-185: `MaxLumaW`, `MaxLumaH`. -/
def tbLuma (call : TxCall) (p : TxPos) (s : TbSt) : TbSt :=
  if call.plane = 0 then { s with maxLumaW := p.startX + p.stepX * 4, maxLumaH := p.startY + p.stepY * 4 } else s

/-- residual.go:120-186: prediction, of intra blocks only. -/
def tbPredict (c : TbCtx) (call : TxCall) (p : TxPos) (s : TbSt) : Res TbSt :=
  if c.res.isInter then pure s
  else if usesPalette c call.plane then (tbPalette c call p s).map (tbLuma call p)
  else (tbIntra c call p s).map (tbLuma call p)

/-- residual.go:190-192: reconstruction if there are coefficients. -/
def tbRecon (c : TbCtx) (call : TxCall) (p : TxPos) (s : TbSt) (eob : Int) : Res TbSt :=
  if eob > 0 then do
    let F ← goGet s.frames call.plane
    let r ← reconstruct { c.recon with planeTxType := s.coef.planeTxType.toNat } call.plane p.startX p.startY call.txSz
      { quant := s.coef.quant, dequant := s.coef.dequant, T := s.T, residual := s.residual, frame := F }
    let fs ← goSet s.frames call.plane r.frame
    pure { s with frames := fs, T := r.T, residual := r.residual, coef := { s.coef with dequant := r.dequant } }
  else pure s

/-- residual.go:188-193: coefficients. -/
def tbCoeffs (fuel : Nat) (c : TbCtx) (call : TxCall) (p : TxPos) (s : TbSt) : Rd TbSt :=
  if c.skip then Rd.ret s
  else do
    let r ← coeffs fuel c.blk s.coef call.plane p.startX p.startY call.txSz
    Rd.lift (tbRecon c call p { s with coef := r.1 } r.2)

/-- residual.go:195-200: marks. -/
def tbMark (c : TbCtx) (call : TxCall) (p : TxPos) (s : TbSt) : Res TbSt := do
  let m ← goGet s.marks call.plane
  let m ← txMark c.res call.plane call.txSz p m
  let ms ← goSet s.marks call.plane m
  pure { s with marks := ms }

/-- residual.go:116-201: the part inside the frame. -/
def tbInside (fuel : Nat) (c : TbCtx) (call : TxCall) (s : TbSt) : Option TxPos → Rd TbSt
  | none => Rd.ret s
  | some p => do
    let s ← Rd.lift (tbPredict c call p s)
    let s ← tbCoeffs fuel c call p s
    Rd.lift (tbMark c call p s)

/-- internal/tilegroup/residual.go:84-201 `transformBlock`. -/
def transformBlock (fuel : Nat) (c : TbCtx) (call : TxCall) (s : TbSt) : Rd TbSt := do
  let p ← Rd.lift (txPos c.res c.use128 call)
  tbInside fuel c call s p

/-- The calls of `residual`, one after the other. -/
def runCalls (fuel : Nat) (c : TbCtx) : List TxCall → TbSt → Rd TbSt
  | [], s => Rd.ret s
  | call :: t, s => do
    let s ← transformBlock fuel c call s
    runCalls fuel c t s

/-- internal/tilegroup/residual.go:13-75 `residual`.  The list of calls is computed first; the code computes it as it goes, from values the calls do not change. -/
def residual (fuel : Nat) (c : TbCtx) (s : TbSt) : Rd TbSt := do
  let calls ← Rd.lift (residualCalls c.res)
  runCalls fuel c calls s

end Gov1
