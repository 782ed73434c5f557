import Verif.Model.Grid
import Verif.Model.Transform
import Verif.Model.QuantTables
import Verif.Model.QuantMatrix
import Verif.Model.UncompressedHeader
/-!
# Model of internal/tilegroup/reconstruct.go

The parameters the functions take from the tile group, the sequence header, the frame header and the
decoder state are collected in `ReconCtx`.
-/
namespace Gov1

/-- What `reconstruct` reads besides the arrays: `uh` (segmentation, quantization parameters,
`DeltaQPresent`, `SegQMLevel`), `state.CurrentQIndex`, `sh.ColorConfig.BitDepth`, and `t.SegmentId`,
`t.PlaneTxType`, `t.Lossless`. -/
structure ReconCtx where
  seg : SegParams := {}
  q : QuantParams := {}
  deltaQPresent : Bool := false
  currentQIndex : Int := 0
  segQMLevel : List (List Nat) := []
  bitDepth : Nat := 8
  segmentId : Nat := 0
  planeTxType : Nat := 0
  lossless : Bool := false

/-- internal/tilegroup/reconstruct.go:12-27 the denominator `dqDenom` (`TX_64X64 = 4`, `TX_32X64 = 11`,
`TX_64X32 = 12`; `TX_32X32 = 3`, `TX_16X32 = 9`, `TX_32X16 = 10`, `TX_16X64 = 17`, `TX_64X16 = 18`). -/
def dqDenom (txSz : Nat) : Int :=
  if txSz = 3 ∨ txSz = 9 ∨ txSz = 10 ∨ txSz = 17 ∨ txSz = 18 then 2
  else if txSz = 4 ∨ txSz = 11 ∨ txSz = 12 then 4
  else 1

/-- internal/tilegroup/reconstruct.go:113-115 `dcQ`.  `(BitDepth-8)>>1` is arithmetic. -/
def dcQ (bitDepth : Nat) (b : Int) : Res Int :=
  gget dcQlookup (((bitDepth : Int) - 8) >>> (1 : Nat)) (clip3 0 255 b)

/-- internal/tilegroup/reconstruct.go:128-130 `acQ`; it reads the DC table. -/
def acQ (bitDepth : Nat) (b : Int) : Res Int :=
  gget dcQlookup (((bitDepth : Int) - 8) >>> (1 : Nat)) (clip3 0 255 b)

/-- `uh.GetQIndex(0, t.SegmentId, state)` as called at internal/tilegroup/reconstruct.go:105-125. -/
def ReconCtx.qIndex (c : ReconCtx) : Res Int :=
  getQIndex c.seg.enabled c.seg.featureEnabled c.seg.featureData c.q.baseQIdx c.deltaQPresent c.currentQIndex 0
    c.segmentId

/-- internal/tilegroup/reconstruct.go:103-111 `getDcQuant`. -/
def getDcQuant (c : ReconCtx) (plane : Nat) : Res Int := do
  let qi ← c.qIndex
  if plane = 0 then dcQ c.bitDepth (qi + c.q.deltaQYDc)
  else if plane = 1 then dcQ c.bitDepth (qi + c.q.deltaQUDc)
  else dcQ c.bitDepth (qi + c.q.deltaQVDc)

/-- internal/tilegroup/reconstruct.go:118-126 `getAcQuant`. -/
def getAcQuant (c : ReconCtx) (plane : Nat) : Res Int := do
  let qi ← c.qIndex
  if plane = 0 then acQ c.bitDepth qi
  else if plane = 1 then acQ c.bitDepth (qi + c.q.deltaQUAc)
  else acQ c.bitDepth (qi + c.q.deltaQVAc)

/-- `Quantizer_Matrix[level][p][k]` (a `[15][2][3344]int` array: indices beyond panic). -/
def qmEntry (level p k : Nat) : Res Int := do
  let n ← gget quantizerMatrix level p
  if k < 3344 then .ok (((n >>> (8 * k)) % 256 : Nat) : Int) else .error .index

/-- internal/tilegroup/reconstruct.go:60-65 the quantizer of coefficient `(i, j)` weighted by the
quantizer matrix (`IDTX = 9`). -/
def weightedQ (c : ReconCtx) (plane txSz i j tw : Nat) (q : Int) : Res Int :=
  if c.q.usingQMatrix && c.planeTxType < 9 then do
    let level ← gget c.segQMLevel plane c.segmentId
    if level < 15 then do
      let off ← goGet qmOffset txSz
      let w ← qmEntry level (if plane > 0 then 1 else 0) (off + i * tw + j)
      .ok (round2 (q * w) 5)
    else .ok q
  else .ok q

/-- internal/tilegroup/reconstruct.go:67-73 scaling of one coefficient, Go's `/` truncating towards
zero. -/
def dequantValue (bitDepth : Nat) (denom coef q2 : Int) : Int :=
  let dq := coef * q2
  let sign : Int := if dq < 0 then -1 else 1
  let dq2 := Int.tdiv (sign * (((absI dq).toNat &&& 0xFFFFFF : Nat) : Int)) denom
  clip3 (-(1 <<< (7 + bitDepth) : Nat)) ((1 <<< (7 + bitDepth) : Nat) - 1) dq2

/-- internal/tilegroup/reconstruct.go:53-58 the quantizer of coefficient `(i, j)`. -/
def pickQuant (c : ReconCtx) (plane i j : Nat) : Res Int :=
  if i = 0 ∧ j = 0 then getDcQuant c plane else getAcQuant c plane

/-- internal/tilegroup/reconstruct.go:52-74 one coefficient. -/
def dequantCell (c : ReconCtx) (plane txSz tw : Nat) (quant : List Int) (i j : Nat) (D : List (List Int)) :
    Res (List (List Int)) := do
  let q ← pickQuant c plane i j
  let q2 ← weightedQ c plane txSz i j tw q
  let coef ← goGet quant ((i * tw + j : Nat) : Int)
  gset D i j (dequantValue c.bitDepth (dqDenom txSz) coef q2)

/-- internal/tilegroup/reconstruct.go:28-76 dequantisation of a block: `t.Dequant` from `t.Quant`. -/
def dequantBlock (c : ReconCtx) (plane txSz : Nat) (quant : List Int) (D : List (List Int)) :
    Res (List (List Int)) := do
  let log2W ← goGet txWidthLog2 txSz
  let log2H ← goGet txHeightLog2 txSz
  let tw := min 32 (1 <<< log2W)
  let th := min 32 (1 <<< log2H)
  forN (fun i => forN (fun j => dequantCell c plane txSz tw quant i j) tw 0) th 0 D

/-- internal/tilegroup/reconstruct.go:36-42 `flipUD`. -/
def flipUD (ty : Nat) : Bool := ty == 4 || ty == 8 || ty == 14 || ty == 6
/-- internal/tilegroup/reconstruct.go:44-50 `flipLR`. -/
def flipLR (ty : Nat) : Bool := ty == 5 || ty == 7 || ty == 15 || ty == 6

/-- internal/tilegroup/reconstruct.go:81-93 one pixel: the residual at `(i, j)` goes to row `y+yy`, column
`x+xx` of the plane `F = state.CurrFrame[plane]`. -/
def addCell (c : ReconCtx) (x y : Int) (h w : Nat) (R : List (List Int)) (i j : Nat) (F : List (List Int)) :
    Res (List (List Int)) := do
  let xx : Int := if flipLR c.planeTxType then (w : Int) - j - 1 else j
  let yy : Int := if flipUD c.planeTxType then (h : Int) - i - 1 else i
  let p ← gget F (y + yy) (x + xx)
  let r ← gget R i j
  gset F (y + yy) (x + xx) (clip1 (p + r) c.bitDepth)

/-- internal/tilegroup/reconstruct.go:79-95 adding the residual to the prediction. -/
def addResidual (c : ReconCtx) (x y : Int) (h w : Nat) (R : List (List Int)) (F : List (List Int)) :
    Res (List (List Int)) :=
  forN (fun i => forN (fun j => addCell c x y h w R i j) w 0) h 0 F

/-- The arrays of a tile group and of the current plane that `reconstruct` works on. -/
structure ReconArrays where
  quant : List Int
  dequant : List (List Int)
  T : List Int
  residual : List (List Int)
  frame : List (List Int)
  deriving DecidableEq

/-- internal/tilegroup/reconstruct.go:11-96 `reconstruct(plane, x, y, txSz)`. -/
def reconstruct (c : ReconCtx) (plane : Nat) (x y : Int) (txSz : Nat) (a : ReconArrays) : Res ReconArrays := do
  let log2W ← goGet txWidthLog2 txSz
  let log2H ← goGet txHeightLog2 txSz
  let D ← dequantBlock c plane txSz a.quant a.dequant
  let (T, R) ← inverseTransform c.lossless c.planeTxType txSz c.bitDepth (fun i j => (D.getD i []).getD j 0) a.T
    a.residual
  let F ← addResidual c x y (1 <<< log2H) (1 <<< log2W) R a.frame
  .ok { a with dequant := D, T := T, residual := R, frame := F }

end Gov1
