import Verif.Model.Coeffs
import Verif.Model.Grid
import Verif.Model.Partition
import Verif.Model.Rd
/-!
# Reading transform sizes

internal/tilegroup/tx_size.go.
-/
namespace Gov1

/-- internal/tilegroup/tx_size.go:181-188 `Max_Tx_Size_Rect`. -/
def maxTxSizeRect : List Nat := [0, 5, 6, 1, 7, 8, 2, 9, 10, 3, 11, 12, 4, 4, 4, 4, 13, 14, 15, 16, 17, 18]
/-- internal/tilegroup/tx_size.go:190-197 `Max_Tx_Depth`. -/
def maxTxDepth : List Nat := [0, 1, 1, 1, 2, 2, 2, 3, 3, 3, 4, 4, 4, 4, 4, 4, 2, 2, 3, 3, 4, 4]
/-- internal/tilegroup/tx_size.go:199-219 `Split_Tx_Size`. -/
def splitTxSize : List Nat := [0, 0, 1, 2, 3, 0, 0, 1, 1, 2, 2, 3, 3, 5, 6, 7, 8, 9, 10]

/-- What the functions of this file read of the block, the frame and the tile. -/
structure TxCtx where
  miRow : Nat := 0
  miCol : Nat := 0
  miSize : Nat := 0
  miRows : Nat := 0
  miCols : Nat := 0
  availU : Bool := false
  availL : Bool := false
  /-- `t.IsInter, t.Skip, t.Lossless` -/
  isInter : Bool := false
  skip : Bool := false
  lossless : Bool := false
  /-- `uh.TxMode == TX_MODE_SELECT` -/
  txSelect : Bool := true
  /-- `t.IsInters, t.Skips, state.MiSizes` -/
  isInters : List (List Int) := []
  skips : List (List Int) := []
  miSizes : List (List Nat) := []

/-- Go `util.Bool(t.Skips[r][c]) && util.Bool(t.IsInters[r][c])`. -/
def skippedInter (cx : TxCtx) (r c : Int) : Res Bool := do
  let s ← gget cx.skips r c
  if s ≠ 0 then do
    let i ← gget cx.isInters r c
    pure (i != 0)
  else pure false

/-- Go `Tx_Width[t.InterTxSizes[r][c]]`. -/
def interTxWidth (interTx : List (List Nat)) (r c : Int) : Res Nat := do
  let s ← gget interTx r c
  goGet txWidth s

/-- Go `Tx_Height[t.InterTxSizes[r][c]]`. -/
def interTxHeight (interTx : List (List Nat)) (r c : Int) : Res Nat := do
  let s ← gget interTx r c
  goGet txHeight s

/-- Go `shared.BLOCK_WIDTH[state.MiSizes[r][c]]`. -/
def nbBlockWidth (cx : TxCtx) (r c : Int) : Res Nat := do
  let s ← gget cx.miSizes r c
  goGet blockWidth s

/-- Go `shared.BLOCK_HEIGHT[state.MiSizes[r][c]]`. -/
def nbBlockHeight (cx : TxCtx) (r c : Int) : Res Nat := do
  let s ← gget cx.miSizes r c
  goGet blockHeight s

/-- internal/tilegroup/tx_size.go:98-107 `getAboveTxWidth`. -/
def aboveTxWidth (cx : TxCtx) (interTx : List (List Nat)) (row col : Nat) : Res Nat :=
  if row = cx.miRow then
    if !cx.availU then pure 64
    else do
      let b ← skippedInter cx ((row : Int) - 1) col
      if b then nbBlockWidth cx ((row : Int) - 1) col else interTxWidth interTx ((row : Int) - 1) col
  else interTxWidth interTx ((row : Int) - 1) col

/-- internal/tilegroup/tx_size.go:109-118 `getLeftTxHeight`: compares `row` with `MiCol`. -/
def leftTxHeight (cx : TxCtx) (interTx : List (List Nat)) (row col : Nat) : Res Nat :=
  if row = cx.miCol then
    if !cx.availL then pure 64
    else do
      let b ← skippedInter cx row ((col : Int) - 1)
      if b then nbBlockHeight cx row ((col : Int) - 1) else interTxHeight interTx row ((col : Int) - 1)
  else interTxHeight interTx row ((col : Int) - 1)

/-- internal/tilegroup/tx_size.go:65-72: `aboveW`. -/
def depthAbove (cx : TxCtx) (interTx : List (List Nat)) : Res Nat :=
  if cx.availU then do
    let i ← gget cx.isInters ((cx.miRow : Int) - 1) cx.miCol
    if i ≠ 0 then nbBlockWidth cx ((cx.miRow : Int) - 1) cx.miCol else aboveTxWidth cx interTx cx.miRow cx.miCol
  else pure 0

/-- internal/tilegroup/tx_size.go:77-81: the branches of `leftH` other than the first; they test `AvailU`. -/
def depthLeftTx (cx : TxCtx) (interTx : List (List Nat)) : Res Nat :=
  if cx.availU then leftTxHeight cx interTx cx.miRow cx.miCol else pure 0

/-- internal/tilegroup/tx_size.go:74-81: `leftH`. -/
def depthLeft (cx : TxCtx) (interTx : List (List Nat)) : Res Nat :=
  if cx.availL then do
    let i ← gget cx.isInters cx.miRow ((cx.miCol : Int) - 1)
    if i ≠ 0 then nbBlockHeight cx cx.miRow ((cx.miCol : Int) - 1) else depthLeftTx cx interTx
  else depthLeftTx cx interTx

/-- internal/tilegroup/tx_size.go:85-95: the CDF array for a maximum depth. -/
def depthTable (maxDepth : Nat) : String :=
  if maxDepth = 4 then "Tx64x64" else if maxDepth = 3 then "Tx32x32" else if maxDepth = 2 then "Tx16x16" else "Tx8x8"

/-- internal/tilegroup/tx_size.go:83: the context. -/
def depthCtx (cx : TxCtx) (interTx : List (List Nat)) (maxTx : Nat) : Res Nat := do
  let mw ← goGet txWidth maxTx
  let mh ← goGet txHeight maxTx
  let aboveW ← depthAbove cx interTx
  let leftH ← depthLeft cx interTx
  pure ((if aboveW ≥ mw then 1 else 0) + (if leftH ≥ mh then 1 else 0))

/-- internal/tilegroup/tx_size.go:61-96 `txDepthSymbol`. -/
def txDepthSymbol (cx : TxCtx) (interTx : List (List Nat)) (maxTx maxDepth : Nat) : Rd Nat := do
  let ctx ← Rd.lift (depthCtx cx interTx maxTx)
  Rd.read (depthTable maxDepth) [(ctx : Int)]

/-- internal/tilegroup/tx_size.go:55-57: `n` times `t.TxSize = Split_Tx_Size[t.TxSize]`. -/
def splitTimes : Nat → Nat → Res Nat
  | 0, t => pure t
  | n + 1, t => do
    let t ← goGet splitTxSize t
    splitTimes n t

/-- internal/tilegroup/tx_size.go:43-59 `readTxSize`; returns `t.TxSize`. -/
def readTxSize (cx : TxCtx) (interTx : List (List Nat)) (allowSelect : Bool) : Rd Nat :=
  if cx.lossless then Rd.ret 0
  else do
    let maxTx ← Rd.lift (goGet maxTxSizeRect cx.miSize)
    let maxDepth ← Rd.lift (goGet maxTxDepth cx.miSize)
    if cx.miSize > 0 ∧ allowSelect ∧ cx.txSelect then do
      let d ← txDepthSymbol cx interTx maxTx maxDepth
      Rd.lift (splitTimes d maxTx)
    else Rd.ret maxTx

/-- Loops like internal/tilegroup/tx_size.go:33-37 and decode_block.go:82-108: `m[r+y][c+x] = v` for all units of a block. -/
def fillBlock {α : Type} (r c h w : Nat) (v : α) (m : List (List α)) : Res (List (List α)) :=
  forN (fun y g => forN (fun x g => gset g ((r + y : Nat) : Int) ((c + x : Nat) : Int) v) w 0 g) h 0 m

/-- internal/tilegroup/tx_size.go:121-163 `readVarTxSize` called with depth 0 and a size other than 4x4: nothing outside the
frame, else `b.S()`, which panics (internal/bitstream/bitstream.go:133-136), so that the rest is never reached. -/
def readVarTxSize (cx : TxCtx) (row col : Nat) : Rd Unit :=
  if row ≥ cx.miRows ∨ col ≥ cx.miCols then Rd.ret () else .fail (.explicit "not implemented: S()")

/-- internal/tilegroup/tx_size.go:26-30: the calls for an inter block. -/
def readVarTxSizes (cx : TxCtx) (h4 w4 stepH stepW : Nat) : Rd Unit :=
  (List.range ((h4 + stepH - 1) / stepH)).foldlM (fun _ i =>
    (List.range ((w4 + stepW - 1) / stepW)).foldlM (fun _ j => readVarTxSize cx (cx.miRow + i * stepH) (cx.miCol + j * stepW)) ()) ()

/-- internal/tilegroup/tx_size.go:13-40 `readBlockTxSize`: `t.TxSize` and `t.InterTxSizes` (`old` is `t.TxSize` before). -/
def readBlockTxSize (cx : TxCtx) (old : Nat) (interTx : List (List Nat)) : Rd (Nat × List (List Nat)) := do
  let w4 ← Rd.lift (goGet num4x4Wide cx.miSize)
  let h4 ← Rd.lift (goGet num4x4High cx.miSize)
  if cx.txSelect ∧ cx.miSize > 0 ∧ cx.isInter ∧ !cx.skip ∧ !cx.lossless then do
    let maxTx ← Rd.lift (goGet maxTxSizeRect cx.miSize)
    let tw ← Rd.lift (goGet txWidth maxTx)
    let th ← Rd.lift (goGet txHeight maxTx)
    readVarTxSizes cx h4 w4 (th / 4) (tw / 4)
    Rd.ret (old, interTx)
  else do
    let t ← readTxSize cx interTx (!cx.skip || cx.isInter)
    let g ← Rd.lift (fillBlock cx.miRow cx.miCol h4 w4 t interTx)
    Rd.ret (t, g)

end Gov1
