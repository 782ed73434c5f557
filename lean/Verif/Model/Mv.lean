import Verif.Model.ModeInfo
/-!
# Motion vectors: reading, prediction modes, precision, global motion

internal/tilegroup/assign_mv.go and the arithmetic parts of find_mv_stack.go.
-/
namespace Gov1

/-- A motion vector: row and column, in units of 1/8 pixel (Go `[2]int`). -/
abbrev MVec := Int × Int

/-- What these functions read of the frame header: `uh.ForceIntegerMv, uh.AllowHighPrecisionMv`. -/
structure MvHdr where
  forceInteger : Bool := false
  highPrecision : Bool := false

/-! ## Reading -/

/-- internal/tilegroup/assign_mv.go:106-111 and 132-136: the quarter of a pixel, 3 if vectors are whole pixels. -/
def mvFr (h : MvHdr) (t : String) (idx : List Int) : Rd Nat := if h.forceInteger then pure 3 else Rd.read t idx
/-- internal/tilegroup/assign_mv.go:113-118 and 138-142: the eighth of a pixel, 1 without high precision. -/
def mvHp (h : MvHdr) (t : String) (idx : List Int) : Rd Nat := if h.highPrecision then Rd.read t idx else pure 1

/-- internal/tilegroup/assign_mv.go:123-126: the loop over the bits of the class; `d |= mvBit << 1`, whatever the bit. -/
def mvBits (ctx comp : Int) : Nat → Nat → Nat → Rd Nat
  | 0, _, d => pure d
  | n + 1, i, d => do
    let b ← Rd.read "MvBit" [ctx, comp, (i : Int)]
    mvBits ctx comp n (i + 1) (d ||| (b <<< 1))

/-- internal/tilegroup/assign_mv.go:102-145: `mag`; `CLASS0_SIZE` is 2. -/
def readMvMag (h : MvHdr) (ctx comp : Int) (cls : Nat) : Rd Nat :=
  if cls = 0 then do
    let b ← Rd.read "MvClass0Bit" [ctx, comp]
    let fr ← mvFr h "MvClass0Fr" [ctx, comp, (b : Int)]
    let hp ← mvHp h "MvClass0Hp" [ctx, comp]
    pure (((b <<< 3) ||| (fr <<< 1) ||| hp) + 1)
  else do
    let d ← mvBits ctx comp cls 0 0
    let fr ← mvFr h "MvFr" [ctx, comp]
    let hp ← mvHp h "MvHp" [ctx, comp]
    pure ((2 <<< (cls + 2)) + (((d <<< 3) ||| (fr <<< 1) ||| hp) + 1))

/-- internal/tilegroup/assign_mv.go:98-152 `readMvComponent`. -/
def readMvComponent (h : MvHdr) (ctx comp : Int) : Rd Int := do
  let sign ← Rd.read "MvSign" [ctx, comp]
  let cls ← Rd.read "MvClass" [ctx, comp]
  let mag ← readMvMag h ctx comp cls
  pure (if sign ≠ 0 then -(mag : Int) else (mag : Int))

/-- internal/tilegroup/assign_mv.go:85-91: one component of `diffMv`, 0 unless coded. -/
def mvDiffPart (on : Bool) (h : MvHdr) (ctx comp : Int) : Rd Int := if on then readMvComponent h ctx comp else pure 0

/-- internal/tilegroup/assign_mv.go:72-95 `readMv`; `MV_JOINT_HNZVZ, MV_JOINT_HZVNZ, MV_JOINT_HNZVNZ` are 1, 2, 3,
`MV_INTRABC_CONTEXT` is 1. -/
def readMv (h : MvHdr) (intrabc : Bool) (pred : MVec) : Rd MVec := do
  let ctx : Int := if intrabc then 1 else 0
  let j ← Rd.read "MvJoint" [ctx]
  let r ← mvDiffPart (j == 2 || j == 3) h ctx 0
  let c ← mvDiffPart (j == 1 || j == 3) h ctx 1
  pure (pred.1 + r, pred.2 + c)

/-! ## Prediction modes -/

/-- internal/tilegroup/assign_mv.go:155-182 `getMode`.  Modes: 14 `NEARESTMV`, 15 `NEARMV`, 16 `GLOBALMV`, 17 `NEWMV`,
18 `NEAREST_NEARESTMV`, 19 `NEAR_NEARMV`, 20 `NEAREST_NEWMV`, 21 `NEW_NEARESTMV`, 22 `NEAR_NEWMV`, 23 `NEW_NEARMV`,
24 `GLOBAL_GLOBALMV`, 25 `NEW_NEWMV`. -/
def getMode (yMode refList : Nat) : Nat :=
  if refList = 0 then
    if yMode < 18 then yMode
    else if yMode = 25 ∨ yMode = 21 ∨ yMode = 23 then 17
    else if yMode = 18 ∨ yMode = 20 then 14
    else if yMode = 19 ∨ yMode = 22 then 15
    else 16
  else
    if yMode = 25 ∨ yMode = 20 ∨ yMode = 22 then 17
    else if yMode = 18 ∨ yMode = 21 then 15
    else if yMode = 19 ∨ yMode = 23 then 15
    else 16

/-- What `assignMv` reads: the mode, the candidates and the position. -/
structure MvIn where
  intrabc : Bool := false
  yMode : Nat := 0
  refMvIdx : Nat := 0
  numMvFound : Nat := 0
  /-- `t.RefStackMv` -/
  stack : List (MVec × MVec) := [((0, 0), (0, 0)), ((0, 0), (0, 0))]
  /-- `t.GlobalMvs` -/
  globals : MVec × MVec := ((0, 0), (0, 0))
  use128 : Bool := false
  miRow : Nat := 0
  /-- `state.MiRowStart` -/
  rowStart : Nat := 0

/-- One of the two vectors of a pair. -/
def nth2 {α : Type} (p : α × α) (i : Nat) : α := if i = 0 then p.1 else p.2

/-- internal/tilegroup/assign_mv.go:29-43: the default vector of intra block copy; line 42 assigns component 0 once more. -/
def intrabcDefault (s : MvIn) : Res MVec := do
  let sb4 ← goGet num4x4High (sbBlockSize s.use128)
  if (s.miRow : Int) - sb4 < s.rowStart then pure (0, -((sb4 : Int) * 4 + 256) * 8) else pure (1, 0)

/-- internal/tilegroup/assign_mv.go:24-44: the prediction of intra block copy. -/
def intrabcPred (s : MvIn) : Res MVec := do
  let a ← goGet s.stack 0
  if a.1 ≠ (0, 0) then pure a.1
  else do
    let b ← goGet s.stack 1
    if b.1 ≠ (0, 0) then pure b.1 else intrabcDefault s

/-- internal/tilegroup/assign_mv.go:49-58: the position on the stack. -/
def mvPos (s : MvIn) (mode : Nat) : Nat :=
  if mode = 17 ∧ s.numMvFound ≤ 1 then 0 else if mode = 14 then 0 else s.refMvIdx

/-- internal/tilegroup/assign_mv.go:23-61: `t.PredMv[i]`. -/
def predMv (s : MvIn) (i mode : Nat) : Res MVec :=
  if s.intrabc then intrabcPred s
  else if mode = 16 then pure (nth2 s.globals i)
  else do
    let e ← goGet s.stack (mvPos s mode : Int)
    pure (nth2 e i)

/-- internal/tilegroup/assign_mv.go:16-21: `compMode`. -/
def mvMode (s : MvIn) (i : Nat) : Nat := if s.intrabc then 17 else getMode s.yMode i

/-- internal/tilegroup/assign_mv.go:15-68: one turn of the loop, `t.Mv[i]`. -/
def assignOne (h : MvHdr) (s : MvIn) (i : Nat) : Rd MVec := do
  let p ← Rd.lift (predMv s i (mvMode s i))
  if mvMode s i = 17 then readMv h s.intrabc p else pure p

/-- The second turn of the loop of line 15. -/
def assignSecond (h : MvHdr) (s : MvIn) (compound : Bool) (old : MVec) : Rd MVec := if compound then assignOne h s 1 else pure old

/-- internal/tilegroup/assign_mv.go:14-69 `assignMv`; returns `t.Mv`, `mv` are the vectors of the block before. -/
def assignMv (h : MvHdr) (s : MvIn) (compound : Bool) (mv : MVec × MVec) : Rd (MVec × MVec) := do
  let a ← assignOne h s 0
  let b ← assignSecond h s compound mv.2
  pure (a, b)

/-! ## Precision, global motion, clamping -/

/-- internal/tilegroup/find_mv_stack.go:494-511: one component.  `candMv[i] & 1` is oddness, also for negative numbers. -/
def lowerComp (h : MvHdr) (v : Int) : Int :=
  if h.forceInteger then
    let aInt : Int := ((v.natAbs + 3) >>> 3 : Nat)
    if v > 0 then aInt * 8 else -(aInt * 8)
  else if v % 2 ≠ 0 then (if v > 0 then v - 1 else v + 1)
  else v

/-- internal/tilegroup/find_mv_stack.go:488-515 `lowerPrecisionProcess`. -/
def lowerPrecision (h : MvHdr) (mv : MVec) : MVec := if h.highPrecision then mv else (lowerComp h mv.1, lowerComp h mv.2)

/-- internal/tilegroup/find_mv_stack.go:186-192: rounding of a component of a warped position. -/
def gmRound (h : MvHdr) (x : Int) : Int := if h.highPrecision then round2Signed x 13 else round2Signed x 14 * 2

/-- internal/tilegroup/find_mv_stack.go:173-193: the vector of a global motion type (0 `IDENTITY`, 1 `TRANSLATION`); `p` are the six
parameters, `x`, `y` the centre of the block. -/
def gmVector (h : MvHdr) (typ : Int) (p : List Int) (x y : Int) : Res MVec :=
  if typ = 0 then pure (0, 0)
  else do
    let p0 ← goGet p 0
    let p1 ← goGet p 1
    if typ = 1 then pure (p0 >>> (13 : Nat), p1 >>> (13 : Nat))
    else do
      let p2 ← goGet p 2
      let p3 ← goGet p 3
      let p4 ← goGet p 4
      let p5 ← goGet p 5
      let xc := (p2 - 65536) * x + p3 * y + p0
      let yc := p4 * x + (p5 - 65536) * y + p1
      pure (gmRound h yc, gmRound h xc)

/-- internal/tilegroup/find_mv_stack.go:159-197 `setupGlobalMvProcess`; `gmType` is `state.GmType`, `gmParams` is `uh.GmParams`, `ref` is
`state.RefFrame[refList]`. -/
def setupGlobalMv (h : MvHdr) (gmType : List Int) (gmParams : List (List Int)) (miRow miCol miSize : Nat) (ref : Int) : Res MVec := do
  let bw ← goGet blockWidth miSize
  let bh ← goGet blockHeight miSize
  if ref = 0 then pure (lowerPrecision h (0, 0))
  else do
    let typ ← goGet gmType ref
    let p ← goGet gmParams ref
    let v ← gmVector h typ p ((miCol : Int) * 4 + ((bw / 2 : Nat) : Int) - 1) ((miRow : Int) * 4 + ((bh / 2 : Nat) : Int) - 1)
    pure (lowerPrecision h v)

/-- internal/tilegroup/find_mv_stack.go:744-749 `clampMvRow` and 752-757 `clampMvCol`: `pos` is the row (column) of the block, `n4` its
height (width), `total` that of the frame, all in units of 4 pixels. -/
def clampMv (total pos n4 : Nat) (border mvec : Int) : Int :=
  clip3 (-((pos : Int) * 4 * 8) - border) (((total : Int) - n4 - pos) * 4 * 8 + border) mvec

end Gov1
