import Verif.Model.Wrapup
import Verif.Model.Rd
/-!
# Loop restoration

internal/tilegroup/loop_restoration.go and read_loop_restoration.go.  The arrays `LrType, LrSgrSet [3][1][1]int` and
`LrSgrXqd [3][1][1][2]int` hold one unit per plane; `LrWiener` is a slice that nothing makes, so it is empty.
-/
namespace Gov1

/-- internal/tilegroup/read_loop_restoration.go:178-183 `SGR_PARAMS`. -/
def sgrParams : List (List Int) :=
  [[2, 12, 1, 4], [2, 15, 1, 6], [2, 18, 1, 8], [2, 21, 1, 9], [2, 24, 1, 10], [2, 29, 1, 11], [2, 36, 1, 12], [2, 45, 1, 13],
   [2, 56, 1, 14], [2, 68, 1, 15], [0, 0, 1, 5], [0, 0, 1, 8], [0, 0, 1, 11], [0, 0, 1, 14], [2, 30, 0, 0], [2, 75, 0, 0]]

/-- internal/util/util.go:210-212 `CountUnitsInFrame`; the division panics for unit size 0. -/
def countUnits (unitSize frameSize : Nat) : Res Nat :=
  if unitSize = 0 then .error .div else .ok (max ((frameSize + unitSize >>> 1) / unitSize) 1)

/-! ## Applying the filters -/

/-- What the filters read. -/
structure LrCtx extends WrapCtx where
  usesLr : Bool := false
  /-- `uh.FrameRestorationType, state.LoopRestorationSize` -/
  frameType : List Int := []
  unitSize : List Nat := []
  /-- `t.LrType, t.LrSgrSet` -/
  lrType : List (List (List Int)) := zeroPlanes 3 1 1
  sgrSet : List (List (List Int)) := zeroPlanes 3 1 1
  /-- `t.LrSgrXqd[plane][0][0]` (a unit other than 0 panics before it is used) -/
  xqd : List (List Int) := List.replicate 3 [0, 0]
  /-- `state.UpscaledCdefFrame, state.UpscaledCurrFrame` -/
  cdef : Planes := zeroPlanes 3 9 9
  cur : Planes := zeroPlanes 3 9 9

/-- The geometry of a block: internal/tilegroup/loop_restoration.go:33-62. -/
structure LrBlock where
  stripeStart : Int
  stripeEnd : Int
  endX : Int
  endY : Int
  x : Nat
  y : Nat
  w : Int
  h : Int
deriving DecidableEq

/-- internal/tilegroup/loop_restoration.go:34-47 and 56-62: stripe and extent of the block at `row`, `col`. -/
def lrBlock (c : WrapCtx) (plane row col : Nat) : LrBlock :=
  let subX := if plane = 0 then 0 else c.subX
  let subY := if plane = 0 then 0 else c.subY
  let stripeNum := (row * 4 + 8) / 64
  let start : Int := (-8 + (stripeNum : Int) * 64) >>> subY
  let endX : Int := (planeDim c.upscaledWidth subX : Int) - 1
  let endY : Int := (planeDim c.frameHeight subY : Int) - 1
  let x := (col * 4) >>> subX
  let y := (row * 4) >>> subY
  { stripeStart := start, stripeEnd := start + ((64 >>> subY : Nat) : Int) - 1, endX := endX, endY := endY, x := x, y := y
    w := min ((4 >>> subX : Nat) : Int) (endX - x + 1), h := min ((4 >>> subY : Nat) : Int) (endY - y + 1) }

/-- internal/tilegroup/loop_restoration.go:49-54: the restoration unit of the block. -/
def lrUnit (c : WrapCtx) (unitSize plane row col : Nat) : Res (Nat × Nat) := do
  let subX := if plane = 0 then 0 else c.subX
  let subY := if plane = 0 then 0 else c.subY
  let rows ← countUnits unitSize (planeDim c.frameHeight subY)
  let cols ← countUnits unitSize (planeDim c.upscaledWidth subX)
  pure (min (rows - 1) (((row * 4 + 8) >>> subY) / unitSize), min (cols - 1) (((col * 4 + 8) >>> subX) / unitSize))

/-- internal/tilegroup/loop_restoration.go:274-288 `getSourceSample`. -/
def sourceSample (c : LrCtx) (b : LrBlock) (plane : Nat) (x y : Int) : Res Int := do
  let x := max 0 (min b.endX x)
  let y := max 0 (min b.endY y)
  let cur ← goGet c.cur plane
  let cdef ← goGet c.cdef plane
  if y < b.stripeStart then gget cur (max (b.stripeStart - 2) y) x
  else if y > b.stripeEnd then gget cur (min (b.stripeEnd + 2) y) x
  else gget cdef y x

/-- internal/tilegroup/loop_restoration.go:123-131: sums of squares and of samples over a window. -/
def boxSums (c : LrCtx) (b : LrBlock) (plane r : Nat) (x y : Int) : Res (Int × Int) :=
  forN (fun dy s => forN (fun dx (s : Int × Int) => do
    let v ← sourceSample c b plane (x + dx - r) (y + dy - r)
    pure (s.1 + v * v, s.2 + v)) (2 * r + 1) 0 s) (2 * r + 1) 0 (0, 0)

/-- internal/tilegroup/loop_restoration.go:132-145: the two coefficients of a window from its sums (`bitDepth ≥ 8`). -/
def boxCoeffs (bitDepth : Nat) (n s : Int) (sums : Int × Int) : Int × Int :=
  let a := round2 sums.1 (2 * (bitDepth - 8))
  let d := round2 sums.2 (bitDepth - 8)
  let p := max 0 (a * n - d * d)
  let z := round2 (p * s) 20
  let a2 := if z ≥ 255 then 256 else if z = 0 then 1 else (z * 256 + z.tdiv 2).tdiv (z + 1)
  let oneOverN := (4096 + n.tdiv 2).tdiv n
  (a2, round2 ((256 - a2) * sums.2 * oneOverN) 12)

/-- internal/tilegroup/loop_restoration.go:147-162 and 195-210: index -1 is kept in the last entry of the array. -/
def wrapIdx (i : Int) : Int := if i = -1 then 2 else i

/-- internal/tilegroup/loop_restoration.go:120-163: the coefficients of all windows of a block, in two `[3][3]` arrays. -/
def boxTables (c : LrCtx) (b : LrBlock) (plane r : Nat) (n s : Int) : Res (List (List (Int × Int))) :=
  forN (fun i T => forN (fun j T => do
    let sums ← boxSums c b plane r ((b.x : Int) + j - 1) ((b.y : Int) + i - 1)
    gset T (wrapIdx ((i : Int) - 1)) (wrapIdx ((j : Int) - 1)) (boxCoeffs c.bitDepth n s sums)) (b.w + 2).toNat 0 T) (b.h + 2).toNat 0
    (List.replicate 3 (List.replicate 3 (0, 0)))

/-- internal/tilegroup/loop_restoration.go:176-193: the weight of a neighbour. -/
def boxWeight (pass : Bool) (i dy dx : Int) : Int :=
  if !pass then if (i + dy) % 2 = 1 then (if dx = 0 then 6 else 5) else 0
  else if dx = 0 ∨ dy = 0 then 4 else 3

/-- internal/tilegroup/loop_restoration.go:165-217: the filtered block, a `[1][1]` array. -/
def boxOutput (c : LrCtx) (b : LrBlock) (plane : Nat) (pass : Bool) (T : List (List (Int × Int))) : Res (List (List Int)) :=
  forN (fun i F => forN (fun j F => do
    let ab ← forN (fun dy ab => forN (fun dx (ab : Int × Int) => do
      let w := boxWeight pass i ((dy : Int) - 1) ((dx : Int) - 1)
      let t ← gget T (wrapIdx ((i : Int) + dy - 1)) (wrapIdx ((j : Int) + dx - 1))
      pure (ab.1 + w * t.1, ab.2 + w * t.2)) 3 0 ab) 3 0 ((0, 0) : Int × Int)
    let pl ← goGet c.cdef plane
    let px ← gget pl ((b.y + i : Nat) : Int) ((b.x + j : Nat) : Int)
    let shift := if !pass && i % 2 = 1 then 4 else 5
    gset F (i : Int) (j : Int) (round2 (ab.1 * px + ab.2) (8 + shift - 4))) b.w.toNat 0 F) b.h.toNat 0 [[0]]

/-- internal/tilegroup/loop_restoration.go:107-218 `boxFilter`. -/
def boxFilter (c : LrCtx) (b : LrBlock) (plane : Nat) (set : Int) (pass : Bool) : Res (List (List Int)) := do
  let r ← gget sgrParams set (if pass then 2 else 0)
  if r = 0 then pure [[0]] else do
    let eps ← gget sgrParams set (if pass then 3 else 1)
    let n := (2 * r + 1) * (2 * r + 1)
    let n2e := n * n * eps
    let s := (2 ^ 20 + n2e.tdiv 2).tdiv n2e
    let T ← boxTables c b plane r.toNat n s
    boxOutput c b plane pass T

/-- internal/tilegroup/loop_restoration.go:74-104 `selfGuidedFilter`. -/
def selfGuided (c : LrCtx) (b : LrBlock) (plane : Nat) (unit : Nat × Nat) (out : Planes) : Res Planes := do
  let sets ← goGet c.sgrSet plane
  let set ← gget sets unit.1 unit.2
  let flt0 ← boxFilter c b plane set false
  let flt1 ← boxFilter c b plane set true
  let w0 ← gget c.xqd plane 0
  let w1 ← gget c.xqd plane 1
  let r0 ← gget sgrParams set 0
  let r1 ← gget sgrParams set 2
  forN (fun i out => forN (fun j out => do
    let pl ← goGet c.cdef plane
    let px ← gget pl ((b.y + i : Nat) : Int) ((b.x + j : Nat) : Int)
    let u := px * 16
    let f0 ← if r0 ≠ 0 then gget flt0 (i : Int) (j : Int) else pure u
    let f1 ← if r1 ≠ 0 then gget flt1 (i : Int) (j : Int) else pure u
    let v := w1 * u + w0 * f0 + (128 - w0 - w1) * f1
    let op ← goGet out plane
    let op ← gset op ((b.y + i : Nat) : Int) ((b.x + j : Nat) : Int) (clip1 (round2 v 11) c.bitDepth)
    goSet out plane op) b.w.toNat 0 out) b.h.toNat 0 out

/-- internal/tilegroup/loop_restoration.go:260-271 `wienerCoefficient`: `filter[6-1]`, not `filter[6-i]`. -/
def wienerTaps (coeff : List Int) : Res (List Int) :=
  forN (fun i (f : List Int) => do
    let c ← goGet coeff i
    let f ← goSet f i c
    let f ← goSet f 5 c
    let m ← goGet f 3
    goSet f 3 (m - 2 * c)) 3 0 [0, 0, 0, 128, 0, 0, 0]

/-- internal/tilegroup/loop_restoration.go:227-258 `wienerFilter`: `tg.LrWiener[plane]` is read first; `LrWiener` is empty. -/
def wienerFilter (lrWiener : List Unit) (plane : Nat) (out : Planes) : Res Planes := do
  let _ ← goGet lrWiener plane
  pure out

/-- internal/tilegroup/loop_restoration.go:33-71 `loopRestoreBlock`. -/
def lrBlockFilter (c : LrCtx) (plane row col : Nat) (out : Planes) : Res Planes := do
  let us ← goGet c.unitSize plane
  let unit ← lrUnit c.toWrapCtx us plane row col
  let types ← goGet c.lrType plane
  let t ← gget types unit.1 unit.2
  if t = 1 then wienerFilter [] plane out
  else if t = 2 then selfGuided c (lrBlock c.toWrapCtx plane row col) plane unit out
  else pure out

/-- internal/tilegroup/loop_restoration.go:12-30 `loopRestoration`: `y` and `x` advance in steps of 4. -/
def loopRestoration (c : LrCtx) : Res Planes :=
  if !c.usesLr then pure c.cdef
  else forN (fun row out => forN (fun col out => forN (fun plane out => do
      let ft ← goGet c.frameType plane
      if ft ≠ 0 then lrBlockFilter c plane row col out else pure out) c.numPlanes 0 out) ((c.upscaledWidth + 3) / 4) 0 out)
    ((c.frameHeight + 3) / 4) 0 c.cdef

/-! ## Reading the parameters -/

/-- internal/tilegroup/read_loop_restoration.go:25-52: the units whose parameters are read with the superblock of `size`
(rows, columns) 4x4 units at `(r, c)`: first row, end of rows, first column, end of columns.  The subsampling is used for
all planes.  `denom` is `SuperResDenom` when super resolution is used. -/
def lrUnitRange (c : WrapCtx) (denom : Option Nat) (unitSize r col : Nat) (size : Nat × Nat) : Res ((Nat × Nat) × (Nat × Nat)) := do
  let rows ← countUnits unitSize (planeDim c.frameHeight c.subY)
  let cols ← countUnits unitSize (planeDim c.upscaledWidth c.subX)
  let num := match denom with
    | some d => (4 >>> c.subX) * d
    | none => 4 >>> c.subX
  let den := match denom with
    | some _ => unitSize * 8
    | none => unitSize
  pure (((r * (4 >>> c.subY) + unitSize - 1) / unitSize, min rows (((r + size.1) * (4 >>> c.subY) + unitSize - 1) / unitSize)),
        ((col * num + den - 1) / den, min cols (((col + size.2) * num + den - 1) / den)))

/-- internal/tilegroup/read_loop_restoration.go:143-168 `decodeSubexpBool`, without the case `numSyms <= 3 * a - mk` for
`i > 0` (the difference only shrinks, so it holds at the first turn or never).  `b2` is `k` for every `i`: the formula
`k + i - 1` is used for `i = 1` only.  The loop reads flags until one is 0; fuel bounds it. -/
def subexpBoolLoop (k : Nat) : Nat → Nat → Rd Int
  | 0, _ => .fail .hang
  | fuel + 1, mk => do
    let more ← Rd.lit 1
    if more ≠ 0 then subexpBoolLoop k fuel (mk + 2 ^ k)
    else do
      let v ← Rd.lit k
      Rd.ret ((v : Int) + mk)

/-- internal/tilegroup/read_loop_restoration.go:143-168 `decodeSubexpBool(numSyms, k)`. -/
def decodeSubexpBool (fuel : Nat) (numSyms : Int) (k : Nat) : Rd Int :=
  if numSyms ≤ 3 * 2 ^ k then do
    let v ← Rd.lit 1
    Rd.ret (v : Int)
  else subexpBoolLoop k fuel 0

/-- internal/tilegroup/read_loop_restoration.go:134-141 `decodeUnsignedSubexpWithRefBool`. -/
def decodeUnsignedBool (fuel : Nat) (mx : Int) (k : Nat) (r : Int) : Rd Int := do
  let v ← decodeSubexpBool fuel mx k
  if r * 2 ≤ mx then Rd.ret (inverseRecenter r v) else Rd.ret (mx - 1 - inverseRecenter (mx - 1 - r) v)

/-- internal/tilegroup/read_loop_restoration.go:128-132 `decodeSignedSubexpWithRefBool`. -/
def decodeSignedBool (fuel : Nat) (low high : Int) (k : Nat) (r : Int) : Rd Int := do
  let x ← decodeUnsignedBool fuel (high - low) k (r - low)
  Rd.ret (x + low)

/-- The parameters of one unit per plane. -/
structure LrUnitParams where
  lrType : List (List (List Int)) := zeroPlanes 3 1 1
  sgrSet : List (List (List Int)) := zeroPlanes 3 1 1
  /-- `LrSgrXqd[plane][0][0]` -/
  xqd : List (List Int) := List.replicate 3 [0, 0]
  /-- `RefSgrXqd` -/
  refXqd : List (List Int) := List.replicate 3 [-32, 31]

/-- internal/tilegroup/read_loop_restoration.go:171-172 `Sgrproj_Xqd_Min`, `Sgrproj_Xqd_Max`. -/
def xqdMin (i : Nat) : Int := if i = 0 then -96 else -32
def xqdMax (i : Nat) : Int := if i = 0 then 31 else 95

/-- internal/tilegroup/read_loop_restoration.go:111-119: one of the two weights. -/
def readXqdValue (fuel : Nat) (i : Nat) (radius : Int) (ref ref0 : Int) : Rd Int :=
  if radius ≠ 0 then decodeSignedBool fuel (xqdMin i) (xqdMax i + 1) 4 ref
  else Rd.ret (if i = 1 then clip3 (xqdMin i) (xqdMax i) (128 - ref0) else 0)

/-- internal/tilegroup/read_loop_restoration.go:107-122: weight `i`. -/
def readXqd (fuel plane : Nat) (set : Int) (i : Nat) (p : LrUnitParams) : Rd LrUnitParams := do
  let radius ← Rd.lift (gget sgrParams set ((i : Int) * 2))
  let ref ← Rd.lift (gget p.refXqd plane i)
  let ref0 ← Rd.lift (gget p.refXqd plane 0)
  let v ← readXqdValue fuel i radius ref ref0
  let xqd ← Rd.lift (gset p.xqd plane i v)
  let refXqd ← Rd.lift (gset p.refXqd plane i v)
  Rd.ret { p with xqd := xqd, refXqd := refXqd }

/-- internal/tilegroup/read_loop_restoration.go:103-123: the self guided parameters. -/
def readSgr (fuel plane row col : Nat) (p : LrUnitParams) : Rd LrUnitParams := do
  let set ← Rd.lit 4
  let l ← Rd.lift (goGet p.sgrSet plane)
  let l ← Rd.lift (gset l row col (set : Int))
  let sets ← Rd.lift (goSet p.sgrSet plane l)
  let p ← readXqd fuel plane set 0 { p with sgrSet := sets }
  readXqd fuel plane set 1 p

/-- internal/tilegroup/read_loop_restoration.go:65-80: the type of a unit; `b.S()` panics (internal/bitstream/bitstream.go:133-136). -/
def readLrType (frameType : Int) : Rd Nat :=
  if frameType = 1 ∨ frameType = 2 then .fail (.explicit "not implemented: S()")
  else Rd.read "RestorationType" []

/-- internal/tilegroup/read_loop_restoration.go:64-126 `readLrUnit`; a unit with the Wiener filter panics at `t.LrWiener[plane]`
(an empty slice). -/
def readLrUnit (fuel : Nat) (frameType : Int) (plane row col : Nat) (p : LrUnitParams) : Rd LrUnitParams := do
  let t ← readLrType frameType
  let l ← Rd.lift (goGet p.lrType plane)
  let l ← Rd.lift (gset l row col (t : Int))
  let types ← Rd.lift (goSet p.lrType plane l)
  if t = 1 then .fail .index
  else if t = 2 then readSgr fuel plane row col { p with lrType := types }
  else Rd.ret { p with lrType := types }

end Gov1
