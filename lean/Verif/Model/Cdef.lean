import Verif.Model.Grid
import Verif.Model.Util
import Verif.Model.BitStream
import Verif.Model.Rd
import Verif.Model.Partition
/-!
# Model of the constrained directional enhancement filter

internal/tilegroup/cdef.go, internal/cdef/cdef.go and `readCdef` of internal/tilegroup/intra_frame_mode_info.go.

A picture is a list of planes, a plane a two-dimensional array.  `t.CdefAvailable`, which `cdefGetAt` sets on every
call and only its caller reads, is part of the result of `cdefGetAt` here (`none` is unavailable).  `BitDepth` is at
least 8 (sequence_header.go only assigns 8, 10, 12), so the shifts by `BitDepth - 8` are by natural numbers.
-/
namespace Gov1

/-- What the filter reads: `state.MiRows`, `state.MiCols`, `sh.ColorConfig` (`SubsamplingX/Y` as 0 or 1), the CDEF
parameters of the frame header, `t.Skips`, `state.Cdef.CdefIdx` and `state.CurrFrame`. -/
structure CdefCtx where
  miRows : Nat := 0
  miCols : Nat := 0
  numPlanes : Nat := 3
  subX : Nat := 0
  subY : Nat := 0
  bitDepth : Nat := 8
  yPri : List Int := []
  ySec : List Int := []
  uvPri : List Int := []
  uvSec : List Int := []
  damping : Int := 3
  skips : List (List Nat) := []
  cdefIdx : List (List Int) := []
  cur : List (List (List Int)) := []

/-- internal/tilegroup/cdef.go:107-112. -/
def cdefUvDir : List (List (List Nat)) :=
  [[[0, 1, 2, 3, 4, 5, 6, 7], [1, 2, 2, 2, 3, 4, 6, 0]], [[7, 0, 2, 4, 5, 6, 6, 6], [0, 1, 2, 3, 4, 5, 6, 7]]]

/-- internal/tilegroup/cdef.go:180-182. -/
def divTable : List Int := [0, 840, 420, 280, 210, 168, 140, 120, 105]

/-- internal/tilegroup/cdef.go:248-257. -/
def cdefDirections : List (List (List Int)) :=
  [[[-1, 1], [-2, 2]], [[0, 1], [-1, 2]], [[0, 1], [0, 2]], [[0, 1], [1, 2]],
   [[1, 1], [2, 2]], [[1, 0], [2, 1]], [[1, 0], [2, 0]], [[1, 0], [2, -1]]]

/-- internal/tilegroup/cdef.go:271-273. -/
def cdefPriTaps : List (List Int) := [[4, 2], [3, 3]]

/-- internal/tilegroup/cdef.go:274-276. -/
def cdefSecTaps : List (List Int) := [[2, 1], [2, 1]]

/-! ## Direction search -/

/-- Go `m[i][j] += x`. -/
def gadd (m : List (List Int)) (i j x : Int) : Res (List (List Int)) := do
  let v ← gget m i j
  gset m i j (v + x)

/-- internal/tilegroup/cdef.go:133-141: the pixel `x` in row `i`, column `j` of the block is added to the eight
line sums. -/
def cdefAddPixel (x : Int) (i j : Nat) (p : List (List Int)) : Res (List (List Int)) := do
  let p ← gadd p 0 ((i + j : Nat) : Int) x
  let p ← gadd p 1 ((i + j / 2 : Nat) : Int) x
  let p ← gadd p 2 (i : Int) x
  let p ← gadd p 3 (3 + (i : Int) - ((j / 2 : Nat) : Int)) x
  let p ← gadd p 4 (7 + (i : Int) - (j : Int)) x
  let p ← gadd p 5 (3 - ((i / 2 : Nat) : Int) + (j : Int)) x
  let p ← gadd p 6 (j : Int) x
  gadd p 7 ((i / 2 + j : Nat) : Int) x

/-- internal/tilegroup/cdef.go:117-144: the line sums `partial`; `F` is `state.CurrFrame[0]`, `x0`, `y0` the corner of
the block. -/
def cdefPartial (b : Nat) (F : List (List Int)) (x0 y0 : Nat) : Res (List (List Int)) :=
  forN (fun i p => forN (fun j p => do
    let v ← gget F ((y0 + i : Nat) : Int) ((x0 + j : Nat) : Int)
    cdefAddPixel ((v >>> (b - 8)) - 128) i j p) 8 0 p) 8 0 (List.replicate 8 (List.replicate 15 0))

/-- internal/tilegroup/cdef.go:145-150: `cost[2]` and `cost[6]` (the statements of one loop, by direction). -/
def cdefCostHV (p : List (List Int)) (d : Nat) : Res Int := do
  let s ← forN (fun i s => do
    let a ← gget p (d : Int) (i : Int)
    pure (s + a * a)) 8 0 0
  let w ← goGet divTable 8
  pure (s * w)

/-- internal/tilegroup/cdef.go:151-160: `cost[0]` and `cost[4]`. -/
def cdefCostDiag (p : List (List Int)) (d : Nat) : Res Int := do
  let s ← forN (fun i s => do
    let a ← gget p (d : Int) (i : Int)
    let z ← gget p (d : Int) (14 - (i : Int))
    let w ← goGet divTable ((i + 1 : Nat) : Int)
    pure (s + (a * a + z * z) * w)) 7 0 0
  let m ← gget p (d : Int) 7
  let w ← goGet divTable 8
  pure (s + m * m * w)

/-- internal/tilegroup/cdef.go:161-171: `cost[1]`, `cost[3]`, `cost[5]` and `cost[7]`. -/
def cdefCostOdd (p : List (List Int)) (d : Nat) : Res Int := do
  let s ← forN (fun j s => do
    let a ← gget p (d : Int) ((3 + j : Nat) : Int)
    pure (s + a * a)) 5 0 0
  let w ← goGet divTable 8
  forN (fun j s => do
    let a ← gget p (d : Int) (j : Int)
    let z ← gget p (d : Int) (10 - (j : Int))
    let w ← goGet divTable ((2 * j + 2 : Nat) : Int)
    pure (s + (a * a + z * z) * w)) 3 0 (s * w)

/-- internal/tilegroup/cdef.go:145-171: the array `cost`. -/
def cdefCosts (p : List (List Int)) : Res (List Int) := do
  let c0 ← cdefCostDiag p 0
  let c1 ← cdefCostOdd p 1
  let c2 ← cdefCostHV p 2
  let c3 ← cdefCostOdd p 3
  let c4 ← cdefCostDiag p 4
  let c5 ← cdefCostOdd p 5
  let c6 ← cdefCostHV p 6
  let c7 ← cdefCostOdd p 7
  pure [c0, c1, c2, c3, c4, c5, c6, c7]

/-- internal/tilegroup/cdef.go:172-177: `(bestCost, yDir)`. -/
def cdefBest (cost : List Int) : Res (Int × Nat) :=
  forN (fun i s => do
    let v ← goGet cost (i : Int)
    pure (if v > s.1 then (v, i) else s)) 8 0 (0, 0)

/-- internal/tilegroup/cdef.go:115-178 `cdefDirection`: `(yDir, var)`. -/
def cdefDirection (b : Nat) (F : List (List Int)) (r c : Nat) : Res (Nat × Int) := do
  let p ← cdefPartial b F (c * 4) (r * 4)
  let cost ← cdefCosts p
  let s ← cdefBest cost
  let o ← goGet cost (((s.2 + 4) % 8 : Nat) : Int)
  pure (s.2, (s.1 - o) >>> (10 : Nat))

/-! ## The filter -/

/-- internal/tilegroup/cdef.go:259-269 `constrain`. -/
def constrain (diff threshold damping : Int) : Res Int :=
  if threshold = 0 then pure 0
  else do
    let l ← floorLog2Int threshold
    let adj := maxI 0 (damping - l)
    let sign : Int := if diff < 0 then -1 else 1
    pure (sign * clip3 0 (absI diff) (threshold - (absI diff >>> adj.toNat)))

/-- internal/tilegroup/util.go:31-40 `isInsideFilterRegion`. -/
def isInsideFilterRegion (c : CdefCtx) (candR candC : Int) : Bool :=
  decide (candC ≥ 0) && decide (candC < c.miCols) && decide (candR ≥ 0) && decide (candR < c.miRows)

/-- Go `CDEF_DIRECTIONS[dir][k][a]`. -/
def cdefDirGet (dir : Int) (k a : Nat) : Res Int := do
  let m ← goGet cdefDirections dir
  gget m (k : Int) (a : Int)

/-- internal/tilegroup/cdef.go:234-246 `cdefGetAt`; `py`, `px` are `y0 + i` and `x0 + j`, `F` is
`state.CurrFrame[plane]`. -/
def cdefGetAt (c : CdefCtx) (F : List (List Int)) (py px : Nat) (dir : Int) (k : Nat) (sign : Int) (subX subY : Nat) :
    Res (Option Int) := do
  let dy ← cdefDirGet dir k 0
  let dx ← cdefDirGet dir k 1
  let y := (py : Int) + sign * dy
  let x := (px : Int) + sign * dx
  if isInsideFilterRegion c ((y <<< subY) >>> (2 : Nat)) ((x <<< subX) >>> (2 : Nat)) then do
    let v ← gget F y x
    pure (some v)
  else pure none

/-- The accumulators `sum`, `max`, `min` of internal/tilegroup/cdef.go:206-209. -/
structure CdefAcc where
  sum : Int
  max : Int
  min : Int

/-- internal/tilegroup/cdef.go:213-218 and 221-226: one pixel `p` of the neighbourhood of the pixel `x`, if available. -/
def cdefTap (x damping str tap : Int) (p : Option Int) (a : CdefAcc) : Res CdefAcc :=
  match p with
  | none => pure a
  | some v => do
    let w ← constrain (v - x) str damping
    pure { sum := a.sum + tap * w
           max := maxI v a.max
           min := minI v a.min }

/-- internal/tilegroup/cdef.go:212-227: the body of the loops over `k` and `sign`.  Line 191 takes the bit depth for the
shift of the taps. -/
def cdefSide (c : CdefCtx) (F : List (List Int)) (py px : Nat) (priStr secStr damping dir : Int) (subX subY : Nat) (x : Int)
    (k : Nat) (sign : Int) (a : CdefAcc) : Res CdefAcc := do
  let p ← cdefGetAt c F py px dir k sign subX subY
  let tp ← gget cdefPriTaps ((priStr >>> c.bitDepth) % 2) (k : Int)
  let a ← cdefTap x damping priStr tp p a
  let ts ← gget cdefSecTaps ((priStr >>> c.bitDepth) % 2) (k : Int)
  let s ← cdefGetAt c F py px ((dir - 2) % 8) k sign subX subY
  let a ← cdefTap x damping secStr ts s a
  let s ← cdefGetAt c F py px ((dir + 2) % 8) k sign subX subY
  cdefTap x damping secStr ts s a

/-- internal/tilegroup/cdef.go:204-229: the new value of one pixel. -/
def cdefPixel (c : CdefCtx) (F : List (List Int)) (py px : Nat) (priStr secStr damping dir : Int) (subX subY : Nat) :
    Res Int := do
  let x ← gget F (py : Int) (px : Int)
  let side := cdefSide c F py px priStr secStr damping dir subX subY x
  let a ← side 0 (-1) { sum := 0, max := x, min := x }
  let a ← side 0 1 a
  let a ← side 1 (-1) a
  let a ← side 1 1 a
  pure (clip3 a.min a.max (x + ((8 + a.sum - (if a.sum < 0 then 1 else 0)) >>> (4 : Nat))))

/-- internal/tilegroup/cdef.go:184-232 `cdefFilter`; `F` is `state.CurrFrame[plane]`, `G` is `state.CdefFrame[plane]`. -/
def cdefFilter (c : CdefCtx) (plane : Nat) (r col : Nat) (priStr secStr damping dir : Int) (F G : List (List Int)) :
    Res (List (List Int)) :=
  let subX := if plane > 0 then c.subX else 0
  let subY := if plane > 0 then c.subY else 0
  let x0 := (col * 4) >>> subX
  let y0 := (r * 4) >>> subY
  forN (fun i G => forN (fun j G => do
    let v ← cdefPixel c F (y0 + i) (x0 + j) priStr secStr damping dir subX subY
    gset G ((y0 + i : Nat) : Int) ((x0 + j : Nat) : Int) v) (8 >>> subX) 0 G) (8 >>> subY) 0 G

/-- internal/tilegroup/cdef.go:33-37 and 43-48: the block of a plane is copied (`w` columns, `h` rows from `(y0, x0)`). -/
def cdefCopy (F : List (List Int)) (y0 x0 h w : Nat) (G : List (List Int)) : Res (List (List Int)) :=
  forN (fun i G => forN (fun j G => do
    let v ← gget F ((y0 + i : Nat) : Int) ((x0 + j : Nat) : Int)
    gset G ((y0 + i : Nat) : Int) ((x0 + j : Nat) : Int) v) w 0 G) h 0 G

/-- Update of `state.CdefFrame[plane]` from `state.CurrFrame[plane]`. -/
def cdefOnPlane (c : CdefCtx) (plane : Nat) (f : List (List Int) → List (List Int) → Res (List (List Int)))
    (out : List (List (List Int))) : Res (List (List (List Int))) := do
  let F ← goGet c.cur (plane : Int)
  let G ← goGet out (plane : Int)
  let G ← f F G
  goSet out (plane : Int) G

/-- internal/tilegroup/cdef.go:29-49: copying the block (the two chroma planes in turn instead of pixel by pixel: the
writes are to different arrays). -/
def cdefCopyBlock (c : CdefCtx) (r col : Nat) (out : List (List (List Int))) : Res (List (List (List Int))) := do
  let out ← cdefOnPlane c 0 (fun F G => cdefCopy F (r * 4) (col * 4) 8 8 G) out
  if c.numPlanes > 1 then do
    let y0 := (r * 4) >>> c.subY
    let y1 := (r * 4 + 8) >>> c.subY
    let x0 := (col * 4) >>> c.subX
    let x1 := (col * 4 + 8) >>> c.subX
    let out ← cdefOnPlane c 1 (fun F G => cdefCopy F y0 x0 (y1 - y0) (x1 - x0) G) out
    cdefOnPlane c 2 (fun F G => cdefCopy F y0 x0 (y1 - y0) (x1 - x0) G) out
  else pure out

/-- internal/tilegroup/cdef.go:56-59: `skip`, with Go's short-circuit evaluation. -/
def cdefSkip (skips : List (List Nat)) (r c : Nat) : Res Bool := do
  let a ← gget skips (r : Int) (c : Int)
  if a = 0 then pure false else do
    let a ← gget skips ((r + 1 : Nat) : Int) (c : Int)
    if a = 0 then pure false else do
      let a ← gget skips (r : Int) ((c + 1 : Nat) : Int)
      if a = 0 then pure false else do
        let a ← gget skips ((r + 1 : Nat) : Int) ((c + 1 : Nat) : Int)
        pure (a != 0)

/-- internal/tilegroup/cdef.go:73-78: `varStr`. -/
def cdefVarStr (var : Int) : Res Int :=
  if var >>> (6 : Nat) ≠ 0 then do
    let l ← floorLog2Int (var >>> (6 : Nat))
    pure (minI l 12)
  else pure 0

/-- internal/tilegroup/cdef.go:61-88: the luma part. -/
def cdefLuma (c : CdefCtx) (r col : Nat) (idx : Int) (yDir : Nat) (var : Int) (out : List (List (List Int))) :
    Res (List (List (List Int))) := do
  let p ← goGet c.yPri idx
  let s ← goGet c.ySec idx
  let priStr := p <<< (c.bitDepth - 8)
  let secStr := s <<< (c.bitDepth - 8)
  let dir : Nat := if priStr = 0 then 0 else yDir
  let varStr ← cdefVarStr var
  let priStr := if var ≠ 0 then (priStr * (4 + varStr) + 8) >>> (4 : Nat) else 0
  cdefOnPlane c 0 (cdefFilter c 0 r col priStr secStr (c.damping + (c.bitDepth - 8 : Nat)) dir) out

/-- internal/tilegroup/cdef.go:96-101: direction and damping for chroma; the damping is only reduced on line 100, in
the second branch. -/
def cdefChromaDir (c : CdefCtx) (priStr : Int) (yDir : Nat) : Res (Nat × Int) :=
  if priStr = 0 then pure (0, c.damping + (c.bitDepth - 8 : Nat))
  else do
    let m ← goGet cdefUvDir (c.subX : Int)
    let d ← gget m (c.subY : Int) (yDir : Int)
    pure (d, c.damping + (c.bitDepth - 8 : Nat) - 1)

/-- internal/tilegroup/cdef.go:90-104: the chroma part. -/
def cdefChroma (c : CdefCtx) (r col : Nat) (idx : Int) (yDir : Nat) (out : List (List (List Int))) :
    Res (List (List (List Int))) := do
  if c.numPlanes = 1 then pure out else do
    let p ← goGet c.uvPri idx
    let s ← goGet c.uvSec idx
    let priStr := p <<< (c.bitDepth - 8)
    let secStr := s <<< (c.bitDepth - 8)
    let dd ← cdefChromaDir c priStr yDir
    let out ← cdefOnPlane c 1 (cdefFilter c 1 r col priStr secStr dd.2 (dd.1 : Int)) out
    cdefOnPlane c 2 (cdefFilter c 2 r col priStr secStr dd.2 (dd.1 : Int)) out

/-- internal/tilegroup/cdef.go:27-105 `cdefBlock`; `out` is `state.CdefFrame`. -/
def cdefBlock (c : CdefCtx) (r col : Nat) (idx : Int) (out : List (List (List Int))) : Res (List (List (List Int))) := do
  let out ← cdefCopyBlock c r col out
  if idx = -1 then pure out else do
    let skip ← cdefSkip c.skips r col
    if skip then pure out else do
      let F ← goGet c.cur 0
      let d ← cdefDirection c.bitDepth F r col
      let out ← cdefLuma c r col idx d.1 d.2 out
      cdefChroma c r col idx d.1 out

/-- internal/tilegroup/cdef.go:11-25 `cdefProcess` (`step4` is 2, `cdefSize4` is 16). -/
def cdefProcess (c : CdefCtx) (out : List (List (List Int))) : Res (List (List (List Int))) :=
  forN (fun i out => forN (fun j out => do
    let idx ← gget c.cdefIdx ((2 * i / 16 * 16 : Nat) : Int) ((2 * j / 16 * 16 : Nat) : Int)
    cdefBlock c (2 * i) (2 * j) idx out) ((c.miCols + 1) / 2) 0 out) ((c.miRows + 1) / 2) 0 out

/-! ## The index of the CDEF parameters -/

/-- A Go slice: its elements and its capacity. -/
structure GoSlice (α : Type) where
  elems : List α := []
  cap : Nat := 0

/-- Go `append(s, x)`.  When the slice is full the runtime picks a new capacity, `grow` of the old one (larger than the
old length, whatever the runtime). -/
def GoSlice.append {α : Type} (grow : Nat → Nat) (s : GoSlice α) (x : α) : GoSlice α :=
  { elems := s.elems ++ [x], cap := if s.elems.length < s.cap then s.cap else max (s.elems.length + 1) (grow s.cap) }

/-- Loop of internal/cdef/cdef.go:9-11 and 13-15: `for cap(s) < n { s = append(s, x) }`; as every turn adds an element
and the capacity is at least the length, `n` turns are enough (`fuel`). -/
def GoSlice.growTo {α : Type} (grow : Nat → Nat) (n : Nat) (x : α) : Nat → GoSlice α → GoSlice α
  | 0, s => s
  | fuel + 1, s => if s.cap < n then GoSlice.growTo grow n x fuel (s.append grow x) else s

/-- Go `s[i] = v` on a slice. -/
def GoSlice.set {α : Type} (s : GoSlice α) (i : Int) (v : α) : Res (GoSlice α) := do
  let e ← goSet s.elems i v
  pure { s with elems := e }

/-- `state.Cdef.CdefIdx`. -/
abbrev CdefIdx := GoSlice (GoSlice Int)

/-- Go `s[i][j] = v`. -/
def cdefIdxSet (s : CdefIdx) (i j : Int) (v : Int) : Res CdefIdx := do
  let row ← goGet s.elems i
  let row ← row.set j v
  s.set i row

/-- Go `s[i][j]`. -/
def cdefIdxGet (s : CdefIdx) (i j : Int) : Res Int := do
  let row ← goGet s.elems i
  goGet row.elems j

/-- internal/cdef/cdef.go:8-25 `ClearCdef`.  Its caller (tile_group.go:761) passes `state.CdefSize4`, which is never
assigned, for `cdefSize4`. -/
def clearCdef (grow : Nat → Nat) (r c : Nat) (sb128 : Bool) (cdefSize4 : Nat) (s : CdefIdx) : Res CdefIdx := do
  let s := s.growTo grow (r + 1) {} (r + 1)
  let row ← goGet s.elems (r : Int)
  let s ← s.set (r : Int) (row.growTo grow (c + 1) 0 (c + 1))
  let s ← cdefIdxSet s r c (-1)
  if sb128 then do
    let s ← cdefIdxSet s r ((c + cdefSize4 : Nat) : Int) (-1)
    let s ← cdefIdxSet s ((r + cdefSize4 : Nat) : Int) c (-1)
    cdefIdxSet s ((r + cdefSize4 : Nat) : Int) ((c + cdefSize4 : Nat) : Int) (-1)
  else pure s

/-- The loops of intra_frame_mode_info.go:224-229: the inner loop tests and advances `i` instead of `j`, so from row `i`
on, column `c` is set in every sixteenth row before `c + w4`; then the outer loop goes on after these.  `fuel` bounds
the turns of the inner loop. -/
def readCdefInner (s : CdefIdx) (r c w4 : Nat) : Nat → Nat → Res (CdefIdx × Nat)
  | 0, i => .ok (s, i)
  | fuel + 1, i =>
    if i < c + w4 then do
      let x ← cdefIdxGet s r c
      let s ← cdefIdxSet s i c x
      readCdefInner s r c w4 fuel (i + 16)
    else .ok (s, i)

/-- The outer loop of intra_frame_mode_info.go:224-229. -/
def readCdefOuter (r c w4 h4 : Nat) : Nat → CdefIdx → Nat → Res CdefIdx
  | 0, s, _ => .ok s
  | fuel + 1, s, i =>
    if i < r + h4 then do
      let p ← readCdefInner s r c w4 (c + w4) i
      readCdefOuter r c w4 h4 fuel p.1 (p.2 + 16)
    else .ok s

/-- internal/tilegroup/intra_frame_mode_info.go:208-231 `readCdef`.  `off` is the condition of line 210,
`bits` is `state.Cdef.CdefBits`, which is never assigned (the bits of the frame header are `uh.CdefBits`). -/
def readCdef (off : Bool) (bits : Nat) (miRow miCol miSize : Nat) (s : CdefIdx) : Rd CdefIdx :=
  if off then pure s
  else do
    let r := miRow / 16 * 16
    let c := miCol / 16 * 16
    let old ← Rd.lift (cdefIdxGet s r c)
    if old = -1 then do
      let v ← Rd.lit (bits : Int)
      let s ← Rd.lift (cdefIdxSet s r c (v : Int))
      let w4 ← Rd.lift (goGet num4x4Wide (miSize : Int))
      let h4 ← Rd.lift (goGet num4x4High (miSize : Int))
      Rd.lift (readCdefOuter r c w4 h4 (h4 + 1) s r)
    else pure s

end Gov1
